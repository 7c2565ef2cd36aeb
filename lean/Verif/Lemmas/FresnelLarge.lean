import Mathlib.Analysis.Calculus.MeanValue
import Mathlib.Analysis.Calculus.Deriv.Inv
import Mathlib.Analysis.Real.Pi.Bounds
import Verif.Lemmas.FresnelSmall
import Verif.Lemmas.Ends

/-!
# Accuracy of `fresnel_8_inf`

The code's value and the Fresnel integral are compared through their derivatives:
the difference is tiny at `x = 8` and its derivative is bounded by an integrable
function.
-/

noncomputable section

namespace Poly

open Real Finset Spec

/-! ### The loops of `fresnel_8_inf` -/

theorem loop8i {arg th : ℝ} (harg : arg = cos (2 * th)) (k : ℕ) :
    (List.range' 2 k).foldl (SF.step8i arg)
      { E := SF.tab SF.chebev_e 0 * 1 + SF.tab SF.chebev_e 1 * arg
        F := SF.tab SF.chebev_f 0 * 1 + SF.tab SF.chebev_f 1 * arg
        m4 := 1, m2 := arg }
      = { E := ∑ i ∈ range (k + 2), SF.tab SF.chebev_e i * cos (2 * i * th)
          F := ∑ i ∈ range (k + 2), SF.tab SF.chebev_f i * cos (2 * i * th)
          m4 := cos (2 * k * th)
          m2 := cos (2 * (k + 1 : ℕ) * th) } := by
  subst harg
  induction k with
  | zero => simp [sum_range_succ]
  | succ k ih =>
    rw [List.range'_1_concat, List.foldl_append, ih, List.foldl_cons, List.foldl_nil]
    simp only [SF.step8i]
    rw [cos_step k th, show 2 + k = k + 2 by ring]
    rw [show k + 1 + 2 = (k + 2) + 1 by ring, sum_range_succ _ (k + 2), sum_range_succ _ (k + 2)]

theorem loop8i' {arg th : ℝ} (harg : arg = cos (2 * th)) (n : ℕ) (F : ℝ) (k : ℕ) :
    (List.range' (n + 2) k).foldl (SF.step8i' arg)
      { E := ∑ i ∈ range (n + 2), SF.tab SF.chebev_e i * cos (2 * i * th)
        F := F
        m4 := cos (2 * n * th)
        m2 := cos (2 * (n + 1 : ℕ) * th) }
      = { E := ∑ i ∈ range (n + 2 + k), SF.tab SF.chebev_e i * cos (2 * i * th)
          F := F
          m4 := cos (2 * (n + k : ℕ) * th)
          m2 := cos (2 * (n + k + 1 : ℕ) * th) } := by
  subst harg
  induction k with
  | zero => simp
  | succ k ih =>
    rw [List.range'_1_concat, List.foldl_append, ih, List.foldl_cons, List.foldl_nil]
    simp only [SF.step8i']
    rw [cos_step (n + k) th, show n + 2 + k = n + k + 2 by ring]
    rw [show n + 2 + (k + 1) = (n + k + 2) + 1 by ring, sum_range_succ _ (n + k + 2)]
    rfl

theorem sum_tab (l : List ℚ) (lI : List ℤ) (h : l = lI.map fun z : ℤ => (z : ℚ) / 10 ^ 20)
    {w th : ℝ} (hw : 2 * w - 1 = cos (2 * th)) (n : ℕ) (hn : lI.length = n) :
    ∑ i ∈ range n, SF.tab l i * cos (2 * i * th) = ev (psum lI [1] [-1, 2]) w / 10 ^ 20 := by
  rw [ev_psum]
  have e1 : ev [1] w = cos 0 := by simp [ev]
  have e2 : ev [-1, 2] w = cos (0 + 2 * th) := by
    rw [zero_add, ← hw]; simp [ev]; ring
  rw [e1, e2, hw, csum_cos, sum_div]
  refine sum_congr (by simp [hn]) fun i _ => ?_
  rw [tab_eq _ _ h]
  simp only [List.getD_eq_getElem?_getD, List.getElem?_map]
  rw [show 0 + (i:ℝ) * (2 * th) = 2 * i * th by ring]
  cases lI[i]? <;> simp; ring

theorem sums8i_eq {w : ℝ} (h0 : 0 ≤ w) (h1 : w ≤ 1) :
    SF.sums8i (2 * w - 1) = (ev (psum eI [1] [-1, 2]) w / 10 ^ 20,
      ev (psum fI [1] [-1, 2]) w / 10 ^ 20) := by
  obtain ⟨th, hth⟩ : ∃ th, 2 * w - 1 = cos (2 * th) :=
    ⟨arccos (2 * w - 1) / 2, by
      rw [show 2 * (arccos (2 * w - 1) / 2) = arccos (2 * w - 1) by ring,
        cos_arccos (by linarith) (by linarith)]⟩
  have hL := loop8i hth 33
  have hL' := loop8i' hth 33
  simp only [SF.sums8i, hL]
  have := hL' (∑ i ∈ range (33 + 2), SF.tab SF.chebev_f i * cos (2 * i * th)) 6
  norm_num only at this ⊢
  rw [this]
  rw [sum_tab _ _ chebev_e_eq hth 41 (by decide), sum_tab _ _ chebev_f_eq hth 35 (by decide)]
  norm_num only

/-! ### The comparison functions -/

/-- `w = (8 / x)²` as a function of `s`. -/
def wOf (s : ℝ) : ℝ := 256 / (π ^ 2 * s ^ 4)

abbrev Ep : List ℤ := psum eI [1] [-1, 2]
abbrev Fp : List ℤ := psum fI [1] [-1, 2]

def Pf (s : ℝ) : ℝ := ev Ep (wOf s) / 10 ^ 20 / (π ^ 2 * s ^ 3)
/-- `F` normalised to be `1` at infinity. -/
def Qf (s : ℝ) : ℝ := (ev Fp (wOf s) + 1) / 10 ^ 20 / (π * s)

def Ccode (s : ℝ) : ℝ := 1 / 2 - (Pf s * cos (π / 2 * s ^ 2) - Qf s * sin (π / 2 * s ^ 2))
def Scode (s : ℝ) : ℝ := 1 / 2 - (Pf s * sin (π / 2 * s ^ 2) + Qf s * cos (π / 2 * s ^ 2))

theorem hasDerivAt_wOf {s : ℝ} (hs : 0 < s) : HasDerivAt wOf (-4 * wOf s / s) s := by
  have hp := pi_pos
  have h := ((hasDerivAt_pow 4 s).const_mul (π ^ 2)).inv (by positivity) |>.const_mul 256
  refine (h.congr_deriv ?_)
  unfold wOf
  field_simp
  norm_num
  ring

theorem hasDerivAt_Pf {s : ℝ} (hs : 0 < s) :
    HasDerivAt Pf (-(wOf s * (3 * ev Ep (wOf s) + 4 * (wOf s * ev (pder Ep) (wOf s))) / 256 / 10 ^ 20))
      s := by
  have hp := pi_pos
  have h1 := (hasDerivAt_ev Ep (wOf s)).comp s (hasDerivAt_wOf hs)
  have h := (h1.div_const (10 ^ 20)).div ((hasDerivAt_pow 3 s).const_mul (π ^ 2)) (by positivity)
  refine h.congr_deriv ?_
  simp only [Function.comp]
  generalize ev (pder Ep) (wOf s) = e'
  generalize ev Ep (wOf s) = e
  unfold wOf
  field_simp
  ring

theorem hasDerivAt_Qf {s : ℝ} (hs : 0 < s) :
    HasDerivAt Qf (-(4 * (wOf s * ev (pder Fp) (wOf s)) + (ev Fp (wOf s) + 1)) / 10 ^ 20
      / (π * s ^ 2)) s := by
  have hp := pi_pos
  have h1 := (hasDerivAt_ev Fp (wOf s)).comp s (hasDerivAt_wOf hs)
  have h := ((h1.add_const 1).div_const (10 ^ 20)).div ((hasDerivAt_id' s).const_mul π) (by positivity)
  refine h.congr_deriv ?_
  simp only [Function.comp]
  generalize ev (pder Fp) (wOf s) = e'
  generalize ev Fp (wOf s) = e
  generalize wOf s = w
  field_simp
  ring

theorem Fp_split (w : ℝ) : ev Fp w = 10 ^ 20 - 1 + w * ev Fp.tail w := by
  have h : Fp = (10 ^ 20 - 1) :: Fp.tail := by
    have := f_head
    exact (List.cons_head?_tail (by simpa using this)).symm
  conv_lhs => rw [h]
  simp only [ev]
  push_cast
  ring

/-- The two defects. -/
def rho1 (s : ℝ) : ℝ := wOf s * ev (psum r1I [1] [-1, 2]) (wOf s) / 256 / 10 ^ 20
def rho2 (s : ℝ) : ℝ := (ev (psum r2I [1] [-1, 2]) (wOf s) - 1) / 10 ^ 20 / (π * s ^ 2)

theorem hasDerivAt_Ccode {s : ℝ} (hs : 0 < s) :
    HasDerivAt Ccode (cos (π / 2 * s ^ 2) + (rho1 s * cos (π / 2 * s ^ 2)
      + rho2 s * sin (π / 2 * s ^ 2))) s ∧
    HasDerivAt Scode (sin (π / 2 * s ^ 2) + (rho1 s * sin (π / 2 * s ^ 2)
      - rho2 s * cos (π / 2 * s ^ 2))) s := by
  have hp := pi_pos
  have hx : HasDerivAt (fun s => π / 2 * s ^ 2) (π * s) s :=
    ((hasDerivAt_pow 2 s).const_mul (π / 2)).congr_deriv (by norm_num; ring)
  have h1 : ev (psum r1I [1] [-1, 2]) (wOf s) = 256 * ev Fp.tail (wOf s)
      + (3 * ev Ep (wOf s) + 4 * (wOf s * ev (pder Ep) (wOf s))) := by
    rw [← r1_spec]; simp only [ev_padd, ev_psmul, ev]; push_cast; ring
  have h2 : ev (psum r2I [1] [-1, 2]) (wOf s) = ev Ep (wOf s) - ev Fp (wOf s)
      - 4 * (wOf s * ev (pder Fp) (wOf s)) := by
    rw [← r2_spec]; simp only [ev_padd, ev_psmul, ev]; push_cast; ring
  have hF := Fp_split (wOf s)
  have e1 : Qf s * (π * s) = 1 + wOf s * ev Fp.tail (wOf s) / 10 ^ 20 := by
    unfold Qf; rw [hF]; field_simp; ring
  have e2 : Pf s * (π * s) = ev Ep (wOf s) / 10 ^ 20 / (π * s ^ 2) := by
    unfold Pf; field_simp
  constructor
  · have h := ((((hasDerivAt_Pf hs).mul hx.cos).sub ((hasDerivAt_Qf hs).mul hx.sin)).const_sub (1 / 2))
    refine h.congr_deriv ?_
    simp only [rho1, rho2, h1, h2]
    linear_combination cos (π / 2 * s ^ 2) * e1 + sin (π / 2 * s ^ 2) * e2
  · have h := ((((hasDerivAt_Pf hs).mul hx.sin).add ((hasDerivAt_Qf hs).mul hx.cos)).const_sub (1 / 2))
    refine h.congr_deriv ?_
    simp only [rho1, rho2, h1, h2]
    linear_combination sin (π / 2 * s ^ 2) * e1 - cos (π / 2 * s ^ 2) * e2

/-! ### Bounds on the defects -/

theorem rho_bound {s : ℝ} (hs : 0 < s) (h8 : 8 ≤ π / 2 * s ^ 2) :
    |rho1 s| + |rho2 s| ≤ 15 / 10 ^ 17 / s ^ 2 := by
  have hp := pi_pos
  have hp3 := pi_gt_d4
  have hw0 : 0 ≤ wOf s := by unfold wOf; positivity
  have hs2 : 16 ≤ π * s ^ 2 := by linarith
  have hps : 256 ≤ π ^ 2 * s ^ 4 := by
    have : (π * s ^ 2) ^ 2 = π ^ 2 * s ^ 4 := by ring
    nlinarith
  have hw1 : wOf s ≤ 1 := by
    unfold wOf; rw [div_le_one (by positivity)]; exact hps
  have b1 := abs_ev_psum_le hw0 hw1 r1I
  have b2 := abs_ev_psum_le hw0 hw1 r2I
  have l1r : l1 r1I = 620896 := by decide +kernel
  have l2r : l1 r2I = 6711 := by decide +kernel
  rw [l1r] at b1
  rw [l2r] at b2
  push_cast at b1 b2
  have hw : wOf s ≤ 256 / 50 / s ^ 2 := by
    unfold wOf
    rw [div_div, div_le_div_iff₀ (by positivity) (by positivity)]
    have : 50 * s ^ 2 ≤ π ^ 2 * s ^ 4 := by
      have h1 : 50 ≤ π * (π * s ^ 2) := by nlinarith
      have h2 : π ^ 2 * s ^ 4 = π * (π * s ^ 2) * s ^ 2 := by ring
      rw [h2]
      exact mul_le_mul_of_nonneg_right h1 (by positivity)
    linarith
  have c1 : |rho1 s| ≤ 620896 / 50 / 10 ^ 20 / s ^ 2 := by
    unfold rho1
    rw [abs_div, abs_div, abs_mul, abs_of_nonneg hw0]
    rw [abs_of_pos (show (0:ℝ) < 256 by norm_num), abs_of_pos (show (0:ℝ) < 10 ^ 20 by norm_num)]
    have : wOf s * |ev (psum r1I [1] [-1, 2]) (wOf s)| ≤ 256 / 50 / s ^ 2 * 620896 :=
      mul_le_mul hw b1 (abs_nonneg _) (by positivity)
    calc _ ≤ 256 / 50 / s ^ 2 * 620896 / 256 / 10 ^ 20 := by gcongr
      _ = _ := by field_simp
  have c2 : |rho2 s| ≤ 6712 / 3 / 10 ^ 20 / s ^ 2 := by
    unfold rho2
    rw [abs_div, abs_div, abs_of_pos (show (0:ℝ) < 10 ^ 20 by norm_num),
      abs_of_pos (show 0 < π * s ^ 2 by positivity)]
    have : |ev (psum r2I [1] [-1, 2]) (wOf s) - 1| ≤ 6712 := by
      rw [abs_le] at b2 ⊢; constructor <;> linarith [b2.1, b2.2]
    calc _ ≤ 6712 / 10 ^ 20 / (3 * s ^ 2) := by gcongr; linarith
      _ = _ := by field_simp
  calc _ ≤ 620896 / 50 / 10 ^ 20 / s ^ 2 + 6712 / 3 / 10 ^ 20 / s ^ 2 := add_le_add c1 c2
    _ = (620896 / 50 / 10 ^ 20 + 6712 / 3 / 10 ^ 20) / s ^ 2 := by ring
    _ ≤ _ := by gcongr; norm_num

theorem le_of_deriv_nonneg {f f' : ℝ → ℝ} {a b : ℝ} (hab : a ≤ b)
    (h : ∀ x, a ≤ x → x ≤ b → HasDerivAt f (f' x) x) (h0 : ∀ x, a ≤ x → x ≤ b → 0 ≤ f' x) :
    f a ≤ f b := by
  have hm : MonotoneOn f (Set.Icc a b) := by
    refine monotoneOn_of_deriv_nonneg (convex_Icc a b)
      (fun x hx => (h x hx.1 hx.2).continuousAt.continuousWithinAt)
      (fun x hx => ?_) (fun x hx => ?_)
    · rw [interior_Icc] at hx
      exact (h x hx.1.le hx.2.le).differentiableAt.differentiableWithinAt
    · rw [interior_Icc] at hx
      rw [(h x hx.1.le hx.2.le).deriv]; exact h0 x hx.1.le hx.2.le
  exact hm (Set.left_mem_Icc.2 hab) (Set.right_mem_Icc.2 hab) hab

/-- If `|D'| ≤ K / s²` then `D` moves by at most `K / a`. -/
theorem drift_bound {D D' : ℝ → ℝ} {a b K : ℝ} (ha : 0 < a) (hab : a ≤ b) (hK : 0 ≤ K)
    (h : ∀ x, a ≤ x → x ≤ b → HasDerivAt D (D' x) x)
    (hb : ∀ x, a ≤ x → x ≤ b → |D' x| ≤ K / x ^ 2) : |D b - D a| ≤ K / a := by
  have hG : ∀ x, a ≤ x → HasDerivAt (fun x : ℝ => -K * x⁻¹) (K / x ^ 2) x := by
    intro x hx
    have := (hasDerivAt_inv (show x ≠ 0 by linarith)).const_mul (-K)
    exact this.congr_deriv (by ring)
  have h1 := le_of_deriv_nonneg (f := fun x => -K * x⁻¹ + D x) (f' := fun x => K / x ^ 2 + D' x) hab
    (fun x h1 h2 => (hG x h1).add (h x h1 h2))
    (fun x h1 h2 => by linarith [(abs_le.1 (hb x h1 h2)).1])
  have h2 := le_of_deriv_nonneg (f := fun x => -K * x⁻¹ - D x) (f' := fun x => K / x ^ 2 - D' x) hab
    (fun x h1 h2 => (hG x h1).sub (h x h1 h2))
    (fun x h1 h2 => by linarith [(abs_le.1 (hb x h1 h2)).2])
  have hb0 : 0 ≤ K * b⁻¹ := mul_nonneg hK (inv_nonneg.2 (by linarith))
  rw [abs_le, div_eq_mul_inv]
  constructor <;> linarith

/-! ### The value at `x = 8` -/

theorem ev_one (l : List ℤ) : ev l 1 = (l.sum : ℝ) := by
  induction l with
  | nil => simp [ev]
  | cons a l ih => simp [ev, ih]

theorem cos8_bound : |cos 8 - (-0.1455000338086135258699)| ≤ 2 / 10 ^ 20 := by
  have h := (taylor_8 (z := 8) (by norm_num)).1
  have h2 : |cosT 26 8 - (-0.1455000338086135258699)| ≤ 1 / 10 ^ 20 := by
    simp only [cosT, sum_range_succ, sum_range_zero, Nat.factorial]
    rw [abs_le]; constructor <;> norm_num
  rw [abs_le] at *
  constructor <;> linarith [h.1, h.2, h2.1, h2.2]

theorem sin8_bound : |sin 8 - 0.9893582466233817778080| ≤ 2 / 10 ^ 20 := by
  have h := (taylor_8 (z := 8) (by norm_num)).2
  have h2 : |sinT 26 8 - 0.9893582466233817778080| ≤ 1 / 10 ^ 20 := by
    simp only [sinT, sum_range_succ, sum_range_zero, Nat.factorial]
    rw [abs_le]; constructor <;> norm_num
  rw [abs_le] at *
  constructor <;> linarith [h.1, h.2, h2.1, h2.2]

theorem sqrtpi_bound : 1.7724538509055160272 ≤ √π ∧ √π ≤ 1.77245385090551602735 := by
  constructor
  · apply le_sqrt_of_sq_le
    have := pi_gt_d20
    norm_num at this ⊢
    linarith
  · rw [sqrt_le_iff]
    have := pi_lt_d20
    norm_num at this ⊢
    linarith

/-- The argument `s` for which `x = 8`. -/
def s8 : ℝ := 4 / √π

theorem s8_pos : 0 < s8 := by unfold s8; have := pi_pos; positivity

theorem s8_sq : s8 ^ 2 = 16 / π := by
  unfold s8; rw [div_pow, sq_sqrt pi_pos.le]; norm_num

theorem x_s8 : π / 2 * s8 ^ 2 = 8 := by
  rw [s8_sq]; have := pi_pos; field_simp; norm_num

theorem w_s8 : wOf s8 = 1 := by
  unfold wOf
  rw [show s8 ^ 4 = (s8 ^ 2) ^ 2 by ring, s8_sq]
  have := pi_pos; field_simp; norm_num

theorem sumE : Ep.sum = 95134219656166780272 := by decide +kernel
theorem sumF : Fp.sum = 98949886611157641807 := by decide +kernel
theorem sumA : (psum aI [1] [-1, 2]).sum = 56656597939165136370 := by decide +kernel
theorem sumB : (psum bI [1] [-3, 4]).sum = 45375670997666039433 := by decide +kernel

theorem s8_bounds : 2.25 ≤ s8 ∧ s8 ≤ 2.26 := by
  have h := sqrtpi_bound
  have hp : 0 < √π := by linarith [h.1]
  unfold s8
  constructor
  · rw [le_div_iff₀ hp]; linarith [h.2]
  · rw [div_le_iff₀ hp]; linarith [h.1]

theorem match_s8 : |Ccode s8 - fresnelC s8| ≤ 1 / 10 ^ 18 ∧ |Scode s8 - fresnelS s8| ≤ 1 / 10 ^ 18 := by
  have hsp := sqrtpi_bound
  have hp : 0 < √π := by linarith [hsp.1]
  have hpi := pi_pos
  have hx : π / 2 * s8 * s8 = 8 := by rw [← x_s8]; ring
  have hsm := fresnel_0_8_accurate s8_pos.le hx.le
  have hsc := scale08 s8_pos.le
  obtain ⟨hA, hB⟩ := sums08_eq (x := 8) (by norm_num) le_rfl
  rw [hx] at hsm hsc
  have hss : √π * √π = π := mul_self_sqrt hpi.le
  have hP : Pf s8 = 95134219656166780272 / 10 ^ 20 / (64 * √π) := by
    unfold Pf
    rw [w_s8, ev_one, sumE, show π ^ 2 * s8 ^ 3 = 64 * √π by
      rw [show s8 ^ 3 = s8 ^ 2 * s8 by ring, s8_sq]; unfold s8
      field_simp
      rw [sq, hss]; ring]
    norm_num
  have hQ : Qf s8 = 98949886611157641808 / 10 ^ 20 / (4 * √π) := by
    unfold Qf
    rw [w_s8, ev_one, sumF, show π * s8 = 4 * √π by
      unfold s8; field_simp; rw [sq, hss]]
    norm_num
  have hc := abs_le.1 cos8_bound
  have hs := abs_le.1 sin8_bound
  have hb := s8_bounds
  have key : ∀ v : ℝ, |√π * v| ≤ 1 / 10 ^ 19 * 2 → |v| ≤ 2 / 10 ^ 19 := by
    intro v hv
    rw [abs_mul, abs_of_pos hp] at hv
    nlinarith [abs_nonneg v, hsp.1]
  constructor
  · have h2 := hsm.2
    simp only [SF.fresnel_0_8] at h2
    rw [hsc, hA, show ((8:ℝ) / 8) ^ 2 = 1 by norm_num, ev_one, sumA] at h2
    have h3 : |Ccode s8 - s8 / 2 * (((56656597939165136370 : ℤ) : ℝ) / 10 ^ 20)| ≤ 2 / 10 ^ 19 := by
      apply key
      unfold Ccode
      rw [x_s8, hP, hQ]
      have e : √π * (1 / 2 - (95134219656166780272 / 10 ^ 20 / (64 * √π) * cos 8 -
          98949886611157641808 / 10 ^ 20 / (4 * √π) * sin 8)
          - s8 / 2 * (((56656597939165136370 : ℤ) : ℝ) / 10 ^ 20))
          = √π / 2 - (95134219656166780272 / 10 ^ 20 / 64 * cos 8 -
          98949886611157641808 / 10 ^ 20 / 4 * sin 8) - 2 * (56656597939165136370 / 10 ^ 20) := by
        unfold s8; field_simp; push_cast; ring
      rw [e, abs_le]
      constructor <;> linarith [hc.1, hc.2, hs.1, hs.2, hsp.1, hsp.2]
    rw [abs_le] at *
    constructor <;> linarith [h2.1, h2.2, h3.1, h3.2, hb.1, hb.2]
  · have h2 := hsm.1
    simp only [SF.fresnel_0_8] at h2
    rw [hsc, hB, show ((8:ℝ) / 8) ^ 2 = 1 by norm_num, ev_one, sumB, div_self (by norm_num),
      one_mul] at h2
    have h3 : |Scode s8 - s8 / 2 * (((45375670997666039433 : ℤ) : ℝ) / 10 ^ 20)| ≤ 2 / 10 ^ 19 := by
      apply key
      unfold Scode
      rw [x_s8, hP, hQ]
      have e : √π * (1 / 2 - (95134219656166780272 / 10 ^ 20 / (64 * √π) * sin 8 +
          98949886611157641808 / 10 ^ 20 / (4 * √π) * cos 8)
          - s8 / 2 * (((45375670997666039433 : ℤ) : ℝ) / 10 ^ 20))
          = √π / 2 - (95134219656166780272 / 10 ^ 20 / 64 * sin 8 +
          98949886611157641808 / 10 ^ 20 / 4 * cos 8) - 2 * (45375670997666039433 / 10 ^ 20) := by
        unfold s8; field_simp; push_cast; ring
      rw [e, abs_le]
      constructor <;> linarith [hc.1, hc.2, hs.1, hs.2, hsp.1, hsp.2]
    rw [abs_le] at *
    constructor <;> linarith [h2.1, h2.2, h3.1, h3.2, hb.1, hb.2]

/-! ### The bound -/

theorem hasDerivAt_fresnelC (s : ℝ) : HasDerivAt fresnelC (cos (π / 2 * s ^ 2)) s :=
  intervalIntegral.integral_hasDerivAt_right (Continuous.intervalIntegrable (by fun_prop) _ _)
    (Continuous.stronglyMeasurableAtFilter (by fun_prop) _ _) (Continuous.continuousAt (by fun_prop))

theorem hasDerivAt_fresnelS (s : ℝ) : HasDerivAt fresnelS (sin (π / 2 * s ^ 2)) s :=
  intervalIntegral.integral_hasDerivAt_right (Continuous.intervalIntegrable (by fun_prop) _ _)
    (Continuous.stronglyMeasurableAtFilter (by fun_prop) _ _) (Continuous.continuousAt (by fun_prop))

theorem code_bound {s : ℝ} (hs : s8 ≤ s) :
    |Ccode s - fresnelC s| ≤ 7 / 10 ^ 17 ∧ |Scode s - fresnelS s| ≤ 7 / 10 ^ 17 := by
  have h8 := s8_pos
  have hb := s8_bounds
  have hx : ∀ x, s8 ≤ x → 8 ≤ π / 2 * x ^ 2 := by
    intro x hx
    rw [← x_s8]
    have := pi_pos
    gcongr
  have hK : (15 : ℝ) / 10 ^ 17 / s8 ≤ 6.7 / 10 ^ 17 := by
    rw [div_le_iff₀ h8]; nlinarith [hb.1]
  have m := match_s8
  constructor
  · have h := drift_bound (D := fun x => Ccode x - fresnelC x)
      (D' := fun x => rho1 x * cos (π / 2 * x ^ 2) + rho2 x * sin (π / 2 * x ^ 2)) h8 hs
      (by norm_num : (0:ℝ) ≤ 15 / 10 ^ 17)
      (fun x h1 _ => ((hasDerivAt_Ccode (by linarith)).1.sub (hasDerivAt_fresnelC x)).congr_deriv
        (by ring))
      (fun x h1 _ => by
        refine le_trans ?_ (rho_bound (s := x) (by linarith) (hx x h1))
        refine (abs_add_le _ _).trans ?_
        rw [abs_mul, abs_mul]
        exact add_le_add (mul_le_of_le_one_right (abs_nonneg _) (abs_cos_le_one _))
          (mul_le_of_le_one_right (abs_nonneg _) (abs_sin_le_one _)))
    have m1 := m.1
    rw [abs_le] at *
    constructor <;> linarith [h.1, h.2, m1.1, m1.2]
  · have h := drift_bound (D := fun x => Scode x - fresnelS x)
      (D' := fun x => rho1 x * sin (π / 2 * x ^ 2) - rho2 x * cos (π / 2 * x ^ 2)) h8 hs
      (by norm_num : (0:ℝ) ≤ 15 / 10 ^ 17)
      (fun x h1 _ => ((hasDerivAt_Ccode (by linarith)).2.sub (hasDerivAt_fresnelS x)).congr_deriv
        (by ring))
      (fun x h1 _ => by
        refine le_trans ?_ (rho_bound (s := x) (by linarith) (hx x h1))
        refine (abs_sub _ _).trans ?_
        rw [abs_mul, abs_mul]
        exact add_le_add (mul_le_of_le_one_right (abs_nonneg _) (abs_sin_le_one _))
          (mul_le_of_le_one_right (abs_nonneg _) (abs_cos_le_one _)))
    have m1 := m.2
    rw [abs_le] at *
    constructor <;> linarith [h.1, h.2, m1.1, m1.2]

theorem scale8i {s : ℝ} (hs : 0 < s) (v : ℝ) :
    1 / √(2 * π) * v / √(π / 2 * s * s) = v / (π * s) := by
  have hp := pi_pos
  rw [show π / 2 * s * s = (2 * π) * (s / 2) ^ 2 by ring,
    sqrt_mul (show (0:ℝ) ≤ 2 * π by positivity) ((s / 2) ^ 2), sqrt_sq (by linarith)]
  have h2 : √(2 * π) * √(2 * π) = 2 * π := mul_self_sqrt (by positivity)
  have : 0 < √(2 * π) := sqrt_pos.2 (by positivity)
  generalize √(2 * π) = r at *
  field_simp
  rw [sq, h2]; ring

/-- `fresnel_8_inf` is accurate to `8e-17`. -/
theorem fresnel_8_inf_accurate {s : ℝ} (hs : 0 ≤ s) (hx : 8 < π / 2 * s * s) :
    |(SF.fresnel_8_inf (π / 2 * s * s)).1 - fresnelS s| ≤ 8 / 10 ^ 17 ∧
    |(SF.fresnel_8_inf (π / 2 * s * s)).2 - fresnelC s| ≤ 8 / 10 ^ 17 := by
  have hp := pi_pos
  have hs0 : 0 < s := by
    rcases hs.lt_or_eq with h | h
    · exact h
    · subst h; norm_num at hx
  have hss : s8 ≤ s := by
    have h1 : s8 ^ 2 ≤ s ^ 2 := by
      have := x_s8
      have h3 : π / 2 * s8 ^ 2 ≤ π / 2 * s ^ 2 := by rw [this]; nlinarith
      exact le_of_mul_le_mul_left h3 (by positivity)
    exact le_of_sq_le_sq h1 hs
  have hb := s8_bounds
  have hw : 128 / (π / 2 * s * s * (π / 2 * s * s)) - 1 = 2 * wOf s - 1 := by
    unfold wOf; field_simp; ring
  have hw0 : 0 ≤ wOf s := by unfold wOf; positivity
  have hw1 : wOf s ≤ 1 := by
    unfold wOf; rw [div_le_one (by positivity)]
    have : π ^ 2 * s ^ 4 = 4 * (π / 2 * s * s) ^ 2 := by ring
    rw [this]; nlinarith
  have cb := code_bound hss
  have hsmall : |1 / 10 ^ 20 / (π * s)| ≤ 1 / 10 ^ 20 := by
    rw [abs_of_nonneg (by positivity)]
    apply div_le_self (by norm_num)
    nlinarith [pi_gt_three]
  have ex : π / 2 * s * s = π / 2 * s ^ 2 := by ring
  simp only [SF.fresnel_8_inf]
  rw [hw, sums8i_eq hw0 hw1]
  simp only
  rw [scale8i hs0, scale8i hs0]
  have eS : 0.5 - (ev Ep (wOf s) / 10 ^ 20 * sin (π / 2 * s * s) / (2 * (π / 2 * s * s))
      + ev Fp (wOf s) / 10 ^ 20 * cos (π / 2 * s * s)) / (π * s)
      = Scode s + 1 / 10 ^ 20 / (π * s) * cos (π / 2 * s ^ 2) := by
    rw [ex]; unfold Scode Pf Qf; norm_num only; field_simp; ring
  have eC : 0.5 - (ev Ep (wOf s) / 10 ^ 20 * cos (π / 2 * s * s) / (2 * (π / 2 * s * s))
      - ev Fp (wOf s) / 10 ^ 20 * sin (π / 2 * s * s)) / (π * s)
      = Ccode s - 1 / 10 ^ 20 / (π * s) * sin (π / 2 * s ^ 2) := by
    rw [ex]; unfold Ccode Pf Qf; norm_num only; field_simp; ring
  rw [eS, eC]
  have h1 : |1 / 10 ^ 20 / (π * s) * cos (π / 2 * s ^ 2)| ≤ 1 / 10 ^ 20 := by
    rw [abs_mul]
    exact (mul_le_of_le_one_right (abs_nonneg _) (abs_cos_le_one _)).trans hsmall
  have h2 : |1 / 10 ^ 20 / (π * s) * sin (π / 2 * s ^ 2)| ≤ 1 / 10 ^ 20 := by
    rw [abs_mul]
    exact (mul_le_of_le_one_right (abs_nonneg _) (abs_sin_le_one _)).trans hsmall
  obtain ⟨c1, c2⟩ := cb
  rw [abs_le] at c1 c2 h1 h2
  constructor <;> rw [abs_le] <;> constructor <;>
    linarith [c1.1, c1.2, c2.1, c2.2, h1.1, h1.2, h2.1, h2.2]

theorem fresnelC_neg (s : ℝ) : fresnelC (-s) = -fresnelC s := by
  unfold fresnelC
  have := intervalIntegral.integral_comp_neg (a := 0) (b := s) (fun u : ℝ => cos (π / 2 * u ^ 2))
  simp only [neg_sq, neg_zero] at this
  rw [this, intervalIntegral.integral_symm]

theorem fresnelS_neg (s : ℝ) : fresnelS (-s) = -fresnelS s := by
  unfold fresnelS
  have := intervalIntegral.integral_comp_neg (a := 0) (b := s) (fun u : ℝ => sin (π / 2 * u ^ 2))
  simp only [neg_sq, neg_zero] at this
  rw [this, intervalIntegral.integral_symm]

theorem fresnel_accurate_nonneg {s : ℝ} (hs : 0 ≤ s) :
    |(SF.fresnel s).1 - fresnelS s| ≤ 8 / 10 ^ 17 ∧
    |(SF.fresnel s).2 - fresnelC s| ≤ 8 / 10 ^ 17 := by
  unfold SF.fresnel
  simp only [not_lt.2 hs, if_false]
  split_ifs with h
  · have hb := fresnel_0_8_accurate hs h
    have : s ≤ 3 := by
      by_contra hc
      push Not at hc
      nlinarith [pi_gt_three, mul_pos (by linarith : (0:ℝ) < s - 3) (by linarith : (0:ℝ) < s)]
    constructor
    · exact hb.1.trans (by linarith)
    · exact hb.2.trans (by linarith)
  · exact fresnel_8_inf_accurate hs (not_le.1 h)

theorem fresnel_accurate (s : ℝ) :
    |(SF.fresnel s).1 - fresnelS s| ≤ 8 / 10 ^ 17 ∧
    |(SF.fresnel s).2 - fresnelC s| ≤ 8 / 10 ^ 17 := by
  rcases le_total 0 s with hs | hs
  · exact fresnel_accurate_nonneg hs
  · have h := fresnel_accurate_nonneg (s := -s) (by linarith)
    rw [SF.fresnel_neg, fresnelC_neg, fresnelS_neg] at h
    simp only [neg_sub_neg] at h
    rw [abs_sub_comm, abs_sub_comm (fresnelC s)] at h
    exact h

end Poly
