import Verif.Lemmas.HcSampling
import Verif.Lemmas.DubinsSpace

/-!
# Complex frames and the library's own integration of turns
-/

noncomputable section

namespace Spec

open Real

/-- Position as a complex number. -/
def Config.pos (p : Config) : ℂ := ⟨p.x, p.y⟩

/-- Unit vector of a heading. -/
def cis (t : ℝ) : ℂ := ⟨cos t, sin t⟩

theorem cis_add (a b : ℝ) : cis (a + b) = cis a * cis b := by
  apply Complex.ext
  · simp [cis, cos_add]
  · simp [cis, sin_add]; ring

theorem cis_zero : cis 0 = 1 := by apply Complex.ext <;> simp [cis]

theorem cis_neg_mul (a : ℝ) : cis (-a) * cis a = 1 := by rw [← cis_add, neg_add_cancel, cis_zero]

theorem cis_mul_neg (a : ℝ) : cis a * cis (-a) = 1 := by rw [← cis_add, add_neg_cancel, cis_zero]

theorem AngleEq.cis_eq {a b : ℝ} (h : AngleEq a b) : cis a = cis b := by
  unfold cis; rw [h.cos_eq, h.sin_eq]

theorem cis_inj {a b : ℝ} (h : cis a = cis b) : AngleEq a b :=
  AngleEq.of_cos_sin (by have := congrArg Complex.re h; simpa [cis] using this)
    (by have := congrArg Complex.im h; simpa [cis] using this)

theorem norm_cis (a : ℝ) : ‖cis a‖ = 1 := by
  unfold cis; rw [← sqrt_eq_norm, cos_sq_add_sin_sq, sqrt_one]

theorem cis_ne_zero (a : ℝ) : cis a ≠ 0 := by
  intro h; have := norm_cis a; rw [h, norm_zero] at this; norm_num at this

theorem cis_pi : cis π = -1 := by apply Complex.ext <;> simp [cis]

theorem cis_pi_div_two : cis (π / 2) = Complex.I := by apply Complex.ext <;> simp [cis]

theorem Config.dist_eq (p q : Config) : p.dist q = ‖p.pos - q.pos‖ := by
  unfold Config.dist; rw [sqrt_eq_norm]; rfl

theorem sameConfig_iff {p q : Config} :
    SameConfig p q ↔ p.pos = q.pos ∧ AngleEq p.theta q.theta := by
  unfold SameConfig Config.pos
  rw [Complex.ext_iff, and_assoc]

/-- The point with coordinates `a`, `b` in the frame of `p`. -/
def cen (a b : ℝ) (p : Config) : ℂ := p.pos + cis p.theta * ⟨a, b⟩

theorem cen_congr {a b : ℝ} {p q : Config} (h : SameConfig p q) : cen a b p = cen a b q := by
  rw [sameConfig_iff] at h
  unfold cen; rw [h.1, h.2.cis_eq]

theorem same_of_cen {a b : ℝ} {p q : Config} (h : cen a b p = cen a b q)
    (ht : AngleEq p.theta q.theta) : SameConfig p q := by
  rw [sameConfig_iff]
  refine ⟨?_, ht⟩
  unfold cen at h
  rw [ht.cis_eq] at h
  exact add_right_cancel h

theorem dist_of_cen {a b : ℝ} {p q : Config} (ht : AngleEq p.theta q.theta) :
    p.dist q = ‖cen a b p - cen a b q‖ := by
  rw [Config.dist_eq]
  unfold cen
  rw [ht.cis_eq, add_sub_add_right_eq_sub]

/-! ### Library integration of whole segments -/

/-- End of a segment as computed by the library's closed formulas. -/
def libArrive (c : Segment) (p : Config) : Config :=
  if c.sigma = 0 then arrive c.dir c.kappa 0 |c.len| p
  else
    let e := SF.end_of_clothoid p.x p.y p.theta c.kappa c.sigma c.dir |c.len|
    ⟨e.x, e.y, e.theta⟩

/-- End of a list of segments as computed by the library's closed formulas. -/
def libAll : List Segment → Config → Config
  | [], p => p
  | c :: cs, p => libAll cs (libArrive c p)

theorem dir_pm (c : Segment) : c.dir = 1 ∨ c.dir = -1 := by
  unfold Segment.dir; split_ifs <;> simp

theorem libAll_append (a b : List Segment) (p : Config) :
    libAll (a ++ b) p = libAll b (libAll a p) := by
  induction a generalizing p with
  | nil => rfl
  | cons c cs ih => exact ih _

theorem libArrive_near (c : Segment) (p : Config) :
    Near (segTol c) (arrive c.dir c.kappa c.sigma |c.len| p) (libArrive c p) := by
  unfold libArrive segTol
  split_ifs with h
  · rw [h]; exact Near.of_same le_rfl (SameConfig.refl _)
  · refine ⟨?_, ?_⟩
    · rw [Config.dist_comm]
      exact clothoid_accurate h (dir_pm c) p.x p.y p.theta c.kappa |c.len|
    · refine AngleEq.symm ((SF.pify_angleEq _).trans (AngleEq.of_eq ?_))
      simp only [arrive, heading]; ring

theorem libAll_near {cs : List Segment} {p q : Config} {e : ℝ} (h : Near e p q) :
    Near (e + pathTol cs) (arriveAll cs p) (libAll cs q) := by
  induction cs generalizing p q e with
  | nil => simpa [pathTol, arriveAll, libAll] using h
  | cons c cs ih =>
    have := ih (h.arrive.trans (libArrive_near c q))
    rw [show e + pathTol (c :: cs) = e + segTol c + pathTol cs by
      simp only [pathTol, List.map_cons, List.sum_cons]; ring]
    exact this

theorem libArrive_congr (c : Segment) {p q : Config} (h : SameConfig p q) :
    SameConfig (libArrive c p) (libArrive c q) := by
  unfold libArrive
  split_ifs with h0
  · exact arrive_congr h
  · obtain ⟨hx, hy, ht⟩ := h
    have := SF.clothoid_congr (x := q.x) (y := q.y) (kappa := c.kappa) (sigma := c.sigma)
      (d := c.dir) (a := |c.len|) ht
    rw [← hx, ← hy] at this
    rw [← hx, ← hy]
    exact ⟨this.1, this.2.1, this.2.2.1⟩

theorem libAll_congr {cs : List Segment} {p q : Config} (h : SameConfig p q) :
    SameConfig (libAll cs p) (libAll cs q) := by
  induction cs generalizing p q with
  | nil => exact h
  | cons c cs ih => exact ih (libArrive_congr c h)

theorem dir_of_pos {d L k s : ℝ} (hd : d = 1 ∨ d = -1) (hL : 0 < L) :
    (⟨d * L, k, s⟩ : Segment).dir = d := by
  unfold Segment.dir
  rcases hd with rfl | rfl
  · rw [if_neg]; simp; linarith
  · rw [if_pos]; simp; linarith

theorem abs_pm_mul {d L : ℝ} (hd : d = 1 ∨ d = -1) (hL : 0 ≤ L) : |d * L| = L := by
  rcases hd with rfl | rfl <;> simp [abs_of_nonneg hL]

theorem sgn_pm_mul {l s : ℝ} (hl : l = 1 ∨ l = -1) (hs : 0 < s) : SF.sgn (l * s) = l := by
  unfold SF.sgn
  rcases hl with rfl | rfl
  · rw [if_neg]; simp; linarith
  · rw [if_pos]; simp; linarith

theorem seg_dir_mul_abs (len k s : ℝ) : (⟨len, k, s⟩ : Segment).dir * |len| = len := by
  unfold Segment.dir
  dsimp only
  split_ifs with h
  · rw [abs_of_neg h]; ring
  · rw [abs_of_nonneg (not_lt.1 h)]; ring

/-- Fresnel argument of a clothoid of sharpness `s` and length `L` that starts straight. -/
def cArg (s L : ℝ) : ℝ := 1 / √π * (1 / √s) * (s * L)

/-- Scale of a clothoid. -/
def cScale (s : ℝ) : ℝ := √π * (1 / √s)

/-- A clothoid that starts straight. -/
theorem lib_clothoid_in {d l s L : ℝ} (hd : d = 1 ∨ d = -1) (hl : l = 1 ∨ l = -1) (hs : 0 < s)
    (hL : 0 < L) (p : Config) :
    (libArrive ⟨d * L, 0, l * s⟩ p).pos = p.pos + cis p.theta *
      ⟨d * (cScale s * (SF.fresnel (cArg s L)).2), l * (cScale s * (SF.fresnel (cArg s L)).1)⟩ ∧
    AngleEq (libArrive ⟨d * L, 0, l * s⟩ p).theta (p.theta + d * l * (s * L ^ 2 / 2)) := by
  have hne : l * s ≠ 0 := by rcases hl with rfl | rfl <;> simp [hs.ne']
  unfold libArrive
  rw [if_neg hne, dir_of_pos hd hL, abs_pm_mul hd hL.le]
  have hsg := sgn_pm_mul hl hs
  have hab : |l * s| = s := abs_pm_mul hl hs.le
  constructor
  · simp only [Config.pos, SF.end_of_clothoid, hsg, hab, mul_zero, zero_div, sub_zero, add_zero,
      SF.fresnel_zero, cis, cScale, cArg]
    apply Complex.ext
    · simp; ring
    · simp; ring
  · refine (SF.pify_angleEq _).trans (AngleEq.of_eq ?_)
    ring

/-- A clothoid that ends straight. -/
theorem lib_clothoid_out {d l s L : ℝ} (hd : d = 1 ∨ d = -1) (hl : l = 1 ∨ l = -1) (hs : 0 < s)
    (hL : 0 < L) (p : Config) :
    (libArrive ⟨d * L, l * (s * L), -(l * s)⟩ p).pos
      = p.pos + cis (p.theta + d * l * (s * L ^ 2 / 2)) *
      ⟨d * (cScale s * (SF.fresnel (cArg s L)).2), -l * (cScale s * (SF.fresnel (cArg s L)).1)⟩ ∧
    AngleEq (libArrive ⟨d * L, l * (s * L), -(l * s)⟩ p).theta
      (p.theta + d * l * (s * L ^ 2 / 2)) := by
  have hne : -(l * s) ≠ 0 := by rcases hl with rfl | rfl <;> simp [hs.ne']
  have hl' : -l = 1 ∨ -l = -1 := by rcases hl with rfl | rfl <;> simp
  unfold libArrive
  rw [if_neg hne, dir_of_pos hd hL, abs_pm_mul hd hL.le]
  have hsg : SF.sgn (-(l * s)) = -l := by rw [← neg_mul]; exact sgn_pm_mul hl' hs
  have hab : |-(l * s)| = s := by rw [abs_neg]; exact abs_pm_mul hl hs.le
  have hll : l * l = 1 := by rcases hl with rfl | rfl <;> norm_num
  have k1 : p.theta - 0.5 * d * (l * (s * L)) * (l * (s * L)) / -(l * s)
      = p.theta + d * l * (s * L ^ 2 / 2) := by
    rcases hl with rfl | rfl <;> field_simp <;> ring
  have k2 : s * L + -l * (l * (s * L)) = 0 := by linear_combination (-(s * L)) * hll
  have k3 : 1 / √π * (1 / √s) * -l * (l * (s * L)) = -cArg s L := by
    unfold cArg; linear_combination (-(1 / √π * (1 / √s) * (s * L))) * hll
  constructor
  · simp only [Config.pos, SF.end_of_clothoid, hsg, hab, k1, k2, k3, mul_zero,
      SF.fresnel_zero, SF.fresnel_neg, cis, cScale]
    apply Complex.ext
    · simp; ring
    · simp; ring
  · refine (SF.pify_angleEq _).trans (AngleEq.of_eq ?_)
    ring

/-- A circular arc keeps its centre. -/
theorem lib_arc {len k : ℝ} (hk : k ≠ 0) (p : Config) :
    cen 0 (1 / k) (libArrive ⟨len, k, 0⟩ p) = cen 0 (1 / k) p ∧
    (libArrive ⟨len, k, 0⟩ p).theta = p.theta + len * k := by
  have hdl : (⟨len, k, 0⟩ : Segment).dir * |len| = len := seg_dir_mul_abs _ _ _
  unfold libArrive
  rw [if_pos rfl, arrive_arc hk]
  have e : p.theta + (⟨len, k, 0⟩ : Segment).dir * |len| * k = p.theta + len * k := by rw [hdl]
  have e2 : p.theta + k * (⟨len, k, 0⟩ : Segment).dir * |len| = p.theta + len * k := by
    linear_combination k * hdl
  simp only [e, e2, and_true]
  unfold cen Config.pos cis
  apply Complex.ext
  · simp; ring
  · simp; ring

/-- A straight line. -/
theorem lib_line {len : ℝ} (p : Config) :
    (libArrive ⟨len, 0, 0⟩ p).pos = p.pos + cis p.theta * len ∧
    (libArrive ⟨len, 0, 0⟩ p).theta = p.theta := by
  have hdl : (⟨len, 0, 0⟩ : Segment).dir * |len| = len := seg_dir_mul_abs _ _ _
  unfold libArrive
  rw [if_pos rfl, arrive_line]
  refine ⟨?_, rfl⟩
  unfold Config.pos cis
  apply Complex.ext
  · simp; linear_combination cos p.theta * hdl
  · simp; linear_combination sin p.theta * hdl

end Spec
