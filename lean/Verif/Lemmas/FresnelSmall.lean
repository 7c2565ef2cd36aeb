import Mathlib.MeasureTheory.Integral.IntervalIntegral.FundThmCalculus
import Mathlib.Analysis.SpecialFunctions.Integrals.Basic
import Verif.Lemmas.FresnelTables
import Verif.Lemmas.Taylor
import Verif.Spec.Fresnel

/-!
# Accuracy of `fresnel_0_8`
-/

noncomputable section

namespace Poly

open Real Finset Spec

theorem ev_eq_sum (l : List ℤ) (w : ℝ) :
    ev l w = ∑ k ∈ range l.length, (l.getD k 0 : ℝ) * w ^ k := by
  induction l with
  | nil => simp [ev]
  | cons a l ih =>
    rw [List.length_cons, sum_range_succ']
    simp only [ev, ih, List.getD_cons_succ, List.getD_cons_zero, mul_sum, pow_zero, mul_one]
    rw [add_comm]
    congr 1
    refine sum_congr rfl fun k _ => ?_
    ring

theorem csum_cos (phi psi : ℝ) (l : List ℝ) :
    csum (cos psi) l (cos phi) (cos (phi + psi))
      = ∑ i ∈ range l.length, l.getD i 0 * cos (phi + i * psi) := by
  induction l generalizing phi with
  | nil => simp [csum]
  | cons a l ih =>
    have e : 2 * cos psi * cos (phi + psi) - cos phi = cos (phi + psi + psi) := by
      have h1 : cos phi = cos (phi + psi - psi) := by ring_nf
      rw [cos_add (phi + psi) psi, h1, cos_sub (phi + psi) psi]
      ring
    simp only [csum, e, ih, List.length_cons, sum_range_succ', List.getD_cons_succ,
      List.getD_cons_zero, Nat.cast_zero, zero_mul, add_zero]
    rw [add_comm]
    congr 1
    refine sum_congr rfl fun i _ => ?_
    rw [show phi + psi + i * psi = phi + ((i + 1 : ℕ) : ℝ) * psi by push_cast; ring]

/-! ### The loop of `fresnel_0_8` -/

theorem cos_step (n : ℕ) (th : ℝ) :
    2 * cos (2 * th) * cos (2 * (n + 1 : ℕ) * th) - cos (2 * (n : ℕ) * th)
      = cos (2 * (n + 2 : ℕ) * th) := by
  rw [show 2 * ((n + 2 : ℕ) : ℝ) * th = 2 * (n + 1 : ℕ) * th + 2 * th by push_cast; ring,
    show 2 * (n : ℝ) * th = 2 * (n + 1 : ℕ) * th - 2 * th by push_cast; ring, cos_add, cos_sub]
  ring

theorem cos_step_odd (n : ℕ) (th : ℝ) :
    2 * cos th * cos (2 * (n + 1 : ℕ) * th) - cos ((2 * n + 1) * th)
      = cos ((2 * (n + 1 : ℕ) + 1) * th) := by
  rw [show (2 * ((n + 1 : ℕ) : ℝ) + 1) * th = 2 * (n + 1 : ℕ) * th + th by ring,
    show (2 * (n : ℝ) + 1) * th = 2 * (n + 1 : ℕ) * th - th by push_cast; ring, cos_add, cos_sub]
  ring

theorem loop08 {x th : ℝ} (hx : cos th = x / 8) (k : ℕ) :
    (List.range' 2 k).foldl (SF.step08 (0.03125 * x * x - 1) (0.25 * x)) (SF.init08 x)
      = { A := ∑ i ∈ range (k + 2), SF.tab SF.chebev_a i * cos (2 * i * th)
          B := ∑ i ∈ range (k + 2), SF.tab SF.chebev_b i * cos ((2 * i + 1) * th)
          m4 := cos (2 * k * th)
          m2 := cos (2 * (k + 1 : ℕ) * th)
          m1 := cos ((2 * (k + 1 : ℕ) + 1) * th) } := by
  have harg : 0.03125 * x * x - 1 = cos (2 * th) := by rw [cos_two_mul, hx]; ring
  have hq : 0.25 * x = 2 * cos th := by rw [hx]; ring
  induction k with
  | zero =>
    have h1 : cos (3 * th) = 4 * cos th ^ 3 - 3 * cos th := cos_three_mul th
    simp only [List.range'_zero, List.foldl_nil, SF.init08]
    have e1 : (0.125 : ℝ) * x = cos th := by rw [hx]; ring
    have e3 : (0.25 : ℝ) * x * (0.03125 * x * x - 1) - 0.125 * x = cos (3 * th) := by
      rw [harg, hq, e1, h1, cos_two_mul]; ring
    rw [e3, e1, harg]
    simp [sum_range_succ]
    norm_num
  | succ k ih =>
    rw [List.range'_1_concat, List.foldl_append, ih, List.foldl_cons, List.foldl_nil]
    simp only [SF.step08]
    rw [harg, hq, cos_step k th]
    have := cos_step_odd (k + 1) th
    rw [show 2 + k = k + 2 by ring]
    rw [show k + 1 + 1 = k + 2 by ring] at *
    rw [this]
    rw [show k + 1 + 2 = (k + 2) + 1 by ring, sum_range_succ _ (k + 2), sum_range_succ _ (k + 2)]

theorem tab_eq (l : List ℚ) (lI : List ℤ) (h : l = lI.map fun z : ℤ => (z : ℚ) / 10 ^ 20) (i : ℕ) :
    SF.tab l i = (lI.getD i 0 : ℝ) / 10 ^ 20 := by
  subst h
  unfold SF.tab
  simp only [List.getD_eq_getElem?_getD, List.getElem?_map]
  cases lI[i]? <;> simp

/-- The sums of `fresnel_0_8` are the Chebyshev polynomials of the tables. -/
theorem sums08_eq {x : ℝ} (h0 : 0 ≤ x) (h8 : x ≤ 8) :
    (SF.sums08 x).1 = ev (psum aI [1] [-1, 2]) ((x / 8) ^ 2) / 10 ^ 20 ∧
    (SF.sums08 x).2 = x / 8 * ev (psum bI [1] [-3, 4]) ((x / 8) ^ 2) / 10 ^ 20 := by
  obtain ⟨th, hth⟩ : ∃ th, cos th = x / 8 :=
    ⟨arccos (x / 8), cos_arccos (by linarith) (by linarith)⟩
  have hL := loop08 hth 15
  have harg : 2 * (x / 8) ^ 2 - 1 = cos (2 * th) := by rw [cos_two_mul, hth]
  have harg' : 0.03125 * x * x - 1 = cos (2 * th) := by rw [cos_two_mul, hth]; ring
  constructor
  · have h1 : (SF.sums08 x).1 = ∑ i ∈ range 18, SF.tab SF.chebev_a i * cos (2 * i * th) := by
      unfold SF.sums08
      simp only [hL]
      rw [harg', cos_step 15 th, sum_range_succ _ 17]
    rw [h1, ev_psum]
    have e1 : ev [1] ((x / 8) ^ 2) = cos 0 := by simp [ev]
    have e2 : ev [-1, 2] ((x / 8) ^ 2) = cos (0 + 2 * th) := by
      rw [zero_add, ← harg]; simp [ev]; ring
    rw [e1, e2, harg, csum_cos, sum_div]
    refine sum_congr (by decide) fun i _ => ?_
    rw [tab_eq _ _ chebev_a_eq]
    simp only [List.getD_eq_getElem?_getD, List.getElem?_map]
    rw [show 0 + (i:ℝ) * (2 * th) = 2 * i * th by ring]
    cases aI[i]? <;> simp; ring
  · have h1 : (SF.sums08 x).2 = ∑ i ∈ range 17, SF.tab SF.chebev_b i * cos ((2 * i + 1) * th) := by
      unfold SF.sums08
      simp only [hL]
    have lin : ∀ (l : List ℝ) (arg t t' c : ℝ),
        c * csum arg l t t' = csum arg l (c * t) (c * t') := by
      intro l arg
      induction l with
      | nil => intro t t' c; simp [csum]
      | cons a l ih =>
        intro t t' c
        simp only [csum]
        rw [mul_add, ih]
        rw [show c * (2 * arg * t' - t) = 2 * arg * (c * t') - c * t by ring]; ring
    rw [h1, ev_psum, lin]
    have e1 : x / 8 * ev [1] ((x / 8) ^ 2) = cos th := by rw [hth]; simp [ev]
    have e2 : x / 8 * ev [-3, 4] ((x / 8) ^ 2) = cos (th + 2 * th) := by
      rw [show th + 2 * th = 3 * th by ring, cos_three_mul, hth]; simp [ev]; ring
    rw [e1, e2, harg, csum_cos, sum_div]
    refine sum_congr (by decide) fun i _ => ?_
    rw [tab_eq _ _ chebev_b_eq]
    simp only [List.getD_eq_getElem?_getD, List.getElem?_map]
    rw [show th + (i:ℝ) * (2 * th) = (2 * i + 1) * th by ring]
    cases bI[i]? <;> simp; ring

/-! ### Taylor polynomials of the Fresnel integrals -/

theorem integral_cosT (s : ℝ) :
    ∫ u in (0:ℝ)..s, cosT 26 (π / 2 * u ^ 2)
      = s / 2 * (ev tA ((π / 2 * s ^ 2 / 8) ^ 2) / NA) := by
  have hN : (NA : ℝ) ≠ 0 := by norm_num [NA]
  unfold cosT
  rw [intervalIntegral.integral_finsetSum
    (fun k _ => Continuous.intervalIntegrable (by fun_prop) _ _), ev_eq_sum, sum_div, mul_sum]
  refine sum_congr (by decide) fun k hk => ?_
  have hk' : k < 26 := by
    have : tA.length = 26 := by decide
    simpa [this] using hk
  have e : ∀ u : ℝ, (-1) ^ k * (π / 2 * u ^ 2) ^ (2 * k) / (2 * k).factorial
      = (-1) ^ k * (π / 2) ^ (2 * k) / (2 * k).factorial * u ^ (4 * k) := by
    intro u; rw [mul_pow, ← pow_mul]; ring_nf
  simp only [e]
  rw [intervalIntegral.integral_const_mul, integral_pow, zero_pow (by omega), sub_zero]
  have ht := tA_spec k hk'
  have ht' : (tA.getD k 0 : ℝ) * (((2 * k).factorial : ℝ) * (4 * k + 1)) = NA * (2 * (-64) ^ k) := by
    exact_mod_cast ht
  have hf : ((2 * k).factorial : ℝ) ≠ 0 := by positivity
  have h4 : (4 * (k:ℝ) + 1) ≠ 0 := by positivity
  have ht2 : (tA.getD k 0 : ℝ) = NA * (2 * (-64) ^ k) / (((2 * k).factorial : ℝ) * (4 * k + 1)) := by
    rw [eq_div_iff (mul_ne_zero hf h4)]; exact ht'
  rw [ht2]
  have e2 : ((π / 2 * s ^ 2 / 8) ^ 2) ^ k = (π / 2) ^ (2 * k) * s ^ (4 * k) / 64 ^ k := by
    rw [← pow_mul, div_pow, mul_pow, ← pow_mul, show (8:ℝ) ^ (2 * k) = 64 ^ k by
      rw [pow_mul]; norm_num]
    ring_nf
  have e3 : (-64 : ℝ) ^ k = (-1) ^ k * 64 ^ k := by rw [← mul_pow]; norm_num
  rw [e2, e3]
  have h64 : (64:ℝ) ^ k ≠ 0 := by positivity
  push_cast
  field_simp
  ring

theorem integral_sinT (s : ℝ) :
    ∫ u in (0:ℝ)..s, sinT 26 (π / 2 * u ^ 2)
      = s / 2 * (π / 2 * s ^ 2 / 8 * ev tB ((π / 2 * s ^ 2 / 8) ^ 2) / NB) := by
  have hN : (NB : ℝ) ≠ 0 := by norm_num [NB]
  unfold sinT
  rw [intervalIntegral.integral_finsetSum
    (fun k _ => Continuous.intervalIntegrable (by fun_prop) _ _), ev_eq_sum, mul_sum, sum_div, mul_sum]
  refine sum_congr (by decide) fun k hk => ?_
  have hk' : k < 26 := by
    have : tB.length = 26 := by decide
    simpa [this] using hk
  have e : ∀ u : ℝ, (-1) ^ k * (π / 2 * u ^ 2) ^ (2 * k + 1) / (2 * k + 1).factorial
      = (-1) ^ k * (π / 2) ^ (2 * k + 1) / (2 * k + 1).factorial * u ^ (4 * k + 2) := by
    intro u; rw [mul_pow, ← pow_mul]; ring_nf
  simp only [e]
  rw [intervalIntegral.integral_const_mul, integral_pow, zero_pow (by omega), sub_zero]
  have ht := tB_spec k hk'
  have ht' : (tB.getD k 0 : ℝ) * (((2 * k + 1).factorial : ℝ) * (4 * k + 3))
      = NB * (16 * (-64) ^ k) := by
    exact_mod_cast ht
  have hf : ((2 * k + 1).factorial : ℝ) ≠ 0 := by positivity
  have h4 : (4 * (k:ℝ) + 3) ≠ 0 := by positivity
  have ht2 : (tB.getD k 0 : ℝ)
      = NB * (16 * (-64) ^ k) / (((2 * k + 1).factorial : ℝ) * (4 * k + 3)) := by
    rw [eq_div_iff (mul_ne_zero hf h4)]; exact ht'
  rw [ht2]
  have e2 : ((π / 2 * s ^ 2 / 8) ^ 2) ^ k = (π / 2) ^ (2 * k) * s ^ (4 * k) / 64 ^ k := by
    rw [← pow_mul, div_pow, mul_pow, ← pow_mul, show (8:ℝ) ^ (2 * k) = 64 ^ k by
      rw [pow_mul]; norm_num]
    ring_nf
  have e3 : (-64 : ℝ) ^ k = (-1) ^ k * 64 ^ k := by rw [← mul_pow]; norm_num
  rw [e2, e3]
  have h64 : (64:ℝ) ^ k ≠ 0 := by positivity
  have h3 : (4 * (k:ℝ) + 2 + 1) ≠ 0 := by positivity
  push_cast
  field_simp
  ring

/-! ### The bound -/

theorem cheb_cos {w : ℝ} (h0 : 0 ≤ w) (h1 : w ≤ 1) :
    |ev tA w / NA - ev (psum aI [1] [-1, 2]) w / 10 ^ 20| ≤ 1 / 10 ^ 19 := by
  have hN : (0:ℝ) < NA := by norm_num [NA]
  have h := congrArg (fun l => ev l w) dA_spec
  simp only [ev_padd, ev_psmul] at h
  have hd : ((-(NA / 10 ^ 20) : ℤ) : ℝ) = -((NA : ℝ) / 10 ^ 20) := by
    have h2 : (((NA / 10 ^ 20 : ℤ)) : ℝ) * 10 ^ 20 = NA := by exact_mod_cast NA_dvd
    push_cast
    rw [← h2]
    norm_num
  rw [hd] at h
  have hb := abs_ev_psum_le h0 h1 dA
  rw [← h] at hb
  have hs : (l1 dA : ℝ) * 10 ^ 19 ≤ NA := by exact_mod_cast dA_small
  have e : ev tA w / NA - ev (psum aI [1] [-1, 2]) w / 10 ^ 20
      = (ev tA w + -((NA : ℝ) / 10 ^ 20) * ev (psum aI [1] [-1, 2]) w) / NA := by
    field_simp
    ring
  rw [e, abs_div, abs_of_pos hN, div_le_iff₀ hN]
  refine hb.trans ?_
  rw [div_mul_eq_mul_div, le_div_iff₀ (by norm_num)]
  linarith

theorem cheb_sin {z : ℝ} (h0 : -1 ≤ z) (h1 : z ≤ 1) :
    |z * ev tB (z ^ 2) / NB - z * ev (psum bI [1] [-3, 4]) (z ^ 2) / 10 ^ 20| ≤ 1 / 10 ^ 19 := by
  have hN : (0:ℝ) < NB := by norm_num [NB]
  have h := congrArg (fun l => ev l (z ^ 2)) dB_spec
  simp only [ev_padd, ev_psmul] at h
  have hd : ((-(NB / 10 ^ 20) : ℤ) : ℝ) = -((NB : ℝ) / 10 ^ 20) := by
    have h2 : (((NB / 10 ^ 20 : ℤ)) : ℝ) * 10 ^ 20 = NB := by exact_mod_cast NB_dvd
    push_cast
    rw [← h2]
    norm_num
  rw [hd] at h
  have hb := abs_ev_psum_odd_le h0 h1 dB
  rw [← h] at hb
  have hs : (l1 dB : ℝ) * 10 ^ 19 ≤ NB := by exact_mod_cast dB_small
  have e : z * ev tB (z ^ 2) / NB - z * ev (psum bI [1] [-3, 4]) (z ^ 2) / 10 ^ 20
      = (z * (ev tB (z ^ 2) + -((NB : ℝ) / 10 ^ 20) * ev (psum bI [1] [-3, 4]) (z ^ 2))) / NB := by
    field_simp
    ring
  rw [e, abs_div, abs_of_pos hN, div_le_iff₀ hN]
  refine hb.trans ?_
  rw [div_mul_eq_mul_div, le_div_iff₀ (by norm_num)]
  linarith

theorem integral_close {f g : ℝ → ℝ} (hf : Continuous f) (hg : Continuous g) {s eps : ℝ}
    (hs : 0 ≤ s) (h : ∀ u, 0 ≤ u → u ≤ s → |f u - g u| ≤ eps) :
    |(∫ u in (0:ℝ)..s, f u) - ∫ u in (0:ℝ)..s, g u| ≤ eps * s := by
  rw [← intervalIntegral.integral_sub (hf.intervalIntegrable _ _) (hg.intervalIntegrable _ _)]
  have := intervalIntegral.norm_integral_le_of_norm_le_const (a := (0:ℝ)) (b := s) (C := eps)
    (f := fun u => f u - g u) (by
      intro u hu
      rw [Set.uIoc_of_le hs] at hu
      exact h u hu.1.le hu.2)
  simpa [abs_of_nonneg hs] using this

theorem scale08 {s : ℝ} (hs : 0 ≤ s) : 1 / √(2 * π) * √(π / 2 * s * s) = s / 2 := by
  have hp := pi_pos
  rw [show π / 2 * s * s = (2 * π) * (s / 2) ^ 2 by ring,
    sqrt_mul (show (0:ℝ) ≤ 2 * π by positivity) ((s / 2) ^ 2), sqrt_sq (by linarith)]
  have : √(2 * π) ≠ 0 := by positivity
  field_simp

/-- `fresnel_0_8` is accurate to `6e-20 * s`. -/
theorem fresnel_0_8_accurate {s : ℝ} (hs : 0 ≤ s) (hx : π / 2 * s * s ≤ 8) :
    |(SF.fresnel_0_8 (π / 2 * s * s)).1 - fresnelS s| ≤ 6 / 10 ^ 20 * s ∧
    |(SF.fresnel_0_8 (π / 2 * s * s)).2 - fresnelC s| ≤ 6 / 10 ^ 20 * s := by
  have hp := pi_pos
  have hx0 : 0 ≤ π / 2 * s * s := by positivity
  obtain ⟨hA, hB⟩ := sums08_eq hx0 hx
  have ex : π / 2 * s ^ 2 = π / 2 * s * s := by ring
  have hz0 : 0 ≤ π / 2 * s * s / 8 := by positivity
  have hz1 : π / 2 * s * s / 8 ≤ 1 := by linarith
  have harg : ∀ u, 0 ≤ u → u ≤ s → |π / 2 * u ^ 2| ≤ 8 := by
    intro u hu hus
    rw [abs_of_nonneg (by positivity)]
    have : u ^ 2 ≤ s ^ 2 := pow_le_pow_left₀ hu hus 2
    nlinarith
  have contC : Continuous (cosT 26) := by unfold cosT; fun_prop
  have contS : Continuous (sinT 26) := by unfold sinT; fun_prop
  constructor
  · have h1 := integral_close (f := fun u => sin (π / 2 * u ^ 2))
      (g := fun u => sinT 26 (π / 2 * u ^ 2)) (by fun_prop) (contS.comp (by fun_prop)) hs
      (fun u hu hus => (taylor_8 (harg u hu hus)).2)
    have h2 := cheb_sin (by linarith) hz1
    rw [integral_sinT, ex] at h1
    simp only [SF.fresnel_0_8]
    rw [scale08 hs, hB]
    unfold fresnelS
    rw [abs_le] at h1 h2 ⊢
    constructor
    · nlinarith [mul_le_mul_of_nonneg_left h2.1 hs, mul_le_mul_of_nonneg_left h2.2 hs, h1.1, h1.2]
    · nlinarith [mul_le_mul_of_nonneg_left h2.1 hs, mul_le_mul_of_nonneg_left h2.2 hs, h1.1, h1.2]
  · have h1 := integral_close (f := fun u => cos (π / 2 * u ^ 2))
      (g := fun u => cosT 26 (π / 2 * u ^ 2)) (by fun_prop) (contC.comp (by fun_prop)) hs
      (fun u hu hus => (taylor_8 (harg u hu hus)).1)
    have h2 := cheb_cos (sq_nonneg (π / 2 * s * s / 8)) (by nlinarith)
    rw [integral_cosT, ex] at h1
    simp only [SF.fresnel_0_8]
    rw [scale08 hs, hA]
    unfold fresnelC
    rw [abs_le] at h1 h2 ⊢
    constructor
    · nlinarith [mul_le_mul_of_nonneg_left h2.1 hs, mul_le_mul_of_nonneg_left h2.2 hs, h1.1, h1.2]
    · nlinarith [mul_le_mul_of_nonneg_left h2.1 hs, mul_le_mul_of_nonneg_left h2.2 hs, h1.1, h1.2]

end Poly
