import Mathlib.Analysis.SpecialFunctions.Trigonometric.Deriv
import Mathlib.Analysis.SpecialFunctions.Trigonometric.Arctan
import Mathlib.LinearAlgebra.Matrix.PosDef
import Mathlib.LinearAlgebra.Matrix.NonsingularInverse
import Verif.Model.Node
import Verif.Spec.Node
import Verif.Spec.CovarianceBridge

/-!
# Lemmas about the node
-/

noncomputable section

namespace Spec.Node

open SF SF.Node Real Matrix

/-! ### The car -/

theorem rolls_point {x y theta : ℝ → ℝ} {t v kappa : ℝ} (h : Rolls x y theta t v kappa) (p : ℝ × ℝ) :
    Velocity (fun s => worldPoint (x s) (y s) (theta s) p)
      (v * ((1 - kappa * p.2) * cos (theta t) - kappa * p.1 * sin (theta t)),
       v * ((1 - kappa * p.2) * sin (theta t) + kappa * p.1 * cos (theta t))) t := by
  constructor
  · have := (h.x.add (h.theta.cos.const_mul p.1)).sub (h.theta.sin.const_mul p.2)
    exact this.congr_deriv (by simp only; ring)
  · have := (h.y.add (h.theta.sin.const_mul p.1)).add (h.theta.cos.const_mul p.2)
    exact this.congr_deriv (by simp only; ring)

theorem transform_eq (x y theta : ℝ) (l : List (ℝ × ℝ)) : transformFootprint x y theta l = l.map (worldPoint x y theta) := by
  rw [transformFootprint]
  apply List.map_congr_left
  intro p _
  rw [worldPoint]
  ext <;> simp only <;> ring

theorem wheel_eq (r : Robot) (pos : ℝ × ℝ) (s : State) :
    ∃ p1 p2 p3 p4, oriented_wheel r pos s = [p1, p2, p3, p4] ∧
      IsRectangle p1 p2 p3 p4 (worldPoint s.x s.y s.theta pos) r.wheel_radius r.wheel_width ∧
      p1 - p2 = (2 * r.wheel_radius * cos (s.theta + steer_angle pos s.kappa),
        2 * r.wheel_radius * sin (s.theta + steer_angle pos s.kappa)) := by
  refine ⟨_, _, _, _, by rw [oriented_wheel, transform_eq, transform_eq, Robot.wheel]; rfl, ?_, ?_⟩
  · have h1 := sin_sq_add_cos_sq s.theta
    have h2 := sin_sq_add_cos_sq (steer_angle pos s.kappa)
    generalize steer_angle pos s.kappa = d at h2 ⊢
    have e1 : sin s.theta ^ 2 = 1 - cos s.theta ^ 2 := by linarith
    have e2 : sin d ^ 2 = 1 - cos d ^ 2 := by linarith
    constructor
    · ext <;> simp only [worldPoint, Prod.fst_add, Prod.snd_add] <;> ring
    · ext <;> simp only [worldPoint, Prod.fst_add, Prod.snd_add] <;> ring
    · simp only [worldPoint, dot, Prod.fst_sub, Prod.snd_sub]
      ring
    · simp only [worldPoint, dot, Prod.fst_sub, Prod.snd_sub]
      linear_combination (exp := 1) (2 * r.wheel_radius) ^ 2 * (sin d ^ 2 + cos d ^ 2) * h1 + (2 * r.wheel_radius) ^ 2 * h2
    · simp only [worldPoint, dot, Prod.fst_sub, Prod.snd_sub]
      linear_combination (exp := 1) r.wheel_width ^ 2 * (sin d ^ 2 + cos d ^ 2) * h1 + r.wheel_width ^ 2 * h2
  · ext
    · simp only [worldPoint, Prod.fst_sub, cos_add]; ring
    · simp only [worldPoint, Prod.snd_sub, sin_add]; ring

/-- The steering angle satisfies the condition of rolling. -/
theorem steer_rolls {pos : ℝ × ℝ} {kappa : ℝ} (hk : 1e-4 < |kappa|) :
    (1 - kappa * pos.2) * sin (steer_angle pos kappa) = kappa * pos.1 * cos (steer_angle pos kappa) := by
  have hk0 : kappa ≠ 0 := by
    rintro rfl
    norm_num at hk
  rw [steer_angle, if_pos hk, atan_quotient]
  split_ifs with hb
  · have : 1 - kappa * pos.2 = kappa * (1 / kappa - pos.2) := by field_simp
    rw [this, hb, cos_pi_div_two]
    ring
  · have hc := (cos_arctan_pos (pos.1 / (1 / kappa - pos.2))).ne'
    have ht := tan_arctan (pos.1 / (1 / kappa - pos.2))
    rw [tan_eq_sin_div_cos, div_eq_iff hc] at ht
    rw [ht]
    have : 1 - kappa * pos.2 = kappa * (1 / kappa - pos.2) := by field_simp
    rw [this]
    generalize 1 / kappa - pos.2 = b at hb ⊢
    field_simp

theorem loop_length (l : List (ℝ × ℝ)) : ∀ p, (polygon_loop p l).length = 2 * l.length := by
  induction l with
  | nil => intro p; rfl
  | cons a l ih => intro p; simp only [polygon_loop, List.length_cons, ih]; ring

theorem loop_get (l : List (ℝ × ℝ)) : ∀ (p : ℝ × ℝ) (i : ℕ), i < l.length →
    (polygon_loop p l)[2 * i]? = (if i = 0 then some p else l[i - 1]?) ∧ (polygon_loop p l)[2 * i + 1]? = l[i]? := by
  induction l with
  | nil => intro p i hi; simp at hi
  | cons a l ih =>
    intro p i hi
    cases i with
    | zero => simp [polygon_loop]
    | succ i =>
      have hi' : i < l.length := by simpa using hi
      obtain ⟨h1, h2⟩ := ih a i hi'
      have e1 : 2 * (i + 1) = 2 * i + 1 + 1 := by ring
      refine ⟨?_, ?_⟩
      · rw [e1, polygon_loop, List.getElem?_cons_succ, List.getElem?_cons_succ, h1]
        cases i with
        | zero => simp
        | succ j => simp
      · rw [e1, polygon_loop, List.getElem?_cons_succ, List.getElem?_cons_succ, h2]
        simp

theorem loop_outline {l : List (ℝ × ℝ)} {p : ℝ × ℝ} (h : l.getLast? = some p) : IsOutline l (polygon_loop p l) := by
  refine ⟨loop_length l p, fun i hi => ?_⟩
  obtain ⟨h1, h2⟩ := loop_get l p i hi
  refine ⟨?_, h2⟩
  rw [h1]
  split_ifs with h0
  · subst h0
    rw [Nat.zero_add, Nat.mod_eq_of_lt (by omega), ← h, List.getLast?_eq_getElem?]
  · have : i + (l.length - 1) = (i - 1) + l.length := by omega
    rw [this, Nat.add_mod_right, Nat.mod_eq_of_lt (by omega)]

theorem marker_some {l pts : List (ℝ × ℝ)} (h : l ≠ []) : ∃ new, polygon_to_marker l pts = some (pts ++ new) ∧ IsOutline l new := by
  obtain ⟨p, hp⟩ : ∃ p, l.getLast? = some p := ⟨l.getLast h, List.getLast?_eq_some_getLast h⟩
  exact ⟨_, by rw [polygon_to_marker, hp]; rfl, loop_outline hp⟩

/-! ### Ellipsoids -/

variable {C V R : Matrix (Fin 3) (Fin 3) ℝ} {lam : Fin 3 → ℝ}

theorem quad_eq (hC : C = R * diagonal lam * Rᵀ) (n : Fin 3 → ℝ) :
    n ⬝ᵥ C *ᵥ n = ∑ i, lam i * (Rᵀ *ᵥ n) i ^ 2 := by
  rw [hC, ← mulVec_mulVec, ← mulVec_mulVec, dotProduct_mulVec, ← mulVec_transpose, dotProduct]
  refine Finset.sum_congr rfl fun i _ => ?_
  rw [mulVec_diagonal]
  ring

theorem eig_nonneg (hR : Rᵀ * R = 1) (hC : C = R * diagonal lam * Rᵀ) (hp : C.PosSemidef) (i : Fin 3) : 0 ≤ lam i := by
  have h := hp.dotProduct_mulVec_nonneg (R *ᵥ Pi.single i 1)
  rw [star_trivial, quad_eq hC, mulVec_mulVec, hR, one_mulVec, Finset.sum_eq_single i] at h
  · simpa using h
  · intro j _ hj
    simp [hj]
  · simp

theorem ellipsoid_support (hC : C = R * diagonal lam * Rᵀ) (hl : ∀ i, 0 ≤ lam i) (n : Fin 3 → ℝ) :
    IsGreatest {d | ∃ x ∈ ellipsoid R (fun i => 2 * 3 * √(lam i)), d = n ⬝ᵥ x} (3 * deviation C n) := by
  have hdot : ∀ u : Fin 3 → ℝ, n ⬝ᵥ R *ᵥ (fun i => 2 * 3 * √(lam i) / 2 * u i) =
      3 * ∑ i, (√(lam i) * (Rᵀ *ᵥ n) i) * u i := by
    intro u
    rw [dotProduct_mulVec, ← mulVec_transpose, dotProduct, Finset.mul_sum]
    exact Finset.sum_congr rfl fun i _ => by ring
  have hq : n ⬝ᵥ C *ᵥ n = ∑ i, (√(lam i) * (Rᵀ *ᵥ n) i) ^ 2 := by
    rw [quad_eq hC]
    exact Finset.sum_congr rfl fun i _ => by rw [mul_pow, sq_sqrt (hl i)]
  obtain ⟨a, ha⟩ : ∃ a : Fin 3 → ℝ, a = fun i => √(lam i) * (Rᵀ *ᵥ n) i := ⟨_, rfl⟩
  have hq' : n ⬝ᵥ C *ᵥ n = ∑ i, a i ^ 2 := by rw [hq, ha]
  have hdot' : ∀ u : Fin 3 → ℝ, n ⬝ᵥ R *ᵥ (fun i => 2 * 3 * √(lam i) / 2 * u i) = 3 * ∑ i, a i * u i := by
    intro u; rw [hdot, ha]
  have h0 : 0 ≤ ∑ i, a i ^ 2 := Finset.sum_nonneg fun i _ => sq_nonneg _
  rw [deviation, hq']
  constructor
  · by_cases hz : ∑ i, a i ^ 2 = 0
    · refine ⟨_, ⟨0, by simp, rfl⟩, ?_⟩
      rw [hdot', hz]
      simp
    · refine ⟨_, ⟨fun i => a i / √(∑ i, a i ^ 2), ?_, rfl⟩, ?_⟩
      · simp only [div_pow, sq_sqrt h0]
        rw [← Finset.sum_div, div_self hz]
      · rw [hdot']
        have : ∑ i, a i * (a i / √(∑ i, a i ^ 2)) = (∑ i, a i ^ 2) / √(∑ i, a i ^ 2) := by
          rw [Finset.sum_div]
          exact Finset.sum_congr rfl fun i _ => by ring
        rw [this, div_sqrt]
  · rintro d ⟨x, ⟨u, hu, rfl⟩, rfl⟩
    rw [hdot']
    have hcs := Finset.sum_mul_sq_le_sq_mul_sq Finset.univ a u
    have : ∑ i, a i * u i ≤ √(∑ i, a i ^ 2) := by
      apply le_sqrt_of_sq_le
      nlinarith
    linarith

theorem mem_ellipsoid (hR : Rᵀ * R = 1) (hC : C = R * diagonal lam * Rᵀ) (hl : ∀ i, 0 ≤ lam i) (x : Fin 3 → ℝ) :
    x ∈ ellipsoid R (fun i => 2 * 3 * √(lam i)) ↔ ∀ n : Fin 3 → ℝ, n ⬝ᵥ x ≤ 3 * deviation C n := by
  constructor
  · intro hx n
    exact (ellipsoid_support hC hl n).2 ⟨x, hx, rfl⟩
  · intro h
    have hR' : R * Rᵀ = 1 := mul_eq_one_comm.1 hR
    obtain ⟨y, hy⟩ : ∃ y, y = Rᵀ *ᵥ x := ⟨_, rfl⟩
    have hx : x = R *ᵥ y := by rw [hy, mulVec_mulVec, hR', one_mulVec]
    -- the condition in principal coordinates
    have hm : ∀ m : Fin 3 → ℝ, ∑ i, m i * y i ≤ 3 * √(∑ i, lam i * m i ^ 2) := by
      intro m
      have := h (R *ᵥ m)
      rw [deviation, quad_eq hC, mulVec_mulVec, hR, one_mulVec, hx, dotProduct_mulVec, ← mulVec_transpose,
        mulVec_mulVec, hR, one_mulVec] at this
      exact this
    have hzero : ∀ i, lam i = 0 → y i = 0 := by
      intro i hi
      have := hm (Pi.single i (y i))
      rw [Finset.sum_eq_single i (fun j _ hj => by simp [hj]) (by simp),
        Finset.sum_eq_single i (fun j _ hj => by simp [hj]) (by simp), hi] at this
      simp only [Pi.single_eq_same, zero_mul, sqrt_zero, mul_zero] at this
      nlinarith
    refine ⟨fun i => y i / (3 * √(lam i)), ?_, ?_⟩
    · have := hm fun i => y i / lam i
      have e1 : ∀ i, y i / lam i * y i = 9 * (y i / (3 * √(lam i))) ^ 2 := by
        intro i
        rw [div_pow, mul_pow, sq_sqrt (hl i)]
        by_cases hi : lam i = 0
        · simp [hi]
        · field_simp; norm_num
      have e2 : ∀ i, lam i * (y i / lam i) ^ 2 = 9 * (y i / (3 * √(lam i))) ^ 2 := by
        intro i
        rw [div_pow, div_pow, mul_pow, sq_sqrt (hl i)]
        by_cases hi : lam i = 0
        · simp [hi]
        · field_simp; norm_num
      simp only [e1, e2, ← Finset.mul_sum] at this
      obtain ⟨S, hS⟩ : ∃ S, S = ∑ i, (y i / (3 * √(lam i))) ^ 2 := ⟨_, rfl⟩
      have hS0 : 0 ≤ S := by rw [hS]; exact Finset.sum_nonneg fun i _ => sq_nonneg _
      rw [← hS] at this ⊢
      have h9 : √(9 * S) = 3 * √S := by
        rw [sqrt_mul (by norm_num), show (9:ℝ) = 3 ^ 2 by norm_num, sqrt_sq (by norm_num)]
      rw [h9] at this
      have hss := sq_sqrt hS0
      have hs0 := sqrt_nonneg S
      have : S ≤ √S := by linarith
      by_contra hgt
      have : √S ^ 2 ≤ √S := by rw [hss]; exact this
      have : 1 < √S := by
        rw [show (1:ℝ) = √1 by simp]
        exact sqrt_lt_sqrt (by norm_num) (not_le.1 hgt)
      nlinarith
    · rw [hx]
      congr 1
      funext i
      by_cases hi : lam i = 0
      · simp [hi, hzero i hi]
      · have : √(lam i) ≠ 0 := (sqrt_pos.2 (lt_of_le_of_ne (hl i) (Ne.symm hi))).ne'
        field_simp

theorem flip_eq (V : Matrix (Fin 3) (Fin 3) ℝ) : flip_first V = V * diagonal ![-1, 1, 1] := by
  ext i j
  rw [mul_diagonal, flip_first, of_apply]
  fin_cases j <;> simp

end Spec.Node
