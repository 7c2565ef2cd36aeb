import Verif.Lemmas.Angle

/-!
# Lemmas about `fresnel` and the `end_of_*` functions
-/

noncomputable section

namespace SF

open Real Spec

theorem fresnel_0_8_zero : fresnel_0_8 0 = (0, 0) := by
  simp [fresnel_0_8]

theorem fresnel_zero : fresnel 0 = (0, 0) := by
  simp [fresnel, fresnel_0_8_zero]

theorem fresnel_neg (s : ℝ) : fresnel (-s) = (-(fresnel s).1, -(fresnel s).2) := by
  rcases lt_trichotomy s 0 with h | h | h
  · have h' : ¬ (-s < 0) := by linarith
    simp only [fresnel, h, h', if_true, if_false, neg_neg]
    have : π / 2 * -s * -s = π / 2 * s * s := by ring
    rw [this]
  · subst h; simp [fresnel_zero]
  · have h' : ¬ (s < 0) := by linarith
    have h'' : -s < 0 := by linarith
    simp only [fresnel, h', h'', if_true, if_false]
    have : π / 2 * -s * -s = π / 2 * s * s := by ring
    rw [this]

theorem clothoid_split {sigma : ℝ} (hs : sigma ≠ 0) (x y theta kappa d a b : ℝ) :
    let e1 := end_of_clothoid x y theta kappa sigma d a
    let e2 := end_of_clothoid e1.x e1.y e1.theta e1.kappa sigma d b
    let e := end_of_clothoid x y theta kappa sigma d (a + b)
    e2.x = e.x ∧ e2.y = e.y ∧ AngleEq e2.theta e.theta ∧ e2.kappa = e.kappa := by
  intro e1 e2 e
  -- invariance of `k1`
  have hk1 : AngleEq (e1.theta - 0.5 * d * e1.kappa * e1.kappa / sigma)
      (theta - 0.5 * d * kappa * kappa / sigma) := by
    have h := pify_angleEq (theta + kappa * d * a + 0.5 * sigma * d * a * a)
    have h2 := h.sub (AngleEq.refl (0.5 * d * (kappa + sigma * a) * (kappa + sigma * a) / sigma))
    have h3 : theta + kappa * d * a + 0.5 * sigma * d * a * a
        - 0.5 * d * (kappa + sigma * a) * (kappa + sigma * a) / sigma
        = theta - 0.5 * d * kappa * kappa / sigma := by
      field_simp; ring
    rw [h3] at h2
    exact h2
  have habs : sgn sigma * sigma = |sigma| := sgn_mul_self sigma
  have hk3 : 1 / √π * (1 / √|sigma|) * sgn sigma * e1.kappa
      = 1 / √π * (1 / √|sigma|) * (|sigma| * a + sgn sigma * kappa) := by
    show 1 / √π * (1 / √|sigma|) * sgn sigma * (kappa + sigma * a) = _
    rw [← habs]; ring
  have hk2 : 1 / √π * (1 / √|sigma|) * (|sigma| * b + sgn sigma * e1.kappa)
      = 1 / √π * (1 / √|sigma|) * (|sigma| * (a + b) + sgn sigma * kappa) := by
    show 1 / √π * (1 / √|sigma|) * (|sigma| * b + sgn sigma * (kappa + sigma * a)) = _
    rw [← habs]; ring
  refine ⟨?_, ?_, ?_, ?_⟩
  · show e1.x + _ = _
    simp only [hk1.cos_eq, hk1.sin_eq, hk3, hk2]
    simp only [e, e1, end_of_clothoid]
    ring
  · show e1.y + _ = _
    simp only [hk1.cos_eq, hk1.sin_eq, hk3, hk2]
    simp only [e, e1, end_of_clothoid]
    ring
  · have h := (pify_angleEq (theta + kappa * d * a + 0.5 * sigma * d * a * a)).add_right
      ((kappa + sigma * a) * d * b + 0.5 * sigma * d * b * b)
    have h2 := (pify_angleEq (e1.theta + e1.kappa * d * b + 0.5 * sigma * d * b * b))
    refine h2.trans ?_
    refine AngleEq.trans ?_ (pify_angleEq _).symm
    have h3 : theta + kappa * d * a + 0.5 * sigma * d * a * a
      + ((kappa + sigma * a) * d * b + 0.5 * sigma * d * b * b)
      = theta + kappa * d * (a + b) + 0.5 * sigma * d * (a + b) * (a + b) := by ring
    rw [h3] at h
    refine AngleEq.trans (AngleEq.of_eq ?_) h
    simp only [e1, end_of_clothoid]; ring
  · simp only [e, e1, e2, end_of_clothoid]; ring

theorem arc_split {kappa : ℝ} (x y theta d a b : ℝ) :
    let e1 := end_of_circular_arc x y theta kappa d a
    let e2 := end_of_circular_arc e1.x e1.y e1.theta kappa d b
    let e := end_of_circular_arc x y theta kappa d (a + b)
    e2.x = e.x ∧ e2.y = e.y ∧ AngleEq e2.theta e.theta := by
  intro e1 e2 e
  have h1 : AngleEq e1.theta (theta + kappa * d * a) := pify_angleEq _
  have h1' : AngleEq e1.theta (theta + d * a * kappa) := by
    have : theta + d * a * kappa = theta + kappa * d * a := by ring
    rw [this]; exact h1
  have h2 : AngleEq (e1.theta + d * b * kappa) (theta + d * (a + b) * kappa) := by
    have := h1'.add_right (d * b * kappa)
    have h3 : theta + d * a * kappa + d * b * kappa = theta + d * (a + b) * kappa := by ring
    rwa [h3] at this
  refine ⟨?_, ?_, ?_⟩
  · show e1.x + _ = _
    simp only [h1'.sin_eq, h2.sin_eq]
    simp only [e, e1, end_of_circular_arc]; ring
  · show e1.y + _ = _
    simp only [h1'.cos_eq, h2.cos_eq]
    simp only [e, e1, end_of_circular_arc]; ring
  · refine (pify_angleEq _).trans (AngleEq.trans ?_ (pify_angleEq _).symm)
    have := h1.add_right (kappa * d * b)
    have h3 : theta + kappa * d * a + kappa * d * b = theta + kappa * d * (a + b) := by ring
    rwa [h3] at this

theorem line_split (x y theta d a b : ℝ) :
    let e1 := end_of_straight_line x y theta d a
    end_of_straight_line e1.1 e1.2 theta d b = end_of_straight_line x y theta d (a + b) := by
  intro e1
  simp only [e1, end_of_straight_line]
  ext <;> simp <;> ring

end SF
