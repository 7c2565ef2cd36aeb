import Verif.Lemmas.DubinsSpace
import Verif.Spec.DubinsStates
import Mathlib.Analysis.Real.Pi.Bounds

/-!
# Lemmas linking the Dubins planner to the vocabulary of its properties
-/

noncomputable section

namespace Props

open SF Spec Real

theorem crossDist2_eq (sp : DubinsSpace) (hk : 0 < sp.kappa) (s1 s2 : State) (e : ℝ)
    (he : e = 1 ∨ e = -1) :
    cscTmp e (-e) (sp.params s1 s2).1 (sp.params s1 s2).2.1 (sp.params s1 s2).2.2
      = crossDist2 sp.kappa e s1 s2 - 4 := by
  obtain ⟨_, _, hx, hy, hal, hbe⟩ := params_goal sp hk s1 s2
  set th := atan2 (s2.y - s1.y) (s2.x - s1.x)
  set d := (sp.params s1 s2).1
  have ex : sp.kappa * (s2.x - s1.x) = d * cos th := by rw [hx]; field_simp; ring
  have ey : sp.kappa * (s2.y - s1.y) = d * sin th := by rw [hy]; field_simp; ring
  unfold crossDist2 cscTmp cscU cscV
  rw [ex, ey, hal.sin_eq, hal.cos_eq, hbe.sin_eq, hbe.cos_eq]
  have e1 : s1.theta = th + (s1.theta - th) := by ring
  have e2 : s2.theta = th + (s2.theta - th) := by ring
  generalize s1.theta - th = a at *
  generalize s2.theta - th = b at *
  rw [e1, e2, sin_add, sin_add, cos_add, cos_add]
  have hee : e ^ 2 = 1 := by rcases he with rfl | rfl <;> norm_num
  have hs := sin_sq_add_cos_sq th
  linear_combination (-(d + e * sin a + e * sin b) ^ 2 - (e * cos a + e * cos b) ^ 2) * hs
    - 4 * hee

theorem tangentZone_iff (sp : DubinsSpace) (hk : 0 < sp.kappa) (s1 s2 : State) :
    TangentZone (sp.params s1 s2).1 (sp.params s1 s2).2.1 (sp.params s1 s2).2.2
      → NearlyTangent sp.kappa s1 s2 := by
  rintro (⟨h1, h2⟩ | ⟨h1, h2⟩)
  · refine ⟨-1, Or.inr rfl, ?_⟩
    have := crossDist2_eq sp hk s1 s2 (-1) (Or.inr rfl)
    rw [neg_neg, ← tmpRSL_eq] at this
    rw [this] at h1 h2
    unfold DUBINS_ZERO at h1
    constructor <;> linarith
  · refine ⟨1, Or.inl rfl, ?_⟩
    have := crossDist2_eq sp hk s1 s2 1 (Or.inl rfl)
    rw [← tmpLSR_eq] at this
    rw [this] at h1 h2
    unfold DUBINS_ZERO at h1
    constructor <;> linarith

theorem nearlyTangent_symm {kappa : ℝ} {s1 s2 : State} (h : NearlyTangent kappa s2 s1) :
    NearlyTangent kappa s1 s2 := by
  obtain ⟨e, he, h1, h2⟩ := h
  refine ⟨-e, by rcases he with rfl | rfl <;> simp, ?_⟩
  have : crossDist2 kappa (-e) s1 s2 = crossDist2 kappa e s2 s1 := by unfold crossDist2; ring
  rw [this]; exact ⟨h1, h2⟩

theorem shortcut_nearlyEqual (sp : DubinsSpace) (hk : 0 < sp.kappa) (s1 s2 : State)
    (h : (sp.params s1 s2).1 < DUBINS_EPS ∧
      |(sp.params s1 s2).2.1 - (sp.params s1 s2).2.2| < DUBINS_EPS) :
    NearlyEqual sp.kappa s1 s2 := by
  obtain ⟨hd, _, _, _, hal, hbe⟩ := params_goal sp hk s1 s2
  obtain ⟨h1, h2⟩ := h
  refine ⟨by rw [hd] at h1; exact h1, ?_⟩
  obtain ⟨n, hn⟩ := hal.sub hbe
  refine ⟨n, ?_⟩
  have : s1.theta - s2.theta + n * (2 * π) = (sp.params s1 s2).2.1 - (sp.params s1 s2).2.2 := by
    rw [hn]; ring
  rw [this]; exact h2

theorem dist2_symm (s1 s2 : State) : dist2 s2 s1 = dist2 s1 s2 := by
  unfold dist2; exact dist_symm _ _ _ _

theorem nearlyEqual_symm {kappa : ℝ} {s1 s2 : State} (h : NearlyEqual kappa s2 s1) :
    NearlyEqual kappa s1 s2 := by
  obtain ⟨h1, n, hn⟩ := h
  refine ⟨by rw [dist2_symm] at h1; exact h1, -n, ?_⟩
  rw [← abs_neg]
  have : -(s1.theta - s2.theta + ((-n : ℤ) : ℝ) * (2 * π)) = s2.theta - s1.theta + n * (2 * π) := by
    push_cast; ring
  rw [this]; exact hn

theorem sqrt_le_zero_iff {a b : ℝ} (h : √(a ^ 2 + b ^ 2) ≤ 0) : a = 0 ∧ b = 0 := by
  have h1 : √(a ^ 2 + b ^ 2) = 0 := le_antisymm h (sqrt_nonneg _)
  rw [sqrt_eq_zero (by positivity)] at h1
  constructor <;> nlinarith [sq_nonneg a, sq_nonneg b]

/-- Core of C15: everything except the shortcut. -/
theorem dubins_core {sp : DubinsSpace} (hk : 0 < sp.kappa) {s1 s2 : State} {eps : ℝ} (heps : 0 ≤ eps)
    (hfar : sp.kappa * dist2 s1 s2 ≤ 10 ^ 200) (hne : ¬ NearlyEqual sp.kappa s1 s2)
    (hz : ¬ NearlyTangent sp.kappa s1 s2 ∨ 1 / 10 ^ 9 ≤ eps) :
    let r := arriveAll ((sp.get_controls s1 s2).map seg) (pose s1)
    √((r.x - s2.x) ^ 2 + (r.y - s2.y) ^ 2) ≤ eps / sp.kappa ∧ AngleEq r.theta s2.theta := by
  have fw : ∀ t1 t2 : State, sp.kappa * dist2 t1 t2 ≤ 10 ^ 200 → ¬ NearlyEqual sp.kappa t1 t2 →
      (¬ NearlyTangent sp.kappa t1 t2 ∨ 1 / 10 ^ 9 ≤ eps) →
      let r := arriveAll ((sp.pathControls (sp.dubins t1 t2)).map seg) (pose t1)
      √((r.x - t2.x) ^ 2 + (r.y - t2.y) ^ 2) ≤ eps / sp.kappa ∧ AngleEq r.theta t2.theta := by
    intro t1 t2 hf hn hzz
    obtain ⟨hd, hd0, _⟩ := params_goal sp hk t1 t2
    have hit := dubins_hits (eps := eps) (al := (sp.params t1 t2).2.1) (be := (sp.params t1 t2).2.2)
      hd0 (by rw [hd]; exact hf) (fun h => hn (shortcut_nearlyEqual sp hk t1 t2 h))
      (hzz.imp_left (fun h h' => h (tangentZone_iff sp hk t1 t2 h')))
    obtain ⟨r1, g, hg1, hg2⟩ := hits_reaches hk heps hit
    refine ⟨r1, ?_⟩
    have : (arriveAll ((sp.pathControls (sp.dubins t1 t2)).map seg) (pose t1)).theta = g := by
      have := abs_nonpos_iff.1 hg2
      exact sub_eq_zero.1 this
    rw [this]; exact hg1
  unfold DubinsSpace.get_controls
  cases hfd : sp.forwards with
  | true => simp only [if_true]; exact fw s1 s2 hfar hne hz
  | false =>
    simp only [Bool.false_eq_true, if_false]
    apply back_reaches
    refine fw s2 s1 (by rw [dist2_symm]; exact hfar) (fun h => hne (nearlyEqual_symm h))
      (hz.imp_left (fun h h' => h (nearlyTangent_symm h')))

theorem dubins_asserts {sp : DubinsSpace} (hk : 0 < sp.kappa) (s1 s2 : State)
    (hfar : sp.kappa * dist2 s1 s2 ≤ 10 ^ 200) :
    let a := sp.dubins s1 s2
    0 ≤ a.t ∧ a.t < 2 * π ∧ 0 ≤ a.p ∧ 0 ≤ a.q ∧ a.q < 2 * π ∧
      (a.type.2.1 ≠ .straight → π < a.p ∧ a.p < 2 * π) ∧ a.type.1 ≠ .straight ∧
      a.type.2.2 ≠ .straight := by
  obtain ⟨hd, hd0, _⟩ := params_goal sp hk s1 s2
  exact dubins_ranges hd0 (by rw [hd]; exact hfar)

theorem totalLength_neg (cs : List Segment) :
    totalLength (cs.reverse.map Segment.neg) = totalLength cs := by
  unfold totalLength
  rw [List.map_map, List.map_reverse, List.sum_reverse]
  congr 2
  funext c
  simp [Segment.neg]

theorem twopify_half (x y : ℝ) (h : AngleEq x y) :
    twopify (x - y + 0.5 * DUBINS_EPS) < DUBINS_EPS := by
  have h1 : AngleEq (x - y + 0.5 * DUBINS_EPS) (0.5 * DUBINS_EPS) := by
    obtain ⟨n, hn⟩ := h
    exact ⟨n, by rw [hn]; ring⟩
  rw [twopify_congr h1, twopify_of_mem]
  · unfold DUBINS_EPS; norm_num
  · unfold DUBINS_EPS; norm_num
  · unfold DUBINS_EPS; linarith [pi_gt_three]

theorem abs_lt_eps {a b : ℝ} (h : a ^ 2 + b ^ 2 ≤ (1 / 10 ^ 9) ^ 2) :
    |a| < DUBINS_EPS ∧ |b| < DUBINS_EPS := by
  have h1 : |a| ≤ 1 / 10 ^ 9 := abs_le_of_sq_le_sq (by nlinarith [sq_nonneg b]) (by norm_num)
  have h2 : |b| ≤ 1 / 10 ^ 9 := abs_le_of_sq_le_sq (by nlinarith [sq_nonneg a]) (by norm_num)
  unfold DUBINS_EPS
  constructor
  · refine lt_of_le_of_lt h1 (by norm_num)
  · refine lt_of_le_of_lt h2 (by norm_num)

end Props
