import Verif.Lemmas.Behind
import Verif.Props.Optimal

/-!
# A goal that is not ahead costs a full circle: C130
-/

noncomputable section

namespace Props

open SF Spec Real Set

/-- How far `q` lies ahead of `p`, for a car that drives in direction `d`, as seen from `p`. -/
def ahead (d : ℝ) (p q : Config) : ℝ := d * ((q.x - p.x) * cos p.theta + (q.y - p.y) * sin p.theta)

/-- The same as seen from `q`. -/
def aheadEnd (d : ℝ) (p q : Config) : ℝ := d * ((q.x - p.x) * cos q.theta + (q.y - p.y) * sin q.theta)

/-- A path of bounded curvature that is shorter than a full circle less the change `φ` of the heading gets ahead, by at least so much,
both as seen from the start and as seen from the end. -/
def GetsAhead (d kappa L φ : ℝ) (p q : Config) : Prop :=
  kappa * L < 2 * π - |φ| →
    (2 * sin ((kappa * L + |φ|) / 2) - sin |φ|) / kappa ≤ ahead d p q ∧
    (2 * sin ((kappa * L + |φ|) / 2) - sin |φ|) / kappa ≤ aheadEnd d p q

/-- A path of length `L` that does not get ahead though it ends in another place with the same heading is at least as long as a full
circle. -/
def NeedsCircle (d kappa L : ℝ) (p q : Config) : Prop :=
  AngleEq q.theta p.theta → ¬ (q.x = p.x ∧ q.y = p.y) → ahead d p q ≤ 0 → 2 * π / kappa ≤ L

/-- **C130, all paths.** Whatever path of bounded curvature and one driving direction. -/
theorem C130_paths {d kappa L φ : ℝ} {p q : Config} (hd : d = 1 ∨ d = -1) (hk : 0 < kappa) (hL : 0 ≤ L) (h : CanDrive d kappa L p q)
    (hφ : AngleEq q.theta (p.theta + φ)) : GetsAhead d kappa L φ p q := by
  intro hs
  obtain ⟨h1, h2⟩ := CanDrive.progress hd hk hL h hφ hs
  rw [div_le_iff₀' hk, div_le_iff₀' hk]
  exact ⟨h1, h2⟩

/-- **C130, all paths, goals that are not ahead.** -/
theorem C130_paths_circle {d kappa L : ℝ} {p q : Config} (hd : d = 1 ∨ d = -1) (hk : 0 < kappa) (hL : 0 ≤ L)
    (h : CanDrive d kappa L p q) : NeedsCircle d kappa L p q := by
  intro ha hne hb
  by_contra hlt
  rw [not_le, lt_div_iff₀' hk] at hlt
  have := (C130_paths (φ := 0) hd hk hL h (by rwa [add_zero]) (by rw [abs_zero]; linarith)).1
  rw [abs_zero, add_zero, sin_zero, sub_zero, div_le_iff₀' hk] at this
  rcases hL.eq_or_lt with h0 | h0
  · obtain ⟨q', ⟨X, Y, T, -, -, -, x0, y0, -, x1, y1, -⟩, ex, ey, -⟩ := h
    rw [← h0] at x1 y1
    exact hne ⟨by rw [← ex, ← x1, x0], by rw [← ey, ← y1, y0]⟩
  · have hp : 0 < sin (kappa * L / 2) := sin_pos_of_pos_of_lt_pi (by positivity) (by linarith)
    nlinarith

/-- **C130, controls.** In particular all lists of controls, with clothoids or without. -/
theorem C130_controls {d kappa φ : ℝ} {p q : Config} (hd : d = 1 ∨ d = -1) (hk : 0 < kappa) {cs : List Segment}
    (hdir : ∀ c ∈ cs, c.len ≠ 0 → c.dir = d) (hc : CurvatureAtMost kappa cs) (hr : Reaches cs p q) :
    NeedsCircle d kappa (totalLength cs) p q ∧
    (AngleEq q.theta (p.theta + φ) → GetsAhead d kappa (totalLength cs) φ p q) := by
  obtain ⟨r, h1, h2⟩ := hr
  have h : CanDrive d kappa (totalLength cs) p q := ⟨r, DrivesAll.curve hd h1 hdir hc, h2⟩
  have hL : 0 ≤ totalLength cs := by unfold totalLength; exact List.sum_nonneg (by simp)
  exact ⟨C130_paths_circle hd hk hL h, C130_paths hd hk hL h⟩

/-- **C130, the Dubins planner, outside of the tolerances.** The reported distance to a goal with the same heading in another place that
is not ahead is at least the length of a full circle, and for all goals a distance shorter than that means to get ahead.  Missing: goals
which the planner takes to be equal or tangent, see `C130_dubins_false`. -/
theorem C130_dubins_partial {sp : DubinsSpace} (hv : sp.Valid) (s1 s2 : State) (hfar : sp.kappa * dist2 s1 s2 ≤ 10 ^ 200)
    (hne : ¬ NearlyEqual sp.kappa s1 s2) (hz : ¬ NearlyTangent sp.kappa s1 s2) :
    NeedsCircle (dirOf sp) sp.kappa (sp.get_distance s1 s2) (pose s1) (pose s2) ∧
    ∀ φ, AngleEq s2.theta (s1.theta + φ) → GetsAhead (dirOf sp) sp.kappa (sp.get_distance s1 s2) φ (pose s1) (pose s2) := by
  have hd : dirOf sp = 1 ∨ dirOf sp = -1 := by unfold dirOf; split_ifs <;> simp
  obtain ⟨h0, h1⟩ := C112_dubins_attained hv s1 s2 hfar hne hz
  exact ⟨C130_paths_circle hd hv.1 h0 h1, fun φ hφ => C130_paths hd hv.1 h0 h1 hφ⟩

/-- A goal behind, `e` away, with the same heading: outside of the tolerances from 1e-6 on. -/
theorem behind_outside {e : ℝ} (he : 1 / 10 ^ 6 ≤ e) :
    ¬ NearlyEqual 1 ⟨0, 0, 0, 0, 0⟩ ⟨-e, 0, 0, 0, 0⟩ ∧ ¬ NearlyTangent 1 ⟨0, 0, 0, 0, 0⟩ ⟨-e, 0, 0, 0, 0⟩ := by
  have he0 : 0 < e := lt_of_lt_of_le (by norm_num) he
  constructor
  · rintro ⟨h, -⟩
    have : dist2 ⟨0, 0, 0, 0, 0⟩ ⟨-e, 0, 0, 0, 0⟩ = e := by
      unfold dist2
      dsimp only
      rw [show (-e - 0) ^ 2 + ((0:ℝ) - 0) ^ 2 = e ^ 2 by ring, sqrt_sq he0.le]
    rw [this] at h
    linarith
  · rintro ⟨j, hj, -, h⟩
    simp only [crossDist2, sin_zero, cos_zero, mul_zero, add_zero, sub_zero, one_mul, mul_one, zero_sub] at h
    rcases hj with rfl | rfl <;> nlinarith

/-- Goals a metre, a millimetre and two micrometres behind, for a car with a turning radius of one metre: all at least a full circle. -/
example : ∀ e ∈ [(1:ℝ), 1 / 10 ^ 3, 2 / 10 ^ 6],
    2 * π ≤ (⟨1, 1, true⟩ : DubinsSpace).get_distance ⟨0, 0, 0, 0, 0⟩ ⟨-e, 0, 0, 0, 0⟩ := by
  intro e he
  have h1 : 1 / 10 ^ 6 ≤ e ∧ e ≤ 1 := by
    simp only [List.mem_cons, List.not_mem_nil, or_false] at he
    rcases he with rfl | rfl | rfl <;> norm_num
  have he0 : 0 < e := lt_of_lt_of_le (by norm_num) h1.1
  obtain ⟨a, b⟩ := behind_outside h1.1
  have := (C130_dubins_partial (sp := ⟨1, 1, true⟩) ⟨one_pos, one_pos⟩ _ _ (by
    unfold dist2
    dsimp only
    rw [show (-e - 0) ^ 2 + ((0:ℝ) - 0) ^ 2 = e ^ 2 by ring, sqrt_sq he0.le, one_mul]
    exact h1.2.trans (by norm_num)) a b).1 ⟨0, by simp [pose]⟩ (by simp [pose]; exact he0.ne') (by
      simp [ahead, pose, dirOf]; exact he0.le)
  simpa using this

/-- **C130 is false within the tolerances**, and the distance jumps there: a goal 0.6 micrometres behind has a distance of at most a
micrometre, a goal two micrometres behind more than six metres. -/
theorem C130_dubins_false : ∃ (sp : DubinsSpace) (s s1 s2 : State), sp.Valid ∧ s1.theta = s.theta ∧ s2.theta = s.theta ∧
    ahead (dirOf sp) (pose s) (pose s1) < 0 ∧ ahead (dirOf sp) (pose s) (pose s2) < 0 ∧ dist2 s1 s2 < 2 / 10 ^ 6 ∧
    sp.get_distance s s1 ≤ 1 / 10 ^ 6 ∧ 6 < sp.get_distance s s2 := by
  refine ⟨⟨1, 1, true⟩, ⟨0, 0, 0, 0, 0⟩, ⟨-(6 / 10 ^ 7), 0, 0, 0, 0⟩, ⟨-(2 / 10 ^ 6), 0, 0, 0, 0⟩, ⟨one_pos, one_pos⟩, rfl, rfl, ?_, ?_,
    ?_, ?_, ?_⟩
  · simp [ahead, pose, dirOf]
  · simp [ahead, pose, dirOf]
  · unfold dist2
    rw [sqrt_lt' (by norm_num)]
    norm_num
  · obtain ⟨e, he⟩ : ∃ e : ℝ, e = 6 / 10 ^ 7 := ⟨_, rfl⟩
    have he0 : 0 < e := by rw [he]; norm_num
    rw [← he]
    have hp : ((⟨1, 1, true⟩ : DubinsSpace).params ⟨0, 0, 0, 0, 0⟩ ⟨-e, 0, 0, 0, 0⟩).1 = e := by
      simp only [DubinsSpace.params]
      rw [show (-e - 0) * (-e - 0) + ((0:ℝ) - 0) * (0 - 0) = e ^ 2 by ring, sqrt_sq he0.le, mul_one]
    have hd : (⟨1, 1, true⟩ : DubinsSpace).dubins ⟨0, 0, 0, 0, 0⟩ ⟨-e, 0, 0, 0, 0⟩ = ⟨dubins_path_type 0, 0, e, 0⟩ := by
      unfold DubinsSpace.dubins SF.dubins
      rw [hp, if_pos]
      constructor
      · unfold DUBINS_EPS; rw [he]; norm_num
      · simp only [DubinsSpace.params, sub_self, abs_zero]; unfold DUBINS_EPS; norm_num
    have hl : (⟨1, 1, true⟩ : DubinsSpace).get_distance ⟨0, 0, 0, 0, 0⟩ ⟨-e, 0, 0, 0, 0⟩ = e := by
      simp [DubinsSpace.get_distance, hd, DubinsSpace.kappa_inv, DPath.length]
    rw [hl, he]; norm_num
  · obtain ⟨a, b⟩ := behind_outside (e := 2 / 10 ^ 6) (by norm_num)
    have := (C130_dubins_partial (sp := ⟨1, 1, true⟩) ⟨one_pos, one_pos⟩ _ _ (by
      unfold dist2
      dsimp only
      rw [show (-(2 / 10 ^ 6) - 0) ^ 2 + ((0:ℝ) - 0) ^ 2 = (2 / 10 ^ 6) ^ 2 by ring, sqrt_sq (by norm_num), one_mul]
      norm_num) a b).1 ⟨0, by simp [pose]⟩ (by simp [pose]) (by simp [ahead, pose, dirOf]; norm_num)
    have hp := pi_gt_three
    simp only [div_one] at this
    linarith

/-- **C130, sharpness.** The bound is attained: a goal beside the start, four turning radii away, with the same heading is exactly a full
circle away (two half circles), for every curvature. -/
theorem C130_dubins_sharp {kappa disc : ℝ} (hk : 0 < kappa) (hd : 0 < disc) :
    (⟨kappa, disc, true⟩ : DubinsSpace).get_distance ⟨0, 0, 0, 0, 0⟩ ⟨0, 4 / kappa, 0, 0, 0⟩ = 2 * π / kappa := by
  have hk' := hk.ne'
  have hp := pi_pos
  have h4 : 0 < 4 / kappa := by positivity
  have hl : 0 < π / kappa := by positivity
  have hdist : kappa * dist2 ⟨0, 0, 0, 0, 0⟩ ⟨0, 4 / kappa, 0, 0, 0⟩ = 4 := by
    unfold dist2
    dsimp only
    rw [show ((0:ℝ) - 0) ^ 2 + (4 / kappa - 0) ^ 2 = (4 / kappa) ^ 2 by ring, sqrt_sq h4.le]
    field_simp
  apply le_antisymm
  · have hr : Reaches [⟨π / kappa, kappa, 0⟩, ⟨π / kappa, -kappa, 0⟩] (pose ⟨0, 0, 0, 0, 0⟩) (pose ⟨0, 4 / kappa, 0, 0, 0⟩) := by
      refine ⟨⟨0, 4 / kappa, 0⟩, .cons (q := ⟨0, 2 / kappa, π⟩) ?_ (.cons (q := ⟨0, 4 / kappa, 0⟩) ?_ (.nil _)), rfl, rfl, 0, by simp [pose]⟩
      · rw [drives_iff, arrive_arc hk']
        simp only [Segment.dir, not_lt.2 hl.le, if_false, abs_of_pos hl, pose, zero_add, one_mul, div_mul_cancel₀ _ hk', sin_zero, cos_zero,
          sin_pi, cos_pi]
        ext <;> dsimp only <;> field_simp <;> ring
      · rw [drives_iff, arrive_arc (neg_ne_zero.2 hk')]
        simp only [Segment.dir, not_lt.2 hl.le, if_false, abs_of_pos hl, one_mul, mul_neg, div_mul_cancel₀ _ hk', add_neg_cancel, sin_zero,
          cos_zero, sin_pi, cos_pi]
        ext <;> dsimp only <;> field_simp <;> ring
    have := C112_dubins_controls (sp := ⟨kappa, disc, true⟩) ⟨hk, hd⟩ _ _ _ (by
      intro c hc _
      simp only [List.mem_cons, List.not_mem_nil, or_false] at hc
      rcases hc with rfl | rfl <;> simp [Segment.dir, dirOf, not_lt.2 hl.le]) (by
      intro c hc
      simp only [List.mem_cons, List.not_mem_nil, or_false] at hc
      rcases hc with rfl | rfl <;> simp [abs_of_pos hk]) hr
    refine this.trans_eq ?_
    simp only [totalLength, List.map_cons, List.map_nil, List.sum_cons, List.sum_nil, abs_of_pos hl]
    ring
  · refine (C130_dubins_partial (sp := ⟨kappa, disc, true⟩) ⟨hk, hd⟩ _ _ (by dsimp only; rw [hdist]; norm_num) ?_ ?_).1 ⟨0, by simp [pose]⟩ ?_ ?_
    · rintro ⟨h, -⟩
      dsimp only at h
      rw [hdist] at h
      norm_num at h
    · rintro ⟨e, he, -, h⟩
      simp only [crossDist2, sin_zero, cos_zero, mul_zero, add_zero, sub_zero, mul_one, mul_div_cancel₀ _ hk', sub_self] at h
      rcases he with rfl | rfl <;> norm_num at h
    · simp [pose, hk']
    · simp [ahead, pose]

end Props
