import Verif.Props.Sideways
import Verif.Props.Compare

/-!
# Turning in one sense is optimal up to half a turn: C135
-/

noncomputable section

namespace Props

open SF Spec Real

/-- Only full turns to the left (`e = 1`) or to the right (`e = -1`), forwards or backwards: wherever the car drives, its heading changes
in the same sense. -/
def TurnsOnly (e K : ℝ) (cs : List Segment) : Prop := ∀ c ∈ cs, c.sigma = 0 ∧ c.kappa * c.len = e * K * |c.len|

/-- The heading after such turns. -/
theorem turnsOnly_heading {e K : ℝ} {cs : List Segment} (h : TurnsOnly e K cs) {p q : Config} (hd : DrivesAll cs p q) :
    q.theta = p.theta + e * (K * totalLength cs) := by
  induction hd with
  | nil p => simp [totalLength]
  | @cons c cs p q r h1 _ ih =>
    rw [ih fun c' hc' => h c' (List.mem_cons_of_mem _ hc')]
    obtain ⟨hs, hk⟩ := h c List.mem_cons_self
    rw [drives_iff] at h1
    have h2 : q.theta = p.theta + e * K * |c.len| := by
      rw [h1]
      simp only [arrive, heading, hs]
      rw [← hk, ← dir_mul_abs c, dir_mul_abs c]
      have := dir_mul_abs c
      linear_combination c.kappa * this
    rw [h2]
    simp only [totalLength, List.map_cons, List.sum_cons]
    ring

/-- Such turns of at most half a turn in total turn the car by their angle. -/
theorem turnsOnly_turned {e K : ℝ} {cs : List Segment} (hK : 0 ≤ K) (he : IsSign e) (h : TurnsOnly e K cs)
    (hpi : K * totalLength cs ≤ π) {s1 s2 : State} (hr : Reaches cs (pose s1) (pose s2)) :
    TurnedBy (e * (K * totalLength cs)) s1 s2 ∧ |e * (K * totalLength cs)| = K * totalLength cs := by
  have h0 : 0 ≤ K * totalLength cs := mul_nonneg hK (List.sum_nonneg (by simp))
  have e1 : |e * (K * totalLength cs)| = K * totalLength cs := by
    have : |e| = 1 := by rcases he with rfl | rfl <;> norm_num
    rw [abs_mul, this, one_mul, abs_of_nonneg h0]
  refine ⟨⟨by rw [e1]; exact hpi, ?_⟩, e1⟩
  obtain ⟨q, hq, -, -, n, hn⟩ := hr
  have h2 := turnsOnly_heading h hq
  refine ⟨-n, ?_⟩
  have e2 : (pose s2).theta = s2.theta := rfl
  have e3 : (pose s1).theta = s1.theta := rfl
  rw [e2] at hn
  rw [e3] at h2
  push_cast
  linarith

theorem reaches_close {K : ℝ} {cs : List Segment} (hK : 0 ≤ K) (hpi : K * totalLength cs ≤ π) {s1 s2 : State}
    (hr : Reaches cs (pose s1) (pose s2)) : K * dist2 s1 s2 ≤ 10 ^ 200 := by
  obtain ⟨q, hq, hx, hy, -⟩ := hr
  have h1 := hq.chord
  have h2 : dist2 s1 s2 ≤ totalLength cs := by
    refine le_trans (le_of_eq ?_) h1
    rw [dist2, hx, hy]
    rfl
  have h3 := mul_le_mul_of_nonneg_left h2 hK
  have := pi_lt_four
  have : (4:ℝ) ≤ 10 ^ 200 := by norm_num
  linarith

/-- **C135, Reeds-Shepp.** A Reeds-Shepp path whose heading changes in one sense only and by at most half a turn is as short as the
returned one. -/
theorem C135_rs {sp : RSSpace} (hv : sp.Valid) {e : ℝ} (he : IsSign e) {cs : List Segment} (hcs : ReedsSheppPath sp.kappa cs)
    (hto : TurnsOnly e sp.kappa cs) (hpi : sp.kappa * totalLength cs ≤ π) {s1 s2 : State} (hr : Reaches cs (pose s1) (pose s2)) :
    sp.get_distance s1 s2 = totalLength cs := by
  have hk := hv.1
  refine le_antisymm (C25_rs_shortest hv s1 s2 cs hcs hr) ?_
  obtain ⟨h1, h2⟩ := turnsOnly_turned hk.le he hto hpi hr
  have h3 := C131_rs hv (reaches_close hk.le hpi hr) h1
  rwa [h2, mul_div_cancel_left₀ _ hk.ne'] at h3

/-- **C135, Reeds-Shepp, goals on a turning circle.** Up to half a circle, left or right, forwards or backwards, the distance is the arc. -/
theorem C135_rs_arc {sp : RSSpace} (hv : sp.Valid) {e s a : ℝ} (he : IsSign e) (hs : IsSign s) (h0 : 0 ≤ a) (h1 : a ≤ π) {s1 s2 : State}
    (hr : Reaches [rsPiece sp.kappa e s a] (pose s1) (pose s2)) : sp.get_distance s1 s2 = a / sp.kappa := by
  have hk := hv.1
  have hs' : |s| = 1 := by rcases hs with rfl | rfl <;> norm_num
  have habs : |s * a / sp.kappa| = a / sp.kappa := by rw [abs_div, abs_mul, hs', one_mul, abs_of_nonneg h0, abs_of_pos hk]
  have hes : IsSign (e * s) := by rcases he with rfl | rfl <;> rcases hs with rfl | rfl <;> norm_num [IsSign]
  have hl : totalLength [rsPiece sp.kappa e s a, rsPiece sp.kappa 0 s 0, rsPiece sp.kappa e s 0] = a / sp.kappa := by
    simp [totalLength, rsPiece, habs]
  rw [← hl]
  refine C135_rs hv hes (.csc he he hs ⟨h0, h1⟩ le_rfl ⟨le_rfl, pi_pos.le⟩) ?_ ?_ ?_
  · intro c hc
    simp only [List.mem_cons, List.not_mem_nil, or_false] at hc
    rcases hc with rfl | rfl | rfl
    · refine ⟨rfl, ?_⟩
      simp only [rsPiece, habs]; ring
    · simp [rsPiece]
    · simp [rsPiece]
  · rw [hl, mul_div_cancel₀ _ hk.ne']; exact h1
  · obtain ⟨q, hq, hsame⟩ := hr
    refine ⟨q, ?_, hsame⟩
    rw [drivesAll_iff] at hq ⊢
    rw [hq]
    simp [arriveAll, rsPiece, arrive_zero]

/-- **C135, Dubins, goals on a turning circle.** Up to half a circle ahead the distance is at most the arc, and exactly the arc
outside the tolerance zones. -/
theorem C135_dubins_arc {sp : DubinsSpace} (hv : sp.Valid) (hf : sp.forwards = true) {e a : ℝ} (he : IsSign e) (h0 : 0 ≤ a) (h1 : a ≤ π)
    {s1 s2 : State} (hr : Reaches [⟨a / sp.kappa, e * sp.kappa, 0⟩] (pose s1) (pose s2)) :
    sp.get_distance s1 s2 ≤ a / sp.kappa ∧ (a - 1 / 10 ^ 6) / sp.kappa ≤ sp.get_distance s1 s2 ∧
    (¬ NearlyEqual sp.kappa s1 s2 → ¬ NearlyTangent sp.kappa s1 s2 → sp.get_distance s1 s2 = a / sp.kappa) := by
  have hk := hv.1
  have ha : 0 ≤ a / sp.kappa := div_nonneg h0 hk.le
  have hl : totalLength [(⟨a / sp.kappa, e * sp.kappa, 0⟩ : Segment)] = a / sp.kappa := by
    simp [totalLength, abs_of_nonneg ha]
  have hto : TurnsOnly e sp.kappa [(⟨a / sp.kappa, e * sp.kappa, 0⟩ : Segment)] := by
    intro c hc
    rw [List.mem_singleton.1 hc]
    exact ⟨rfl, by simp only [abs_of_nonneg ha]⟩
  have hpi : sp.kappa * totalLength [(⟨a / sp.kappa, e * sp.kappa, 0⟩ : Segment)] ≤ π := by
    rw [hl, mul_div_cancel₀ _ hk.ne']; exact h1
  obtain ⟨g1, g2⟩ := turnsOnly_turned hk.le he hto hpi hr
  have hfar := reaches_close hk.le hpi hr
  have up : sp.get_distance s1 s2 ≤ a / sp.kappa := by
    have hl3 : totalLength [(⟨a / sp.kappa, e * sp.kappa, 0⟩ : Segment), ⟨0, 0, 0⟩, ⟨0, e * sp.kappa, 0⟩] = a / sp.kappa := by
      simp [totalLength, abs_of_nonneg ha]
    rw [← hl3]
    refine C18_dubins_shortest hv hf s1 s2 _ (.csc he he ha le_rfl le_rfl) ?_
    obtain ⟨q, hq, hsame⟩ := hr
    refine ⟨q, ?_, hsame⟩
    rw [drivesAll_iff] at hq ⊢
    rw [hq]
    simp [arriveAll, arrive_zero]
  have hv' : sp.kappa * totalLength [(⟨a / sp.kappa, e * sp.kappa, 0⟩ : Segment)] = a := by rw [hl, mul_div_cancel₀ _ hk.ne']
  refine ⟨up, ?_, fun hn ht => le_antisymm up ?_⟩
  · have := C131_dubins hv hfar g1
    rwa [g2, hv'] at this
  · have := C131_dubins_exact hv hfar hn ht g1
    rwa [g2, hv'] at this

/-- **C135, Dubins, backwards.** The goal is behind on a turning circle, that is, from the goal an arc ahead leads to the start. -/
theorem C135_dubins_arc_backwards {kappa disc : ℝ} (hv : (DubinsSpace.mk kappa disc false).Valid) {e a : ℝ} (he : IsSign e) (h0 : 0 ≤ a)
    (h1 : a ≤ π) {s1 s2 : State} (hr : Reaches [⟨a / kappa, e * kappa, 0⟩] (pose s2) (pose s1)) :
    (DubinsSpace.mk kappa disc false).get_distance s1 s2 ≤ a / kappa ∧
    (a - 1 / 10 ^ 6) / kappa ≤ (DubinsSpace.mk kappa disc false).get_distance s1 s2 ∧
    (¬ NearlyEqual kappa s2 s1 → ¬ NearlyTangent kappa s2 s1 → (DubinsSpace.mk kappa disc false).get_distance s1 s2 = a / kappa) := by
  rw [C21_dubins_backwards]
  exact C135_dubins_arc (sp := ⟨kappa, disc, true⟩) hv rfl he h0 h1 hr

/-- Half a circle of radius 1: the distance is `π`. -/
example : (⟨1, 1⟩ : RSSpace).get_distance ⟨0, 0, 0, 0, 0⟩ ⟨0, 2, π, 0, 0⟩ = π := by
  have hp := pi_pos
  have := C135_rs_arc (sp := ⟨1, 1⟩) ⟨one_pos, one_pos⟩ (e := 1) (s := 1) (a := π) (.inl rfl) (.inl rfl) hp.le le_rfl
    (s1 := ⟨0, 0, 0, 0, 0⟩) (s2 := ⟨0, 2, π, 0, 0⟩) (by
      refine ⟨⟨0, 2, π⟩, .cons (q := ⟨0, 2, π⟩) ?_ (.nil _), SameConfig.refl _⟩
      rw [drives_iff]
      simp only [rsPiece, one_mul, div_one]
      rw [arrive_arc one_ne_zero]
      simp only [Segment.dir, not_lt.2 hp.le, if_false, abs_of_pos hp, pose, zero_add, one_mul, mul_one, sin_zero, cos_zero, sin_pi, cos_pi]
      ext <;> dsimp only <;> norm_num)
  rw [this, div_one]

/-- A turn in three moves: forwards left, backwards right, forwards left. -/
example : TurnsOnly 1 1 [rsPiece 1 1 1 1, rsPiece 1 (-1) (-1) (1 / 2), rsPiece 1 1 1 1] ∧
    ReedsSheppPath 1 [rsPiece 1 1 1 1, rsPiece 1 (-1) (-1) (1 / 2), rsPiece 1 1 1 1] ∧
    1 * totalLength [rsPiece 1 1 1 1, rsPiece 1 (-1) (-1) (1 / 2), rsPiece 1 1 1 1] ≤ π := by
  have := pi_gt_three
  refine ⟨?_, .ccc (.inl rfl) (.inl rfl) (.inl rfl) ⟨by norm_num, by linarith⟩ (by norm_num) (by linarith) (by norm_num), ?_⟩
  · intro c hc
    simp only [List.mem_cons, List.not_mem_nil, or_false] at hc
    rcases hc with rfl | rfl | rfl <;> norm_num [rsPiece]
  · norm_num [totalLength, rsPiece]
    linarith

end Props
