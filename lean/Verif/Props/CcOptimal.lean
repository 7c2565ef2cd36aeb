import Verif.Lemmas.CcOptimalAll

/-!
# Optimality of CC00-Dubins
-/

noncomputable section

namespace Props

open SF Spec Real

variable {sp : HCSpace} {s1 s2 : State}

/-- Driving direction of a space. -/
def drivingSign (sp : HCSpace) : ℝ := if sp.forwards then 1 else -1

/-- The goal `s2` is not on a circle of the start `s1`, within the tolerance 1e-4. -/
def OffCircles (sp : HCSpace) (s1 s2 : State) : Prop :=
  ∀ left : Bool, ¬ configuration_on_hc_cc_circle
    (circleAt (configuration s1.x s1.y s1.theta 0) left sp.forwards true sp.param)
    (configuration s2.x s2.y s2.theta 0)

/-- The goal `s2` is straight ahead of the start `s1` in driving direction, within the tolerance 1e-4. -/
def StraightAhead (sp : HCSpace) (s1 s2 : State) : Prop :=
  let q1 := configuration s1.x s1.y s1.theta 0
  let q2 := configuration s2.x s2.y s2.theta 0
  if sp.forwards then configuration_aligned q1 q2 else configuration_aligned q2 q1

theorem straightAhead_iff :
    StraightAhead sp s1 s2 ↔ Spec.CC00.Ahead sp (Spec.CC00.startOf s1) (Spec.CC00.startOf s2) := by
  unfold StraightAhead Spec.CC00.Ahead Spec.CC00.startOf
  cases sp.forwards <;> simp

theorem offCircles_all (h : OffCircles sp s1 s2) (i : ℕ) : ¬ configuration_on_hc_cc_circle
    (CC00.start_circle sp (Spec.CC00.startOf s1) i) (Spec.CC00.startOf s2) := h (decide (i = 0))

/-! ## C68 -/

/-- **C68.** No turn-line-turn, turn-turn or turn-turn-turn path to the goal is shorter than
`get_distance`, up to the error of the Fresnel integrals. -/
theorem C68_cc00_optimal (h : InRange sp.kappa sp.sigma) {cs : List Segment}
    (hw : CCWord sp.kappa sp.sigma (drivingSign sp) cs)
    (he : SameConfig (libAll cs (pose s1)) (pose s2)) (hoff : OffCircles sp s1 s2) :
    CC00.get_distance sp s1 s2 ≤ totalLength cs + pathTol cs :=
  Spec.CC00.word_le_tol h.kappa h.sigma h.clothoid hw he (offCircles_all hoff)

/-- **C68, exact.** Unless the goal is straight ahead there is no tolerance. -/
theorem C68_cc00_optimal_exact (h : InRange sp.kappa sp.sigma) {cs : List Segment}
    (hw : CCWord sp.kappa sp.sigma (drivingSign sp) cs)
    (he : SameConfig (libAll cs (pose s1)) (pose s2)) (hoff : OffCircles sp s1 s2)
    (hA : ¬ StraightAhead sp s1 s2) :
    CC00.get_distance sp s1 s2 ≤ totalLength cs :=
  Spec.CC00.word_le h.kappa h.sigma h.clothoid hw he (offCircles_all hoff)
    (fun h' => hA (straightAhead_iff.2 h'))

/-- **C68, one turn.** No single turn to the goal is shorter. -/
theorem C68_cc00_turn (h : InRange sp.kappa sp.sigma) {cs : List Segment} {l : ℝ} (hl : l = 1 ∨ l = -1)
    (hw : CCTurn sp.kappa sp.sigma (drivingSign sp) l cs)
    (he : SameConfig (libAll cs (pose s1)) (pose s2)) :
    CC00.get_distance sp s1 s2 ≤ totalLength cs + pathTol cs ∧
    (¬ StraightAhead sp s1 s2 → CC00.get_distance sp s1 s2 ≤ totalLength cs) := by
  obtain ⟨b, rfl⟩ := exists_sg hl
  rw [straightAhead_iff]
  exact Spec.CC00.turn_le h.kappa h.sigma h.clothoid hw he

/-- **C68, straight line.** A straight line to the goal is not shorter. -/
theorem C68_cc00_line {x : ℝ} (hx : 0 ≤ x)
    (he : SameConfig (libAll [⟨drivingSign sp * x, 0, 0⟩] (pose s1)) (pose s2)) :
    CC00.get_distance sp s1 s2 ≤ x :=
  Spec.CC00.line_le hx he

/-- A left turn of arc length 1, a line of length 10000 and a right turn of arc length 2 end off the
circles of the start. -/
example : ∃ (s2 : State) (cs : List Segment), InRange 1 1 ∧
    CCWord 1 1 (drivingSign ⟨1, 1, 1 / 10, true⟩) cs ∧
    SameConfig (libAll cs (pose ⟨0, 0, 0, 0, 0⟩)) (pose s2) ∧
    OffCircles ⟨1, 1, 1 / 10, true⟩ ⟨0, 0, 0, 0, 0⟩ s2 ∧ totalLength cs = 10007 := by
  obtain ⟨cs, hcs⟩ : ∃ cs, cs = fullTurn 1 1 1 1 1 ++ [⟨1 * 10000, 0, 0⟩] ++ fullTurn 1 1 1 (-1) 2 := ⟨_, rfl⟩
  have hr : InRange 1 1 := ⟨by norm_num, by norm_num, by norm_num, by norm_num⟩
  have hw : CCWord 1 1 1 cs := by
    rw [hcs]
    exact .tst (Or.inl rfl) (Or.inr rfl) (.full 1 (by norm_num)) (by norm_num) (.full 2 (by norm_num))
  have hlen : totalLength cs = 10007 := by
    rw [hcs]; norm_num [fullTurn, totalLength]
  have hR := radius_le (k := 1) (s := 1) hr.kappa hr.sigma hr.clothoid
  obtain ⟨e, he⟩ : ∃ e, e = libAll cs (pose ⟨0, 0, 0, 0, 0⟩) := ⟨_, rfl⟩
  refine ⟨⟨e.x, e.y, e.theta, 0, 0⟩, cs, hr, by simpa [drivingSign] using hw, he ▸ SameConfig.refl _, ?_, hlen⟩
  -- the goal is far away
  have hfar : 9000 < ‖e.pos‖ := by
    rw [he, hcs, libAll_append, libAll_append]
    obtain ⟨p0, hp0⟩ : ∃ p0, p0 = pose ⟨0, 0, 0, 0, 0⟩ := ⟨_, rfl⟩
    have hz : p0.pos = 0 := by rw [hp0]; rfl
    rw [← hp0]
    have a1 := (fullTurn_end (k := 1) (s := 1) one_pos one_pos (Or.inl rfl) (Or.inl rfl) 1 p0).1
    generalize libAll (fullTurn 1 1 1 1 1) p0 = p1 at a1
    obtain ⟨b1, b2⟩ := lib_line (len := 1 * 10000) p1
    simp only [libAll]
    generalize libArrive ⟨1 * 10000, 0, 0⟩ p1 = p2 at b1 b2
    have c1 := (fullTurn_end (k := 1) (s := 1) one_pos one_pos (Or.inl rfl) (Or.inr rfl) 2 p2).1
    generalize libAll (fullTurn 1 1 1 (-1) 2) p2 = p3 at c1
    have off : ∀ (a b : ℝ) (p : Config), |a| = |ccA 1 1| → |b| = |ccB 1 1| →
        ‖Spec.cen a b p - p.pos‖ ≤ 5 := by
      intro a b p ha hb
      rw [Spec.cen, add_sub_cancel_left, norm_cis_mul, ← sqrt_eq_norm, ← sq_abs a, ← sq_abs b, ha, hb,
        sq_abs, sq_abs]
      norm_num at hR; exact hR
    have o1 := off (1 * ccA 1 1) (1 * ccB 1 1) p0 (by simp) (by simp)
    have o2 := off (-(1 * ccA 1 1)) (1 * ccB 1 1) p1 (by simp) (by simp)
    have o3 := off (1 * ccA 1 1) (-1 * ccB 1 1) p2 (by simp) (by simp)
    have o4 := off (-(1 * ccA 1 1)) (-1 * ccB 1 1) p3 (by simp) (by simp)
    rw [a1] at o2
    rw [c1] at o4
    have hl : ‖p2.pos - p1.pos‖ = 10000 := by
      rw [b1, add_sub_cancel_left, norm_cis_mul, Complex.norm_real]; norm_num
    generalize Spec.cen (1 * ccA 1 1) (1 * ccB 1 1) p0 = z at *
    generalize Spec.cen (1 * ccA 1 1) (-1 * ccB 1 1) p2 = w at *
    rw [hz, sub_zero] at o1
    have : p2.pos - p1.pos = -(w - p2.pos) + (w - p3.pos) + p3.pos - z + (z - p1.pos) := by ring
    rw [this] at hl
    have n1 := norm_add_le (-(w - p2.pos) + (w - p3.pos) + p3.pos - z) (z - p1.pos)
    have n2 := norm_sub_le (-(w - p2.pos) + (w - p3.pos) + p3.pos) z
    have n3 := norm_add_le (-(w - p2.pos) + (w - p3.pos)) p3.pos
    have n4 := norm_add_le (-(w - p2.pos)) (w - p3.pos)
    rw [norm_neg] at n4
    linarith
  intro left hon
  obtain ⟨c, hc⟩ : ∃ c, c = circleAt (configuration 0 0 0 0) left true true (hc_cc_circle_param 1 1) := ⟨_, rfl⟩
  have hok : Spec.CC00.CircOk c 1 1 := by rw [hc]; exact Spec.CC00.circOk_at hr.kappa hr.sigma hr.clothoid _ _ _ _
  have hcr : c.radius ≤ 5 := by rw [hok.ok.radius]; norm_num at hR; exact hR
  have hcc := Spec.CC00.center_start hok
  have hst : (cfg c.start).pos = 0 := by rw [hc]; rfl
  rw [hst, sub_zero] at hcc
  change configuration_on_hc_cc_circle (circleAt (configuration 0 0 0 0) left true true (hc_cc_circle_param 1 1)) _ at hon
  rw [← hc] at hon
  unfold configuration_on_hc_cc_circle at hon
  simp only at hon
  rw [if_pos] at hon
  · exact hon
  · change |point_distance c.xc c.yc e.x e.y - c.radius| > SF.epsilon
    have hd : point_distance c.xc c.yc e.x e.y = ‖e.pos - center c‖ := by
      unfold point_distance; rw [sqrt_eq_norm]; rfl
    have := norm_sub_norm_le e.pos (center c)
    rw [hd, gt_iff_lt, lt_abs]
    left
    norm_num [SF.epsilon]
    linarith

end Props
