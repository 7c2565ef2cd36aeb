import Verif.Lemmas.CcRsOptimal

/-!
# Optimality of CC00-Reeds-Shepp
-/

noncomputable section

namespace Props

open SF Spec Real

variable {sp : HCSpace} {s1 s2 : State}

/-- The goal `s2` is not on one of the four circles of the start `s1`, within the tolerance 1e-4. -/
def OffAllCircles (sp : HCSpace) (s1 s2 : State) : Prop :=
  ∀ left forward : Bool, ¬ configuration_on_hc_cc_circle
    (circleAt (configuration s1.x s1.y s1.theta 0) left forward false sp.param)
    (configuration s2.x s2.y s2.theta 0)

/-- The goal `s2` is straight ahead of the start `s1` or straight behind it, within the tolerance 1e-4. -/
def OnLine (s1 s2 : State) : Prop :=
  configuration_aligned (configuration s1.x s1.y s1.theta 0) (configuration s2.x s2.y s2.theta 0) ∨
  configuration_aligned (configuration s2.x s2.y s2.theta 0) (configuration s1.x s1.y s1.theta 0)

theorem offAllCircles_off (h : OffAllCircles sp s1 s2) : Spec.CcRsOpt.Off sp s1 s2 := by
  intro i hi
  have : ∃ f l, i = Spec.CcRsOpt.idx f l := by
    obtain rfl | rfl | rfl | rfl : i = 0 ∨ i = 1 ∨ i = 2 ∨ i = 3 := by omega
    · exact ⟨true, true, rfl⟩
    · exact ⟨true, false, rfl⟩
    · exact ⟨false, true, rfl⟩
    · exact ⟨false, false, rfl⟩
  obtain ⟨f, l, rfl⟩ := this
  have := h l f
  cases f <;> cases l <;> exact this

/-! ## C92 -/

/-- **C92.** No path to the goal with a turn at both ends and at most three parts, with or without
cusps, is shorter than `get_distance`, up to the error of the Fresnel integrals. -/
theorem C92_cc_rs_optimal (h : InRange sp.kappa sp.sigma) {cs : List Segment}
    (hw : RSWord sp.kappa sp.sigma cs) (he : SameConfig (libAll cs (pose s1)) (pose s2))
    (hoff : OffAllCircles sp s1 s2) :
    CcRs.get_distance sp s1 s2 ≤ totalLength cs + pathTol cs :=
  Spec.CcRsOpt.word_le_tol h.rng hw he (offAllCircles_off hoff)

/-- **C92, exact.** Unless the goal is straight ahead or behind there is no tolerance. -/
theorem C92_cc_rs_optimal_exact (h : InRange sp.kappa sp.sigma) {cs : List Segment}
    (hw : RSWord sp.kappa sp.sigma cs) (he : SameConfig (libAll cs (pose s1)) (pose s2))
    (hoff : OffAllCircles sp s1 s2) (hA : ¬ OnLine s1 s2) :
    CcRs.get_distance sp s1 s2 ≤ totalLength cs :=
  Spec.CcRsOpt.word_le h.rng hw he (offAllCircles_off hoff) hA

/-- **C92, one turn.** No single turn to the goal is shorter. -/
theorem C92_cc_rs_turn (h : InRange sp.kappa sp.sigma) {cs : List Segment} {l d : ℝ} (hl : Sign l) (hd : Sign d)
    (hw : RSTurn sp.kappa sp.sigma d l cs) (he : SameConfig (libAll cs (pose s1)) (pose s2)) :
    CcRs.get_distance sp s1 s2 ≤ totalLength cs + pathTol cs ∧
    (¬ OnLine s1 s2 → CcRs.get_distance sp s1 s2 ≤ totalLength cs) := by
  obtain ⟨b, rfl⟩ := exists_sg hl
  obtain ⟨f, rfl⟩ := exists_sg hd
  exact Spec.CcRsOpt.turn_le h.rng hw he

/-- **C92, straight line.** A straight line to the goal, forwards or backwards, is not shorter. -/
theorem C92_cc_rs_line {d x : ℝ} (hd : Sign d) (hx : 0 ≤ x)
    (he : SameConfig (libAll [⟨d * x, 0, 0⟩] (pose s1)) (pose s2)) :
    CcRs.get_distance sp s1 s2 ≤ x := by
  obtain ⟨f, rfl⟩ := exists_sg hd
  exact Spec.CcRsOpt.straight_le hx he

/-- A left turn of arc length 1 forwards, a cusp, a line of length 10000 backwards and a right turn of arc
length 2 backwards end off the circles of the start. -/
example : ∃ (s2 : State) (cs : List Segment), InRange 1 1 ∧ RSWord 1 1 cs ∧
    SameConfig (libAll cs (pose ⟨0, 0, 0, 0, 0⟩)) (pose s2) ∧
    OffAllCircles ⟨1, 1, 1 / 10, true⟩ ⟨0, 0, 0, 0, 0⟩ s2 ∧ totalLength cs = 10007 := by
  obtain ⟨cs, hcs⟩ : ∃ cs, cs = fullTurn 1 1 1 1 1 ++ [⟨-1 * 10000, 0, 0⟩] ++ fullTurn 1 1 (-1) (-1) 2 := ⟨_, rfl⟩
  have hr : InRange 1 1 := ⟨by norm_num, by norm_num, by norm_num, by norm_num⟩
  have hw : RSWord 1 1 cs := by
    rw [hcs]
    exact .tst (Or.inl rfl) (Or.inr rfl) (Or.inr rfl) (Or.inl rfl) (Or.inr rfl) (.full 1) (by norm_num) (.full 2)
      (Or.inr (Or.inl rfl)) (Or.inr (Or.inl (by norm_num)))
  have hlen : totalLength cs = 10007 := by
    rw [hcs]; norm_num [fullTurn, totalLength]
  have hR := radius_le (k := 1) (s := 1) hr.kappa hr.sigma hr.clothoid
  obtain ⟨e, he⟩ : ∃ e, e = libAll cs (pose ⟨0, 0, 0, 0, 0⟩) := ⟨_, rfl⟩
  refine ⟨⟨e.x, e.y, e.theta, 0, 0⟩, cs, hr, hw, he ▸ SameConfig.refl _, ?_, hlen⟩
  -- the goal is far away
  have hfar : 9000 < ‖e.pos‖ := by
    rw [he, hcs, libAll_append, libAll_append]
    obtain ⟨p0, hp0⟩ : ∃ p0, p0 = pose ⟨0, 0, 0, 0, 0⟩ := ⟨_, rfl⟩
    have hz : p0.pos = 0 := by rw [hp0]; rfl
    rw [← hp0]
    have a1 := (fullTurn_end (k := 1) (s := 1) one_pos one_pos (Or.inl rfl) (Or.inl rfl) 1 p0).1
    generalize libAll (fullTurn 1 1 1 1 1) p0 = p1 at a1
    obtain ⟨b1, b2⟩ := lib_line (len := -1 * 10000) p1
    simp only [libAll]
    generalize libArrive ⟨-1 * 10000, 0, 0⟩ p1 = p2 at b1 b2
    have c1 := (fullTurn_end (k := 1) (s := 1) one_pos one_pos (Or.inr rfl) (Or.inr rfl) 2 p2).1
    generalize libAll (fullTurn 1 1 (-1) (-1) 2) p2 = p3 at c1
    have off : ∀ (a b : ℝ) (p : Config), |a| = |ccA 1 1| → |b| = |ccB 1 1| →
        ‖Spec.cen a b p - p.pos‖ ≤ 5 := by
      intro a b p ha hb
      rw [Spec.cen, add_sub_cancel_left, norm_cis_mul, ← sqrt_eq_norm, ← sq_abs a, ← sq_abs b, ha, hb,
        sq_abs, sq_abs]
      norm_num at hR; exact hR
    have o1 := off (1 * ccA 1 1) (1 * ccB 1 1) p0 (by simp) (by simp)
    have o2 := off (-(1 * ccA 1 1)) (1 * ccB 1 1) p1 (by simp) (by simp)
    have o3 := off (-1 * ccA 1 1) (-1 * ccB 1 1) p2 (by simp) (by simp)
    have o4 := off (-(-1 * ccA 1 1)) (-1 * ccB 1 1) p3 (by simp) (by simp)
    rw [a1] at o2
    rw [c1] at o4
    have hl : ‖p2.pos - p1.pos‖ = 10000 := by
      rw [b1, add_sub_cancel_left, norm_cis_mul, Complex.norm_real]; norm_num
    generalize Spec.cen (1 * ccA 1 1) (1 * ccB 1 1) p0 = z at *
    generalize Spec.cen (-1 * ccA 1 1) (-1 * ccB 1 1) p2 = w at *
    rw [hz, sub_zero] at o1
    have : p2.pos - p1.pos = -(w - p2.pos) + (w - p3.pos) + p3.pos - z + (z - p1.pos) := by ring
    rw [this] at hl
    have n1 := norm_add_le (-(w - p2.pos) + (w - p3.pos) + p3.pos - z) (z - p1.pos)
    have n2 := norm_sub_le (-(w - p2.pos) + (w - p3.pos) + p3.pos) z
    have n3 := norm_add_le (-(w - p2.pos) + (w - p3.pos)) p3.pos
    have n4 := norm_add_le (-(w - p2.pos)) (w - p3.pos)
    rw [norm_neg] at n4
    linarith
  intro left forward hon
  obtain ⟨c, hc⟩ : ∃ c, c = circleAt (configuration 0 0 0 0) left forward false (hc_cc_circle_param 1 1) := ⟨_, rfl⟩
  have hok : Spec.CC00.CircOk c 1 1 := by rw [hc]; exact Spec.CC00.circOk_at hr.kappa hr.sigma hr.clothoid _ _ _ _
  have hcr : c.radius ≤ 5 := by rw [hok.ok.radius]; norm_num at hR; exact hR
  have hcc := Spec.CC00.center_start hok
  have hst : (cfg c.start).pos = 0 := by rw [hc]; rfl
  rw [hst, sub_zero] at hcc
  change configuration_on_hc_cc_circle (circleAt (configuration 0 0 0 0) left forward false (hc_cc_circle_param 1 1)) _ at hon
  rw [← hc] at hon
  unfold configuration_on_hc_cc_circle at hon
  simp only at hon
  rw [if_pos] at hon
  · exact hon
  · change |point_distance c.xc c.yc e.x e.y - c.radius| > SF.epsilon
    have hd : point_distance c.xc c.yc e.x e.y = ‖e.pos - center c‖ := by
      unfold point_distance; rw [sqrt_eq_norm]; rfl
    have := norm_sub_norm_le e.pos (center c)
    rw [hd, gt_iff_lt, lt_abs]
    left
    norm_num [SF.epsilon]
    linarith

end Props
