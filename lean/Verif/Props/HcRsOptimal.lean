import Verif.Lemmas.HcRsOptimalFar
import Verif.Props.CcRsOptimal
import Verif.Props.PmOptimal

/-!
# Optimality of hybrid-curvature Reeds-Shepp among the paths with at most three parts
-/

noncomputable section

namespace Props

open SF Spec Real

variable {sp : HCSpace} {s1 s2 : State}

/-! ## C119 -/

/-- **C119, HC00.** No path with at most three parts (turn-line-turn, turn-turn or turn-turn-turn, each joint with or
without a cusp) that starts and ends with curvature zero is shorter than `get_distance`, up to the tolerance
`pathTol`, provided that the goal is not on the circle of its first turn. -/
theorem C119_hc00_optimal (h : InRange sp.kappa sp.sigma) {cs : List Segment} {d1 l1 d2 l2 : Bool}
    (hw : HcWord false false sp.kappa sp.sigma (sideSign d1) (sideSign l1) (sideSign d2) (sideSign l2) cs)
    (he : SameConfig (libAll cs (pose s1)) (pose s2))
    (hoff : ¬ configuration_on_hc_cc_circle (zeroCircle sp s1 l1 d1) (configuration s2.x s2.y s2.theta 0))
    (hfin : totalLength cs + pathTol cs < dblMax) :
    ∃ x, HcRs.get_distance false false sp s1 s2 = some x ∧ x ≤ totalLength cs + pathTol cs :=
  (Spec.HcOpt.word00 h.rng hw he (by cases l1 <;> cases d1 <;> exact hoff)).1 hfin

/-- **C119, HC00, exact.** Unless the goal is straight ahead or behind there is no tolerance. -/
theorem C119_hc00_optimal_exact (h : InRange sp.kappa sp.sigma) {cs : List Segment} {d1 l1 d2 l2 : Bool}
    (hw : HcWord false false sp.kappa sp.sigma (sideSign d1) (sideSign l1) (sideSign d2) (sideSign l2) cs)
    (he : SameConfig (libAll cs (pose s1)) (pose s2))
    (hoff : ¬ configuration_on_hc_cc_circle (zeroCircle sp s1 l1 d1) (configuration s2.x s2.y s2.theta 0))
    (hA : ¬ OnLine s1 s2) (hfin : totalLength cs < dblMax) :
    ∃ x, HcRs.get_distance false false sp s1 s2 = some x ∧ x ≤ totalLength cs :=
  (Spec.HcOpt.word00 h.rng hw he (by cases l1 <;> cases d1 <;> exact hoff)).2 hA hfin

/-- **C119, HC00, one turn.** -/
theorem C119_hc00_turn (h : InRange sp.kappa sp.sigma) {cs : List Segment} {d l : Bool}
    (hw : RSTurn sp.kappa sp.sigma (sideSign d) (sideSign l) cs) (he : SameConfig (libAll cs (pose s1)) (pose s2))
    (hA : ¬ OnLine s1 s2) (hfin : totalLength cs < dblMax) :
    ∃ x, HcRs.get_distance false false sp s1 s2 = some x ∧ x ≤ totalLength cs :=
  Spec.HcOpt.turn00 h.rng hw he hA hfin

/-- **C119, HC00, straight line.** -/
theorem C119_hc00_straight {d : Bool} {x : ℝ} (hx : 0 ≤ x)
    (he : SameConfig (libAll [⟨sideSign d * x, 0, 0⟩] (pose s1)) (pose s2)) (hfin : x < dblMax) :
    ∃ y, HcRs.get_distance false false sp s1 s2 = some y ∧ y ≤ x :=
  Spec.HcOpt.straight00 hx he hfin

/-- **C119, HC0pm.** The same for paths that start with curvature zero and end with the maximum curvature, on a side
that the curvature of the goal allows, provided that the first and the last circle have centres at least 1e-4 apart. -/
theorem C119_hc0pm_optimal (h : InRange sp.kappa sp.sigma) {cs : List Segment} {d1 l1 d2 l2 : Bool}
    (hw : HcWord false true sp.kappa sp.sigma (sideSign d1) (sideSign l1) (sideSign d2) (sideSign l2) cs)
    (ht : Toward l2 s2.kappa) (he : SameConfig (libAll cs (pose s1)) (pose s2))
    (hoff : 1 / 10000 ≤ center_distance (zeroCircle sp s1 l1 d1) (curvedCircle sp s2 l2 !d2))
    (hfin : totalLength cs < dblMax) :
    ∃ x, HcRs.get_distance false true sp s1 s2 = some x ∧ x ≤ totalLength cs :=
  Spec.HcOpt.word_mixed h.rng (by simp) hw (by simp) (fun _ => ht) he
    (by cases l1 <;> cases l2 <;> cases d1 <;> cases d2 <;> exact hoff) hfin

/-- **C119, HC0pm, one turn.** -/
theorem C119_hc0pm_turn (h : InRange sp.kappa sp.sigma) {a : ℝ} {d l : Bool} (ht : Toward l s2.kappa)
    (he : SameConfig (libAll (openTurn sp.kappa sp.sigma (sideSign d) (sideSign l) a) (pose s1)) (pose s2))
    (hfin : sp.kappa / sp.sigma + |a| < dblMax) :
    ∃ x, HcRs.get_distance false true sp s1 s2 = some x ∧ x ≤ sp.kappa / sp.sigma + |a| :=
  Spec.HcOpt.turn0pm h.rng ht he hfin

/-- **C119, HCpm0.** The same for paths that start with the maximum curvature and end with curvature zero. -/
theorem C119_hcpm0_optimal (h : InRange sp.kappa sp.sigma) {cs : List Segment} {d1 l1 d2 l2 : Bool}
    (hw : HcWord true false sp.kappa sp.sigma (sideSign d1) (sideSign l1) (sideSign d2) (sideSign l2) cs)
    (ht : Toward l1 s1.kappa) (he : SameConfig (libAll cs (pose s1)) (pose s2))
    (hoff : 1 / 10000 ≤ center_distance (curvedCircle sp s1 l1 d1) (zeroCircle sp s2 l2 !d2))
    (hfin : totalLength cs < dblMax) :
    ∃ x, HcRs.get_distance true false sp s1 s2 = some x ∧ x ≤ totalLength cs :=
  Spec.HcOpt.word_mixed h.rng (by simp) hw (fun _ => ht) (by simp) he
    (by cases l1 <;> cases l2 <;> cases d1 <;> cases d2 <;> exact hoff) hfin

/-- **C119, HCpm0, one turn.** -/
theorem C119_hcpm0_turn (h : InRange sp.kappa sp.sigma) {a : ℝ} {d l : Bool} (ht : Toward l s1.kappa)
    (he : SameConfig (libAll (closeTurn sp.kappa sp.sigma (sideSign d) (sideSign l) a) (pose s1)) (pose s2))
    (hfin : sp.kappa / sp.sigma + |a| < dblMax) :
    ∃ x, HcRs.get_distance true false sp s1 s2 = some x ∧ x ≤ sp.kappa / sp.sigma + |a| :=
  Spec.HcOpt.turnpm0 h.rng ht he hfin

/-- **C119, HCpmpm.** The same for paths that start and end with the maximum curvature, provided that the goal is not
on the circle of the start, within the tolerance 1e-4. -/
theorem C119_hcpmpm_optimal (h : InRange sp.kappa sp.sigma) {cs : List Segment} {d1 l1 d2 l2 : Bool}
    (hw : HcWord true true sp.kappa sp.sigma (sideSign d1) (sideSign l1) (sideSign d2) (sideSign l2) cs)
    (ht1 : Toward l1 s1.kappa) (ht2 : Toward l2 s2.kappa) (he : SameConfig (libAll cs (pose s1)) (pose s2))
    (hoff : ¬ configuration_on_hc_cc_circle (curvedCircle sp s1 l1 d1) (curvedCircle sp s2 l2 !d2).start)
    (hfin : totalLength cs < dblMax) :
    ∃ x, HcRs.get_distance true true sp s1 s2 = some x ∧ x ≤ totalLength cs :=
  Spec.HcOpt.wordpmpm h.rng hw ht1 ht2 he
    (by cases l1 <;> cases l2 <;> cases d1 <;> cases d2 <;> exact hoff) hfin

/-- **C119, HCpmpm, one arc.** -/
theorem C119_hcpmpm_turn (h : InRange sp.kappa sp.sigma) {a : ℝ} (ha : 0 ≤ a) {d l : Bool}
    (ht1 : Toward l s1.kappa) (ht2 : Toward l s2.kappa)
    (he : SameConfig (libAll [⟨sideSign d * a, sideSign l * sp.kappa, 0⟩] (pose s1)) (pose s2))
    (hfin : a < dblMax) : ∃ x, HcRs.get_distance true true sp s1 s2 = some x ∧ x ≤ a :=
  Spec.HcOpt.turnpmpm h.rng ha ht1 ht2 he hfin

/-- A left turn forwards to a cusp, a line of length 10000 backwards and a right turn backwards meet the hypotheses of
the theorems, for the four combinations of curvature at the ends. -/
example : ∃ (g0 g1 g2 g3 : State) (c0 c1 c2 c3 : List Segment), InRange 1 1 ∧
    (HcWord false false 1 1 (sideSign true) (sideSign true) (sideSign false) (sideSign false) c0 ∧
      SameConfig (libAll c0 (pose ⟨0, 0, 0, 0, 0⟩)) (pose g0) ∧
      ¬ configuration_on_hc_cc_circle (zeroCircle ⟨1, 1, 1 / 10, true⟩ ⟨0, 0, 0, 0, 0⟩ true true)
        (configuration g0.x g0.y g0.theta 0) ∧ totalLength c0 + pathTol c0 < dblMax ∧ totalLength c0 < dblMax) ∧
    (HcWord false true 1 1 (sideSign true) (sideSign true) (sideSign false) (sideSign false) c1 ∧
      Toward false g1.kappa ∧ SameConfig (libAll c1 (pose ⟨0, 0, 0, 0, 0⟩)) (pose g1) ∧
      1 / 10000 ≤ center_distance (zeroCircle ⟨1, 1, 1 / 10, true⟩ ⟨0, 0, 0, 0, 0⟩ true true)
        (curvedCircle ⟨1, 1, 1 / 10, true⟩ g1 false true) ∧ totalLength c1 < dblMax) ∧
    (HcWord true false 1 1 (sideSign true) (sideSign true) (sideSign false) (sideSign false) c2 ∧
      Toward true 1 ∧ SameConfig (libAll c2 (pose ⟨0, 0, 0, 1, 0⟩)) (pose g2) ∧
      1 / 10000 ≤ center_distance (curvedCircle ⟨1, 1, 1 / 10, true⟩ ⟨0, 0, 0, 1, 0⟩ true true)
        (zeroCircle ⟨1, 1, 1 / 10, true⟩ g2 false true) ∧ totalLength c2 < dblMax) ∧
    (HcWord true true 1 1 (sideSign true) (sideSign true) (sideSign false) (sideSign false) c3 ∧
      Toward true 1 ∧ Toward false g3.kappa ∧ SameConfig (libAll c3 (pose ⟨0, 0, 0, 1, 0⟩)) (pose g3) ∧
      ¬ configuration_on_hc_cc_circle (curvedCircle ⟨1, 1, 1 / 10, true⟩ ⟨0, 0, 0, 1, 0⟩ true true)
        (curvedCircle ⟨1, 1, 1 / 10, true⟩ g3 false true).start ∧ totalLength c3 < dblMax) := by
  have hr : InRange 1 1 := ⟨by norm_num, by norm_num, by norm_num, by norm_num⟩
  have H := hr.rng
  have big : (20000 : ℝ) < dblMax := lt_trans (by norm_num) dblMax_large
  have t1 : Toward true 1 := ⟨fun _ => by norm_num, fun h => by simp at h⟩
  have t2 : Toward false (-1) := ⟨fun h => by simp at h, fun _ => by norm_num⟩
  obtain ⟨sp, hsp⟩ : ∃ sp : HCSpace, sp = ⟨1, 1, 1 / 10, true⟩ := ⟨_, rfl⟩
  have hk : sp.kappa = 1 := by rw [hsp]
  have hs : sp.sigma = 1 := by rw [hsp]
  have H' : Rng sp.kappa sp.sigma := by rw [hk, hs]; exact H
  have sub : ∀ (u1 u2 : Bool) (w1 w2 : List Segment) (s : State),
      HcFirst 1 1 (sg true) (sg true) u1 true w1 → HcLast 1 1 (sg false) (sg false) u2 false w2 →
      totalLength w1 + totalLength w2 ≤ 10 →
      ∃ (g : State) (cs : List Segment), cs = w1 ++ [⟨after true (sg true) * 10000, 0, 0⟩] ++ w2 ∧ g.kappa = -1 ∧
        HcWord u1 u2 1 1 (sideSign true) (sideSign true) (sideSign false) (sideSign false) cs ∧
        SameConfig (libAll cs (pose s)) (pose g) ∧ totalLength cs < 19000 ∧
        10000 ≤ ‖center (HcRs.end_circle u2 sp g 1) - center (HcRs.end_circle u1 sp s 0)‖ := by
    intro u1 u2 w1 w2 s h1 h2 hlen
    obtain ⟨e, he⟩ : ∃ e, e = libAll (w1 ++ [⟨after true (sg true) * 10000, 0, 0⟩] ++ w2) (pose s) := ⟨_, rfl⟩
    have hd : sg false = after false (after true (sg true)) := by norm_num [after, sg]
    have hw : HcWord u1 u2 1 1 (sg true) (sg true) (sg false) (sg false)
        (w1 ++ [⟨after true (sg true) * 10000, 0, 0⟩] ++ w2) := by
      rw [show HcWord u1 u2 1 1 (sg true) (sg true) (sg false) (sg false) =
        HcWord u1 u2 1 1 (sg true) (sg true) (after false (after true (sg true))) (sg false) by rw [← hd]]
      exact .tst h1 (by norm_num) (by rw [← hd]; exact h2) (by simp)
    have hs2 : SameConfig (libAll (w1 ++ [⟨after true (sg true) * 10000, 0, 0⟩] ++ w2) (pose s))
        (pose ⟨e.x, e.y, e.theta, -1, 0⟩) := he ▸ SameConfig.refl _
    refine ⟨⟨e.x, e.y, e.theta, -1, 0⟩, _, rfl, rfl, hw, hs2, ?_, ?_⟩
    · rw [totalLength_append, totalLength_append]
      have : totalLength [⟨after true (sg true) * 10000, 0, 0⟩] = 10000 := by norm_num [totalLength, sg, after]
      rw [this]; linarith
    · exact Spec.HcOpt.far (sp := sp) (u1 := true) (u2 := false) (d := true) (l1 := true) (l2 := false) H' (by norm_num)
        (by rw [hk, hs]; exact h1) (by rw [hk, hs]; exact h2) hs2 rfl rfl
  have lo : ∀ a : ℝ, totalLength (openTurn 1 1 (sg true) (sg true) a) = 1 / 1 + |a| := fun a =>
    (half_length' one_pos one_pos a true true).1
  have lo' : ∀ a : ℝ, totalLength (openTurn 1 1 (sg false) (sg false) a) = 1 / 1 + |a| := fun a =>
    (half_length' one_pos one_pos a false false).1
  have la : totalLength [⟨sg true * 1, sg true * 1, 0⟩] = 1 := by norm_num [totalLength, sg]
  have lf : totalLength (fullTurn 1 1 (sg false) (sg false) 2) = 4 := by norm_num [fullTurn, totalLength, sg]
  have wf : RSTurn 1 1 (sg false) (sg false) (fullTurn 1 1 (sg false) (sg false) 2) := .full 2
  obtain ⟨g0, c0, a0, a1, a2, a3, a4, a5⟩ := sub false false _ _ ⟨0, 0, 0, 0, 0⟩ (.open 1 (by norm_num)) (.cc wf)
    (by rw [lo, lf]; norm_num)
  obtain ⟨g1, c1, b0, b1, b2, b3, b4, b5⟩ := sub false true _ _ ⟨0, 0, 0, 0, 0⟩ (.open 1 (by norm_num)) (.open 2)
    (by rw [lo, lo']; norm_num)
  obtain ⟨g2, c2, d0, d1, d2, d3, d4, d5⟩ := sub true false _ _ ⟨0, 0, 0, 1, 0⟩ (.arc 1 (by norm_num)) (.cc wf)
    (by rw [la, lf]; norm_num)
  obtain ⟨g3, c3, e0, e1, e2, e3, e4, e5⟩ := sub true true _ _ ⟨0, 0, 0, 1, 0⟩ (.arc 1 (by norm_num)) (.open 2)
    (by rw [la, lo']; norm_num)
  have tol : pathTol c0 ≤ 1 := by
    rw [a0]; norm_num [pathTol, segTol, openTurn, fullTurn, sg, after]
  rw [← hsp]
  refine ⟨g0, g1, g2, g3, c0, c1, c2, c3, hr, ⟨a2, a3, ?_, by linarith, by linarith⟩, ⟨b2, b1 ▸ t2, b3, ?_, by linarith⟩,
    ⟨d2, t1, d3, ?_, by linarith⟩, e2, t1, e1 ▸ t2, e3, ?_, by linarith⟩
  · refine Spec.HcOpt.not_on (c1 := HcRs.end_circle false sp ⟨0, 0, 0, 0, 0⟩ 0) (c2 := HcRs.end_circle false sp g0 1)
      H' (HcRs.end_ok H' false _ _) (HcRs.end_ok H' false _ _) rfl ?_
    rw [hk, hs]; norm_num; linarith
  · change 1 / 10000 ≤ center_distance (HcRs.end_circle false sp ⟨0, 0, 0, 0, 0⟩ 0) (HcRs.end_circle true sp g1 1)
    rw [center_distance_eq]; linarith
  · change 1 / 10000 ≤ center_distance (HcRs.end_circle true sp ⟨0, 0, 0, 1, 0⟩ 0) (HcRs.end_circle false sp g2 1)
    rw [center_distance_eq]; linarith
  · refine Spec.HcOpt.not_on (c1 := HcRs.end_circle true sp ⟨0, 0, 0, 1, 0⟩ 0) (c2 := HcRs.end_circle true sp g3 1)
      H' (HcRs.end_ok H' true _ _) (HcRs.end_ok H' true _ _) rfl ?_
    rw [hk, hs]; norm_num; linarith

/-- A turn and a line meet the hypotheses of the theorems on single parts. -/
example : ∃ g0 g1 g2 g3 g4 : State, Toward true g1.kappa ∧ Toward true 1 ∧ Toward true g3.kappa ∧
    RSTurn 1 1 1 1 (fullTurn 1 1 1 1 (-1 / 4)) ∧
    SameConfig (libAll (fullTurn 1 1 1 1 (-1 / 4)) (pose ⟨0, 0, 0, 0, 0⟩)) (pose g0) ∧
    SameConfig (libAll (openTurn 1 1 1 1 (-1 / 4)) (pose ⟨0, 0, 0, 0, 0⟩)) (pose g1) ∧
    SameConfig (libAll (closeTurn 1 1 1 1 (-1 / 4)) (pose ⟨0, 0, 0, 1, 0⟩)) (pose g2) ∧
    SameConfig (libAll [⟨1 * 2, 1 * 1, 0⟩] (pose ⟨0, 0, 0, 1, 0⟩)) (pose g3) ∧
    SameConfig (libAll [⟨-1 * 2, 0, 0⟩] (pose ⟨0, 0, 0, 0, 0⟩)) (pose g4) ∧ (1 / 1 + 2 : ℝ) < dblMax := by
  have t1 : Toward true 1 := ⟨fun _ => by norm_num, fun h => by simp at h⟩
  have mk : ∀ e : Config, ∃ g : State, Toward true g.kappa ∧ SameConfig e (pose g) := fun e =>
    ⟨⟨e.x, e.y, e.theta, 1, 0⟩, t1, SameConfig.refl _⟩
  obtain ⟨g0, _, b0⟩ := mk (libAll (fullTurn 1 1 1 1 (-1 / 4)) (pose ⟨0, 0, 0, 0, 0⟩))
  obtain ⟨g1, a1, b1⟩ := mk (libAll (openTurn 1 1 1 1 (-1 / 4)) (pose ⟨0, 0, 0, 0, 0⟩))
  obtain ⟨g2, _, b2⟩ := mk (libAll (closeTurn 1 1 1 1 (-1 / 4)) (pose ⟨0, 0, 0, 1, 0⟩))
  obtain ⟨g3, a3, b3⟩ := mk (libAll [⟨1 * 2, 1 * 1, 0⟩] (pose ⟨0, 0, 0, 1, 0⟩))
  obtain ⟨g4, _, b4⟩ := mk (libAll [⟨-1 * 2, 0, 0⟩] (pose ⟨0, 0, 0, 0, 0⟩))
  exact ⟨g0, g1, g2, g3, g4, a1, t1, a3, .full _, b0, b1, b2, b3, b4, lt_trans (by norm_num) dblMax_large⟩

end Props
