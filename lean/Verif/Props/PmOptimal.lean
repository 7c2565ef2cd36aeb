import Verif.Lemmas.PmOptimalAll
import Verif.Props.CcOptimal

/-!
# Optimality of CC-Dubins with curvature at the ends
-/

noncomputable section

namespace Props

open SF Spec Real

variable {sp : HCSpace} {s1 s2 : State}

/-- Sign of a side: left `1`, right `-1`. -/
def sideSign (l : Bool) : ℝ := if l then 1 else -1

/-- The circle on which a turn to side `l` from or to the state `s` with curvature zero runs. -/
def zeroCircle (sp : HCSpace) (s : State) (l forward : Bool) : Circle :=
  circleAt (configuration s.x s.y s.theta 0) l forward true sp.param

/-- The circle of curvature `kappa` on side `l` of the state `s`. -/
def curvedCircle (sp : HCSpace) (s : State) (l forward : Bool) : Circle :=
  circleAt (configuration s.x s.y s.theta (sideCurvature sp.kappa l)) l forward true sp.rs_param

/-! ## C118 -/

/-- **C118, CC0pm.** No turn-line-turn, turn-turn or turn-turn-turn path that starts with curvature zero and ends
in the goal with the maximum curvature, on a side that the curvature of the goal allows, is shorter than
`get_distance`, provided that its first and its last circle have centres at least 1e-4 apart. -/
theorem C118_cc0pm_optimal (h : InRange sp.kappa sp.sigma) {cs : List Segment} {l1 l2 : Bool}
    (hw : PmWord false true sp.kappa sp.sigma (drivingSign sp) (sideSign l1) (sideSign l2) cs)
    (ht : Toward l2 s2.kappa) (he : SameConfig (libAll cs (pose s1)) (pose s2))
    (hoff : 1 / 10000 ≤ center_distance (zeroCircle sp s1 l1 sp.forwards) (curvedCircle sp s2 l2 !sp.forwards))
    (hfin : totalLength cs < dblMax) :
    ∃ x, CC0pm.get_distance sp s1 s2 = some x ∧ x ≤ totalLength cs :=
  Spec.CC0pm.word_le h.rng hw ht he (by cases l1 <;> cases l2 <;> exact hoff) hfin

/-- **C118, CC0pm, one turn.** No single turn to the goal is shorter. -/
theorem C118_cc0pm_turn (h : InRange sp.kappa sp.sigma) {a : ℝ} (ha : 0 ≤ a) {l : Bool} (ht : Toward l s2.kappa)
    (he : SameConfig (libAll (openTurn sp.kappa sp.sigma (drivingSign sp) (sideSign l) a) (pose s1)) (pose s2))
    (hfin : sp.kappa / sp.sigma + a < dblMax) :
    ∃ x, CC0pm.get_distance sp s1 s2 = some x ∧ x ≤ sp.kappa / sp.sigma + a :=
  Spec.CC0pm.turn_le h.rng ha ht he hfin

/-- **C118, CCpm0.** The same for paths that start with the maximum curvature and end with curvature zero. -/
theorem C118_ccpm0_optimal (h : InRange sp.kappa sp.sigma) {cs : List Segment} {l1 l2 : Bool}
    (hw : PmWord true false sp.kappa sp.sigma (drivingSign sp) (sideSign l1) (sideSign l2) cs)
    (ht : Toward l1 s1.kappa) (he : SameConfig (libAll cs (pose s1)) (pose s2))
    (hoff : 1 / 10000 ≤ center_distance (curvedCircle sp s1 l1 sp.forwards) (zeroCircle sp s2 l2 !sp.forwards))
    (hfin : totalLength cs < dblMax) :
    ∃ x, CCpm0.get_distance sp s1 s2 = some x ∧ x ≤ totalLength cs :=
  Spec.CCpm0.word_le h.rng hw ht he (by cases l1 <;> cases l2 <;> exact hoff) hfin

/-- **C118, CCpm0, one turn.** No single turn to the goal is shorter. -/
theorem C118_ccpm0_turn (h : InRange sp.kappa sp.sigma) {a : ℝ} (ha : 0 ≤ a) {l : Bool} (ht : Toward l s1.kappa)
    (he : SameConfig (libAll (closeTurn sp.kappa sp.sigma (drivingSign sp) (sideSign l) a) (pose s1)) (pose s2))
    (hfin : sp.kappa / sp.sigma + a < dblMax) :
    ∃ x, CCpm0.get_distance sp s1 s2 = some x ∧ x ≤ sp.kappa / sp.sigma + a :=
  Spec.CCpm0.turn_le h.rng ha ht he hfin

/-- **C118, CCpmpm.** The same for paths that start and end with the maximum curvature, provided that the goal is not
on the circle of the start, within the tolerance 1e-4. -/
theorem C118_ccpmpm_optimal (h : InRange sp.kappa sp.sigma) {cs : List Segment} {l1 l2 : Bool}
    (hw : PmWord true true sp.kappa sp.sigma (drivingSign sp) (sideSign l1) (sideSign l2) cs)
    (ht1 : Toward l1 s1.kappa) (ht2 : Toward l2 s2.kappa) (he : SameConfig (libAll cs (pose s1)) (pose s2))
    (hoff : ¬ configuration_on_hc_cc_circle (curvedCircle sp s1 l1 sp.forwards) (curvedCircle sp s2 l2 !sp.forwards).start)
    (hfin : totalLength cs < dblMax) :
    ∃ x, CCpmpm.get_distance sp s1 s2 = some x ∧ x ≤ totalLength cs :=
  Spec.CCpmpm.word_le h.rng hw ht1 ht2 he (by cases l1 <;> cases l2 <;> exact hoff) hfin

/-- **C118, CCpmpm, one turn.** No circular arc to the goal is shorter. -/
theorem C118_ccpmpm_turn (h : InRange sp.kappa sp.sigma) {a : ℝ} (ha : 0 ≤ a) {l : Bool}
    (ht1 : Toward l s1.kappa) (ht2 : Toward l s2.kappa)
    (he : SameConfig (libAll [⟨drivingSign sp * a, sideSign l * sp.kappa, 0⟩] (pose s1)) (pose s2))
    (hfin : a < dblMax) :
    ∃ x, CCpmpm.get_distance sp s1 s2 = some x ∧ x ≤ a :=
  Spec.CCpmpm.turn_le h.rng ha ht1 ht2 he hfin

/-- Turns of arc length 1 (left) and 2 (right) with a line of length 10000 between them meet the hypotheses of the
three theorems, for the three combinations of curvature at the ends. -/
example : ∃ (g0 g1 g2 : State) (c0 c1 c2 : List Segment), InRange 1 1 ∧
    (PmWord false true 1 1 (drivingSign ⟨1, 1, 1 / 10, true⟩) (sideSign true) (sideSign false) c0 ∧
      Toward false g0.kappa ∧ SameConfig (libAll c0 (pose ⟨0, 0, 0, 0, 0⟩)) (pose g0) ∧
      1 / 10000 ≤ center_distance (zeroCircle ⟨1, 1, 1 / 10, true⟩ ⟨0, 0, 0, 0, 0⟩ true true)
        (curvedCircle ⟨1, 1, 1 / 10, true⟩ g0 false false) ∧ totalLength c0 < dblMax) ∧
    (PmWord true false 1 1 (drivingSign ⟨1, 1, 1 / 10, true⟩) (sideSign true) (sideSign false) c1 ∧
      Toward true 1 ∧ SameConfig (libAll c1 (pose ⟨0, 0, 0, 1, 0⟩)) (pose g1) ∧
      1 / 10000 ≤ center_distance (curvedCircle ⟨1, 1, 1 / 10, true⟩ ⟨0, 0, 0, 1, 0⟩ true true)
        (zeroCircle ⟨1, 1, 1 / 10, true⟩ g1 false false) ∧ totalLength c1 < dblMax) ∧
    (PmWord true true 1 1 (drivingSign ⟨1, 1, 1 / 10, true⟩) (sideSign true) (sideSign false) c2 ∧
      Toward true 1 ∧ Toward false g2.kappa ∧ SameConfig (libAll c2 (pose ⟨0, 0, 0, 1, 0⟩)) (pose g2) ∧
      ¬ configuration_on_hc_cc_circle (curvedCircle ⟨1, 1, 1 / 10, true⟩ ⟨0, 0, 0, 1, 0⟩ true true)
        (curvedCircle ⟨1, 1, 1 / 10, true⟩ g2 false false).start ∧ totalLength c2 < dblMax) := by
  have hr : InRange 1 1 := ⟨by norm_num, by norm_num, by norm_num, by norm_num⟩
  have H := hr.rng
  have hA := ccA_pos H.kappa H.sigma H.clothoid
  have big : (20000 : ℝ) < dblMax := lt_trans (by norm_num) dblMax_large
  have t1 : Toward true 1 := ⟨fun _ => by norm_num, fun h => by simp at h⟩
  have t2 : Toward false (-1) := ⟨fun h => by simp at h, fun _ => by norm_num⟩
  -- the two turns and the line
  have wf : CCTurn 1 1 (sg true) (sg true) (fullTurn 1 1 (sg true) (sg true) 1) := .full 1 (by norm_num)
  have wf' : CCTurn 1 1 (sg true) (sg false) (fullTurn 1 1 (sg true) (sg false) 2) := .full 2 (by norm_num)
  have sub : ∀ (u1 u2 : Bool) (w1 w2 : List Segment) (s : State),
      StartTurn 1 1 (sg true) (sg true) u1 w1 → EndTurn 1 1 (sg true) (sg false) u2 w2 →
      totalLength w1 + totalLength w2 ≤ 10 →
      PmWord u1 u2 1 1 (drivingSign ⟨1, 1, 1 / 10, true⟩) (sideSign true) (sideSign false)
        (w1 ++ [⟨sg true * 10000, 0, 0⟩] ++ w2) ∧
      totalLength (w1 ++ [⟨sg true * 10000, 0, 0⟩] ++ w2) < dblMax ∧
      ∃ g : State, g.kappa = -1 ∧ SameConfig (libAll (w1 ++ [⟨sg true * 10000, 0, 0⟩] ++ w2) (pose s)) (pose g) ∧
        ∃ q1 q2 L1 L2, FirstLeg u1 1 1 true true (pose s) q1 L1 ∧ LastLeg u2 1 1 false true q2 (pose g) L2 ∧
          q2.pos = q1.pos + cis q1.theta * ((sg true * 10000 : ℝ) : ℂ) ∧ AngleEq q2.theta q1.theta := by
    intro u1 u2 w1 w2 s h1 h2 hlen
    obtain ⟨e, he⟩ : ∃ e, e = libAll (w1 ++ [⟨sg true * 10000, 0, 0⟩] ++ w2) (pose s) := ⟨_, rfl⟩
    obtain ⟨b1, b2⟩ := lib_line (len := sg true * 10000) (libAll w1 (pose s))
    refine ⟨.tst h1 (by norm_num) h2, ?_, ⟨e.x, e.y, e.theta, -1, 0⟩, rfl, he ▸ SameConfig.refl _,
      libAll w1 (pose s), libArrive ⟨sg true * 10000, 0, 0⟩ (libAll w1 (pose s)), _, _, startTurn_leg H h1 _,
      endTurn_leg H h2 _ _ ?_, b1, AngleEq.of_eq b2⟩
    · rw [totalLength_append, totalLength_append]
      have : totalLength [⟨sg true * 10000, 0, 0⟩] = 10000 := by norm_num [totalLength, sg]
      rw [this]; linarith
    · rw [libAll_append, libAll_append] at he
      rw [show pose ⟨e.x, e.y, e.theta, -1, 0⟩ = e from rfl, he]
      exact SameConfig.refl _
  have ho : ∀ (l : Bool) (a : ℝ), 0 ≤ a → totalLength (openTurn 1 1 (sg true) (sg l) a) = 1 / 1 + a ∧
      totalLength (closeTurn 1 1 (sg true) (sg l) a) = 1 / 1 + a := fun l a ha =>
    half_length one_pos one_pos ha l true
  have lf : totalLength (fullTurn 1 1 (sg true) (sg true) 1) = 3 := by norm_num [fullTurn, totalLength, sg]
  have lf' : totalLength (fullTurn 1 1 (sg true) (sg false) 2) = 4 := by norm_num [fullTurn, totalLength, sg]
  obtain ⟨a1, a2, g0, a3, a4, q1, q2, L1, L2, a5, a6, a7, a8⟩ := sub false true _ _ ⟨0, 0, 0, 0, 0⟩ (.zero wf)
    (.curved 2 (by norm_num)) (by rw [lf, (ho false 2 (by norm_num)).1]; norm_num)
  obtain ⟨b1, b2, g1, b3, b4, r1, r2, M1, M2, b5, b6, b7, b8⟩ := sub true false _ _ ⟨0, 0, 0, 1, 0⟩
    (.curved 1 (by norm_num)) (.zero wf') (by rw [lf', (ho true 1 (by norm_num)).2]; norm_num)
  obtain ⟨d1, d2, g2, d3, d4, p1, p2, N1, N2, d5, d6, d7, d8⟩ := sub true true _ _ ⟨0, 0, 0, 1, 0⟩
    (.curved 1 (by norm_num)) (.curved 2 (by norm_num))
    (by rw [(ho true 1 (by norm_num)).2, (ho false 2 (by norm_num)).1]; norm_num)
  -- centres of the circles
  have zc : ∀ (s : State) (l f : Bool), center (zeroCircle ⟨1, 1, 1 / 10, true⟩ s l f)
      = Spec.cen (sg f * ccA 1 1) (sg l * ccB 1 1) (pose s) := fun s l f =>
    (Spec.CC00.circOk_at (k := 1) (s := 1) H.kappa H.sigma H.clothoid (configuration s.x s.y s.theta 0) l f true).cen.trans
      (cen_congr (Spec.CC00.cfg_startOf s))
  have cc : ∀ (s : State) (l f : Bool), center (curvedCircle ⟨1, 1, 1 / 10, true⟩ s l f)
      = Spec.cen 0 (1 / (sg l * 1)) (pose s) := fun s l f =>
    (rsOk_at (k := 1) one_pos (configuration s.x s.y s.theta (sideCurvature 1 l)) l f true).cen.trans
      (cen_congr (cfg_curvedOf ⟨1, 1, 1 / 10, true⟩ s l))
  refine ⟨g0, g1, g2, _, _, _, hr, ⟨a1, a3 ▸ t2, a4, ?_, a2⟩, ⟨b1, t1, b4, ?_, b2⟩, d1, t1, d3 ▸ t2, d4, ?_, d2⟩
  · have a5' : Turned true 1 1 true true (pose ⟨0, 0, 0, 0, 0⟩) q1 L1 := a5
    have a6' : Opened 1 1 false true q2 (pose g0) L2 := a6
    have := line_far hA.le a5'.cen a6'.cen.symm (by norm_num) a7 a8
    rw [center_distance_eq, zc, cc]
    linarith
  · have b5' : Closed 1 1 true true (pose ⟨0, 0, 0, 1, 0⟩) r1 M1 := b5
    have b6' : Turned true 1 1 false true r2 (pose g1) M2 := b6
    have := line_far hA.le b5'.cen b6'.cen.symm (by norm_num) b7 b8
    rw [center_distance_eq, zc, cc, show sg false * ccA 1 1 = -(sg true * ccA 1 1) by norm_num [sg]]
    linarith
  · have d5' : Closed 1 1 true true (pose ⟨0, 0, 0, 1, 0⟩) p1 N1 := d5
    have d6' : Opened 1 1 false true p2 (pose g2) N2 := d6
    have hfar := line_far hA.le d5'.cen d6'.cen.symm (by norm_num) d7 d8
    rw [← cc _ true true, ← cc _ false false] at hfar
    have hn : ‖center (curvedCircle ⟨1, 1, 1 / 10, true⟩ g2 false false) - (pose g2).pos‖ = 1 := by
      rw [cc, Spec.cen, add_sub_cancel_left, norm_cis_mul, ← sqrt_eq_norm]
      norm_num [sg]
    intro hon
    unfold configuration_on_hc_cc_circle at hon
    simp only at hon
    rw [if_pos] at hon
    · exact hon
    · have hd : ∀ c : Circle, point_distance c.xc c.yc g2.x g2.y = ‖(pose g2).pos - center c‖ := by
        intro c; unfold point_distance; rw [sqrt_eq_norm]; rfl
      obtain ⟨c1, hc1⟩ : ∃ c1, c1 = curvedCircle ⟨1, 1, 1 / 10, true⟩ ⟨0, 0, 0, 1, 0⟩ true true := ⟨_, rfl⟩
      have hrad : c1.radius = 1 / 1 := by rw [hc1]; rfl
      rw [← hc1] at hfar ⊢
      change |point_distance c1.xc c1.yc g2.x g2.y - c1.radius| > SF.epsilon
      rw [hd, hrad, gt_iff_lt, lt_abs]
      left
      generalize center (curvedCircle ⟨1, 1, 1 / 10, true⟩ g2 false false) = C2 at hn hfar
      have := norm_add_le (C2 - (pose g2).pos) ((pose g2).pos - center c1)
      rw [sub_add_sub_cancel, hn] at this
      norm_num [SF.epsilon]
      linarith

/-- A left turn of arc length 2 meets the hypotheses of the theorems on single turns. -/
example : ∃ g0 g1 g2 : State, Toward true g0.kappa ∧ Toward true 1 ∧ Toward true g2.kappa ∧
    SameConfig (libAll (openTurn 1 1 1 1 2) (pose ⟨0, 0, 0, 0, 0⟩)) (pose g0) ∧
    SameConfig (libAll (closeTurn 1 1 1 1 2) (pose ⟨0, 0, 0, 1, 0⟩)) (pose g1) ∧
    SameConfig (libAll [⟨1 * 2, 1 * 1, 0⟩] (pose ⟨0, 0, 0, 1, 0⟩)) (pose g2) ∧ (1 / 1 + 2 : ℝ) < dblMax := by
  have t1 : Toward true 1 := ⟨fun _ => by norm_num, fun h => by simp at h⟩
  have mk : ∀ e : Config, ∃ g : State, Toward true g.kappa ∧ SameConfig e (pose g) := fun e =>
    ⟨⟨e.x, e.y, e.theta, 1, 0⟩, t1, SameConfig.refl _⟩
  obtain ⟨g0, a0, b0⟩ := mk (libAll (openTurn 1 1 1 1 2) (pose ⟨0, 0, 0, 0, 0⟩))
  obtain ⟨g1, _, b1⟩ := mk (libAll (closeTurn 1 1 1 1 2) (pose ⟨0, 0, 0, 1, 0⟩))
  obtain ⟨g2, a2, b2⟩ := mk (libAll [⟨1 * 2, 1 * 1, 0⟩] (pose ⟨0, 0, 0, 1, 0⟩))
  exact ⟨g0, g1, g2, a0, t1, a2, b0, b1, b2, lt_trans (by norm_num) dblMax_large⟩

end Props
