import Verif.Lemmas.Entry
import Verif.Props.HcRsOptimal
import Verif.Props.CcOptimal
import Verif.Props.HcReedsShepp
import Verif.Props.CcDubinsPm

/-!
# The planners for any curvature are not worse than changing the curvature first
-/

noncomputable section

namespace Props

open SF Spec Real

variable {sp : HCSpace} {junk : ℝ} {s1 s2 p1 p2 : State}

/-- Distance of the CC-Dubins planner for the given curvatures at the ends: zero, or the maximum if `full`. -/
def ccFixed (full1 full2 : Bool) (sp : HCSpace) (s1 s2 : State) : Option ℝ :=
  match full1, full2 with
  | false, false => some (CC00.get_distance sp s1 s2)
  | false, true => CC0pm.get_distance sp s1 s2
  | true, false => CCpm0.get_distance sp s1 s2
  | true, true => CCpmpm.get_distance sp s1 s2

/-- What C119 asks of the first and the last circle of a path, for each of the four planners. -/
def HcApart (full1 full2 : Bool) (sp : HCSpace) (s1 s2 : State) (d1 l1 d2 l2 : Bool) : Prop :=
  match full1, full2 with
  | false, false => ¬ configuration_on_hc_cc_circle (zeroCircle sp s1 l1 d1) (configuration s2.x s2.y s2.theta 0)
  | false, true => 1 / 10000 ≤ center_distance (zeroCircle sp s1 l1 d1) (curvedCircle sp s2 l2 !d2)
  | true, false => 1 / 10000 ≤ center_distance (curvedCircle sp s1 l1 d1) (zeroCircle sp s2 l2 !d2)
  | true, true => ¬ configuration_on_hc_cc_circle (curvedCircle sp s1 l1 d1) (curvedCircle sp s2 l2 !d2).start

/-! ## C120 -/

/-- **C120, HC-Reeds-Shepp.** Let `e1` bring the car from `s1` to `p1` with curvature zero or the maximum curvature, and
`e2` likewise from `s2` to `p2`, both forwards or backwards.  Then the distance from `s1` to `s2` is at most
the length of `e1`, the distance from `p1` to `p2` for these curvatures and the length of `e2`. -/
theorem C120_hc (h : InRange sp.kappa sp.sigma) (hr : InReach sp s1 s2) {d1 d2 k1 k2 : ℝ} (hd1 : Sign d1) (hd2 : Sign d2)
    {f1 f2 : Bool} {e1 e2 : List Segment} (E1 : Entry sp.kappa sp.sigma d1 s1.kappa f1 k1 e1)
    (E2 : Entry sp.kappa sp.sigma d2 s2.kappa f2 k2 e2) (hp1 : SameConfig (libAll e1 (pose s1)) (pose p1))
    (hp2 : SameConfig (libAll e2 (pose s2)) (pose p2)) (hk1 : p1.kappa = k1) (hk2 : p2.kappa = k2) {x : ℝ}
    (hx : HcRs.get_distance f1 f2 sp p1 p2 = some x) :
    ∃ y, HC.get_distance sp junk s1 s2 = some y ∧ y ≤ totalLength e1 + x + totalLength e2 := by
  have H := h.rng
  have hK : 1 / 10000 < sp.kappa := by have := H.kappa; rw [epsilon] at this; linarith
  obtain ⟨a, ha, ca⟩ := entry_hc (junk := junk) H hd1 E1
  obtain ⟨b, hb, cb⟩ := entry_hc (junk := junk) H hd2 E2
  have sa := ca.same hp1 hk1
  have sb := cb.same hp2 hk2
  have z1 : |p1.kappa| = if f1 then sp.kappa else 0 := by rw [hk1]; exact E1.full_abs H.pos
  have z2 : |p2.kappa| = if f2 then sp.kappa else 0 := by rw [hk2]; exact E2.full_abs H.pos
  have hc : (HC.distance_planners sp).call a.1 b.1 = some x := by
    rw [← hc_distance_respects sp _ _ _ _ sa sb, call_of _ hK z1 z2, ← hx]
    cases f1 <;> cases f2 <;> rfl
  have hE : state_equal a.1 b.1 → x = 0 := by
    intro he
    have he := (sa.state_equal sb).2 he
    have : HcRs.get_distance f1 f2 sp p1 p2 = some 0 := by
      cases f1 <;> cases f2
      · exact (Spec.HcRs.equal_plan false sp he (by rw [abs_eq_zero.1 z1, abs_eq_zero.1 z2])).1
      · exact absurd he (mixed_apart hK (abs_eq_zero.1 z1) z2)
      · exact absurd he (mixed_apart' hK z1 (abs_eq_zero.1 z2))
      · exact (Spec.HcRs.equal_plan true sp he (full_sign hK z1 z2 he)).1
    exact Option.some_inj.1 (hx.symm.trans this)
  obtain ⟨z, hz, hz'⟩ := pair_distance_le hc hE
  obtain ⟨⟨m, hm, _⟩, _⟩ := C78_hcrs_always (junk := junk) h s1 s2 hr
  refine ⟨m, hm, (min_distance_le hm ha hb hz).trans ?_⟩
  rw [ca.len, cb.len] at hz'
  exact hz'

/-- **C120, CC-Dubins.** The same for CC-Dubins, where `e1` is driven in the direction of the space, and `e2` from the
goal in the opposite direction. -/
theorem C120_cc (h : InRange sp.kappa sp.sigma) (hr : InReach sp s1 s2) {k1 k2 : ℝ}
    {f1 f2 : Bool} {e1 e2 : List Segment} (E1 : Entry sp.kappa sp.sigma (drivingSign sp) s1.kappa f1 k1 e1)
    (E2 : Entry sp.kappa sp.sigma (-drivingSign sp) s2.kappa f2 k2 e2) (hp1 : SameConfig (libAll e1 (pose s1)) (pose p1))
    (hp2 : SameConfig (libAll e2 (pose s2)) (pose p2)) (hk1 : p1.kappa = k1) (hk2 : p2.kappa = k2) {x : ℝ}
    (hx : ccFixed f1 f2 sp p1 p2 = some x) :
    ∃ y, CC.get_distance sp junk s1 s2 = some y ∧ y ≤ totalLength e1 + x + totalLength e2 := by
  have H := h.rng
  have hK : 1 / 10000 < sp.kappa := by have := H.kappa; rw [epsilon] at this; linarith
  have hn : -drivingSign sp = if (!sp.forwards) then 1 else -1 := by
    unfold drivingSign; cases sp.forwards <;> simp
  rw [hn] at E2
  obtain ⟨a, ha, ca⟩ := entry_cc (junk := junk) (fw := sp.forwards) H E1
  obtain ⟨b, hb, cb⟩ := entry_cc (junk := junk) (fw := !sp.forwards) H E2
  have sa := ca.same hp1 hk1
  have sb := cb.same hp2 hk2
  have z1 : |p1.kappa| = if f1 then sp.kappa else 0 := by rw [hk1]; exact E1.full_abs H.pos
  have z2 : |p2.kappa| = if f2 then sp.kappa else 0 := by rw [hk2]; exact E2.full_abs H.pos
  have hc : (CC.distance_planners sp).call a.1 b.1 = some x := by
    rw [← cc_distance_respects sp _ _ _ _ sa sb, call_of _ hK z1 z2, ← hx]
    cases f1 <;> cases f2 <;> rfl
  have hE : state_equal a.1 b.1 → x = 0 := by
    intro he
    have he := (sa.state_equal sb).2 he
    have : ccFixed f1 f2 sp p1 p2 = some 0 := by
      cases f1 <;> cases f2
      · exact congrArg some (Spec.CC00.equal_plan sp he).1
      · exact absurd he (mixed_apart hK (abs_eq_zero.1 z1) z2)
      · exact absurd he (mixed_apart' hK z1 (abs_eq_zero.1 z2))
      · exact (Spec.CCpmpm.equal_plan sp he (full_sign hK z1 z2 he)).1
    exact Option.some_inj.1 (hx.symm.trans this)
  obtain ⟨z, hz, hz'⟩ := pair_distance_le hc hE
  obtain ⟨⟨m, hm, _⟩, _⟩ := C62_cc_always (junk := junk) h s1 s2 hr
  refine ⟨m, hm, (min_distance_le hm ha hb hz).trans ?_⟩
  rw [ca.len, cb.len] at hz'
  exact hz'

theorem pathTol_nonneg (cs : List Segment) : 0 ≤ pathTol cs := by
  unfold pathTol
  refine List.sum_nonneg fun x hx => ?_
  obtain ⟨c, -, rfl⟩ := List.mem_map.1 hx
  unfold segTol; split_ifs <;> positivity

/-- **C120, competitors of HC-Reeds-Shepp.** Together with C119: no path that changes the curvature to zero or to the
maximum, goes on with at most three parts and changes the curvature to that of the goal is shorter. -/
theorem C120_hc_optimal (h : InRange sp.kappa sp.sigma) (hr : InReach sp s1 s2) {g1 g2 k1 k2 : ℝ} (hg1 : Sign g1) (hg2 : Sign g2)
    {f1 f2 : Bool} {e1 e2 : List Segment} (E1 : Entry sp.kappa sp.sigma g1 s1.kappa f1 k1 e1)
    (E2 : Entry sp.kappa sp.sigma g2 s2.kappa f2 k2 e2) (hp1 : SameConfig (libAll e1 (pose s1)) (pose p1))
    (hp2 : SameConfig (libAll e2 (pose s2)) (pose p2)) (hk1 : p1.kappa = k1) (hk2 : p2.kappa = k2)
    {cs : List Segment} {d1 l1 d2 l2 : Bool}
    (hw : HcWord f1 f2 sp.kappa sp.sigma (sideSign d1) (sideSign l1) (sideSign d2) (sideSign l2) cs)
    (ht1 : f1 = true → Toward l1 p1.kappa) (ht2 : f2 = true → Toward l2 p2.kappa)
    (he : SameConfig (libAll cs (pose p1)) (pose p2)) (hoff : HcApart f1 f2 sp p1 p2 d1 l1 d2 l2)
    (hfin : totalLength cs + pathTol cs < dblMax) :
    ∃ y, HC.get_distance sp junk s1 s2 = some y ∧ y ≤ totalLength (e1 ++ cs ++ e2) + pathTol cs := by
  have ht := pathTol_nonneg cs
  obtain ⟨x, hx, hx'⟩ : ∃ x, HcRs.get_distance f1 f2 sp p1 p2 = some x ∧ x ≤ totalLength cs + pathTol cs := by
    have hf : totalLength cs < dblMax := by linarith
    have up : ∀ {o : Option ℝ}, (∃ x, o = some x ∧ x ≤ totalLength cs) → ∃ x, o = some x ∧ x ≤ totalLength cs + pathTol cs :=
      fun ⟨x, a, b⟩ => ⟨x, a, by linarith⟩
    cases f1 <;> cases f2
    · exact C119_hc00_optimal h hw he hoff hfin
    · exact up (C119_hc0pm_optimal h hw (ht2 rfl) he hoff hf)
    · exact up (C119_hcpm0_optimal h hw (ht1 rfl) he hoff hf)
    · exact up (C119_hcpmpm_optimal h hw (ht1 rfl) (ht2 rfl) he hoff hf)
  obtain ⟨y, hy, hy'⟩ := C120_hc (junk := junk) h hr hg1 hg2 E1 E2 hp1 hp2 hk1 hk2 hx
  refine ⟨y, hy, hy'.trans ?_⟩
  rw [totalLength_append, totalLength_append]
  linarith

/-- **C120, competitors of CC-Dubins, zero curvature in between.** Together with C68. -/
theorem C120_cc_optimal_00 (h : InRange sp.kappa sp.sigma) (hr : InReach sp s1 s2) {k1 k2 : ℝ}
    {e1 e2 : List Segment} (E1 : Entry sp.kappa sp.sigma (drivingSign sp) s1.kappa false k1 e1)
    (E2 : Entry sp.kappa sp.sigma (-drivingSign sp) s2.kappa false k2 e2) (hp1 : SameConfig (libAll e1 (pose s1)) (pose p1))
    (hp2 : SameConfig (libAll e2 (pose s2)) (pose p2)) (hk1 : p1.kappa = k1) (hk2 : p2.kappa = k2)
    {cs : List Segment} (hw : CCWord sp.kappa sp.sigma (drivingSign sp) cs)
    (he : SameConfig (libAll cs (pose p1)) (pose p2)) (hoff : OffCircles sp p1 p2) :
    ∃ y, CC.get_distance sp junk s1 s2 = some y ∧ y ≤ totalLength (e1 ++ cs ++ e2) + pathTol cs := by
  obtain ⟨y, hy, hy'⟩ := C120_cc (junk := junk) (f1 := false) (f2 := false) h hr E1 E2 hp1 hp2 hk1 hk2 rfl
  refine ⟨y, hy, hy'.trans ?_⟩
  have := C68_cc00_optimal h hw he hoff
  rw [totalLength_append, totalLength_append]
  linarith

/-- **C120, competitors of CC-Dubins, curvature in between.** Together with C118; one of the two curvatures in between is
the maximum curvature. -/
theorem C120_cc_optimal_pm (h : InRange sp.kappa sp.sigma) (hr : InReach sp s1 s2) {k1 k2 : ℝ} {f1 f2 : Bool}
    (hf : f1 = true ∨ f2 = true)
    {e1 e2 : List Segment} (E1 : Entry sp.kappa sp.sigma (drivingSign sp) s1.kappa f1 k1 e1)
    (E2 : Entry sp.kappa sp.sigma (-drivingSign sp) s2.kappa f2 k2 e2) (hp1 : SameConfig (libAll e1 (pose s1)) (pose p1))
    (hp2 : SameConfig (libAll e2 (pose s2)) (pose p2)) (hk1 : p1.kappa = k1) (hk2 : p2.kappa = k2)
    {cs : List Segment} {l1 l2 : Bool}
    (hw : PmWord f1 f2 sp.kappa sp.sigma (drivingSign sp) (sideSign l1) (sideSign l2) cs)
    (ht1 : f1 = true → Toward l1 p1.kappa) (ht2 : f2 = true → Toward l2 p2.kappa)
    (he : SameConfig (libAll cs (pose p1)) (pose p2)) (hoff : HcApart f1 f2 sp p1 p2 sp.forwards l1 sp.forwards l2)
    (hfin : totalLength cs < dblMax) :
    ∃ y, CC.get_distance sp junk s1 s2 = some y ∧ y ≤ totalLength (e1 ++ cs ++ e2) := by
  obtain ⟨x, hx, hx'⟩ : ∃ x, ccFixed f1 f2 sp p1 p2 = some x ∧ x ≤ totalLength cs := by
    cases f1 <;> cases f2
    · simp at hf
    · exact C118_cc0pm_optimal h hw (ht2 rfl) he hoff hfin
    · exact C118_ccpm0_optimal h hw (ht1 rfl) he hoff hfin
    · exact C118_ccpmpm_optimal h hw (ht1 rfl) (ht2 rfl) he hoff hfin
  obtain ⟨y, hy, hy'⟩ := C120_cc (junk := junk) h hr E1 E2 hp1 hp2 hk1 hk2 hx
  refine ⟨y, hy, hy'.trans ?_⟩
  rw [totalLength_append, totalLength_append]
  linarith

/-- A car with half the maximum curvature to the left that straightens the wheel, and a goal with a third of the maximum curvature to
the right that is reached from the maximum, meet the hypotheses of the first two theorems. -/
example : ∃ (e1 e2 : List Segment) (p1 p2 : State) (x x' : ℝ), InRange 1 1 ∧
    InReach ⟨1, 1, 1, true⟩ ⟨0, 0, 0, 1 / 2, 0⟩ ⟨100, 0, 0, -1 / 3, 0⟩ ∧ e1 ≠ [] ∧ e2 ≠ [] ∧
    Entry 1 1 (drivingSign ⟨1, 1, 1, true⟩) (1 / 2) false 0 e1 ∧ Entry 1 1 (-drivingSign ⟨1, 1, 1, true⟩) (-1 / 3) true (-1 * 1) e2 ∧
    SameConfig (libAll e1 (pose ⟨0, 0, 0, 1 / 2, 0⟩)) (pose p1) ∧
    SameConfig (libAll e2 (pose ⟨100, 0, 0, -1 / 3, 0⟩)) (pose p2) ∧ p1.kappa = 0 ∧ p2.kappa = -1 * 1 ∧
    HcRs.get_distance false true ⟨1, 1, 1, true⟩ p1 p2 = some x ∧ ccFixed false true ⟨1, 1, 1, true⟩ p1 p2 = some x' := by
  have hr : InRange 1 1 := ⟨by norm_num, by norm_num, by norm_num, by norm_num⟩
  have e : dist2 ⟨0, 0, 0, 1 / 2, 0⟩ ⟨100, 0, 0, -1 / 3, 0⟩ = 100 := by
    rw [dist2, show ((100:ℝ) - 0) ^ 2 + (0 - 0) ^ 2 = 100 ^ 2 by norm_num, sqrt_sq (by norm_num)]
  obtain ⟨e1, h1⟩ : ∃ e1 : List Segment, e1 = [⟨drivingSign ⟨1, 1, 1, true⟩ * (1 * (1 / 2) / 1), 1 / 2, -(1 * 1)⟩] := ⟨_, rfl⟩
  obtain ⟨e2, h2⟩ : ∃ e2 : List Segment,
    e2 = [⟨-drivingSign ⟨1, 1, 1, true⟩ * ((1 - -1 * (-1 / 3)) / 1), -1 / 3, -1 * 1⟩] := ⟨_, rfl⟩
  obtain ⟨q1, hq1⟩ : ∃ q1, q1 = libAll e1 (pose ⟨0, 0, 0, 1 / 2, 0⟩) := ⟨_, rfl⟩
  obtain ⟨q2, hq2⟩ : ∃ q2, q2 = libAll e2 (pose ⟨100, 0, 0, -1 / 3, 0⟩) := ⟨_, rfl⟩
  have b1 := libAll_dist e1 (pose ⟨0, 0, 0, 1 / 2, 0⟩)
  have b2 := libAll_dist e2 (pose ⟨100, 0, 0, -1 / 3, 0⟩)
  have l1 : totalLength e1 + pathTol e1 ≤ 2 := by rw [h1]; norm_num [totalLength, pathTol, segTol, drivingSign, abs_of_pos]
  have l2 : totalLength e2 + pathTol e2 ≤ 2 := by rw [h2]; norm_num [totalLength, pathTol, segTol, drivingSign, abs_of_pos]
  have hd : dist2 ⟨q1.x, q1.y, q1.theta, 0, 0⟩ ⟨q2.x, q2.y, q2.theta, -1 * 1, 0⟩ ≤ 10 ^ 100 := by
    rw [← hq1] at b1
    rw [← hq2] at b2
    have e' : (pose ⟨0, 0, 0, 1 / 2, 0⟩).dist (pose ⟨100, 0, 0, -1 / 3, 0⟩) = 100 := by
      refine Eq.trans ?_ e; rw [Config.dist_eq, dist2, sqrt_eq_norm, norm_sub_rev]; rfl
    have t1 := Config.dist_triangle q2 (pose ⟨100, 0, 0, -1 / 3, 0⟩) (pose ⟨0, 0, 0, 1 / 2, 0⟩)
    have t2 := Config.dist_triangle q2 (pose ⟨0, 0, 0, 1 / 2, 0⟩) q1
    have e3 : q2.dist q1 = dist2 ⟨q1.x, q1.y, q1.theta, 0, 0⟩ ⟨q2.x, q2.y, q2.theta, -1 * 1, 0⟩ := by
      rw [Config.dist_eq, dist2, sqrt_eq_norm]; rfl
    rw [Config.dist_eq, norm_sub_rev, ← Config.dist_eq] at b1 e'
    rw [← e3]
    have : (104 : ℝ) ≤ 10 ^ 100 := by norm_num
    linarith
  obtain ⟨x, _, hx, _⟩ := C72_hc_always (pm1 := false) (pm2 := true) (sp := ⟨1, 1, 1, true⟩) hr _ _ hd
  obtain ⟨x', _, hx', _⟩ := C56_cc0pm_always (sp := ⟨1, 1, 1, true⟩) hr _ _ hd
  refine ⟨e1, e2, _, _, x, x', hr, ?_, by simp [h1], by simp [h2], ?_, ?_, hq1 ▸ SameConfig.refl _, hq2 ▸ SameConfig.refl _,
    rfl, rfl, hx, hx'⟩
  · rw [InReach, e]; norm_num
  · rw [h1]; exact .straighten (Or.inl rfl) (by norm_num) (by norm_num)
  · rw [h2]; exact .tighten (Or.inr rfl) (by norm_num) (by norm_num)

/-- A car with half the maximum curvature that straightens the wheel, turns left, drives a line of length 10000 and turns right
meets the hypotheses of the theorems on competitors, with curvature zero and with the maximum curvature at the goal. -/
example : ∃ (e1 c0 c1 : List Segment) (p g0 g1 : State), InRange 1 1 ∧ e1 ≠ [] ∧
    Entry 1 1 (drivingSign ⟨1, 1, 1, true⟩) (1 / 2) false 0 e1 ∧ Sign (drivingSign ⟨1, 1, 1, true⟩) ∧
    SameConfig (libAll e1 (pose ⟨0, 0, 0, 1 / 2, 0⟩)) (pose p) ∧ p.kappa = 0 ∧
    (InReach ⟨1, 1, 1, true⟩ ⟨0, 0, 0, 1 / 2, 0⟩ g0 ∧ Entry 1 1 (-drivingSign ⟨1, 1, 1, true⟩) g0.kappa false 0 [] ∧
      SameConfig (libAll [] (pose g0)) (pose g0) ∧ g0.kappa = 0 ∧
      HcWord false false 1 1 (sideSign true) (sideSign true) (sideSign true) (sideSign false) c0 ∧
      CCWord 1 1 (drivingSign ⟨1, 1, 1, true⟩) c0 ∧
      SameConfig (libAll c0 (pose p)) (pose g0) ∧ HcApart false false ⟨1, 1, 1, true⟩ p g0 true true true false ∧
      OffCircles ⟨1, 1, 1, true⟩ p g0 ∧ totalLength c0 + pathTol c0 < dblMax) ∧
    (InReach ⟨1, 1, 1, true⟩ ⟨0, 0, 0, 1 / 2, 0⟩ g1 ∧ Entry 1 1 (-drivingSign ⟨1, 1, 1, true⟩) g1.kappa true (-1) [] ∧
      SameConfig (libAll [] (pose g1)) (pose g1) ∧ g1.kappa = -1 ∧ Toward false g1.kappa ∧
      HcWord false true 1 1 (sideSign true) (sideSign true) (sideSign true) (sideSign false) c1 ∧
      PmWord false true 1 1 (drivingSign ⟨1, 1, 1, true⟩) (sideSign true) (sideSign false) c1 ∧
      SameConfig (libAll c1 (pose p)) (pose g1) ∧ HcApart false true ⟨1, 1, 1, true⟩ p g1 true true true false ∧
      totalLength c1 + pathTol c1 < dblMax ∧ totalLength c1 < dblMax) := by
  have hr : InRange 1 1 := ⟨by norm_num, by norm_num, by norm_num, by norm_num⟩
  have H := hr.rng
  have big : (20000 : ℝ) < dblMax := lt_trans (by norm_num) dblMax_large
  obtain ⟨sp, hsp⟩ : ∃ sp : HCSpace, sp = ⟨1, 1, 1, true⟩ := ⟨_, rfl⟩
  have hk : sp.kappa = 1 := by rw [hsp]
  have hs : sp.sigma = 1 := by rw [hsp]
  have hds : drivingSign sp = 1 := by rw [hsp]; simp [drivingSign]
  have H' : Rng sp.kappa sp.sigma := by rw [hk, hs]; exact H
  rw [← hsp, hds]
  obtain ⟨e1, h1⟩ : ∃ e1 : List Segment, e1 = [⟨1 * (1 * (1 / 2) / 1), 1 / 2, -(1 * 1)⟩] := ⟨_, rfl⟩
  have l1 : totalLength e1 + pathTol e1 ≤ 2 := by rw [h1]; norm_num [totalLength, pathTol, segTol, abs_of_pos]
  obtain ⟨q, hq⟩ : ∃ q, q = libAll e1 (pose ⟨0, 0, 0, 1 / 2, 0⟩) := ⟨_, rfl⟩
  obtain ⟨p, hp⟩ : ∃ p : State, p = ⟨q.x, q.y, q.theta, 0, 0⟩ := ⟨_, rfl⟩
  have hqp : SameConfig (libAll e1 (pose ⟨0, 0, 0, 1 / 2, 0⟩)) (pose p) := by
    rw [← hq, hp]; exact SameConfig.refl _
  have b1 := libAll_dist e1 (pose ⟨0, 0, 0, 1 / 2, 0⟩)
  have sub : ∀ (u2 : Bool) (w2 : List Segment) (k : ℝ), HcLast 1 1 (sg true) (sg false) u2 false w2 →
      totalLength w2 + pathTol w2 ≤ 10 →
      ∃ (g : State) (cs : List Segment), cs = fullTurn 1 1 1 1 1 ++ [⟨1 * 10000, 0, 0⟩] ++ w2 ∧ g.kappa = k ∧
        HcWord false u2 1 1 (sideSign true) (sideSign true) (sideSign true) (sideSign false) cs ∧
        SameConfig (libAll cs (pose p)) (pose g) ∧ totalLength cs + pathTol cs < 19000 ∧
        InReach sp ⟨0, 0, 0, 1 / 2, 0⟩ g ∧
        10000 ≤ ‖center (HcRs.end_circle u2 sp g 3) - center (HcRs.end_circle false sp p 0)‖ := by
    intro u2 w2 k h2 hlen
    have hg : sg true = 1 := by simp [sg]
    have hw1 : HcFirst 1 1 (sg true) (sg true) false false (fullTurn 1 1 1 1 1) := by rw [hg]; exact .cc (.full 1)
    have t1 : totalLength (fullTurn 1 1 1 1 1) + pathTol (fullTurn 1 1 1 1 1) ≤ 4 := by
      norm_num [fullTurn, totalLength, pathTol, segTol]
    have t2 : totalLength [⟨1 * 10000, 0, 0⟩] + pathTol [⟨1 * 10000, 0, 0⟩] ≤ 10001 := by
      norm_num [totalLength, pathTol, segTol]
    obtain ⟨cs, hcs⟩ : ∃ cs : List Segment, cs = fullTurn 1 1 1 1 1 ++ [⟨1 * 10000, 0, 0⟩] ++ w2 := ⟨_, rfl⟩
    have hl : totalLength cs + pathTol cs < 10016 := by
      rw [hcs, totalLength_append, totalLength_append, pathTol_append, pathTol_append]; linarith
    obtain ⟨e, he⟩ : ∃ e, e = libAll cs (pose p) := ⟨_, rfl⟩
    have hs2 : SameConfig (libAll cs (pose p)) (pose ⟨e.x, e.y, e.theta, k, 0⟩) := he ▸ SameConfig.refl _
    refine ⟨⟨e.x, e.y, e.theta, k, 0⟩, cs, hcs, rfl, ?_, hs2, by linarith, ?_, ?_⟩
    · rw [hcs]
      have := HcWord.tst (x := 10000) (c2 := false) hw1 (by norm_num) h2 (by simp)
      simpa [after, sideSign, sg] using this
    · have b2 := libAll_dist cs (pose p)
      have b3 := Config.dist_triangle e (pose p) (pose ⟨0, 0, 0, 1 / 2, 0⟩)
      have b4 : e.dist (pose ⟨0, 0, 0, 1 / 2, 0⟩) = dist2 ⟨0, 0, 0, 1 / 2, 0⟩ ⟨e.x, e.y, e.theta, k, 0⟩ := by
        rw [Config.dist_eq, dist2, sqrt_eq_norm]; rfl
      have b5 : pose p = libAll e1 (pose ⟨0, 0, 0, 1 / 2, 0⟩) := by rw [← hq, hp]; rfl
      rw [← b5] at b1
      rw [← he] at b2
      rw [InReach, ← b4, hk, hs]
      have : (20000 : ℝ) ≤ 10 ^ 100 := by norm_num
      linarith
    · refine Spec.HcOpt.far (sp := sp) (u1 := false) (u2 := false) (d := true) (l1 := true) (l2 := false) H' (by norm_num)
        (by rw [hk, hs]; exact hw1) (by rw [hk, hs]; exact h2) ?_ rfl rfl
      rw [hcs] at hs2
      simpa [Spec.HcOpt.way, sg] using hs2
  have wf : ∀ l, RSTurn 1 1 1 l (fullTurn 1 1 1 l 2) := fun l => .full 2
  obtain ⟨g0, c0, a0, a1, a2, a3, a4, a5, a6⟩ := sub false (fullTurn 1 1 1 (-1) 2) 0 (by simpa [sg] using HcLast.cc (wf (-1)))
    (by norm_num [fullTurn, totalLength, pathTol, segTol])
  obtain ⟨g1, c1, d0, d1, d2, d3, d4, d5, d6⟩ := sub true (openTurn 1 1 1 (-1) 2) (-1)
    (by simpa [sg] using HcLast.open (k := 1) (s := 1) (d := 1) (lr := -1) 2)
    (by norm_num [openTurn, totalLength, pathTol, segTol])
  have n1 := pathTol_nonneg c1
  refine ⟨e1, c0, c1, p, g0, g1, hr, by simp [h1], ?_, Or.inl rfl, hqp, by rw [hp],
    ⟨a5, by rw [a1]; exact .zero rfl, SameConfig.refl _, a1, a2, ?_, a3, ?_, ?_, by linarith⟩,
    d5, by rw [d1]; exact .full (by norm_num), SameConfig.refl _, d1, ?_, d2, ?_, d3, ?_, by linarith, by linarith⟩
  · rw [h1]; exact .straighten (Or.inl rfl) (by norm_num) (by norm_num)
  · rw [a0]; exact .tst (Or.inl rfl) (Or.inr rfl) (.full 1 (by norm_num)) (by norm_num) (.full 2 (by norm_num))
  · refine Spec.HcOpt.not_on (c1 := HcRs.end_circle false sp p 0) (c2 := HcRs.end_circle false sp g0 3)
      H' (HcRs.end_ok H' false _ _) (HcRs.end_ok H' false _ _) rfl ?_
    rw [hk, hs]; norm_num; linarith
  · intro l
    obtain ⟨_, r0⟩ := Spec.HcOpt.end_radius H' (HcRs.end_ok H' false p 0)
    obtain ⟨_, r1⟩ := Spec.HcOpt.end_radius H' (HcRs.end_ok H' false p 1)
    have hc : (cfg (HcRs.end_circle false sp p 1).start).pos = (cfg (HcRs.end_circle false sp p 0).start).pos := rfl
    rw [hk, hs] at r0 r1
    rw [hc] at r1
    have far1 : 1000 ≤ ‖center (HcRs.end_circle false sp g0 3) - center (HcRs.end_circle false sp p 1)‖ := by
      generalize (cfg (HcRs.end_circle false sp p 0).start).pos = z at r0 r1
      generalize center (HcRs.end_circle false sp g0 3) = z3 at *
      generalize center (HcRs.end_circle false sp p 1) = z1 at *
      generalize center (HcRs.end_circle false sp p 0) = z0 at *
      have := norm_add₃_le (a := z3 - z1) (b := z1 - z) (c := z - z0)
      rw [show z3 - z1 + (z1 - z) + (z - z0) = z3 - z0 by ring, norm_sub_rev z z0] at this
      norm_num at r0 r1
      linarith
    cases l
    · have := Spec.HcOpt.not_on (c1 := HcRs.end_circle false sp p 1) (c2 := HcRs.end_circle false sp g0 3)
        (q := configuration g0.x g0.y g0.theta 0) H' (HcRs.end_ok H' false _ _) (HcRs.end_ok H' false _ _) rfl (by rw [hk, hs]; norm_num; linarith)
      rw [hsp] at this ⊢
      exact this
    · have := Spec.HcOpt.not_on (c1 := HcRs.end_circle false sp p 0) (c2 := HcRs.end_circle false sp g0 3)
        (q := configuration g0.x g0.y g0.theta 0) H' (HcRs.end_ok H' false _ _) (HcRs.end_ok H' false _ _) rfl (by rw [hk, hs]; norm_num; linarith)
      rw [hsp] at this ⊢
      exact this
  · rw [d1]; exact ⟨fun h => by simp at h, fun _ => by norm_num⟩
  · rw [d0]
    have := PmWord.tst (x := 10000) (StartTurn.zero (CCTurn.full (k := 1) (s := 1) (d := 1) (lr := 1) 1 (by norm_num))) (by norm_num)
      (EndTurn.curved (k := 1) (s := 1) (d := 1) (lr := -1) 2 (by norm_num))
    simpa [sideSign] using this
  · change 1 / 10000 ≤ center_distance (HcRs.end_circle false sp p 0) (HcRs.end_circle true sp g1 3)
    rw [center_distance_eq]; linarith

end Props
