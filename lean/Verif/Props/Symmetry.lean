import Verif.Lemmas.CcSymmetry
import Verif.Lemmas.RSPeriod
import Verif.Lemmas.HcWide
import Verif.Props.Motion

/-!
# Driving a path backwards
-/

noncomputable section

namespace Props

open SF Spec Real

/-! ## C93 -/

/-- **C93.** The HC0±-Reeds-Shepp distance from one state to another is the HC±0-Reeds-Shepp distance the other way round, for
parameters in range and any two states. -/
theorem C93_hc0pm_hcpm0 (sp : HCSpace) (h : InRange sp.kappa sp.sigma) (s1 s2 : State) (hfar : dist2 s1 s2 ≤ 10 ^ 100) :
    HcRs.get_distance true false sp s2 s1 = HcRs.get_distance false true sp s1 s2 :=
  Spec.Rev.get_distance_rev h hfar fun i _ j _ => Spec.Rev.mixed h.rng i j

/-- Two states in whose plan the circles overlap, and the distance exists. -/
example : HcRs.get_distance true false ⟨1, 1, 1, true⟩ ⟨1, 2, 3, 1, 0⟩ ⟨0, 0, 0, 0, 0⟩ =
      HcRs.get_distance false true ⟨1, 1, 1, true⟩ ⟨0, 0, 0, 0, 0⟩ ⟨1, 2, 3, 1, 0⟩ ∧
    ∃ l, HcRs.get_distance false true ⟨1, 1, 1, true⟩ ⟨0, 0, 0, 0, 0⟩ ⟨1, 2, 3, 1, 0⟩ = some l := by
  have hr : InRange 1 1 := ⟨by norm_num, by norm_num, by norm_num, by norm_num⟩
  have hd : dist2 ⟨0, 0, 0, 0, 0⟩ ⟨1, 2, 3, 1, 0⟩ ≤ 10 ^ 100 := by
    unfold dist2
    exact Real.sqrt_le_iff.2 ⟨by norm_num, by norm_num⟩
  refine ⟨C93_hc0pm_hcpm0 ⟨1, 1, 1, true⟩ hr _ _ hd, ?_⟩
  obtain ⟨p, -, -, hp, -⟩ := Spec.HcRs.plan (sp := ⟨1, 1, 1, true⟩) (pm1 := false) (pm2 := true) hr _ _ hd
  exact ⟨p.length, by rw [HcRs.get_distance, hp]; rfl⟩

/-! ## C94 -/

/-- **C94, partial.** The HC00-Reeds-Shepp distance (`pm` false) and the HC±±-Reeds-Shepp distance (`pm` true) are symmetric, for
parameters in range, if the goal is on none of the turning circles of the start up to the tolerance, the start on none of
the goal, and no circle of the start has the same centre as a circle of the goal.  Missing: the other states, where the
single turn of one problem need not be one of the other because of the tolerance of the test. -/
theorem C94_hc_symmetric_partial (pm : Bool) (sp : HCSpace) (h : InRange sp.kappa sp.sigma) (s1 s2 : State)
    (hfar : dist2 s1 s2 ≤ 10 ^ 100) (hc : Spec.Rev.ClearOf pm sp s1 s2) :
    HcRs.get_distance pm pm sp s2 s1 = HcRs.get_distance pm pm sp s1 s2 :=
  Spec.Rev.get_distance_rev h hfar fun i hi j hj => Spec.Rev.equal_ends h.rng i j (hc i hi j hj)

/-- **C94, far apart, partial.** In particular for states more than two (bounded) turning radii apart. -/
theorem C94_hc_symmetric_far_partial (pm : Bool) (sp : HCSpace) (h : InRange sp.kappa sp.sigma) (s1 s2 : State)
    (hfar : dist2 s1 s2 ≤ 10 ^ 100) (far : 2 * radiusBound sp.kappa sp.sigma + 1 / 10000 < dist2 s1 s2) :
    HcRs.get_distance pm pm sp s2 s1 = HcRs.get_distance pm pm sp s1 s2 :=
  C94_hc_symmetric_partial pm sp h s1 s2 hfar (Spec.Rev.clear_of_far h.rng pm far)

example (pm : Bool) : HcRs.get_distance pm pm ⟨1, 1, 1, true⟩ ⟨20, 5, 1, 0, 0⟩ ⟨0, 0, 0, 0, 0⟩ =
    HcRs.get_distance pm pm ⟨1, 1, 1, true⟩ ⟨0, 0, 0, 0, 0⟩ ⟨20, 5, 1, 0, 0⟩ :=
  C94_hc_symmetric_far_partial pm _ ⟨by norm_num, by norm_num, by norm_num, by norm_num⟩ _ _
    (by unfold dist2; exact Real.sqrt_le_iff.2 ⟨by norm_num, by norm_num⟩) motion_example.1

/-- **C94, false.** Without that condition the HC00-Reeds-Shepp distance need not be symmetric: for the curvature 1/1000 and the sharpness
1/125 there is a goal some 22 cm ahead of the origin that a single turn of at most 23.5 cm reaches, but every path back takes at least
24 cm (see C95, `asym_near`). -/
theorem C94_hc00_symmetric_false : ¬ ∀ (sp : HCSpace) (_ : InRange sp.kappa sp.sigma) (s1 s2 : State) (_ : dist2 s1 s2 ≤ 10 ^ 100),
    HcRs.get_distance false false sp s2 s1 = HcRs.get_distance false false sp s1 s2 := by
  intro h
  have := h ⟨1 / 1000, 1 / 125, 1, true⟩ wide_range Spec.CC00.wideStart Spec.asymGoal Spec.asym_far.1
  obtain ⟨l, e, hl⟩ := Spec.HcRs.asym_there (sp := ⟨1 / 1000, 1 / 125, 1, true⟩) rfl rfl
  obtain ⟨l', e', hl'⟩ := Spec.HcRs.asym_back (sp := ⟨1 / 1000, 1 / 125, 1, true⟩) rfl rfl
  rw [e, e'] at this
  obtain rfl := Option.some.inj this
  linarith

/-! ## C95 -/

/-- **C95, partial.** The CC00-Reeds-Shepp distance is symmetric, for parameters in range, if the goal is on none of the turning
circles of the start up to the tolerance, the start on none of the goal, and no circle of the start has the same centre as a
circle of the goal.  Missing: the other states. -/
theorem C95_cc_rs_symmetric_partial (sp : HCSpace) (h : InRange sp.kappa sp.sigma) (s1 s2 : State) (hc : Spec.Rev.ClearOfCc sp s1 s2) :
    CcRs.get_distance sp s2 s1 = CcRs.get_distance sp s1 s2 :=
  Spec.Rev.cc_rs_rev h.rng hc

/-- **C95, far apart, partial.** -/
theorem C95_cc_rs_symmetric_far_partial (sp : HCSpace) (h : InRange sp.kappa sp.sigma) (s1 s2 : State)
    (far : 2 * radiusBound sp.kappa sp.sigma + 1 / 10000 < dist2 s1 s2) :
    CcRs.get_distance sp s2 s1 = CcRs.get_distance sp s1 s2 :=
  C95_cc_rs_symmetric_partial sp h s1 s2 (Spec.Rev.clearCc_of_far h.rng far)

example : CcRs.get_distance ⟨1, 1, 1, true⟩ ⟨20, 5, 1, 0, 0⟩ ⟨0, 0, 0, 0, 0⟩ =
    CcRs.get_distance ⟨1, 1, 1, true⟩ ⟨0, 0, 0, 0, 0⟩ ⟨20, 5, 1, 0, 0⟩ :=
  C95_cc_rs_symmetric_far_partial _ ⟨by norm_num, by norm_num, by norm_num, by norm_num⟩ _ _ motion_example.1

/-- **C95, false.** Without that condition the distance need not be symmetric: for the curvature 1/1000 and the sharpness 1/125 there
is a goal some 22 cm ahead of the origin that a single turn of at most 23.5 cm reaches, but every path back takes at least 24 cm.
The goal has a heading just below that of the end of the turn.  On the way back the heading that the test computes for the origin is
therefore just below a full turn instead of just below zero, and it is compared with zero without regard for full turns. -/
theorem C95_cc_rs_symmetric_false : ¬ ∀ (sp : HCSpace) (_ : InRange sp.kappa sp.sigma) (s1 s2 : State),
    CcRs.get_distance sp s2 s1 = CcRs.get_distance sp s1 s2 := by
  intro h
  have := h ⟨1 / 1000, 1 / 125, 1, true⟩ wide_range Spec.CC00.wideStart Spec.asymGoal
  linarith [Spec.CcRs.asym_there (sp := ⟨1 / 1000, 1 / 125, 1, true⟩) rfl rfl, Spec.CcRs.asym_back (sp := ⟨1 / 1000, 1 / 125, 1, true⟩) rfl rfl]

/-- The goal is near the origin. -/
theorem asym_near : Spec.CC00.wideStart = ⟨0, 0, 0, 0, 0⟩ ∧ 0.145 ≤ Spec.asymGoal.x ∧ Spec.asymGoal.x ≤ 0.2275 ∧ 0 ≤ Spec.asymGoal.y ∧
    Spec.asymGoal.y ≤ 0.00002 ∧ Spec.asymGoal.theta = 0.000101 := by
  obtain ⟨h1, h2, h3, h4⟩ := Spec.asymGoal_pos
  exact ⟨rfl, by norm_num; linarith, by norm_num; linarith, h3, by norm_num; linarith, by norm_num [Spec.asymGoal]⟩

/-! ## C96 -/

/-- **C96, partial.** The distance of the CC00-Dubins planner that drives forwards from one state to another is the distance of
the planner that drives backwards the other way round, under the same conditions.  Missing: the other states. -/
theorem C96_cc_dubins_reversed_partial (kappa sigma discretization : ℝ) (forwards : Bool) (h : InRange kappa sigma) (s1 s2 : State)
    (hc : Spec.Rev.ClearOfCc ⟨kappa, sigma, discretization, forwards⟩ s1 s2) :
    CC00.get_distance ⟨kappa, sigma, discretization, !forwards⟩ s2 s1 = CC00.get_distance ⟨kappa, sigma, discretization, forwards⟩ s1 s2 :=
  Spec.Rev.cc00_rev (sp := ⟨kappa, sigma, discretization, forwards⟩) h.rng hc

/-- **C96, far apart, partial.** -/
theorem C96_cc_dubins_reversed_far_partial (kappa sigma discretization : ℝ) (forwards : Bool) (h : InRange kappa sigma) (s1 s2 : State)
    (far : 2 * radiusBound kappa sigma + 1 / 10000 < dist2 s1 s2) :
    CC00.get_distance ⟨kappa, sigma, discretization, !forwards⟩ s2 s1 = CC00.get_distance ⟨kappa, sigma, discretization, forwards⟩ s1 s2 :=
  C96_cc_dubins_reversed_partial _ _ _ _ h s1 s2 (Spec.Rev.clearCc_of_far (sp := ⟨kappa, sigma, discretization, forwards⟩) h.rng far)

example : CC00.get_distance ⟨1, 1, 1, false⟩ ⟨20, 5, 1, 0, 0⟩ ⟨0, 0, 0, 0, 0⟩ =
    CC00.get_distance ⟨1, 1, 1, true⟩ ⟨0, 0, 0, 0, 0⟩ ⟨20, 5, 1, 0, 0⟩ :=
  C96_cc_dubins_reversed_far_partial 1 1 1 true ⟨by norm_num, by norm_num, by norm_num, by norm_num⟩ _ _ motion_example.1

/-- **C96, false.** Without that condition the distances need not agree, for the same states. -/
theorem C96_cc_dubins_reversed_false : ¬ ∀ (kappa sigma discretization : ℝ) (forwards : Bool) (_ : InRange kappa sigma) (s1 s2 : State),
    CC00.get_distance ⟨kappa, sigma, discretization, !forwards⟩ s2 s1 = CC00.get_distance ⟨kappa, sigma, discretization, forwards⟩ s1 s2 := by
  intro h
  have := h (1 / 1000) (1 / 125) 1 true wide_range Spec.CC00.wideStart Spec.asymGoal
  linarith [Spec.CC00.asym_there (sp := ⟨1 / 1000, 1 / 125, 1, true⟩) rfl rfl rfl,
    Spec.CC00.asym_back (sp := ⟨1 / 1000, 1 / 125, 1, !true⟩) rfl rfl]

/-! ## C97 -/

/-- **C97.** The Reeds-Shepp distance is symmetric, for all states. -/
theorem C97_rs_symmetric {sp : RSSpace} (hv : sp.Valid) (s1 s2 : State) : sp.get_distance s2 s1 = sp.get_distance s1 s2 :=
  le_antisymm (rs_distance_le sp hv.1 s1 s2) (rs_distance_le sp hv.1 s2 s1)

example : (⟨1, 0.1⟩ : RSSpace).get_distance ⟨0, 2, π, 0, 0⟩ ⟨0, 0, 0, 0, 0⟩ =
    (⟨1, 0.1⟩ : RSSpace).get_distance ⟨0, 0, 0, 0, 0⟩ ⟨0, 2, π, 0, 0⟩ :=
  C97_rs_symmetric ⟨one_pos, by norm_num⟩ _ _

/-! ## C98 -/

/-- **C98.** The Reeds-Shepp distance does not change if left and right are exchanged. -/
theorem C98_rs_mirror {sp : RSSpace} (s1 s2 : State) :
    sp.get_distance (mirror.move s1) (mirror.move s2) = sp.get_distance s1 s2 := by
  have e : ∀ a b : State, sp.params (mirror.move a) (mirror.move b) =
      ((sp.params a b).1, -(sp.params a b).2.1, -(sp.params a b).2.2) := by
    intro a b
    simp only [RSSpace.params, mirror, Motion.move, Motion.sign]
    refine Prod.ext ?_ (Prod.ext ?_ ?_) <;> simp <;> first | ring1 | (left; ring1)
  unfold RSSpace.get_distance RSSpace.reeds_shepp
  rw [e]
  congr 1
  apply le_antisymm <;> apply reeds_shepp_le <;> intro L h
  · apply RSAny.mirror; rwa [neg_neg, neg_neg]
  · exact h.mirror

/-- The state with the other driving direction: position reflected in the `y`-axis, front and back of the car exchanged. -/
def turnedRound (s : State) : State := ⟨-s.x, s.y, -s.theta, s.kappa, s.d⟩

/-- **C98.** The Reeds-Shepp distance does not change if forwards and backwards are exchanged. -/
theorem C98_rs_turned_round {sp : RSSpace} (s1 s2 : State) :
    sp.get_distance (turnedRound s1) (turnedRound s2) = sp.get_distance s1 s2 := by
  have e : ∀ a b : State, sp.params (turnedRound a) (turnedRound b) =
      (-(sp.params a b).1, (sp.params a b).2.1, -(sp.params a b).2.2) := by
    intro a b
    simp only [RSSpace.params, turnedRound, cos_neg, sin_neg]
    refine Prod.ext ?_ (Prod.ext ?_ ?_) <;> simp only <;> ring
  unfold RSSpace.get_distance RSSpace.reeds_shepp
  rw [e]
  congr 1
  apply le_antisymm <;> apply reeds_shepp_le <;> intro L h
  · apply RSAny.flip; rwa [neg_neg, neg_neg]
  · exact h.flip

/-- A query that the reflections change. -/
example : mirror.move ⟨3, 4, 1, 0, 0⟩ = ⟨3, -4, -1, 0, 0⟩ ∧ turnedRound ⟨3, 4, 1, 0, 0⟩ = ⟨-3, 4, -1, 0, 0⟩ := by
  simp [mirror, Motion.move, Motion.sign, turnedRound]

/-! ## C99 -/

/-- **C99.** The Reeds-Shepp distance depends only on the positions of the states and on their headings up to full turns. -/
theorem C99_rs_full_turns {sp : RSSpace} {s1 s2 s1' s2' : State} (x1 : s1'.x = s1.x) (y1 : s1'.y = s1.y)
    (t1 : AngleEq s1'.theta s1.theta) (x2 : s2'.x = s2.x) (y2 : s2'.y = s2.y) (t2 : AngleEq s2'.theta s2.theta) :
    sp.get_distance s1' s2' = sp.get_distance s1 s2 := by
  unfold RSSpace.get_distance RSSpace.reeds_shepp
  congr 1
  have e1 : (sp.params s1' s2').1 = (sp.params s1 s2).1 := by simp only [RSSpace.params, x1, y1, x2, y2, t1.sin_eq, t1.cos_eq]
  have e2 : (sp.params s1' s2').2.1 = (sp.params s1 s2).2.1 := by
    simp only [RSSpace.params, x1, y1, x2, y2, t1.sin_eq, t1.cos_eq]
  rw [e1, e2]
  exact reeds_shepp_turn (t2.sub t1)

/-- Opposite headings, where the representation decides the sign of half a turn. -/
example : (⟨1, 0.1⟩ : RSSpace).get_distance ⟨0, 0, 0, 0, 0⟩ ⟨0, 2, -π, 0, 0⟩ =
    (⟨1, 0.1⟩ : RSSpace).get_distance ⟨0, 0, 0, 0, 0⟩ ⟨0, 2, π, 0, 0⟩ :=
  C99_rs_full_turns rfl rfl (AngleEq.refl _) rfl rfl ⟨-1, by push_cast; ring⟩

end Props
