import Verif.Lemmas.CcCompare
import Verif.Lemmas.CuspLost
import Verif.Props.CcDubins

/-!
# Properties of the CC-Reeds-Shepp planner
-/

noncomputable section

namespace Props

open SF Spec Real

variable {sp : HCSpace}

/-! ## C83 -/

/-- **C83 (partial).** Whenever CC00-Reeds-Shepp returns controls, they lead from `state1` to `state2`: heading error at most
`4e-4`, position error at most `ccPlanTol` besides the error of the Fresnel integrals.  Missing for the full claim: controls
may not be numbers for a cusp between two turns if the clothoids are short (`C83_cc00_rs_reaches_false`). -/
theorem C83_cc00_rs_reaches_partial (h : InRange sp.kappa sp.sigma) (s1 s2 : State) (hfar : dist2 s1 s2 ≤ 10 ^ 100)
    {cs : List Control} (hcs : CcRs.get_controls sp s1 s2 = some cs) :
    LeadsTo cs s1 s2 (ccPlanTol sp cs) (4 / 10000) := by
  rcases Spec.CcRs.plan h s1 s2 hfar with ⟨hn, _⟩ | ⟨cs', hcs', hok⟩
  · rw [hn] at hcs; simp at hcs
  · obtain rfl : cs' = cs := Option.some.inj (hcs'.symm.trans hcs)
    refine Leads.leadsTo ((hok.leads h.rng).mono ?_ ?_ le_rfl)
    · rw [ccPlanTol, lengthOf, SF.epsilon]
    · norm_num [SF.epsilon]

/-- **C83.** Under `CuspClear` (the clothoids are not short compared to the tolerance of the library) the claim holds in full:
controls are returned for every pair of states. -/
theorem C83_cc00_rs_reaches (h : InRange sp.kappa sp.sigma) (hc : CuspClear sp.kappa sp.sigma) (s1 s2 : State)
    (hfar : dist2 s1 s2 ≤ 10 ^ 100) :
    ∃ cs, CcRs.get_controls sp s1 s2 = some cs ∧ LeadsTo cs s1 s2 (ccPlanTol sp cs) (4 / 10000) := by
  rcases Spec.CcRs.plan h s1 s2 hfar with ⟨_, _, hn, _⟩ | ⟨cs, hcs, _⟩
  · exact absurd hc hn
  · exact ⟨cs, hcs, C83_cc00_rs_reaches_partial h s1 s2 hfar hcs⟩

/-- **C83, exact part.** For the path types after `TcT` (none of these is accepted within a tolerance), and if no CC turn
deflects by more than 0 and less than 1e-4, the controls lead to `state2` exactly, up to the error of the Fresnel integrals,
and `get_distance` is their length. -/
theorem C83_cc00_rs_exact (h : InRange sp.kappa sp.sigma) (s1 s2 : State) (hfar : dist2 s1 s2 ≤ 10 ^ 100)
    (ht : hc_cc_rs.TcT < (CcRs.reeds_shepp sp s1 s2).type)
    (hturn : ∀ x ∈ Spec.CcRs.ccTurns (CcRs.reeds_shepp sp s1 s2),
      x.1.deflection x.2 = 0 ∨ 1 / 10000 ≤ x.1.deflection x.2) :
    ∃ cs, CcRs.get_controls sp s1 s2 = some cs ∧ LeadsTo cs s1 s2 0 0 ∧ CcRs.get_distance sp s1 s2 = lengthOf cs := by
  rcases Spec.CcRs.plan h s1 s2 hfar with ⟨_, hn, _⟩ | ⟨cs, hcs, hok⟩
  · rw [hn] at ht; exact absurd ht (lt_irrefl _)
  · have hl := hok.precise ht (by rw [SF.epsilon]; exact hturn)
    refine ⟨cs, hcs, Leads.leadsTo hl, ?_⟩
    have := hl.length
    rw [abs_nonpos_iff] at this
    exact (sub_eq_zero.1 this).symm

/-- **C83, `get_path`.** If no control has a sharpness that the integration neglects, the last state of `get_path` is `state2`
up to the same errors. -/
theorem C83_cc00_rs_get_path (h : InRange sp.kappa sp.sigma) (hd : 0 < sp.discretization) (s1 s2 : State)
    (hfar : dist2 s1 s2 ≤ 10 ^ 100) {cs : List Control} (hcs : CcRs.get_controls sp s1 s2 = some cs) (hs : Sharp cs) :
    ∃ l e, CcRs.get_path sp s1 s2 = some l ∧ l.getLast? = some e ∧
      Within (ccPlanTol sp cs + 2 * pathTol (cs.map seg)) (4 / 10000) (pose e) (pose s2) := by
  rcases Spec.CcRs.plan h s1 s2 hfar with ⟨hn, _⟩ | ⟨cs', hcs', hok⟩
  · rw [hn] at hcs; simp at hcs
  · obtain rfl : cs' = cs := Option.some.inj (hcs'.symm.trans hcs)
    obtain ⟨l, e, g1, g2, g3⟩ :=
      LeadsTo.integrate (C83_cc00_rs_reaches_partial h s1 s2 hfar hcs) hd hok.ne hok.cont hs hok.flat
    exact ⟨l, e, by rw [CcRs.get_path, hcs]; exact g1, g2, g3⟩

/-- **C83 is false without `CuspClear`.** With kappa = 1/1000 and sigma = 5 (clothoids of 0.2 mm) the goal 2 cm ahead,
0.097 mm to the right, with heading 1.5e-4, is connected by two turns that meet in a cusp.  The centres of their circles are
within the tolerance 1e-4 of the right distance but more than two radii apart, so the cusp is the square root of a negative
number, and since both turns deflect by less than 1e-4 the controls are straight lines to that cusp: the controls are not
numbers. -/
theorem C83_cc00_rs_reaches_false : ∃ (sp : HCSpace) (s1 s2 : State), InRange sp.kappa sp.sigma ∧ dist2 s1 s2 ≤ 10 ^ 100 ∧
    CcRs.get_controls sp s1 s2 = none := by
  refine ⟨⟨1 / 1000, 5, 1, true⟩, CC00.wideStart, Cusp.goal, Cusp.range, ?_, Spec.CcRs.cusp_lost rfl rfl⟩
  change √((1 / 50 - 0) ^ 2 + (-97 / 1000000 - 0) ^ 2) ≤ 10 ^ 100
  rw [sqrt_le_iff]
  constructor <;> norm_num

/-- Parameters and states to which C83 applies. -/
example : InRange 1 1 ∧ CuspClear 1 1 ∧ dist2 ⟨0, 0, 0, 0, 0⟩ ⟨3, 4, 2, 0, 0⟩ ≤ 10 ^ 100 := by
  refine ⟨by constructor <;> norm_num, ?_, ?_⟩
  · rw [CuspClear, clothoidBound, radiusBound]; norm_num
  · rw [dist2, show ((3:ℝ) - 0) ^ 2 + (4 - 0) ^ 2 = 5 ^ 2 by norm_num, sqrt_sq (by norm_num)]
    norm_num

/-! ## C84 -/

/-- **C84.** `get_distance` is the length of the controls, if no CC turn deflects by less than 1e-4. -/
theorem C84_cc00_rs_distance (h : InRange sp.kappa sp.sigma) (s1 s2 : State) (hfar : dist2 s1 s2 ≤ 10 ^ 100)
    {cs : List Control} (hcs : CcRs.get_controls sp s1 s2 = some cs)
    (hturn : ∀ x ∈ Spec.CcRs.ccTurns (CcRs.reeds_shepp sp s1 s2), 1 / 10000 ≤ x.1.deflection x.2) :
    CcRs.get_distance sp s1 s2 = lengthOf cs := by
  rcases Spec.CcRs.plan h s1 s2 hfar with ⟨hn, _⟩ | ⟨cs', hcs', hok⟩
  · rw [hn] at hcs; simp at hcs
  · obtain rfl : cs' = cs := Option.some.inj (hcs'.symm.trans hcs)
    exact (hok.exact (by rw [SF.epsilon]; exact hturn)).symm

/-- **C84, all paths.** `get_distance` differs from the length of the controls by at most a multiple of 1e-4. -/
theorem C84_cc00_rs_distance_all (h : InRange sp.kappa sp.sigma) (s1 s2 : State) (hfar : dist2 s1 s2 ≤ 10 ^ 100)
    {cs : List Control} (hcs : CcRs.get_controls sp s1 s2 = some cs) :
    |CcRs.get_distance sp s1 s2 - lengthOf cs|
      ≤ 1 / 10000 * (missBound sp.kappa sp.sigma + 4 * radiusBound sp.kappa sp.sigma) := by
  rcases Spec.CcRs.plan h s1 s2 hfar with ⟨hn, _⟩ | ⟨cs', hcs', hok⟩
  · rw [hn] at hcs; simp at hcs
  · obtain rfl : cs' = cs := Option.some.inj (hcs'.symm.trans hcs)
    rw [abs_sub_comm]
    exact (hok.leads h.rng).length

/-! ## C85 -/

/-- **C85.** A path is always found: the distance is at most the Euclidean distance plus a constant, so it is never the "no path"
value. -/
theorem C85_cc00_rs_always (h : InRange sp.kappa sp.sigma) (s1 s2 : State) (hfar : dist2 s1 s2 ≤ 10 ^ 100) :
    CcRs.get_distance sp s1 s2 ≤ dist2 s1 s2 + 40 * (sp.kappa / sp.sigma) + 60 / sp.kappa ∧
    CcRs.get_distance sp s1 s2 < dblMax :=
  ⟨Spec.CcRs.distance_le h.rng s1 s2, (Spec.CcRs.distance_le h.rng s1 s2).trans_lt (bound_finite h hfar)⟩

/-- **C85, controls (partial).** Controls are returned, and there is at least one of them, if the clothoids are not short compared
to the tolerance of the library, or if the states are more than four radii apart, or if the path is not of type `TcT`.
Missing: `TcT` between close states with short clothoids, where the offset of the cusp is the square root of a negative number
(`C85_cc00_rs_controls_false`). -/
theorem C85_cc00_rs_controls_partial (h : InRange sp.kappa sp.sigma) (s1 s2 : State) (hfar : dist2 s1 s2 ≤ 10 ^ 100)
    (hc : CuspClear sp.kappa sp.sigma ∨ 4 * radiusBound sp.kappa sp.sigma + 1 / 10000 ≤ dist2 s1 s2 ∨
      (CcRs.reeds_shepp sp s1 s2).type ≠ hc_cc_rs.TcT) :
    ∃ cs, CcRs.get_controls sp s1 s2 = some cs ∧ cs ≠ [] := by
  rcases Spec.CcRs.plan h s1 s2 hfar with ⟨_, h1, h2, h3⟩ | ⟨cs, hcs, hok⟩
  · rw [SF.epsilon] at h3
    rcases hc with hc | hc | hc
    · exact absurd hc h2
    · exact absurd hc (not_le.2 h3)
    · exact absurd h1 hc
  · exact ⟨cs, hcs, hok.ne⟩

/-- **C85, controls, is false for short clothoids.** The distance is finite but `get_controls` returns no numbers; the states are
2 cm apart, see `C83_cc00_rs_reaches_false`. -/
theorem C85_cc00_rs_controls_false : ∃ (sp : HCSpace) (s1 s2 : State), InRange sp.kappa sp.sigma ∧
    CcRs.get_distance sp s1 s2 < dblMax ∧ CcRs.get_controls sp s1 s2 = none := by
  have hfar : dist2 CC00.wideStart Cusp.goal ≤ 10 ^ 100 := by
    change √((1 / 50 - 0) ^ 2 + (-97 / 1000000 - 0) ^ 2) ≤ 10 ^ 100
    rw [sqrt_le_iff]
    constructor <;> norm_num
  exact ⟨⟨1 / 1000, 5, 1, true⟩, CC00.wideStart, Cusp.goal, Cusp.range,
    (C85_cc00_rs_always (sp := ⟨1 / 1000, 5, 1, true⟩) Cusp.range _ _ hfar).2, Spec.CcRs.cusp_lost rfl rfl⟩

/-! ## C86 -/

/-- **C86.** `get_distance` is not shorter than the Euclidean distance, up to the tolerances of C83 and C84. -/
theorem C86_cc00_rs_euclid (h : InRange sp.kappa sp.sigma) (s1 s2 : State) (hfar : dist2 s1 s2 ≤ 10 ^ 100)
    {cs : List Control} (hcs : CcRs.get_controls sp s1 s2 = some cs) :
    dist2 s1 s2 ≤ CcRs.get_distance sp s1 s2 + ccPlanTol sp cs
      + 1 / 10000 * (missBound sp.kappa sp.sigma + 4 * radiusBound sp.kappa sp.sigma) + pathTol (cs.map seg) := by
  rcases Spec.CcRs.plan h s1 s2 hfar with ⟨hn, _⟩ | ⟨cs', hcs', hok⟩
  · rw [hn] at hcs; simp at hcs
  · obtain rfl : cs' = cs := Option.some.inj (hcs'.symm.trans hcs)
    have := (hok.leads h.rng).euclid
    have hd : (pose s1).dist (pose s2) = dist2 s1 s2 := by rw [Config.dist_comm]; rfl
    rw [hd] at this
    rw [ccPlanTol, lengthOf]
    norm_num [SF.epsilon] at *
    linarith

/-- **C86, exact part.** Under the conditions of the exact part of C83 only the error of the Fresnel integrals remains. -/
theorem C86_cc00_rs_euclid_exact (h : InRange sp.kappa sp.sigma) (s1 s2 : State) (hfar : dist2 s1 s2 ≤ 10 ^ 100)
    (ht : hc_cc_rs.TcT < (CcRs.reeds_shepp sp s1 s2).type)
    (hturn : ∀ x ∈ Spec.CcRs.ccTurns (CcRs.reeds_shepp sp s1 s2),
      x.1.deflection x.2 = 0 ∨ 1 / 10000 ≤ x.1.deflection x.2) :
    ∃ cs, CcRs.get_controls sp s1 s2 = some cs ∧
      dist2 s1 s2 ≤ CcRs.get_distance sp s1 s2 + pathTol (cs.map seg) := by
  obtain ⟨cs, hcs, ⟨e, h1, h2⟩, hl⟩ := C83_cc00_rs_exact h s1 s2 hfar ht hturn
  refine ⟨cs, hcs, ?_⟩
  rw [drivesAll_iff.1 h1] at h2
  have := (Leads.mk (len := lengthOf cs) (c := 0) h2 (by simp [lengthOf])).euclid
  have hd : (pose s1).dist (pose s2) = dist2 s1 s2 := by rw [Config.dist_comm]; rfl
  rw [hd] at this
  rw [hl]; linarith

/-! ## C87 -/

/-- **C87.** The curvature along the controls is continuous, also through the cusps, and zero at both ends. -/
theorem C87_cc00_rs_continuous (h : InRange sp.kappa sp.sigma) (s1 s2 : State) (hfar : dist2 s1 s2 ≤ 10 ^ 100)
    {cs : List Control} (hcs : CcRs.get_controls sp s1 s2 = some cs) : CurvatureContinuous 0 (cs.map seg) 0 := by
  rcases Spec.CcRs.plan h s1 s2 hfar with ⟨hn, _⟩ | ⟨cs', hcs', hok⟩
  · rw [hn] at hcs; simp at hcs
  · obtain rfl : cs' = cs := Option.some.inj (hcs'.symm.trans hcs)
    exact hok.cont

/-- **C87, limits (partial).** Unless the path consists of one or two turns (`T`, `TT`, `TcT`), which are accepted within 1e-4,
curvature and sharpness respect the limits, up to the relative error of the Fresnel integrals. -/
theorem C87_cc00_rs_limits_partial (h : InRange sp.kappa sp.sigma) (s1 s2 : State) (hfar : dist2 s1 s2 ≤ 10 ^ 100)
    (h2 : (CcRs.reeds_shepp sp s1 s2).type ≠ hc_cc_rs.T) (h3 : (CcRs.reeds_shepp sp s1 s2).type ≠ hc_cc_rs.TT)
    (h4 : (CcRs.reeds_shepp sp s1 s2).type ≠ hc_cc_rs.TcT) :
    ∃ cs, CcRs.get_controls sp s1 s2 = some cs ∧
      CurvatureAtMost (sp.kappa * (1 + 1 / 10 ^ 8)) (cs.map seg) ∧
      SharpnessAtMost (sp.sigma * (1 + 2 / 10 ^ 8)) (cs.map seg) := by
  rcases Spec.CcRs.plan h s1 s2 hfar with ⟨_, hn, _⟩ | ⟨cs, hcs, hok⟩
  · exact absurd hn h4
  · exact ⟨cs, hcs, hok.limits h.rng h2 h3 h4⟩

/-- **C87, limits far apart (partial).** The same for states more than four radii apart. -/
theorem C87_cc00_rs_limits_far_partial (h : InRange sp.kappa sp.sigma) (s1 s2 : State) (hfar : dist2 s1 s2 ≤ 10 ^ 100)
    (hd : 4 * radiusBound sp.kappa sp.sigma + 2 / 10000 ≤ dist2 s1 s2) :
    ∃ cs, CcRs.get_controls sp s1 s2 = some cs ∧
      CurvatureAtMost (sp.kappa * (1 + 1 / 10 ^ 8)) (cs.map seg) ∧
      SharpnessAtMost (sp.sigma * (1 + 2 / 10 ^ 8)) (cs.map seg) := by
  have hno : ∀ t, (t = 0 ∨ t = 2 ∨ t = 3 ∨ t = 4) → (CcRs.reeds_shepp sp s1 s2).type ≠ t := by
    rintro t ht rfl
    have := Spec.CcRs.type_near h s1 s2 hfar ht
    rw [SF.epsilon] at this
    linarith
  exact C87_cc00_rs_limits_partial h s1 s2 hfar (hno 2 (by simp)) (hno 3 (by simp)) (hno 4 (by simp))

/-- States far enough apart for C85 and C87. -/
example : 4 * radiusBound 1 1 + 2 / 10000 ≤ dist2 ⟨0, 0, 0, 0, 0⟩ ⟨-100, 0, 1, 0, 0⟩ := by
  rw [dist2, show ((-100:ℝ) - 0) ^ 2 + (0 - 0) ^ 2 = 100 ^ 2 by norm_num, sqrt_sq (by norm_num), radiusBound]
  norm_num

/-! ## C88 -/

/-- **C88.** The CC00-Reeds-Shepp distance is never larger than the CC00-Dubins distance, forwards or backwards, for arbitrary
parameters, unless the goal can be reached straight in the direction in which the Dubins space does not drive. -/
theorem C88_cc_rs_le_dubins (s1 s2 : State) (h : ¬ StraightAgainst sp s1 s2) :
    CcRs.get_distance sp s1 s2 ≤ CC00.get_distance sp s1 s2 := cc_rs_le sp s1 s2 h

/-- **C88, HC00.** The same for HC00-Reeds-Shepp. -/
theorem C88_hc00_le_dubins (s1 s2 : State) (h : ¬ StraightAgainst sp s1 s2) :
    ∃ d, SF.HcRs.get_distance false false sp s1 s2 = some d ∧ d ≤ CC00.get_distance sp s1 s2 := hc00_le sp s1 s2 h

/-- **C88, all goals.** In the excluded case both Reeds-Shepp distances are at most the Euclidean distance, so that in all cases they
exceed the CC00-Dubins distance by at most the tolerance of C50. -/
theorem C88_rs_le_dubins_all (h : InRange sp.kappa sp.sigma) (s1 s2 : State) (hfar : dist2 s1 s2 ≤ 10 ^ 100) :
    ∃ cs d, CC00.get_controls sp s1 s2 = some cs ∧ SF.HcRs.get_distance false false sp s1 s2 = some d ∧
      max (CcRs.get_distance sp s1 s2) d ≤ CC00.get_distance sp s1 s2
        + 1 / 10000 * (3 + 9 * radiusBound sp.kappa sp.sigma + 4 * lengthOf cs) + pathTol (cs.map seg) := by
  obtain ⟨cs, hcs, he⟩ := C50_cc00_euclid h s1 s2 hfar
  by_cases ha : StraightAgainst sp s1 s2
  · obtain ⟨d, hd, hle⟩ := hc00_straight sp ha
    exact ⟨cs, d, hcs, hd, max_le ((cc_rs_straight sp ha).trans he) (hle.trans he)⟩
  · obtain ⟨d, hd, hle⟩ := hc00_le sp s1 s2 ha
    have h0 : 0 ≤ 1 / 10000 * (3 + 9 * radiusBound sp.kappa sp.sigma + 4 * lengthOf cs) + pathTol (cs.map seg) := by
      have := h.rng.radius_nonneg
      have : 0 ≤ lengthOf cs := totalLength_nonneg _
      have := pathTol_nonneg (cs.map seg)
      positivity
    have := cc_rs_le sp s1 s2 ha
    exact ⟨cs, d, hcs, hd, max_le (by linarith) (by linarith)⟩

/-- A forward space and a goal to which C88 applies: a U-turn. -/
example : ¬ StraightAgainst ⟨1, 1, 1, true⟩ ⟨0, 0, 0, 0, 0⟩ ⟨0, 4, π, 0, 0⟩ := by
  intro h
  have h1 := h.1
  have e0 : wrapped 0 = 0 := by simp [wrapped]
  have e1 : wrapped π = π := by
    have : ⌊π / (2 * π)⌋ = 0 := by
      rw [Int.floor_eq_zero_iff]
      have := pi_pos
      constructor
      · positivity
      · rw [div_lt_one (by positivity)]; linarith
    simp [wrapped, this]
  simp only [e0, e1] at h1
  rw [abs_le] at h1
  have := pi_gt_three
  linarith [h1.1]

end Props
