import Verif.Lemmas.CcPair

/-!
# Properties of the CC-Dubins planner for arbitrary curvatures
-/

noncomputable section

namespace Props

open SF Spec Real

variable {sp : HCSpace} {junk : ℝ}

/-- Position tolerance of the planner for controls `cs`. -/
def anyTol (sp : HCSpace) (cs : List Control) : ℝ :=
  1 / 10000 * (4 + 9 * radiusBound sp.kappa sp.sigma + (4 + sp.kappa) * lengthOf cs)

/-- Heading tolerance of the planner. -/
def anyTurn (sp : HCSpace) : ℝ := 1 / 10000 * (3 + 2 * sp.kappa)

/-- States so far apart that none of the shortcuts of the planners applies. -/
def FarApart (sp : HCSpace) (s1 s2 : State) : Prop :=
  2 * radiusBound sp.kappa sp.sigma + 1 / 10000 + 4 * (sp.kappa / sp.sigma) ≤ dist2 s1 s2

theorem FarApart.far {s1 s2 : State} (h : FarApart sp s1 s2) : Spec.CC.Far sp s1 s2 := by
  unfold Spec.CC.Far; rw [SF.epsilon]; exact h

/-- Distances to which the theorems apply. -/
def InReach (sp : HCSpace) (s1 s2 : State) : Prop := dist2 s1 s2 + 4 * (sp.kappa / sp.sigma) ≤ 10 ^ 100

/-- States to which the theorems apply. -/
example : InReach ⟨1, 1, 1, true⟩ ⟨0, 0, 0, 1 / 2, 0⟩ ⟨100, 0, 0, -1 / 3, 0⟩ ∧
    FarApart ⟨1, 1, 1, true⟩ ⟨0, 0, 0, 1 / 2, 0⟩ ⟨100, 0, 0, -1 / 3, 0⟩ ∧ InRange 1 1 := by
  have e : dist2 ⟨0, 0, 0, 1 / 2, 0⟩ ⟨100, 0, 0, -1 / 3, 0⟩ = 100 := by
    rw [dist2, show ((100:ℝ) - 0) ^ 2 + (0 - 0) ^ 2 = 100 ^ 2 by norm_num, sqrt_sq (by norm_num)]
  refine ⟨?_, ?_, by constructor <;> norm_num⟩
  · rw [InReach, e]; norm_num
  · rw [FarApart, e, radiusBound]; norm_num

/-! ## C41 -/

/-- **C41 (partial).** If a predicted start and a predicted end state coincide up to 1e-4 and the assertion of `subtract_control` holds, the
single control for this pair leads from `state1` to `state2` up to 1e-4, and its curvature is that of `state1` at the start and that
of `state2` at the end. -/
theorem C41_cc_join_partial (h : InRange sp.kappa sp.sigma) (s1 s2 : State) {a b : Predicted}
    (ha : a ∈ SF.CC.start_states sp junk s1) (hb : b ∈ SF.CC.end_states sp junk s2) (he : state_equal a.1 b.1)
    (hA : PairAsserts a b) :
    ∃ c, pair_controls (SF.CC.controls_planners sp) a b = some [c] ∧ c.kappa = s1.kappa ∧
      |c.kappa + c.sigma * |c.delta_s| - s2.kappa| ≤ 1 / 10000 ∧
      LeadsTo [c] s1 s2 (1 / 10000 * (1 + radiusBound sp.kappa sp.sigma + |c.delta_s|)) (1 / 10000) := by
  have oa := (Spec.CC.predict_ok junk s1 sp.forwards).2 a ha
  have ob := (Spec.CC.predict_ok junk s2 (!sp.forwards)).2 b hb
  rw [Spec.CC.sg_not] at ob
  obtain ⟨h1, h2, h3⟩ := join_leads h.rng (sg_pm _) oa ob he hA
  refine ⟨_, if_pos he, h2, by rw [SF.epsilon] at h3; exact h3, Leads.leadsTo (h1.mono (le_of_eq ?_) (le_of_eq ?_) le_rfl)⟩
  · rw [SF.epsilon]; simp [totalLength, seg]
  · rw [SF.epsilon]

/-- **C41, distance (partial).** Even if the assertion does not hold, the distance for the pair is right: it is the length of the path that
drives to the predicted state and on to `state2`. -/
theorem C41_cc_distance_partial (h : InRange sp.kappa sp.sigma) (s1 s2 : State) {a b : Predicted}
    (ha : a ∈ SF.CC.start_states sp junk s1) (hb : b ∈ SF.CC.end_states sp junk s2) (he : state_equal a.1 b.1) :
    ∃ cs, pair_distance (SF.CC.distance_planners sp) a b = some (lengthOf cs) ∧
      DrivesOnly (if sp.forwards then 1 else -1) cs ∧ LeadsTo cs s1 s2 (1 / 10000 * (1 + lengthOf cs)) (1 / 10000) := by
  have oa := ((Spec.CC.predict_ok junk s1 sp.forwards).2 a ha).facts h.rng (sg_pm _)
  have ob := ((Spec.CC.predict_ok junk s2 (!sp.forwards)).2 b hb).facts h.rng (sg_pm _)
  rw [Spec.CC.sg_not] at ob
  have hl := (oa.start.append (nil_leads (state_equal_within he).1)).append ob.back
  rw [List.append_nil, ← List.map_append] at hl
  have w1 := oa.way
  have w2 := ob.way
  have hlen : lengthOf ([a.2] ++ [reverse_control b.2]) = |a.2.delta_s| + |b.2.delta_s| := by
    simp [lengthOf, totalLength, seg, reverse_control]
  refine ⟨[a.2] ++ [reverse_control b.2], ?_, ?_, Leads.leadsTo (hl.mono ?_ ?_ le_rfl)⟩
  · rw [pair_distance, if_pos he, hlen]
    congr 1
    show |a.2.delta_s - b.2.delta_s| = _
    rcases sg_pm sp.forwards with hd | hd <;> rw [hd] at w1 w2
    · rw [abs_of_nonneg (by linarith : 0 ≤ a.2.delta_s), abs_of_nonpos (by linarith : b.2.delta_s ≤ 0),
        abs_of_nonneg (by linarith)]; ring
    · rw [abs_of_nonpos (by linarith : a.2.delta_s ≤ 0), abs_of_nonneg (by linarith : 0 ≤ b.2.delta_s),
        abs_of_nonpos (by linarith)]; ring
  · intro c hc
    change 0 ≤ sg sp.forwards * c.delta_s
    simp only [List.cons_append, List.nil_append, List.mem_cons, List.not_mem_nil, or_false] at hc
    rcases hc with rfl | rfl
    · exact w1
    · show 0 ≤ _ * -b.2.delta_s
      linarith
  · rw [hlen, SF.epsilon]
    have : totalLength ([reverse_control b.2].map seg) = |b.2.delta_s| := by simp [totalLength, seg, reverse_control]
    rw [this]
    have := abs_nonneg a.2.delta_s
    linarith
  · rw [SF.epsilon]; norm_num

/-- The planner of the counterexamples. -/
def jsp : HCSpace := ⟨1, 1, 1, true⟩

/-- A state half way on a clothoid. -/
def jmid : State := ⟨0, 0, 0, 1 / 2, 0⟩

/-- The predicted states of `jmid`. -/
theorem jmid_start : SF.CC.start_states jsp junk jmid =
    [predicted junk jmid ⟨1 / 2, 1 / 2, 1⟩, predicted junk jmid ⟨1 / 2, 1 / 2, -1⟩] := by
  have h1 : ¬ (|jmid.kappa| < epsilon ∨ jsp.kappa - |jmid.kappa| < epsilon) := by
    simp only [jmid, jsp]
    rw [abs_of_pos (by norm_num)]; norm_num [epsilon]
  have h2 : SF.sgn jmid.kappa = 1 := by rw [SF.sgn, if_neg (by norm_num [jmid])]
  rw [SF.CC.start_states, SF.CC.predict_state, if_neg h1]
  simp only [h2]
  norm_num [jsp, jmid]

theorem jmid_end : SF.CC.end_states jsp junk jmid =
    [predicted junk jmid ⟨-1 / 2, 1 / 2, 1⟩, predicted junk jmid ⟨-1 / 2, 1 / 2, -1⟩] := by
  have h1 : ¬ (|jmid.kappa| < epsilon ∨ jsp.kappa - |jmid.kappa| < epsilon) := by
    simp only [jmid, jsp]
    rw [abs_of_pos (by norm_num)]; norm_num [epsilon]
  have h2 : SF.sgn jmid.kappa = 1 := by rw [SF.sgn, if_neg (by norm_num [jmid])]
  rw [SF.CC.end_states, SF.CC.predict_state, if_neg h1]
  simp only [h2]
  norm_num [jsp, jmid]

/-- Two states on one clothoid to which the partial theorems apply: the curvature falls from 1/2 to zero and on to -1/2. -/
example (junk : ℝ) : ∃ s2 : State, s2.kappa = -1 / 2 ∧ ∃ a ∈ SF.CC.start_states jsp junk jmid,
    ∃ b ∈ SF.CC.end_states jsp junk s2, state_equal a.1 b.1 ∧ PairAsserts a b ∧ a.2.sigma = -1 := by
  have h12 : |(1:ℝ) / 2| = 1 / 2 := abs_of_pos (by norm_num)
  have h12' : |(-1:ℝ) / 2| = 1 / 2 := by rw [show (-1:ℝ) / 2 = -(1 / 2) by ring, abs_neg, h12]
  obtain ⟨a, ha⟩ : ∃ a, a = predicted junk jmid ⟨1 / 2, 1 / 2, -1⟩ := ⟨_, rfl⟩
  have hak : a.1.kappa = 0 := by
    rw [ha, predicted_kappa]
    show (1:ℝ) / 2 + -1 * |1 / 2| = 0
    rw [h12]; norm_num
  obtain ⟨c, hc⟩ : ∃ c : Control, c = ⟨1 / 2, 0, -1⟩ := ⟨_, rfl⟩
  have hrev : reverse_control c = ⟨-1 / 2, -1 / 2, 1⟩ := by
    rw [hc, reverse_control]
    norm_num
  obtain ⟨s2, hs2⟩ : ∃ s2, s2 = (predicted junk a.1 c).1 := ⟨_, rfl⟩
  have hk : s2.kappa = -1 / 2 := by
    rw [hs2, predicted_kappa, hak, hc]
    show (0:ℝ) + -1 * |1 / 2| = _
    rw [h12]; norm_num
  have hend : predicted junk s2 ⟨-1 / 2, -1 / 2, 1⟩ ∈ SF.CC.end_states jsp junk s2 := by
    have h1 : ¬ (|s2.kappa| < epsilon ∨ jsp.kappa - |s2.kappa| < epsilon) := by
      rw [hk, h12']; norm_num [epsilon, jsp]
    have h2 : SF.sgn s2.kappa = -1 := by rw [SF.sgn, if_pos (by rw [hk]; norm_num)]
    rw [SF.CC.end_states, SF.CC.predict_state, if_neg h1]
    simp only [h2]
    simp only [jsp, hk]
    norm_num
  have hsig : c.sigma ≠ 0 := by rw [hc]; norm_num
  have hback := predicted_back junk hsig (show c.kappa = a.1.kappa by rw [hc, hak])
  have hforth := predicted_leads junk (s := s2) (c := reverse_control c) (by rw [hrev]; norm_num) (by rw [hrev, hk])
  rw [← hs2] at hback
  have e1 := hback.arrives.near
  have e2 := hforth.arrives.near
  have etol : pathTol ([reverse_control c].map seg) = 5 / 10 ^ 16 := by
    rw [hrev]
    simp [pathTol, segTol, seg]
  rw [etol] at e1 e2
  have hb0 : (predicted junk s2 (reverse_control c)).1.kappa = 0 := by
    rw [predicted_kappa, hk, hrev]
    show (-1:ℝ) / 2 + 1 * |-1 / 2| = 0
    rw [h12']; norm_num
  refine ⟨s2, hk, a, by rw [jmid_start, ha]; simp, _, hend, ?_, ?_, by rw [ha]; rfl⟩
  · rw [← hrev]
    have ht : twopify (predicted junk s2 (reverse_control c)).1.theta = twopify a.1.theta :=
      twopify_congr (e2.2.symm.trans e1.2)
    have hd : point_distance a.1.x a.1.y (predicted junk s2 (reverse_control c)).1.x (predicted junk s2 (reverse_control c)).1.y
        ≤ 1 / 10 ^ 15 := by
      have t := Config.dist_triangle (pose (predicted junk s2 (reverse_control c)).1) (arriveAll ([reverse_control c].map seg) (pose s2)) (pose a.1)
      have e3 := e2.1
      rw [Config.dist_comm] at e3
      refine le_trans (le_trans (le_of_eq ?_) t) (by linarith [e1.1])
      rfl
    have he0 : ¬ (0:ℝ) > SF.epsilon := by norm_num [SF.epsilon]
    unfold state_equal
    rw [ht, hb0, hak, sub_self, sub_self, abs_zero, if_neg he0, if_neg he0,
      if_neg (by norm_num [SF.epsilon]; exact hd.trans (by norm_num))]
    trivial
  · intro _
    rw [subtract_control_assert, ha]
    show SF.sgn (1 / 2) * (-1:ℝ) = SF.sgn (-1 / 2) * 1
    rw [SF.sgn, SF.sgn, if_neg (by norm_num), if_pos (by norm_num)]; norm_num

theorem state_equal_of {a b : State} (h1 : a.x = b.x) (h2 : a.y = b.y) (h3 : a.theta = b.theta) (h4 : a.kappa = b.kappa) :
    state_equal a b := by
  have he : ¬ (0:ℝ) > SF.epsilon := by norm_num [SF.epsilon]
  unfold state_equal
  rw [h1, h2, h3, h4]
  simp [point_distance, he]

/-- **C41 is false: the assertion of `subtract_control` fails.** The goal is the end of the clothoid on which the start lies:
`state1` has curvature 1/2, `state2` curvature 1 = `kappa`. -/
theorem C41_cc_assert_false (junk : ℝ) : ∃ (sp : HCSpace) (s1 s2 : State) (c : Control), InRange sp.kappa sp.sigma ∧
    c.sigma = sp.sigma ∧ c.kappa = s1.kappa ∧ s2.kappa = sp.kappa ∧ LeadsTo [c] s1 s2 0 0 ∧
    ¬ SF.CC.Asserts sp junk s1 s2 := by
  have h12 : |(1:ℝ) / 2| = 1 / 2 := abs_of_pos (by norm_num)
  obtain ⟨c, hc⟩ : ∃ c : Control, c = ⟨1 / 2, 1 / 2, 1⟩ := ⟨_, rfl⟩
  obtain ⟨s2, hs2⟩ : ∃ s2, s2 = (predicted 0 jmid c).1 := ⟨_, rfl⟩
  have hk : s2.kappa = 1 := by
    rw [hs2, predicted_kappa, hc]
    show (1:ℝ) / 2 + 1 * |1 / 2| = 1
    rw [h12]; norm_num
  have hb : SF.CC.end_states jsp junk s2 = [(s2, ⟨0, s2.kappa, 0⟩)] := by
    refine Spec.CC.predict_stay (.inr ?_)
    rw [hk]; norm_num [jsp, SF.epsilon]
  refine ⟨jsp, jmid, s2, c, by constructor <;> norm_num [jsp], by rw [hc]; rfl, by rw [hc]; rfl, hk, ?_, ?_⟩
  · rw [hs2]
    exact (predicted_leads 0 (by rw [hc]; norm_num) (by rw [hc]; rfl)).leadsTo
  · intro hA
    have := hA (predicted junk jmid c) (by rw [jmid_start, hc]; simp) (s2, ⟨0, s2.kappa, 0⟩) (by rw [hb]; simp)
      (by rw [hs2]; exact state_equal_of rfl rfl rfl rfl)
    rw [subtract_control_assert, hc] at this
    change SF.sgn (1 / 2) * (1:ℝ) = SF.sgn 0 * 0 at this
    rw [SF.sgn, if_neg (by norm_num)] at this
    norm_num at this

/-- **C41 is false: `get_controls` (assertions off) may return a wrong control.** A clothoid of length 1/2 leads from `state1` (curvature 1)
to `state2` (curvature 1/2).  `get_distance` is 1/2, but the single control returned is an arc of curvature 1 whose end misses
the heading of `state2` by more than 1/10. -/
theorem C41_cc_controls_false (junk : ℝ) : ∃ (sp : HCSpace) (s1 s2 : State) (c c' : Control), InRange sp.kappa sp.sigma ∧
    LeadsTo [c] s1 s2 0 0 ∧ c.kappa = s1.kappa ∧ c.sigma = -sp.sigma ∧ c.delta_s = 1 / 2 ∧ s1.kappa = sp.kappa ∧
    SF.CC.IsControls sp junk s1 s2 [c'] ∧ c'.sigma = 0 ∧ ∀ a, ¬ LeadsTo [c'] s1 s2 a (1 / 10) := by
  have h12 : |(1:ℝ) / 2| = 1 / 2 := abs_of_pos (by norm_num)
  have h12' : |(-1:ℝ) / 2| = 1 / 2 := by rw [show (-1:ℝ) / 2 = -(1 / 2) by ring, abs_neg, h12]
  obtain ⟨c, hc⟩ : ∃ c : Control, c = ⟨-1 / 2, 1 / 2, 1⟩ := ⟨_, rfl⟩
  obtain ⟨c2, hc2⟩ : ∃ c : Control, c = ⟨-1 / 2, 1 / 2, -1⟩ := ⟨_, rfl⟩
  obtain ⟨s1, hs1⟩ : ∃ s1, s1 = (predicted 0 jmid c).1 := ⟨_, rfl⟩
  have hk : s1.kappa = 1 := by
    rw [hs1, predicted_kappa, hc]
    show (1:ℝ) / 2 + 1 * |-1 / 2| = 1
    rw [h12']; norm_num
  have hsig : c.sigma ≠ 0 := by rw [hc]; norm_num
  have hck : c.kappa = jmid.kappa := by rw [hc]; rfl
  have hback : Leads ([reverse_control c].map seg) (pose s1) (pose jmid) |c.delta_s| 0 0 0 := by
    rw [hs1]; exact predicted_back 0 hsig hck
  have hstart : SF.CC.start_states jsp junk s1 = [(s1, ⟨0, s1.kappa, 0⟩)] := by
    refine Spec.CC.predict_stay (.inr ?_)
    rw [hk]; norm_num [jsp, SF.epsilon]
  have hrange : InRange jsp.kappa jsp.sigma := by constructor <;> norm_num [jsp]
  have hrev : reverse_control c = ⟨1 / 2, 1, -1⟩ := by
    rw [hc, reverse_control]
    norm_num
  have hrev2 : (reverse_control c2).delta_s = 1 / 2 := by
    rw [hc2, reverse_control]; norm_num
  -- the first pair
  have p1 : pair_controls (SF.CC.controls_planners jsp) (s1, ⟨0, s1.kappa, 0⟩) (predicted junk jmid c) = some [⟨1 / 2, 1, 0⟩] := by
    rw [pair_controls, if_pos (by rw [hs1]; exact state_equal_of rfl rfl rfl rfl)]
    congr 2
    show subtract_control ⟨0, s1.kappa, 0⟩ c = _
    rw [hc, subtract_control, hk]; norm_num
  -- the second pair
  obtain ⟨cs2, p2, hl2⟩ : ∃ cs2, pair_controls (SF.CC.controls_planners jsp) (s1, ⟨0, s1.kappa, 0⟩) (predicted junk jmid c2) = some cs2 ∧
      1 / 2 ≤ controls_length cs2 := by
    have hk2 : (predicted junk jmid c2).1.kappa = 0 := by
      rw [predicted_kappa, hc2]
      show (1:ℝ) / 2 + -1 * |-1 / 2| = 0
      rw [h12']; norm_num
    have hne : ¬ state_equal s1 (predicted junk jmid c2).1 := by
      intro he
      have := (state_equal_within he).2
      rw [hk, hk2] at this
      norm_num [SF.epsilon] at this
    have hn : dist2 s1 (predicted junk jmid c2).1 ≤ 10 ^ 100 := by
      have ob := (Spec.CC.predict_ok (sp := jsp) junk jmid (!jsp.forwards)).2
      have h1 := ((ob (predicted junk jmid c) (by
        change _ ∈ SF.CC.end_states jsp junk jmid; rw [jmid_end, hc]; simp)).facts hrange.rng (sg_pm _)).near
      have h2 := ((ob (predicted junk jmid c2) (by
        change _ ∈ SF.CC.end_states jsp junk jmid; rw [jmid_end, hc2]; simp)).facts hrange.rng (sg_pm _)).near
      have h3 := dist2_triangle s1 jmid (predicted junk jmid c2).1
      have h4 : dist2 s1 jmid = dist2 jmid (predicted junk jmid c).1 := by
        rw [dist2_comm, hs1]; rfl
      rw [h4] at h3
      have : jsp.kappa / jsp.sigma = 1 := by norm_num [jsp]
      rw [this] at h1 h2
      have : (4:ℝ) ≤ 10 ^ 100 := by norm_num
      linarith
    obtain ⟨cs, len, m1, _, _⟩ := Spec.CC.mid hrange s1 (predicted junk jmid c2).1 hn
    have hb1 : |(predicted junk jmid c2).2.delta_s| > SF.epsilon := by
      show |c2.delta_s| > _
      rw [hc2]; change |(-1:ℝ) / 2| > _; rw [h12']; norm_num [SF.epsilon]
    have hb0 : ¬ |(0:ℝ)| > SF.epsilon := by norm_num [SF.epsilon]
    refine ⟨cs ++ [reverse_control c2], ?_, ?_⟩
    · rw [pair_controls, if_neg hne]
      simp only [m1, Option.map_some, if_neg hb0, if_pos hb1]
      rfl
    · rw [controls_length_eq, List.map_append, totalLength_append]
      have e : totalLength ([reverse_control c2].map seg) = 1 / 2 := by
        simp only [totalLength, List.map_cons, List.map_nil, List.sum_cons, List.sum_nil, add_zero]
        show |(reverse_control c2).delta_s| = _
        rw [hrev2, h12]
      rw [e]
      linarith [totalLength_nonneg (cs.map seg)]
  refine ⟨jsp, s1, jmid, reverse_control c, ⟨1 / 2, 1, 0⟩, hrange, hback.leadsTo, by rw [hrev, hk], by rw [hrev]; rfl,
    by rw [hrev], hk, ?_, rfl, ?_⟩
  · refine ⟨[[⟨1 / 2, 1, 0⟩], cs2], ?_, by simp, ?_⟩
    · rw [hstart, jmid_end, ← hc, ← hc2]
      simp only [pairs, List.flatMap_cons, List.flatMap_nil, List.map_cons, List.map_nil, List.append_nil, List.mapM_cons,
        List.mapM_nil, p1, p2]
      rfl
    · intro x hx
      have e : controls_length [(⟨1 / 2, 1, 0⟩ : Control)] = 1 / 2 := by
        simp only [controls_length, List.foldl_cons, List.foldl_nil, zero_add]
        exact h12
      simp only [List.mem_cons, List.not_mem_nil, or_false] at hx
      rcases hx with rfl | rfl
      · exact le_rfl
      · rw [e]; exact hl2
  · rintro a ⟨e, h1, _, t, h2, h3⟩
    rw [drivesAll_iff.1 h1] at h3
    have e1 : (arriveAll ([(⟨1 / 2, 1, 0⟩ : Control)].map seg) (pose s1)).theta
        = s1.theta + SF.sgn (1 / 2) * (1 * |1 / 2| + 0 * |1 / 2| ^ 2 / 2) := rfl
    obtain ⟨_, u, g2, g3⟩ := hback.arrives
    have e2 : (arriveAll ([reverse_control c].map seg) (pose s1)).theta
        = s1.theta + SF.sgn (1 / 2) * (1 * |1 / 2| + -1 * |1 / 2| ^ 2 / 2) := by rw [hrev]; rfl
    have hs : SF.sgn (1 / 2) = 1 := by rw [SF.sgn, if_neg (by norm_num)]
    rw [e1, hs, h12] at h3
    rw [e2, hs, h12] at g3
    have g4 := abs_nonpos_iff.1 g3
    obtain ⟨n, hn⟩ := h2
    obtain ⟨m, hm⟩ := g2
    have key : t = s1.theta + 3 / 8 + ((n - m : ℤ):ℝ) * (2 * π) := by
      push_cast
      linarith
    rw [key, abs_le] at h3
    have hpi := pi_gt_three
    rcases lt_trichotomy (n - m) 0 with hz | hz | hz
    · have : ((n - m : ℤ):ℝ) ≤ -1 := by exact_mod_cast (by omega : n - m ≤ -1)
      nlinarith [h3.1, h3.2]
    · rw [hz] at h3
      norm_num at h3
    · have : (1:ℝ) ≤ ((n - m : ℤ):ℝ) := by exact_mod_cast (by omega : 1 ≤ n - m)
      nlinarith [h3.1, h3.2]

/-! ## C60 -/

/-- **C60 (partial).** If the assertions hold and no predicted states have opposed circles, every possible result of CC-Dubins leads from
`state1` to `state2` up to the resolution of the library. -/
theorem C60_cc_reaches_partial (h : InRange sp.kappa sp.sigma) (s1 s2 : State) (hr : InReach sp s1 s2)
    (ho : ¬ CC.Opposed sp junk s1 s2) (hA : SF.CC.Asserts sp junk s1 s2) {cs : List Control}
    (hcs : SF.CC.IsControls sp junk s1 s2 cs) : LeadsTo cs s1 s2 (anyTol sp cs) (anyTurn sp) := by
  obtain ⟨_, _, hall⟩ := Spec.CC.plan h junk s1 s2 hr
  obtain ⟨len, hp⟩ := hall cs hcs
  refine Leads.leadsTo ((hp.leads (by tauto)).mono ?_ ?_ le_rfl)
  · rw [anyTol, SF.epsilon, lengthOf]
  · rw [anyTurn, SF.epsilon]

/-- **C60, far apart (partial).** The same without further assumptions for states that are far apart, whatever their curvatures. -/
theorem C60_cc_reaches_far_partial (h : InRange sp.kappa sp.sigma) (s1 s2 : State) (hr : InReach sp s1 s2)
    (hf : FarApart sp s1 s2) {cs : List Control} (hcs : SF.CC.IsControls sp junk s1 s2 cs) :
    LeadsTo cs s1 s2 (anyTol sp cs) (anyTurn sp) ∧ SF.CC.Asserts sp junk s1 s2 := by
  obtain ⟨h1, h2⟩ := Spec.CC.far_good (junk := junk) h hf.far
  exact ⟨C60_cc_reaches_partial h s1 s2 hr h1 h2 hcs, h2⟩

/-- **C60, `get_path` (partial).** If no control has a sharpness that the integration neglects, the last state of the path integrated from
the controls is `state2` up to the same errors, for states that are far apart. -/
theorem C60_cc_get_path_far_partial (h : InRange sp.kappa sp.sigma) (hd : 0 < sp.discretization) (s1 s2 : State) (hr : InReach sp s1 s2)
    (hf : FarApart sp s1 s2) (h1 : |s1.kappa| ≤ sp.kappa) (h2 : |s2.kappa| ≤ sp.kappa) {cs : List Control}
    (hcs : SF.CC.IsControls sp junk s1 s2 cs) (hs : Sharp cs) :
    ∃ l e, hcIntegrate sp.discretization s1 cs = some l ∧ l.getLast? = some e ∧
      Within (anyTol sp cs + 2 * pathTol (cs.map seg)) (anyTurn sp) (pose e) (pose s2) := by
  obtain ⟨ho, hA⟩ := Spec.CC.far_good (junk := junk) h hf.far
  obtain ⟨_, _, hall⟩ := Spec.CC.plan h junk s1 s2 hr
  obtain ⟨len, hp⟩ := hall cs hcs
  obtain ⟨k0, k1, hc, _⟩ := hp.cont (by tauto) hf.far h1 h2
  exact Spec.LeadsTo.integrate (C60_cc_reaches_partial h s1 s2 hr ho hA hcs) hd hp.ne hc hs (hp.flat (by tauto) (.inl hf.far))

theorem witness_single (junk : ℝ) : ∃ cs, (∀ x, SF.CC.IsControls Spec.CC0pm.wsp junk Spec.CC0pm.ws1 Spec.CC0pm.ws2 x ↔ x = cs) ∧
    SF.CC.get_distance Spec.CC0pm.wsp junk Spec.CC0pm.ws1 Spec.CC0pm.ws2 = some (1 / 100) ∧
    (∀ a b, LeadsTo cs Spec.CC0pm.ws1 Spec.CC0pm.ws2 a b → 1 ≤ a) ∧ 1 ≤ dist2 Spec.CC0pm.ws1 Spec.CC0pm.ws2 := by
  obtain ⟨cs, h1, h2, h3, h4, h5⟩ := Spec.CC0pm.witness
  have k1 : |Spec.CC0pm.ws1.kappa| < epsilon := by
    show |(0:ℝ)| < _
    norm_num [SF.epsilon]
  have k2 : |Spec.CC0pm.ws2.kappa| = 1 := by
    show |(-1:ℝ)| = 1
    norm_num
  have k2' : ¬ |Spec.CC0pm.ws2.kappa| < epsilon := by rw [k2]; norm_num [SF.epsilon]
  have hne : ¬ state_equal Spec.CC0pm.ws1 Spec.CC0pm.ws2 := by
    intro he
    have := (state_equal_within he).1.1
    rw [pose_dist] at this
    norm_num [SF.epsilon] at this
    linarith
  obtain ⟨g1, g2⟩ := Spec.CC.single (junk := junk) (sp := Spec.CC0pm.wsp) (.inl k1)
    (.inr (by rw [k2]; show (1:ℝ) - 1 < _; norm_num [SF.epsilon])) hne (cs := cs) (len := 1 / 100)
    (by rw [SubPlanners.call, if_pos k1, if_neg k2']; exact h1) (by rw [SubPlanners.call, if_pos k1, if_neg k2']; exact h2)
  exact ⟨cs, g1, g2, h4, h5⟩

/-- **C60 is false.** From a state of curvature 0 to one of curvature -1, more than 1 m apart, all possible results miss the goal by at least 1 m
(they are those of CC0pm-Dubins). -/
theorem C60_cc_false (junk : ℝ) : ∃ (sp : HCSpace) (s1 s2 : State), InRange sp.kappa sp.sigma ∧ |s1.kappa| ≤ sp.kappa ∧
    |s2.kappa| ≤ sp.kappa ∧ ∀ cs, SF.CC.IsControls sp junk s1 s2 cs → ∀ a b, LeadsTo cs s1 s2 a b → 1 ≤ a := by
  obtain ⟨cs, h1, _, h3, _⟩ := witness_single junk
  refine ⟨_, Spec.CC0pm.ws1, Spec.CC0pm.ws2, Spec.CC0pm.wrng, ?_, ?_, fun x hx => ?_⟩
  · show |(0:ℝ)| ≤ 1; norm_num
  · show |(-1:ℝ)| ≤ 1; norm_num
  · rw [(h1 x).1 hx]; exact h3

/-! ## C61 -/

/-- **C61.** `get_distance` of CC-Dubins is the summed length of every possible result of `get_controls`, up to the tolerance of the
library. -/
theorem C61_cc_distance (h : InRange sp.kappa sp.sigma) (s1 s2 : State) (hr : InReach sp s1 s2) :
    ∃ m, SF.CC.get_distance sp junk s1 s2 = some m ∧ ∀ cs, SF.CC.IsControls sp junk s1 s2 cs →
      |lengthOf cs - m| ≤ 1 / 10000 * (1 + 4 * radiusBound sp.kappa sp.sigma) := by
  obtain ⟨⟨m, h1, _, h3⟩, _⟩ := Spec.CC.plan h junk s1 s2 hr
  refine ⟨m, h1, fun cs hcs => ?_⟩
  have := h3 cs hcs
  rw [SF.epsilon] at this
  exact this

/-! ## C62 -/

/-- **C62.** CC-Dubins always finds a path: no null pointer is dereferenced, there is a result, every result has at least one
control, and the distance is bounded. -/
theorem C62_cc_always (h : InRange sp.kappa sp.sigma) (s1 s2 : State) (hr : InReach sp s1 s2) :
    (∃ m, SF.CC.get_distance sp junk s1 s2 = some m ∧ m ≤ dist2 s1 s2 + 50 * (sp.kappa / sp.sigma) + 60 / sp.kappa) ∧
    (∃ cs, SF.CC.IsControls sp junk s1 s2 cs) ∧ ∀ cs, SF.CC.IsControls sp junk s1 s2 cs → cs ≠ [] := by
  obtain ⟨⟨m, h1, h2, _⟩, h4, h5⟩ := Spec.CC.plan h junk s1 s2 hr
  refine ⟨⟨m, h1, h2⟩, h4, fun cs hcs => ?_⟩
  obtain ⟨len, hp⟩ := h5 cs hcs
  exact hp.ne

/-! ## C63 -/

/-- **C63 (partial).** For states that are far apart and respect the limit `kappa`, the curvature of every possible result is continuous and
agrees with those of `state1` and `state2` up to 1e-4 (1 + sigma). -/
theorem C63_cc_curvature_far_partial (h : InRange sp.kappa sp.sigma) (s1 s2 : State) (hr : InReach sp s1 s2)
    (hf : FarApart sp s1 s2) (h1 : |s1.kappa| ≤ sp.kappa) (h2 : |s2.kappa| ≤ sp.kappa) {cs : List Control}
    (hcs : SF.CC.IsControls sp junk s1 s2 cs) :
    ∃ k0 k1, CurvatureContinuous k0 (cs.map seg) k1 ∧ |k0 - s1.kappa| ≤ 1 / 10000 * (1 + sp.sigma) ∧
      |k1 - s2.kappa| ≤ 1 / 10000 * (1 + sp.sigma) := by
  obtain ⟨ho, hA⟩ := Spec.CC.far_good (junk := junk) h hf.far
  obtain ⟨_, _, hall⟩ := Spec.CC.plan h junk s1 s2 hr
  obtain ⟨len, hp⟩ := hall cs hcs
  have := hp.cont (by tauto) hf.far h1 h2
  rw [SF.epsilon] at this
  exact this

/-- **C63 is false.** From a state of curvature 0 to the same pose with curvature 1 the curvature stays zero. -/
theorem C63_cc_false (junk : ℝ) : ∃ (sp : HCSpace) (s1 s2 : State), InRange sp.kappa sp.sigma ∧ s2.kappa = sp.kappa ∧
    ∀ cs, SF.CC.IsControls sp junk s1 s2 cs → ∀ k0 k1, CurvatureContinuous k0 (cs.map seg) k1 → k1 = 0 := by
  have k1 : |Spec.CC0pm.es1.kappa| < epsilon := by
    show |(0:ℝ)| < _
    norm_num [SF.epsilon]
  have k2 : |Spec.CC0pm.es2.kappa| = 1 := by
    show |(1:ℝ)| = 1
    norm_num
  have k2' : ¬ |Spec.CC0pm.es2.kappa| < epsilon := by rw [k2]; norm_num [SF.epsilon]
  have hne : ¬ state_equal Spec.CC0pm.es1 Spec.CC0pm.es2 := by
    intro he
    have := (state_equal_within he).2
    change |(1:ℝ) - 0| ≤ _ at this
    norm_num [SF.epsilon] at this
  obtain ⟨g1, _⟩ := Spec.CC.single (junk := junk) (sp := ⟨1, 1, 1, true⟩) (.inl k1)
    (.inr (by rw [k2]; norm_num [SF.epsilon])) hne (cs := empty_controls)
    (by rw [SubPlanners.call, if_pos k1, if_neg k2']; show SF.CC0pm.get_controls _ _ _ = _
        rw [SF.CC0pm.get_controls, Spec.CC0pm.e_plan]; rfl)
    (len := 0) (by
      rw [SubPlanners.call, if_pos k1, if_neg k2']; show SF.CC0pm.get_distance _ _ _ = _
      rw [SF.CC0pm.get_distance, Spec.CC0pm.e_plan]; rfl)
  refine ⟨⟨1, 1, 1, true⟩, Spec.CC0pm.es1, Spec.CC0pm.es2, by constructor <;> norm_num, rfl, fun cs hcs k0 k1 hk => ?_⟩
  rw [(g1 cs).1 hcs] at hk
  have := hk.2
  simpa [seg, empty_controls, CurvatureContinuous] using this.symm

/-! ## C64 -/

/-- **C64.** The forward planner never drives backwards and the backward planner never forwards, provided that the clothoids are
long compared to the tolerance. -/
theorem C64_cc_direction (h : InRange sp.kappa sp.sigma) (s1 s2 : State) (hr : InReach sp s1 s2)
    (hA : 1 / 1000 * (1 + radiusBound sp.kappa sp.sigma) ≤ min (sp.kappa / sp.sigma) (1 / √sp.sigma / 2)) {cs : List Control}
    (hcs : SF.CC.IsControls sp junk s1 s2 cs) : DrivesOnly (if sp.forwards then 1 else -1) cs := by
  obtain ⟨_, _, hall⟩ := Spec.CC.plan h junk s1 s2 hr
  obtain ⟨len, hp⟩ := hall cs hcs
  have := ccA_lower' h.kappa h.sigma h.clothoid
  exact hp.way (by rw [SF.epsilon]; linarith)

example : 1 / 1000 * (1 + radiusBound 1 1) ≤ min ((1:ℝ) / 1) (1 / √1 / 2) := by norm_num [radiusBound]

/-! ## C65 -/

/-- **C65 (partial).** If the assertions hold and no predicted states have opposed circles, `get_distance` is not shorter than the Euclidean
distance, up to the tolerances. -/
theorem C65_cc_euclid_partial (h : InRange sp.kappa sp.sigma) (s1 s2 : State) (hr : InReach sp s1 s2)
    (ho : ¬ CC.Opposed sp junk s1 s2) (hA : SF.CC.Asserts sp junk s1 s2) {cs : List Control}
    (hcs : SF.CC.IsControls sp junk s1 s2 cs) :
    ∃ m, SF.CC.get_distance sp junk s1 s2 = some m ∧
      dist2 s1 s2 ≤ m + anyTol sp cs + 1 / 10000 * (1 + 4 * radiusBound sp.kappa sp.sigma) + pathTol (cs.map seg) := by
  obtain ⟨⟨m, h1, _, h3⟩, _, hall⟩ := Spec.CC.plan h junk s1 s2 hr
  obtain ⟨len, hp⟩ := hall cs hcs
  have h4 := h3 cs hcs
  have hl := hp.leads (by tauto)
  have h5 : Leads (cs.map seg) (pose s1) (pose s2) m _ _ _ := ⟨hl.arrives, h4⟩
  have := h5.euclid
  rw [pose_dist, SF.epsilon] at this
  exact ⟨m, h1, by rw [anyTol, lengthOf]; exact this⟩

/-- **C65, far apart (partial).** -/
theorem C65_cc_euclid_far_partial (h : InRange sp.kappa sp.sigma) (s1 s2 : State) (hr : InReach sp s1 s2)
    (hf : FarApart sp s1 s2) {cs : List Control} (hcs : SF.CC.IsControls sp junk s1 s2 cs) :
    ∃ m, SF.CC.get_distance sp junk s1 s2 = some m ∧
      dist2 s1 s2 ≤ m + anyTol sp cs + 1 / 10000 * (1 + 4 * radiusBound sp.kappa sp.sigma) + pathTol (cs.map seg) := by
  obtain ⟨ho, hA⟩ := Spec.CC.far_good (junk := junk) h hf.far
  exact C65_cc_euclid_partial h s1 s2 hr ho hA hcs

/-- **C65 is false:** states at least 1 m apart at distance 1 cm. -/
theorem C65_cc_false (junk : ℝ) : ∃ (sp : HCSpace) (s1 s2 : State), InRange sp.kappa sp.sigma ∧
    SF.CC.get_distance sp junk s1 s2 = some (1 / 100) ∧ 1 ≤ dist2 s1 s2 := by
  obtain ⟨cs, _, h2, _, h5⟩ := witness_single junk
  exact ⟨_, _, _, Spec.CC0pm.wrng, h2, h5⟩

end Props
