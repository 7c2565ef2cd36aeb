import Verif.Lemmas.DubinsStates

/-!
# Properties of the Dubins planner: C15-C21
-/

noncomputable section

namespace Props

open SF Spec Real

/-- **C15, exact part.** Outside the two tolerance zones, driving the controls of `get_controls`
(forwards or backwards) leads exactly from `s1` to `s2`. -/
theorem C15_dubins_reaches {sp : DubinsSpace} (hv : sp.Valid) (s1 s2 : State)
    (hfar : sp.kappa * dist2 s1 s2 ≤ 10 ^ 200) (hne : ¬ NearlyEqual sp.kappa s1 s2)
    (hz : ¬ NearlyTangent sp.kappa s1 s2) :
    Reaches ((sp.get_controls s1 s2).map seg) (pose s1) (pose s2) := by
  obtain ⟨h1, h2⟩ := dubins_core hv.1 (eps := 0) le_rfl hfar hne (Or.inl hz)
  rw [zero_div] at h1
  obtain ⟨e1, e2⟩ := sqrt_le_zero_iff h1
  refine ⟨_, drivesAll_iff.2 rfl, sub_eq_zero.1 e1, sub_eq_zero.1 e2, h2⟩

/-- **C15, all states.** In all cases the controls lead to within `2e-6` turning radii and
`1e-6` rad of the goal. -/
theorem C15_dubins_reaches_within {sp : DubinsSpace} (hv : sp.Valid) (s1 s2 : State)
    (hfar : sp.kappa * dist2 s1 s2 ≤ 10 ^ 200) :
    ReachesWithin (2 / 10 ^ 6 / sp.kappa) (1 / 10 ^ 6) ((sp.get_controls s1 s2).map seg)
      (pose s1) (pose s2) := by
  have hk := hv.1
  refine ⟨_, drivesAll_iff.2 rfl, ?_⟩
  have sc : ∀ t1 t2 : State, (sp.params t1 t2).1 < DUBINS_EPS ∧
      |(sp.params t1 t2).2.1 - (sp.params t1 t2).2.2| < DUBINS_EPS →
      (sp.dubins t1 t2) = ⟨dubins_path_type 0, 0, (sp.params t1 t2).1, 0⟩ := by
    intro t1 t2 h
    simp only [DubinsSpace.dubins, SF.dubins, if_pos h]
  have key : ∀ t1 t2 : State, sp.kappa * dist2 t1 t2 ≤ 10 ^ 200 →
      ¬ ((sp.params t1 t2).1 < DUBINS_EPS ∧
        |(sp.params t1 t2).2.1 - (sp.params t1 t2).2.2| < DUBINS_EPS) →
      let r := arriveAll ((sp.pathControls (sp.dubins t1 t2)).map seg) (pose t1)
      √((r.x - t2.x) ^ 2 + (r.y - t2.y) ^ 2) ≤ 2 / 10 ^ 6 / sp.kappa ∧ AngleEq r.theta t2.theta := by
    intro t1 t2 hf hn
    obtain ⟨hd, hd0, _⟩ := params_goal sp hk t1 t2
    have hit := dubins_hits (eps := 2 / 10 ^ 6) (al := (sp.params t1 t2).2.1)
      (be := (sp.params t1 t2).2.2) hd0 (by rw [hd]; exact hf) hn (Or.inr (by norm_num))
    obtain ⟨r1, g, hg1, hg2⟩ := hits_reaches hk (by norm_num) hit
    refine ⟨r1, ?_⟩
    have : (arriveAll ((sp.pathControls (sp.dubins t1 t2)).map seg) (pose t1)).theta = g := by
      have := abs_nonpos_iff.1 hg2
      exact sub_eq_zero.1 this
    rw [this]; exact hg1
  unfold DubinsSpace.get_controls
  cases hfd : sp.forwards with
  | true =>
    simp only [if_true]
    by_cases hs : (sp.params s1 s2).1 < DUBINS_EPS ∧
        |(sp.params s1 s2).2.1 - (sp.params s1 s2).2.2| < DUBINS_EPS
    · have hit := shortcut_hits (params_goal sp hk s1 s2).2.1 hs.1 hs.2
      rw [← sc s1 s2 hs] at hit
      exact hits_reaches hk (by norm_num) hit
    · obtain ⟨a, b⟩ := key s1 s2 hfar hs
      exact ⟨a, _, b, by rw [sub_self, abs_zero]; norm_num⟩
  | false =>
    simp only [Bool.false_eq_true, if_false]
    by_cases hs : (sp.params s2 s1).1 < DUBINS_EPS ∧
        |(sp.params s2 s1).2.1 - (sp.params s2 s1).2.2| < DUBINS_EPS
    · rw [sc s2 s1 hs]
      obtain ⟨hd, hd0, hx, hy, hal, hbe⟩ := params_goal sp hk s2 s1
      set th := atan2 (s1.y - s2.y) (s1.x - s2.x)
      set d := (sp.params s2 s1).1 with hdd
      have hr : arriveAll (((sp.pathControls ⟨dubins_path_type 0, 0, d, 0⟩).reverse.map
          fun c => ({ c with delta_s := -c.delta_s } : Control)).map seg) (pose s1)
          = ⟨s1.x - d / sp.kappa * cos s1.theta, s1.y - d / sp.kappa * sin s1.theta, s1.theta⟩ := by
        rw [reverse_map_seg, pathControls_seg]
        simp only [dubins_path_type, SegT.sign, List.reverse_cons, List.reverse_nil,
          List.nil_append, List.cons_append, List.map_cons, List.map_nil, Segment.neg, arriveAll,
          zero_div, neg_zero, abs_zero, arrive_zero, abs_neg]
        have hq : 0 ≤ d / sp.kappa := by positivity
        rw [abs_of_nonneg hq, zero_mul]
        by_cases h0 : d / sp.kappa = 0
        · rw [h0, arrive_zero]; ext <;> simp [pose]
        · have : (⟨-(d / sp.kappa), 0, 0⟩ : Segment).dir = -1 := by
            unfold Segment.dir
            rw [if_pos (show -(d / sp.kappa) < 0 by
              have := lt_of_le_of_ne hq (Ne.symm h0); linarith)]
          rw [this, arrive_line]
          ext <;> simp [pose] <;> ring
      rw [hr]
      constructor
      · apply sqrt_le_iff.2 ⟨by positivity, ?_⟩
        simp only [pose]
        have ex : s1.x - d / sp.kappa * cos s1.theta - s2.x
            = d / sp.kappa * (cos th - cos s1.theta) := by linarith
        have ey : s1.y - d / sp.kappa * sin s1.theta - s2.y
            = d / sp.kappa * (sin th - sin s1.theta) := by linarith
        rw [ex, ey]
        have h1 := sin_sq_add_cos_sq th
        have h2 := sin_sq_add_cos_sq s1.theta
        have h3 := cos_sub th s1.theta
        have h4 := neg_one_le_cos (th - s1.theta)
        have e : (d / sp.kappa * (cos th - cos s1.theta)) ^ 2
            + (d / sp.kappa * (sin th - sin s1.theta)) ^ 2
            = (d / sp.kappa) ^ 2 * (2 - 2 * cos (th - s1.theta)) := by
          linear_combination (d / sp.kappa) ^ 2 * (h1 + h2 + 2 * h3)
        rw [e]
        have h5 : d ≤ 1 / 10 ^ 6 := hs.1.le
        have h6 : (d / sp.kappa) ^ 2 ≤ (1 / 10 ^ 6 / sp.kappa) ^ 2 := by
          apply pow_le_pow_left₀ (by positivity)
          gcongr
        calc _ ≤ (1 / 10 ^ 6 / sp.kappa) ^ 2 * 4 := by
              apply mul_le_mul h6 (by linarith) (by linarith [cos_le_one (th - s1.theta)])
                (by positivity)
          _ = _ := by ring
      · obtain ⟨n, hn⟩ := hal.sub hbe
        refine ⟨s2.theta + n * (2 * π), ⟨n, rfl⟩, ?_⟩
        have e : s1.theta - (s2.theta + n * (2 * π))
            = -((sp.params s2 s1).2.1 - (sp.params s2 s1).2.2) := by rw [hn]; ring
        simp only
        rw [e, abs_neg]; exact hs.2.le
    · obtain ⟨a, b⟩ := back_reaches (key s2 s1 (by rw [dist2_symm]; exact hfar) hs)
      exact ⟨a, _, b, by rw [sub_self, abs_zero]; norm_num⟩

/-- The hypotheses of the exact part hold for a typical query. -/
example : ¬ NearlyEqual 1 ⟨0, 0, 0, 0, 0⟩ ⟨5, 0, 0, 0, 0⟩ ∧
    ¬ NearlyTangent 1 ⟨0, 0, 0, 0, 0⟩ ⟨5, 0, 0, 0, 0⟩ := by
  constructor
  · rintro ⟨h, _⟩
    unfold dist2 at h
    have : √(((5:ℝ) - 0) ^ 2 + (0 - 0) ^ 2) = 5 := by
      rw [show ((5:ℝ) - 0) ^ 2 + (0 - 0) ^ 2 = 5 ^ 2 by norm_num]; exact sqrt_sq (by norm_num)
    rw [this] at h; norm_num at h
  · rintro ⟨e, he, _, h⟩
    unfold crossDist2 at h
    rcases he with rfl | rfl <;> norm_num at h

/-- **C16.** `get_distance` is the total length of `get_controls`. -/
theorem C16_dubins_distance {sp : DubinsSpace} (hv : sp.Valid) (s1 s2 : State)
    (hfar : sp.kappa * dist2 s1 s2 ≤ 10 ^ 200) :
    sp.get_distance s1 s2 = totalLength ((sp.get_controls s1 s2).map seg) := by
  have hk := hv.1
  have key : ∀ t1 t2 : State, sp.kappa * dist2 t1 t2 ≤ 10 ^ 200 →
      sp.kappa_inv * (sp.dubins t1 t2).length
        = totalLength ((sp.pathControls (sp.dubins t1 t2)).map seg) := by
    intro t1 t2 hf
    obtain ⟨h1, _, h2, h3, _⟩ := dubins_asserts hk t1 t2 hf
    rw [pathControls_seg]
    simp only [totalLength, List.map_cons, List.map_nil, List.sum_cons, List.sum_nil, DPath.length,
      DubinsSpace.kappa_inv]
    rw [abs_of_nonneg (by positivity), abs_of_nonneg (by positivity), abs_of_nonneg (by positivity)]
    ring
  unfold DubinsSpace.get_distance DubinsSpace.get_controls
  cases hfd : sp.forwards with
  | true => simp only [if_true]; exact key s1 s2 hfar
  | false =>
    simp only [Bool.false_eq_true, if_false]
    rw [reverse_map_seg, totalLength_neg]
    exact key s2 s1 (by rw [dist2_symm]; exact hfar)

/-- **C17.** `get_controls` returns three segments; curvatures are 0 or ±kappa, sharpness is 0,
the driving direction is the configured one, and no arc exceeds a full turn. -/
theorem C17_dubins_controls {sp : DubinsSpace} (hv : sp.Valid) (s1 s2 : State)
    (hfar : sp.kappa * dist2 s1 s2 ≤ 10 ^ 200) :
    (sp.get_controls s1 s2).length = 3 ∧ ∀ c ∈ sp.get_controls s1 s2,
      (c.kappa = 0 ∨ |c.kappa| = sp.kappa) ∧ c.sigma = 0 ∧
      (sp.forwards = true → 0 ≤ c.delta_s) ∧ (sp.forwards = false → c.delta_s ≤ 0) ∧
      (c.kappa ≠ 0 → |c.delta_s| < 2 * π / sp.kappa) := by
  have hk := hv.1
  have key : ∀ t1 t2 : State, sp.kappa * dist2 t1 t2 ≤ 10 ^ 200 →
      ∀ c ∈ sp.pathControls (sp.dubins t1 t2), (c.kappa = 0 ∨ |c.kappa| = sp.kappa) ∧ c.sigma = 0 ∧
        0 ≤ c.delta_s ∧ (c.kappa ≠ 0 → |c.delta_s| < 2 * π / sp.kappa) := by
    intro t1 t2 hf c hc
    obtain ⟨h1, h2, h3, h4, h5, h6, _⟩ := dubins_asserts hk t1 t2 hf
    have gen : ∀ (ty : SegT) (l : ℝ), 0 ≤ l → (ty ≠ .straight → l < 2 * π) →
        ((sp.control ty l).kappa = 0 ∨ |(sp.control ty l).kappa| = sp.kappa) ∧
        (sp.control ty l).sigma = 0 ∧ 0 ≤ (sp.control ty l).delta_s ∧
        ((sp.control ty l).kappa ≠ 0 → |(sp.control ty l).delta_s| < 2 * π / sp.kappa) := by
      intro ty l hl hl2
      have hnn : 0 ≤ sp.kappa_inv * l := by unfold DubinsSpace.kappa_inv; positivity
      have hlt : l < 2 * π → |sp.kappa_inv * l| < 2 * π / sp.kappa := by
        intro h
        rw [abs_of_nonneg hnn]
        unfold DubinsSpace.kappa_inv
        rw [one_div, inv_mul_eq_div]
        gcongr
      cases ty with
      | left =>
        exact ⟨Or.inr (abs_of_pos hk), rfl, hnn, fun _ => hlt (hl2 (by simp))⟩
      | straight => exact ⟨Or.inl rfl, rfl, hnn, fun h => absurd rfl h⟩
      | right =>
        refine ⟨Or.inr ?_, rfl, hnn, fun _ => hlt (hl2 (by simp))⟩
        simp [DubinsSpace.control, abs_of_pos hk]
    simp only [DubinsSpace.pathControls, List.mem_cons, List.not_mem_nil, or_false] at hc
    rcases hc with rfl | rfl | rfl
    · exact gen _ _ h1 (fun _ => h2)
    · exact gen _ _ h3 (fun h => (h6 h).2)
    · exact gen _ _ h4 (fun _ => h5)
  unfold DubinsSpace.get_controls
  cases hfd : sp.forwards with
  | true =>
    simp only [if_true]
    refine ⟨rfl, fun c hc => ?_⟩
    obtain ⟨a, b, d, e⟩ := key s1 s2 hfar c hc
    exact ⟨a, b, fun _ => d, fun h => absurd h (by simp), e⟩
  | false =>
    simp only [Bool.false_eq_true, if_false]
    refine ⟨rfl, fun c hc => ?_⟩
    rw [List.mem_map] at hc
    obtain ⟨c', hc', rfl⟩ := hc
    obtain ⟨a, b, d, e⟩ := key s2 s1 (by rw [dist2_symm]; exact hfar) c' (List.mem_reverse.1 hc')
    exact ⟨a, b, fun h => absurd h (by simp), fun _ => by simp only; linarith,
      fun h => by simp only [abs_neg]; exact e h⟩

/-- **C18.** No forward path of a Dubins word that reaches the goal is shorter than
`get_distance`.  Holds for all states, including the tolerance zones. -/
theorem C18_dubins_shortest {sp : DubinsSpace} (hv : sp.Valid) (hf : sp.forwards = true)
    (s1 s2 : State) (cs : List Segment)
    (hcs : DubinsPath sp.kappa cs) (hr : Reaches cs (pose s1) (pose s2)) :
    sp.get_distance s1 s2 ≤ totalLength cs := by
  have hk := hv.1
  have hki : 0 < sp.kappa_inv := by unfold DubinsSpace.kappa_inv; positivity
  obtain ⟨r, hr1, hr2⟩ := hr
  obtain ⟨hd, hd0, hx, hy, hal, hbe⟩ := params_goal sp hk s1 s2
  set th := atan2 (s2.y - s1.y) (s2.x - s1.x) with hth
  set d := (sp.params s1 s2).1 with hdd
  set al := (sp.params s1 s2).2.1 with hall
  set be := (sp.params s1 s2).2.2 with hbee
  have hchord := hr1.chord
  have hgd : sp.get_distance s1 s2 = sp.kappa_inv * (SF.dubins d al be).length := by
    simp [DubinsSpace.get_distance, hf, DubinsSpace.dubins]
    left; rfl
  rw [hgd]
  by_cases hs : d < DUBINS_EPS ∧ |al - be| < DUBINS_EPS
  · have : SF.dubins d al be = ⟨dubins_path_type 0, 0, d, 0⟩ := by
      simp only [SF.dubins, if_pos hs]
    rw [this]
    have e : sp.kappa_inv * DPath.length ⟨dubins_path_type 0, 0, d, 0⟩ = dist2 s1 s2 := by
      simp only [DPath.length, zero_add, add_zero, DubinsSpace.kappa_inv]
      rw [hd]; unfold dist2; field_simp
    rw [e]
    have h1 : r.x = s2.x := hr2.1
    have h2 : r.y = s2.y := hr2.2.1
    rw [h1, h2] at hchord
    exact hchord
  · obtain ⟨_, hmin⟩ := dubins_min hs
    have hns : ¬ (d = 0 ∧ al = be) := by
      rintro ⟨h1, h2⟩
      apply hs
      rw [h1, h2, sub_self, abs_zero]
      unfold DUBINS_EPS; constructor <;> norm_num
    have ral : 0 ≤ al ∧ al < 2 * π := ⟨twopify_nonneg _, twopify_lt _⟩
    have rbe : 0 ≤ be ∧ be < 2 * π := ⟨twopify_nonneg _, twopify_lt _⟩
    -- residuals vanish
    have rot0 : ∀ rx ry : ℝ, r.x - (s1.x + d / sp.kappa * cos th)
          = 1 / sp.kappa * (cos th * rx - sin th * ry) →
        r.y - (s1.y + d / sp.kappa * sin th) = 1 / sp.kappa * (sin th * rx + cos th * ry) →
        rx = 0 ∧ ry = 0 := by
      intro rx ry h1 h2
      rw [← hx] at h1
      rw [← hy] at h2
      have a1 : cos th * rx - sin th * ry = 0 := by
        have : r.x - s2.x = 0 := sub_eq_zero.2 hr2.1
        rw [this] at h1
        have := mul_eq_zero.1 h1.symm
        rcases this with h | h
        · exact absurd h (by positivity)
        · exact h
      have a2 : sin th * rx + cos th * ry = 0 := by
        have : r.y - s2.y = 0 := sub_eq_zero.2 hr2.2.1
        rw [this] at h2
        have := mul_eq_zero.1 h2.symm
        rcases this with h | h
        · exact absurd h (by positivity)
        · exact h
      have hsc := sin_sq_add_cos_sq th
      constructor
      · linear_combination cos th * a1 + sin th * a2 - rx * hsc
      · linear_combination cos th * a2 - sin th * a1 - ry * hsc
    have hrth : AngleEq (r.theta - th) be := by
      have := (hr2.2.2.add_right (-th))
      exact this.trans hbe.symm
    rw [drivesAll_iff] at hr1
    -- CSC words
    have csc : ∀ {e1 e3 t p q : ℝ}, (e1 = 1 ∨ e1 = -1) → (e3 = 1 ∨ e3 = -1) → 0 ≤ t → 0 ≤ p → 0 ≤ q →
        r = arriveAll [⟨t / sp.kappa, e1 * sp.kappa, 0⟩, ⟨p / sp.kappa, 0, 0⟩,
          ⟨q / sp.kappa, e3 * sp.kappa, 0⟩] (pose s1) →
        (SF.dubins d al be).length ≤ t + p + q := by
      intro e1 e3 t p q h1 h3 ht hp hq hrr
      have hend : AngleEq (al + e1 * t + e3 * q) be := by
        have := csc_end (c := pose s1) (d := d) (be := al + e1 * t + e3 * q) hk h1 h3 ht hp hq hal (AngleEq.refl _)
        simp only at this
        rw [← hrr] at this
        exact this.2.2.symm.trans hrth
      have := csc_end (c := pose s1) (d := d) (be := be) hk h1 h3 ht hp hq hal hend
      simp only at this
      rw [← hrr] at this
      obtain ⟨z1, z2⟩ := rot0 _ _ this.1 this.2.1
      obtain ⟨o1, o2⟩ := csc_optimal h1 h3 hd0 ral.1 ral.2 rbe.1 rbe.2 hns ht hp hq hend
        (by unfold cscU; linarith) (by unfold cscV; linarith)
      refine le_trans ?_ o2
      have o1' : DUBINS_ZERO ≤ cscTmp e1 e3 d al be := le_trans DUBINS_ZERO_neg.le o1
      rcases h1 with rfl | rfl <;> rcases h3 with rfl | rfl
      · have := hmin (dubinsLSL d al be) (by simp)
        rw [dubinsLSL_accepted, pathLSL_eq] at this; exact this
      · have := hmin (dubinsLSR d al be) (by simp)
        rw [← tmpLSR_eq] at o1'
        rw [dubinsLSR, if_pos o1', pathLSR_eq] at this; exact this
      · have := hmin (dubinsRSL d al be) (by simp)
        rw [← tmpRSL_eq] at o1'
        rw [dubinsRSL, if_pos o1', pathRSL_eq] at this; exact this
      · have := hmin (dubinsRSR d al be) (by simp)
        rw [dubinsRSR_accepted, pathRSR_eq] at this; exact this
    have conv : ∀ L : ℝ, (SF.dubins d al be).length ≤ sp.kappa * L →
        sp.kappa_inv * (SF.dubins d al be).length ≤ L := by
      intro L hL
      unfold DubinsSpace.kappa_inv
      rw [one_div, inv_mul_le_iff₀ hk]; exact hL
    have dv : ∀ a : ℝ, sp.kappa * a / sp.kappa = a := fun a => mul_div_cancel_left₀ a hk.ne'
    cases hcs with
    | @csc e1 e3 a b c h1 h3 ha hb hc =>
      apply conv
      have := csc (t := sp.kappa * a) (p := sp.kappa * b) (q := sp.kappa * c) h1 h3 (by positivity)
        (by positivity) (by positivity) (by rw [dv, dv, dv]; exact hr1)
      simp only [totalLength, List.map_cons, List.map_nil, List.sum_cons, List.sum_nil,
        abs_of_nonneg ha, abs_of_nonneg hb, abs_of_nonneg hc]
      linarith
    | @ccc e a b c he ha hb hb2 hc =>
      apply conv
      have hb0 : 0 ≤ b := by
        by_contra h
        have : sp.kappa * b < 0 := mul_neg_of_pos_of_neg hk (not_le.1 h)
        linarith [pi_pos]
      simp only [totalLength, List.map_cons, List.map_nil, List.sum_cons, List.sum_nil,
        abs_of_nonneg ha, abs_of_nonneg hb0, abs_of_nonneg hc]
      rcases lt_or_eq_of_le hb2 with hlt | heq
      · have hrr : r = arriveAll [⟨sp.kappa * a / sp.kappa, e * sp.kappa, 0⟩,
            ⟨sp.kappa * b / sp.kappa, -e * sp.kappa, 0⟩,
            ⟨sp.kappa * c / sp.kappa, e * sp.kappa, 0⟩] (pose s1) := by
          rw [dv, dv, dv]; exact hr1
        have ht : 0 ≤ sp.kappa * a := by positivity
        have hp : 0 ≤ sp.kappa * b := by positivity
        have hq : 0 ≤ sp.kappa * c := by positivity
        have hend : AngleEq (al + e * (sp.kappa * a) - e * (sp.kappa * b) + e * (sp.kappa * c)) be := by
          have := ccc_end (c := pose s1) (d := d)
            (be := al + e * (sp.kappa * a) - e * (sp.kappa * b) + e * (sp.kappa * c)) hk he ht hp hq
            hal (AngleEq.refl _)
          simp only at this
          rw [← hrr] at this
          exact this.2.2.symm.trans hrth
        have := ccc_end (c := pose s1) (d := d) (be := be) hk he ht hp hq hal hend
        simp only at this
        rw [← hrr] at this
        obtain ⟨z1, z2⟩ := rot0 _ _ this.1 this.2.1
        obtain ⟨o1, o2⟩ := ccc_optimal (d := d) he ht hb hlt hq hend
          (by unfold cscU; linarith) (by unfold cscV; linarith)
        have fin : (SF.dubins d al be).length ≤ cccT e d al be + cccP e d al be + cccQ e d al be := by
          rcases he with rfl | rfl
          · have := hmin (dubinsLRL d al be) (by simp)
            rw [← tmpLRL_eq] at o1
            rw [dubinsLRL, if_pos o1, pathLRL_eq] at this; exact this
          · have := hmin (dubinsRLR d al be) (by simp)
            rw [← tmpRLR_eq] at o1
            rw [dubinsRLR, if_pos o1, pathRLR_eq] at this; exact this
        linarith
      · -- a full middle turn: the path without it also reaches the goal
        have hb' : b = 2 * π / sp.kappa := by field_simp; linarith
        have hne : -e = 1 ∨ -e = -1 := by rcases he with rfl | rfl <;> simp
        have hmid : ∀ m : Config, SameConfig (arrive 1 (-e * sp.kappa) 0 b m) m := by
          intro m
          rw [hb', arrive_turn hk hne]
          have e1 : AngleEq (m.theta + -e * (2 * π)) m.theta := by
            rcases he with rfl | rfl
            · exact ⟨-1, by push_cast; ring⟩
            · exact ⟨1, by push_cast; ring⟩
          refine ⟨?_, ?_, e1⟩
          · simp only [e1.sin_eq]; ring
          · simp only [e1.cos_eq]; ring
        set r' := arriveAll [⟨sp.kappa * a / sp.kappa, e * sp.kappa, 0⟩, ⟨0 / sp.kappa, 0, 0⟩,
          ⟨sp.kappa * c / sp.kappa, e * sp.kappa, 0⟩] (pose s1) with hr'
        have hsame : SameConfig r r' := by
          rw [hr1, hr', dv, dv, zero_div]
          simp only [arriveAll, dir_of_nonneg ha, dir_of_nonneg hb0, dir_of_nonneg hc,
            abs_of_nonneg ha, abs_of_nonneg hb0, abs_of_nonneg hc, abs_zero, arrive_zero]
          exact arrive_congr (hmid _)
        have hdeg : (SF.dubins d al be).length ≤ sp.kappa * a + 0 + sp.kappa * c := by
          have hend : AngleEq (al + e * (sp.kappa * a) + e * (sp.kappa * c)) be := by
            have := csc_end (c := pose s1) (p := 0) (d := d) (be := al + e * (sp.kappa * a) + e * (sp.kappa * c)) hk
              he he (by positivity : 0 ≤ sp.kappa * a) le_rfl (by positivity : 0 ≤ sp.kappa * c) hal
              (AngleEq.refl _)
            simp only at this
            rw [← hr'] at this
            exact this.2.2.symm.trans ((hsame.2.2.symm.add_right (-th)).trans hrth)
          have := csc_end (c := pose s1) (p := 0) (d := d) (be := be) hk he he (by positivity : 0 ≤ sp.kappa * a)
            le_rfl (by positivity : 0 ≤ sp.kappa * c) hal hend
          simp only at this
          rw [← hr', ← hsame.1, ← hsame.2.1] at this
          obtain ⟨z1, z2⟩ := rot0 _ _ this.1 this.2.1
          obtain ⟨o1, o2⟩ := csc_optimal he he hd0 ral.1 ral.2 rbe.1 rbe.2 hns
            (by positivity : 0 ≤ sp.kappa * a) le_rfl (by positivity : 0 ≤ sp.kappa * c) hend
            (by unfold cscU; linarith) (by unfold cscV; linarith)
          refine le_trans ?_ o2
          rcases he with rfl | rfl
          · have := hmin (dubinsLSL d al be) (by simp)
            rw [dubinsLSL_accepted, pathLSL_eq] at this; exact this
          · have := hmin (dubinsRSR d al be) (by simp)
            rw [dubinsRSR_accepted, pathRSR_eq] at this; exact this
        nlinarith [pi_pos]

/-- A word to which C18 applies: the straight line. -/
example : DubinsPath 1 [⟨0, 1 * 1, 0⟩, ⟨5, 0, 0⟩, ⟨0, 1 * 1, 0⟩] ∧
    Reaches [⟨0, 1 * 1, 0⟩, ⟨5, 0, 0⟩, ⟨0, 1 * 1, 0⟩] ⟨0, 0, 0⟩ ⟨5, 0, 0⟩ := by
  refine ⟨DubinsPath.csc (Or.inl rfl) (Or.inl rfl) le_rfl (by norm_num) le_rfl,
    _, drivesAll_iff.2 rfl, ?_⟩
  simp only [arriveAll, abs_zero, arrive_zero]
  rw [dir_of_nonneg (by norm_num : (0:ℝ) ≤ 5), arrive_line]
  norm_num
  exact ⟨by norm_num, by norm_num, AngleEq.refl _⟩

/-- **C18, backwards.** The same for a planner that drives backwards: `cs` is any path whose
reversal (same curve, opposite driving direction) is a Dubins word. -/
theorem C18_dubins_shortest_backwards {sp : DubinsSpace} (hv : sp.Valid) (hf : sp.forwards = false)
    (s1 s2 : State) (cs : List Segment)
    (hcs : DubinsPath sp.kappa (cs.reverse.map Segment.neg))
    (hr : Reaches cs (pose s1) (pose s2)) :
    sp.get_distance s1 s2 ≤ totalLength cs := by
  have hsig' : ∀ c ∈ cs.reverse.map Segment.neg, c.sigma = 0 := by
    generalize cs.reverse.map Segment.neg = cs' at hcs
    cases hcs <;> simp
  have hsig : ∀ c ∈ cs, c.sigma = 0 := by
    intro c hc
    have := hsig' c.neg (List.mem_map.2 ⟨c, List.mem_reverse.2 hc, rfl⟩)
    simpa [Segment.neg] using this
  obtain ⟨r, hr1, hr2⟩ := hr
  rw [drivesAll_iff] at hr1
  have hb : Reaches (cs.reverse.map Segment.neg) (pose s2) (pose s1) := by
    refine ⟨_, drivesAll_iff.2 rfl, ?_⟩
    have h1 := arriveAll_back cs hsig (pose s1)
    rw [← hr1] at h1
    have h2 := arriveAll_congr (cs := cs.reverse.map Segment.neg) hr2.symm
    rw [h1] at h2
    exact h2
  have := C18_dubins_shortest (sp := ⟨sp.kappa, sp.discretization, true⟩) hv rfl s2 s1 _ hcs hb
  rw [totalLength_neg] at this
  have e : sp.get_distance s1 s2
      = (DubinsSpace.mk sp.kappa sp.discretization true).get_distance s2 s1 := by
    simp only [DubinsSpace.get_distance, hf, if_true, Bool.false_eq_true, if_false]
    rfl
  rw [e]; exact this

/-- **C19.** In exact arithmetic no assertion of the Dubins planner fails for any `d ≥ 0`, `alpha`,
`beta`: neither those of the word functions nor those of the path constructor; and the arguments
of `acos` are in `[-1, 1]` whenever it is evaluated. -/
theorem C19_dubins_asserts (d al be : ℝ) (hd : 0 ≤ d) :
    (tmpLSL d al be ≥ DUBINS_ZERO → let a := pathLSL d al be
      a.Asserts ∧ assertsLSL d al be a.t a.p a.q) ∧
    (tmpRSR d al be ≥ DUBINS_ZERO → let a := pathRSR d al be
      a.Asserts ∧ assertsRSR d al be a.t a.p a.q) ∧
    (tmpRSL d al be ≥ DUBINS_ZERO → let a := pathRSL d al be
      a.Asserts ∧ assertsRSL d al be a.t a.p a.q) ∧
    (tmpLSR d al be ≥ DUBINS_ZERO → let a := pathLSR d al be
      a.Asserts ∧ assertsLSR d al be a.t a.p a.q) ∧
    (|tmpRLR d al be| < 1 → let a := pathRLR d al be;
      -1 ≤ tmpRLR d al be ∧ tmpRLR d al be ≤ 1 ∧ a.Asserts ∧ assertsRLR d al be a.t a.p a.q) ∧
    (|tmpLRL d al be| < 1 → let a := pathLRL d al be;
      -1 ≤ tmpLRL d al be ∧ tmpLRL d al be ≤ 1 ∧ a.Asserts ∧ assertsLRL d al be a.t a.p a.q) ∧
    DPath.default.Asserts ∧ DPath.Asserts ⟨dubins_path_type 0, 0, d, 0⟩ := by
  have nn : ∀ x, 0 ≤ twopify x := twopify_nonneg
  have cscA : ∀ {e1 e3 : ℝ}, (e1 = 1 ∨ e1 = -1) → (e3 = 1 ∨ e3 = -1) →
      DUBINS_ZERO ≤ cscTmp e1 e3 d al be →
      |cscP e1 e3 d al be * cos (al + e1 * cscT e1 e3 d al be)
        + (e1 - e3) * sin (al + e1 * cscT e1 e3 d al be) - cscU e1 e3 d al be| < DUBINS_EPS ∧
      |cscP e1 e3 d al be * sin (al + e1 * cscT e1 e3 d al be)
        - (e1 - e3) * cos (al + e1 * cscT e1 e3 d al be) - cscV e1 e3 al be| < DUBINS_EPS ∧
      twopify (al + e1 * cscT e1 e3 d al be + e3 * cscQ e1 e3 d al be - be + 0.5 * DUBINS_EPS)
        < DUBINS_EPS := by
    intro e1 e3 h1 h3 h
    obtain ⟨a, b⟩ := abs_lt_eps (csc_almost h1 h3 h)
    exact ⟨a, b, twopify_half _ _ (csc_heading2 h1 h3 d al be)⟩
  have cccA : ∀ {e : ℝ}, (e = 1 ∨ e = -1) → |cccTmp e d al be| < 1 →
      |2 * e * (sin (al + e * cccT e d al be) - sin (al + e * cccT e d al be - e * cccP e d al be))
        - cscU e e d al be| < DUBINS_EPS ∧
      |2 * e * (cos (al + e * cccT e d al be - e * cccP e d al be) - cos (al + e * cccT e d al be))
        - cscV e e al be| < DUBINS_EPS ∧
      twopify (al + e * cccT e d al be - e * cccP e d al be + e * cccQ e d al be - be
        + 0.5 * DUBINS_EPS) < DUBINS_EPS := by
    intro e he h
    obtain ⟨a, b⟩ := ccc_solves he h
    rw [a, b]
    refine ⟨?_, ?_, twopify_half _ _ (ccc_heading he).2⟩ <;>
      (simp; unfold DUBINS_EPS; norm_num)
  refine ⟨?_, ?_, ?_, ?_, ?_, ?_, ?_, ?_⟩
  · intro h
    rw [ge_iff_le, tmpLSL_eq] at h
    rw [pathLSL_eq]
    obtain ⟨a, b, c⟩ := cscA (Or.inl rfl) (Or.inl rfl) h
    refine ⟨⟨nn _, sqrt_nonneg _, nn _⟩, ?_, ?_, ?_⟩
    · convert a using 2; simp only [cscU]; ring_nf
    · convert b using 2; simp only [cscV]; ring_nf
    · convert c using 2; ring
  · intro h
    rw [ge_iff_le, tmpRSR_eq] at h
    rw [pathRSR_eq]
    obtain ⟨a, b, c⟩ := cscA (Or.inr rfl) (Or.inr rfl) h
    refine ⟨⟨nn _, sqrt_nonneg _, nn _⟩, ?_, ?_, ?_⟩
    · convert a using 2; simp only [cscU]; ring_nf
    · convert b using 2; simp only [cscV]; ring_nf
    · convert c using 2; ring
  · intro h
    rw [ge_iff_le, tmpRSL_eq] at h
    rw [pathRSL_eq]
    obtain ⟨a, b, c⟩ := cscA (Or.inr rfl) (Or.inl rfl) h
    refine ⟨⟨nn _, sqrt_nonneg _, nn _⟩, ?_, ?_, ?_⟩
    · convert a using 2; simp only [cscU]; ring_nf
    · convert b using 2; simp only [cscV]; ring_nf
    · convert c using 2; ring
  · intro h
    rw [ge_iff_le, tmpLSR_eq] at h
    rw [pathLSR_eq]
    obtain ⟨a, b, c⟩ := cscA (Or.inl rfl) (Or.inr rfl) h
    refine ⟨⟨nn _, sqrt_nonneg _, nn _⟩, ?_, ?_, ?_⟩
    · convert a using 2; simp only [cscU]; ring_nf
    · convert b using 2; simp only [cscV]; ring_nf
    · convert c using 2; ring
  · intro h
    have h' := abs_lt.1 h
    rw [tmpRLR_eq] at h
    rw [pathRLR_eq]
    obtain ⟨a, b, c⟩ := cccA (Or.inr rfl) h
    refine ⟨h'.1.le, h'.2.le, ⟨nn _, le_trans pi_pos.le (cccP_range h).1.le, nn _⟩, ?_, ?_, ?_⟩
    · convert a using 2; simp only [cscU]; ring_nf
    · convert b using 2; simp only [cscV]; ring_nf
    · convert c using 2; ring
  · intro h
    have h' := abs_lt.1 h
    rw [tmpLRL_eq] at h
    rw [pathLRL_eq]
    obtain ⟨a, b, c⟩ := cccA (Or.inl rfl) h
    refine ⟨h'.1.le, h'.2.le, ⟨nn _, le_trans pi_pos.le (cccP_range h).1.le, nn _⟩, ?_, ?_, ?_⟩
    · convert a using 2; simp only [cscU]; ring_nf
    · convert b using 2; simp only [cscV]; ring_nf
    · convert c using 2; ring
  · refine ⟨le_rfl, ?_, le_rfl⟩
    simp only [DPath.default]
    exact le_trans (by positivity) dblMax_large.le
  · exact ⟨le_rfl, hd, le_rfl⟩

/-- **C20.** `get_distance` is at most 1e-9 turning radii below the Euclidean distance, not below
it at all outside the tangent zone, and exceeds it by less than `(4π + 2)` turning radii (so it is
never the `no path` value). -/
theorem C20_dubins_bounds {sp : DubinsSpace} (hv : sp.Valid) (s1 s2 : State)
    (hfar : sp.kappa * dist2 s1 s2 ≤ 10 ^ 200) :
    dist2 s1 s2 - 1 / 10 ^ 9 / sp.kappa ≤ sp.get_distance s1 s2 ∧
    (¬ NearlyTangent sp.kappa s1 s2 → dist2 s1 s2 ≤ sp.get_distance s1 s2) ∧
    sp.get_distance s1 s2 < dist2 s1 s2 + (4 * π + 2) / sp.kappa := by
  have hk := hv.1
  -- lower bound for a forward plan
  have low : ∀ t1 t2 : State, sp.kappa * dist2 t1 t2 ≤ 10 ^ 200 → ∀ eps, 0 ≤ eps →
      (¬ NearlyTangent sp.kappa t1 t2 ∨ 1 / 10 ^ 9 ≤ eps) →
      dist2 t1 t2 - eps / sp.kappa ≤ sp.kappa_inv * (sp.dubins t1 t2).length := by
    intro t1 t2 hf eps heps hz
    obtain ⟨hd, hd0, _⟩ := params_goal sp hk t1 t2
    by_cases hs : (sp.params t1 t2).1 < DUBINS_EPS ∧
        |(sp.params t1 t2).2.1 - (sp.params t1 t2).2.2| < DUBINS_EPS
    · have : sp.dubins t1 t2 = ⟨dubins_path_type 0, 0, (sp.params t1 t2).1, 0⟩ := by
        simp only [DubinsSpace.dubins, SF.dubins, if_pos hs]
      rw [this]
      have e : sp.kappa_inv * DPath.length ⟨dubins_path_type 0, 0, (sp.params t1 t2).1, 0⟩
          = dist2 t1 t2 := by
        simp only [DPath.length, zero_add, add_zero, DubinsSpace.kappa_inv]
        rw [hd]; unfold dist2; field_simp
      rw [e]
      have : 0 ≤ eps / sp.kappa := by positivity
      linarith
    · have hit := dubins_hits (eps := eps) (al := (sp.params t1 t2).2.1)
        (be := (sp.params t1 t2).2.2) hd0 (by rw [hd]; exact hf) hs
        (hz.imp_left (fun h h' => h (tangentZone_iff sp hk t1 t2 h')))
      obtain ⟨r1, _⟩ := hits_reaches hk heps hit
      obtain ⟨h1, _, h2, h3, _⟩ := dubins_asserts hk t1 t2 hf
      have hlen : sp.kappa_inv * (sp.dubins t1 t2).length
          = totalLength ((sp.pathControls (sp.dubins t1 t2)).map seg) := by
        rw [pathControls_seg]
        simp only [totalLength, List.map_cons, List.map_nil, List.sum_cons, List.sum_nil,
          DPath.length, DubinsSpace.kappa_inv]
        rw [abs_of_nonneg (by positivity), abs_of_nonneg (by positivity),
          abs_of_nonneg (by positivity)]
        ring
      rw [hlen]
      have hch := arriveAll_chord ((sp.pathControls (sp.dubins t1 t2)).map seg) (pose t1)
      set r := arriveAll ((sp.pathControls (sp.dubins t1 t2)).map seg) (pose t1)
      have htri := dist_triangle t2.x t2.y r.x r.y t1.x t1.y
      change √((r.x - t2.x) ^ 2 + (r.y - t2.y) ^ 2) ≤ eps / sp.kappa at r1
      change √((r.x - t1.x) ^ 2 + (r.y - t1.y) ^ 2) ≤ _ at hch
      rw [dist_symm t2.x t2.y r.x r.y] at htri
      unfold dist2
      linarith
  have up : ∀ t1 t2 : State, sp.kappa_inv * (sp.dubins t1 t2).length
      < dist2 t1 t2 + (4 * π + 2) / sp.kappa := by
    intro t1 t2
    obtain ⟨hd, hd0, _⟩ := params_goal sp hk t1 t2
    have h2 : (sp.dubins t1 t2).length < 4 * π + (sp.params t1 t2).1 + 2 := by
      by_cases hs : (sp.params t1 t2).1 < DUBINS_EPS ∧
          |(sp.params t1 t2).2.1 - (sp.params t1 t2).2.2| < DUBINS_EPS
      · have : sp.dubins t1 t2 = ⟨dubins_path_type 0, 0, (sp.params t1 t2).1, 0⟩ := by
          simp only [DubinsSpace.dubins, SF.dubins, if_pos hs]
        rw [this]; simp only [DPath.length]; linarith [pi_pos]
      · obtain ⟨_, hmin⟩ := dubins_min hs
        have h1 := hmin (dubinsLSL (sp.params t1 t2).1 (sp.params t1 t2).2.1
          (sp.params t1 t2).2.2) (by simp)
        rw [dubinsLSL_accepted] at h1
        exact lt_of_le_of_lt h1 (pathLSL_length_lt hd0 _ _)
    rw [hd] at h2
    have e : dist2 t1 t2 + (4 * π + 2) / sp.kappa
        = sp.kappa_inv * (4 * π + sp.kappa * dist2 t1 t2 + 2) := by
      unfold DubinsSpace.kappa_inv; field_simp; ring
    rw [e]
    have hki : 0 < sp.kappa_inv := by unfold DubinsSpace.kappa_inv; positivity
    exact mul_lt_mul_of_pos_left h2 hki
  unfold DubinsSpace.get_distance
  cases hfd : sp.forwards with
  | true =>
    simp only [if_true]
    refine ⟨low s1 s2 hfar _ (by norm_num) (Or.inr le_rfl), fun h => ?_, up s1 s2⟩
    have := low s1 s2 hfar 0 le_rfl (Or.inl h)
    simpa using this
  | false =>
    simp only [Bool.false_eq_true, if_false]
    rw [← dist2_symm]
    rw [← dist2_symm] at hfar
    refine ⟨low s2 s1 hfar _ (by norm_num) (Or.inr le_rfl), fun h => ?_, up s2 s1⟩
    have := low s2 s1 hfar 0 le_rfl (Or.inl (fun h' => h (nearlyTangent_symm h')))
    simpa using this

/-- **C20 is false inside the tangent zone.** Two states 1e-5 apart, both with heading
`2 * arctan 1e-5` relative to the connecting line: the accepted word RSL with zero straight
segment is shorter than the straight-line distance. -/
theorem C20_dubins_below_euclid_counterexample :
    ∃ (sp : DubinsSpace) (s1 s2 : State), sp.Valid ∧ sp.get_distance s1 s2 < dist2 s1 s2 := by
  obtain ⟨m, hm⟩ : ∃ m : ℝ, m = 1 / 10 ^ 5 := ⟨_, rfl⟩
  obtain ⟨al, hal⟩ : ∃ al : ℝ, al = 2 * arctan m := ⟨_, rfl⟩
  have hat : tan (arctan m) = m := tan_arctan m
  have hc1 : cos (arctan m) ^ 2 = 1 / (1 + m ^ 2) := cos_sq_arctan m
  have hcp : 0 < cos (arctan m) := cos_arctan_pos m
  have hs1 : sin (arctan m) = m * cos (arctan m) := by
    rw [tan_eq_sin_div_cos, div_eq_iff hcp.ne'] at hat; exact hat
  have hsin : sin al = 2 * m / (1 + m ^ 2) := by
    rw [hal, sin_two_mul, hs1]
    calc _ = 2 * m * cos (arctan m) ^ 2 := by ring
      _ = _ := by rw [hc1]; ring
  have hcos : cos al = (1 - m ^ 2) / (1 + m ^ 2) := by
    rw [hal, cos_two_mul, hc1]; field_simp; ring
  have ha0 : 0 < al := by
    have : 0 < arctan m := by rw [← arctan_zero]; exact arctan_strictMono (by rw [hm]; norm_num)
    rw [hal]; linarith
  have ha1 : al < 2 * π := by
    have := arctan_lt_pi_div_two m
    rw [hal]; linarith [pi_pos]
  refine ⟨⟨1, 1, true⟩, ⟨0, 0, al, 0, 0⟩, ⟨m, 0, al, 0, 0⟩, ⟨by norm_num, by norm_num⟩, ?_⟩
  have hdist : dist2 ⟨0, 0, al, 0, 0⟩ ⟨m, 0, al, 0, 0⟩ = m := by
    unfold dist2
    simp only [sub_zero, sub_self]
    rw [zero_pow two_ne_zero, add_zero, sqrt_sq (by rw [hm]; norm_num)]
  have hpar : (DubinsSpace.mk 1 1 true).params ⟨0, 0, al, 0, 0⟩ ⟨m, 0, al, 0, 0⟩ = (m, al, al) := by
    have hz : atan2 0 m = 0 := atan2_zero_nonneg (by rw [hm]; norm_num)
    simp only [DubinsSpace.params, sub_zero, sub_self, hz, mul_zero, add_zero, mul_one]
    rw [twopify_of_mem ha0.le ha1, sqrt_mul_self (by rw [hm]; norm_num)]
  rw [hdist]
  have hgd : (DubinsSpace.mk 1 1 true).get_distance ⟨0, 0, al, 0, 0⟩ ⟨m, 0, al, 0, 0⟩
      = (SF.dubins m al al).length := by
    simp only [DubinsSpace.get_distance, DubinsSpace.dubins, hpar, if_true, DubinsSpace.kappa_inv]
    ring
  rw [hgd]
  have hs : ¬ (m < DUBINS_EPS ∧ |al - al| < DUBINS_EPS) := by
    rintro ⟨h, _⟩
    rw [hm] at h; unfold DUBINS_EPS at h; norm_num at h
  obtain ⟨_, hmin⟩ := dubins_min hs
  have h1 := hmin (dubinsRSL m al al) (by simp)
  have hpyth := sin_sq_add_cos_sq al
  have htmp : tmpRSL m al al = m ^ 2 - 4 * m * sin al := by
    unfold tmpRSL; linear_combination 2 * hpyth
  have hacc : tmpRSL m al al ≥ DUBINS_ZERO := by
    rw [htmp, hsin, hm]; unfold DUBINS_ZERO; norm_num
  have hneg : tmpRSL m al al ≤ 0 := by
    rw [htmp, hsin, hm]; norm_num
  rw [dubinsRSL, if_pos hacc] at h1
  refine lt_of_le_of_lt h1 ?_
  have hp0 : √(max (tmpRSL m al al) 0) = 0 := by rw [max_eq_right hneg, sqrt_zero]
  simp only [pathRSL, DPath.length, hp0, add_zero]
  have hpi2 : atan2 2 0 = π / 2 := by
    unfold atan2
    exact Complex.arg_eq_pi_div_two_iff.2 ⟨rfl, by norm_num⟩
  set ph := atan2 (cos al + cos al) (m - sin al - sin al) - atan2 2 0 with hph
  have c1 := sqrt_mul_cos_atan2 (cos al + cos al) (m - sin al - sin al)
  have c2 := sqrt_mul_sin_atan2 (cos al + cos al) (m - sin al - sin al)
  set R := √((m - sin al - sin al) ^ 2 + (cos al + cos al) ^ 2) with hR
  have hRp : 0 < R := by
    apply sqrt_pos.2
    have : 0 < cos al := by rw [hcos, hm]; norm_num
    positivity
  have cph : R * cos ph = 2 * cos al := by
    rw [hph, hpi2, cos_sub_pi_div_two, c2]; ring
  have sph : R * sin ph = 2 * sin al - m := by
    rw [hph, hpi2, sin_sub_pi_div_two, mul_neg, c1]; ring
  set T := twopify (al - ph) with hT
  have hTe : AngleEq T (al - ph) := twopify_angleEq _
  have sT : R * sin T = m * cos al := by
    rw [hTe.sin_eq, sin_sub]
    linear_combination sin al * cph - cos al * sph
  have cT : R * cos T = 2 - m * sin al := by
    rw [hTe.cos_eq, cos_sub]
    linear_combination cos al * cph + sin al * sph + 2 * hpyth
  have hT0 : 0 ≤ T := twopify_nonneg _
  have hT1 : T < 2 * π := twopify_lt _
  have hsp : 0 < sin T := by
    apply pos_of_mul_pos_right _ hRp.le
    rw [sT, hcos, hm]; norm_num
  have hcp' : 0 < cos T := by
    apply pos_of_mul_pos_right _ hRp.le
    rw [cT, hsin, hm]; norm_num
  have hTpi : T < π := by
    by_contra h
    have := sin_nonpos_of_nonpos_of_neg_pi_le (x := T - 2 * π) (by linarith) (by linarith [not_lt.1 h])
    rw [sin_sub_two_pi] at this
    linarith
  have hTp2 : T < π / 2 := by
    by_contra h
    have := cos_nonpos_of_pi_div_two_le_of_le (x := T) (not_lt.1 h) (by linarith)
    linarith
  have hTpos : 0 < T := by
    rcases hT0.lt_or_eq with h | h
    · exact h
    · rw [← h, sin_zero] at hsp; exact absurd hsp (lt_irrefl _)
  have hlt := lt_tan hTpos hTp2
  have htan : tan T = m * cos al / (2 - m * sin al) := by
    rw [tan_eq_sin_div_cos, ← sT, ← cT]; field_simp
  rw [htan, hsin, hcos] at hlt
  have : m * ((1 - m ^ 2) / (1 + m ^ 2)) / (2 - m * (2 * m / (1 + m ^ 2))) ≤ m / 2 := by
    rw [hm]; norm_num
  linarith

/-- **C21, rigid motions.** `get_distance` is invariant under rigid motions when the two positions
differ, and under pure translations always. -/
theorem C21_dubins_invariant_partial (sp : DubinsSpace) (s1 s2 : State) (phi a b : ℝ)
    (h : (s1.x ≠ s2.x ∨ s1.y ≠ s2.y) ∨ phi = 0) :
    sp.get_distance (moved phi a b s1) (moved phi a b s2) = sp.get_distance s1 s2 := by
  have key : ∀ t1 t2 : State, ((t1.x ≠ t2.x ∨ t1.y ≠ t2.y) ∨ phi = 0) →
      sp.params (moved phi a b t1) (moved phi a b t2) = sp.params t1 t2 := by
    intro t1 t2 h
    have hs := sin_sq_add_cos_sq phi
    set dx := t2.x - t1.x with hdx
    set dy := t2.y - t1.y with hdy
    have ex : (moved phi a b t2).x - (moved phi a b t1).x = dx * cos phi - dy * sin phi := by
      simp only [moved, hdx, hdy]; ring
    have ey : (moved phi a b t2).y - (moved phi a b t1).y = dx * sin phi + dy * cos phi := by
      simp only [moved, hdx, hdy]; ring
    have hsq : (dx * cos phi - dy * sin phi) ^ 2 + (dx * sin phi + dy * cos phi) ^ 2
        = dx ^ 2 + dy ^ 2 := by
      linear_combination (dx ^ 2 + dy ^ 2) * hs
    have hsq' : (dx * cos phi - dy * sin phi) * (dx * cos phi - dy * sin phi)
        + (dx * sin phi + dy * cos phi) * (dx * sin phi + dy * cos phi) = dx * dx + dy * dy := by
      linear_combination (dx ^ 2 + dy ^ 2) * hs
    have hth : AngleEq (atan2 (dx * sin phi + dy * cos phi) (dx * cos phi - dy * sin phi))
        (atan2 dy dx + phi) := by
      rcases h with h | h
      · have hpos : 0 < √(dx ^ 2 + dy ^ 2) := by
          apply sqrt_pos.2
          rcases h with h | h
          · have : 0 < dx ^ 2 := by
              have : dx ≠ 0 := by rw [hdx]; exact sub_ne_zero.2 (Ne.symm h)
              positivity
            positivity
          · have : 0 < dy ^ 2 := by
              have : dy ≠ 0 := by rw [hdy]; exact sub_ne_zero.2 (Ne.symm h)
              positivity
            positivity
        have c1 := sqrt_mul_cos_atan2 (dx * sin phi + dy * cos phi) (dx * cos phi - dy * sin phi)
        have c2 := sqrt_mul_sin_atan2 (dx * sin phi + dy * cos phi) (dx * cos phi - dy * sin phi)
        have c3 := sqrt_mul_cos_atan2 dy dx
        have c4 := sqrt_mul_sin_atan2 dy dx
        rw [hsq] at c1 c2
        apply AngleEq.of_cos_sin
        · apply mul_left_cancel₀ hpos.ne'
          rw [c1, cos_add, mul_sub, ← mul_assoc, ← mul_assoc, c3, c4]
        · apply mul_left_cancel₀ hpos.ne'
          rw [c2, sin_add, mul_add, ← mul_assoc, ← mul_assoc, c3, c4]; ring
      · rw [h]; simp; exact AngleEq.refl _
    simp only [DubinsSpace.params]
    rw [ex, ey, hsq', ← hdx, ← hdy]
    have hangle : ∀ x : ℝ, twopify (x + phi
        - atan2 (dx * sin phi + dy * cos phi) (dx * cos phi - dy * sin phi))
        = twopify (x - atan2 dy dx) := by
      intro x
      apply twopify_congr
      have := (AngleEq.refl (x + phi)).sub hth
      exact this.trans (AngleEq.of_eq (by ring))
    simp only [moved]
    rw [hangle, hangle]
  unfold DubinsSpace.get_distance DubinsSpace.dubins
  have h' : (s2.x ≠ s1.x ∨ s2.y ≠ s1.y) ∨ phi = 0 := by
    rcases h with (h | h) | h
    · exact Or.inl (Or.inl (Ne.symm h))
    · exact Or.inl (Or.inr (Ne.symm h))
    · exact Or.inr h
  rw [key s1 s2 h, key s2 s1 h']

/-- **C21, full turns.** Adding full turns to the headings does not change `get_distance`. -/
theorem C21_dubins_full_turns (sp : DubinsSpace) (s1 s2 : State) (n m : ℤ) :
    sp.get_distance (turned n s1) (turned m s2) = sp.get_distance s1 s2 := by
  have key : ∀ (t1 t2 : State) (n m : ℤ),
      sp.params (turned n t1) (turned m t2) = sp.params t1 t2 := by
    intro t1 t2 n m
    simp only [DubinsSpace.params, turned]
    have e : ∀ (x th : ℝ) (k : ℤ), twopify (x + k * (2 * π) - th) = twopify (x - th) := by
      intro x th k
      apply twopify_congr
      exact ⟨k, by ring⟩
    rw [e, e]
  unfold DubinsSpace.get_distance DubinsSpace.dubins
  rw [key, key]

/-- **C21, direction.** The backwards distance from `s1` to `s2` is the forwards distance from
`s2` to `s1`. -/
theorem C21_dubins_backwards (kappa disc : ℝ) (s1 s2 : State) :
    (DubinsSpace.mk kappa disc false).get_distance s1 s2
      = (DubinsSpace.mk kappa disc true).get_distance s2 s1 := rfl

/-- **C21 is false for a pure turn on the spot.** With equal positions and headings that differ
by 1e-7 the distance is 0, unless the two headings lie on different sides of the cut of
`twopify`; then it is positive. -/
theorem C21_dubins_rotation_counterexample :
    ∃ (sp : DubinsSpace) (s1 s2 : State) (phi : ℝ), sp.Valid ∧
      sp.get_distance (moved phi 0 0 s1) (moved phi 0 0 s2) ≠ sp.get_distance s1 s2 := by
  refine ⟨⟨1, 1, true⟩, ⟨0, 0, 0, 0, 0⟩, ⟨0, 0, -(1 / 10 ^ 7), 0, 0⟩, 1, ⟨by norm_num, by norm_num⟩, ?_⟩
  have hpi := pi_gt_three
  have z : atan2 0 0 = 0 := atan2_zero_nonneg le_rfl
  have p1 : (DubinsSpace.mk 1 1 true).params (moved 1 0 0 ⟨0, 0, 0, 0, 0⟩)
      (moved 1 0 0 ⟨0, 0, -(1 / 10 ^ 7), 0, 0⟩) = (0, 1, 1 - 1 / 10 ^ 7) := by
    simp only [DubinsSpace.params, moved]
    norm_num
    rw [z]
    norm_num
    constructor
    · exact twopify_of_mem (by norm_num) (by linarith)
    · exact twopify_of_mem (by norm_num) (by linarith)
  have p2 : (DubinsSpace.mk 1 1 true).params ⟨0, 0, 0, 0, 0⟩ ⟨0, 0, -(1 / 10 ^ 7), 0, 0⟩
      = (0, 0, 2 * π - 1 / 10 ^ 7) := by
    simp only [DubinsSpace.params]
    norm_num
    rw [z]
    norm_num
    constructor
    · exact twopify_of_mem le_rfl (by linarith)
    · have : AngleEq (-(1 / 10000000 : ℝ)) (2 * π - 1 / 10000000) := ⟨-1, by push_cast; ring⟩
      rw [twopify_congr this]
      exact twopify_of_mem (by linarith) (by linarith)
  have d1 : (DubinsSpace.mk 1 1 true).get_distance (moved 1 0 0 ⟨0, 0, 0, 0, 0⟩)
      (moved 1 0 0 ⟨0, 0, -(1 / 10 ^ 7), 0, 0⟩) = 0 := by
    simp only [DubinsSpace.get_distance, DubinsSpace.dubins, p1, if_true, SF.dubins]
    rw [if_pos]
    · simp [DPath.length]
    · unfold DUBINS_EPS
      constructor
      · norm_num
      · have e : (1:ℝ) - (1 - 1 / 10 ^ 7) = 1 / 10 ^ 7 := by norm_num
        rw [e, abs_of_pos (by norm_num)]; norm_num
  rw [d1]
  apply ne_of_lt
  have hs : ¬ ((0:ℝ) < DUBINS_EPS ∧ |0 - (2 * π - 1 / 10 ^ 7)| < DUBINS_EPS) := by
    rintro ⟨_, h⟩
    unfold DUBINS_EPS at h
    have := (abs_lt.1 h).1
    norm_num at this
    linarith
  have hit := dubins_hits (eps := 1 / 10 ^ 9) (d := 0) (al := 0) (be := 2 * π - 1 / 10 ^ 7) le_rfl
    (by positivity) hs (Or.inr le_rfl)
  obtain ⟨r1, _, r2, r3, _⟩ := dubins_ranges (d := 0) (al := 0) (be := 2 * π - 1 / 10 ^ 7) le_rfl
    (by positivity)
  have hgd : (DubinsSpace.mk 1 1 true).get_distance ⟨0, 0, 0, 0, 0⟩ ⟨0, 0, -(1 / 10 ^ 7), 0, 0⟩
      = (SF.dubins 0 0 (2 * π - 1 / 10 ^ 7)).length := by
    simp only [DubinsSpace.get_distance, DubinsSpace.dubins, p2, if_true, DubinsSpace.kappa_inv]
    ring
  rw [hgd]
  set D := SF.dubins 0 0 (2 * π - 1 / 10 ^ 7) with hD
  by_contra hneg
  have hneg := not_lt.1 hneg
  unfold DPath.length at hneg
  have t0 : D.t = 0 := by linarith
  have p0 : D.p = 0 := by linarith
  have q0 : D.q = 0 := by linarith
  have := hit 1 ⟨0, 0, 0⟩ 0 one_pos (AngleEq.of_eq (by simp))
  obtain ⟨rx, ry, g, _, h2, h3, _⟩ := this
  rw [t0, p0, q0] at h3
  simp only [zero_div, arriveAll, abs_zero, arrive_zero] at h3
  have hg : g = 2 * π - 1 / 10 ^ 7 := sub_eq_zero.1 (abs_nonpos_iff.1 h2)
  rw [hg] at h3
  have h4 := angleEq_eq_of_mem h3 (by norm_num) (by norm_num; linarith) (by linarith) (by linarith)
  norm_num at h4
  linarith

end Props
