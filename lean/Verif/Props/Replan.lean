import Verif.Props.Dubins
import Verif.Props.ReedsShepp
import Verif.Props.Integrate
import Verif.Lemmas.RSOutput
import Verif.Lemmas.RSStraight

/-!
# Planning again from a place on the planned path: C107, C108
-/

noncomputable section

namespace Props

open SF Spec Real

/-- Two parts of a path that leads to the goal: what the first and the last part do. -/
theorem parts_reach {cs pre post : List Segment} {c : Segment} {r : ℝ} {p q m : Config}
    (hq : Reaches cs p q) (hm : SameConfig m (arriveAll (pre ++ [c.part r]) p))
    (he : arriveAll cs p = arriveAll (c.part (1 - r) :: post) (arriveAll (pre ++ [c.part r]) p)) :
    SameConfig (arriveAll (pre ++ [c.part r]) p) m ∧ SameConfig (arriveAll (c.part (1 - r) :: post) m) q := by
  obtain ⟨x, h1, h2⟩ := hq
  rw [drivesAll_iff] at h1
  refine ⟨hm.symm, ?_⟩
  have := arriveAll_congr (cs := c.part (1 - r) :: post) hm
  rw [← he, ← h1] at this
  exact this.trans h2

theorem parts_length {pre post : List Segment} {c : Segment} {r : ℝ} (h0 : 0 ≤ r) (h1 : r ≤ 1) :
    totalLength (pre ++ [c.part r]) + totalLength (c.part (1 - r) :: post) = totalLength (pre ++ c :: post) := by
  simp only [totalLength, List.map_append, List.map_cons, List.map_nil, List.sum_append, List.sum_cons, List.sum_nil,
    Segment.part, abs_mul, abs_of_nonneg h0, abs_of_nonneg (sub_nonneg.2 h1)]
  ring

theorem replan_forwards {sp : DubinsSpace} (hv : sp.Valid) (hf : sp.forwards = true) (s1 s2 m : State)
    {pre post : List Segment} {c : Segment} {r : ℝ} (h0 : 0 ≤ r) (h1 : r ≤ 1)
    (hp : DubinsPath sp.kappa (pre ++ c :: post))
    (a : SameConfig (arriveAll (pre ++ [c.part r]) (pose s1)) (pose m))
    (b : SameConfig (arriveAll (c.part (1 - r) :: post) (pose m)) (pose s2)) :
    sp.get_distance s1 m ≤ totalLength (pre ++ [c.part r]) ∧
      sp.get_distance m s2 ≤ totalLength (c.part (1 - r) :: post) := by
  obtain ⟨⟨w1, d1, l1, e1⟩, ⟨w2, d2, l2, e2⟩⟩ := hp.cut hv.1 h0 h1
  constructor
  · rw [← l1]
    exact C18_dubins_shortest hv hf s1 m w1 d1 ⟨_, drivesAll_iff.2 rfl, by rw [e1]; exact a⟩
  · rw [← l2]
    exact C18_dubins_shortest hv hf m s2 w2 d2 ⟨_, drivesAll_iff.2 rfl, by rw [e2]; exact b⟩

/-- **C107.** A car that plans again at any place of the planned Dubins path never gets a longer way: if `m` is at arc length
`s` of the path planned from `s1` to `s2`, then the distance from `m` to `s2` is at most the rest of the path, and the
distance from `s1` to `m` is at most the part driven.  Partial: the plan must lead exactly to the goal, that is, `s1` and
`s2` are outside the tolerances (see C15); `m` may be anywhere on the path. -/
theorem C107_dubins_replan_partial {sp : DubinsSpace} (hv : sp.Valid) (s1 s2 m : State)
    (hfar : sp.kappa * dist2 s1 s2 ≤ 10 ^ 200) (hne : ¬ NearlyEqual sp.kappa s1 s2)
    (hz : ¬ NearlyTangent sp.kappa s1 s2) (s : ℝ) (a : Sample)
    (hs : At ((sp.get_controls s1 s2).map seg) (pose s1) s a) (hm : SameConfig (pose m) a.cfg) :
    sp.get_distance s1 m ≤ s ∧ sp.get_distance m s2 ≤ sp.get_distance s1 s2 - s := by
  have hr := C15_dubins_reaches hv s1 s2 hfar hne hz
  have hd := C16_dubins_distance hv s1 s2 hfar
  have hc := (C17_dubins_controls hv s1 s2 hfar).2
  have hsig : ∀ c ∈ (sp.get_controls s1 s2).map seg, c.sigma = 0 := by
    intro c hcm
    obtain ⟨c', h', rfl⟩ := List.mem_map.1 hcm
    exact (hc c' h').2.1
  obtain ⟨pre, c, post, r, hcs, h0, h1, hs', hm', he⟩ := hs.split hsig
  obtain ⟨b1, b2⟩ := parts_reach hr (hm.trans hm') he
  have hl := parts_length (pre := pre) (post := post) (c := c) h0 h1
  rw [hd, hcs, ← hl, hs']
  suffices hh : sp.get_distance s1 m ≤ totalLength (pre ++ [c.part r]) ∧
      sp.get_distance m s2 ≤ totalLength (c.part (1 - r) :: post) by
    exact ⟨hh.1, by linarith [hh.2]⟩
  cases hfd : sp.forwards with
  | true =>
    have hp := dubins_path hv.1 s1 s2 hfar
    have e : sp.get_controls s1 s2 = sp.pathControls (sp.dubins s1 s2) := by simp [DubinsSpace.get_controls, hfd]
    rw [← e, hcs] at hp
    exact replan_forwards hv hfd s1 s2 m h0 h1 hp b1 b2
  | false =>
    have hp := dubins_path hv.1 s2 s1 (by rw [dist2_symm]; exact hfar)
    have e : (sp.get_controls s1 s2).map seg = ((sp.pathControls (sp.dubins s2 s1)).map seg).reverse.map Segment.neg := by
      simp only [DubinsSpace.get_controls, hfd, Bool.false_eq_true, if_false, List.map_map, List.map_reverse]
      rfl
    have nn : ∀ l : List Segment, (l.map Segment.neg).map Segment.neg = l := by
      intro l
      rw [List.map_map]
      conv_rhs => rw [← List.map_id l]
      congr 1
      funext c; simp [Segment.neg]
    have e' : (sp.pathControls (sp.dubins s2 s1)).map seg =
        (post.map Segment.neg).reverse ++ c.neg :: (pre.map Segment.neg).reverse := by
      have := congrArg (fun l => (List.map Segment.neg l).reverse) e
      simp only [nn, List.reverse_reverse] at this
      rw [← this, hcs]
      simp
    rw [e'] at hp
    have sig : ∀ c' ∈ pre ++ c :: post, c'.sigma = 0 := by rw [← hcs]; exact hsig
    have sc : c.sigma = 0 := sig c (by simp)
    have sig1 : ∀ c' ∈ pre ++ [c.part r], c'.sigma = 0 := by
      intro c' h'
      rcases List.mem_append.1 h' with h | h
      · exact sig c' (by simp [h])
      · simp only [List.mem_singleton] at h; rw [h]; exact sc
    have sig2 : ∀ c' ∈ c.part (1 - r) :: post, c'.sigma = 0 := by
      intro c' h'
      rcases List.mem_cons.1 h' with h | h
      · rw [h]; exact sc
      · exact sig c' (by simp [h])
    have np : ∀ x, (c.part x).neg = c.neg.part x := by intro x; simp [Segment.part, Segment.neg]
    have key := replan_forwards (sp := ⟨sp.kappa, sp.discretization, true⟩) hv rfl s2 s1 m (r := 1 - r) (by linarith)
      (by linarith) hp (by
        have h2 := arriveAll_congr (cs := (c.part (1 - r) :: post).reverse.map Segment.neg) b2
        rw [arriveAll_back _ sig2] at h2
        simp only [List.reverse_cons, List.map_append, List.map_cons, List.map_nil, List.map_reverse, np] at h2
        exact h2.symm) (by
        have h2 := arriveAll_congr (cs := (pre ++ [c.part r]).reverse.map Segment.neg) b1
        rw [arriveAll_back _ sig1] at h2
        simp only [List.reverse_append, List.reverse_cons, List.reverse_nil, List.nil_append, List.cons_append,
          List.map_cons, List.map_reverse, np] at h2
        rw [sub_sub_cancel]
        exact h2.symm)
    have l1 : totalLength ((post.map Segment.neg).reverse ++ [c.neg.part (1 - r)]) = totalLength (c.part (1 - r) :: post) := by
      rw [← totalLength_neg (c.part (1 - r) :: post)]
      simp only [List.reverse_cons, List.map_append, List.map_cons, List.map_nil, List.map_reverse, np]
    have l2 : totalLength (c.neg.part (1 - (1 - r)) :: (pre.map Segment.neg).reverse) = totalLength (pre ++ [c.part r]) := by
      rw [← totalLength_neg (pre ++ [c.part r]), sub_sub_cancel]
      simp only [List.reverse_append, List.reverse_cons, List.reverse_nil, List.nil_append, List.cons_append,
          List.map_cons, List.map_reverse, np]
    have g : ∀ t1 t2 : State, sp.get_distance t1 t2
        = (DubinsSpace.mk sp.kappa sp.discretization true).get_distance t2 t1 := by
      intro t1 t2
      simp only [DubinsSpace.get_distance, hfd, if_true, Bool.false_eq_true, if_false]
      rfl
    rw [l1, l2, ← g, ← g] at key
    exact ⟨key.2, key.1⟩

/-- **C107 is false** within the tolerance of `NearlyEqual`: a goal `6e-7` behind the car counts as `6e-7` ahead of it.
Having driven the whole plan, the car is `1.2e-6` ahead of the goal, and a new plan is not empty. -/
theorem C107_dubins_replan_false : ∃ (sp : DubinsSpace) (s1 s2 m : State) (s : ℝ) (a : Sample), sp.Valid ∧
    At ((sp.get_controls s1 s2).map seg) (pose s1) s a ∧ SameConfig (pose m) a.cfg ∧
    s = sp.get_distance s1 s2 ∧ sp.get_distance s1 s2 - s < sp.get_distance m s2 := by
  obtain ⟨e, he⟩ : ∃ e : ℝ, e = 6 / 10 ^ 7 := ⟨_, rfl⟩
  have he0 : 0 < e := by rw [he]; norm_num
  have hp : ((⟨1, 1, true⟩ : DubinsSpace).params ⟨0, 0, 0, 0, 0⟩ ⟨-e, 0, 0, 0, 0⟩).1 = e := by
    simp only [DubinsSpace.params]
    rw [show (-e - 0) * (-e - 0) + ((0:ℝ) - 0) * (0 - 0) = e ^ 2 by ring, sqrt_sq he0.le, mul_one]
  have hd : (⟨1, 1, true⟩ : DubinsSpace).dubins ⟨0, 0, 0, 0, 0⟩ ⟨-e, 0, 0, 0, 0⟩ = ⟨dubins_path_type 0, 0, e, 0⟩ := by
    unfold DubinsSpace.dubins SF.dubins
    rw [hp, if_pos]
    constructor
    · unfold DUBINS_EPS; rw [he]; norm_num
    · simp only [DubinsSpace.params, sub_self, abs_zero]; unfold DUBINS_EPS; norm_num
  have hl : (⟨1, 1, true⟩ : DubinsSpace).get_distance ⟨0, 0, 0, 0, 0⟩ ⟨-e, 0, 0, 0, 0⟩ = e := by
    simp [DubinsSpace.get_distance, hd, DubinsSpace.kappa_inv, DPath.length]
  refine ⟨⟨1, 1, true⟩, ⟨0, 0, 0, 0, 0⟩, ⟨-e, 0, 0, 0, 0⟩, ⟨e, 0, 0, 0, 0⟩, e, ⟨⟨e, 0, 0⟩, 0, 1⟩,
    ⟨one_pos, one_pos⟩, ?_, SameConfig.refl _, hl.symm, ?_⟩
  · simp only [DubinsSpace.get_controls, hd, if_true]
    rw [pathControls_seg]
    have h1 := At.later (c := ⟨0 / 1, (dubins_path_type 0).1.sign * 1, 0⟩)
      (cs := [⟨e / 1, (dubins_path_type 0).2.1.sign * 1, 0⟩, ⟨0 / 1, (dubins_path_type 0).2.2.sign * 1, 0⟩])
      (p := pose ⟨0, 0, 0, 0, 0⟩) (q := ⟨0, 0, 0⟩) (s := e) (a := ⟨⟨e, 0, 0⟩, 0, 1⟩) ?_ ?_
    · simpa using h1
    · rw [drives_iff]; simp [arrive_zero, pose]
    · refine At.here (m := ⟨e, 0, 0⟩) he0.le (by simp [abs_of_pos he0]) ?_ (SameConfig.refl _) (by simp [dubins_path_type, SegT.sign]) ?_
      · rw [drives_iff]
        have : (dubins_path_type 0).2.1.sign * 1 = 0 := by simp [dubins_path_type, SegT.sign]
        simp only [this, div_one, Segment.dir]
        rw [if_neg (not_lt.2 he0.le), arrive_line]
        simp
      · simp [Segment.dir, not_lt.2 he0.le]
  · rw [hl]
    have hx : dist2 ⟨e, 0, 0, 0, 0⟩ ⟨-e, 0, 0, 0, 0⟩ = 2 * e := by
      unfold dist2
      rw [show (-e - e) ^ 2 + ((0:ℝ) - 0) ^ 2 = (2 * e) ^ 2 by ring]; exact sqrt_sq (by linarith)
    have := (C20_dubins_bounds (sp := ⟨1, 1, true⟩) ⟨one_pos, one_pos⟩ ⟨e, 0, 0, 0, 0⟩ ⟨-e, 0, 0, 0, 0⟩ (by
      rw [hx, he]; norm_num)).1
    rw [hx, he] at this
    rw [he]
    norm_num at this ⊢
    linarith

/-- **C107, interpolate.** In terms of the API, for curvatures that `interpolate` resolves. -/
theorem C107_dubins_replan_interpolate_partial {sp : DubinsSpace} (hv : sp.Valid) (hk : sp.kappa > 1 / 10000) (junk : ℝ × ℝ)
    (s1 s2 : State) (hfar : sp.kappa * dist2 s1 s2 ≤ 10 ^ 200) (hne : ¬ NearlyEqual sp.kappa s1 s2)
    (hz : ¬ NearlyTangent sp.kappa s1 s2) (t : ℝ) (h0 : 0 < t) (h1 : t ≤ 1) :
    let m := interpolate sp.discretization junk s1 (sp.get_controls s1 s2) t
    sp.get_distance s1 m ≤ t * sp.get_distance s1 s2 ∧
      sp.get_distance m s2 ≤ (1 - t) * sp.get_distance s1 s2 := by
  intro m
  have hc := C17_dubins_controls hv s1 s2 hfar
  have hd := C16_dubins_distance hv s1 s2 hfar
  have hat := C13_interpolate hv.2 junk s1 (sp.get_controls s1 s2) (by
      intro h; have := hc.1; rw [h] at this; simp at this) (by
      intro c hcm
      obtain ⟨a1, a2, -⟩ := hc.2 c hcm
      refine ⟨a2, a1.imp_right fun h => by rw [h]; exact hk⟩) t h0
  rw [min_eq_left h1, ← hd] at hat
  have := C107_dubins_replan_partial hv s1 s2 m hfar hne hz _ _ hat (SameConfig.refl _)
  exact ⟨this.1, by linarith [this.2]⟩

/-- The hypotheses of C107 hold, e.g., for a goal five turning radii ahead and three to the left. -/
example : (⟨1, 0.1, true⟩ : DubinsSpace).Valid ∧ ¬ NearlyEqual 1 ⟨0, 0, 0, 0, 0⟩ ⟨5, 3, 0, 0, 0⟩ ∧
    ¬ NearlyTangent 1 ⟨0, 0, 0, 0, 0⟩ ⟨5, 3, 0, 0, 0⟩ := by
  refine ⟨⟨one_pos, by norm_num⟩, ?_, ?_⟩
  · rintro ⟨h, -⟩
    have h1 : (5:ℝ) ≤ dist2 ⟨0, 0, 0, 0, 0⟩ ⟨5, 3, 0, 0, 0⟩ := by
      unfold dist2; apply le_sqrt_of_sq_le; norm_num
    norm_num at h; linarith
  · rintro ⟨e, he, h1, h2⟩
    unfold crossDist2 at h2
    rcases he with rfl | rfl <;> norm_num at h2

/-- **C108.** The same for Reeds-Shepp, without exception for goals near tolerances; partial: every segment of the plan must
be empty or longer than ten machine epsilons (times the turning radius). -/
theorem C108_rs_replan_partial {sp : RSSpace} (hv : sp.Valid) (s1 s2 m : State)
    (hfar : sp.kappa * dist2 s1 s2 ≤ 10 ^ 200)
    (hcl : ∀ c ∈ sp.get_controls s1 s2, c.delta_s = 0 ∨ 10 / 2 ^ 52 < sp.kappa * |c.delta_s|) (s : ℝ) (a : Sample)
    (hs : At ((sp.get_controls s1 s2).map seg) (pose s1) s a) (hm : SameConfig (pose m) a.cfg) :
    sp.get_distance s1 m ≤ s ∧ sp.get_distance m s2 ≤ sp.get_distance s1 s2 - s := by
  have hk := hv.1
  have hr := C22_rs_reaches hv s1 s2 hfar
  have hd := C23_rs_distance hv s1 s2
  have hc := (C43_rs_controls hv s1 s2 hfar).2.2
  have hsig : ∀ c ∈ (sp.get_controls s1 s2).map seg, c.sigma = 0 := by
    intro c hcm
    obtain ⟨c', h', rfl⟩ := List.mem_map.1 hcm
    exact (hc c' h').2.1
  obtain ⟨pre, c, post, r, hcs, h0, h1, hs', hm', he⟩ := hs.split hsig
  obtain ⟨b1, b2⟩ := parts_reach hr (hm.trans hm') he
  have hl := parts_length (pre := pre) (post := post) (c := c) h0 h1
  -- the plan is a Reeds-Shepp path
  have hp : ReedsSheppPath sp.kappa ((sp.get_controls s1 s2).map seg) := by
    obtain ⟨⟨cand, hcand, ok, hpath⟩, -⟩ := rs_core hk hfar
    have e : (sp.get_controls s1 s2).map seg = wordSegs sp.kappa cand.path.word := by
      unfold RSSpace.get_controls
      rw [loop_seg, hpath]; rfl
    rw [e]
    apply cand_path hcand ok
    intro w hw
    have hmem : (⟨w.2 / sp.kappa, w.1 * sp.kappa, 0⟩ : Segment) ∈ (sp.get_controls s1 s2).map seg := by
      rw [e]; exact List.mem_map.2 ⟨w, hw, rfl⟩
    obtain ⟨c', h', e'⟩ := List.mem_map.1 hmem
    have e1 : c'.delta_s = w.2 / sp.kappa := congrArg Segment.len e'
    have f1 := hcl c' h'
    rw [e1] at f1
    have f3 : sp.kappa * |w.2 / sp.kappa| = |w.2| := by
      rw [abs_div, abs_of_pos hk]; field_simp
    rw [f3] at f1
    refine ⟨f1.imp (fun h => by simpa [hk.ne'] using h) (fun h => ?_), rsCands_arcs hcand w hw⟩
    unfold RS_ZERO; linarith
  rw [hcs] at hp
  obtain ⟨w1, d1, l1, e1⟩ := (hp.start h0 h1).reaches
  obtain ⟨w2, d2, l2, e2⟩ := (hp.rest (sub_nonneg.2 h1) (by linarith)).reaches
  rw [hd, hcs, ← hl, hs']
  constructor
  · rw [← l1]
    exact C25_rs_shortest hv s1 m w1 d1 ⟨_, drivesAll_iff.2 rfl, by rw [e1]; exact b1⟩
  · have := C25_rs_shortest hv m s2 w2 d2 ⟨_, drivesAll_iff.2 rfl, by rw [e2]; exact b2⟩
    linarith

/-- **C108, interpolate.** In terms of the API, for curvatures that `interpolate` resolves. -/
theorem C108_rs_replan_interpolate_partial {sp : RSSpace} (hv : sp.Valid) (hk : sp.kappa > 1 / 10000) (junk : ℝ × ℝ)
    (s1 s2 : State) (hfar : sp.kappa * dist2 s1 s2 ≤ 10 ^ 200)
    (hcl : ∀ c ∈ sp.get_controls s1 s2, c.delta_s = 0 ∨ 10 / 2 ^ 52 < sp.kappa * |c.delta_s|) (t : ℝ) (h0 : 0 < t) (h1 : t ≤ 1) :
    let m := interpolate sp.discretization junk s1 (sp.get_controls s1 s2) t
    sp.get_distance s1 m ≤ t * sp.get_distance s1 s2 ∧
      sp.get_distance m s2 ≤ (1 - t) * sp.get_distance s1 s2 := by
  intro m
  have hc := C43_rs_controls hv s1 s2 hfar
  have hd := C23_rs_distance hv s1 s2
  have hat := C13_interpolate hv.2 junk s1 (sp.get_controls s1 s2) (by
      intro h; have := hc.1; rw [h] at this; simp at this) (by
      intro c hcm
      obtain ⟨a1, a2, -⟩ := hc.2.2 c hcm
      refine ⟨a2, a1.imp_right fun h => by rw [h]; exact hk⟩) t h0
  rw [min_eq_left h1, ← hd] at hat
  have := C108_rs_replan_partial hv s1 s2 m hfar hcl _ _ hat (SameConfig.refl _)
  exact ⟨this.1, by linarith [this.2]⟩

/-- The hypotheses of C108 hold, e.g., for a goal five turning radii ahead: the planner returns two empty turns and a straight. -/
example : (⟨1, 0.1⟩ : RSSpace).Valid ∧ ∀ c ∈ (⟨1, 0.1⟩ : RSSpace).get_controls ⟨0, 0, 0, 0, 0⟩ ⟨5, 0, 0, 0, 0⟩,
    c.delta_s = 0 ∨ 10 / 2 ^ 52 < (1:ℝ) * |c.delta_s| := by
  refine ⟨⟨one_pos, by norm_num⟩, ?_⟩
  have hp : (⟨1, 0.1⟩ : RSSpace).params ⟨0, 0, 0, 0, 0⟩ ⟨5, 0, 0, 0, 0⟩ = (5, 0, 0) := by
    simp [RSSpace.params]
  have hb : (5:ℝ) < dblMax := lt_trans (lt_of_lt_of_le (by norm_num : (5:ℝ) < 10 ^ 1)
    (pow_le_pow_right₀ (by norm_num) (by norm_num))) dblMax_large
  have e : (⟨1, 0.1⟩ : RSSpace).reeds_shepp ⟨0, 0, 0, 0, 0⟩ ⟨5, 0, 0, 0, 0⟩ = ⟨reeds_shepp_path_type 14, 0, 5, 0, 0, 0⟩ := by
    unfold RSSpace.reeds_shepp
    rw [hp]
    exact reeds_shepp_ahead (by norm_num) hb
  unfold RSSpace.get_controls
  rw [e]
  intro c hc
  simp [RSPath.segs, reeds_shepp_path_type, RSSpace.loop, RSSpace.kappa_inv] at hc
  rcases hc with rfl | rfl | rfl
  · simp
  · norm_num
  · simp

end Props
