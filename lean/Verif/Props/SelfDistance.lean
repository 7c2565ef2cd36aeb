import Verif.Lemmas.HcCompareAll
import Verif.Lemmas.Entry
import Verif.Lemmas.HcNonneg
import Verif.Props.Dispatch
import Verif.Props.ReedsShepp
import Verif.Props.Dubins
import Verif.Props.CcDubinsAll
import Verif.Props.HcReedsSheppAll
import Verif.Props.StraightGoal

/-!
# From a state to itself: C138
-/

noncomputable section

namespace Props

open SF Spec Real

variable {sp : HCSpace} {junk : ℝ}

theorem dist2_self (s : State) : dist2 s s = 0 := by simp [dist2]

theorem state_equal_self (s : State) : state_equal s s := by
  have h0 : ¬ (0:ℝ) > epsilon := by norm_num [epsilon]
  have hd : point_distance s.x s.y s.x s.y = 0 := by simp [point_distance]
  unfold state_equal
  rw [sub_self, sub_self, abs_zero, hd, if_neg h0, if_neg h0, if_neg h0]
  trivial

/-- **C138, Reeds-Shepp.** -/
theorem C138_rs {sp : RSSpace} (hv : sp.Valid) (s : State) :
    sp.get_distance s s = 0 ∧ ∀ c ∈ sp.get_controls s s, c.delta_s = 0 := by
  have h0 : sp.get_distance s s = 0 :=
    (C46_rs_zero_iff hv s s (by rw [dist2_self]; norm_num)).2 ⟨rfl, rfl, 0, by simp⟩
  refine ⟨h0, fun c hc => ?_⟩
  have h := C23_rs_distance hv s s
  rw [h0, totalLength] at h
  have := List.single_le_sum (l := ((sp.get_controls s s).map seg).map fun c => |c.len|)
    (by intro x hx; obtain ⟨y, -, rfl⟩ := List.mem_map.1 hx; exact abs_nonneg _) |c.delta_s|
    (List.mem_map.2 ⟨seg c, List.mem_map.2 ⟨c, hc, rfl⟩, rfl⟩)
  rw [← h] at this
  exact abs_eq_zero.1 (le_antisymm this (abs_nonneg _))

/-- **C138, Dubins.** -/
theorem C138_dubins {sp : DubinsSpace} (s : State) :
    sp.get_distance s s = 0 ∧ ∀ c ∈ sp.get_controls s s, c.delta_s = 0 := by
  have h : sp.dubins s s = ⟨dubins_path_type 0, 0, 0, 0⟩ := by
    have hp : (sp.params s s).1 = 0 := by simp [DubinsSpace.params]
    have hb : (sp.params s s).2.1 = (sp.params s s).2.2 := rfl
    unfold DubinsSpace.dubins SF.dubins
    rw [hp, hb, sub_self, abs_zero, if_pos (by norm_num [DUBINS_EPS])]
  constructor
  · unfold DubinsSpace.get_distance; rw [h]; simp [DPath.length]
  · unfold DubinsSpace.get_controls; rw [h]
    split_ifs <;> simp [DubinsSpace.pathControls, DubinsSpace.control, dubins_path_type]

/-- **C138, CC00-Dubins.** -/
theorem C138_cc00 (s : State) : CC00.get_distance sp s s = 0 ∧ CC00.get_controls sp s s = some [⟨0, 0, 0⟩] :=
  Spec.CC00.equal_plan sp (state_equal_self s)

/-- **C138, CCpmpm-Dubins.** -/
theorem C138_ccpmpm (s : State) : CCpmpm.get_distance sp s s = some 0 ∧ CCpmpm.get_controls sp s s = some [⟨0, 0, 0⟩] :=
  Spec.CCpmpm.equal_plan sp (state_equal_self s) Iff.rfl

/-- **C138, HC00- and HCpmpm-Reeds-Shepp.** -/
theorem C138_hc_fixed (pm : Bool) (s : State) :
    HcRs.get_distance pm pm sp s s = some 0 ∧ HcRs.get_controls pm pm sp s s = some [⟨0, 0, 0⟩] :=
  Spec.HcRs.equal_plan pm sp (state_equal_self s) Iff.rfl

/-- **C138, CC00-Reeds-Shepp.** -/
theorem C138_cc00_rs (s : State) : CcRs.get_distance sp s s = 0 ∧ CcRs.get_controls sp s s = some [⟨0, 0, 0⟩] := by
  have hpath : ∀ n, ∃ p : Prop, ¬ p ∧ CcRs.path sp s s n = ⟨hc_cc_rs.E, { length := 0 }, p⟩ := by
    intro n
    set c1 := CcRs.end_circle sp s (n / 4) with h1
    set c2 := CcRs.end_circle sp s (n % 4) with h2
    have he : configuration_equal c1.start c2.start := by
      have h0 : ¬ (0:ℝ) > epsilon := by norm_num [epsilon]
      have a : c2.start = c1.start := rfl
      have hd : configuration_distance c1.start c1.start = 0 := by simp [configuration_distance, point_distance]
      unfold configuration_equal
      rw [a, sub_self, abs_zero, hd, if_neg h0, if_neg h0]
      trivial
    have hs : CcRs.shortcut c1 c2 = some (hc_cc_rs.E, { length := 0 }) := by
      unfold CcRs.shortcut; rw [if_pos he]
    have ht : ∀ i, CcRs.table sp (scratch c1 c2) c1 c2 i = if i = hc_cc_rs.E then { length := 0 } else {} := by
      intro i; unfold CcRs.table; rw [hs]
    have hb : array_index_min (fun i => (CcRs.table sp (scratch c1 c2) c1 c2 i).length) nb_hc_cc_rs_paths = hc_cc_rs.E := by
      refine Spec.StraightGoal.argmin_eq (by decide) fun j hj => ?_
      rw [ht, ht, if_pos rfl, if_neg hj]
      exact lt_trans (by positivity) dblMax_large
    refine ⟨hc_cc_rs.E = hc_cc_rs.TcT ∧ CcRs.TcT_lost c1 c2, fun hp => absurd hp.1 (by decide), ?_⟩
    change CcRs.circles_rs_path sp c1 c2 = _
    unfold CcRs.circles_rs_path
    simp only [hb]
    rw [ht, if_pos rfl]
  obtain ⟨p, hp, e⟩ := hpath (array_index_min (fun n => (CcRs.path sp s s n).length) 16)
  unfold CcRs.get_distance CcRs.get_controls CcRs.reeds_shepp
  rw [e]
  refine ⟨rfl, ?_⟩
  unfold CcRs.path_controls
  rw [if_neg hp, if_pos rfl]
  rfl

theorem mem_pairs {as bs : List Predicted} {p : Predicted × Predicted} :
    p ∈ pairs as bs ↔ p.1 ∈ as ∧ p.2 ∈ bs := by
  unfold pairs
  simp only [List.mem_flatMap, List.mem_map]
  constructor
  · rintro ⟨a, ha, b, hb, rfl⟩; exact ⟨ha, hb⟩
  · rintro ⟨h1, h2⟩; exact ⟨p.1, h1, p.2, h2, rfl⟩

theorem predict_hc_ne (s : State) : ∃ a, a ∈ HC.predict_state sp junk s := by
  unfold HC.predict_state
  split_ifs
  · exact ⟨_, List.mem_singleton.2 rfl⟩
  · exact ⟨_, List.mem_cons_self⟩

theorem hc_min_nonneg (H : Rng sp.kappa sp.sigma) {s1 s2 : State} {x : ℝ} (h : HC.get_distance sp junk s1 s2 = some x) :
    0 ≤ x := by
  unfold HC.get_distance min_distance at h
  obtain ⟨l, hl, hx⟩ := Option.bind_eq_some_iff.1 h
  obtain ⟨p, -, e⟩ := mapM_inv hl (List.min?_eq_some_iff.1 hx).1
  unfold pair_distance at e
  by_cases hE : state_equal p.1.1 p.2.1
  · rw [if_pos hE] at e
    rw [← Option.some.inj e]; exact abs_nonneg _
  · rw [if_neg hE] at e
    obtain ⟨y, hy, rfl⟩ := Option.map_eq_some_iff.1 e
    have h0 : 0 ≤ y := by
      unfold SubPlanners.call HC.distance_planners at hy
      split_ifs at hy <;> exact hc_distance_nonneg H hy
    have a1 := abs_nonneg p.1.2.delta_s
    have a2 := abs_nonneg p.2.2.delta_s
    simp only
    split_ifs <;> linarith

/-- **C138, HC-Reeds-Shepp.** For every curvature of the state. -/
theorem C138_hc (h : InRange sp.kappa sp.sigma) (s : State) (hr : InReach sp s s) :
    HC.get_distance sp junk s s = some 0 ∧ ∀ cs, HC.IsControls sp junk s s cs → ∀ c ∈ cs, c.delta_s = 0 := by
  obtain ⟨a, ha⟩ := predict_hc_ne (sp := sp) (junk := junk) s
  have he := state_equal_self a.1
  constructor
  · obtain ⟨m, hm, _⟩ := (C78_hcrs_always (junk := junk) h s s hr).1
    have hz : pair_distance (HC.distance_planners sp) a a = some 0 := by
      unfold pair_distance; rw [if_pos he]; simp [subtract_control]
    rw [hm, le_antisymm (min_distance_le hm ha ha hz) (hc_min_nonneg h.rng hm)]
  · rintro cs ⟨l, hl, hcs, hmin⟩ c hc
    obtain ⟨y, hy, e⟩ := mapM_mem hl (mem_pairs.2 ⟨ha, ha⟩ : (a, a) ∈ _)
    have hz : controls_length y = 0 := by
      have : pair_controls (HC.controls_planners sp) a a = some [subtract_control a.2 a.2] := if_pos he
      obtain rfl := Option.some.inj (e.symm.trans this)
      simp [controls_length, subtract_control]
    have h0 := hmin y hy
    rw [hz] at h0
    have key : ∀ (cs : List Control) (x : ℝ), x ≤ cs.foldl (fun d c => d + |c.delta_s|) x ∧
        ∀ c ∈ cs, x + |c.delta_s| ≤ cs.foldl (fun d c => d + |c.delta_s|) x := by
      intro cs
      induction cs with
      | nil => intro x; simp
      | cons b bs ih =>
        intro x
        obtain ⟨i1, i2⟩ := ih (x + |b.delta_s|)
        simp only [List.foldl_cons]
        refine ⟨le_trans (by linarith [abs_nonneg b.delta_s]) i1, fun c hc => ?_⟩
        rcases List.mem_cons.1 hc with rfl | hc
        · exact i1
        · exact le_trans (by linarith [abs_nonneg b.delta_s]) (i2 c hc)
    have := (key cs 0).2 c hc
    unfold controls_length at h0
    exact abs_eq_zero.1 (le_antisymm (by linarith) (abs_nonneg _))

/-- The curvature of `s` is between zero and the maximum, and changing it to either takes at least `m`. -/
structure Between (sp : HCSpace) (m : ℝ) (s : State) : Prop where
  low : 1 / 10000 ≤ |s.kappa|
  high : 1 / 10000 ≤ sp.kappa - |s.kappa|
  to_zero : m ≤ |s.kappa| / sp.sigma
  to_max : m ≤ (sp.kappa - |s.kappa|) / sp.sigma

theorem Between.predict {m : ℝ} {s : State} (h : Between sp m s) {fw : Bool} {a : Predicted}
    (ha : a ∈ CC.predict_state sp junk s fw) : m ≤ (if fw then 1 else -1) * a.2.delta_s := by
  have hc : ¬ (|s.kappa| < epsilon ∨ sp.kappa - |s.kappa| < epsilon) := by
    have h1 := h.low
    have h2 := h.high
    unfold epsilon
    rintro (h3 | h3) <;> norm_num at h1 h2 h3 <;> linarith
  have hs : sgn s.kappa * s.kappa = |s.kappa| := Spec.sgn_mul_self s.kappa
  have h1 := h.to_zero
  have h2 := h.to_max
  rw [← hs] at h1 h2
  rw [CC.predict_state, if_neg hc] at ha
  cases fw
  · simp only [Bool.false_eq_true, if_false, List.map_cons, List.map_nil, List.mem_cons, List.not_mem_nil, or_false] at ha ⊢
    rcases ha with rfl | rfl
    · simp only [predicted]; rw [neg_div, neg_one_mul, neg_neg]; exact h2
    · simp only [predicted, neg_mul]; rw [neg_div, one_mul, neg_neg]; exact h1
  · simp only [if_true, List.map_cons, List.map_nil, List.mem_cons, List.not_mem_nil, or_false] at ha ⊢
    rcases ha with rfl | rfl
    · simp only [predicted]; rw [one_mul]; exact h2
    · simp only [predicted]; rw [one_mul]; exact h1

/-- **C138 fails for CC-Dubins for all states with a curvature in between.** Every path between two such states contains a change to
curvature zero or the maximum at the start and one from there at the goal, however close the states are, even if they are equal. -/
theorem C138_cc_false_all {m : ℝ} (hm : 1 / 10000 < m) {s1 s2 : State} (h1 : Between sp m s1) (h2 : Between sp m s2) :
    ∀ cs, CC.IsControls sp junk s1 s2 cs → 2 * m ≤ lengthOf cs := by
  rintro cs ⟨l, hl, hcs, -⟩
  obtain ⟨p, hp, e⟩ := mapM_inv hl hcs
  obtain ⟨ha, hb⟩ := mem_pairs.1 hp
  have la := h1.predict ha
  have lb := h2.predict hb
  have hle : ∀ (cs : List Control) (x : ℝ), x ≤ cs.foldl (fun d c => d + |c.delta_s|) x := by
    intro cs
    induction cs with
    | nil => intro x; simp
    | cons b bs ih => intro x; exact le_trans (by linarith [abs_nonneg b.delta_s]) (ih _)
  have both : m ≤ |p.1.2.delta_s| ∧ m ≤ |p.2.2.delta_s| ∧ 2 * m ≤ |p.1.2.delta_s - p.2.2.delta_s| := by
    cases hf : sp.forwards
    · rw [hf] at la lb
      simp only [Bool.not_false, Bool.false_eq_true, if_false, if_true] at la lb
      refine ⟨?_, ?_, ?_⟩
      · linarith [neg_le_abs p.1.2.delta_s]
      · linarith [le_abs_self p.2.2.delta_s]
      · linarith [neg_le_abs (p.1.2.delta_s - p.2.2.delta_s)]
    · rw [hf] at la lb
      simp only [Bool.not_true, Bool.false_eq_true, if_false, if_true] at la lb
      refine ⟨?_, ?_, ?_⟩
      · linarith [le_abs_self p.1.2.delta_s]
      · linarith [neg_le_abs p.2.2.delta_s]
      · linarith [le_abs_self (p.1.2.delta_s - p.2.2.delta_s)]
  obtain ⟨b1, b2, b3⟩ := both
  have he : epsilon < m := by unfold epsilon; norm_num at hm ⊢; exact hm
  rw [lengthOf, ← controls_length_eq]
  unfold pair_controls at e
  by_cases hE : state_equal p.1.1 p.2.1
  · rw [if_pos hE] at e
    obtain rfl := Option.some.inj e
    simp only [controls_length, subtract_control, List.foldl_cons, List.foldl_nil]
    linarith
  · rw [if_neg hE] at e
    obtain ⟨cs', -, rfl⟩ := Option.map_eq_some_iff.1 e
    have hpos : |p.1.2.delta_s| > epsilon := lt_of_lt_of_le he b1
    have hpos' : |p.2.2.delta_s| > epsilon := lt_of_lt_of_le he b2
    simp only [hpos, hpos', if_true]
    unfold controls_length
    simp only [List.cons_append, List.foldl_cons, List.foldl_append, List.foldl_nil, reverse_control]
    rw [abs_neg, zero_add]
    linarith [hle cs' |p.1.2.delta_s|]

theorem jmid_between : Between jsp (1 / 2) jmid := by
  have h12 : |jmid.kappa| = 1 / 2 := abs_of_pos (by norm_num [jmid])
  constructor <;> rw [h12] <;> norm_num [jsp]

/-- **C138 is false for CC-Dubins.** Planning forwards from a state with half of the maximum curvature to itself, the planner changes the
curvature to zero or to the maximum before it plans, and back from there afterwards: every path has length
at least 1 (the turning radius is 1). -/
theorem C138_cc_false : ∃ (sp : HCSpace) (s : State), InRange sp.kappa sp.sigma ∧ |s.kappa| < sp.kappa ∧ sp.kappa = 1 ∧
    (∃ y, CC.get_distance sp junk s s = some y ∧ 9 / 10 ≤ y) ∧ (∃ cs, CC.IsControls sp junk s s cs) ∧
      ∀ cs, CC.IsControls sp junk s s cs → 1 ≤ lengthOf cs := by
  have h : InRange jsp.kappa jsp.sigma := by constructor <;> norm_num [jsp]
  have hr : InReach jsp jmid jmid := by rw [InReach, dist2_self]; norm_num [jsp]
  have hlong : ∀ cs, CC.IsControls jsp junk jmid jmid cs → 1 ≤ lengthOf cs := fun cs hcs => by
    have := C138_cc_false_all (by norm_num) jmid_between jmid_between cs hcs
    linarith
  have hex := (C62_cc_always (junk := junk) h jmid jmid hr).2.1
  refine ⟨jsp, jmid, h, ?_, rfl, ?_, hex, hlong⟩
  · simp only [jmid, jsp]; rw [abs_of_pos (by norm_num)]; norm_num
  · obtain ⟨m, hm, hd⟩ := C61_cc_distance (junk := junk) h jmid jmid hr
    obtain ⟨cs, hcs⟩ := hex
    refine ⟨m, hm, ?_⟩
    have h1 := hlong cs hcs
    have h2 := (abs_le.1 (hd cs hcs)).2
    norm_num [radiusBound, jsp] at h2
    linarith

/-- **C138, CC-Dubins, states with curvature zero or the maximum curvature.** Missing: curvatures in between, where it is false. -/
theorem C138_cc_partial (hK : 1 / 10000 < sp.kappa) (s : State) (hk : s.kappa = 0 ∨ |s.kappa| = sp.kappa) :
    CC.get_distance sp junk s s = some 0 ∧ ∀ cs, CC.IsControls sp junk s s cs → driven cs = [] := by
  have fin : ∀ {I : List Control → Prop}, SameControls I (some [⟨0, 0, 0⟩]) → ∀ cs, I cs → driven cs = [] := by
    intro I h cs hcs
    obtain ⟨cs', e, hd⟩ := h.1 cs hcs
    rw [hd, ← Option.some.inj e]
    simp [driven]
  rcases hk with h0 | h1
  · obtain ⟨d, c⟩ := C109_cc_00 (sp := sp) (junk := junk) h0 h0
    rw [(C138_cc00 s).1] at d
    rw [(C138_cc00 s).2] at c
    exact ⟨d, fin c⟩
  · obtain ⟨d, c⟩ := C109_cc_pmpm (sp := sp) (junk := junk) hK h1 h1
    rw [(C138_ccpmpm s).1] at d
    rw [(C138_ccpmpm s).2] at c
    exact ⟨d, fin c⟩

/-- States to which the theorems apply. -/
example : InRange jsp.kappa jsp.sigma ∧ InReach jsp jmid jmid :=
  ⟨by constructor <;> norm_num [jsp], by rw [InReach, dist2_self]; norm_num [jsp]⟩

end Props
