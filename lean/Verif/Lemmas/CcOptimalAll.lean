import Verif.Lemmas.CcOptimalPlan
import Verif.Lemmas.HcSampling

/-!
# CC00-Dubins: the whole planner against the words
-/

noncomputable section

namespace Spec

open Real Props

theorem exists_sg {l : ℝ} (h : l = 1 ∨ l = -1) : ∃ b, l = sg b := by
  rcases h with rfl | rfl
  · exact ⟨true, by simp [sg]⟩
  · exact ⟨false, by simp [sg]⟩

/-- The ends of a driven path are not farther apart than it is long. -/
theorem libAll_dist (cs : List Segment) (p : Config) :
    (libAll cs p).dist p ≤ totalLength cs + pathTol cs := by
  have h1 := arriveAll_dist cs p
  have h2 := (libAll_near (cs := cs) (Near.of_same le_rfl (SameConfig.refl p))).1
  rw [Config.dist_eq] at *
  have : (libAll cs p).pos - p.pos = ((libAll cs p).pos - (arriveAll cs p).pos)
      + ((arriveAll cs p).pos - p.pos) := by ring
  rw [this]
  refine (norm_add_le _ _).trans ?_
  rw [norm_sub_rev (libAll cs p).pos]
  linarith

namespace CC00

open SF.CC00

variable {sp : SF.HCSpace} {s1 s2 : SF.State}

theorem dist_le_path (i j : ℕ) (hi : i < 2) (hj : j < 2) :
    get_distance sp s1 s2 ≤ (circles_dubins_path sp (start_circle sp (startOf s1) i)
      (end_circle sp (startOf s2) j)).length := by
  have h := (C04_array_index_min (fun n => (path sp s1 s2 n).length) 4 (by norm_num)).2.1 (2 * i + j) (by omega)
  refine h.trans (le_of_eq ?_)
  simp only [path_eq]
  rw [show (2 * i + j) / 2 = i by omega, show (2 * i + j) % 2 = j by omega]

/-- Number of the circle on a side. -/
def idx (b : Bool) : ℕ := if b then 0 else 1

theorem idx_lt (b : Bool) : idx b < 2 := by cases b <;> simp [idx]

theorem start_left (q : SF.Configuration) (b : Bool) : (start_circle sp q (idx b)).left = b := by
  cases b <;> simp [idx, start_circle, SF.circleAt]

theorem end_left (q : SF.Configuration) (b : Bool) : (end_circle sp q (idx b)).left = b := by
  cases b <;> simp [idx, end_circle, SF.circleAt]

/-- The goal is straight ahead. -/
def Ahead (sp : SF.HCSpace) (q1 q2 : SF.Configuration) : Prop :=
  (sp.forwards ∧ SF.configuration_aligned q1 q2) ∨ (¬ sp.forwards ∧ SF.configuration_aligned q2 q1)

theorem table_E {m : SF.Scratch} {c1 c2 : SF.Circle} (h : SF.configuration_equal c1.start c2.start) :
    (table sp m c1 c2 0).length = 0 := by
  unfold table; rw [if_pos h, set_same]

theorem table_S {m : SF.Scratch} {c1 c2 : SF.Circle} (hne : ¬ SF.configuration_equal c1.start c2.start)
    (h : Ahead sp c1.start c2.start) :
    (table sp m c1 c2 1).length = SF.configuration_distance c1.start c2.start := by
  unfold table
  rw [if_neg hne]
  by_cases h1 : sp.forwards ∧ SF.configuration_aligned c1.start c2.start
  · rw [if_pos h1, set_same]
  · have h2 := h.resolve_left h1
    rw [if_neg h1, if_pos h2, set_same]
    change SF.configuration_distance c2.start c1.start = _
    rw [configuration_distance_eq, configuration_distance_eq, norm_sub_rev]

theorem table_T {m : SF.Scratch} {c1 c2 : SF.Circle} (hne : ¬ SF.configuration_equal c1.start c2.start)
    (h : ¬ Ahead sp c1.start c2.start) (hon : SF.configuration_on_hc_cc_circle c1 c2.start) :
    (table sp m c1 c2 2).length = c1.cc_turn_length c2.start := by
  unfold table
  rw [if_neg hne, if_neg (fun h' => h (Or.inl h')), if_neg (fun h' => h (Or.inr h')), if_pos hon, set_same]

theorem dist_equal (h : SF.configuration_equal (startOf s1) (startOf s2)) : get_distance sp s1 s2 ≤ 0 := by
  refine (dist_le_path 0 0 (by norm_num) (by norm_num)).trans ?_
  refine (body_le sp _ _ _ (i := 0) (by norm_num)).trans (le_of_eq (table_E h))

theorem dist_ahead (hne : ¬ SF.configuration_equal (startOf s1) (startOf s2))
    (h : Ahead sp (startOf s1) (startOf s2)) : get_distance sp s1 s2 ≤ dist2 s1 s2 := by
  refine (dist_le_path 0 0 (by norm_num) (by norm_num)).trans ?_
  exact (body_le sp _ _ _ (i := 1) (by norm_num)).trans (le_of_eq (table_S hne h))

theorem dist2_eq : (pose s2).dist (pose s1) = dist2 s1 s2 := rfl

theorem word_split {k s : ℝ} (hk : k > SF.epsilon) (hs : 0 < s) (hl : k / s > SF.epsilon) {d : Bool}
    {cs : List Segment} (hw : CCWord k s (sg d) cs) (p g : Config)
    (he : SameConfig (libAll cs p) g) :
    (∃ l1 l2 q1 q2 x L1 L2, Turned true k s l1 d p q1 L1 ∧ Turned true k s l2 d q2 g L2 ∧ 0 ≤ x ∧
      q2.pos = q1.pos + cis q1.theta * ((sg d * x : ℝ) : ℂ) ∧ AngleEq q2.theta q1.theta ∧
      totalLength cs = L1 + x + L2) ∨
    (∃ l q1 q2 L1 L2 L3, Turned true k s l d p q1 L1 ∧ Turned true k s (!l) d q1 q2 L2 ∧ Turned true k s l d q2 g L3 ∧
      totalLength cs = L1 + L2 + L3) := by
  cases hw with
  | @tst l1 l2 x w1 w2 hl1 hl2 h1 hx h2 =>
    obtain ⟨b1, rfl⟩ := exists_sg hl1
    obtain ⟨b2, rfl⟩ := exists_sg hl2
    rw [libAll_append, libAll_append] at he
    obtain ⟨e1, e2⟩ := lib_line (len := sg d * x) (libAll w1 p)
    left
    refine ⟨b1, b2, libAll w1 p, libArrive ⟨sg d * x, 0, 0⟩ (libAll w1 p), x, totalLength w1, totalLength w2,
      ccTurn_turned hk hs hl b1 d h1 p, ?_, hx, e1, AngleEq.of_eq e2, ?_⟩
    · exact (ccTurn_turned hk hs hl b2 d h2 _).congr (SameConfig.refl _) he
    · rw [totalLength_append, totalLength_append]
      simp only [totalLength, List.map_cons, List.map_nil, List.sum_cons, List.sum_nil,
        abs_pm_mul (sg_pm d) hx, add_zero]
  | @tt l w1 w2 hl1 h1 h2 =>
    obtain ⟨b, rfl⟩ := exists_sg hl1
    rw [← sg_not] at h2
    rw [libAll_append] at he
    left
    refine ⟨b, !b, libAll w1 p, libAll w1 p, 0, totalLength w1, totalLength w2,
      ccTurn_turned hk hs hl b d h1 p, ?_, le_rfl, by simp, AngleEq.refl _, ?_⟩
    · exact (ccTurn_turned hk hs hl (!b) d h2 _).congr (SameConfig.refl _) he
    · rw [totalLength_append, add_zero]
  | @ttt l w1 w2 w3 hl1 h1 h2 h3 =>
    obtain ⟨b, rfl⟩ := exists_sg hl1
    rw [← sg_not] at h2
    rw [libAll_append, libAll_append] at he
    right
    refine ⟨b, libAll w1 p, libAll w2 (libAll w1 p), totalLength w1, totalLength w2, totalLength w3,
      ccTurn_turned hk hs hl b d h1 p, ccTurn_turned hk hs hl (!b) d h2 _,
      (ccTurn_turned hk hs hl b d h3 _).congr (SameConfig.refl _) he, ?_⟩
    rw [totalLength_append, totalLength_append]

theorem word_le (hk : sp.kappa > SF.epsilon) (hs : 0 < sp.sigma) (hl : sp.kappa / sp.sigma > SF.epsilon)
    {cs : List Segment} (hw : CCWord sp.kappa sp.sigma (sg sp.forwards) cs)
    (he : SameConfig (libAll cs (pose s1)) (pose s2))
    (hoff : ∀ i, ¬ SF.configuration_on_hc_cc_circle (start_circle sp (startOf s1) i) (startOf s2))
    (hA : ¬ Ahead sp (startOf s1) (startOf s2)) : get_distance sp s1 s2 ≤ totalLength cs := by
  have hlen0 : 0 ≤ totalLength cs := by
    unfold totalLength; apply List.sum_nonneg; intro x hx
    obtain ⟨c, _, rfl⟩ := List.mem_map.1 hx; exact abs_nonneg _
  by_cases hE : SF.configuration_equal (startOf s1) (startOf s2)
  · exact (dist_equal hE).trans hlen0
  have hcl : ∀ i j, Clear sp (start_circle sp (startOf s1) i) (end_circle sp (startOf s2) j) := fun i j =>
    ⟨hE, fun h => hA (Or.inl h), fun h => hA (Or.inr h), hoff i⟩
  have g1 := (cfg_startOf s1).symm
  have g2 := (cfg_startOf s2).symm
  rcases word_split hk hs hl hw _ _ he with ⟨l1, l2, q1, q2, x, L1, L2, t1, t2, hx, hq, hqt, e⟩ |
    ⟨l, q1, q2, L1, L2, L3, t1, t2, t3, e⟩
  · rw [e]
    refine (dist_le_path (idx l1) (idx l2) (idx_lt _) (idx_lt _)).trans ?_
    have t1' := t1.congr g1 (SameConfig.refl _)
    have t2' := t2.congr (SameConfig.refl _) g2
    rw [← start_left (sp := sp) (startOf s1) l1] at t1'
    rw [← end_left (sp := sp) (startOf s2) l2] at t2'
    exact tst_le hk hs hl (start_circle_ok hk hs hl _ _) (end_circle_ok hk hs hl _ _) rfl rfl rfl (hcl _ _)
      t1' t2' hx hq hqt
  · rw [e]
    refine (dist_le_path (idx l) (idx l) (idx_lt _) (idx_lt _)).trans ?_
    have t1' := t1.congr g1 (SameConfig.refl _)
    have t3' := t3.congr (SameConfig.refl _) g2
    have c1ok := start_circle_ok (sp := sp) hk hs hl (startOf s1) (idx l)
    have c2ok := end_circle_ok (sp := sp) hk hs hl (startOf s2) (idx l)
    have hl1 := start_left (sp := sp) (startOf s1) l
    have hl2 := end_left (sp := sp) (startOf s2) l
    refine ttt_le hk hs hl c1ok c2ok rfl (by rw [hl1, hl2]) rfl rfl (hcl _ _) ?_ (q1 := q1) (q2 := q2)
      (by rw [hl1]; exact t1') (by rw [hl1]; exact t2) (by rw [hl1]; exact t3')
    intro hc
    refine hoff (idx l) (on_circle c1ok.ok hk hs hl (SF.twopify_nonneg _) (SF.twopify_lt _) ?_)
    rw [hc, c2ok.cen, hl1, hl2]
    change _ = Spec.cen (sg (!sp.forwards) * _) _ _
    rw [sg_not, neg_mul]; rfl

theorem word_le_tol (hk : sp.kappa > SF.epsilon) (hs : 0 < sp.sigma) (hl : sp.kappa / sp.sigma > SF.epsilon)
    {cs : List Segment} (hw : CCWord sp.kappa sp.sigma (sg sp.forwards) cs)
    (he : SameConfig (libAll cs (pose s1)) (pose s2))
    (hoff : ∀ i, ¬ SF.configuration_on_hc_cc_circle (start_circle sp (startOf s1) i) (startOf s2)) :
    get_distance sp s1 s2 ≤ totalLength cs + pathTol cs := by
  by_cases hA : Ahead sp (startOf s1) (startOf s2)
  · have h0 := libAll_dist cs (pose s1)
    have : (libAll cs (pose s1)).dist (pose s1) = dist2 s1 s2 := by
      rw [← dist2_eq, Config.dist_eq, Config.dist_eq, (sameConfig_iff.1 he).1]
    rw [this] at h0
    by_cases hE : SF.configuration_equal (startOf s1) (startOf s2)
    · exact (dist_equal hE).trans (le_trans (sqrt_nonneg _) h0)
    · exact (dist_ahead hE hA).trans h0
  · have := word_le hk hs hl hw he hoff hA
    linarith [pathTol_nonneg cs]

/-- A single turn. -/
theorem turn_le (hk : sp.kappa > SF.epsilon) (hs : 0 < sp.sigma) (hl : sp.kappa / sp.sigma > SF.epsilon)
    {cs : List Segment} {l : Bool} (hw : CCTurn sp.kappa sp.sigma (sg sp.forwards) (sg l) cs)
    (he : SameConfig (libAll cs (pose s1)) (pose s2)) :
    get_distance sp s1 s2 ≤ totalLength cs + pathTol cs ∧
    (¬ Ahead sp (startOf s1) (startOf s2) → get_distance sp s1 s2 ≤ totalLength cs) := by
  have t := (ccTurn_turned hk hs hl l sp.forwards hw (pose s1)).congr (cfg_startOf s1).symm
    (he.trans (cfg_startOf s2).symm)
  have h0 := libAll_dist cs (pose s1)
  have hd : (libAll cs (pose s1)).dist (pose s1) = dist2 s1 s2 := by
    rw [← dist2_eq, Config.dist_eq, Config.dist_eq, (sameConfig_iff.1 he).1]
  rw [hd] at h0
  have main : ¬ Ahead sp (startOf s1) (startOf s2) → get_distance sp s1 s2 ≤ totalLength cs := by
    intro hA
    by_cases hE : SF.configuration_equal (startOf s1) (startOf s2)
    · exact (dist_equal hE).trans t.nonneg
    have c1ok := start_circle_ok (sp := sp) hk hs hl (startOf s1) (idx l)
    have hl1 := start_left (sp := sp) (startOf s1) l
    have hon : SF.configuration_on_hc_cc_circle (start_circle sp (startOf s1) (idx l)) (startOf s2) := by
      refine on_circle c1ok.ok hk hs hl (SF.twopify_nonneg _) (SF.twopify_lt _) ?_
      rw [c1ok.cen, hl1]; exact t.cen
    refine (dist_le_path (idx l) 0 (idx_lt _) (by norm_num)).trans ?_
    have hT := table_T (sp := sp) (m := SF.scratch (start_circle sp (startOf s1) (idx l)) (end_circle sp (startOf s2) 0))
      (c1 := start_circle sp (startOf s1) (idx l)) (c2 := end_circle sp (startOf s2) 0) hE hA hon
    refine (body_le sp _ _ _ (i := 2) (by norm_num)).trans (hT.le.trans ?_)
    exact t.ahead _ _ c1ok.ok rfl hl1 rfl (SameConfig.refl _) (SameConfig.refl _)
  refine ⟨?_, main⟩
  by_cases hA : Ahead sp (startOf s1) (startOf s2)
  · by_cases hE : SF.configuration_equal (startOf s1) (startOf s2)
    · exact (dist_equal hE).trans (le_trans (sqrt_nonneg _) h0)
    · exact (dist_ahead hE hA).trans h0
  · linarith [main hA, pathTol_nonneg cs]

/-- A configuration straight ahead is recognised. -/
theorem aligned_of {x : ℝ} (hx0 : 0 < x) {q1 q2 : SF.Configuration} (ht : q2.theta = q1.theta) (h0 : 0 ≤ q1.theta)
    (h1 : q1.theta < 2 * π) (hp : (cfg q2).pos = (cfg q1).pos + cis q1.theta * (x : ℂ)) :
    SF.configuration_aligned q1 q2 := by
  unfold SF.configuration_aligned
  rw [if_neg (by rw [ht, sub_self]; norm_num [SF.epsilon])]
  have : SF.atan2 (q2.y - q1.y) (q2.x - q1.x) = Complex.arg ((cfg q2).pos - (cfg q1).pos) := rfl
  simp only
  rw [this, hp, add_sub_cancel_left]
  have hang : AngleEq (Complex.arg (cis q1.theta * (x : ℂ))) q1.theta := by
    apply cis_inj
    have := norm_mul_cis_arg (cis q1.theta * (x : ℂ))
    rw [norm_cis_mul, Complex.norm_real, Real.norm_eq_abs, abs_of_pos hx0, mul_comm] at this
    exact mul_right_cancel₀ (by exact_mod_cast hx0.ne') this
  rw [SF.twopify_congr hang, SF.twopify_of_mem h0 h1, sub_self]
  norm_num [SF.epsilon]

/-- A straight line. -/
theorem line_le {x : ℝ} (hx : 0 ≤ x)
    (he : SameConfig (libAll [⟨sg sp.forwards * x, 0, 0⟩] (pose s1)) (pose s2)) :
    get_distance sp s1 s2 ≤ x := by
  obtain ⟨e1, e2⟩ := lib_line (len := sg sp.forwards * x) (pose s1)
  have he' := sameConfig_iff.1 he
  simp only [libAll] at he'
  rw [e1, e2] at he'
  have hth : (startOf s2).theta = (startOf s1).theta := SF.twopify_congr he'.2.symm
  have hpos : (cfg (startOf s2)).pos = (cfg (startOf s1)).pos
      + cis (startOf s1).theta * ((sg sp.forwards * x : ℝ) : ℂ) := by
    change (pose s2).pos = (pose s1).pos + _
    rw [← he'.1]
    congr 2
    exact (cis_twopify _).symm
  have hd : dist2 s1 s2 = x := by
    rw [← dist2_eq, Config.dist_eq, ← he'.1, add_sub_cancel_left, norm_cis_mul, Complex.norm_real, Real.norm_eq_abs,
      abs_pm_mul (sg_pm _) hx]
  by_cases hE : SF.configuration_equal (startOf s1) (startOf s2)
  · exact (dist_equal hE).trans hx
  have hx0 : 0 < x := by
    rcases hx.lt_or_eq with h | h
    · exact h
    · exfalso; apply hE
      unfold SF.configuration_equal
      rw [if_neg (by rw [hth, sub_self]; norm_num [SF.epsilon]), if_neg]
      · trivial
      · change ¬ dist2 s1 s2 > _
        rw [hd, ← h]; norm_num [SF.epsilon]
  rw [← hd]
  refine dist_ahead hE ?_
  cases hf : sp.forwards
  · right
    refine ⟨by simp [hf], aligned_of hx0 hth.symm (SF.twopify_nonneg _) (SF.twopify_lt _) ?_⟩
    rw [hpos, hf, hth]; simp [sg]
  · left
    refine ⟨hf, aligned_of hx0 hth (SF.twopify_nonneg _) (SF.twopify_lt _) ?_⟩
    rw [hpos, hf]; simp [sg]

end CC00

end Spec
