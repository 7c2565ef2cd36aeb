import Verif.Lemmas.Tangent

/-!
# CC-Dubins with curvature at the ends: the paths found
-/

noncomputable section

namespace Spec

open Real Props
open CC00 (CircOk circOk_at)

/-- What is known of a path of type `t`. -/
inductive PlanOk (k s d k0 k1 : ℝ) (ts : List (SF.Circle × SF.Configuration)) (cs : List SF.Control)
    (p q : Config) (len : ℝ) : ℕ → Prop
  | empty (hc : cs = SF.empty_controls) (hw : Within SF.epsilon SF.epsilon p q) (hl : len = 0) :
      PlanOk k s d k0 k1 ts cs p q len 0
  | leg {t : ℕ} {E : ℝ} (ht : t ≠ 0) (hE : E ≤ SF.epsilon * (1 + 1 / k)) (h0 : t ≠ 2 → t ≠ 3 → E = 0)
      (hn : ts.length ≤ 3) (h : DLeg k s d k0 k1 ts E cs p q len) : PlanOk k s d k0 k1 ts cs p q len t

theorem eps_le {k : ℝ} (hk : 0 < k) : SF.epsilon ≤ SF.epsilon * (1 + 1 / k) := by
  have : (0:ℝ) ≤ SF.epsilon * (1 / k) := mul_nonneg (by norm_num [SF.epsilon]) (by positivity)
  linarith

theorem equal_within {q1 q2 : SF.Configuration} (h : SF.configuration_equal q1 q2) :
    Within SF.epsilon SF.epsilon (cfg q1) (cfg q2) := by
  unfold SF.configuration_equal at h
  split_ifs at h with ha hb
  push Not at ha hb
  refine ⟨?_, ⟨_, AngleEq.refl _, ?_⟩⟩
  · rw [Config.dist_comm, Config.dist_eq, ← configuration_distance_eq]; exact hb
  · rw [abs_sub_comm]; exact ha

namespace CC0pm

open SF.CC0pm

variable {sp : SF.HCSpace} (H : Rng sp.kappa sp.sigma) {c1 c2 : SF.Circle}
    (h1 : CircOk c1 sp.kappa sp.sigma) (hr1 : c1.regular = true)
    (hc1 : cstart sp.param c1 = c1) (h2 : RsOk c2 sp.kappa) (hf : c2.forward = !c1.forward)

/-- The result for the row `r` of type `t`. -/
def RowOk (sp : SF.HCSpace) (c1 c2 : SF.Circle) (t : ℕ) (r : SF.Row) : Prop :=
  ∃ cs, path_controls ⟨c1.start, c2.start, t, r⟩ = some cs ∧
    PlanOk sp.kappa sp.sigma (sg c1.forward) 0 (sg c2.left * sp.kappa) (turns t r) cs (cfg c1.start) (cfg c2.start)
      r.length t

include H h2 hf in
theorem last_leg {q : SF.Configuration} {e : ℝ} (ht : Tan sp.kappa sp.sigma c2 q e) :
    DLeg sp.kappa sp.sigma (sg c1.forward) 0 (sg c2.left * sp.kappa) [] e
      (SF.hc_turn_controls (cend sp.param q c2) (last c2) true) (cfg q) (cfg c2.start)
      ((cend sp.param q c2).hc_turn_length (last c2)) := by
  have := leg_last_rs H h2 ht (l := c2.left) (f := !c2.forward) rfl rfl
  rw [show -sg c2.forward = sg c1.forward by rw [hf, sg_not, neg_neg]] at this
  exact this

include H in
theorem zero_le : (0:ℝ) ≤ SF.epsilon * (1 + 1 / sp.kappa) := by
  have := H.pos
  have : (0:ℝ) < SF.epsilon := by norm_num [SF.epsilon]
  positivity

include H h1 hr1 hc1 h2 hf in
theorem line_ok {q : SF.Configuration × SF.Configuration} (hq : TanLine sp.kappa sp.sigma c1 c2 q) :
    RowOk sp c1 c2 4 (line_path sp.param q c1 c2) := by
  obtain ⟨T1, T2, S3, x, hx, _, S4⟩ := hq
  unfold line_path
  rw [hc1]
  refine ⟨_, rfl, .leg (E := 0) (by norm_num) (zero_le H) (fun _ _ => rfl) (by simp [turns]) ?_⟩
  exact (((leg_cc_to H h1 hr1 T1).append (leg_straight H (sg_pm _) hx S4 S3)).append
    (last_leg H h2 hf T2)).mono (by norm_num)

include H h1 hr1 hc1 h2 hf in
theorem TT_ok (h : TT_exists (SF.scratch c1 c2) c1 c2) : RowOk sp c1 c2 3 (TT_path sp.param c1 c2) := by
  obtain ⟨T1, T2⟩ := TT_tan h1.ok.geom hf h
  unfold TT_path
  simp only [hc1]
  refine ⟨_, rfl, .leg (E := SF.epsilon) (by norm_num) (eps_le H.pos) (fun _ h => absurd rfl h) (by simp [turns]) ?_⟩
  exact ((leg_cc_to H h1 hr1 T1).append (last_leg H h2 hf T2)).mono (by linarith)

include H h1 hr1 hc1 h2 hf in
theorem TST_ok (h : TST_exists (SF.scratch c1 c2) c1 c2) :
    RowOk sp c1 c2 4 (TST_path sp.param (SF.scratch c1 c2) c1 c2) := by
  unfold TST_path
  split_ifs with ha hb
  · exact line_ok H h1 hr1 hc1 h2 hf (TiST_tan h1.ok.geom hf H ha)
  · exact line_ok H h1 hr1 hc1 h2 hf (TeST_tan h1.ok.geom hf H hb)
  · exact absurd h (by simp [TST_exists, ha, hb])

include H h1 hr1 h2 hf in
/-- One of the two middle circles. -/
theorem TTT_leg (hlr : c2.left = c1.left) {tgt : SF.Circle} {x y : ℝ}
    (htgt : tgt = SF.circleCentered x y (!c1.left) c1.forward c1.regular sp.param)
    (hd : ‖(⟨x, y⟩ : ℂ) - center c1‖ = 2 * ccR sp.kappa sp.sigma ∧
      ‖center c2 - ⟨x, y⟩‖ = 2 * ccR sp.kappa sp.sigma)
    {qa qb : SF.Configuration} (hqa : qa = TT_tangent_circles c1 tgt) (hqb : qb = TT_tangent_circles tgt c2) :
    DLeg sp.kappa sp.sigma (sg c1.forward) 0 (sg c2.left * sp.kappa)
      [(c1, qa), (SF.circleAt qa (!c1.left) c1.forward true sp.param, qb)] 0
      (SF.cc_turn_controls c1 qa true
        ++ SF.cc_turn_controls (SF.circleAt qa (!c1.left) c1.forward true sp.param) qb true
        ++ SF.hc_turn_controls (cend sp.param qb c2) (last c2) true) (cfg c1.start) (cfg c2.start)
      (c1.cc_turn_length qa + (SF.circleAt qa (!c1.left) c1.forward true sp.param).cc_turn_length qb
        + (cend sp.param qb c2).hc_turn_length (last c2)) := by
  have hP := hc_param_ok H.kappa H.sigma H.clothoid
  have htok : CircleOk tgt sp.kappa sp.sigma (ccA sp.kappa sp.sigma) (ccB sp.kappa sp.sigma) := by
    rw [htgt]; exact circleCentered_ok hP _ _ _ _ _
  obtain ⟨T1, T2, T3⟩ := middle_tan H h1.ok.geom htok.geom ⟨rfl, rfl, rfl⟩ ⟨rfl, rfl, rfl⟩ hf hlr
    (by rw [htgt]; rfl) (by rw [htgt]; rfl) (by rw [htgt]; exact hd.1) (by rw [htgt]; exact hd.2) qa qb hqa hqb
  have L2 := leg_cc_to H (circOk_at H.kappa H.sigma H.clothoid qa (!c1.left) c1.forward true) rfl T2
  exact (((leg_cc_to H h1 hr1 T1).append L2).append (last_leg H h2 hf T3)).mono (by norm_num)

include H h1 hr1 hc1 h2 hf in
theorem TTT_ok (h : TTT_exists (SF.scratch c1 c2) c1 c2) :
    RowOk sp c1 c2 5 (TTT_path sp.param (SF.scratch c1 c2) c1 c2) := by
  unfold TTT_exists SF.CC00.TTT_exists at h
  split_ifs at h with hlr _
  push Not at hlr
  have hD : SF.center_distance c1 c2 ≤ 4 * ccR sp.kappa sp.sigma := by rw [← h1.ok.geom.ccR]; exact h
  have m1 := fun p hp => middle_center (p := p) hD 1 (by norm_num) hp
  have m2 := fun p hp => middle_center (p := p) hD (-1) (by norm_num) hp
  simp only [one_mul, neg_one_mul, ← h1.ok.geom.ccR] at m1 m2
  unfold TTT_path
  simp only [hc1]
  split_ifs with hlt
  · refine ⟨_, rfl, .leg (E := 0) (by norm_num) (zero_le H) (fun _ _ => rfl) (by simp [turns]) ?_⟩
    exact TTT_leg H h1 hr1 h2 hf hlr.symm rfl (h1.ok.geom.ccR ▸ m1 _ rfl) rfl rfl
  · refine ⟨_, rfl, .leg (E := 0) (by norm_num) (zero_le H) (fun _ _ => rfl) (by simp [turns]) ?_⟩
    exact TTT_leg H h1 hr1 h2 hf hlr.symm rfl (h1.ok.geom.ccR ▸ m2 _ rfl) rfl rfl

include H h1 hr1 h2 in
/-- One turn, between circles of the same sense. -/
theorem T_ok (h : (SF.scratch c1 c2).distance < SF.epsilon) (hlr : c2.left = c1.left) :
    DLeg sp.kappa sp.sigma (sg c1.forward) 0 (sg c2.left * sp.kappa) [] SF.epsilon
      (SF.hc_turn_controls c1 c2.start true) (cfg c1.start) (cfg c2.start) (c1.hc_turn_length c2.start) := by
  have := leg_hc_to H h1 hr1 (q := c2.start) (e := SF.epsilon)
    (by rw [← hlr, ← h2.cen, ← center_distance_eq]; exact h.le)
  rwa [← hlr] at this

include H h1 hr1 hc1 h2 hf in
/-- Every path found leads to its end, except a single turn of the wrong sense. -/
theorem found (hlt : (circles_dubins_path sp c1 c2).length < SF.dblMax) :
    ∃ t r, circles_dubins_path sp c1 c2 = ⟨c1.start, c2.start, t, r⟩ ∧
      ((t = 2 ∧ c2.left ≠ c1.left ∧ (SF.scratch c1 c2).distance < SF.epsilon ∧ r.cstart = some c1 ∧
          r.length = c1.hc_turn_length c2.start) ∨
        RowOk sp c1 c2 t r) := by
  classical
  obtain ⟨i, _, hb, _⟩ := best_entry (t := table sp (SF.scratch c1 c2) c1 c2) (n := SF.nb_cc_dubins_paths)
    (by norm_num [SF.nb_cc_dubins_paths]) c1.start c2.start
  refine ⟨i, _, hb, ?_⟩
  rw [circles_dubins_path, hb] at hlt
  change (table sp (SF.scratch c1 c2) c1 c2 i).length < SF.dblMax at hlt
  unfold table at hlt ⊢
  by_cases e1 : SF.configuration_equal c1.start c2.start
  · rw [if_pos e1] at hlt ⊢
    obtain rfl := single_entry hlt
    rw [set_same]
    exact .inr ⟨_, rfl, .empty rfl (equal_within e1) rfl⟩
  rw [if_neg e1] at hlt ⊢
  by_cases e2 : (SF.scratch c1 c2).distance < SF.epsilon
  · rw [if_pos e2, hc1] at hlt ⊢
    obtain rfl := single_entry hlt
    rw [set_same]
    by_cases hlr : c2.left = c1.left
    · right
      exact ⟨_, rfl, .leg (E := SF.epsilon) (by decide) (eps_le H.pos) (fun h _ => absurd rfl h)
        (by simp [turns, SF.cc_dubins.T]) (T_ok H h1 hr1 h2 e2 hlr)⟩
    · exact .inl ⟨rfl, hlr, e2, rfl, rfl⟩
  rw [if_neg e2] at hlt ⊢
  right
  rcases ite_set (TTT_exists (SF.scratch c1 c2) c1 c2) _ SF.cc_dubins.TTT
    (TTT_path sp.param (SF.scratch c1 c2) c1 c2) i with h | ⟨hx, rfl, h'⟩
  swap
  · rw [h']; exact TTT_ok H h1 hr1 hc1 h2 hf hx
  rw [h] at hlt ⊢
  rcases ite_set (TST_exists (SF.scratch c1 c2) c1 c2) _ SF.cc_dubins.TST
    (TST_path sp.param (SF.scratch c1 c2) c1 c2) i with h | ⟨hx, rfl, h'⟩
  swap
  · rw [h']; exact TST_ok H h1 hr1 hc1 h2 hf hx
  rw [h] at hlt ⊢
  rcases ite_set (TT_exists (SF.scratch c1 c2) c1 c2) _ SF.cc_dubins.TT
    (TT_path sp.param c1 c2) i with h | ⟨hx, rfl, h'⟩
  swap
  · rw [h']; exact TT_ok H h1 hr1 hc1 h2 hf hx
  rw [h, init_length] at hlt
  exact absurd hlt (lt_irrefl _)

end CC0pm

namespace CCpm0

open SF.CCpm0
open CC0pm (zero_le)

variable {sp : SF.HCSpace} (H : Rng sp.kappa sp.sigma) {c1 c2 : SF.Circle}
    (h1 : RsOk c1 sp.kappa) (h2 : CircOk c2 sp.kappa sp.sigma) (hr2 : c2.regular = true)
    (hc2 : cend sp.param c2 = c2) (hf : c2.forward = !c1.forward)

/-- The result for the row `r` of type `t`. -/
def RowOk (sp : SF.HCSpace) (c1 c2 : SF.Circle) (t : ℕ) (r : SF.Row) : Prop :=
  ∃ cs, path_controls ⟨c1.start, c2.start, t, r⟩ = some cs ∧
    PlanOk sp.kappa sp.sigma (sg c1.forward) (sg c1.left * sp.kappa) 0 (turns t r) cs (cfg c1.start) (cfg c2.start)
      r.length t

include H h1 in
theorem first_leg {q : SF.Configuration} {e : ℝ} (ht : Tan sp.kappa sp.sigma c1 q e) {l f : Bool}
    (hl : l = c1.left) (hf : f = !c1.forward) :
    DLeg sp.kappa sp.sigma (sg c1.forward) (sg c1.left * sp.kappa) 0 [] e
      (SF.hc_turn_controls (SF.circleAt q l f true sp.param) (first c1) false) (cfg c1.start) (cfg q)
      ((SF.circleAt q l f true sp.param).hc_turn_length (first c1)) :=
  leg_first_rs H h1 ht hl hf

include H h2 hr2 hf in
theorem last_leg {q : SF.Configuration} {e : ℝ} (ht : Tan sp.kappa sp.sigma c2 q e) :
    DLeg sp.kappa sp.sigma (sg c1.forward) 0 0 [(c2, q)] e
      (SF.cc_turn_controls c2 q false) (cfg q) (cfg c2.start) (c2.cc_turn_length q) := by
  have := leg_cc_from H h2 hr2 ht
  rwa [hf, sg_not, neg_neg] at this

include H h1 h2 hr2 hc2 hf in
theorem line_ok {q : SF.Configuration × SF.Configuration} (hq : TanLine sp.kappa sp.sigma c1 c2 q) :
    RowOk sp c1 c2 4 (line_path sp.param q c1 c2) := by
  obtain ⟨T1, T2, S3, x, hx, _, S4⟩ := hq
  unfold line_path
  rw [hc2]
  refine ⟨_, rfl, .leg (E := 0) (by norm_num) (zero_le H) (fun _ _ => rfl) (by simp [turns]) ?_⟩
  exact (((first_leg H h1 T1 rfl rfl).append (leg_straight H (sg_pm _) hx S4 S3)).append
    (last_leg H h2 hr2 hf T2)).mono (by norm_num)

include H h1 h2 hr2 hc2 hf in
theorem TT_ok (h : TT_exists (SF.scratch c1 c2) c1 c2) : RowOk sp c1 c2 3 (TT_path sp.param c1 c2) := by
  have hlr : c2.left = !c1.left := by
    unfold TT_exists SF.CC00.TT_exists at h
    split_ifs at h with hlr
    exact not_of_ne hlr
  obtain ⟨T1, T2⟩ := TT_tan (c1 := c1.reparam c2.toCircleParam) (h2.ok.geom.reparam c1) hf h
  unfold TT_path
  simp only [hc2]
  refine ⟨_, rfl, .leg (E := SF.epsilon) (by norm_num) (eps_le H.pos) (fun _ h => absurd rfl h) (by simp [turns]) ?_⟩
  exact ((first_leg H h1 T1 (by rw [hlr, Bool.not_not]) hf).append (last_leg H h2 hr2 hf T2)).mono (by linarith)

include H h1 h2 hr2 hc2 hf in
theorem TST_ok (h : TST_exists (SF.scratch c1 c2) c1 c2) :
    RowOk sp c1 c2 4 (TST_path sp.param (SF.scratch c1 c2) c1 c2) := by
  unfold TST_path
  split_ifs with ha hb
  · exact line_ok H h1 h2 hr2 hc2 hf
      (TiST_tan (c1 := c1.reparam c2.toCircleParam) (h2.ok.geom.reparam c1) hf H ha)
  · exact line_ok H h1 h2 hr2 hc2 hf
      (TeST_tan (c1 := c1.reparam c2.toCircleParam) (h2.ok.geom.reparam c1) hf H hb)
  · exact absurd h (by simp [TST_exists, ha, hb])

include H h1 h2 hr2 hf in
/-- One of the two middle circles. -/
theorem TTT_leg (hlr : c2.left = c1.left) {tgt : SF.Circle} {x y : ℝ}
    (htgt : tgt = SF.circleCentered x y (!c1.left) c1.forward c1.regular sp.param)
    (hd : ‖(⟨x, y⟩ : ℂ) - center c1‖ = 2 * ccR sp.kappa sp.sigma ∧
      ‖center c2 - ⟨x, y⟩‖ = 2 * ccR sp.kappa sp.sigma)
    {qa qb : SF.Configuration} (hqa : qa = TT_tangent_circles c1 tgt) (hqb : qb = TT_tangent_circles tgt c2) :
    DLeg sp.kappa sp.sigma (sg c1.forward) (sg c1.left * sp.kappa) 0
      [(SF.circleAt qa (!c1.left) c1.forward true sp.param, qb), (c2, qb)] 0
      (SF.hc_turn_controls (cstart sp.param qa c1) (first c1) false
        ++ SF.cc_turn_controls (SF.circleAt qa (!c1.left) c1.forward true sp.param) qb true
        ++ SF.cc_turn_controls c2 qb false) (cfg c1.start) (cfg c2.start)
      ((cstart sp.param qa c1).hc_turn_length (first c1)
        + (SF.circleAt qa (!c1.left) c1.forward true sp.param).cc_turn_length qb + c2.cc_turn_length qb) := by
  have hP := hc_param_ok H.kappa H.sigma H.clothoid
  have htok : CircleOk tgt sp.kappa sp.sigma (ccA sp.kappa sp.sigma) (ccB sp.kappa sp.sigma) := by
    rw [htgt]; exact circleCentered_ok hP _ _ _ _ _
  obtain ⟨T1, T2, T3⟩ := middle_tan H (c1 := c1) (c2 := c2) (tgt := tgt) (htok.geom.reparam c1)
    (h2.ok.geom.reparam tgt) ⟨rfl, rfl, rfl⟩ ⟨rfl, rfl, rfl⟩ hf hlr
    (by rw [htgt]; rfl) (by rw [htgt]; rfl) (by rw [htgt]; exact hd.1) (by rw [htgt]; exact hd.2) qa qb hqa hqb
  have L2 := leg_cc_to H (circOk_at H.kappa H.sigma H.clothoid qa (!c1.left) c1.forward true) rfl T2
  exact (((first_leg H h1 T1 rfl rfl).append L2).append (last_leg H h2 hr2 hf T3)).mono (by norm_num)

include H h1 h2 hr2 hc2 hf in
theorem TTT_ok (h : TTT_exists (SF.scratch c1 c2) c1 c2) :
    RowOk sp c1 c2 5 (TTT_path sp.param (SF.scratch c1 c2) c1 c2) := by
  unfold TTT_exists SF.CC00.TTT_exists at h
  split_ifs at h with hlr _
  push Not at hlr
  have hD : SF.center_distance c1 c2 ≤ 4 * ccR sp.kappa sp.sigma := by rw [← h2.ok.geom.ccR]; exact h
  have m1 := fun p hp => middle_center (p := p) hD 1 (by norm_num) hp
  have m2 := fun p hp => middle_center (p := p) hD (-1) (by norm_num) hp
  simp only [one_mul, neg_one_mul, ← h2.ok.geom.ccR] at m1 m2
  unfold TTT_path
  simp only [hc2]
  split_ifs with hlt
  · refine ⟨_, rfl, .leg (E := 0) (by norm_num) (zero_le H) (fun _ _ => rfl) (by simp [turns]) ?_⟩
    exact TTT_leg H h1 h2 hr2 hf hlr.symm rfl (h2.ok.geom.ccR ▸ m1 _ rfl) rfl rfl
  · refine ⟨_, rfl, .leg (E := 0) (by norm_num) (zero_le H) (fun _ _ => rfl) (by simp [turns]) ?_⟩
    exact TTT_leg H h1 h2 hr2 hf hlr.symm rfl (h2.ok.geom.ccR ▸ m2 _ rfl) rfl rfl

include H h1 h2 hr2 hf in
/-- One turn, between circles of the same sense. -/
theorem T_ok (h : (SF.scratch c1 c2).distance < SF.epsilon) (hlr : c2.left = c1.left) :
    DLeg sp.kappa sp.sigma (sg c1.forward) (sg c1.left * sp.kappa) 0 [] SF.epsilon
      (SF.hc_turn_controls c2 c1.start false) (cfg c1.start) (cfg c2.start) (c2.hc_turn_length c1.start) := by
  have := leg_hc_from H h2 hr2 (q := c1.start) (e := SF.epsilon)
    (by rw [hlr, ← h1.cen, norm_sub_rev, ← center_distance_eq]; exact h.le)
  rwa [hlr, hf, sg_not, neg_neg] at this

include H h1 h2 hr2 hc2 hf in
/-- Every path found leads to its end, except a single turn of the wrong sense. -/
theorem found (hlt : (circles_dubins_path sp c1 c2).length < SF.dblMax) :
    ∃ t r, circles_dubins_path sp c1 c2 = ⟨c1.start, c2.start, t, r⟩ ∧
      ((t = 2 ∧ c2.left ≠ c1.left ∧ (SF.scratch c1 c2).distance < SF.epsilon ∧ r.cend = some c2 ∧
          r.length = c2.hc_turn_length c1.start) ∨
        RowOk sp c1 c2 t r) := by
  classical
  obtain ⟨i, _, hb, _⟩ := best_entry (t := table sp (SF.scratch c1 c2) c1 c2) (n := SF.nb_cc_dubins_paths)
    (by norm_num [SF.nb_cc_dubins_paths]) c1.start c2.start
  refine ⟨i, _, hb, ?_⟩
  rw [circles_dubins_path, hb] at hlt
  change (table sp (SF.scratch c1 c2) c1 c2 i).length < SF.dblMax at hlt
  unfold table at hlt ⊢
  by_cases e1 : SF.configuration_equal c1.start c2.start
  · rw [if_pos e1] at hlt ⊢
    obtain rfl := single_entry hlt
    rw [set_same]
    exact .inr ⟨_, rfl, .empty rfl (equal_within e1) rfl⟩
  rw [if_neg e1] at hlt ⊢
  by_cases e2 : (SF.scratch c1 c2).distance < SF.epsilon
  · rw [if_pos e2, hc2] at hlt ⊢
    obtain rfl := single_entry hlt
    rw [set_same]
    by_cases hlr : c2.left = c1.left
    · right
      exact ⟨_, rfl, .leg (E := SF.epsilon) (by decide) (eps_le H.pos) (fun h _ => absurd rfl h)
        (by simp [turns, SF.cc_dubins.T]) (T_ok H h1 h2 hr2 hf e2 hlr)⟩
    · exact .inl ⟨rfl, hlr, e2, rfl, rfl⟩
  rw [if_neg e2] at hlt ⊢
  right
  rcases ite_set (TTT_exists (SF.scratch c1 c2) c1 c2) _ SF.cc_dubins.TTT
    (TTT_path sp.param (SF.scratch c1 c2) c1 c2) i with h | ⟨hx, rfl, h'⟩
  swap
  · rw [h']; exact TTT_ok H h1 h2 hr2 hc2 hf hx
  rw [h] at hlt ⊢
  rcases ite_set (TST_exists (SF.scratch c1 c2) c1 c2) _ SF.cc_dubins.TST
    (TST_path sp.param (SF.scratch c1 c2) c1 c2) i with h | ⟨hx, rfl, h'⟩
  swap
  · rw [h']; exact TST_ok H h1 h2 hr2 hc2 hf hx
  rw [h] at hlt ⊢
  rcases ite_set (TT_exists (SF.scratch c1 c2) c1 c2) _ SF.cc_dubins.TT
    (TT_path sp.param c1 c2) i with h | ⟨hx, rfl, h'⟩
  swap
  · rw [h']; exact TT_ok H h1 h2 hr2 hc2 hf hx
  rw [h, init_length] at hlt
  exact absurd hlt (lt_irrefl _)

end CCpm0

namespace CCpmpm

open SF.CCpmpm
open CC0pm (zero_le)
open CCpm0 (first_leg)

variable {sp : SF.HCSpace} (H : Rng sp.kappa sp.sigma) {c1 c2 : SF.Circle}
    (h1 : RsOk c1 sp.kappa) (h2 : RsOk c2 sp.kappa) (hr1 : c1.regular = true) (hf : c2.forward = !c1.forward)

/-- The result for the row `r` of type `t`. -/
def RowOk (sp : SF.HCSpace) (c1 c2 : SF.Circle) (t : ℕ) (r : SF.Row) : Prop :=
  ∃ cs, path_controls ⟨c1.start, c2.start, t, r⟩ = some cs ∧
    PlanOk sp.kappa sp.sigma (sg c1.forward) (sg c1.left * sp.kappa)
      (sg (if t = 2 then c1.left else c2.left) * sp.kappa) (turns t r) cs (cfg c1.start) (cfg c2.start) r.length t

include H h2 hf in
theorem last_leg {q : SF.Configuration} {e : ℝ} (ht : Tan sp.kappa sp.sigma c2 q e) :
    DLeg sp.kappa sp.sigma (sg c1.forward) 0 (sg c2.left * sp.kappa) [] e
      (SF.hc_turn_controls (cend sp.param q c2) (outer c2) true) (cfg q) (cfg c2.start)
      ((cend sp.param q c2).hc_turn_length (outer c2)) := CC0pm.last_leg H h2 hf ht

include H h1 h2 hf in
theorem line_ok {q : SF.Configuration × SF.Configuration} (hq : TanLine sp.kappa sp.sigma c1 c2 q) :
    RowOk sp c1 c2 4 (line_path sp.param q c1 c2) := by
  obtain ⟨T1, T2, S3, x, hx, _, S4⟩ := hq
  unfold line_path
  refine ⟨_, rfl, .leg (E := 0) (by norm_num) (zero_le H) (fun _ _ => rfl) (by simp [turns]) ?_⟩
  exact (((first_leg H h1 T1 rfl rfl).append (leg_straight H (sg_pm _) hx S4 S3)).append
    (last_leg H h2 hf T2)).mono (by norm_num)

include H h1 h2 hf in
theorem TT_ok (h : TT_exists sp.param (SF.scratch c1 c2) c1 c2) : RowOk sp c1 c2 3 (TT_path sp.param c1 c2) := by
  obtain ⟨T1, T2⟩ := TT_tan (c1 := c1.reparam sp.param) (geom_reparam H c1) hf h
  unfold TT_path
  refine ⟨_, rfl, .leg (E := SF.epsilon) (by norm_num) (eps_le H.pos) (fun _ h => absurd rfl h) (by simp [turns]) ?_⟩
  exact ((first_leg H h1 T1 rfl rfl).append (last_leg H h2 hf T2)).mono (by linarith)

include H h1 h2 hf in
theorem TST_ok (h : TST_exists sp.param (SF.scratch c1 c2) c1 c2) :
    RowOk sp c1 c2 4 (TST_path sp.param (SF.scratch c1 c2) c1 c2) := by
  unfold TST_path
  split_ifs with ha hb
  · exact line_ok H h1 h2 hf (TiST_tan (c1 := c1.reparam sp.param) (geom_reparam H c1) hf H ha)
  · exact line_ok H h1 h2 hf (TeST_tan (c1 := c1.reparam sp.param) (geom_reparam H c1) hf H hb)
  · exact absurd h (by simp [TST_exists, ha, hb])

include H h1 h2 hf in
/-- One of the two middle circles. -/
theorem TTT_leg (hlr : c2.left = c1.left) {tgt : SF.Circle} {x y : ℝ}
    (htgt : tgt = SF.circleCentered x y (!c1.left) c1.forward c1.regular sp.param)
    (hd : ‖(⟨x, y⟩ : ℂ) - center c1‖ = 2 * ccR sp.kappa sp.sigma ∧
      ‖center c2 - ⟨x, y⟩‖ = 2 * ccR sp.kappa sp.sigma)
    {qa qb : SF.Configuration} (hqa : qa = TT_tangent_circles sp.param c1 tgt)
    (hqb : qb = TT_tangent_circles sp.param tgt c2) :
    DLeg sp.kappa sp.sigma (sg c1.forward) (sg c1.left * sp.kappa) (sg c2.left * sp.kappa)
      [(SF.circleAt qa (!c1.left) c1.forward true sp.param, qb)] 0
      (SF.hc_turn_controls (cstart sp.param qa c1) (outer c1) false
        ++ SF.cc_turn_controls (SF.circleAt qa (!c1.left) c1.forward true sp.param) qb true
        ++ SF.hc_turn_controls (cend sp.param qb c2) (outer c2) true) (cfg c1.start) (cfg c2.start)
      ((cstart sp.param qa c1).hc_turn_length (outer c1)
        + (SF.circleAt qa (!c1.left) c1.forward true sp.param).cc_turn_length qb
        + (cend sp.param qb c2).hc_turn_length (outer c2)) := by
  obtain ⟨T1, T2, T3⟩ := middle_tan H (c1 := c1) (c2 := c2) (tgt := tgt) (geom_reparam H c1)
    (geom_reparam H tgt) ⟨rfl, rfl, rfl⟩ ⟨rfl, rfl, rfl⟩ hf hlr
    (by rw [htgt]; rfl) (by rw [htgt]; rfl) (by rw [htgt]; exact hd.1) (by rw [htgt]; exact hd.2) qa qb hqa hqb
  have L2 := leg_cc_to H (circOk_at H.kappa H.sigma H.clothoid qa (!c1.left) c1.forward true) rfl T2
  exact (((first_leg H h1 T1 rfl rfl).append L2).append (last_leg H h2 hf T3)).mono (by norm_num)

include H h1 h2 hf in
theorem TTT_ok (h : TTT_exists sp.param (SF.scratch c1 c2) c1 c2) :
    RowOk sp c1 c2 5 (TTT_path sp.param (SF.scratch c1 c2) c1 c2) := by
  unfold TTT_exists SF.CC00.TTT_exists at h
  split_ifs at h with hlr _
  push Not at hlr
  have hR : sp.param.radius = ccR sp.kappa sp.sigma := (hc_param_ok H.kappa H.sigma H.clothoid).radius
  have hD : SF.center_distance c1 c2 ≤ 4 * ccR sp.kappa sp.sigma := by rw [← hR]; exact h
  have m1 := fun p hp => middle_center (p := p) hD 1 (by norm_num) hp
  have m2 := fun p hp => middle_center (p := p) hD (-1) (by norm_num) hp
  simp only [one_mul, neg_one_mul, ← hR] at m1 m2
  unfold TTT_path
  simp only
  split_ifs with hlt
  · refine ⟨_, rfl, .leg (E := 0) (by norm_num) (zero_le H) (fun _ _ => rfl) (by simp [turns]) ?_⟩
    exact TTT_leg H h1 h2 hf hlr.symm rfl (hR ▸ m1 _ rfl) rfl rfl
  · refine ⟨_, rfl, .leg (E := 0) (by norm_num) (zero_le H) (fun _ _ => rfl) (by simp [turns]) ?_⟩
    exact TTT_leg H h1 h2 hf hlr.symm rfl (hR ▸ m2 _ rfl) rfl rfl

/-- The centres of the two middle circles. -/
theorem quad_dist {R D dx w : ℝ} (hR : 0 ≤ R) (hw : dx ^ 2 + w ^ 2 = (2 * R) ^ 2) (hdx : D - 2 * dx = 2 * R ∨ D - 2 * dx = -(2 * R))
    (g : ℝ) : ‖cis g * (⟨dx, w⟩ : ℂ)‖ = 2 * R ∧ ‖cis g * (⟨-dx, w⟩ : ℂ)‖ = 2 * R ∧
      ‖(D : ℂ) * cis g + cis g * (⟨-dx, w⟩ : ℂ) - cis g * (⟨dx, w⟩ : ℂ)‖ = 2 * R := by
  have h2 : 0 ≤ 2 * R := by linarith
  refine ⟨?_, ?_, ?_⟩
  · rw [norm_cis_mul, ← sqrt_eq_norm, hw, sqrt_sq h2]
  · rw [norm_cis_mul, ← sqrt_eq_norm, neg_sq, hw, sqrt_sq h2]
  · have : (D : ℂ) * cis g + cis g * (⟨-dx, w⟩ : ℂ) - cis g * (⟨dx, w⟩ : ℂ)
        = cis g * ((D - 2 * dx : ℝ) : ℂ) := by
      have e : (⟨-dx, w⟩ : ℂ) - ⟨dx, w⟩ = ((-2 * dx : ℝ) : ℂ) := by
        apply Complex.ext <;> simp; ring
      rw [add_sub_assoc, ← mul_sub, e]; push_cast; ring
    rw [this, norm_cis_mul, Complex.norm_real, Real.norm_eq_abs]
    rcases hdx with h | h <;> rw [h]
    · exact abs_of_nonneg h2
    · rw [abs_neg]; exact abs_of_nonneg h2

include H h1 h2 hf in
/-- One of the two pairs of middle circles. -/
theorem TTTT_leg (hlr : c2.left = !c1.left) {delta_y : ℝ}
    (hw : TTTT_delta_x sp.param (SF.scratch c1 c2) ^ 2 + delta_y ^ 2 = (2 * ccR sp.kappa sp.sigma) ^ 2)
    {qa qb qc : SF.Configuration}
    (hq : (qa, qb, qc) = TTTT_half sp.param (SF.scratch c1 c2) delta_y c1 c2) :
    DLeg sp.kappa sp.sigma (sg c1.forward) (sg c1.left * sp.kappa) (sg c2.left * sp.kappa)
      [(SF.circleAt qa (!c1.left) c1.forward true sp.param, qb),
        (SF.circleAt qc (!c2.left) c2.forward true sp.param, qb)] 0
      (SF.hc_turn_controls (cstart sp.param qa c1) (outer c1) false
        ++ SF.cc_turn_controls (SF.circleAt qa (!c1.left) c1.forward true sp.param) qb true
        ++ SF.cc_turn_controls (SF.circleAt qc (!c2.left) c2.forward true sp.param) qb false
        ++ SF.hc_turn_controls (cend sp.param qc c2) (outer c2) true) (cfg c1.start) (cfg c2.start)
      ((cstart sp.param qa c1).hc_turn_length (outer c1)
        + (SF.circleAt qa (!c1.left) c1.forward true sp.param).cc_turn_length qb
        + (SF.circleAt qc (!c2.left) c2.forward true sp.param).cc_turn_length qb
        + (cend sp.param qc c2).hc_turn_length (outer c2)) := by
  have hR : sp.param.radius = ccR sp.kappa sp.sigma := (hc_param_ok H.kappa H.sigma H.clothoid).radius
  have hdx : SF.center_distance c1 c2 - 2 * TTTT_delta_x sp.param (SF.scratch c1 c2) = 2 * ccR sp.kappa sp.sigma ∨
      SF.center_distance c1 c2 - 2 * TTTT_delta_x sp.param (SF.scratch c1 c2) = -(2 * ccR sp.kappa sp.sigma) := by
    unfold TTTT_delta_x
    simp only [hR]
    change SF.center_distance c1 c2 - _ = _ ∨ SF.center_distance c1 c2 - _ = _
    split_ifs
    · right; change SF.center_distance c1 c2 - 2 * ((SF.center_distance c1 c2 + _) / 2) = _; ring
    · left; change SF.center_distance c1 c2 - 2 * ((SF.center_distance c1 c2 - _) / 2) = _; ring
  obtain ⟨m1, m2, m3⟩ := quad_dist (ccR_nonneg _ _) hw hdx (SF.scratch c1 c2).angle
  have hpc := center_polar c1 c2
  change center c2 = center c1 + ((SF.center_distance c1 c2 : ℝ) : ℂ) * cis (SF.scratch c1 c2).angle at hpc
  have e1 : (⟨c1.xc, c1.yc⟩ : ℂ) = center c1 := rfl
  have e2 : (⟨c2.xc, c2.yc⟩ : ℂ) = center c2 := rfl
  unfold TTTT_half at hq
  simp only [Prod.mk.injEq] at hq
  obtain ⟨t1, ht1⟩ : ∃ t, t = SF.circleCentered
    (SF.global_frame_change c1.xc c1.yc (SF.scratch c1 c2).angle (TTTT_delta_x sp.param (SF.scratch c1 c2)) delta_y).1
    (SF.global_frame_change c1.xc c1.yc (SF.scratch c1 c2).angle (TTTT_delta_x sp.param (SF.scratch c1 c2)) delta_y).2
    (!c1.left) c1.forward c1.regular sp.param := ⟨_, rfl⟩
  obtain ⟨t2, ht2⟩ : ∃ t, t = SF.circleCentered
    (SF.global_frame_change c2.xc c2.yc (SF.scratch c1 c2).angle (-TTTT_delta_x sp.param (SF.scratch c1 c2)) delta_y).1
    (SF.global_frame_change c2.xc c2.yc (SF.scratch c1 c2).angle (-TTTT_delta_x sp.param (SF.scratch c1 c2)) delta_y).2
    (!c2.left) (!c2.forward) c2.regular sp.param := ⟨_, rfl⟩
  rw [← ht1, ← ht2] at hq
  obtain ⟨hqa, hqb, hqc⟩ := hq
  have k1 : center t1 = center c1 + cis (SF.scratch c1 c2).angle
      * ⟨TTTT_delta_x sp.param (SF.scratch c1 c2), delta_y⟩ := by
    rw [ht1]; exact (frame_cis _ _ _ _ _).trans (by rw [e1])
  have k2 : center t2 = center c2 + cis (SF.scratch c1 c2).angle
      * ⟨-TTTT_delta_x sp.param (SF.scratch c1 c2), delta_y⟩ := by
    rw [ht2]; exact (frame_cis _ _ _ _ _).trans (by rw [e2])
  have l1 : t1.left = !c1.left := by rw [ht1]; rfl
  have f1 : t1.forward = c1.forward := by rw [ht1]; rfl
  have l2 : t2.left = c1.left := by rw [ht2]; change (!c2.left) = _; rw [hlr, Bool.not_not]
  have f2 : t2.forward = c1.forward := by rw [ht2]; change (!c2.forward) = _; rw [hf, Bool.not_not]
  have S1 := TT_spec (geom_reparam H c1) t1
  have S2 := TT_spec (geom_reparam H t1) t2
  have S3 := TT_spec (geom_reparam H t2) c2
  have hz : ∀ (a b : SF.Circle), ‖center b - center a‖ = 2 * ccR sp.kappa sp.sigma →
      SF.center_distance (a.reparam sp.param) b / 2 - (a.reparam sp.param).radius = 0 := by
    intro a b h
    rw [center_distance_eq]
    change ‖center b - center a‖ / 2 - sp.param.radius = 0
    rw [h, hR]; ring
  change cen (-(sg c1.forward * _)) (sg c1.left * _) (cfg (TT_tangent_circles sp.param c1 t1)) - center c1
    = _ ∧ cen (sg c1.forward * _) (-(sg c1.left * _)) (cfg (TT_tangent_circles sp.param c1 t1)) - center t1 = _ at S1
  change cen (-(sg t1.forward * _)) (sg t1.left * _) (cfg (TT_tangent_circles sp.param t1 t2)) - center t1
    = _ ∧ cen (sg t1.forward * _) (-(sg t1.left * _)) (cfg (TT_tangent_circles sp.param t1 t2)) - center t2 = _ at S2
  change cen (-(sg t2.forward * _)) (sg t2.left * _) (cfg (TT_tangent_circles sp.param t2 c2)) - center t2
    = _ ∧ cen (sg t2.forward * _) (-(sg t2.left * _)) (cfg (TT_tangent_circles sp.param t2 c2)) - center c2 = _ at S3
  rw [← hqa] at S1
  rw [← hqb] at S2
  rw [← hqc] at S3
  erw [hz c1 t1 (by rw [k1, add_sub_cancel_left]; exact m1)] at S1
  erw [hz t1 t2 (by
    rw [k1, k2, hpc]
    rw [← m3]; congr 1; ring)] at S2
  erw [hz t2 c2 (by rw [k2, norm_sub_rev, add_sub_cancel_left]; exact m2)] at S3
  rw [Complex.ofReal_zero, zero_mul, neg_zero, sub_eq_zero, sub_eq_zero] at S1 S2 S3
  rw [l1, f1, sg_not, neg_mul, neg_neg] at S2
  rw [l2, f2] at S3
  have T1 : Tan sp.kappa sp.sigma c1 qa 0 := by rw [Tan, S1.1]; simp
  have T2 : Tan sp.kappa sp.sigma (SF.circleAt qa (!c1.left) c1.forward true sp.param) qb 0 := by
    have hmo := (circOk_at H.kappa H.sigma H.clothoid qa (!c1.left) c1.forward true).cen
    rw [Tan]
    erw [hmo]
    change ‖cen (-(sg c1.forward * _)) (sg (!c1.left) * _) (cfg qb)
      - cen (sg c1.forward * _) (sg (!c1.left) * _) (cfg qa)‖ ≤ 0
    rw [sg_not, neg_mul, S1.2, S2.1]; simp
  have T3 : Tan sp.kappa sp.sigma (SF.circleAt qc (!c2.left) c2.forward true sp.param) qb 0 := by
    have hmo := (circOk_at H.kappa H.sigma H.clothoid qc (!c2.left) c2.forward true).cen
    rw [Tan]
    erw [hmo]
    change ‖cen (-(sg c2.forward * _)) (sg (!c2.left) * _) (cfg qb)
      - cen (sg c2.forward * _) (sg (!c2.left) * _) (cfg qc)‖ ≤ 0
    rw [hf, hlr, Bool.not_not, sg_not, neg_mul, neg_neg, S2.2, S3.1]; simp
  have T4 : Tan sp.kappa sp.sigma c2 qc 0 := by
    rw [Tan, hf, hlr, sg_not, sg_not, neg_mul, neg_neg, neg_mul, S3.2]; simp
  have L2 := leg_cc_to H (circOk_at H.kappa H.sigma H.clothoid qa (!c1.left) c1.forward true) rfl T2
  have L3 := leg_cc_from H (circOk_at H.kappa H.sigma H.clothoid qc (!c2.left) c2.forward true) rfl T3
  change DLeg _ _ (sg c1.forward) _ _ _ _ _ _ _ _ at L2
  change DLeg _ _ (-sg c2.forward) _ _ _ _ _ _ _ _ at L3
  rw [show -sg c2.forward = sg c1.forward by rw [hf, sg_not, neg_neg]] at L3
  exact ((((first_leg H h1 T1 rfl rfl).append L2).append L3).append (last_leg H h2 hf T4)).mono (by norm_num)

include H h1 h2 hf in
theorem TTTT_ok (h : TTTT_exists sp.param (SF.scratch c1 c2) c1 c2) :
    RowOk sp c1 c2 6 (TTTT_path sp.param (SF.scratch c1 c2) c1 c2) := by
  unfold TTTT_exists at h
  split_ifs at h with hlr _
  have hlr' := not_of_ne hlr
  have hR : sp.param.radius = ccR sp.kappa sp.sigma := (hc_param_ok H.kappa H.sigma H.clothoid).radius
  have hR0 := ccR_nonneg sp.kappa sp.sigma
  have hD0 : 0 ≤ SF.center_distance c1 c2 := sqrt_nonneg _
  have hD : SF.center_distance c1 c2 ≤ 6 * ccR sp.kappa sp.sigma := by rw [← hR]; exact h
  have hdx : 0 ≤ TTTT_delta_x sp.param (SF.scratch c1 c2) ∧
      TTTT_delta_x sp.param (SF.scratch c1 c2) ≤ 2 * ccR sp.kappa sp.sigma := by
    unfold TTTT_delta_x
    simp only [hR]
    have e : (SF.scratch c1 c2).distance = SF.center_distance c1 c2 := rfl
    rw [e]
    split_ifs with h' <;> constructor <;> linarith
  have hsq : 0 ≤ (2 * ccR sp.kappa sp.sigma) ^ 2 - TTTT_delta_x sp.param (SF.scratch c1 c2) ^ 2 := by nlinarith
  have w1 : TTTT_delta_x sp.param (SF.scratch c1 c2) ^ 2
      + √((2 * sp.param.radius) ^ 2 - TTTT_delta_x sp.param (SF.scratch c1 c2) ^ 2) ^ 2
      = (2 * ccR sp.kappa sp.sigma) ^ 2 := by rw [hR, sq_sqrt hsq]; ring
  have w2 : TTTT_delta_x sp.param (SF.scratch c1 c2) ^ 2
      + (-√((2 * sp.param.radius) ^ 2 - TTTT_delta_x sp.param (SF.scratch c1 c2) ^ 2)) ^ 2
      = (2 * ccR sp.kappa sp.sigma) ^ 2 := by rw [neg_sq]; exact w1
  unfold TTTT_path
  simp only
  split_ifs with hlt
  · refine ⟨_, rfl, .leg (E := 0) (by norm_num) (zero_le H) (fun _ _ => rfl) (by simp [turns]) ?_⟩
    exact TTTT_leg H h1 h2 hf hlr' w1 rfl
  · refine ⟨_, rfl, .leg (E := 0) (by norm_num) (zero_le H) (fun _ _ => rfl) (by simp [turns]) ?_⟩
    exact TTTT_leg H h1 h2 hf hlr' w2 rfl

include H h1 hr1 in
/-- One turn of constant curvature. -/
theorem T_ok (h : SF.configuration_on_hc_cc_circle c1 c2.start) :
    RowOk sp c1 c2 2 { length := c1.rs_turn_length c2.start, cstart := some c1 } := by
  refine ⟨_, rfl, .leg (E := SF.epsilon * (1 + 1 / sp.kappa)) (by norm_num) le_rfl (fun h => absurd rfl h)
    (by simp [turns]) ?_⟩
  have he := on_circle_center h1.geom h
  rw [mul_zero, neg_zero, rs_inv, h1.radius] at he
  have := leg_rs_to H h1 hr1 he
  simpa [turns] using this

include H h1 h2 hr1 hf in
/-- Every path found leads to its end. -/
theorem found (hct : cturn sp c1 = c1) (hlt : (circles_dubins_path sp c1 c2).length < SF.dblMax) :
    ∃ t r, circles_dubins_path sp c1 c2 = ⟨c1.start, c2.start, t, r⟩ ∧ RowOk sp c1 c2 t r ∧
      (t = 2 → SF.configuration_on_hc_cc_circle c1 c2.start) := by
  classical
  obtain ⟨i, _, hb, _⟩ := best_entry (t := table sp (SF.scratch c1 c2) c1 c2) (n := SF.nb_cc_dubins_paths)
    (by norm_num [SF.nb_cc_dubins_paths]) c1.start c2.start
  refine ⟨i, _, hb, ?_⟩
  rw [circles_dubins_path, hb] at hlt
  change (table sp (SF.scratch c1 c2) c1 c2 i).length < SF.dblMax at hlt
  unfold table at hlt ⊢
  by_cases e1 : SF.configuration_equal c1.start c2.start
  · rw [if_pos e1] at hlt ⊢
    obtain rfl := single_entry hlt
    rw [set_same]
    exact ⟨⟨_, rfl, .empty rfl (equal_within e1) rfl⟩, fun h => absurd h (by decide)⟩
  rw [if_neg e1] at hlt ⊢
  by_cases e2 : SF.configuration_on_hc_cc_circle c1 c2.start
  · rw [if_pos e2, hct] at hlt ⊢
    obtain rfl := single_entry hlt
    rw [set_same]
    exact ⟨T_ok H h1 hr1 e2, fun _ => e2⟩
  rw [if_neg e2] at hlt ⊢
  rcases ite_set (TTTT_exists sp.param (SF.scratch c1 c2) c1 c2) _ SF.cc_dubins.TTTT
    (TTTT_path sp.param (SF.scratch c1 c2) c1 c2) i with h | ⟨hx, rfl, h'⟩
  swap
  · rw [h']; exact ⟨TTTT_ok H h1 h2 hf hx, fun h => absurd h (by decide)⟩
  rw [h] at hlt ⊢
  rcases ite_set (TTT_exists sp.param (SF.scratch c1 c2) c1 c2) _ SF.cc_dubins.TTT
    (TTT_path sp.param (SF.scratch c1 c2) c1 c2) i with h | ⟨hx, rfl, h'⟩
  swap
  · rw [h']; exact ⟨TTT_ok H h1 h2 hf hx, fun h => absurd h (by decide)⟩
  rw [h] at hlt ⊢
  rcases ite_set (TST_exists sp.param (SF.scratch c1 c2) c1 c2) _ SF.cc_dubins.TST
    (TST_path sp.param (SF.scratch c1 c2) c1 c2) i with h | ⟨hx, rfl, h'⟩
  swap
  · rw [h']; exact ⟨TST_ok H h1 h2 hf hx, fun h => absurd h (by decide)⟩
  rw [h] at hlt ⊢
  rcases ite_set (TT_exists sp.param (SF.scratch c1 c2) c1 c2) _ SF.cc_dubins.TT
    (TT_path sp.param c1 c2) i with h | ⟨hx, rfl, h'⟩
  swap
  · rw [h']; exact ⟨TT_ok H h1 h2 hf hx, fun h => absurd h (by decide)⟩
  rw [h, init_length] at hlt
  exact absurd hlt (lt_irrefl _)

end CCpmpm

end Spec
