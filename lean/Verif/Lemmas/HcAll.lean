import Verif.Lemmas.HcWitness
import Verif.Lemmas.CcPair
import Verif.Spec.PredictHc

/-!
# HC-Reeds-Shepp for arbitrary curvatures
-/

noncomputable section

namespace Spec

open Real Props

namespace HcRs

open SF.HcRs

variable {sp : SF.HCSpace} {pm1 pm2 : Bool}

theorem end_dist_le (H : Rng sp.kappa sp.sigma) (pm : Bool) :
    (if pm then 1 / sp.kappa else ccR sp.kappa sp.sigma) ≤ radiusBound sp.kappa sp.sigma := by
  have h1 := H.ccR_le
  have h2 := H.inv_le
  have hk := H.pos
  have h3 : 0 < 1 / sp.kappa := by positivity
  cases pm <;> simp only [Bool.false_eq_true, if_true, if_false] <;> linarith

theorem on_circle_dist {c : SF.Circle} {q : SF.Configuration} (h : SF.configuration_on_hc_cc_circle c q) :
    SF.point_distance c.xc c.yc q.x q.y ≤ c.radius + SF.epsilon := by
  by_cases h1 : |SF.point_distance c.xc c.yc q.x q.y - c.radius| > SF.epsilon
  · unfold SF.configuration_on_hc_cc_circle at h
    dsimp only at h
    rw [if_pos h1] at h
    exact h.elim
  · have := (abs_le.1 (not_lt.1 h1)).2
    linarith

/-- Paths of type `E`, `T`, `TT` and `TcT` are short. -/
theorem type_near (H : Rng sp.kappa sp.sigma) {s1 s2 : SF.State} {p : RSPath} (hp : reeds_shepp pm1 pm2 sp s1 s2 = some p)
    (hlt : p.length < SF.dblMax) (ht : p.type = 0 ∨ p.type = 2 ∨ p.type = 3 ∨ p.type = 4) :
    dist2 s1 s2 < 4 * radiusBound sp.kappa sp.sigma + 2 * SF.epsilon := by
  have he : (0:ℝ) < SF.epsilon := by norm_num [SF.epsilon]
  have hR0 := H.radius_nonneg
  obtain ⟨n, hn⟩ : ∃ n, path pm1 pm2 sp s1 s2 n = some p := ⟨_, hp⟩
  obtain ⟨_, _, rfl⟩ := path_some.1 hn
  obtain ⟨i, hi⟩ : ∃ i, i = n / 4 := ⟨_, rfl⟩
  obtain ⟨j, hj⟩ : ∃ j, j = n % 4 := ⟨_, rfl⟩
  rw [← hi, ← hj] at hlt ht
  have r1 := end_dist_le H pm1
  have r2 := end_dist_le H pm2
  have e1 := end_ok H pm1 s1 i
  have e2 := end_ok H pm2 s2 j
  have key := (centers_le (end_dist H pm1 s1 i) (end_dist H pm2 s2 j)).2
  have hd' : SF.configuration_distance (end_circle pm1 sp s1 i).start (end_circle pm2 sp s2 j).start = dist2 s1 s2 := rfl
  have start1 := end_dist H pm1 s1 i
  rw [hd'] at key
  have near : SF.center_distance (end_circle pm1 sp s1 i) (end_circle pm2 sp s2 j) < 2 * radiusBound sp.kappa sp.sigma + SF.epsilon →
      dist2 s1 s2 < 4 * radiusBound sp.kappa sp.sigma + 2 * SF.epsilon := by
    intro h; linarith
  generalize end_circle pm1 sp s1 i = c1 at *
  generalize end_circle pm2 sp s2 j = c2 at *
  have circ : SF.configuration_on_hc_cc_circle c1 c2.start → c1.radius ≤ radiusBound sp.kappa sp.sigma →
      dist2 s1 s2 < 4 * radiusBound sp.kappa sp.sigma + 2 * SF.epsilon := by
    intro h hr
    have h1 := on_circle_dist h
    have h2 : SF.point_distance c1.xc c1.yc c2.start.x c2.start.y = ‖(cfg c2.start).pos - center c1‖ := by
      rw [SF.point_distance, Complex.norm_eq_sqrt_sq_add_sq]; rfl
    rw [← hd', configuration_distance_eq]
    have := norm_add_le ((cfg c2.start).pos - center c1) (center c1 - (cfg c1.start).pos)
    rw [sub_add_sub_cancel, ← h2, start1] at this
    refine lt_of_le_of_lt this ?_
    linarith
  rcases chosen hlt with ⟨t, r, hs, hp⟩ | ⟨t, h3, hp⟩
  · rw [hp] at ht
    unfold shortcut at hs
    by_cases h0 : SF.configuration_equal c1.start c2.start
    · have := (equal_within h0).1
      rw [← hd', configuration_distance_eq]
      rw [Config.dist_comm, Config.dist_eq] at this
      linarith
    rw [if_neg h0] at hs
    cases pm1 <;> cases pm2 <;> simp only at hs
    · by_cases e1' : SF.configuration_aligned c1.start c2.start
      · rw [if_pos e1'] at hs
        simp only [Option.some.injEq, Prod.mk.injEq] at hs
        obtain ⟨rfl, rfl⟩ := hs
        simp [SF.hc_cc_rs.S] at ht
      rw [if_neg e1'] at hs
      by_cases e2' : SF.configuration_aligned c2.start c1.start
      · rw [if_pos e2'] at hs
        simp only [Option.some.injEq, Prod.mk.injEq] at hs
        obtain ⟨rfl, rfl⟩ := hs
        simp [SF.hc_cc_rs.S] at ht
      rw [if_neg e2'] at hs
      by_cases e3 : SF.configuration_on_hc_cc_circle c1 c2.start
      · refine circ e3 ?_
        rw [e1.cc.ok.geom.ccR]; exact H.ccR_le
      · rw [if_neg e3] at hs
        exact absurd hs (by simp)
    · by_cases e3 : (SF.scratch c1 c2).distance < SF.epsilon
      · refine near (lt_of_lt_of_le e3 ?_); linarith
      · rw [if_neg e3] at hs
        exact absurd hs (by simp)
    · by_cases e3 : (SF.scratch c1 c2).distance < SF.epsilon
      · refine near (lt_of_lt_of_le e3 ?_); linarith
      · rw [if_neg e3] at hs
        exact absurd hs (by simp)
    · by_cases e3 : SF.configuration_on_hc_cc_circle c1 c2.start
      · refine circ e3 ?_
        rw [e1.rs.radius]
        simpa using r1
      · rw [if_neg e3] at hs
        exact absurd hs (by simp)
  · rw [hp] at ht hlt
    simp only at ht
    obtain rfl | rfl : t = 3 ∨ t = 4 := by omega
    · by_cases h : TT_exists sp.param (SF.scratch c1 c2) c1 c2
      · unfold SF.HcRs.TT_exists SF.CC00.TT_exists at h
        split_ifs at h
        refine near ?_
        have h' := (abs_lt.1 h).2
        have e : (c1.reparam sp.param).radius = ccR sp.kappa sp.sigma := radius_param H
        rw [e] at h'
        have : (SF.scratch c1 c2).distance = SF.center_distance c1 c2 := rfl
        have := H.ccR_le
        linarith
      · have : (family pm1 pm2 sp (SF.scratch c1 c2) c1 c2 3) = {} := if_neg h
        change (family pm1 pm2 sp (SF.scratch c1 c2) c1 c2 3).length < _ at hlt
        rw [this] at hlt
        exact absurd hlt (lt_irrefl _)
    · by_cases h : TcT_exists (SF.scratch c1 c2) c1 c2
      · unfold SF.HcRs.TcT_exists at h
        split_ifs at h
        refine near ?_
        have h' := (abs_lt.1 h).2
        rw [e1.abs_inv H.pos] at h'
        have : (SF.scratch c1 c2).distance = SF.center_distance c1 c2 := rfl
        have := H.inv_le
        have hk := H.pos
        have : 0 < 1 / sp.kappa := by positivity
        linarith
      · have : (family pm1 pm2 sp (SF.scratch c1 c2) c1 c2 4) = {} := if_neg h
        change (family pm1 pm2 sp (SF.scratch c1 c2) c1 c2 4).length < _ at hlt
        rw [this] at hlt
        exact absurd hlt (lt_irrefl _)

end HcRs

/-! ### The planners between the predicted states -/

/-- What the planners guarantee between two predicted states. -/
structure HMid (sp : SF.HCSpace) (opp far : Prop) (a b : SF.State) (cs : List SF.Control) (len : ℝ) : Prop where
  ne : cs ≠ []
  length : |totalLength (cs.map seg) - len| ≤ SF.epsilon * (1 + 4 * radiusBound sp.kappa sp.sigma)
  bound : len ≤ dist2 a b + 40 * (sp.kappa / sp.sigma) + 60 / sp.kappa
  leads : ¬ opp → Leads (cs.map seg) (pose a) (pose b) len
    (SF.epsilon * (2 + 8 * radiusBound sp.kappa sp.sigma + 4 * totalLength (cs.map seg))) (3 * SF.epsilon)
    (SF.epsilon * (1 + 4 * radiusBound sp.kappa sp.sigma))
  rep : ¬ opp → Sharp cs → ∃ k', Level sp.kappa k' ∧ (∀ c ∈ cs.head?, c.kappa = k') ∧
    ∀ x rest, Level sp.kappa x → (∀ y, Level sp.kappa y → Representable y rest) → Representable x (cs.map seg ++ rest)
  prof : ¬ opp → far → StartsWith (rounded sp.kappa a.kappa) (cs.map seg) ∧ HybridCurvature (cs.map seg) ∧
    EndsWith (rounded sp.kappa b.kappa) (cs.map seg)
  limits : ¬ opp → far → CurvatureAtMost (sp.kappa * (1 + 1 / 10 ^ 8)) (cs.map seg) ∧
    SharpnessAtMost (sp.sigma * (1 + 2 / 10 ^ 8)) (cs.map seg)

/-- States too far apart for the shortcuts of the planners. -/
def HFarPair (sp : SF.HCSpace) (a b : SF.State) : Prop := 4 * radiusBound sp.kappa sp.sigma + 2 * SF.epsilon ≤ dist2 a b

section
variable {pm1 pm2 : Bool} {k s k0 k1 len : ℝ} {ts : List (SF.Circle × SF.Configuration)} {cs : List SF.Control}
  {p q : Config} {t : ℕ}

theorem HcOk.rep (h : HcOk pm1 pm2 k s k0 k1 ts cs p q len t) (hk : k > SF.epsilon) (hs : Sharp cs) :
    ∃ k', Level k k' ∧ (∀ c ∈ cs.head?, c.kappa = k') ∧
      ∀ x rest, Level k x → (∀ y, Level k y → Representable y rest) → Representable x (cs.map seg ++ rest) := by
  cases h with
  | empty hc =>
    subst hc
    refine ⟨0, level_zero k, by simp [SF.empty_controls], fun x rest hx hr => ⟨.inr ⟨rfl, .inl rfl⟩, (level_zero k).jump hk hx, ?_⟩⟩
    have : (0:ℝ) + 0 * |(0:ℝ)| = 0 := by simp
    change Representable (0 + 0 * |(0:ℝ)|) _
    rw [this]; exact hr _ (level_zero k)
  | @line x' hc =>
    subst hc
    refine ⟨0, level_zero k, by simp, fun x rest hx hr => ⟨.inr ⟨rfl, .inl rfl⟩, (level_zero k).jump hk hx, ?_⟩⟩
    have : (0:ℝ) + 0 * |x'| = 0 := by simp
    change Representable (0 + 0 * |x'|) _
    rw [this]; exact hr _ (level_zero k)
  | chain _ _ _ _ _ h =>
    exact ⟨k0, h.lv0, h.head, fun x rest hx hr => h.rep hk hs rest x (h.lv0.jump hk hx) (hr _ h.lv1)⟩

end

theorem rounded_level (K x : ℝ) : Level K (rounded K x) := rounded_cases K x

namespace HC

open SF.HC

variable {sp : SF.HCSpace}

/-- One planner. -/
theorem mid_one (h : InRange sp.kappa sp.sigma) (pm1 pm2 : Bool) (a b : SF.State) (hfar : dist2 a b ≤ 10 ^ 100)
    (ha : pm1 = decide (¬ |a.kappa| < SF.epsilon)) (hb : pm2 = decide (¬ |b.kappa| < SF.epsilon)) :
    ∃ cs len, SF.HcRs.get_controls pm1 pm2 sp a b = some cs ∧ SF.HcRs.get_distance pm1 pm2 sp a b = some len ∧
      HMid sp (Props.HcRs.Opposed pm1 pm2 sp a b) (HFarPair sp a b) a b cs len := by
  have H := h.rng
  obtain ⟨p, l1, l2, hp, hlen, hT1, hT2, hbas, hok⟩ := Spec.HcRs.plan (pm1 := pm1) (pm2 := pm2) h a b hfar
  refine ⟨_, _, by rw [SF.HcRs.get_controls, hp]; rfl, by rw [SF.HcRs.get_distance, hp]; rfl, hbas.ne, hbas.length, hlen,
    fun ho => (hok.resolve_left ho).leads H, fun ho => (hok.resolve_left ho).rep H.kappa, fun ho hf => ?_, fun ho hf => ?_⟩
  all_goals
    have hok := hok.resolve_left ho
    have ht : ¬ (p.type = 0 ∨ p.type = 2 ∨ p.type = 3 ∨ p.type = 4) := fun ht =>
      absurd (HcRs.type_near H hp (hlen.trans_lt (bound_finite h hfar)) ht) (not_lt.2 hf)
    push Not at ht
  · obtain ⟨t0, t2, t3, t4⟩ := ht
    have hends := hok.ends t0
    have e2 : (if p.type = 2 ∧ pm1 = true ∧ pm2 = true then l1 else l2) = l2 := if_neg (fun hc => t2 hc.1)
    rw [e2] at hends
    have hr : ∀ {x : ℝ} {pm l : Bool}, pm = decide (¬ |x| < SF.epsilon) → (pm = true → Toward l x) →
        (if pm then sideCurvature sp.kappa l else 0) = rounded sp.kappa x := by
      intro x pm l e hT
      by_cases hx : |x| < SF.epsilon
      · rw [rounded_small hx, if_neg]
        rw [e]; simp [hx]
      · have : pm = true := by rw [e]; simpa using hx
        rw [if_pos this, rounded_side hx (hT this)]
    rw [← hr ha hT1, ← hr hb hT2]
    have hA := ccA_lower' h.kappa h.sigma h.clothoid
    have hA0 : (0:ℝ) ≤ min (sp.kappa / sp.sigma) (1 / √sp.sigma / 2) := by
      have := h.rng.pos; have := h.sigma; positivity
    exact ⟨hends.1, hok.hybrid (fun ht => absurd ht (by tauto)) (by linarith), hends.2⟩
  · exact hok.limits H (fun h2 => absurd h2 (by tauto)) (fun h3 => absurd h3 (by tauto))

theorem mid (h : InRange sp.kappa sp.sigma) (a b : SF.State) (hfar : dist2 a b ≤ 10 ^ 100) :
    ∃ cs len, (controls_planners sp).call a b = some cs ∧ (distance_planners sp).call a b = some len ∧
      HMid sp (Props.HC.OpposedPair sp a b) (HFarPair sp a b) a b cs len := by
  have he : SF.epsilon = 1 / 10000 := by norm_num [SF.epsilon]
  have mono : ∀ {o o' f : Prop} {cs : List SF.Control} {len : ℝ}, (o → o') → HMid sp o f a b cs len →
      HMid sp o' f a b cs len := by
    intro o o' f cs len ho m
    exact ⟨m.ne, m.length, m.bound, fun h => m.leads (mt ho h), fun h => m.rep (mt ho h), fun h => m.prof (mt ho h),
      fun h => m.limits (mt ho h)⟩
  by_cases ha : |a.kappa| < SF.epsilon <;> by_cases hb : |b.kappa| < SF.epsilon
  · obtain ⟨cs, len, h1, h2, h3⟩ := mid_one h false false a b hfar (by simp [ha]) (by simp [hb])
    refine ⟨cs, len, ?_, ?_, mono (fun ho => absurd rfl ho.1) h3⟩
    · rw [SF.SubPlanners.call, if_pos ha, if_pos hb]; exact h1
    · rw [SF.SubPlanners.call, if_pos ha, if_pos hb]; exact h2
  · obtain ⟨cs, len, h1, h2, h3⟩ := mid_one h false true a b hfar (by simp [ha]) (by simpa using hb)
    refine ⟨cs, len, ?_, ?_, mono (fun ho => .inl (by rw [← he]; exact ⟨ha, hb, ho⟩)) h3⟩
    · rw [SF.SubPlanners.call, if_pos ha, if_neg hb]; exact h1
    · rw [SF.SubPlanners.call, if_pos ha, if_neg hb]; exact h2
  · obtain ⟨cs, len, h1, h2, h3⟩ := mid_one h true false a b hfar (by simpa using ha) (by simp [hb])
    refine ⟨cs, len, ?_, ?_, mono (fun ho => .inr (by rw [← he]; exact ⟨ha, hb, ho⟩)) h3⟩
    · rw [SF.SubPlanners.call, if_neg ha, if_pos hb]; exact h1
    · rw [SF.SubPlanners.call, if_neg ha, if_pos hb]; exact h2
  · obtain ⟨cs, len, h1, h2, h3⟩ := mid_one h true true a b hfar (by simpa using ha) (by simpa using hb)
    refine ⟨cs, len, ?_, ?_, mono (fun ho => absurd rfl ho.1) h3⟩
    · rw [SF.SubPlanners.call, if_neg ha, if_neg hb]; exact h1
    · rw [SF.SubPlanners.call, if_neg ha, if_neg hb]; exact h2

end HC

end Spec
