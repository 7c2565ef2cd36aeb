import Verif.Lemmas.HcRsOptimalRows

/-!
# Hybrid-curvature Reeds-Shepp: no word with at most three parts is shorter
-/

noncomputable section

namespace Spec

namespace HcOpt

open Real Props SF.HcRs
open CcRsOpt (idx idx_lt startOf Aligned)

variable {sp : SF.HCSpace} {s1 s2 : SF.State} {pm1 pm2 : Bool}

theorem end_left (pm : Bool) (s : SF.State) (f l : Bool) : (end_circle pm sp s (idx f l)).left = l := by
  cases f <;> cases l <;> simp [idx, end_circle, SF.circleAt]

theorem end_forward (pm : Bool) (s : SF.State) (f l : Bool) : (end_circle pm sp s (idx f l)).forward = f := by
  cases f <;> cases l <;> simp [idx, end_circle, SF.circleAt]

theorem idx_even (f l : Bool) : decide (idx f l % 2 = 0) = l := by cases f <;> cases l <;> decide

/-- The distance is at most the length of every path between two circles that are not skipped. -/
theorem best_le {f1 l1 f2 l2 : Bool} (ht1 : pm1 = true → Toward l1 s1.kappa) (ht2 : pm2 = true → Toward l2 s2.kappa)
    {x : ℝ} (hx : (circles_rs_path pm1 pm2 sp (end_circle pm1 sp s1 (idx f1 l1)) (end_circle pm2 sp s2 (idx f2 l2))).length ≤ x)
    (hfin : x < SF.dblMax) : ∃ y, get_distance pm1 pm2 sp s1 s2 = some y ∧ y ≤ x := by
  have i1 := idx_lt f1 l1
  have i2 := idx_lt f2 l2
  have e1 : (4 * idx f1 l1 + idx f2 l2) / 4 = idx f1 l1 := by omega
  have e2 : (4 * idx f1 l1 + idx f2 l2) % 4 = idx f2 l2 := by omega
  have hp : path pm1 pm2 sp s1 s2 (4 * idx f1 l1 + idx f2 l2)
      = some (circles_rs_path pm1 pm2 sp (end_circle pm1 sp s1 (idx f1 l1)) (end_circle pm2 sp s2 (idx f2 l2))) := by
    rw [HcRs.path_some, e1, e2, idx_even, idx_even]
    exact ⟨ht1, ht2, rfl⟩
  obtain ⟨n, p, _, _, h3, h4⟩ := HcRs.best_spec (by omega) hp (lt_of_le_of_lt hx hfin)
  refine ⟨p.length, ?_, (h4 _ (by omega) _ hp).trans hx⟩
  unfold get_distance
  rw [h3]; rfl

theorem sg_inj' {a b : Bool} (h : sg a = sg b) : a = b := by
  revert h; cases a <;> cases b <;> norm_num [sg]

theorem totalLength_line {d : Bool} {x : ℝ} (hx : 0 ≤ x) : totalLength [⟨sg d * x, 0, 0⟩] = x := by
  simp only [totalLength, List.map_cons, List.map_nil, List.sum_cons, List.sum_nil, abs_pm_mul (sg_pm d) hx, add_zero]

/-- Words with at most three parts, unless the planner takes one of the cases `E`, `S` and `T`. -/
theorem word_row (H : Rng sp.kappa sp.sigma) {cs : List Segment} {d1 l1 d2 l2 : Bool}
    (hw : HcWord pm1 pm2 sp.kappa sp.sigma (sg d1) (sg l1) (sg d2) (sg l2) cs)
    (he : SameConfig (libAll cs (pose s1)) (pose s2)) {c1 c2 : SF.Circle}
    (hc1 : c1 = end_circle pm1 sp s1 (idx d1 l1)) (hc2 : c2 = end_circle pm2 sp s2 (idx (!d2) l2))
    (hs : shortcut pm1 pm2 sp (SF.scratch c1 c2) c1 c2 = none)
    (hne : d2 = d1 → l2 = l1 → center c1 ≠ center c2) :
    (circles_rs_path pm1 pm2 sp c1 c2).length ≤ totalLength cs := by
  have k1 : EndOk pm1 sp.kappa sp.sigma c1 := hc1 ▸ HcRs.end_ok H pm1 s1 _
  have k2 : EndOk pm2 sp.kappa sp.sigma c2 := hc2 ▸ HcRs.end_ok H pm2 s2 _
  have a1 : c1.left = l1 := hc1 ▸ end_left pm1 s1 d1 l1
  have a2 : c1.forward = d1 := hc1 ▸ end_forward pm1 s1 d1 l1
  have b1 : c2.left = l2 := hc2 ▸ end_left pm2 s2 (!d2) l2
  have b2 : c2.forward = !d2 := hc2 ▸ end_forward pm2 s2 (!d2) l2
  have g1 : SameConfig (pose s1) (cfg c1.start) := (hc1 ▸ HcRs.end_cfg pm1 s1 _ : SameConfig (cfg c1.start) (pose s1)).symm
  have g2 : SameConfig (pose s2) (cfg c2.start) := (hc2 ▸ HcRs.end_cfg pm2 s2 _ : SameConfig (cfg c2.start) (pose s2)).symm
  have fc : ∀ {pm u : Bool} {k s : ℝ} {l d : Bool} {p p' q : Config} {L : ℝ}, First pm u k s l d p q L →
      SameConfig p p' → First pm u k s l d p' q L := by
    intro pm u k s l d p p' q L F h
    refine ⟨?_, fun c r e1 e2 e3 e4 e5 => F.le c r e1 e2 e3 (e4.trans h.symm) e5⟩
    have := F.at_
    unfold endCen at this ⊢
    rw [cen_congr h, cen_congr h] at this
    exact this
  have he' := he.trans g2
  clear hc1 hc2
  subst a1 a2
  generalize hD : sg d2 = D at hw
  generalize hL : sg l2 = Lr at hw
  cases hw with
  | @tst _ x u1 u2 w1 w2 w_1 hx w_2 two =>
    rw [← sg_way, ← sg_way] at hD
    have hd := sg_inj' hD
    rw [← sg_way, ← sg_way] at w_2
    rw [← sg_way] at he' ⊢
    subst hd hL b1
    rw [libAll_append, libAll_append] at he'
    obtain ⟨e1, e2⟩ := lib_line (len := sg (way u1 c1.forward) * x) (libAll w1 (pose s1))
    rw [totalLength_append, totalLength_append, totalLength_line hx]
    have F := fc (hcFirst_first H w_1 (pose s1)) g1
    have G := hcLast_last H w_2 (libArrive ⟨sg (way u1 c1.forward) * x, 0, 0⟩ (libAll w1 (pose s1))) _ he'
    rw [← b2] at G
    refine line_word H k1 k2 hs b2 F G hx e1 (AngleEq.of_eq e2) fun a b => (two a b).imp_left fun h => ⟨?_, h.2⟩
    intro h'; exact h.1 (by rw [h'])
  | @tt u w1 w2 w_1 w_2 =>
    rw [← sg_way] at hD
    have hd := sg_inj' hD
    rw [← sg_not] at hL
    have hl := sg_inj' hL
    rw [← sg_way, ← sg_not] at w_2
    subst hd hl
    rw [libAll_append] at he'
    rw [totalLength_append]
    have F := fc (hcFirst_first H w_1 (pose s1)) g1
    have G := hcLast_last H w_2 (libAll w1 (pose s1)) _ he'
    rw [← b2, ← b1] at G
    cases u
    · have b2' : c2.forward = !way false (way false c1.forward) := b2
      have := line_word H k1 k2 hs b2' F G le_rfl (by simp) (AngleEq.refl _) (by simp)
      linarith
    · exact cusp_word H k1 k2 hs (by rw [b2]; simp [way]) b1 F G
  | @ttt u1 u2 w1 w2 w3 w_1 w_2 w_3 =>
    rw [← sg_way, ← sg_way] at hD
    have hd := sg_inj' hD
    have hl := sg_inj' hL
    rw [← sg_way, ← sg_not] at w_2
    rw [← sg_way, ← sg_way] at w_3
    subst hd hl
    rw [libAll_append, libAll_append] at he'
    rw [totalLength_append, totalLength_append]
    have F := fc (hcFirst_first H w_1 (pose s1)) g1
    have T := hcMiddle_mid H w_2 (libAll w1 (pose s1))
    have G := hcLast_last H w_3 (libAll w2 (libAll w1 (pose s1))) _ he'
    rw [← b2] at G
    have G' : Last pm2 u2 sp.kappa sp.sigma c2.left c2.forward (libAll w2 (libAll w1 (pose s1))) (cfg c2.start)
      (totalLength w3) := by rw [b1]; exact G
    refine three_word H k1 k2 hs b2 b1 F T G' ?_
    rintro rfl
    exact hne (by cases u1 <;> simp [way]) rfl

theorem entry_shortcut {c1 c2 : SF.Circle} {t : ℕ} {r : SF.RSRow} (ht : t < 18)
    (h : shortcut pm1 pm2 sp (SF.scratch c1 c2) c1 c2 = some (t, r)) :
    (circles_rs_path pm1 pm2 sp c1 c2).length ≤ r.length := by
  have := HcRs.entry_le pm1 pm2 sp c1 c2 ht
  unfold table at this
  rw [h] at this
  simpa using this

theorem entry_length {c1 c2 : SF.Circle} {t : ℕ} {x : ℝ} (ht : t < 18)
    (h : ∃ ms, shortcut pm1 pm2 sp (SF.scratch c1 c2) c1 c2 = some (t, ⟨x, ms⟩)) :
    (circles_rs_path pm1 pm2 sp c1 c2).length ≤ x := by
  obtain ⟨ms, h⟩ := h
  exact entry_shortcut ht h

theorem equal_le {c1 c2 : SF.Circle} (h : SF.configuration_equal c1.start c2.start) :
    (circles_rs_path pm1 pm2 sp c1 c2).length ≤ 0 :=
  entry_shortcut (t := 0) (r := { length := 0 }) (by norm_num) (by unfold shortcut; rw [if_pos h])

theorem end_start (pm : Bool) (s : SF.State) (f l : Bool) :
    (end_circle pm sp s (idx f l)).start.theta = SF.twopify s.theta := rfl

/-! ### HC00 -/

theorem none00 {c1 c2 : SF.Circle} (hE : ¬ SF.configuration_equal c1.start c2.start)
    (hA : ¬ Aligned c1.start c2.start) (hT : ¬ SF.configuration_on_hc_cc_circle c1 c2.start) :
    shortcut false false sp (SF.scratch c1 c2) c1 c2 = none := by
  unfold shortcut
  rw [if_neg hE]
  simp only
  rw [if_neg (fun h => hA (Or.inl h)), if_neg (fun h => hA (Or.inr h)), if_neg hT]

theorem aligned00 {c1 c2 : SF.Circle} (hE : ¬ SF.configuration_equal c1.start c2.start) (hA : Aligned c1.start c2.start) :
    (circles_rs_path false false sp c1 c2).length ≤ SF.configuration_distance c1.start c2.start := by
  by_cases h1 : SF.configuration_aligned c1.start c2.start
  · refine entry_length (t := 1) (x := SF.configuration_distance c1.start c2.start) (by norm_num) ?_
    apply Exists.intro
    unfold shortcut
    rw [if_neg hE]
    simp only
    rw [if_pos h1]
  · have e : SF.configuration_distance c1.start c2.start = SF.configuration_distance c2.start c1.start := by
      rw [configuration_distance_eq, configuration_distance_eq, norm_sub_rev]
    rw [e]
    refine entry_length (t := 1) (x := SF.configuration_distance c2.start c1.start) (by norm_num) ?_
    apply Exists.intro
    unfold shortcut
    rw [if_neg hE]
    simp only
    rw [if_neg h1, if_pos (hA.resolve_left h1)]

theorem on_same00 (H : Rng sp.kappa sp.sigma) {d l : Bool} {c1 c2 : SF.Circle}
    (hc1 : c1 = end_circle false sp s1 (idx d l)) (hc2 : c2 = end_circle false sp s2 (idx (!d) l))
    (h : center c1 = center c2) : SF.configuration_on_hc_cc_circle c1 c2.start := by
  have k1 : EndOk false sp.kappa sp.sigma c1 := hc1 ▸ HcRs.end_ok H false s1 _
  have k2 : EndOk false sp.kappa sp.sigma c2 := hc2 ▸ HcRs.end_ok H false s2 _
  have a1 : c1.left = l := hc1 ▸ end_left false s1 d l
  have a2 : c1.forward = d := hc1 ▸ end_forward false s1 d l
  have b1 : c2.left = l := hc2 ▸ end_left false s2 (!d) l
  have b2 : c2.forward = !d := hc2 ▸ end_forward false s2 (!d) l
  refine on_circle k1.cc.ok H.kappa H.sigma H.clothoid (hc2 ▸ SF.twopify_nonneg _) (hc2 ▸ SF.twopify_lt _) ?_
  rw [h, k2.cc.cen, a1, a2, b1, b2, sg_not, neg_mul]

/-- HC00. -/
theorem word00 (H : Rng sp.kappa sp.sigma) {cs : List Segment} {d1 l1 d2 l2 : Bool}
    (hw : HcWord false false sp.kappa sp.sigma (sg d1) (sg l1) (sg d2) (sg l2) cs)
    (he : SameConfig (libAll cs (pose s1)) (pose s2))
    (hoff : ¬ SF.configuration_on_hc_cc_circle (end_circle false sp s1 (idx d1 l1)) (startOf s2)) :
    (totalLength cs + pathTol cs < SF.dblMax →
      ∃ x, get_distance false false sp s1 s2 = some x ∧ x ≤ totalLength cs + pathTol cs) ∧
    (¬ Aligned (startOf s1) (startOf s2) → totalLength cs < SF.dblMax →
      ∃ x, get_distance false false sp s1 s2 = some x ∧ x ≤ totalLength cs) := by
  have h0 := libAll_dist cs (pose s1)
  have hd : (libAll cs (pose s1)).dist (pose s1) = dist2 s1 s2 := by
    rw [← CC00.dist2_eq, Config.dist_eq, Config.dist_eq, (sameConfig_iff.1 he).1]
  rw [hd] at h0
  have es : (end_circle false sp s2 (idx (!d2) l2)).start = startOf s2 := rfl
  rw [← es] at hoff
  have main : ¬ Aligned (startOf s1) (startOf s2) →
      (circles_rs_path false false sp (end_circle false sp s1 (idx d1 l1)) (end_circle false sp s2 (idx (!d2) l2))).length
        ≤ totalLength cs := by
    intro hA
    by_cases hE : SF.configuration_equal (startOf s1) (startOf s2)
    · exact (equal_le hE).trans (totalLength_nonneg cs)
    refine word_row H hw he rfl rfl (none00 hE hA hoff) ?_
    intro hd2 hl2 hc
    exact hoff (on_same00 H (d := d1) (l := l1) rfl (by rw [hd2, hl2]) hc)
  refine ⟨fun hfin => ?_, fun hA hfin => best_le (f1 := d1) (l1 := l1) (f2 := !d2) (l2 := l2) (by simp) (by simp) (main hA) hfin⟩
  refine best_le (f1 := d1) (l1 := l1) (f2 := !d2) (l2 := l2) (by simp) (by simp) ?_ hfin
  by_cases hA : Aligned (startOf s1) (startOf s2)
  · by_cases hE : SF.configuration_equal (startOf s1) (startOf s2)
    · exact (equal_le hE).trans (le_trans (sqrt_nonneg _) h0)
    · exact (aligned00 hE hA).trans h0
  · linarith [main hA, pathTol_nonneg cs]

/-- HC00, one turn. -/
theorem turn00 (H : Rng sp.kappa sp.sigma) {cs : List Segment} {d l : Bool}
    (hw : RSTurn sp.kappa sp.sigma (sg d) (sg l) cs) (he : SameConfig (libAll cs (pose s1)) (pose s2))
    (hA : ¬ Aligned (startOf s1) (startOf s2)) (hfin : totalLength cs < SF.dblMax) :
    ∃ x, get_distance false false sp s1 s2 = some x ∧ x ≤ totalLength cs := by
  refine best_le (f1 := d) (l1 := l) (f2 := true) (l2 := true) (by simp) (by simp) ?_ hfin
  have t := (CcRsOpt.rsTurn_turned H l d hw (pose s1)).congr (HcRs.end_cfg (sp := sp) false s1 (idx d l)).symm
    (he.trans (HcRs.end_cfg (sp := sp) false s2 (idx true true)).symm)
  by_cases hE : SF.configuration_equal (startOf s1) (startOf s2)
  · exact (equal_le hE).trans t.nonneg
  have a1 := end_left (sp := sp) false s1 d l
  have a2 := end_forward (sp := sp) false s1 d l
  have k1 := HcRs.end_ok (sp := sp) H false s1 (idx d l)
  have es1 : (end_circle false sp s1 (idx d l)).start = startOf s1 := rfl
  have es : (end_circle false sp s2 (idx true true)).start = startOf s2 := rfl
  generalize end_circle false sp s1 (idx d l) = c1 at *
  generalize end_circle false sp s2 (idx true true) = c2 at *
  subst a1 a2
  have hon : SF.configuration_on_hc_cc_circle c1 c2.start := by
    rw [es] at t ⊢
    refine on_circle k1.cc.ok H.kappa H.sigma H.clothoid (SF.twopify_nonneg _) (SF.twopify_lt _) ?_
    rw [k1.cc.cen]; exact t.cen
  rw [← es, ← es1] at hE hA
  refine (entry_length (t := 2) (x := (SF.circleAt c1.start c1.left c1.forward false sp.param).cc_turn_length c2.start) (by norm_num) ?_).trans ?_
  · apply Exists.intro
    unfold shortcut
    rw [if_neg hE]
    simp only
    rw [if_neg (fun h => hA (Or.inl h)), if_neg (fun h => hA (Or.inr h)), if_pos hon]
  · exact t.ahead _ _ (CC00.circOk_at H.kappa H.sigma H.clothoid _ _ _ _).ok rfl rfl rfl (SameConfig.refl _) (SameConfig.refl _)

/-- HC00, a straight line. -/
theorem straight00 {d : Bool} {x : ℝ} (hx : 0 ≤ x)
    (he : SameConfig (libAll [⟨sg d * x, 0, 0⟩] (pose s1)) (pose s2)) (hfin : x < SF.dblMax) :
    ∃ y, get_distance false false sp s1 s2 = some y ∧ y ≤ x := by
  refine best_le (f1 := d) (l1 := true) (f2 := true) (l2 := true) (by simp) (by simp) ?_ hfin
  obtain ⟨e1, e2⟩ := lib_line (len := sg d * x) (pose s1)
  have he' := sameConfig_iff.1 he
  simp only [libAll] at he'
  rw [e1, e2] at he'
  have hth : (startOf s2).theta = (startOf s1).theta := SF.twopify_congr he'.2.symm
  have hpos : (cfg (startOf s2)).pos = (cfg (startOf s1)).pos
      + cis (startOf s1).theta * ((sg d * x : ℝ) : ℂ) := by
    change (pose s2).pos = (pose s1).pos + _
    rw [← he'.1]
    congr 2
    exact (cis_twopify _).symm
  have hd : dist2 s1 s2 = x := by
    rw [← CC00.dist2_eq, Config.dist_eq, ← he'.1, add_sub_cancel_left, norm_cis_mul, Complex.norm_real,
      Real.norm_eq_abs, abs_pm_mul (sg_pm _) hx]
  by_cases hE : SF.configuration_equal (startOf s1) (startOf s2)
  · exact (equal_le hE).trans hx
  have hx0 : 0 < x := by
    rcases hx.lt_or_eq with h | h
    · exact h
    · exfalso; apply hE
      unfold SF.configuration_equal
      rw [if_neg (by rw [hth, sub_self]; norm_num [SF.epsilon]), if_neg]
      · trivial
      · change ¬ dist2 s1 s2 > _
        rw [hd, ← h]; norm_num [SF.epsilon]
  rw [← hd]
  refine aligned00 hE ?_
  cases d
  · right
    refine CC00.aligned_of hx0 hth.symm (SF.twopify_nonneg _) (SF.twopify_lt _) ?_
    change (cfg (startOf s1)).pos = (cfg (startOf s2)).pos + cis (startOf s2).theta * _
    rw [hpos, hth]; simp [sg]
  · left
    refine CC00.aligned_of hx0 hth (SF.twopify_nonneg _) (SF.twopify_lt _) ?_
    change (cfg (startOf s2)).pos = (cfg (startOf s1)).pos + cis (startOf s1).theta * _
    rw [hpos]; simp [sg]

/-! ### The other planners -/

theorem none_mixed {c1 c2 : SF.Circle} (hne : pm1 ≠ pm2) (hE : ¬ SF.configuration_equal c1.start c2.start)
    (hD : 1 / 10000 ≤ SF.center_distance c1 c2) : shortcut pm1 pm2 sp (SF.scratch c1 c2) c1 c2 = none := by
  have hD' : ¬ (SF.scratch c1 c2).distance < SF.epsilon := by
    rw [SF.epsilon]; exact not_lt.2 hD
  unfold shortcut
  rw [if_neg hE]
  cases pm1 <;> cases pm2
  · exact absurd rfl hne
  · simp only; rw [if_neg hD']
  · simp only; rw [if_neg hD']
  · exact absurd rfl hne

/-- HC0pm and HCpm0. -/
theorem word_mixed (H : Rng sp.kappa sp.sigma) (hne : pm1 ≠ pm2) {cs : List Segment} {d1 l1 d2 l2 : Bool}
    (hw : HcWord pm1 pm2 sp.kappa sp.sigma (sg d1) (sg l1) (sg d2) (sg l2) cs)
    (ht1 : pm1 = true → Toward l1 s1.kappa) (ht2 : pm2 = true → Toward l2 s2.kappa)
    (he : SameConfig (libAll cs (pose s1)) (pose s2))
    (hoff : 1 / 10000 ≤ SF.center_distance (end_circle pm1 sp s1 (idx d1 l1)) (end_circle pm2 sp s2 (idx (!d2) l2)))
    (hfin : totalLength cs < SF.dblMax) : ∃ x, get_distance pm1 pm2 sp s1 s2 = some x ∧ x ≤ totalLength cs := by
  refine best_le (f1 := d1) (l1 := l1) (f2 := !d2) (l2 := l2) ht1 ht2 ?_ hfin
  by_cases hE : SF.configuration_equal (end_circle pm1 sp s1 (idx d1 l1)).start (end_circle pm2 sp s2 (idx (!d2) l2)).start
  · exact (equal_le hE).trans (totalLength_nonneg cs)
  refine word_row H hw he rfl rfl (none_mixed hne hE hoff) ?_
  intro _ _ hc
  rw [center_distance_eq, hc, sub_self, norm_zero] at hoff
  norm_num at hoff

/-- HC0pm, one turn. -/
theorem turn0pm (H : Rng sp.kappa sp.sigma) {a : ℝ} {d l : Bool} (ht : Toward l s2.kappa)
    (he : SameConfig (libAll (openTurn sp.kappa sp.sigma (sg d) (sg l) a) (pose s1)) (pose s2))
    (hfin : sp.kappa / sp.sigma + |a| < SF.dblMax) :
    ∃ x, get_distance false true sp s1 s2 = some x ∧ x ≤ sp.kappa / sp.sigma + |a| := by
  refine best_le (f1 := d) (l1 := l) (f2 := true) (l2 := l) (by simp) (fun _ => ht) ?_ hfin
  obtain ⟨e1, e2⟩ := open_end H.pos H.sigma l d a (pose s1)
  have hk := H.pos
  have hsg := H.sigma
  have g1 := HcRs.end_cfg (sp := sp) false s1 (idx d l)
  have g2 := HcRs.end_cfg (sp := sp) true s2 (idx true l)
  have a1 := end_left (sp := sp) false s1 d l
  have a2 := end_forward (sp := sp) false s1 d l
  have b1 := end_left (sp := sp) true s2 true l
  have k1 := HcRs.end_ok (sp := sp) H false s1 (idx d l)
  have k2 := HcRs.end_ok (sp := sp) H true s2 (idx true l)
  generalize end_circle false sp s1 (idx d l) = c1 at *
  generalize end_circle true sp s2 (idx true l) = c2 at *
  have hc : center c1 = center c2 := by
    rw [k1.cc.cen, k2.rs.cen, a1, a2, b1, cen_congr g1, cen_congr g2, ← cen_congr he, e1]
  by_cases hE : SF.configuration_equal c1.start c2.start
  · exact (equal_le hE).trans (by positivity)
  refine (entry_length (t := 2) (x := (SF.circleAt c1.start c1.left c1.forward false sp.param).hc_turn_length c2.start) (by norm_num) ?_).trans ?_
  · apply Exists.intro
    unfold shortcut
    rw [if_neg hE]
    simp only
    rw [if_pos (by rw [scratch_distance, hc, sub_self, norm_zero]; norm_num [SF.epsilon])]
  · refine half_le_irregular (CC00.circOk_at H.kappa H.sigma H.clothoid _ _ _ _).ok hk hsg rfl
      (deflection_to g1 (g2.trans he.symm) (e2.trans (AngleEq.of_eq ?_)))
    change _ = _ + sg c1.forward * sg c1.left * _
    rw [a1, a2]

/-- HCpm0, one turn. -/
theorem turnpm0 (H : Rng sp.kappa sp.sigma) {a : ℝ} {d l : Bool} (ht : Toward l s1.kappa)
    (he : SameConfig (libAll (closeTurn sp.kappa sp.sigma (sg d) (sg l) a) (pose s1)) (pose s2))
    (hfin : sp.kappa / sp.sigma + |a| < SF.dblMax) :
    ∃ x, get_distance true false sp s1 s2 = some x ∧ x ≤ sp.kappa / sp.sigma + |a| := by
  refine best_le (f1 := true) (l1 := l) (f2 := !d) (l2 := l) (fun _ => ht) (by simp) ?_ hfin
  obtain ⟨e1, e2⟩ := close_end H.pos H.sigma l d a (pose s1)
  have hk := H.pos
  have hsg := H.sigma
  have g1 := HcRs.end_cfg (sp := sp) true s1 (idx true l)
  have g2 := HcRs.end_cfg (sp := sp) false s2 (idx (!d) l)
  have a1 := end_left (sp := sp) true s1 true l
  have b1 := end_left (sp := sp) false s2 (!d) l
  have b2 := end_forward (sp := sp) false s2 (!d) l
  have k1 := HcRs.end_ok (sp := sp) H true s1 (idx true l)
  have k2 := HcRs.end_ok (sp := sp) H false s2 (idx (!d) l)
  generalize end_circle true sp s1 (idx true l) = c1 at *
  generalize end_circle false sp s2 (idx (!d) l) = c2 at *
  have hc : center c1 = center c2 := by
    rw [k1.rs.cen, k2.cc.cen, a1, b1, b2, cen_congr g1, cen_congr g2, ← cen_congr he, sg_not, neg_mul, e1]
  by_cases hE : SF.configuration_equal c1.start c2.start
  · exact (equal_le hE).trans (by positivity)
  refine (entry_length (t := 2) (x := (SF.circleAt c2.start c2.left c2.forward false sp.param).hc_turn_length c1.start) (by norm_num) ?_).trans ?_
  · apply Exists.intro
    unfold shortcut
    rw [if_neg hE]
    simp only
    rw [if_pos (by rw [scratch_distance, hc, sub_self, norm_zero]; norm_num [SF.epsilon])]
  · refine half_le_irregular (CC00.circOk_at H.kappa H.sigma H.clothoid _ _ _ _).ok hk hsg rfl
      (deflection_to (g2.trans he.symm) g1 (AngleEq.symm ((e2.add_right _).trans (AngleEq.of_eq ?_))))
    change _ + sg c2.forward * sg c2.left * _ = _
    rw [b1, b2, sg_not]; ring

theorem on_same_pm (H : Rng sp.kappa sp.sigma) {d d' l : Bool} {c1 c2 : SF.Circle}
    (hc1 : c1 = end_circle true sp s1 (idx d l)) (hc2 : c2 = end_circle true sp s2 (idx d' l))
    (h : center c1 = center c2) : SF.configuration_on_hc_cc_circle c1 c2.start := by
  have k1 : EndOk true sp.kappa sp.sigma c1 := hc1 ▸ HcRs.end_ok H true s1 _
  have k2 : EndOk true sp.kappa sp.sigma c2 := hc2 ▸ HcRs.end_ok H true s2 _
  have a1 : c1.left = l := hc1 ▸ end_left true s1 d l
  have b1 : c2.left = l := hc2 ▸ end_left true s2 d' l
  refine CCpmpm.on_same H.pos k1.rs ⟨hc2 ▸ SF.twopify_nonneg _, hc2 ▸ SF.twopify_lt _⟩ ?_
  rw [h, k2.rs.cen, a1, b1]

/-- HCpmpm. -/
theorem wordpmpm (H : Rng sp.kappa sp.sigma) {cs : List Segment} {d1 l1 d2 l2 : Bool}
    (hw : HcWord true true sp.kappa sp.sigma (sg d1) (sg l1) (sg d2) (sg l2) cs)
    (ht1 : Toward l1 s1.kappa) (ht2 : Toward l2 s2.kappa) (he : SameConfig (libAll cs (pose s1)) (pose s2))
    (hoff : ¬ SF.configuration_on_hc_cc_circle (end_circle true sp s1 (idx d1 l1)) (end_circle true sp s2 (idx (!d2) l2)).start)
    (hfin : totalLength cs < SF.dblMax) : ∃ x, get_distance true true sp s1 s2 = some x ∧ x ≤ totalLength cs := by
  refine best_le (f1 := d1) (l1 := l1) (f2 := !d2) (l2 := l2) (fun _ => ht1) (fun _ => ht2) ?_ hfin
  by_cases hE : SF.configuration_equal (end_circle true sp s1 (idx d1 l1)).start (end_circle true sp s2 (idx (!d2) l2)).start
  · exact (equal_le hE).trans (totalLength_nonneg cs)
  refine word_row H hw he rfl rfl ?_ ?_
  · unfold shortcut
    rw [if_neg hE]
    simp only
    rw [if_neg hoff]
  · intro hd2 hl2 hc
    exact hoff (on_same_pm H (d := d1) (d' := !d2) (l := l1) rfl (by rw [hl2]) hc)

/-- HCpmpm, one arc. -/
theorem turnpmpm (H : Rng sp.kappa sp.sigma) {a : ℝ} (ha : 0 ≤ a) {d l : Bool} (ht1 : Toward l s1.kappa)
    (ht2 : Toward l s2.kappa) (he : SameConfig (libAll [⟨sg d * a, sg l * sp.kappa, 0⟩] (pose s1)) (pose s2))
    (hfin : a < SF.dblMax) : ∃ x, get_distance true true sp s1 s2 = some x ∧ x ≤ a := by
  refine best_le (f1 := d) (l1 := l) (f2 := true) (l2 := l) (fun _ => ht1) (fun _ => ht2) ?_ hfin
  have t := (arc_arced H.pos l d ha (pose s1)).congr (HcRs.end_cfg (sp := sp) true s1 (idx d l)).symm
    (he.trans (HcRs.end_cfg (sp := sp) true s2 (idx true l)).symm)
  have hl : totalLength [⟨sg d * a, sg l * sp.kappa, 0⟩] = a := by
    simp only [totalLength, List.map_cons, List.map_nil, List.sum_cons, List.sum_nil, add_zero]
    exact abs_pm_mul (sg_pm d) ha
  rw [hl] at t
  have hon := fun h => on_same_pm (s1 := s1) (s2 := s2) (d := d) (d' := true) (l := l) H rfl rfl h
  have a1 := end_left (sp := sp) true s1 d l
  have a2 := end_forward (sp := sp) true s1 d l
  have b1 := end_left (sp := sp) true s2 true l
  have k1 := HcRs.end_ok (sp := sp) H true s1 (idx d l)
  have k2 := HcRs.end_ok (sp := sp) H true s2 (idx true l)
  generalize end_circle true sp s1 (idx d l) = c1 at *
  generalize end_circle true sp s2 (idx true l) = c2 at *
  have hc : center c1 = center c2 := by
    rw [k1.rs.cen, k2.rs.cen, a1, b1]; exact t.cen.symm
  by_cases hE : SF.configuration_equal c1.start c2.start
  · exact (equal_le hE).trans ha
  refine (entry_length (t := 2) (x := (SF.circleAt c1.start c1.left c1.forward true sp.rs_param).rs_turn_length c2.start) (by norm_num) ?_).trans ?_
  · apply Exists.intro
    unfold shortcut
    rw [if_neg hE]
    simp only
    rw [if_pos (hon hc)]
  · exact t.ahead _ _ (rsOk_at H.pos _ _ _ _) rfl a1 a2 (SameConfig.refl _) (SameConfig.refl _)

end HcOpt

end Spec
