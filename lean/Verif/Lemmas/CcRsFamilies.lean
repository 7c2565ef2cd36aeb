import Verif.Lemmas.CcRsTangent

/-!
# The families of CC-Reeds-Shepp paths
-/

noncomputable section

namespace Spec

open Real Props
open CC00 (CircOk cc_turn_ne_nil circOk_at)

/-! ### Rows -/

/-- A move. -/
abbrev CcPart (k s : ℝ) (m : SF.Move) (E : ℝ) (p q : Config) : Prop :=
  Leg k s 0 0 (turns m) E m.controls p q m.length

/-- A row of the tables leads from circle to circle. -/
structure CcRowOk (k s : ℝ) (c1 c2 : SF.Circle) (E : ℝ) (r : SF.RSRow) : Prop where
  leg : Leg k s 0 0 (r.moves.flatMap turns) E (r.moves.flatMap SF.Move.controls) (cfg c1.start) (cfg c2.start) r.length
  turns_le : (r.moves.flatMap turns).length ≤ 4

section
variable {k s E1 E2 E3 E4 E5 : ℝ} {m1 m2 m3 m4 m5 : SF.Move} {p0 p1 p2 p3 p4 p5 : Config}

theorem ccrow2 (h1 : CcPart k s m1 E1 p0 p1) (h2 : CcPart k s m2 E2 p1 p2) :
    Leg k s 0 0 ([m1, m2].flatMap turns) (E1 + E2) ([m1, m2].flatMap SF.Move.controls) p0 p2
      (m1.length + m2.length) := by
  simpa using h1.append h2

theorem ccrow3 (h1 : CcPart k s m1 E1 p0 p1) (h2 : CcPart k s m2 E2 p1 p2) (h3 : CcPart k s m3 E3 p2 p3) :
    Leg k s 0 0 ([m1, m2, m3].flatMap turns) (E1 + E2 + E3) ([m1, m2, m3].flatMap SF.Move.controls) p0 p3
      (m1.length + m2.length + m3.length) := by
  simpa using (h1.append h2).append h3

theorem ccrow4 (h1 : CcPart k s m1 E1 p0 p1) (h2 : CcPart k s m2 E2 p1 p2) (h3 : CcPart k s m3 E3 p2 p3)
    (h4 : CcPart k s m4 E4 p3 p4) :
    Leg k s 0 0 ([m1, m2, m3, m4].flatMap turns) (E1 + E2 + E3 + E4) ([m1, m2, m3, m4].flatMap SF.Move.controls) p0 p4
      (m1.length + m2.length + m3.length + m4.length) := by
  simpa using ((h1.append h2).append h3).append h4

theorem ccrow5 (h1 : CcPart k s m1 E1 p0 p1) (h2 : CcPart k s m2 E2 p1 p2) (h3 : CcPart k s m3 E3 p2 p3)
    (h4 : CcPart k s m4 E4 p3 p4) (h5 : CcPart k s m5 E5 p4 p5) :
    Leg k s 0 0 ([m1, m2, m3, m4, m5].flatMap turns) (E1 + E2 + E3 + E4 + E5)
      ([m1, m2, m3, m4, m5].flatMap SF.Move.controls) p0 p5
      (m1.length + m2.length + m3.length + m4.length + m5.length) := by
  simpa using (((h1.append h2).append h3).append h4).append h5

end

theorem ccRowOk {k s : ℝ} {c1 c2 : SF.Circle} {E E' len : ℝ} {moves : List SF.Move}
    (h : Leg k s 0 0 (moves.flatMap turns) E' (moves.flatMap SF.Move.controls)
      (cfg c1.start) (cfg c2.start) len) (ht : (moves.flatMap turns).length ≤ 4)
    (hE : E' ≤ E) : CcRowOk k s c1 c2 E ⟨len, moves⟩ := ⟨h.mono hE, ht⟩

theorem CcRowOk.shorter {k s : ℝ} {c1 c2 : SF.Circle} {E : ℝ} {a b : SF.RSRow}
    (ha : CcRowOk k s c1 c2 E a) (hb : CcRowOk k s c1 c2 E b) : CcRowOk k s c1 c2 E (a.shorter b) := by
  unfold SF.RSRow.shorter
  split_ifs
  exacts [ha, hb]

/-! ### Moves -/

section
variable {k s : ℝ} (H : Rng k s) {e : ℝ} {q q1 q2 : SF.Configuration} {z : ℂ} {l f r : Bool} {c : SF.Circle}

local notation "P" => SF.hc_cc_circle_param k s

include H in
theorem ccpart_cc (h : CircOk c k s)
    (he : ‖cen (-(sg c.forward * ccA k s)) (sg c.left * ccB k s) (cfg q) - center c‖ ≤ e) (order : Bool) :
    CcPart k s (.cc c q order) e (tFrom c q order) (tTo c q order) := by
  refine ⟨fun tau _ hb => ?_, fun hb => cc_turn_length_eq _ _ _ (hb (c, q) (by simp [turns])), cc_turn_ne_nil _ _ _⟩
  have := cc_turn_track h.ok H.kappa H.sigma H.clothoid h.cen he order (hb (c, q) (by simp [turns]))
  rwa [h.ok.radius] at this

include H in
theorem ccpart_first (h : CircOk c k s) (ht : AtTan k s c.forward c.left (center c) q e) :
    CcPart k s (.cc c q true) e (cfg c.start) (cfg q) := ccpart_cc H h ht true

include H in
theorem ccpart_last (h : CircOk c k s) (ht : AtTan k s c.forward c.left (center c) q e) :
    CcPart k s (.cc c q false) e (cfg q) (cfg c.start) := ccpart_cc H h ht false

include H in
theorem ccpart_mid (h1 : AtTan k s (!f) l z q1 0) (h2 : AtTan k s f l z q2 0) :
    CcPart k s (.cc (SF.circleAt q1 l f r P) q2 true) 0 (cfg q1) (cfg q2) := by
  have hz : center (SF.circleAt q1 l f r P) = z :=
    sub_eq_zero.1 (norm_le_zero_iff.1 (AtTan.center H h1))
  exact ccpart_cc H (q := q2) (circOk_at H.kappa H.sigma H.clothoid q1 l f r) (by rw [hz]; exact h2) true

include H in
theorem ccpart_line {d x : ℝ} (hd : d = 1 ∨ d = -1) (hx : 0 ≤ x) (h : Ahead d q1 q2 x) :
    CcPart k s (.line q1 q2) 0 (cfg q1) (cfg q2) := (leg_straight H hd hx h.2 h.1).toLeg

end

/-! ### A turn to a configuration whose coordinates are not numbers -/

section
variable {k s : ℝ} (H : Rng k s) {e : ℝ} {c : SF.Circle}

theorem blind_controls (c : SF.Circle) (t : ℝ) (order : Bool) (hd : SF.epsilon ≤ c.deflection (SF.CcRs.blind c t)) :
    SF.cc_turn_controls c (SF.CcRs.blind c t) order
      = SF.cc_default_controls c (c.deflection (SF.CcRs.blind c t)) order := by
  have h0 : ¬ SF.point_distance c.start.x c.start.y (SF.CcRs.blind c t).x (SF.CcRs.blind c t).y > SF.epsilon := by
    simp [SF.point_distance, SF.CcRs.blind, SF.configuration, SF.epsilon]
  have hn : ∀ delta, SF.cc_elementary_controls c (SF.CcRs.blind c t) delta order = none := by
    intro delta
    unfold SF.cc_elementary_controls SF.Circle.cc_elementary_sharpness
    simp only [h0, and_false, if_false]
  unfold SF.cc_turn_controls
  simp only [if_neg (not_lt.2 hd), hn]
  split_ifs <;> rfl

include H in
/-- Only the heading counts. -/
theorem ccpart_blind (h : CircOk c k s) {t : ℝ} (hd : SF.epsilon ≤ c.deflection (SF.CcRs.blind c t)) (order : Bool)
    {p p' : Config} (hp : AngleEq p.theta (tFrom c (SF.CcRs.blind c t) order).theta)
    (hp' : AngleEq p'.theta (tTo c (SF.CcRs.blind c t) order).theta)
    (he : ‖cen (-(SF.direction c.forward order * ccA k s)) (sg c.left * ccB k s) p'
      - cen (SF.direction c.forward order * ccA k s) (sg c.left * ccB k s) p‖ ≤ e) :
    CcPart k s (.cc c (SF.CcRs.blind c t) order) e p p' := by
  have hk := H.pos
  have hs := H.sigma
  have he0 : 0 ≤ e := (norm_nonneg _).trans he
  have hR := ccR_nonneg k s
  have hlen := cc_turn_length_eq c (SF.CcRs.blind c t) order hd
  have hbc := blind_controls c t order hd
  obtain ⟨f1, f2⟩ := cc_default_end h.ok hk hs (c.deflection (SF.CcRs.blind c t)) order p
  have ht := f2.trans (((hp.add_right _).trans (turn_angle c (SF.CcRs.blind c t) order).symm).trans hp'.symm)
  have hw : Near (2 * e) (libAll ((SF.cc_turn_controls c (SF.CcRs.blind c t) order).map seg) p) p' := by
    rw [hbc]
    refine ⟨?_, ht⟩
    rw [dist_of_cen (a := -(SF.direction c.forward order * ccA k s)) (b := sg c.left * ccB k s) ht, f1,
      norm_sub_rev]
    linarith
  have S : TurnShape k s (SF.direction c.forward order) (sg c.left) (c.deflection (SF.CcRs.blind c t)) c.regular
      (fun _ _ => False) (SF.cc_turn_controls c (SF.CcRs.blind c t) order) := by
    rw [hbc]
    unfold SF.cc_default_controls
    rw [abs_kappa_sigma h.ok hk hs]
    simp only [h.ok.kappa, h.ok.sigma]
    exact .full _ (fun hr => mul_nonneg (abs_nonneg _) (cc_circular_nonneg hr (deflection_spec c _).2.1)) hd
  refine ⟨fun tau ht0 hb => ⟨he0, ?_, S.continuous hk hs (direction_pm _ _),
    fun _ hm => S.limits hk hs (direction_pm _ _) (sg_pm _) hm.1 (fun _ _ hf => hf.elim), S.flat H.kappa (sg_pm _)⟩,
    fun _ => hlen, cc_turn_ne_nil _ _ _⟩
  have l1 := totalLength_nonneg ((SF.Move.controls (.cc c (SF.CcRs.blind c t) order)).map seg)
  have l2 := mul_nonneg ht0 l1
  have l3 := mul_nonneg hR ht0
  refine leads_of_lib (hw.within.mono ?_ ?_) ?_
  · simp only [turns, List.length_singleton, Nat.cast_one]; nlinarith
  · simp only [turns, List.length_singleton, Nat.cast_one]; linarith
  · change abs (totalLength ((SF.cc_turn_controls c (SF.CcRs.blind c t) order).map seg)
      - c.cc_turn_length (SF.CcRs.blind c t)) ≤ _
    rw [hlen, sub_self, abs_zero]
    simp only [turns, List.length_singleton, Nat.cast_one]; linarith

end

/-- Sum of the errors of the centres of `TcT`. -/
def cuspE (k s : ℝ) : ℝ := SF.epsilon * (1 + (2 * ccB k s + SF.epsilon / 2) / ccA k s)

section families
variable {k s : ℝ} (H : Rng k s) {c1 c2 : SF.Circle} (h1 : CircOk c1 k s) (h2 : CircOk c2 k s)

local notation "P" => SF.hc_cc_circle_param k s
local notation "m" => SF.scratch c1 c2

theorem count_cc (m1 : SF.Move) : (turns m1).length ≤ 1 := turns_le m1

include H h1 h2 in
theorem TT_ccrow (h : SF.CcRs.TT_exists m c1 c2) : CcRowOk k s c1 c2 SF.epsilon (SF.CcRs.TT_path c1 c2) := by
  unfold SF.CcRs.TT_exists SF.CC00.TT_exists at h
  split_ifs at h with hl hf
  have hl' : c2.left = !c1.left := not_of_ne hl
  have hf' : c2.forward = !c1.forward := not_of_ne hf
  have hd : |‖center c2 - center c1‖ - 2 * ccR k s| ≤ 2 * (SF.epsilon / 2) := by
    rw [← scratch_distance, ← h1.ok.geom.ccR]
    refine le_trans (le_of_lt h) (by linarith)
  obtain ⟨t1, t2⟩ := TT_geo c1 c2 h1.ok.geom hd
  rw [← hf', ← hl'] at t2
  exact ccRowOk (ccrow2 (ccpart_first H h1 t1) (ccpart_last H h2 t2)) (by simp [turns]) (by linarith)

include H h1 h2 in
theorem TcT_ccrow (h : SF.CcRs.TcT_exists m c1 c2) (hlost : ¬SF.CcRs.TcT_lost c1 c2) :
    CcRowOk k s c1 c2 (cuspE k s) (SF.CcRs.TcT_path c1 c2) := by
  have hA := ccA_pos H.kappa H.sigma H.clothoid
  have hB := ccB_pos H.kappa H.sigma H.clothoid
  have he : 0 < SF.epsilon := by norm_num [SF.epsilon]
  unfold SF.CcRs.TcT_exists at h
  split_ifs at h with hl hf
  have hl' : c2.left = !c1.left := not_of_ne hl
  have hf' : c2.forward = c1.forward := (not_not.1 hf).symm
  rw [mul_assoc 2, h1.ok.cos_mu, scratch_distance] at h
  unfold SF.CcRs.TcT_path
  by_cases hn : SF.CcRs.TcT_negative c1 c2
  · simp only [if_pos hn]
    have hdef : SF.epsilon ≤ c1.deflection (SF.CcRs.blind c1 (SF.CcRs.TcT_theta c1 c2)) ∧
        SF.epsilon ≤ c2.deflection (SF.CcRs.blind c2 (SF.CcRs.TcT_theta c1 c2)) := by
      unfold SF.CcRs.TcT_lost at hlost
      push Not at hlost
      exact hlost hn
    obtain ⟨t, ht⟩ : ∃ t, t = SF.CcRs.TcT_theta c1 c2 := ⟨_, rfl⟩
    rw [← ht] at hdef ⊢
    -- the configuration where the first circle is left
    obtain ⟨p, hp, hth⟩ : ∃ p : Config,
        p.pos = center c1 - cis t * ⟨-(sg c1.forward * ccA k s), sg c1.left * ccB k s⟩ ∧ p.theta = t :=
      ⟨⟨(center c1 - cis t * ⟨-(sg c1.forward * ccA k s), sg c1.left * ccB k s⟩).re,
        (center c1 - cis t * ⟨-(sg c1.forward * ccA k s), sg c1.left * ccB k s⟩).im, t⟩, rfl, rfl⟩
    have hbt : ∀ c : SF.Circle, AngleEq t (SF.CcRs.blind c t).theta := fun c => (SF.twopify_angleEq t).symm
    have e1 : cen (-(sg c1.forward * ccA k s)) (sg c1.left * ccB k s) p = center c1 := by rw [cen, hp, hth]; ring
    have p1 := ccpart_blind H h1 hdef.1 true (e := 0) (p := cfg c1.start) (p' := p) (AngleEq.refl _)
      (by rw [hth]; exact hbt c1) (by rw [direction_to, e1, h1.cen, sub_self, norm_zero])
    have hpol := center_polar c1 c2
    have hcis : cis t = ((sg c1.left : ℝ) : ℂ) * Complex.I * cis (SF.atan2 (c2.yc - c1.yc) (c2.xc - c1.xc)) := by
      rw [ht]; unfold SF.CcRs.TcT_theta
      cases c1.left <;> apply Complex.ext <;> simp [cis, sg, cos_add, sin_add, cos_sub, sin_sub]
    have hll : ((sg c1.left : ℝ) : ℂ) * ((sg c1.left : ℝ) : ℂ) = 1 := by exact_mod_cast sg_mul_sg c1.left
    have p2 := ccpart_blind H h2 hdef.2 false (e := SF.epsilon) (p := p) (p' := cfg c2.start)
      (by rw [hth]; exact hbt c2) (AngleEq.refl _) (by
        rw [direction_from, neg_mul, neg_neg, ← h2.cen, cen, hp, hth, hpol, hf', hl', sg_not]
        rw [← center_distance_eq] at h
        rw [hcis, Complex.mk_eq_add_mul_I, Complex.mk_eq_add_mul_I]
        generalize SF.atan2 (c2.yc - c1.yc) (c2.xc - c1.xc) = g at *
        refine le_trans (le_of_eq ?_) h.le
        rw [show ∀ x : ℝ, |x| = ‖((x : ℂ) * cis g)‖ by
          intro x; rw [norm_mul, norm_cis, mul_one, Complex.norm_real, Real.norm_eq_abs]]
        congr 1
        push_cast
        linear_combination (2 * (ccB k s : ℂ) * cis g) * (((sg c1.left : ℝ) : ℂ) * ((sg c1.left : ℝ) : ℂ) * Complex.I_mul_I - hll))
    refine ccRowOk (ccrow2 p1 p2) (by simp [turns]) ?_
    unfold cuspE
    have : 0 ≤ (2 * ccB k s + SF.epsilon / 2) / ccA k s := by positivity
    nlinarith
  · simp only [if_neg hn]
    obtain ⟨t1, t2⟩ := TcT_cc_near H c1 c2 h1.ok.geom (e := SF.epsilon / 2) (h.le.trans (by linarith)) hn
    rw [← hl', ← hf'] at t2
    exact ccRowOk (ccrow2 (ccpart_first H h1 t1) (ccpart_last H h2 t2)) (by simp [turns]) (by unfold cuspE; linarith)

include H h1 h2 in
theorem TcTcT_side_ccrow (hl : c2.left = c1.left) (hf : c2.forward = !c1.forward) {dx dy : ℝ}
    (d1 : dx ^ 2 + dy ^ 2 = (2 * ccB k s) ^ 2) (d2 : ((m).distance - dx) ^ 2 + dy ^ 2 = (2 * ccB k s) ^ 2) :
    CcRowOk k s c1 c2 0 (SF.CcRs.TcTcT_side P m c1 c2 dx dy) := by
  have hB := ccB_pos H.kappa H.sigma H.clothoid
  have hB2 : 0 ≤ 2 * ccB k s := by linarith
  have hR2 : 0 ≤ 2 * ccR k s := mul_nonneg zero_le_two (ccR_nonneg k s)
  unfold SF.CcRs.TcTcT_side
  have D1 := frame_dist (g := (m).angle) c1 d1 hB2
  have D2 := frame_dist_to c1 c2 d2 hB2
  generalize SF.global_frame_change c1.xc c1.yc (m).angle dx dy = p at *
  obtain ⟨t1, t2⟩ := TcT_cc_at H c1 (SF.circleCentered p.1 p.2 (!c1.left) (!c1.forward) c1.regular P) h1.ok.geom rfl rfl rfl rfl D1
  obtain ⟨t3, t4⟩ := TcT_cc_at H (f := (!c1.forward)) (l := !c1.left) (SF.circleCentered p.1 p.2 (!c1.left) (!c1.forward) c1.regular P) c2
    (geo_centered H _ _ _ _ _) rfl rfl rfl rfl D2
  have t2 := t2.side (Bool.not_not c1.forward) rfl
  have t4 := t4.side (f' := c2.forward) (l' := c2.left) (by rw [hf]) (by rw [hl, Bool.not_not])
  exact ccRowOk (ccrow3 (ccpart_first H h1 t1) (ccpart_mid H t2 t3) (ccpart_last H h2 t4)) (by simp [turns]) (by simp)

include H h1 h2 in
theorem TcTcT_ccrow (h : SF.CcRs.TcTcT_exists m c1 c2) : CcRowOk k s c1 c2 0 (SF.CcRs.TcTcT_path P m c1 c2) := by
  unfold SF.CcRs.TcTcT_exists at h
  split_ifs at h with hl hf
  have hl' : c2.left = c1.left := (not_not.1 hl).symm
  have hf' : c2.forward = !c1.forward := not_of_ne hf
  have h0 : 0 ≤ (m).distance := by rw [scratch_distance]; exact norm_nonneg _
  rw [mul_assoc 4, h1.ok.cos_mu] at h
  unfold SF.CcRs.TcTcT_path
  rw [mul_assoc 2, h1.ok.cos_mu]
  have hsq : 0 ≤ (2 * ccB k s) ^ 2 - (0.5 * (m).distance) ^ 2 := by nlinarith
  have hs := sq_sqrt hsq
  refine (TcTcT_side_ccrow H h1 h2 hl' hf' ?_ ?_).shorter (TcTcT_side_ccrow H h1 h2 hl' hf' ?_ ?_)
  · rw [hs]; ring
  · rw [hs]; ring
  · rw [neg_sq, hs]; ring
  · rw [neg_sq, hs]; ring

include H h1 h2 in
theorem TcTT_side_ccrow (hl : c2.left = c1.left) (hf : c2.forward = c1.forward) {dx dy : ℝ}
    (d1 : dx ^ 2 + dy ^ 2 = (2 * ccB k s) ^ 2) (d2 : ((m).distance - dx) ^ 2 + dy ^ 2 = (2 * ccR k s) ^ 2) :
    CcRowOk k s c1 c2 0 (SF.CcRs.TcTT_side P m c1 c2 dx dy) := by
  have hB := ccB_pos H.kappa H.sigma H.clothoid
  have hB2 : 0 ≤ 2 * ccB k s := by linarith
  have hR2 : 0 ≤ 2 * ccR k s := mul_nonneg zero_le_two (ccR_nonneg k s)
  unfold SF.CcRs.TcTT_side
  have D1 := frame_dist (g := (m).angle) c1 d1 hB2
  have D2 := frame_dist_to c1 c2 d2 hR2
  generalize SF.global_frame_change c1.xc c1.yc (m).angle dx dy = p at *
  obtain ⟨t1, t2⟩ := TcT_cc_at H c1 (SF.circleCentered p.1 p.2 (!c1.left) (!c1.forward) c1.regular P) h1.ok.geom rfl rfl rfl rfl D1
  obtain ⟨t3, t4⟩ := TT_geo' (f := (!c1.forward)) (l := !c1.left) (SF.circleCentered p.1 p.2 (!c1.left) (!c1.forward) c1.regular P) c2
    (geo_centered H _ _ _ _ _) rfl rfl rfl rfl D2
  have t2 := t2.side (Bool.not_not c1.forward) rfl
  have t4 := t4.side (f' := c2.forward) (l' := c2.left) (by rw [hf]; simp) (by rw [hl, Bool.not_not])
  exact ccRowOk (ccrow3 (ccpart_first H h1 t1) (ccpart_mid H t2 t3) (ccpart_last H h2 t4)) (by simp [turns]) (by simp)

include H h1 h2 in
theorem TcTT_ccrow (h : SF.CcRs.TcTT_exists m c1 c2) (hlt : (SF.CcRs.TcTT_path P m c1 c2).length < SF.dblMax) :
    CcRowOk k s c1 c2 0 (SF.CcRs.TcTT_path P m c1 c2) := by
  unfold SF.CcRs.TcTT_exists at h
  split_ifs at h with hl hf
  have hl' : c2.left = c1.left := (not_not.1 hl).symm
  have hf' : c2.forward = c1.forward := (not_not.1 hf).symm
  unfold SF.CcRs.TcTT_path at hlt ⊢
  rw [mul_assoc 2 c1.radius, h1.ok.cos_mu, h1.ok.geom.ccR] at hlt ⊢
  simp only at hlt ⊢
  split_ifs at hlt ⊢ with hg
  · exact absurd hlt (lt_irrefl _)
  · push Not at hg
    have hs := sq_sqrt hg.2
    have T := two_circles hg.1 rfl hs
    have T' := two_circles hg.1 rfl ((neg_sq _).trans hs)
    exact (TcTT_side_ccrow H h1 h2 hl' hf' T.1 T.2).shorter (TcTT_side_ccrow H h1 h2 hl' hf' T'.1 T'.2)

include H h1 h2 in
theorem TTcT_side_ccrow (hl : c2.left = c1.left) (hf : c2.forward = c1.forward) {dx dy : ℝ}
    (d1 : dx ^ 2 + dy ^ 2 = (2 * ccR k s) ^ 2) (d2 : ((m).distance - dx) ^ 2 + dy ^ 2 = (2 * ccB k s) ^ 2) :
    CcRowOk k s c1 c2 0 (SF.CcRs.TTcT_side P m c1 c2 dx dy) := by
  have hB := ccB_pos H.kappa H.sigma H.clothoid
  have hB2 : 0 ≤ 2 * ccB k s := by linarith
  have hR2 : 0 ≤ 2 * ccR k s := mul_nonneg zero_le_two (ccR_nonneg k s)
  unfold SF.CcRs.TTcT_side
  have D1 := frame_dist (g := (m).angle) c1 d1 hR2
  have D2 := frame_dist_to c1 c2 d2 hB2
  generalize SF.global_frame_change c1.xc c1.yc (m).angle dx dy = p at *
  obtain ⟨t1, t2⟩ := TT_geo' c1 (SF.circleCentered p.1 p.2 (!c1.left) c1.forward c1.regular P) h1.ok.geom rfl rfl rfl rfl D1
  obtain ⟨t3, t4⟩ := TcT_cc_at H (f := c1.forward) (l := !c1.left) (SF.circleCentered p.1 p.2 (!c1.left) c1.forward c1.regular P) c2
    (geo_centered H _ _ _ _ _) rfl rfl rfl rfl D2
  have t4 := t4.side (f' := c2.forward) (l' := c2.left) (by rw [hf]) (by rw [hl, Bool.not_not])
  exact ccRowOk (ccrow3 (ccpart_first H h1 t1) (ccpart_mid H t2 t3) (ccpart_last H h2 t4)) (by simp [turns]) (by simp)

include H h1 h2 in
theorem TTcT_ccrow (h : SF.CcRs.TTcT_exists m c1 c2) (hlt : (SF.CcRs.TTcT_path P m c1 c2).length < SF.dblMax) :
    CcRowOk k s c1 c2 0 (SF.CcRs.TTcT_path P m c1 c2) := by
  unfold SF.CcRs.TTcT_exists at h
  split_ifs at h with hl hf
  have hl' : c2.left = c1.left := (not_not.1 hl).symm
  have hf' : c2.forward = c1.forward := (not_not.1 hf).symm
  unfold SF.CcRs.TTcT_path at hlt ⊢
  rw [mul_assoc 2 c1.radius, h1.ok.cos_mu, h1.ok.geom.ccR] at hlt ⊢
  simp only at hlt ⊢
  split_ifs at hlt ⊢ with hg
  · exact absurd hlt (lt_irrefl _)
  · push Not at hg
    have hs := sq_sqrt hg.2
    have T := two_circles hg.1 rfl hs
    have T' := two_circles hg.1 rfl ((neg_sq _).trans hs)
    exact (TTcT_side_ccrow H h1 h2 hl' hf' T.1 T.2).shorter (TTcT_side_ccrow H h1 h2 hl' hf' T'.1 T'.2)

/-! #### Lines -/

include H h1 h2 in
theorem line_ccrow {q : SF.Configuration × SF.Configuration} {x d : ℝ} (hd : d = 1 ∨ d = -1)
    (t1 : AtTan k s c1.forward c1.left (center c1) q.1 0) (t2 : AtTan k s c2.forward c2.left (center c2) q.2 0)
    (hx : 0 ≤ x) (ha : Ahead d q.1 q.2 x) : CcRowOk k s c1 c2 0 (SF.CcRs.line_row c1 c2 q) :=
  ccRowOk (ccrow3 (ccpart_first H h1 t1) (ccpart_line H hd hx ha) (ccpart_last H h2 t2)) (by simp [turns]) (by simp)

include H h1 h2 in
theorem TST_ccrow (hlt : (SF.CcRs.TST_path m c1 c2).length < SF.dblMax) :
    CcRowOk k s c1 c2 0 (SF.CcRs.TST_path m c1 c2) := by
  unfold SF.CcRs.TST_path at hlt ⊢
  split_ifs at hlt ⊢ with hi he
  · unfold SF.CcRs.TiST_exists SF.CC00.TiST_exists at hi
    split_ifs at hi with hl hf
    have hl' : c2.left = !c1.left := not_of_ne hl
    have hf' : c2.forward = !c1.forward := not_of_ne hf
    have hd : 2 * ccR k s ≤ ‖center c2 - center c1‖ := by rw [← scratch_distance, ← h1.ok.geom.ccR]; exact hi
    obtain ⟨t1, t2, x, hx, _, ha⟩ := TiST_geo H c1 c2 h1.ok.geom hd
    exact line_ccrow H h1 h2 (sg_pm _) t1 (t2.side hf' hl') hx ha
  · unfold SF.CcRs.TeST_exists SF.CC00.TeST_exists at he
    split_ifs at he with hl hf
    have hl' : c2.left = c1.left := (not_not.1 hl).symm
    have hf' : c2.forward = !c1.forward := not_of_ne hf
    have hd : 2 * ccA k s ≤ ‖center c2 - center c1‖ := by
      rw [← scratch_distance, ← h1.ok.sin_mu, ← mul_assoc]; exact he
    obtain ⟨t1, t2, x, hx, _, ha⟩ := TeST_geo H c1 c2 h1.ok.geom hd
    exact line_ccrow H h1 h2 (sg_pm _) t1 (t2.side hf' hl') hx ha
  · exact absurd hlt (lt_irrefl _)

include H h1 h2 in
theorem TcST_ccrow (hlt : (SF.CcRs.TcST_path m c1 c2).length < SF.dblMax) :
    CcRowOk k s c1 c2 0 (SF.CcRs.TcST_path m c1 c2) := by
  have hpm : -sg c1.forward = 1 ∨ -sg c1.forward = -1 := by rw [← sg_not]; exact sg_pm _
  unfold SF.CcRs.TcST_path at hlt ⊢
  split_ifs at hlt ⊢ with hg he
  · unfold SF.CcRs.TciST_exists at hg
    split_ifs at hg with hl hf
    have hl' : c2.left = !c1.left := not_of_ne hl
    have hf' : c2.forward = c1.forward := (not_not.1 hf).symm
    rw [mul_assoc 2, h1.ok.cos_mu, scratch_distance] at hg
    obtain ⟨t1, t2, x, hx, _, ha⟩ := TciST_cc_at H c1 c2 h1.ok.geom hg
    exact line_ccrow H h1 h2 hpm t1 (t2.side hf' hl') hx ha
  · unfold SF.CcRs.TceST_exists at he
    split_ifs at he with hl hf
    have hl' : c2.left = c1.left := (not_not.1 hl).symm
    have hf' : c2.forward = c1.forward := (not_not.1 hf).symm
    obtain ⟨t1, t2, x, hx, _, ha⟩ := TceST_cc_at H c1 c2 h1.ok.geom
    exact line_ccrow H h1 h2 hpm t1 (t2.side hf' hl') hx ha
  · exact absurd hlt (lt_irrefl _)

include H h1 h2 in
theorem TScT_ccrow (hlt : (SF.CcRs.TScT_path m c1 c2).length < SF.dblMax) :
    CcRowOk k s c1 c2 0 (SF.CcRs.TScT_path m c1 c2) := by
  unfold SF.CcRs.TScT_path at hlt ⊢
  split_ifs at hlt ⊢ with hg he
  · unfold SF.CcRs.TiScT_exists at hg
    split_ifs at hg with hl hf
    have hl' : c2.left = !c1.left := not_of_ne hl
    have hf' : c2.forward = c1.forward := (not_not.1 hf).symm
    rw [mul_assoc 2, h1.ok.cos_mu, scratch_distance] at hg
    obtain ⟨t1, t2, x, hx, _, ha⟩ := TiScT_cc_at H c1 c2 h1.ok.geom hg
    exact line_ccrow H h1 h2 (sg_pm _) t1 (t2.side hf' hl') hx ha
  · unfold SF.CcRs.TeScT_exists at he
    split_ifs at he with hl hf
    have hl' : c2.left = c1.left := (not_not.1 hl).symm
    have hf' : c2.forward = c1.forward := (not_not.1 hf).symm
    obtain ⟨t1, t2, x, hx, _, ha⟩ := TeScT_cc_at H c1 c2 h1.ok.geom
    exact line_ccrow H h1 h2 (sg_pm _) t1 (t2.side hf' hl') hx ha
  · exact absurd hlt (lt_irrefl _)

include H h1 h2 in
theorem TcScT_ccrow (hlt : (SF.CcRs.TcScT_path m c1 c2).length < SF.dblMax) :
    CcRowOk k s c1 c2 0 (SF.CcRs.TcScT_path m c1 c2) := by
  have hpm : -sg c1.forward = 1 ∨ -sg c1.forward = -1 := by rw [← sg_not]; exact sg_pm _
  unfold SF.CcRs.TcScT_path at hlt ⊢
  split_ifs at hlt ⊢ with hg he
  · unfold SF.CcRs.TciScT_exists at hg
    split_ifs at hg with hl hf
    have hl' : c2.left = !c1.left := not_of_ne hl
    have hf' : c2.forward = !c1.forward := not_of_ne hf
    rw [mul_assoc 2, h1.ok.cos_mu, scratch_distance] at hg
    obtain ⟨t1, t2, x, hx, _, ha⟩ := TciScT_cc_at H c1 c2 h1.ok.geom hg
    have hx : 0 ≤ x := by linarith [ccA_pos H.kappa H.sigma H.clothoid]
    exact line_ccrow H h1 h2 hpm t1 (t2.side hf' hl') hx ha
  · unfold SF.CcRs.TceScT_exists at he
    split_ifs at he with hl hf
    have hl' : c2.left = c1.left := (not_not.1 hl).symm
    have hf' : c2.forward = !c1.forward := not_of_ne hf
    obtain ⟨t1, t2, x, hx, _, ha⟩ := TceScT_cc_at H c1 c2 h1.ok.geom
    have hx : 0 ≤ x := by linarith [ccA_pos H.kappa H.sigma H.clothoid]
    exact line_ccrow H h1 h2 hpm t1 (t2.side hf' hl') hx ha
  · exact absurd hlt (lt_irrefl _)

/-! #### Four circles -/

include H h1 h2 in
theorem TTcTT_side_ccrow (hl : c2.left = !c1.left) (hf : c2.forward = c1.forward) {dx dy : ℝ}
    (d1 : dx ^ 2 + dy ^ 2 = (2 * ccR k s) ^ 2) (d2 : ((m).distance - dx - dx) ^ 2 = (2 * ccB k s) ^ 2) :
    CcRowOk k s c1 c2 0 (SF.CcRs.TTcTT_side P m c1 c2 dx dy) := by
  have hB := ccB_pos H.kappa H.sigma H.clothoid
  have hB2 : 0 ≤ 2 * ccB k s := by linarith
  have hR : 0 ≤ 2 * ccR k s := mul_nonneg zero_le_two (ccR_nonneg k s)
  have D1 := frame_dist (g := (m).angle) c1 d1 hR
  have D2 := frame_dist (g := (m).angle) c2 ((congrArg (· + dy ^ 2) (neg_sq dx)).trans d1) hR
  have D3 := frame_dist_both c1 c2 (dx := dx) (dy := dy) (ex := -dx) (ey := dy) (r := 2 * ccB k s)
    (by rw [← d2]; ring) hB2
  rw [norm_sub_rev] at D2
  unfold SF.CcRs.TTcTT_side
  generalize SF.global_frame_change c1.xc c1.yc (m).angle dx dy = p1 at *
  generalize SF.global_frame_change c2.xc c2.yc (m).angle (-dx) dy = p2 at *
  obtain ⟨t1, t2⟩ := TT_geo' c1 (SF.circleCentered p1.1 p1.2 (!c1.left) c1.forward c1.regular P) h1.ok.geom rfl rfl rfl rfl D1
  obtain ⟨t3, t4⟩ := TcT_cc_at H (f := c1.forward) (l := !c1.left) (SF.circleCentered p1.1 p1.2 (!c1.left) c1.forward c1.regular P)
    (SF.circleCentered p2.1 p2.2 (!c2.left) (!c2.forward) c2.regular P) (geo_centered H _ _ _ _ _) rfl rfl rfl rfl D3
  obtain ⟨t5, t6⟩ := TT_geo' (f := !c2.forward) (l := !c2.left) (SF.circleCentered p2.1 p2.2 (!c2.left) (!c2.forward) c2.regular P) c2
    (geo_centered H _ _ _ _ _) rfl rfl rfl rfl D2
  have t6 := t6.side (Bool.not_not _).symm (Bool.not_not _).symm
  have t4 := t4.side (f' := !!c2.forward) (l' := !c2.left) (by rw [hf, Bool.not_not]) (by rw [hl])
  exact ccRowOk (ccrow4 (ccpart_first H h1 t1) (ccpart_mid H t2 t3) (ccpart_mid H t4 t5) (ccpart_last H h2 t6))
    (by simp [turns]) (by simp)

include H h1 h2 in
theorem TTcTT_ccrow (h : SF.CcRs.TTcTT_exists m c1 c2) (hlt : (SF.CcRs.TTcTT_path P m c1 c2).length < SF.dblMax) :
    CcRowOk k s c1 c2 0 (SF.CcRs.TTcTT_path P m c1 c2) := by
  unfold SF.CcRs.TTcTT_exists at h
  split_ifs at h with hl hf
  have hl' : c2.left = !c1.left := not_of_ne hl
  have hf' : c2.forward = c1.forward := (not_not.1 hf).symm
  unfold SF.CcRs.TTcTT_path at hlt ⊢
  simp only at hlt ⊢
  rw [show 2 * c1.radius * c1.cos_mu = 2 * ccB k s by rw [← h1.ok.cos_mu]; ring,
    show 2 * c1.radius = 2 * ccR k s by rw [h1.ok.geom.ccR]] at hlt ⊢
  obtain ⟨dx, hdx⟩ : ∃ dx, dx = (if (m).distance < 2 * ccR k s * (-c1.cos_mu + 2) then ((m).distance + 2 * ccB k s) / 2
    else ((m).distance - 2 * ccB k s) / 2) := ⟨_, rfl⟩
  rw [← hdx] at hlt ⊢
  have d2 : ((m).distance - dx - dx) ^ 2 = (2 * ccB k s) ^ 2 := by
    rw [hdx]; split_ifs <;> ring
  split_ifs at hlt ⊢ with hg
  · exact absurd hlt (lt_irrefl _)
  · have hs := sq_sqrt (not_lt.1 hg)
    refine (TTcTT_side_ccrow H h1 h2 hl' hf' ?_ d2).shorter (TTcTT_side_ccrow H h1 h2 hl' hf' ?_ d2)
    · rw [hs]; ring
    · rw [neg_sq, hs]; ring

include H h1 h2 in
theorem TcTTcT_side_ccrow (hl : c2.left = !c1.left) (hf : c2.forward = !c1.forward) {dx dy : ℝ}
    (d1 : dx ^ 2 + dy ^ 2 = (2 * ccB k s) ^ 2)
    (d2 : ((m).distance - dx - dx) ^ 2 + (-dy - dy) ^ 2 = (2 * ccR k s) ^ 2) :
    CcRowOk k s c1 c2 0 (SF.CcRs.TcTTcT_side P m c1 c2 dx dy) := by
  have hB := ccB_pos H.kappa H.sigma H.clothoid
  have hB2 : 0 ≤ 2 * ccB k s := by linarith
  have hR : 0 ≤ 2 * ccR k s := mul_nonneg zero_le_two (ccR_nonneg k s)
  have D1 := frame_dist (g := (m).angle) c1 d1 hB2
  have D2 := frame_dist (g := (m).angle) (dx := -dx) (dy := -dy) c2 (by rw [neg_sq, neg_sq]; exact d1) hB2
  have D3 := frame_dist_both c1 c2 (dx := dx) (dy := dy) (ex := -dx) (ey := -dy) (r := 2 * ccR k s)
    (by rw [← d2]; ring) hR
  rw [norm_sub_rev] at D2
  unfold SF.CcRs.TcTTcT_side
  generalize SF.global_frame_change c1.xc c1.yc (m).angle dx dy = p1 at *
  generalize SF.global_frame_change c2.xc c2.yc (m).angle (-dx) (-dy) = p2 at *
  obtain ⟨t1, t2⟩ := TcT_cc_at H c1 (SF.circleCentered p1.1 p1.2 (!c1.left) (!c1.forward) c1.regular P) h1.ok.geom rfl rfl rfl rfl D1
  obtain ⟨t3, t4⟩ := TT_geo' (f := !c1.forward) (l := !c1.left) (SF.circleCentered p1.1 p1.2 (!c1.left) (!c1.forward) c1.regular P)
    (SF.circleCentered p2.1 p2.2 (!c2.left) c2.forward c2.regular P) (geo_centered H _ _ _ _ _) rfl rfl rfl rfl D3
  obtain ⟨t5, t6⟩ := TcT_cc_at H (f := c2.forward) (l := !c2.left) (SF.circleCentered p2.1 p2.2 (!c2.left) c2.forward c2.regular P) c2
    (geo_centered H _ _ _ _ _) rfl rfl rfl rfl D2
  have t2 := t2.side (f' := !!c1.forward) (l' := !c1.left) (Bool.not_not _) rfl
  have t4 := t4.side (f' := !!c1.forward) (l' := c1.left) rfl (Bool.not_not _).symm
  have t5 := t5.side (f' := !c1.forward) (l' := c1.left) hf.symm (by rw [hl, Bool.not_not])
  have t6 := t6.side rfl (Bool.not_not _).symm
  exact ccRowOk (ccrow4 (ccpart_first H h1 t1) (ccpart_mid H t2 t3) (ccpart_mid H t4 t5) (ccpart_last H h2 t6))
    (by simp [turns]) (by simp)

include H h1 h2 in
theorem TcTTcT_ccrow (h : SF.CcRs.TcTTcT_exists m c1 c2) (hlt : (SF.CcRs.TcTTcT_path P m c1 c2).length < SF.dblMax) :
    CcRowOk k s c1 c2 0 (SF.CcRs.TcTTcT_path P m c1 c2) := by
  unfold SF.CcRs.TcTTcT_exists at h
  split_ifs at h with hl hf
  have hl' : c2.left = !c1.left := not_of_ne hl
  have hf' : c2.forward = !c1.forward := not_of_ne hf
  unfold SF.CcRs.TcTTcT_path at hlt ⊢
  rw [mul_assoc 2 c1.radius, h1.ok.cos_mu, h1.ok.geom.ccR] at hlt ⊢
  simp only at hlt ⊢
  split_ifs at hlt ⊢ with hg
  · exact absurd hlt (lt_irrefl _)
  · push Not at hg
    have hs := sq_sqrt hg.2
    have T := four_circles hg.1 rfl hs
    have T' := four_circles hg.1 rfl ((neg_sq _).trans hs)
    exact (TcTTcT_side_ccrow H h1 h2 hl' hf' T.1 T.2).shorter (TcTTcT_side_ccrow H h1 h2 hl' hf' T'.1 T'.2)

/-! #### Three CC turns without cusps -/

include H h1 h2 in
theorem TTT_side_ccrow (hl : c2.left = c1.left) (hf : c2.forward = !c1.forward) {dx dy : ℝ}
    (d1 : dx ^ 2 + dy ^ 2 = (2 * ccR k s) ^ 2) (d2 : ((m).distance - dx) ^ 2 + dy ^ 2 = (2 * ccR k s) ^ 2) :
    CcRowOk k s c1 c2 0 (SF.CcRs.TTT_side P m c1 c2 dx dy) := by
  have hB := ccB_pos H.kappa H.sigma H.clothoid
  have hB2 : 0 ≤ 2 * ccB k s := by linarith
  have hR2 : 0 ≤ 2 * ccR k s := mul_nonneg zero_le_two (ccR_nonneg k s)
  unfold SF.CcRs.TTT_side
  have D1 := frame_dist (g := (m).angle) c1 d1 hR2
  have D2 := frame_dist_to c1 c2 d2 hR2
  generalize SF.global_frame_change c1.xc c1.yc (m).angle dx dy = p at *
  obtain ⟨t1, t2⟩ := TT_geo' c1 (SF.circleCentered p.1 p.2 (!c1.left) c1.forward c1.regular P) h1.ok.geom rfl rfl rfl rfl D1
  obtain ⟨t3, t4⟩ := TT_geo' (f := c1.forward) (l := !c1.left) (SF.circleCentered p.1 p.2 (!c1.left) c1.forward c1.regular P) c2
    (geo_centered H _ _ _ _ _) rfl rfl rfl rfl D2
  have t4 := t4.side (f' := c2.forward) (l' := c2.left) (by rw [hf]) (by rw [hl, Bool.not_not])
  exact ccRowOk (ccrow3 (ccpart_first H h1 t1) (ccpart_mid H t2 t3) (ccpart_last H h2 t4)) (by simp [turns]) (by simp)

include H h1 h2 in
theorem TTT_ccrow (h : SF.CcRs.TTT_exists m c1 c2) : CcRowOk k s c1 c2 0 (SF.CcRs.TTT_path P m c1 c2) := by
  unfold SF.CcRs.TTT_exists SF.CC00.TTT_exists at h
  split_ifs at h with hl hf
  have hl' : c2.left = c1.left := (not_not.1 hl).symm
  have hf' : c2.forward = !c1.forward := not_of_ne hf
  have h0 : 0 ≤ (m).distance := by rw [scratch_distance]; exact norm_nonneg _
  have h' : (m).distance ≤ 4 * ccR k s := by rw [← h1.ok.geom.ccR]; exact h
  unfold SF.CcRs.TTT_path
  rw [h1.ok.geom.ccR]
  have hsq : 0 ≤ (2 * ccR k s) ^ 2 - (0.5 * (m).distance) ^ 2 := by nlinarith
  have hs := sq_sqrt hsq
  refine (TTT_side_ccrow H h1 h2 hl' hf' ?_ ?_).shorter (TTT_side_ccrow H h1 h2 hl' hf' ?_ ?_)
  · rw [hs]; ring
  · rw [hs]; ring
  · rw [neg_sq, hs]; ring
  · rw [neg_sq, hs]; ring

/-! #### Lines with a cusp before or after the middle turn -/

/-- The offsets of the middle circles for crossing lines. -/
theorem cc_offsets {B D dx dy : ℝ} (hB : 0 < B) (hD0 : 0 < D) (hD : (2 * B) ^ 2 ≤ D ^ 2)
    (hy : dy = (2 * B) ^ 2 / D) (hx : dx = 2 * B * √(1 - dy / D)) :
    dx ^ 2 + dy ^ 2 = (2 * B) ^ 2 ∧ D * dx = 2 * (1 / (1 / B)) * √(D ^ 2 - (2 * B) ^ 2) := by
  have hn : 0 ≤ 1 - dy / D := by
    rw [hy, sub_nonneg, div_div, ← sq, div_le_one (by positivity)]; exact hD
  constructor
  · rw [hx, mul_pow _ (√ _), sq_sqrt hn, hy]; field_simp; ring
  · rw [one_div_one_div, hx, show D ^ 2 - (2 * B) ^ 2 = D ^ 2 * (1 - dy / D) by rw [hy]; field_simp,
      sqrt_mul (by positivity), sqrt_sq hD0.le]
    ring

theorem cc_guard {R X Y D : ℝ} (hR : 0 ≤ R) (h : 2 * R * √X ≤ D) (hX : (2 * R) ^ 2 * X = Y) (hY : 0 < Y) :
    0 < D ∧ Y ≤ D ^ 2 := by
  refine sqrt_le_dist hY ?_
  rw [← hX, sqrt_mul (by positivity), sqrt_sq (by positivity)]
  exact h

include H in
theorem cc_exists_one (h : 2 * c1.radius * √(1 + 2 * c1.sin_mu * c1.cos_mu + c1.cos_mu ^ 2) ≤ (m).distance)
    (h1 : CircOk c1 k s) :
    0 < (m).distance ∧ (2 * ccA k s + 1 * (2 * (1 / (1 / ccB k s)))) ^ 2 + (2 * ccB k s) ^ 2 ≤ (m).distance ^ 2 := by
  have hA := ccA_pos H.kappa H.sigma H.clothoid
  have hB := ccB_pos H.kappa H.sigma H.clothoid
  rw [one_div_one_div]
  refine cc_guard (by rw [h1.ok.geom.ccR]; exact ccR_nonneg k s) h ?_ (by positivity)
  have e := ccR_sq k s
  rw [← h1.ok.geom.ccR] at e
  rw [← h1.ok.sin_mu, ← h1.ok.cos_mu] at e ⊢
  linear_combination 4 * e

include H in
theorem cc_exists_two (h : 2 * c1.radius * √(1 + 4 * c1.cos_mu * c1.sin_mu + 4 * c1.cos_mu ^ 2) ≤ (m).distance)
    (h1 : CircOk c1 k s) :
    0 < (m).distance ∧ (2 * ccA k s + 2 * (2 * (1 / (1 / ccB k s)))) ^ 2 + (2 * ccB k s) ^ 2 ≤ (m).distance ^ 2 := by
  have hA := ccA_pos H.kappa H.sigma H.clothoid
  have hB := ccB_pos H.kappa H.sigma H.clothoid
  rw [one_div_one_div]
  refine cc_guard (by rw [h1.ok.geom.ccR]; exact ccR_nonneg k s) h ?_ (by positivity)
  have e := ccR_sq k s
  rw [← h1.ok.geom.ccR] at e
  rw [← h1.ok.sin_mu, ← h1.ok.cos_mu] at e ⊢
  linear_combination 4 * e

include H h1 h2 in
theorem TSTcT_cccore {q : SF.Configuration × SF.Configuration} {q3 : SF.Configuration} {x : ℝ} {l r : Bool} {z : ℂ}
    (hf : c2.forward = c1.forward)
    (t1 : AtTan k s c1.forward c1.left (center c1) q.1 0) (t2 : AtTan k s (!c1.forward) l z q.2 0)
    (hx : 0 ≤ x) (ha : Ahead (sg c1.forward) q.1 q.2 x) (t3 : AtTan k s c2.forward l z q3 0)
    (t4 : AtTan k s c2.forward c2.left (center c2) q3 0) :
    CcRowOk k s c1 c2 0
      { length := c1.cc_turn_length q.1 + SF.configuration_distance q.1 q.2
          + (SF.circleAt q.2 l c1.forward r P).cc_turn_length q3 + c2.cc_turn_length q3
        moves := [.cc c1 q.1 true, .line q.1 q.2, .cc (SF.circleAt q.2 l c1.forward r P) q3 true, .cc c2 q3 false] } := by
  have t3 := t3.side (f' := c1.forward) hf.symm rfl
  exact ccRowOk (ccrow4 (ccpart_first H h1 t1) (ccpart_line H (sg_pm _) hx ha) (ccpart_mid H t2 t3)
    (ccpart_last H h2 t4)) (by simp [turns]) (by simp)

include H h1 h2 in
theorem TcTST_cccore {q : SF.Configuration × SF.Configuration} {q1 : SF.Configuration} {x : ℝ} {r : Bool} {z : ℂ}
    (t1 : AtTan k s c1.forward c1.left (center c1) q1 0) (t2 : AtTan k s c1.forward (!c1.left) z q1 0)
    (t3 : AtTan k s (!c1.forward) (!c1.left) z q.1 0)
    (hx : 0 ≤ x) (ha : Ahead (sg (!c1.forward)) q.1 q.2 x)
    (t4 : AtTan k s c2.forward c2.left (center c2) q.2 0) :
    CcRowOk k s c1 c2 0
      { length := c1.cc_turn_length q1 + (SF.circleAt q1 (!c1.left) (!c1.forward) r P).cc_turn_length q.1
          + SF.configuration_distance q.1 q.2 + c2.cc_turn_length q.2
        moves := [.cc c1 q1 true, .cc (SF.circleAt q1 (!c1.left) (!c1.forward) r P) q.1 true, .line q.1 q.2,
          .cc c2 q.2 false] } := by
  have t2 := t2.side (f' := !!c1.forward) (Bool.not_not _) rfl
  exact ccRowOk (ccrow4 (ccpart_first H h1 t1) (ccpart_mid H t2 t3) (ccpart_line H (sg_pm _) hx ha)
    (ccpart_last H h2 t4)) (by simp [turns]) (by simp)

include H h1 h2 in
theorem TcTSTcT_cccore {q : SF.Configuration × SF.Configuration} {q1 q4 : SF.Configuration} {x : ℝ} {r r' : Bool} {z1 z2 : ℂ}
    (hf : c2.forward = !c1.forward)
    (t1 : AtTan k s c1.forward c1.left (center c1) q1 0) (t2 : AtTan k s c1.forward (!c1.left) z1 q1 0)
    (t3 : AtTan k s (!c1.forward) (!c1.left) z1 q.1 0)
    (hx : 0 ≤ x) (ha : Ahead (sg (!c1.forward)) q.1 q.2 x)
    (t4 : AtTan k s c1.forward (!c2.left) z2 q.2 0)
    (t5 : AtTan k s c2.forward (!c2.left) z2 q4 0) (t6 : AtTan k s c2.forward c2.left (center c2) q4 0) :
    CcRowOk k s c1 c2 0
      { length := c1.cc_turn_length q1 + (SF.circleAt q1 (!c1.left) (!c1.forward) r P).cc_turn_length q.1
          + SF.configuration_distance q.1 q.2 + (SF.circleAt q.2 (!c2.left) c2.forward r' P).cc_turn_length q4
          + c2.cc_turn_length q4
        moves := [.cc c1 q1 true, .cc (SF.circleAt q1 (!c1.left) (!c1.forward) r P) q.1 true, .line q.1 q.2,
          .cc (SF.circleAt q.2 (!c2.left) c2.forward r' P) q4 true, .cc c2 q4 false] } := by
  have t2 := t2.side (f' := !!c1.forward) (Bool.not_not _) rfl
  have t4 := t4.side (f' := !c2.forward) (l' := !c2.left) (by rw [hf, Bool.not_not]) rfl
  exact ccRowOk (ccrow5 (ccpart_first H h1 t1) (ccpart_mid H t2 t3) (ccpart_line H (sg_pm _) hx ha)
    (ccpart_mid H t4 t5) (ccpart_last H h2 t6)) (by simp [turns]) (by simp)

include H h1 h2 in
theorem TiSTcT_ccrow (h : SF.CcRs.TiSTcT_exists m c1 c2) : CcRowOk k s c1 c2 0 (SF.CcRs.TiSTcT_path P m c1 c2) := by
  have hA := ccA_pos H.kappa H.sigma H.clothoid
  have hB := ccB_pos H.kappa H.sigma H.clothoid
  unfold SF.CcRs.TiSTcT_exists at h
  split_ifs at h with hl hf
  have hl' : c2.left = c1.left := (not_not.1 hl).symm
  have hf' : c2.forward = c1.forward := (not_not.1 hf).symm
  obtain ⟨D0, hD⟩ := cc_exists_one H h h1
  unfold SF.CcRs.TiSTcT_path
  rw [h2.ok.cos_mu]
  obtain ⟨dy, hdy⟩ : ∃ dy, dy = (2 * ccB k s) ^ 2 / (m).distance := ⟨_, rfl⟩
  obtain ⟨dx, hdx⟩ : ∃ dx, dx = 2 * ccB k s * √(1 - dy / (m).distance) := ⟨_, rfl⟩
  simp only [← hdy]
  rw [← hdx]
  obtain ⟨o1, o2⟩ := cc_offsets hB D0 (by nlinarith [sq_nonneg (2 * ccA k s + 1 * (2 * (1 / (1 / ccB k s))))]) hdy hdx
  have hc := cross_dist (n := 1) (one_div_pos.2 hB) hA hD o2
  rw [one_div_one_div] at hc
  have D2 := frame_dist (g := (m).angle) (dx := -dx) (dy := dy) (r := 2 * ccB k s) c2
    (by rw [neg_sq]; exact o1) (by positivity)
  have hn : 0 ≤ ((m).distance + -dx) ^ 2 + dy ^ 2 := by positivity
  have D1 := frame_dist_from c1 c2 (dx := -dx) (dy := dy) (sq_sqrt hn).symm (sqrt_nonneg _)
  rw [norm_sub_rev] at D2
  have hR : 2 * ccR k s ≤ √(((m).distance + -dx) ^ 2 + dy ^ 2) := by
    refine two_ccR_le (sqrt_nonneg _) ?_
    rw [sq_sqrt hn]
    nlinarith
  rw [← D1] at hR
  generalize SF.global_frame_change c2.xc c2.yc (m).angle (-dx) dy = p at *
  obtain ⟨t1, t2, x, hx, _, ha⟩ := TiST_geo H c1 (SF.circleCentered p.1 p.2 (!c2.left) c2.forward c2.regular P) h1.ok.geom hR
  obtain ⟨t3, t4⟩ := TcT_cc_at H (f := c2.forward) (l := !c2.left) (SF.circleCentered p.1 p.2 (!c2.left) c2.forward c2.regular P) c2
    (geo_centered H _ _ _ _ _) rfl rfl rfl rfl D2
  exact TSTcT_cccore H h1 h2 hf' t1 t2 hx ha (t3.side rfl (by rw [hl'])) (t4.side rfl (Bool.not_not _).symm)

include H h1 h2 in
theorem TeSTcT_ccrow (h : SF.CcRs.TeSTcT_exists m c1 c2) : CcRowOk k s c1 c2 0 (SF.CcRs.TeSTcT_path P m c1 c2) := by
  have hB := ccB_pos H.kappa H.sigma H.clothoid
  have hA := ccA_pos H.kappa H.sigma H.clothoid
  unfold SF.CcRs.TeSTcT_exists at h
  split_ifs at h with hl hf
  have hl' : c2.left = !c1.left := not_of_ne hl
  have hf' : c2.forward = c1.forward := (not_not.1 hf).symm
  rw [mul_assoc 2, mul_add, h1.ok.sin_mu, h1.ok.cos_mu] at h
  unfold SF.CcRs.TeSTcT_path
  rw [mul_assoc 2, h2.ok.cos_mu]
  dsimp only
  have D2 := frame_dist (g := (m).angle) (dx := -(2 * ccB k s)) (dy := 0) (r := 2 * ccB k s) c2 (by ring) (by positivity)
  have D1 := frame_dist_from c1 c2 (dx := -(2 * ccB k s)) (dy := 0) (r := (m).distance - 2 * ccB k s) (by ring) (by linarith)
  rw [norm_sub_rev] at D2
  have hR : 2 * ccA k s ≤ (m).distance - 2 * ccB k s := by linarith
  rw [← D1] at hR
  generalize SF.global_frame_change c2.xc c2.yc (m).angle (-(2 * ccB k s)) 0 = p at *
  obtain ⟨t1, t2, x, hx, _, ha⟩ := TeST_geo H c1 (SF.circleCentered p.1 p.2 (!c2.left) c2.forward c2.regular P) h1.ok.geom hR
  obtain ⟨t3, t4⟩ := TcT_cc_at H (f := c2.forward) (l := !c2.left) (SF.circleCentered p.1 p.2 (!c2.left) c2.forward c2.regular P) c2
    (geo_centered H _ _ _ _ _) rfl rfl rfl rfl D2
  exact TSTcT_cccore H h1 h2 hf' t1 t2 hx ha (t3.side rfl (by rw [hl', Bool.not_not])) (t4.side rfl (Bool.not_not _).symm)

include H h1 h2 in
theorem TSTcT_ccrow (hlt : (SF.CcRs.TSTcT_path P m c1 c2).length < SF.dblMax) :
    CcRowOk k s c1 c2 0 (SF.CcRs.TSTcT_path P m c1 c2) := by
  unfold SF.CcRs.TSTcT_path at hlt ⊢
  split_ifs at hlt ⊢ with hi he
  · exact TiSTcT_ccrow H h1 h2 hi
  · exact TeSTcT_ccrow H h1 h2 he
  · exact absurd hlt (lt_irrefl _)

include H h1 h2 in
theorem TcTiST_ccrow (h : SF.CcRs.TcTiST_exists m c1 c2) : CcRowOk k s c1 c2 0 (SF.CcRs.TcTiST_path P m c1 c2) := by
  have hA := ccA_pos H.kappa H.sigma H.clothoid
  have hB := ccB_pos H.kappa H.sigma H.clothoid
  unfold SF.CcRs.TcTiST_exists at h
  split_ifs at h with hl hf
  have hl' : c2.left = c1.left := (not_not.1 hl).symm
  have hf' : c2.forward = c1.forward := (not_not.1 hf).symm
  obtain ⟨D0, hD⟩ := cc_exists_one H h h1
  unfold SF.CcRs.TcTiST_path
  rw [h1.ok.cos_mu]
  obtain ⟨dy, hdy⟩ : ∃ dy, dy = (2 * ccB k s) ^ 2 / (m).distance := ⟨_, rfl⟩
  obtain ⟨dx, hdx⟩ : ∃ dx, dx = 2 * ccB k s * √(1 - dy / (m).distance) := ⟨_, rfl⟩
  simp only [← hdy]
  rw [← hdx]
  obtain ⟨o1, o2⟩ := cc_offsets hB D0 (by nlinarith [sq_nonneg (2 * ccA k s + 1 * (2 * (1 / (1 / ccB k s))))]) hdy hdx
  have hc := cross_dist (n := 1) (one_div_pos.2 hB) hA hD o2
  rw [one_div_one_div] at hc
  have D2 := frame_dist (g := (m).angle) (dx := dx) (dy := -dy) (r := 2 * ccB k s) c1
    (by rw [neg_sq]; exact o1) (by positivity)
  have hn : 0 ≤ ((m).distance - dx) ^ 2 + (-dy) ^ 2 := by positivity
  have D1 := frame_dist_to c1 c2 (dx := dx) (dy := -dy) (sq_sqrt hn).symm (sqrt_nonneg _)
  have hR : 2 * ccR k s ≤ √(((m).distance - dx) ^ 2 + (-dy) ^ 2) := by
    refine two_ccR_le (sqrt_nonneg _) ?_
    rw [sq_sqrt hn]
    nlinarith
  rw [← D1] at hR
  generalize SF.global_frame_change c1.xc c1.yc (m).angle dx (-dy) = p at *
  obtain ⟨t1, t2⟩ := TcT_cc_at H c1 (SF.circleCentered p.1 p.2 (!c2.left) (!c2.forward) c2.regular P) h1.ok.geom rfl rfl rfl rfl D2
  obtain ⟨t3, t4, x, hx, _, ha⟩ := TiST_geo H (SF.circleCentered p.1 p.2 (!c2.left) (!c2.forward) c2.regular P) c2
    (geo_centered H _ _ _ _ _) hR
  have t3' : AtTan k s (!c1.forward) (!c1.left) _ _ 0 := AtTan.side (f := !c2.forward) (l := !c2.left) t3 (by rw [hf']) (by rw [hl'])
  have t4' : AtTan k s c2.forward c2.left _ _ 0 := AtTan.side (f := !!c2.forward) (l := !!c2.left) t4
    (Bool.not_not _).symm (Bool.not_not _).symm
  refine TcTST_cccore H h1 h2 t1 t2 t3' hx ?_ t4'
  have ha' : Ahead (sg (!c2.forward)) _ _ x := ha
  have e : sg (!c2.forward) = sg (!c1.forward) := by rw [hf']
  rw [← e]
  exact ha'

include H h1 h2 in
theorem TcTeST_ccrow (h : SF.CcRs.TcTeST_exists m c1 c2) : CcRowOk k s c1 c2 0 (SF.CcRs.TcTeST_path P m c1 c2) := by
  have hA := ccA_pos H.kappa H.sigma H.clothoid
  have hB := ccB_pos H.kappa H.sigma H.clothoid
  unfold SF.CcRs.TcTeST_exists at h
  split_ifs at h with hl hf
  have hl' : c2.left = !c1.left := not_of_ne hl
  have hf' : c2.forward = c1.forward := (not_not.1 hf).symm
  rw [mul_assoc 2, mul_add, h1.ok.sin_mu, h1.ok.cos_mu] at h
  unfold SF.CcRs.TcTeST_path
  rw [mul_assoc 2, h2.ok.cos_mu]
  dsimp only
  have D2 := frame_dist (g := (m).angle) (dx := 2 * ccB k s) (dy := 0) (r := 2 * ccB k s) c1 (by ring) (by positivity)
  have D1 := frame_dist_to c1 c2 (dx := 2 * ccB k s) (dy := 0) (r := (m).distance - 2 * ccB k s) (by ring) (by linarith)
  have hR : 2 * ccA k s ≤ (m).distance - 2 * ccB k s := by linarith
  rw [← D1] at hR
  generalize SF.global_frame_change c1.xc c1.yc (m).angle (2 * ccB k s) 0 = p at *
  obtain ⟨t1, t2⟩ := TcT_cc_at H c1 (SF.circleCentered p.1 p.2 c2.left (!c2.forward) c2.regular P) h1.ok.geom rfl rfl rfl rfl D2
  obtain ⟨t3, t4, x, hx, _, ha⟩ := TeST_geo H (SF.circleCentered p.1 p.2 c2.left (!c2.forward) c2.regular P) c2
    (geo_centered H _ _ _ _ _) hR
  have t3' : AtTan k s (!c1.forward) (!c1.left) _ _ 0 := AtTan.side (f := !c2.forward) (l := c2.left) t3 (by rw [hf']) (by rw [hl'])
  have t4' : AtTan k s c2.forward c2.left _ _ 0 := AtTan.side (f := !!c2.forward) (l := c2.left) t4
    (Bool.not_not _).symm rfl
  refine TcTST_cccore H h1 h2 t1 t2 t3' hx ?_ t4'
  have ha' : Ahead (sg (!c2.forward)) _ _ x := ha
  have e : sg (!c2.forward) = sg (!c1.forward) := by rw [hf']
  rw [← e]
  exact ha'

include H h1 h2 in
theorem TcTST_ccrow (hlt : (SF.CcRs.TcTST_path P m c1 c2).length < SF.dblMax) :
    CcRowOk k s c1 c2 0 (SF.CcRs.TcTST_path P m c1 c2) := by
  unfold SF.CcRs.TcTST_path at hlt ⊢
  split_ifs at hlt ⊢ with hi he
  · exact TcTiST_ccrow H h1 h2 hi
  · exact TcTeST_ccrow H h1 h2 he
  · exact absurd hlt (lt_irrefl _)

include H h1 h2 in
theorem TcTiSTcT_ccrow (h : SF.CcRs.TcTiSTcT_exists m c1 c2) : CcRowOk k s c1 c2 0 (SF.CcRs.TcTiSTcT_path P m c1 c2) := by
  have hA := ccA_pos H.kappa H.sigma H.clothoid
  have hB := ccB_pos H.kappa H.sigma H.clothoid
  unfold SF.CcRs.TcTiSTcT_exists at h
  split_ifs at h with hl hf
  have hl' : c2.left = !c1.left := not_of_ne hl
  have hf' : c2.forward = !c1.forward := not_of_ne hf
  obtain ⟨D0, hD⟩ := cc_exists_two H h h1
  unfold SF.CcRs.TcTiSTcT_path
  rw [h1.ok.cos_mu]
  obtain ⟨dy, hdy⟩ : ∃ dy, dy = (2 * ccB k s) ^ 2 / (m).distance := ⟨_, rfl⟩
  obtain ⟨dx, hdx⟩ : ∃ dx, dx = 2 * ccB k s * √(1 - dy / (m).distance) := ⟨_, rfl⟩
  simp only [← hdy]
  rw [← hdx]
  obtain ⟨o1, o2⟩ := cc_offsets hB D0 (by nlinarith [sq_nonneg (2 * ccA k s + 2 * (2 * (1 / (1 / ccB k s))))]) hdy hdx
  have hc := cross_dist (one_div_pos.2 hB) hA hD o2
  rw [one_div_one_div] at hc
  have D1 := frame_dist (g := (m).angle) (dx := dx) (dy := dy) c1 o1 (by positivity)
  have D2 := frame_dist (g := (m).angle) (dx := -dx) (dy := -dy) (r := 2 * ccB k s) c2
    (by rw [neg_sq, neg_sq]; exact o1) (by positivity)
  have hn : 0 ≤ ((m).distance + -dx - dx) ^ 2 + (-dy - dy) ^ 2 := by positivity
  have D3 := frame_dist_both c1 c2 (dx := dx) (dy := dy) (ex := -dx) (ey := -dy) (sq_sqrt hn).symm (sqrt_nonneg _)
  rw [norm_sub_rev] at D2
  have hR : 2 * ccR k s ≤ √(((m).distance + -dx - dx) ^ 2 + (-dy - dy) ^ 2) := by
    refine two_ccR_le (sqrt_nonneg _) ?_
    rw [sq_sqrt hn]
    nlinarith
  rw [← D3] at hR
  generalize SF.global_frame_change c1.xc c1.yc (m).angle dx dy = p1 at *
  generalize SF.global_frame_change c2.xc c2.yc (m).angle (-dx) (-dy) = p2 at *
  obtain ⟨t1, t2⟩ := TcT_cc_at H c1 (SF.circleCentered p1.1 p1.2 (!c1.left) (!c1.forward) c1.regular P) h1.ok.geom rfl rfl rfl rfl D1
  obtain ⟨t3, t4, x, hx, _, ha⟩ := TiST_geo H (SF.circleCentered p1.1 p1.2 (!c1.left) (!c1.forward) c1.regular P)
    (SF.circleCentered p2.1 p2.2 (!c2.left) c2.forward c2.regular P) (geo_centered H _ _ _ _ _) hR
  obtain ⟨t5, t6⟩ := TcT_cc_at H (f := c2.forward) (l := !c2.left) (SF.circleCentered p2.1 p2.2 (!c2.left) c2.forward c2.regular P) c2
    (geo_centered H _ _ _ _ _) rfl rfl rfl rfl D2
  refine TcTSTcT_cccore H h1 h2 hf' t1 t2 t3 hx ha ?_ t5 (t6.side rfl (Bool.not_not _).symm)
  exact AtTan.side (f := !!c1.forward) (l := !!c1.left) t4 (Bool.not_not _).symm (by rw [hl'])

include H h1 h2 in
theorem TcTeSTcT_ccrow (h : SF.CcRs.TcTeSTcT_exists m c1 c2) : CcRowOk k s c1 c2 0 (SF.CcRs.TcTeSTcT_path P m c1 c2) := by
  have hA := ccA_pos H.kappa H.sigma H.clothoid
  have hB := ccB_pos H.kappa H.sigma H.clothoid
  unfold SF.CcRs.TcTeSTcT_exists at h
  split_ifs at h with hl hf
  have hl' : c2.left = c1.left := (not_not.1 hl).symm
  have hf' : c2.forward = !c1.forward := not_of_ne hf
  rw [show 2 * c1.radius * (2 * c1.cos_mu + c1.sin_mu) = 4 * (c1.radius * c1.cos_mu) + 2 * (c1.radius * c1.sin_mu) by ring,
    h1.ok.sin_mu, h1.ok.cos_mu] at h
  unfold SF.CcRs.TcTeSTcT_path
  rw [mul_assoc 2, h1.ok.cos_mu]
  dsimp only
  have D1 := frame_dist (g := (m).angle) (dx := 2 * ccB k s) (dy := 0) (r := 2 * ccB k s) c1 (by ring) (by positivity)
  have D2 := frame_dist (g := (m).angle) (dx := -(2 * ccB k s)) (dy := 0) (r := 2 * ccB k s) c2 (by ring) (by positivity)
  have D3 := frame_dist_both c1 c2 (dx := 2 * ccB k s) (dy := 0) (ex := -(2 * ccB k s)) (ey := 0)
    (r := (m).distance - 4 * ccB k s) (by ring) (by linarith)
  rw [norm_sub_rev] at D2
  have hR : 2 * ccA k s ≤ (m).distance - 4 * ccB k s := by linarith
  rw [← D3] at hR
  generalize SF.global_frame_change c1.xc c1.yc (m).angle (2 * ccB k s) 0 = p1 at *
  generalize SF.global_frame_change c2.xc c2.yc (m).angle (-(2 * ccB k s)) 0 = p2 at *
  obtain ⟨t1, t2⟩ := TcT_cc_at H c1 (SF.circleCentered p1.1 p1.2 (!c1.left) (!c1.forward) c1.regular P) h1.ok.geom rfl rfl rfl rfl D1
  obtain ⟨t3, t4, x, hx, _, ha⟩ := TeST_geo H (SF.circleCentered p1.1 p1.2 (!c1.left) (!c1.forward) c1.regular P)
    (SF.circleCentered p2.1 p2.2 (!c2.left) c2.forward c2.regular P) (geo_centered H _ _ _ _ _) hR
  obtain ⟨t5, t6⟩ := TcT_cc_at H (f := c2.forward) (l := !c2.left) (SF.circleCentered p2.1 p2.2 (!c2.left) c2.forward c2.regular P) c2
    (geo_centered H _ _ _ _ _) rfl rfl rfl rfl D2
  refine TcTSTcT_cccore H h1 h2 hf' t1 t2 t3 hx ha ?_ t5 (t6.side rfl (Bool.not_not _).symm)
  exact AtTan.side (f := !!c1.forward) (l := !c1.left) t4 (Bool.not_not _).symm (by rw [hl'])

include H h1 h2 in
theorem TcTSTcT_ccrow (hlt : (SF.CcRs.TcTSTcT_path P m c1 c2).length < SF.dblMax) :
    CcRowOk k s c1 c2 0 (SF.CcRs.TcTSTcT_path P m c1 c2) := by
  unfold SF.CcRs.TcTSTcT_path at hlt ⊢
  split_ifs at hlt ⊢ with hi he
  · exact TcTiSTcT_ccrow H h1 h2 hi
  · exact TcTeSTcT_ccrow H h1 h2 he
  · exact absurd hlt (lt_irrefl _)

end families

/-! ### All families -/

/-- Sum of the errors of the centres by path type. -/
def ccFamE (k s : ℝ) (i : ℕ) : ℝ := if i = 3 then SF.epsilon else if i = 4 then cuspE k s else 0

theorem cc_family_ok {sp : SF.HCSpace} (H : Rng sp.kappa sp.sigma) {c1 c2 : SF.Circle}
    (h1 : CircOk c1 sp.kappa sp.sigma) (h2 : CircOk c2 sp.kappa sp.sigma) {i : ℕ}
    (hlost : ¬(i = SF.hc_cc_rs.TcT ∧ SF.CcRs.TcT_lost c1 c2))
    (hlt : (SF.CcRs.family sp (SF.scratch c1 c2) c1 c2 i).length < SF.dblMax) :
    CcRowOk sp.kappa sp.sigma c1 c2 (ccFamE sp.kappa sp.sigma i) (SF.CcRs.family sp (SF.scratch c1 c2) c1 c2 i) := by
  have hno : ¬ ({} : SF.RSRow).length < SF.dblMax := lt_irrefl _
  unfold SF.CcRs.family at hlt ⊢
  split at hlt
  · rw [ccFamE, if_pos (by decide)]
    by_cases h : SF.CcRs.TT_exists (SF.scratch c1 c2) c1 c2
    · simp only [if_pos h]
      exact TT_ccrow H h1 h2 h
    · rw [if_neg h] at hlt
      exact absurd hlt hno
  · rw [ccFamE, if_neg (by decide), if_pos (by decide)]
    by_cases h : SF.CcRs.TcT_exists (SF.scratch c1 c2) c1 c2
    · simp only [if_pos h]
      exact TcT_ccrow H h1 h2 h fun hl => hlost ⟨rfl, hl⟩
    · rw [if_neg h] at hlt
      exact absurd hlt hno
  iterate 3
    · rw [ccFamE, if_neg (by decide), if_neg (by decide)]
      split_ifs at hlt ⊢ with h
      · first
          | exact TcTcT_ccrow H h1 h2 h
          | exact TcTT_ccrow H h1 h2 h hlt
          | exact TTcT_ccrow H h1 h2 h hlt
      · exact absurd hlt hno
  iterate 4
    · rw [ccFamE, if_neg (by decide), if_neg (by decide)]
      first
        | exact TST_ccrow H h1 h2 hlt
        | exact TSTcT_ccrow H h1 h2 hlt
        | exact TcTST_ccrow H h1 h2 hlt
        | exact TcTSTcT_ccrow H h1 h2 hlt
  iterate 3
    · rw [ccFamE, if_neg (by decide), if_neg (by decide)]
      split_ifs at hlt ⊢ with h
      · first
          | exact TTcTT_ccrow H h1 h2 h hlt
          | exact TcTTcT_ccrow H h1 h2 h hlt
          | exact TTT_ccrow H h1 h2 h
      · exact absurd hlt hno
  iterate 3
    · rw [ccFamE, if_neg (by decide), if_neg (by decide)]
      first
        | exact TcST_ccrow H h1 h2 hlt
        | exact TScT_ccrow H h1 h2 hlt
        | exact TcScT_ccrow H h1 h2 hlt
  · exact absurd hlt hno

end Spec
