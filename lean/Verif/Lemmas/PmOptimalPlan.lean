import Verif.Lemmas.PmOptimal

/-!
# CC-Dubins with curvature at the ends: the planned path is not longer than any word
-/

noncomputable section

namespace Spec

open Real Props
open CC00 (CircOk circOk_at startOf cfg_startOf)

theorem same_outer (c : SF.Circle) (k : ℝ) :
    SameConfig (cfg (SF.configuration c.start.x c.start.y c.start.theta k)) (cfg c.start) :=
  ⟨rfl, rfl, SF.twopify_angleEq _⟩

theorem fwd_ne {c1 c2 : SF.Circle} (hf : c2.forward = !c1.forward) : c1.forward ≠ c2.forward := by
  rw [hf]; cases c1.forward <;> simp

theorem bnot_fwd {c1 c2 : SF.Circle} (hf : c2.forward = !c1.forward) : (!c2.forward) = c1.forward := by
  rw [hf, Bool.not_not]

theorem geom_centered {k s : ℝ} (H : Rng k s) (x y : ℝ) (l f r : Bool) :
    GeomOk (SF.circleCentered x y l f r (SF.hc_cc_circle_param k s)) (ccA k s) (ccB k s) :=
  (circleCentered_ok (hc_param_ok H.kappa H.sigma H.clothoid) x y l f r).geom

/-! ### CC0pm -/

namespace CC0pm

open SF.CC0pm

/-- None of the shortcuts applies. -/
structure Clear (c1 c2 : SF.Circle) : Prop where
  eq : ¬ SF.configuration_equal c1.start c2.start
  off : SF.epsilon ≤ SF.center_distance c1 c2

open Classical in
theorem table_clear {sp : SF.HCSpace} {c1 c2 : SF.Circle} (h : Clear c1 c2) :
    (TST_exists (SF.scratch c1 c2) c1 c2 → (table sp (SF.scratch c1 c2) c1 c2 4).length
      = (TST_path sp.param (SF.scratch c1 c2) c1 c2).length) ∧
    (TTT_exists (SF.scratch c1 c2) c1 c2 → (table sp (SF.scratch c1 c2) c1 c2 5).length
      = (TTT_path sp.param (SF.scratch c1 c2) c1 c2).length) := by
  unfold table
  rw [if_neg h.eq, if_neg (show ¬ (SF.scratch c1 c2).distance < SF.epsilon from not_lt.2 h.off)]
  constructor
  · intro e
    simp only [if_pos e]
    by_cases e3 : TTT_exists (SF.scratch c1 c2) c1 c2
    · rw [if_pos e3, set_other _ _ (by norm_num), set_same]
    · rw [if_neg e3, set_same]
  · intro e
    simp only [if_pos e]
    rw [set_same]

variable {sp : SF.HCSpace} (H : Rng sp.kappa sp.sigma) {c1 c2 : SF.Circle}
    (h1 : CircOk c1 sp.kappa sp.sigma) (h2 : RsOk c2 sp.kappa) (hf : c2.forward = !c1.forward)

include H h1 h2 hf in
theorem tst_le (hcl : Clear c1 c2) {q1 q2 : Config} {x L1 L2 : ℝ}
    (t1 : Turned true sp.kappa sp.sigma c1.left c1.forward (cfg c1.start) q1 L1)
    (t2 : Opened sp.kappa sp.sigma c2.left c1.forward q2 (cfg c2.start) L2) (hx : 0 ≤ x)
    (hq : q2.pos = q1.pos + cis q1.theta * ((sg c1.forward * x : ℝ) : ℂ))
    (hqt : AngleEq q2.theta q1.theta) :
    (circles_dubins_path sp c1 c2).length ≤ L1 + x + L2 := by
  have hA := ccA_pos H.kappa H.sigma H.clothoid
  have hB := ccB_pos H.kappa H.sigma H.clothoid
  have ok := fun q l f => (circOk_at (k := sp.kappa) (s := sp.sigma) H.kappa H.sigma H.clothoid q l f true).ok
  have fin : ∀ r : SF.Configuration × SF.Configuration, SameConfig (cfg r.1) q1 → SameConfig (cfg r.2) q2 →
      (line_path sp.param r c1 c2).length ≤ L1 + x + L2 := by
    intro r e1 e2
    have a1 := t1.ahead (cstart sp.param c1) r.1 (ok _ _ _) rfl rfl rfl (SameConfig.refl _) e1
    have a2 := t2.turn (cend sp.param r.2 c2) (last c2) (ok _ _ _) rfl rfl (bnot_fwd hf) e2 (same_outer _ _)
    have a3 := line_len hx hq e1 e2
    unfold line_path
    simp only
    linarith
  refine (entry_le sp c1 c2 (i := 4) (by norm_num)).trans ?_
  rcases line_fit h1.ok.geom hA hB (fwd_ne hf) hx (t1.cen.trans h1.cen.symm) (t2.cen.symm.trans h2.cen.symm) hq hqt with
    ⟨e, u1, u2⟩ | ⟨e', e, u1, u2⟩
  · rw [(table_clear hcl).1 (Or.inl e), TST_path, if_pos (show TiST_exists (SF.scratch c1 c2) c1 c2 from e)]
    exact fin _ u1 u2
  · rw [(table_clear hcl).1 (Or.inr e), TST_path, if_neg (show ¬ TiST_exists (SF.scratch c1 c2) c1 c2 from e'),
      if_pos (show TeST_exists (SF.scratch c1 c2) c1 c2 from e)]
    exact fin _ u1 u2

include H h1 h2 hf in
theorem ttt_le (hcl : Clear c1 c2) (hlr : c2.left = c1.left) {q1 q2 : Config} {L1 L2 L3 : ℝ}
    (t1 : Turned true sp.kappa sp.sigma c1.left c1.forward (cfg c1.start) q1 L1)
    (t2 : Turned true sp.kappa sp.sigma (!c1.left) c1.forward q1 q2 L2)
    (t3 : Opened sp.kappa sp.sigma c1.left c1.forward q2 (cfg c2.start) L3) :
    (circles_dubins_path sp c1 c2).length ≤ L1 + L2 + L3 := by
  have hA := ccA_pos H.kappa H.sigma H.clothoid
  have ok := fun q l f => (circOk_at (k := sp.kappa) (s := sp.sigma) H.kappa H.sigma H.clothoid q l f true).ok
  have hce : center c1 ≠ center c2 := by
    intro h
    have := hcl.off
    rw [center_distance_eq, h, sub_self, norm_zero] at this
    norm_num [SF.epsilon] at this
  have g1 := t1.cen.trans h1.cen.symm
  have g2 := t3.cen.symm.trans (hlr ▸ h2.cen.symm)
  obtain ⟨M, hM⟩ : ∃ M, M = Spec.cen (sg c1.forward * ccA sp.kappa sp.sigma) (-(sg c1.left * ccB sp.kappa sp.sigma)) q1 :=
    ⟨_, rfl⟩
  have gm := t2.cen
  rw [sg_not, neg_mul, ← hM] at gm
  obtain ⟨e, y, hy, hxy⟩ := middle_fit h1.ok.geom (fwd_ne hf) hlr.symm hce g1 hM.symm gm g2
  have fin : ∀ (x y : ℝ), (⟨x, y⟩ : ℂ) = M → ∀ tgt qa qb,
      tgt = SF.circleCentered x y (!c1.left) c1.forward c1.regular sp.param →
      qa = SF.CC00.TT_tangent_circles c1 tgt → qb = SF.CC00.TT_tangent_circles tgt c2 →
      (cstart sp.param c1).cc_turn_length qa
        + (SF.circleAt qa (!c1.left) c1.forward true sp.param).cc_turn_length qb
        + (cend sp.param qb c2).hc_turn_length (last c2) ≤ L1 + L2 + L3 := by
    intro x y hxy tgt qa qb htgt hqa hqb
    have htc : center tgt = M := by rw [htgt, ← hxy]; rfl
    have htl : tgt.left = !c1.left := by rw [htgt]; rfl
    have htf : tgt.forward = c1.forward := by rw [htgt]; rfl
    have u1 : SameConfig (cfg qa) q1 := by
      rw [hqa]; exact tt_fit h1.ok.geom hA g1 (by rw [htc]; exact hM.symm)
    have u2 : SameConfig (cfg qb) q2 := by
      rw [hqb]
      refine tt_fit (A := ccA sp.kappa sp.sigma) (B := ccB sp.kappa sp.sigma)
        (htgt ▸ geom_centered H x y _ _ _) hA ?_ ?_
      · rw [htl, htf, htc, sg_not, neg_mul]; exact gm
      · rw [htl, htf, sg_not, neg_mul, neg_neg]; exact g2
    have a1 := t1.ahead (cstart sp.param c1) qa (ok _ _ _) rfl rfl rfl (SameConfig.refl _) u1
    have a2 := t2.ahead (SF.circleAt qa (!c1.left) c1.forward true sp.param) qb (ok _ _ _) rfl rfl rfl u1 u2
    have a3 := t3.turn (cend sp.param qb c2) (last c2) (ok _ _ _) rfl hlr (bnot_fwd hf) u2 (same_outer _ _)
    linarith
  refine (entry_le sp c1 c2 (i := 5) (by norm_num)).trans ?_
  rw [(table_clear hcl).2 e]
  have := fin _ _ hxy _ _ _ rfl rfl rfl
  unfold TTT_path TTT_tangent_circles SF.CC00.TTT_tangent_circles
  simp only
  rcases hy with rfl | rfl
  · split_ifs with hlt
    · exact this
    · exact (not_lt.1 hlt).trans this
  · split_ifs with hlt
    · exact hlt.le.trans this
    · exact this

end CC0pm

/-! ### CCpm0 -/

namespace CCpm0

open SF.CCpm0

/-- None of the shortcuts applies. -/
structure Clear (c1 c2 : SF.Circle) : Prop where
  eq : ¬ SF.configuration_equal c1.start c2.start
  off : SF.epsilon ≤ SF.center_distance c1 c2

open Classical in
theorem table_clear {sp : SF.HCSpace} {c1 c2 : SF.Circle} (h : Clear c1 c2) :
    (TST_exists (SF.scratch c1 c2) c1 c2 → (table sp (SF.scratch c1 c2) c1 c2 4).length
      = (TST_path sp.param (SF.scratch c1 c2) c1 c2).length) ∧
    (TTT_exists (SF.scratch c1 c2) c1 c2 → (table sp (SF.scratch c1 c2) c1 c2 5).length
      = (TTT_path sp.param (SF.scratch c1 c2) c1 c2).length) := by
  unfold table
  rw [if_neg h.eq, if_neg (show ¬ (SF.scratch c1 c2).distance < SF.epsilon from not_lt.2 h.off)]
  constructor
  · intro e
    simp only [if_pos e]
    by_cases e3 : TTT_exists (SF.scratch c1 c2) c1 c2
    · rw [if_pos e3, set_other _ _ (by norm_num), set_same]
    · rw [if_neg e3, set_same]
  · intro e
    simp only [if_pos e]
    rw [set_same]

variable {sp : SF.HCSpace} (H : Rng sp.kappa sp.sigma) {c1 c2 : SF.Circle}
    (h1 : RsOk c1 sp.kappa) (h2 : CircOk c2 sp.kappa sp.sigma) (hf : c2.forward = !c1.forward)

include H h1 h2 hf in
theorem tst_le (hcl : Clear c1 c2) {q1 q2 : Config} {x L1 L2 : ℝ}
    (t1 : Closed sp.kappa sp.sigma c1.left c1.forward (cfg c1.start) q1 L1)
    (t2 : Turned true sp.kappa sp.sigma c2.left c1.forward q2 (cfg c2.start) L2) (hx : 0 ≤ x)
    (hq : q2.pos = q1.pos + cis q1.theta * ((sg c1.forward * x : ℝ) : ℂ))
    (hqt : AngleEq q2.theta q1.theta) :
    (circles_dubins_path sp c1 c2).length ≤ L1 + x + L2 := by
  have hA := ccA_pos H.kappa H.sigma H.clothoid
  have hB := ccB_pos H.kappa H.sigma H.clothoid
  have ok := fun q l f => (circOk_at (k := sp.kappa) (s := sp.sigma) H.kappa H.sigma H.clothoid q l f true).ok
  have fin : ∀ r : SF.Configuration × SF.Configuration, SameConfig (cfg r.1) q1 → SameConfig (cfg r.2) q2 →
      (line_path sp.param r c1 c2).length ≤ L1 + x + L2 := by
    intro r e1 e2
    have a1 := t1.turn (cstart sp.param r.1 c1) (first c1) (ok _ _ _) rfl rfl rfl e1 (same_outer _ _)
    have a2 := t2.back (cend sp.param c2) r.2 (ok _ _ _) rfl rfl hf (SameConfig.refl _) e2
    have a3 := line_len hx hq e1 e2
    unfold line_path
    simp only
    linarith
  have g2 : Spec.cen (sg c1.forward * ccA sp.kappa sp.sigma) (sg c2.left * ccB sp.kappa sp.sigma) q2 = center c2 := by
    rw [← t2.cen, h2.cen, hf, sg_not, neg_mul]
  refine (entry_le sp c1 c2 (i := 4) (by norm_num)).trans ?_
  rcases line_fit (c1 := c1.reparam c2.toCircleParam) (c2 := c2) (h2.ok.geom.reparam c1) hA hB (fwd_ne hf) hx
    (t1.cen.trans h1.cen.symm) g2 hq hqt with ⟨e, u1, u2⟩ | ⟨e', e, u1, u2⟩
  · rw [(table_clear hcl).1 (Or.inl e), TST_path, if_pos (show TiST_exists (SF.scratch c1 c2) c1 c2 from e)]
    exact fin _ u1 u2
  · rw [(table_clear hcl).1 (Or.inr e), TST_path, if_neg (show ¬ TiST_exists (SF.scratch c1 c2) c1 c2 from e'),
      if_pos (show TeST_exists (SF.scratch c1 c2) c1 c2 from e)]
    exact fin _ u1 u2

include H h1 h2 hf in
theorem ttt_le (hcl : Clear c1 c2) (hlr : c2.left = c1.left) {q1 q2 : Config} {L1 L2 L3 : ℝ}
    (t1 : Closed sp.kappa sp.sigma c1.left c1.forward (cfg c1.start) q1 L1)
    (t2 : Turned true sp.kappa sp.sigma (!c1.left) c1.forward q1 q2 L2)
    (t3 : Turned true sp.kappa sp.sigma c1.left c1.forward q2 (cfg c2.start) L3) :
    (circles_dubins_path sp c1 c2).length ≤ L1 + L2 + L3 := by
  have hA := ccA_pos H.kappa H.sigma H.clothoid
  have ok := fun q l f => (circOk_at (k := sp.kappa) (s := sp.sigma) H.kappa H.sigma H.clothoid q l f true).ok
  have hce : center c1 ≠ center c2 := by
    intro h
    have := hcl.off
    rw [center_distance_eq, h, sub_self, norm_zero] at this
    norm_num [SF.epsilon] at this
  have g1 := t1.cen.trans h1.cen.symm
  have g2 : Spec.cen (sg c1.forward * ccA sp.kappa sp.sigma) (sg c1.left * ccB sp.kappa sp.sigma) q2 = center c2 := by
    rw [← t3.cen, h2.cen, hf, hlr, sg_not, neg_mul]
  obtain ⟨M, hM⟩ : ∃ M, M = Spec.cen (sg c1.forward * ccA sp.kappa sp.sigma) (-(sg c1.left * ccB sp.kappa sp.sigma)) q1 :=
    ⟨_, rfl⟩
  have gm := t2.cen
  rw [sg_not, neg_mul, ← hM] at gm
  obtain ⟨e, y, hy, hxy⟩ := middle_fit (c1 := c1.reparam c2.toCircleParam) (c2 := c2) (h2.ok.geom.reparam c1)
    (fwd_ne hf) hlr.symm hce g1 hM.symm gm g2
  have fin : ∀ (x y : ℝ), (⟨x, y⟩ : ℂ) = M → ∀ tgt qa qb,
      tgt = SF.circleCentered x y (!c1.left) c1.forward c1.regular sp.param →
      qa = TT_tangent_circles c1 tgt → qb = TT_tangent_circles tgt c2 →
      (cstart sp.param qa c1).hc_turn_length (first c1)
        + (SF.circleAt qa (!c1.left) c1.forward true sp.param).cc_turn_length qb
        + (cend sp.param c2).cc_turn_length qb ≤ L1 + L2 + L3 := by
    intro x y hxy tgt qa qb htgt hqa hqb
    have htc : center tgt = M := by rw [htgt, ← hxy]; rfl
    have htl : tgt.left = !c1.left := by rw [htgt]; rfl
    have htf : tgt.forward = c1.forward := by rw [htgt]; rfl
    have htg : GeomOk tgt (ccA sp.kappa sp.sigma) (ccB sp.kappa sp.sigma) := htgt ▸ geom_centered H x y _ _ _
    have u1 : SameConfig (cfg qa) q1 := by
      rw [hqa]
      exact tt_fit (c1 := c1.reparam tgt.toCircleParam) (htg.reparam c1) hA g1 (by rw [htc]; exact hM.symm)
    have u2 : SameConfig (cfg qb) q2 := by
      rw [hqb]
      refine tt_fit (c1 := tgt.reparam c2.toCircleParam) (h2.ok.geom.reparam tgt) hA ?_ ?_
      · change Spec.cen (-(sg tgt.forward * _)) (sg tgt.left * _) q2 = center tgt
        rw [htl, htf, htc, sg_not, neg_mul]; exact gm
      · change Spec.cen (sg tgt.forward * _) (-(sg tgt.left * _)) q2 = center c2
        rw [htl, htf, sg_not, neg_mul, neg_neg]; exact g2
    have a1 := t1.turn (cstart sp.param qa c1) (first c1) (ok _ _ _) rfl rfl rfl u1 (same_outer _ _)
    have a2 := t2.ahead (SF.circleAt qa (!c1.left) c1.forward true sp.param) qb (ok _ _ _) rfl rfl rfl u1 u2
    have a3 := t3.back (cend sp.param c2) qb (ok _ _ _) rfl hlr hf (SameConfig.refl _) u2
    linarith
  refine (entry_le sp c1 c2 (i := 5) (by norm_num)).trans ?_
  rw [(table_clear hcl).2 e]
  have := fin _ _ hxy _ _ _ rfl rfl rfl
  unfold TTT_path TTT_tangent_circles
  simp only
  rcases hy with rfl | rfl
  · split_ifs with hlt
    · exact this
    · exact (not_lt.1 hlt).trans this
  · split_ifs with hlt
    · exact hlt.le.trans this
    · exact this

end CCpm0

/-! ### CCpmpm -/

namespace CCpmpm

open SF.CCpmpm

/-- None of the shortcuts applies. -/
structure Clear (c1 c2 : SF.Circle) : Prop where
  eq : ¬ SF.configuration_equal c1.start c2.start
  off : ¬ SF.configuration_on_hc_cc_circle c1 c2.start

open Classical in
theorem table_clear {sp : SF.HCSpace} {c1 c2 : SF.Circle} (h : Clear c1 c2) :
    (TST_exists sp.param (SF.scratch c1 c2) c1 c2 → (table sp (SF.scratch c1 c2) c1 c2 4).length
      = (TST_path sp.param (SF.scratch c1 c2) c1 c2).length) ∧
    (TTT_exists sp.param (SF.scratch c1 c2) c1 c2 → (table sp (SF.scratch c1 c2) c1 c2 5).length
      = (TTT_path sp.param (SF.scratch c1 c2) c1 c2).length) := by
  unfold table
  rw [if_neg h.eq, if_neg h.off]
  constructor
  · intro e
    simp only [if_pos e]
    by_cases e3 : TTT_exists sp.param (SF.scratch c1 c2) c1 c2 <;>
      by_cases e4 : TTTT_exists sp.param (SF.scratch c1 c2) c1 c2 <;>
      simp only [e3, e4, if_true, if_false]
    · rw [set_other _ _ (by norm_num), set_other _ _ (by norm_num), set_same]
    · rw [set_other _ _ (by norm_num), set_same]
    · rw [set_other _ _ (by norm_num), set_same]
    · rw [set_same]
  · intro e
    simp only [if_pos e]
    by_cases e4 : TTTT_exists sp.param (SF.scratch c1 c2) c1 c2 <;> simp only [e4, if_true, if_false]
    · rw [set_other _ _ (by norm_num), set_same]
    · rw [set_same]

variable {sp : SF.HCSpace} (H : Rng sp.kappa sp.sigma) {c1 c2 : SF.Circle}
    (h1 : RsOk c1 sp.kappa) (h2 : RsOk c2 sp.kappa) (hf : c2.forward = !c1.forward)

include H h1 h2 hf in
theorem tst_le (hcl : Clear c1 c2) {q1 q2 : Config} {x L1 L2 : ℝ}
    (t1 : Closed sp.kappa sp.sigma c1.left c1.forward (cfg c1.start) q1 L1)
    (t2 : Opened sp.kappa sp.sigma c2.left c1.forward q2 (cfg c2.start) L2) (hx : 0 ≤ x)
    (hq : q2.pos = q1.pos + cis q1.theta * ((sg c1.forward * x : ℝ) : ℂ))
    (hqt : AngleEq q2.theta q1.theta) :
    (circles_dubins_path sp c1 c2).length ≤ L1 + x + L2 := by
  have hA := ccA_pos H.kappa H.sigma H.clothoid
  have hB := ccB_pos H.kappa H.sigma H.clothoid
  have ok := fun q l f => (circOk_at (k := sp.kappa) (s := sp.sigma) H.kappa H.sigma H.clothoid q l f true).ok
  have fin : ∀ r : SF.Configuration × SF.Configuration, SameConfig (cfg r.1) q1 → SameConfig (cfg r.2) q2 →
      (line_path sp.param r c1 c2).length ≤ L1 + x + L2 := by
    intro r e1 e2
    have a1 := t1.turn (cstart sp.param r.1 c1) (outer c1) (ok _ _ _) rfl rfl rfl e1 (same_outer _ _)
    have a2 := t2.turn (cend sp.param r.2 c2) (outer c2) (ok _ _ _) rfl rfl (bnot_fwd hf) e2 (same_outer _ _)
    have a3 := line_len hx hq e1 e2
    unfold line_path
    simp only
    linarith
  refine (entry_le sp c1 c2 (i := 4) (by norm_num)).trans ?_
  rcases line_fit (c1 := c1.reparam sp.param) (c2 := c2) (geom_reparam H c1) hA hB (fwd_ne hf) hx
    (t1.cen.trans h1.cen.symm) (t2.cen.symm.trans h2.cen.symm) hq hqt with ⟨e, u1, u2⟩ | ⟨e', e, u1, u2⟩
  · rw [(table_clear hcl).1 (Or.inl e), TST_path, if_pos (show TiST_exists sp.param (SF.scratch c1 c2) c1 c2 from e)]
    exact fin _ u1 u2
  · rw [(table_clear hcl).1 (Or.inr e), TST_path, if_neg (show ¬ TiST_exists sp.param (SF.scratch c1 c2) c1 c2 from e'),
      if_pos (show TeST_exists sp.param (SF.scratch c1 c2) c1 c2 from e)]
    exact fin _ u1 u2

include H h1 h2 hf in
theorem ttt_le (hcl : Clear c1 c2) (hce : center c1 ≠ center c2) (hlr : c2.left = c1.left) {q1 q2 : Config}
    {L1 L2 L3 : ℝ}
    (t1 : Closed sp.kappa sp.sigma c1.left c1.forward (cfg c1.start) q1 L1)
    (t2 : Turned true sp.kappa sp.sigma (!c1.left) c1.forward q1 q2 L2)
    (t3 : Opened sp.kappa sp.sigma c1.left c1.forward q2 (cfg c2.start) L3) :
    (circles_dubins_path sp c1 c2).length ≤ L1 + L2 + L3 := by
  have hA := ccA_pos H.kappa H.sigma H.clothoid
  have ok := fun q l f => (circOk_at (k := sp.kappa) (s := sp.sigma) H.kappa H.sigma H.clothoid q l f true).ok
  have g1 := t1.cen.trans h1.cen.symm
  have g2 := t3.cen.symm.trans (hlr ▸ h2.cen.symm)
  obtain ⟨M, hM⟩ : ∃ M, M = Spec.cen (sg c1.forward * ccA sp.kappa sp.sigma) (-(sg c1.left * ccB sp.kappa sp.sigma)) q1 :=
    ⟨_, rfl⟩
  have gm := t2.cen
  rw [sg_not, neg_mul, ← hM] at gm
  obtain ⟨e, y, hy, hxy⟩ := middle_fit (c1 := c1.reparam sp.param) (c2 := c2) (geom_reparam H c1)
    (fwd_ne hf) hlr.symm hce g1 hM.symm gm g2
  have fin : ∀ (x y : ℝ), (⟨x, y⟩ : ℂ) = M → ∀ tgt qa qb,
      tgt = SF.circleCentered x y (!c1.left) c1.forward c1.regular sp.param →
      qa = TT_tangent_circles sp.param c1 tgt → qb = TT_tangent_circles sp.param tgt c2 →
      (cstart sp.param qa c1).hc_turn_length (outer c1)
        + (SF.circleAt qa (!c1.left) c1.forward true sp.param).cc_turn_length qb
        + (cend sp.param qb c2).hc_turn_length (outer c2) ≤ L1 + L2 + L3 := by
    intro x y hxy tgt qa qb htgt hqa hqb
    have htc : center tgt = M := by rw [htgt, ← hxy]; rfl
    have htl : tgt.left = !c1.left := by rw [htgt]; rfl
    have htf : tgt.forward = c1.forward := by rw [htgt]; rfl
    have u1 : SameConfig (cfg qa) q1 := by
      rw [hqa]
      exact tt_fit (c1 := c1.reparam sp.param) (geom_reparam H c1) hA g1 (by rw [htc]; exact hM.symm)
    have u2 : SameConfig (cfg qb) q2 := by
      rw [hqb]
      refine tt_fit (c1 := tgt.reparam sp.param) (geom_reparam H tgt) hA ?_ ?_
      · change Spec.cen (-(sg tgt.forward * _)) (sg tgt.left * _) q2 = center tgt
        rw [htl, htf, htc, sg_not, neg_mul]; exact gm
      · change Spec.cen (sg tgt.forward * _) (-(sg tgt.left * _)) q2 = center c2
        rw [htl, htf, sg_not, neg_mul, neg_neg]; exact g2
    have a1 := t1.turn (cstart sp.param qa c1) (outer c1) (ok _ _ _) rfl rfl rfl u1 (same_outer _ _)
    have a2 := t2.ahead (SF.circleAt qa (!c1.left) c1.forward true sp.param) qb (ok _ _ _) rfl rfl rfl u1 u2
    have a3 := t3.turn (cend sp.param qb c2) (outer c2) (ok _ _ _) rfl hlr (bnot_fwd hf) u2 (same_outer _ _)
    linarith
  refine (entry_le sp c1 c2 (i := 5) (by norm_num)).trans ?_
  rw [(table_clear hcl).2 e]
  have := fin _ _ hxy _ _ _ rfl rfl rfl
  unfold TTT_path TTT_tangent_circles
  simp only
  rcases hy with rfl | rfl
  · split_ifs with hlt
    · exact this
    · exact (not_lt.1 hlt).trans this
  · split_ifs with hlt
    · exact hlt.le.trans this
    · exact this

end CCpmpm

end Spec
