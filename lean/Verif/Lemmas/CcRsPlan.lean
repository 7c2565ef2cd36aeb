import Verif.Lemmas.CcRsFamilies
import Verif.Lemmas.HcAll
import Verif.Spec.CcRsPlanner

/-!
# CC-Reeds-Shepp: existence and summary
-/

noncomputable section

namespace Spec

open Real Props
open CC00 (CircOk circOk_at)

/-- What is known of a path of type `t`. -/
inductive CcOk (k s : ℝ) (ts : List (SF.Circle × SF.Configuration)) (cs : List SF.Control)
    (p q : Config) (len : ℝ) : ℕ → Prop
  | empty (hc : cs = SF.empty_controls) (hw : Within SF.epsilon SF.epsilon p q) (hl : len = 0) :
      CcOk k s ts cs p q len 0
  | line {x : ℝ} (hc : cs = [⟨x, 0, 0⟩]) (hx : |x| = len)
      (h : Leads (cs.map seg) p q len (4 * SF.epsilon * totalLength (cs.map seg)) SF.epsilon 0) :
      CcOk k s ts cs p q len 1
  | leg {t : ℕ} {E : ℝ} (ht : 2 ≤ t) (hE : E ≤ SF.epsilon * missBound k s) (h0 : 5 ≤ t → E = 0)
      (hn : ts.length ≤ 4) (h : Leg k s 0 0 ts E cs p q len) : CcOk k s ts cs p q len t

theorem clothoidBound_le {k s : ℝ} (H : Rng k s) : clothoidBound k s ≤ ccA k s := ccA_lower' H.kappa H.sigma H.clothoid

theorem clothoidBound_pos {k s : ℝ} (H : Rng k s) : 0 < clothoidBound k s := by
  have := H.pos
  have := H.sigma
  unfold clothoidBound; positivity

theorem ccB_le_ccR (k s : ℝ) : ccB k s ≤ ccR k s := by
  rw [ccR]; exact le_sqrt_of_sq_le (by nlinarith [sq_nonneg (ccA k s)])

theorem cuspE_le {k s : ℝ} (H : Rng k s) : cuspE k s ≤ SF.epsilon * missBound k s := by
  have he : (0:ℝ) < SF.epsilon := by norm_num [SF.epsilon]
  have hA := ccA_pos H.kappa H.sigma H.clothoid
  have hB := ccB_pos H.kappa H.sigma H.clothoid
  have hR := (ccB_le_ccR k s).trans H.ccR_le
  have h0 := clothoidBound_pos H
  unfold cuspE missBound
  refine mul_le_mul_of_nonneg_left ?_ he.le
  have h1 : (2 * ccB k s + SF.epsilon / 2) / ccA k s ≤ (2 * radiusBound k s + 1) / clothoidBound k s := by
    refine div_le_div₀ (by linarith) ?_ h0 (clothoidBound_le H)
    have : SF.epsilon / 2 ≤ 1 := by norm_num [SF.epsilon]
    linarith
  linarith

theorem missBound_ge {k s : ℝ} (H : Rng k s) : 1 + radiusBound k s ≤ missBound k s := by
  have h0 := clothoidBound_pos H
  have hR := H.radius_nonneg
  unfold missBound
  have : 0 ≤ (2 * radiusBound k s + 1) / clothoidBound k s := by positivity
  linarith

section
variable {k s len : ℝ} {ts : List (SF.Circle × SF.Configuration)} {cs : List SF.Control} {p q p' q' : Config} {t : ℕ}

theorem CcOk.congr (h : CcOk k s ts cs p q len t) (hp : SameConfig p p') (hq : SameConfig q q') :
    CcOk k s ts cs p' q' len t := by
  cases h with
  | empty hc hw hl =>
    refine .empty hc ?_ hl
    have h1 : Near 0 p' p := Near.of_same le_rfl hp.symm
    have h2 : Near 0 q q' := Near.of_same le_rfl hq
    exact ((h1.within.trans hw).trans h2.within).mono (by linarith) (by linarith)
  | line hc hx h => exact .line hc hx (h.congr hp hq)
  | leg ht hE h0 hn h => exact .leg ht hE h0 hn (h.congr hp hq)

theorem CcOk.leads (h : CcOk k s ts cs p q len t) (H : Rng k s) :
    Leads (cs.map seg) p q len
      (SF.epsilon * (2 * missBound k s + 8 * radiusBound k s + 4 * totalLength (cs.map seg))) (4 * SF.epsilon)
      (SF.epsilon * (missBound k s + 4 * radiusBound k s)) := by
  have he : (0:ℝ) < SF.epsilon := by norm_num [SF.epsilon]
  have hL := totalLength_nonneg (cs.map seg)
  have hR := H.ccR_le
  have hR0 := ccR_nonneg k s
  have a5 := mul_nonneg he.le H.radius_nonneg
  have a6 := mul_nonneg he.le hL
  have a7 := mul_le_mul_of_nonneg_left (missBound_ge H) he.le
  cases h with
  | empty hc hw hl =>
    subst hc hl
    refine (CC00.empty_leads hw).mono ?_ ?_ ?_ <;> linarith
  | line _ _ h => refine h.mono ?_ ?_ ?_ <;> linarith
  | @leg _ E ht hE h0 hn h =>
    have hT := (h.track SF.epsilon he.le fun x _ => tiny_le x.1 x.2).leads
    have hn' : (ts.length : ℝ) ≤ 4 := by exact_mod_cast hn
    have hn0 : (0:ℝ) ≤ ts.length := Nat.cast_nonneg _
    have a1 : (ts.length : ℝ) * (2 * ccR k s * SF.epsilon + SF.epsilon * totalLength (cs.map seg))
        ≤ 4 * (2 * ccR k s * SF.epsilon + SF.epsilon * totalLength (cs.map seg)) :=
      mul_le_mul_of_nonneg_right hn' (by positivity)
    have a2 : (ts.length : ℝ) * (ccR k s * SF.epsilon) ≤ 4 * (ccR k s * SF.epsilon) :=
      mul_le_mul_of_nonneg_right hn' (by positivity)
    have a3 := mul_le_mul_of_nonneg_left hR he.le
    refine hT.mono ?_ ?_ ?_
    · linarith
    · exact mul_le_mul_of_nonneg_right hn' he.le
    · linarith

theorem CcOk.precise (h : CcOk k s ts cs p q len t) (h5 : 5 ≤ t)
    (ht : ∀ x ∈ ts, SF.Circle.deflection x.1 x.2 = 0 ∨ SF.epsilon ≤ SF.Circle.deflection x.1 x.2) :
    Leads (cs.map seg) p q len 0 0 0 := by
  cases h with
  | empty => omega
  | line => omega
  | leg _ _ hE _ h =>
    have := (h.track 0 le_rfl fun x hx => by
      unfold tiny
      split_ifs with hlt
      · rcases ht x hx with h0 | h0
        · exact h0.le
        · exact absurd hlt (not_lt.2 h0)
      · exact le_rfl).leads
    rw [hE h5] at this
    exact this.mono (by simp) (by simp) (by simp)

theorem CcOk.ne (h : CcOk k s ts cs p q len t) : cs ≠ [] := by
  cases h with
  | empty hc => rw [hc]; simp [SF.empty_controls]
  | line hc => rw [hc]; simp
  | leg _ _ _ _ h => exact h.ne

theorem CcOk.exact (h : CcOk k s ts cs p q len t) (ht : ∀ x ∈ ts, SF.epsilon ≤ SF.Circle.deflection x.1 x.2) :
    totalLength (cs.map seg) = len := by
  cases h with
  | empty hc hw hl => subst hc hl; simp [SF.empty_controls, seg, totalLength]
  | line hc hx => subst hc; simpa [seg, totalLength] using hx
  | leg _ _ _ _ h => exact h.exact ht

theorem CcOk.cont (h : CcOk k s ts cs p q len t) : CurvatureContinuous 0 (cs.map seg) 0 := by
  cases h with
  | empty hc => subst hc; simp [SF.empty_controls, seg, CurvatureContinuous]
  | line hc => subst hc; simp [seg, CurvatureContinuous]
  | leg _ _ _ _ h => exact (h.track SF.epsilon (by norm_num [SF.epsilon]) fun x _ => tiny_le x.1 x.2).cont

theorem CcOk.flat (h : CcOk k s ts cs p q len t) : ∀ c ∈ cs, c.sigma = 0 → c.kappa = 0 ∨ |c.kappa| > SF.epsilon := by
  cases h with
  | empty hc =>
    subst hc
    intro c hc _
    rw [SF.empty_controls, List.mem_singleton] at hc
    rw [hc]; exact .inl rfl
  | line hc =>
    subst hc
    intro c hc _
    rw [List.mem_singleton] at hc
    rw [hc]; exact .inl rfl
  | leg _ _ _ _ h => exact (h.track SF.epsilon (by norm_num [SF.epsilon]) fun x _ => tiny_le x.1 x.2).flat

theorem CcOk.limits (h : CcOk k s ts cs p q len t) (H : Rng k s) (h2 : t ≠ 2) (h3 : t ≠ 3) (h4 : t ≠ 4) :
    CurvatureAtMost (k * (1 + 1 / 10 ^ 8)) (cs.map seg) ∧ SharpnessAtMost (s * (1 + 2 / 10 ^ 8)) (cs.map seg) := by
  have hk := H.pos
  have hs := H.sigma
  have line : ∀ x, CurvatureAtMost (k * (1 + 1 / 10 ^ 8)) (([⟨x, 0, 0⟩] : List SF.Control).map seg) ∧
      SharpnessAtMost (s * (1 + 2 / 10 ^ 8)) (([⟨x, 0, 0⟩] : List SF.Control).map seg) := by
    intro x
    refine ⟨?_, ?_⟩
    · intro c hc t _ _
      simp only [List.map_cons, List.map_nil, List.mem_singleton, seg] at hc
      subst hc; simp only [zero_mul, add_zero, abs_zero]; positivity
    · intro c hc
      simp only [List.map_cons, List.map_nil, List.mem_singleton, seg] at hc
      subst hc; simp only [abs_zero]; positivity
  cases h with
  | empty hc => subst hc; exact line 0
  | line hc => subst hc; exact line _
  | leg ht _ h0 _ h =>
    exact (h.track SF.epsilon (by norm_num [SF.epsilon]) fun x _ => tiny_le x.1 x.2).limits (h0 (by omega))

end

namespace CcRs

open SF.CcRs

variable {sp : SF.HCSpace} (H : Rng sp.kappa sp.sigma) {c1 c2 : SF.Circle}

/-! ### Lengths -/

theorem entry_le (sp : SF.HCSpace) (c1 c2 : SF.Circle) {i : ℕ} (hi : i < 18) :
    (circles_rs_path sp c1 c2).length ≤ (table sp (SF.scratch c1 c2) c1 c2 i).length :=
  (C04_array_index_min (fun i => (table sp (SF.scratch c1 c2) c1 c2 i).length) 18 (by norm_num)).2.1 i hi

include H in
/-- The cases `E`, `S` and `T`. -/
theorem shortcut_le (h1 : CircOk c1 sp.kappa sp.sigma) {t : ℕ} {r : SF.RSRow} (h : shortcut c1 c2 = some (t, r)) :
    t < 3 ∧ r.length ≤ TB sp.kappa sp.sigma + SF.configuration_distance c1.start c2.start := by
  have hT := TB_nonneg H
  have hd : 0 ≤ SF.configuration_distance c1.start c2.start := sqrt_nonneg _
  have hsym : SF.configuration_distance c2.start c1.start = SF.configuration_distance c1.start c2.start := by
    rw [configuration_distance_eq, configuration_distance_eq, norm_sub_rev]
  unfold shortcut at h
  split_ifs at h <;> simp only [Option.some.injEq, Prod.mk.injEq] at h <;> obtain ⟨rfl, rfl⟩ := h <;>
    refine ⟨by decide, ?_⟩ <;> simp only
  · linarith
  · linarith
  · rw [hsym]; linarith
  · exact (cc_length_le H h1 c2.start).trans (by linarith)

include H in
theorem path_le_family (h1 : CircOk c1 sp.kappa sp.sigma) {i : ℕ} (hi : i < 18) {x : ℝ}
    (hx : (family sp (SF.scratch c1 c2) c1 c2 i).length ≤ x)
    (hd : TB sp.kappa sp.sigma + SF.configuration_distance c1.start c2.start ≤ x) :
    (circles_rs_path sp c1 c2).length ≤ x := by
  rcases hs : shortcut c1 c2 with _ | ⟨t, r⟩
  · have := entry_le sp c1 c2 hi
    unfold table at this
    rw [hs] at this
    exact this.trans hx
  · obtain ⟨ht, hr⟩ := shortcut_le H h1 hs
    have := entry_le sp c1 c2 (i := t) (by omega)
    unfold table at this
    rw [hs] at this
    simp only [if_true] at this
    linarith

include H in
theorem line_row_le (h1 : CircOk c1 sp.kappa sp.sigma) (h2 : CircOk c2 sp.kappa sp.sigma)
    (q : SF.Configuration × SF.Configuration) :
    (line_row c1 c2 q).length ≤ 2 * TB sp.kappa sp.sigma + SF.configuration_distance q.1 q.2 := by
  have := cc_length_le H h1 q.1
  have := cc_length_le H h2 q.2
  unfold line_row
  simp only
  linarith

include H in
theorem TTT_side_le (h1 : CircOk c1 sp.kappa sp.sigma) (h2 : CircOk c2 sp.kappa sp.sigma) (dx dy : ℝ) :
    (TTT_side sp.param (SF.scratch c1 c2) c1 c2 dx dy).length ≤ 3 * TB sp.kappa sp.sigma := by
  unfold TTT_side
  simp only
  refine (add_le_add (add_le_add (cc_length_le H h1 _)
    (cc_length_le H (circOk_at H.kappa H.sigma H.clothoid _ _ _ _) _)) (cc_length_le H h2 _)).trans ?_
  linarith

include H in
/-- Between circles on the same side. -/
theorem same_side (h1 : CircOk c1 sp.kappa sp.sigma) (h2 : CircOk c2 sp.kappa sp.sigma) (hl : c2.left = c1.left)
    (hf : c2.forward = !c1.forward) {x : ℝ}
    (hx1 : 4 * TB sp.kappa sp.sigma + SF.center_distance c1 c2 ≤ x)
    (hx2 : TB sp.kappa sp.sigma + SF.configuration_distance c1.start c2.start ≤ x) :
    (circles_rs_path sp c1 c2).length ≤ x := by
  have hT := TB_nonneg H
  have hcd : 0 ≤ SF.center_distance c1 c2 := sqrt_nonneg _
  have hne : c1.forward ≠ c2.forward := by rw [hf]; cases c1.forward <;> simp
  by_cases e5 : TTT_exists (SF.scratch c1 c2) c1 c2
  · refine path_le_family H h1 (i := SF.hc_cc_rs.TTT) (by decide) ?_ hx2
    simp only [family, if_pos e5]
    refine (shorter_le (TTT_side_le H h1 h2 _ _) (TTT_side_le H h1 h2 _ _)).trans (by linarith)
  · have hD : 4 * ccR sp.kappa sp.sigma < SF.center_distance c1 c2 := by
      by_contra hc
      push Not at hc
      refine e5 ?_
      unfold TTT_exists SF.CC00.TTT_exists
      rw [if_neg (by simp [hl]), if_neg hne, h1.ok.geom.ccR]
      exact hc
    have hA : ccA sp.kappa sp.sigma ≤ ccR sp.kappa sp.sigma := by
      rw [ccR]; exact le_sqrt_of_sq_le (by nlinarith [sq_nonneg (ccB sp.kappa sp.sigma)])
    have hR := ccR_nonneg sp.kappa sp.sigma
    have e7 : ¬ TiST_exists (SF.scratch c1 c2) c1 c2 := by
      unfold TiST_exists SF.CC00.TiST_exists; rw [if_pos (by simp [hl])]; exact id
    have e6 : TeST_exists (SF.scratch c1 c2) c1 c2 := by
      unfold TeST_exists SF.CC00.TeST_exists
      rw [if_neg (by simp [hl]), if_neg hne, mul_assoc, h1.ok.sin_mu]
      exact le_trans (by linarith) hD.le
    refine path_le_family H h1 (i := SF.hc_cc_rs.TST) (by decide) ?_ hx2
    simp only [family, TST_path, if_neg e7, if_pos e6]
    refine (line_row_le H h1 h2 _).trans ?_
    rw [center_distance_eq] at hD hx1
    obtain ⟨_, _, y, hx, hx', ha⟩ := TeST_geo H c1 c2 h1.ok.geom (by linarith)
    have := ha.length (sg_pm _) hx
    rw [this]
    linarith

/-! ### The chosen path -/

/-- The chosen row. -/
theorem chosen (hlt : (circles_rs_path sp c1 c2).length < SF.dblMax) :
    (∃ t r, shortcut c1 c2 = some (t, r) ∧ t < 3 ∧
      circles_rs_path sp c1 c2 = ⟨t, r, t = SF.hc_cc_rs.TcT ∧ TcT_lost c1 c2⟩) ∨
    (shortcut c1 c2 = none ∧ ∃ i, 3 ≤ i ∧
      circles_rs_path sp c1 c2 = ⟨i, family sp (SF.scratch c1 c2) c1 c2 i, i = SF.hc_cc_rs.TcT ∧ TcT_lost c1 c2⟩) := by
  obtain ⟨i, hi⟩ : ∃ i, circles_rs_path sp c1 c2
      = ⟨i, table sp (SF.scratch c1 c2) c1 c2 i, i = SF.hc_cc_rs.TcT ∧ TcT_lost c1 c2⟩ := ⟨_, rfl⟩
  rw [hi] at hlt ⊢
  change (table sp (SF.scratch c1 c2) c1 c2 i).length < SF.dblMax at hlt
  have hno : ¬ ({} : SF.RSRow).length < SF.dblMax := lt_irrefl _
  unfold table at hlt ⊢
  rcases hs : shortcut c1 c2 with _ | ⟨t, r⟩
  · right
    rw [hs] at hlt
    refine ⟨rfl, i, ?_, rfl⟩
    by_contra h
    obtain rfl | rfl | rfl : i = 0 ∨ i = 1 ∨ i = 2 := by omega
    all_goals exact hno hlt
  · left
    rw [hs] at hlt
    by_cases h : i = t
    · subst h
      refine ⟨_, r, rfl, ?_, by simp⟩
      unfold shortcut at hs
      split_ifs at hs <;> simp only [Option.some.injEq, Prod.mk.injEq] at hs <;> obtain ⟨rfl, rfl⟩ := hs <;> decide
    · simp only [if_neg h] at hlt
      exact absurd hlt hno

include H in
/-- Every path found leads to its end, or its controls are not numbers. -/
theorem found (h1 : CircOk c1 sp.kappa sp.sigma) (h2 : CircOk c2 sp.kappa sp.sigma)
    (hlt : (circles_rs_path sp c1 c2).length < SF.dblMax) :
    (path_controls (circles_rs_path sp c1 c2) = none ∧ (circles_rs_path sp c1 c2).type = SF.hc_cc_rs.TcT ∧
      TcT_exists (SF.scratch c1 c2) c1 c2 ∧ TcT_negative c1 c2) ∨
    ∃ cs, path_controls (circles_rs_path sp c1 c2) = some cs ∧
      CcOk sp.kappa sp.sigma (ccTurns (circles_rs_path sp c1 c2)) cs (cfg c1.start) (cfg c2.start)
        (circles_rs_path sp c1 c2).length (circles_rs_path sp c1 c2).type := by
  have he : (0:ℝ) < SF.epsilon := by norm_num [SF.epsilon]
  have hRle := H.ccR_le
  rcases chosen hlt with ⟨t, r, hs, ht, hp⟩ | ⟨_, i, hi, hp⟩
  · right
    rw [hp]
    have hl : ¬ (t = SF.hc_cc_rs.TcT ∧ TcT_lost c1 c2) := fun h => by
      have := h.1
      simp only [SF.hc_cc_rs.TcT] at this
      omega
    unfold path_controls
    rw [if_neg hl]
    unfold shortcut at hs
    by_cases h0 : SF.configuration_equal c1.start c2.start
    · rw [if_pos h0] at hs
      simp only [Option.some.injEq, Prod.mk.injEq] at hs
      obtain ⟨rfl, rfl⟩ := hs
      exact ⟨_, if_pos rfl, .empty rfl (equal_within h0) rfl⟩
    rw [if_neg h0] at hs
    by_cases e1 : SF.configuration_aligned c1.start c2.start
    · rw [if_pos e1] at hs
      simp only [Option.some.injEq, Prod.mk.injEq] at hs
      obtain ⟨rfl, rfl⟩ := hs
      obtain ⟨ha, hb, _⟩ := aligned_im e1
      rw [abs_sub_comm] at ha
      refine ⟨_, if_neg (show ¬ (1:ℕ) = 0 by decide), ?_⟩
      have e : ([.line c1.start c2.start] : List SF.Move).flatMap SF.Move.controls
          = SF.straight_controls c1.start c2.start := by simp [SF.Move.controls]
      rw [e]
      refine .line rfl (abs_pm_mul (SF.sgn_eq _) (sqrt_nonneg _)) ?_
      refine (straight_leads hb ⟨_, AngleEq.refl _, ha⟩).mono ?_ le_rfl le_rfl
      rw [straight_length]
      have : 0 ≤ SF.epsilon * SF.configuration_distance c1.start c2.start := mul_nonneg he.le (sqrt_nonneg _)
      linarith
    rw [if_neg e1] at hs
    by_cases e2 : SF.configuration_aligned c2.start c1.start
    · rw [if_pos e2] at hs
      simp only [Option.some.injEq, Prod.mk.injEq] at hs
      obtain ⟨rfl, rfl⟩ := hs
      obtain ⟨ha, _, hb⟩ := aligned_im e2
      have hsym : SF.configuration_distance c2.start c1.start = SF.configuration_distance c1.start c2.start := by
        rw [configuration_distance_eq, configuration_distance_eq, norm_sub_rev]
      rw [hsym] at hb ⊢
      refine ⟨_, if_neg (show ¬ (1:ℕ) = 0 by decide), ?_⟩
      have e : ([.line c1.start c2.start] : List SF.Move).flatMap SF.Move.controls
          = SF.straight_controls c1.start c2.start := by simp [SF.Move.controls]
      rw [e]
      refine .line rfl (abs_pm_mul (SF.sgn_eq _) (sqrt_nonneg _)) ?_
      refine (straight_leads hb ⟨_, AngleEq.refl _, ha⟩).mono ?_ le_rfl le_rfl
      rw [straight_length]
      linarith
    rw [if_neg e2] at hs
    by_cases e3 : SF.configuration_on_hc_cc_circle c1 c2.start
    · rw [if_pos e3] at hs
      simp only [Option.some.injEq, Prod.mk.injEq] at hs
      obtain ⟨rfl, rfl⟩ := hs
      have hc := on_circle_center h1.ok.geom e3
      refine ⟨_, if_neg (show ¬ (2:ℕ) = 0 by decide), .leg (E := SF.epsilon * (1 + c1.radius)) (le_refl 2) ?_
        (fun h => absurd h (show ¬ 5 ≤ 2 by decide)) (by simp [ccTurns, turns]) ?_⟩
      · rw [h1.ok.geom.ccR]
        exact mul_le_mul_of_nonneg_left (le_trans (by linarith) (missBound_ge H)) he.le
      · have := ccpart_first H h1 hc
        simp only [ccTurns, turns, SF.Move.controls, Path.length, List.flatMap_cons, List.flatMap_nil, List.append_nil]
        exact this
    · rw [if_neg e3] at hs
      exact absurd hs (by simp)
  · rw [hp] at hlt ⊢
    by_cases hl : i = SF.hc_cc_rs.TcT ∧ TcT_lost c1 c2
    · left
      refine ⟨if_pos hl, hl.1, ?_, hl.2.1⟩
      obtain ⟨rfl, _⟩ := hl
      by_contra hne
      change (family sp (SF.scratch c1 c2) c1 c2 SF.hc_cc_rs.TcT).length < SF.dblMax at hlt
      simp only [family, if_neg hne] at hlt
      exact absurd hlt (lt_irrefl _)
    · right
      have hr := cc_family_ok H h1 h2 hl hlt
      refine ⟨_, (if_neg hl).trans (if_neg (by simp only [SF.hc_cc_rs.E]; omega)),
        .leg (E := ccFamE sp.kappa sp.sigma i) (by simp only; omega) ?_ ?_ hr.turns_le hr.leg⟩
      · unfold ccFamE
        have h5 := missBound_ge H
        have h6 := H.radius_nonneg
        split_ifs
        · have := mul_le_mul_of_nonneg_left (show 1 ≤ missBound sp.kappa sp.sigma by linarith) he.le
          linarith
        · exact cuspE_le H
        · exact mul_nonneg he.le (by linarith)
      · intro h5
        simp only at h5
        rw [ccFamE, if_neg (by omega), if_neg (by omega)]

/-! ### The planner -/

theorem best_spec (sp : SF.HCSpace) (s1 s2 : SF.State) :
    ∃ n < 16, reeds_shepp sp s1 s2 = path sp s1 s2 n ∧ ∀ m < 16, (path sp s1 s2 n).length ≤ (path sp s1 s2 m).length := by
  have h := C04_array_index_min (fun n => (path sp s1 s2 n).length) 16 (by norm_num)
  exact ⟨_, h.1, rfl, fun m hm => h.2.1 m hm⟩

include H in
theorem end_ok (s : SF.State) (i : ℕ) : CircOk (end_circle sp s i) sp.kappa sp.sigma :=
  circOk_at H.kappa H.sigma H.clothoid _ _ _ _

theorem end_cfg (s : SF.State) (i : ℕ) : SameConfig (cfg (end_circle sp s i).start) (pose s) :=
  ⟨rfl, rfl, SF.twopify_angleEq _⟩

include H in
theorem distance_le (s1 s2 : SF.State) :
    get_distance sp s1 s2 ≤ dist2 s1 s2 + 40 * (sp.kappa / sp.sigma) + 60 / sp.kappa := by
  have hki : 0 < 1 / sp.kappa := by have := H.pos; positivity
  have hR := ccR_nonneg sp.kappa sp.sigma
  have hTB := TB_nonneg H
  have hb0 := bound_le H
  have hc := (centers_le (CircOk_start_dist (end_ok H s1 0)) (CircOk_start_dist (end_ok H s2 2))).1
  have hd : SF.configuration_distance (end_circle sp s1 0).start (end_circle sp s2 2).start = dist2 s1 s2 := rfl
  obtain ⟨n, _, hn, hmin⟩ := best_spec sp s1 s2
  rw [get_distance, hn]
  refine (hmin 2 (by norm_num)).trans ?_
  unfold path
  refine same_side H (end_ok H s1 0) (end_ok H s2 2) rfl rfl ?_ ?_
  · rw [hd] at hc; linarith
  · rw [hd]; linarith

theorem plan (h : InRange sp.kappa sp.sigma) (s1 s2 : SF.State) (hfar : dist2 s1 s2 ≤ 10 ^ 100) :
    (get_controls sp s1 s2 = none ∧ (reeds_shepp sp s1 s2).type = SF.hc_cc_rs.TcT ∧ ¬ CuspClear sp.kappa sp.sigma ∧
      dist2 s1 s2 < 4 * radiusBound sp.kappa sp.sigma + SF.epsilon) ∨
    ∃ cs, get_controls sp s1 s2 = some cs ∧
      CcOk sp.kappa sp.sigma (ccTurns (reeds_shepp sp s1 s2)) cs (pose s1) (pose s2) (get_distance sp s1 s2)
        (reeds_shepp sp s1 s2).type := by
  have H := h.rng
  have hlt := (distance_le H s1 s2).trans_lt (bound_finite h hfar)
  obtain ⟨n, _, hn, -⟩ := best_spec sp s1 s2
  unfold get_controls
  unfold get_distance at hlt ⊢
  rw [hn] at hlt ⊢
  unfold path at hlt ⊢
  rcases found H (end_ok H s1 (n / 4)) (end_ok H s2 (n % 4)) hlt with ⟨h1, h2, h3, h4⟩ | ⟨cs, h1, h2⟩
  · left
    have key := (centers_le (CircOk_start_dist (end_ok H s1 (n / 4))) (CircOk_start_dist (end_ok H s2 (n % 4)))).2
    have hd : SF.configuration_distance (end_circle sp s1 (n / 4)).start (end_circle sp s2 (n % 4)).start = dist2 s1 s2 := rfl
    have hok := end_ok H s1 (n / 4)
    unfold TcT_exists at h3
    split_ifs at h3
    have h3 := (abs_lt.1 h3).2
    rw [mul_assoc, hok.ok.cos_mu] at h3
    change SF.center_distance _ _ - _ < _ at h3
    have hBR := ccB_le_ccR sp.kappa sp.sigma
    have hRR := H.ccR_le
    refine ⟨h1, h2, fun hclear => ?_, ?_⟩
    · unfold TcT_negative at h4
      rw [hok.ok.geom.ccR] at h4
      have hB := ccB_pos H.kappa H.sigma H.clothoid
      have hA := clothoidBound_le H
      have hA0 := clothoidBound_pos H
      have hR2 : ccR sp.kappa sp.sigma ^ 2 = ccA sp.kappa sp.sigma ^ 2 + ccB sp.kappa sp.sigma ^ 2 := by
        rw [ccR, sq_sqrt (by positivity)]
      have hD0 : 0 ≤ SF.center_distance (end_circle sp s1 (n / 4)) (end_circle sp s2 (n % 4)) := sqrt_nonneg _
      generalize SF.center_distance (end_circle sp s1 (n / 4)) (end_circle sp s2 (n % 4)) = D at *
      unfold CuspClear at hclear
      have e1 : clothoidBound sp.kappa sp.sigma ^ 2 ≤ ccA sp.kappa sp.sigma ^ 2 := pow_le_pow_left₀ hA0.le hA 2
      have e2 : (0.5 * D) ^ 2 ≤ (ccB sp.kappa sp.sigma + SF.epsilon / 2) ^ 2 :=
        pow_le_pow_left₀ (by linarith) (by linarith) 2
      rw [SF.epsilon] at e2
      rw [hR2] at h4
      nlinarith
    · rw [hd] at key
      linarith
  · exact .inr ⟨cs, h1, h2.congr (end_cfg _ _) (end_cfg _ _)⟩

/-- Paths of type `E`, `T`, `TT` and `TcT` are short. -/
theorem type_near (h : InRange sp.kappa sp.sigma) (s1 s2 : SF.State) (hfar : dist2 s1 s2 ≤ 10 ^ 100)
    (ht : (reeds_shepp sp s1 s2).type = 0 ∨ (reeds_shepp sp s1 s2).type = 2 ∨ (reeds_shepp sp s1 s2).type = 3 ∨
      (reeds_shepp sp s1 s2).type = 4) :
    dist2 s1 s2 < 4 * radiusBound sp.kappa sp.sigma + 2 * SF.epsilon := by
  have H := h.rng
  have he : (0:ℝ) < SF.epsilon := by norm_num [SF.epsilon]
  have hR0 := H.radius_nonneg
  have hRR := H.ccR_le
  have hBR := ccB_le_ccR sp.kappa sp.sigma
  have hlt := (distance_le H s1 s2).trans_lt (bound_finite h hfar)
  obtain ⟨n, _, hn, -⟩ := best_spec sp s1 s2
  unfold get_distance at hlt
  rw [hn] at hlt ht
  unfold path at hlt ht
  have e1 := end_ok H s1 (n / 4)
  have e2 := end_ok H s2 (n % 4)
  have key := (centers_le (CircOk_start_dist e1) (CircOk_start_dist e2)).2
  have hd' : SF.configuration_distance (end_circle sp s1 (n / 4)).start (end_circle sp s2 (n % 4)).start = dist2 s1 s2 := rfl
  have start1 := CircOk_start_dist e1
  rw [hd'] at key
  generalize end_circle sp s1 (n / 4) = c1 at *
  generalize end_circle sp s2 (n % 4) = c2 at *
  rcases chosen hlt with ⟨t, r, hs, _, hp⟩ | ⟨_, t, h3, hp⟩
  · rw [hp] at ht
    unfold shortcut at hs
    split_ifs at hs with a1 a2 a3 a4
    · have := (equal_within a1).1
      rw [← hd', configuration_distance_eq]
      rw [Config.dist_comm, Config.dist_eq] at this
      linarith
    · simp only [Option.some.injEq, Prod.mk.injEq] at hs
      obtain ⟨rfl, rfl⟩ := hs
      simp [SF.hc_cc_rs.S] at ht
    · simp only [Option.some.injEq, Prod.mk.injEq] at hs
      obtain ⟨rfl, rfl⟩ := hs
      simp [SF.hc_cc_rs.S] at ht
    · have h1 := HcRs.on_circle_dist a4
      have h2 : SF.point_distance c1.xc c1.yc c2.start.x c2.start.y = ‖(cfg c2.start).pos - center c1‖ := by
        rw [SF.point_distance, Complex.norm_eq_sqrt_sq_add_sq]; rfl
      rw [← hd', configuration_distance_eq]
      have := norm_add_le ((cfg c2.start).pos - center c1) (center c1 - (cfg c1.start).pos)
      rw [sub_add_sub_cancel, ← h2, start1] at this
      rw [e1.ok.geom.ccR] at h1
      refine lt_of_le_of_lt this ?_
      linarith
  · rw [hp] at ht hlt
    simp only at ht
    change (family sp (SF.scratch c1 c2) c1 c2 t).length < SF.dblMax at hlt
    obtain rfl | rfl : t = 3 ∨ t = 4 := by omega
    · by_cases h : TT_exists (SF.scratch c1 c2) c1 c2
      · unfold TT_exists SF.CC00.TT_exists at h
        split_ifs at h
        have h' := (abs_lt.1 h).2
        rw [e1.ok.geom.ccR] at h'
        change SF.center_distance c1 c2 - _ < _ at h'
        linarith
      · simp only [family, if_neg h] at hlt
        exact absurd hlt (lt_irrefl _)
    · by_cases h : TcT_exists (SF.scratch c1 c2) c1 c2
      · unfold TcT_exists at h
        split_ifs at h
        have h' := (abs_lt.1 h).2
        rw [mul_assoc, e1.ok.cos_mu] at h'
        change SF.center_distance c1 c2 - _ < _ at h'
        linarith
      · simp only [family, if_neg h] at hlt
        exact absurd hlt (lt_irrefl _)

end CcRs

end Spec
