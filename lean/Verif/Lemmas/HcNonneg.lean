import Verif.Lemmas.HcWide

/-!
# Lengths of the rows of the HC-Reeds-Shepp planners are not negative
-/

noncomputable section

namespace Spec

open Real Props
open CC00 (circOk_at)

def Nn (r : SF.RSRow) : Prop := 0 ≤ r.length

theorem Nn.empty : Nn {} := by
  change 0 ≤ SF.dblMax
  exact le_of_lt (lt_trans (by positivity) SF.dblMax_large)

theorem Nn.shorter {a b : SF.RSRow} (ha : Nn a) (hb : Nn b) : Nn (a.shorter b) := by
  unfold SF.RSRow.shorter; split_ifs <;> assumption

section
variable {f l : SF.Move} {ms : List SF.Move} {x1 x2 x3 : ℝ}

theorem nn2 (hf : 0 ≤ f.length) (hl : 0 ≤ l.length) : Nn ⟨f.length + l.length, ms⟩ := add_nonneg hf hl

theorem nn3 (hf : 0 ≤ f.length) (hl : 0 ≤ l.length) (h1 : 0 ≤ x1) : Nn ⟨f.length + x1 + l.length, ms⟩ :=
  add_nonneg (add_nonneg hf h1) hl

theorem nn4 (hf : 0 ≤ f.length) (hl : 0 ≤ l.length) (h1 : 0 ≤ x1) (h2 : 0 ≤ x2) :
    Nn ⟨f.length + x1 + x2 + l.length, ms⟩ := add_nonneg (add_nonneg (add_nonneg hf h1) h2) hl

theorem nn5 (hf : 0 ≤ f.length) (hl : 0 ≤ l.length) (h1 : 0 ≤ x1) (h2 : 0 ≤ x2) (h3 : 0 ≤ x3) :
    Nn ⟨f.length + x1 + x2 + x3 + l.length, ms⟩ := add_nonneg (add_nonneg (add_nonneg (add_nonneg hf h1) h2) h3) hl

end

open SF.HcRs in
theorem hc_family_nonneg (pm1 pm2 : Bool) {sp : SF.HCSpace} (H : Rng sp.kappa sp.sigma) (c1 c2 : SF.Circle) (m : SF.Scratch) (i : ℕ) :
    Nn (family pm1 pm2 sp m c1 c2 i) := by
  have hA := (ccA_pos H.kappa H.sigma H.clothoid).le
  have hm : ∀ q l f r q', 0 ≤ (SF.circleAt q l f r sp.param).cc_turn_length q' := fun q l f r q' =>
    CC00.cc_turn_length_nonneg (circOk_at H.kappa H.sigma H.clothoid q l f r).ok hA q'
  have hc := hc_length_nonneg
  have rs := rs_length_nonneg
  have di := distance_nonneg
  have f1 : ∀ q, 0 ≤ (firstT pm1 sp.param c1 q).length := fun q => by
    cases pm1
    · exact hm _ _ _ _ _
    · exact hc _ _
  have f2 : ∀ q, 0 ≤ (firstTc pm1 c1 q).length := fun q => by
    cases pm1
    · exact hc _ _
    · exact rs _ _
  have l1 : ∀ q, 0 ≤ (lastT pm2 sp.param c2 q).length := fun q => by
    cases pm2
    · exact hm _ _ _ _ _
    · exact hc _ _
  have l2 : ∀ q, 0 ≤ (lastcT pm2 c2 q).length := fun q => by
    cases pm2
    · exact hc _ _
    · exact rs _ _
  unfold family
  split
  · split_ifs
    · exact nn2 (f1 _) (l1 _)
    · exact Nn.empty
  · split_ifs
    · exact nn2 (f2 _) (l2 _)
    · exact Nn.empty
  · split_ifs
    · exact (nn3 (f2 _) (l2 _) (rs _ _)).shorter (nn3 (f2 _) (l2 _) (rs _ _))
    · exact Nn.empty
  · split_ifs
    · unfold TcTT_path
      simp only
      split_ifs
      · exact Nn.empty
      · exact (nn3 (f2 _) (l1 _) (hc _ _)).shorter (nn3 (f2 _) (l1 _) (hc _ _))
    · exact Nn.empty
  · split_ifs
    · unfold TTcT_path
      simp only
      split_ifs
      · exact Nn.empty
      · exact (nn3 (f1 _) (l2 _) (hc _ _)).shorter (nn3 (f1 _) (l2 _) (hc _ _))
    · exact Nn.empty
  · unfold TST_path
    split_ifs
    · exact nn3 (f1 _) (l1 _) (di _ _)
    · exact nn3 (f1 _) (l1 _) (di _ _)
    · exact Nn.empty
  · unfold TSTcT_path
    split_ifs
    · exact nn4 (f1 _) (l2 _) (di _ _) (hc _ _)
    · exact nn4 (f1 _) (l2 _) (di _ _) (hc _ _)
    · exact Nn.empty
  · unfold TcTST_path
    split_ifs
    · exact nn4 (f2 _) (l1 _) (hc _ _) (di _ _)
    · exact nn4 (f2 _) (l1 _) (hc _ _) (di _ _)
    · exact Nn.empty
  · unfold TcTSTcT_path
    split_ifs
    · exact nn5 (f2 _) (l2 _) (hc _ _) (di _ _) (hc _ _)
    · exact nn5 (f2 _) (l2 _) (hc _ _) (di _ _) (hc _ _)
    · exact Nn.empty
  · split_ifs
    · unfold TTcTT_path
      simp only
      split_ifs <;> first
        | exact Nn.empty
        | exact ((nn4 (f1 _) (l1 _) (hc _ _) (hc _ _)).shorter (nn4 (f1 _) (l1 _) (hc _ _) (hc _ _)))
    · exact Nn.empty
  · split_ifs
    · unfold TcTTcT_path
      simp only
      split_ifs <;> first
        | exact Nn.empty
        | exact ((nn4 (f2 _) (l2 _) (hc _ _) (hc _ _)).shorter (nn4 (f2 _) (l2 _) (hc _ _) (hc _ _)))
    · exact Nn.empty
  · split_ifs
    · exact (nn3 (f1 _) (l1 _) (hm _ _ _ _ _)).shorter (nn3 (f1 _) (l1 _) (hm _ _ _ _ _))
    · exact Nn.empty
  · unfold TcST_path
    split_ifs
    · exact nn3 (f2 _) (l1 _) (di _ _)
    · exact nn3 (f2 _) (l1 _) (di _ _)
    · exact Nn.empty
  · unfold TScT_path
    split_ifs
    · exact nn3 (f1 _) (l2 _) (di _ _)
    · exact nn3 (f1 _) (l2 _) (di _ _)
    · exact Nn.empty
  · unfold TcScT_path
    split_ifs
    · exact nn3 (f2 _) (l2 _) (di _ _)
    · exact nn3 (f2 _) (l2 _) (di _ _)
    · exact Nn.empty
  · exact Nn.empty

open SF.HcRs in
theorem hc_shortcut_nonneg (pm1 pm2 : Bool) {sp : SF.HCSpace} (H : Rng sp.kappa sp.sigma) (c1 c2 : SF.Circle) (m : SF.Scratch)
    {t : ℕ} {r : SF.RSRow} (h : shortcut pm1 pm2 sp m c1 c2 = some (t, r)) : Nn r := by
  have hA := (ccA_pos H.kappa H.sigma H.clothoid).le
  have hm : ∀ q l f r q', 0 ≤ (SF.circleAt q l f r sp.param).cc_turn_length q' := fun q l f r q' =>
    CC00.cc_turn_length_nonneg (circOk_at H.kappa H.sigma H.clothoid q l f r).ok hA q'
  unfold shortcut at h
  cases pm1 <;> cases pm2 <;> simp only at h <;> split_ifs at h <;>
    first
      | (cases h; exact le_refl (0:ℝ))
      | (cases h; exact distance_nonneg _ _)
      | (cases h; exact hm _ _ _ _ _)
      | (cases h; exact hc_length_nonneg _ _)
      | (cases h; exact rs_length_nonneg _ _)

/-- The distance of every HC-Reeds-Shepp planner with fixed curvatures is not negative. -/
theorem hc_distance_nonneg {pm1 pm2 : Bool} {sp : SF.HCSpace} (H : Rng sp.kappa sp.sigma) {s1 s2 : SF.State} {x : ℝ}
    (h : SF.HcRs.get_distance pm1 pm2 sp s1 s2 = some x) : 0 ≤ x := by
  unfold SF.HcRs.get_distance SF.HcRs.reeds_shepp at h
  generalize SF.array_index_min _ 16 = n at h
  unfold SF.HcRs.path at h
  split_ifs at h
  · simp at h
  · simp only [Option.map_some, Option.some.injEq] at h
    rw [← h]
    unfold SF.HcRs.circles_rs_path SF.HcRs.RSPath.length
    simp only
    generalize SF.array_index_min _ _ = k
    unfold SF.HcRs.table
    split
    · rename_i t r e
      split_ifs
      · exact hc_shortcut_nonneg pm1 pm2 H _ _ _ e
      · exact Nn.empty
    · exact hc_family_nonneg pm1 pm2 H _ _ _ _

end Spec
