import Verif.Lemmas.HcNonneg

/-!
# Lengths of the rows of CC00-Reeds-Shepp and CC00-Dubins are not negative
-/

noncomputable section

namespace Spec

open Real Props
open CC00 (circOk_at)

section
variable {a b c d e : ℝ} {ms : List SF.Move}

theorem nr2 (ha : 0 ≤ a) (hb : 0 ≤ b) : Nn ⟨a + b, ms⟩ := add_nonneg ha hb
theorem nr3 (ha : 0 ≤ a) (hb : 0 ≤ b) (hc : 0 ≤ c) : Nn ⟨a + b + c, ms⟩ := add_nonneg (add_nonneg ha hb) hc
theorem nr4 (ha : 0 ≤ a) (hb : 0 ≤ b) (hc : 0 ≤ c) (hd : 0 ≤ d) : Nn ⟨a + b + c + d, ms⟩ :=
  add_nonneg (add_nonneg (add_nonneg ha hb) hc) hd
theorem nr5 (ha : 0 ≤ a) (hb : 0 ≤ b) (hc : 0 ≤ c) (hd : 0 ≤ d) (he : 0 ≤ e) : Nn ⟨a + b + c + d + e, ms⟩ :=
  add_nonneg (add_nonneg (add_nonneg (add_nonneg ha hb) hc) hd) he

end

open SF.CcRs in
theorem cc_family_nonneg {sp : SF.HCSpace} (H : Rng sp.kappa sp.sigma) {c1 c2 : SF.Circle}
    (f : ∀ q, 0 ≤ c1.cc_turn_length q) (l : ∀ q, 0 ≤ c2.cc_turn_length q) (m : SF.Scratch) (i : ℕ) :
    Nn (family sp m c1 c2 i) := by
  have hA := (ccA_pos H.kappa H.sigma H.clothoid).le
  have hm : ∀ q l f r q', 0 ≤ (SF.circleAt q l f r sp.param).cc_turn_length q' := fun q l f r q' =>
    CC00.cc_turn_length_nonneg (circOk_at H.kappa H.sigma H.clothoid q l f r).ok hA q'
  have di := distance_nonneg
  have ln : ∀ q, Nn (line_row c1 c2 q) := fun q => nr3 (f _) (di _ _) (l _)
  unfold family
  split
  · split_ifs
    · exact nr2 (f _) (l _)
    · exact Nn.empty
  · split_ifs
    · exact nr2 (f _) (l _)
    · exact Nn.empty
  · split_ifs
    · exact (nr3 (f _) (hm _ _ _ _ _) (l _)).shorter (nr3 (f _) (hm _ _ _ _ _) (l _))
    · exact Nn.empty
  · split_ifs
    · unfold TcTT_path
      simp only
      split_ifs <;> first
        | exact Nn.empty
        | exact (nr3 (f _) (hm _ _ _ _ _) (l _)).shorter (nr3 (f _) (hm _ _ _ _ _) (l _))
    · exact Nn.empty
  · split_ifs
    · unfold TTcT_path
      simp only
      split_ifs <;> first
        | exact Nn.empty
        | exact (nr3 (f _) (hm _ _ _ _ _) (l _)).shorter (nr3 (f _) (hm _ _ _ _ _) (l _))
    · exact Nn.empty
  · unfold TST_path
    split_ifs <;> first | exact ln _ | exact Nn.empty
  · unfold TSTcT_path
    split_ifs
    · exact nr4 (f _) (di _ _) (hm _ _ _ _ _) (l _)
    · exact nr4 (f _) (di _ _) (hm _ _ _ _ _) (l _)
    · exact Nn.empty
  · unfold TcTST_path
    split_ifs
    · exact nr4 (f _) (hm _ _ _ _ _) (di _ _) (l _)
    · exact nr4 (f _) (hm _ _ _ _ _) (di _ _) (l _)
    · exact Nn.empty
  · unfold TcTSTcT_path
    split_ifs
    · exact nr5 (f _) (hm _ _ _ _ _) (di _ _) (hm _ _ _ _ _) (l _)
    · exact nr5 (f _) (hm _ _ _ _ _) (di _ _) (hm _ _ _ _ _) (l _)
    · exact Nn.empty
  · split_ifs
    · unfold TTcTT_path
      simp only
      split_ifs <;> first
        | exact Nn.empty
        | exact (nr4 (f _) (hm _ _ _ _ _) (hm _ _ _ _ _) (l _)).shorter (nr4 (f _) (hm _ _ _ _ _) (hm _ _ _ _ _) (l _))
    · exact Nn.empty
  · split_ifs
    · unfold TcTTcT_path
      simp only
      split_ifs <;> first
        | exact Nn.empty
        | exact (nr4 (f _) (hm _ _ _ _ _) (hm _ _ _ _ _) (l _)).shorter (nr4 (f _) (hm _ _ _ _ _) (hm _ _ _ _ _) (l _))
    · exact Nn.empty
  · split_ifs
    · exact (nr3 (f _) (hm _ _ _ _ _) (l _)).shorter (nr3 (f _) (hm _ _ _ _ _) (l _))
    · exact Nn.empty
  · unfold TcST_path
    split_ifs <;> first | exact ln _ | exact Nn.empty
  · unfold TScT_path
    split_ifs <;> first | exact ln _ | exact Nn.empty
  · unfold TcScT_path
    split_ifs <;> first | exact ln _ | exact Nn.empty
  · exact Nn.empty

/-- The distance of CC00-Reeds-Shepp is not negative. -/
theorem cc_rs_distance_nonneg {sp : SF.HCSpace} (H : Rng sp.kappa sp.sigma) (s1 s2 : SF.State) :
    0 ≤ SF.CcRs.get_distance sp s1 s2 := by
  have hA := (ccA_pos H.kappa H.sigma H.clothoid).le
  have hm : ∀ s i q', 0 ≤ (SF.CcRs.end_circle sp s i).cc_turn_length q' := fun s i q' =>
    CC00.cc_turn_length_nonneg (circOk_at H.kappa H.sigma H.clothoid _ _ _ _).ok hA q'
  unfold SF.CcRs.get_distance SF.CcRs.reeds_shepp
  generalize SF.array_index_min _ 16 = n
  unfold SF.CcRs.path SF.CcRs.circles_rs_path SF.CcRs.Path.length
  simp only
  generalize SF.array_index_min _ _ = k
  unfold SF.CcRs.table
  split
  · rename_i t r e
    split_ifs
    · unfold SF.CcRs.shortcut at e
      split_ifs at e <;>
        first
          | (cases e; exact le_refl (0:ℝ))
          | (cases e; exact distance_nonneg _ _)
          | (cases e; exact hm _ _ _)
    · exact Nn.empty
  · exact cc_family_nonneg H (hm _ _) (hm _ _) _ _

/-- The distance of CC00-Dubins is not negative. -/
theorem cc00_distance_nonneg {sp : SF.HCSpace} (H : Rng sp.kappa sp.sigma) (s1 s2 : SF.State) :
    0 ≤ SF.CC00.get_distance sp s1 s2 := by
  have hA := (ccA_pos H.kappa H.sigma H.clothoid).le
  have hm : ∀ q l f r q', 0 ≤ (SF.circleAt q l f r sp.param).cc_turn_length q' := fun q l f r q' =>
    CC00.cc_turn_length_nonneg (circOk_at H.kappa H.sigma H.clothoid q l f r).ok hA q'
  have di := distance_nonneg
  by_contra hneg
  have hlt : SF.CC00.get_distance sp s1 s2 < SF.dblMax :=
    (not_le.1 hneg).trans (lt_trans (by positivity) SF.dblMax_large)
  apply hneg
  unfold SF.CC00.get_distance SF.CC00.cc00_dubins at hlt ⊢
  simp only at hlt ⊢
  generalize SF.array_index_min (fun n => (SF.CC00.path sp s1 s2 n).length) 4 = n at hlt ⊢
  have F := CC00.body_found sp _ _ _ hlt
  have f : ∀ q, 0 ≤ (SF.CC00.start_circle sp (CC00.startOf s1) (n / 2)).cc_turn_length q := fun q => hm _ _ _ _ _
  have l : ∀ q, 0 ≤ (SF.CC00.end_circle sp (CC00.startOf s2) (n % 2)).cc_turn_length q := fun q => hm _ _ _ _ _
  have key : ∀ (m : SF.Scratch) (c1 c2 : SF.Circle) t r, (∀ q, 0 ≤ c1.cc_turn_length q) → (∀ q, 0 ≤ c2.cc_turn_length q) →
      CC00.Found sp m c1 c2 t r → 0 ≤ r.length := by
    intro m c1 c2 t r f l F
    cases F with
    | E => exact le_refl (0:ℝ)
    | S => exact di _ _
    | Sb => exact di _ _
    | T => exact f _
    | TT => exact add_nonneg (f _) (l _)
    | TiST => exact add_nonneg (add_nonneg (f _) (di _ _)) (l _)
    | TeST => exact add_nonneg (add_nonneg (f _) (di _ _)) (l _)
    | TTT =>
      change 0 ≤ (SF.CC00.TTT_path _ _ _ _).1
      unfold SF.CC00.TTT_path
      simp only
      split_ifs
      · exact add_nonneg (add_nonneg (f _) (hm _ _ _ _ _)) (l _)
      · exact add_nonneg (add_nonneg (f _) (hm _ _ _ _ _)) (l _)
  exact key _ _ _ _ _ f l F

/-! ### The planners of CC-Dubins with curvature at the ends -/

theorem table_init (i : ℕ) : 0 ≤ (SF.Table.init i).length := by
  change 0 ≤ SF.dblMax
  exact le_of_lt (lt_trans (by positivity) SF.dblMax_large)

theorem table_set {t : SF.Table} {r : SF.Row} (j : ℕ) (ht : ∀ i, 0 ≤ (t i).length) (hr : 0 ≤ r.length) (i : ℕ) :
    0 ≤ (t.set j r i).length := by
  unfold SF.Table.set
  split_ifs
  · exact hr
  · exact ht i

theorem table_if {t : SF.Table} {r : SF.Row} {p : Prop} {_ : Decidable p} (j : ℕ) (ht : ∀ i, 0 ≤ (t i).length) (hr : 0 ≤ r.length)
    (i : ℕ) : 0 ≤ ((if p then t.set j r else t) i).length := by
  split_ifs
  · exact table_set j ht hr i
  · exact ht i

theorem best_of_nonneg {path : ℕ → Option SF.CCPath} (h : ∀ n p, path n = some p → 0 ≤ p.length) {x : ℝ}
    (hx : (SF.best_of path).map SF.CCPath.length = some x) : 0 ≤ x := by
  obtain ⟨p, hp, rfl⟩ := Option.map_eq_some_iff.1 hx
  exact h _ _ hp

theorem line_max {p q : Prop} {_ : Decidable p} {_ : Decidable q} {a b : SF.Row} (ha : 0 ≤ a.length) (hb : 0 ≤ b.length) :
    0 ≤ (if p then a else if q then b else { length := SF.dblMax }).length := by
  split_ifs
  · exact ha
  · exact hb
  · exact table_init 0

theorem n3 {a b c : ℝ} (ha : 0 ≤ a) (hb : 0 ≤ b) (hc : 0 ≤ c) : 0 ≤ a + b + c := add_nonneg (add_nonneg ha hb) hc

section
variable {sp : SF.HCSpace}

theorem turn_at_nonneg (H : Rng sp.kappa sp.sigma) (q l f r q') : 0 ≤ (SF.circleAt q l f r sp.param).cc_turn_length q' :=
  CC00.cc_turn_length_nonneg (circOk_at H.kappa H.sigma H.clothoid q l f r).ok (ccA_pos H.kappa H.sigma H.clothoid).le q'

open SF.CC0pm in
theorem cc0pm_table_nonneg (H : Rng sp.kappa sp.sigma) (m : SF.Scratch) (c1 c2 : SF.Circle) (i : ℕ) :
    0 ≤ (table sp m c1 c2 i).length := by
  have hm := turn_at_nonneg H
  have hc := hc_length_nonneg
  have di := distance_nonneg
  unfold table
  by_cases h1 : SF.configuration_equal c1.start c2.start
  · rw [if_pos h1]; exact table_set _ table_init (le_refl (0:ℝ)) i
  rw [if_neg h1]
  by_cases h2 : m.distance < SF.epsilon
  · rw [if_pos h2]; exact table_set _ table_init (hc _ _) i
  rw [if_neg h2]
  refine table_if _ (table_if _ (table_if _ table_init ?_) ?_) ?_ i
  · exact add_nonneg (hm _ _ _ _ _) (hc _ _)
  · exact line_max (n3 (hm _ _ _ _ _) (di _ _) (hc _ _)) (n3 (hm _ _ _ _ _) (di _ _) (hc _ _))
  · unfold TTT_path
    simp only
    split_ifs
    · exact n3 (hm _ _ _ _ _) (hm _ _ _ _ _) (hc _ _)
    · exact n3 (hm _ _ _ _ _) (hm _ _ _ _ _) (hc _ _)

open SF.CCpm0 in
theorem ccpm0_table_nonneg (H : Rng sp.kappa sp.sigma) (m : SF.Scratch) (c1 c2 : SF.Circle) (i : ℕ) :
    0 ≤ (table sp m c1 c2 i).length := by
  have hm := turn_at_nonneg H
  have hc := hc_length_nonneg
  have di := distance_nonneg
  unfold table
  by_cases h1 : SF.configuration_equal c1.start c2.start
  · rw [if_pos h1]; exact table_set _ table_init (le_refl (0:ℝ)) i
  rw [if_neg h1]
  by_cases h2 : m.distance < SF.epsilon
  · rw [if_pos h2]; exact table_set _ table_init (hc _ _) i
  rw [if_neg h2]
  refine table_if _ (table_if _ (table_if _ table_init ?_) ?_) ?_ i
  · exact add_nonneg (hc _ _) (hm _ _ _ _ _)
  · exact line_max (n3 (hc _ _) (di _ _) (hm _ _ _ _ _)) (n3 (hc _ _) (di _ _) (hm _ _ _ _ _))
  · unfold TTT_path
    simp only
    split_ifs
    · exact n3 (hc _ _) (hm _ _ _ _ _) (hm _ _ _ _ _)
    · exact n3 (hc _ _) (hm _ _ _ _ _) (hm _ _ _ _ _)

open SF.CCpmpm in
theorem ccpmpm_table_nonneg (H : Rng sp.kappa sp.sigma) (m : SF.Scratch) (c1 c2 : SF.Circle) (i : ℕ) :
    0 ≤ (table sp m c1 c2 i).length := by
  have hm := turn_at_nonneg H
  have hc := hc_length_nonneg
  have di := distance_nonneg
  unfold table
  by_cases h1 : SF.configuration_equal c1.start c2.start
  · rw [if_pos h1]; exact table_set _ table_init (le_refl (0:ℝ)) i
  rw [if_neg h1]
  by_cases h2 : SF.configuration_on_hc_cc_circle c1 c2.start
  · rw [if_pos h2]; exact table_set _ table_init (rs_length_nonneg _ _) i
  rw [if_neg h2]
  refine table_if _ (table_if _ (table_if _ (table_if _ table_init ?_) ?_) ?_) ?_ i
  · exact add_nonneg (hc _ _) (hc _ _)
  · exact line_max (n3 (hc _ _) (di _ _) (hc _ _)) (n3 (hc _ _) (di _ _) (hc _ _))
  · unfold TTT_path
    simp only
    split_ifs
    · exact n3 (hc _ _) (hm _ _ _ _ _) (hc _ _)
    · exact n3 (hc _ _) (hm _ _ _ _ _) (hc _ _)
  · unfold TTTT_path
    simp only
    split_ifs
    · exact add_nonneg (n3 (hc _ _) (hm _ _ _ _ _) (hm _ _ _ _ _)) (hc _ _)
    · exact add_nonneg (n3 (hc _ _) (hm _ _ _ _ _) (hm _ _ _ _ _)) (hc _ _)

theorem cc0pm_distance_nonneg (H : Rng sp.kappa sp.sigma) {s1 s2 : SF.State} {x : ℝ}
    (h : SF.CC0pm.get_distance sp s1 s2 = some x) : 0 ≤ x := by
  refine best_of_nonneg (fun n p hp => ?_) h
  unfold SF.CC0pm.path at hp
  simp only at hp
  split_ifs at hp
  rw [← Option.some.inj hp]
  exact cc0pm_table_nonneg H _ _ _ _

theorem ccpm0_distance_nonneg (H : Rng sp.kappa sp.sigma) {s1 s2 : SF.State} {x : ℝ}
    (h : SF.CCpm0.get_distance sp s1 s2 = some x) : 0 ≤ x := by
  refine best_of_nonneg (fun n p hp => ?_) h
  unfold SF.CCpm0.path at hp
  simp only at hp
  split_ifs at hp
  rw [← Option.some.inj hp]
  exact ccpm0_table_nonneg H _ _ _ _

theorem ccpmpm_distance_nonneg (H : Rng sp.kappa sp.sigma) {s1 s2 : SF.State} {x : ℝ}
    (h : SF.CCpmpm.get_distance sp s1 s2 = some x) : 0 ≤ x := by
  refine best_of_nonneg (fun n p hp => ?_) h
  unfold SF.CCpmpm.path at hp
  split_ifs at hp
  rw [← Option.some.inj hp]
  exact ccpmpm_table_nonneg H _ _ _ _

end

end Spec
