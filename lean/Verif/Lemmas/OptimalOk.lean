import Verif.Lemmas.OptimalHalf

/-!
# Forward paths with any number of pieces: a short piece after any Dubins word
-/

noncomputable section

namespace Spec

open SF Real Filter Topology

/-- Dubins words after which a short piece can be added. -/
inductive GW : List (ℝ × ℝ) → Prop
  | csc {e f t p q : ℝ} : IsSign e → IsSign f → 0 ≤ t → 0 ≤ p → 0 ≤ q → q < 2 * π → GW [(e, t), (0, p), (f, q)]
  | ccc {e t a q : ℝ} : IsSign e → 0 < t → π / 2 < a → a < π → 0 < q → q ≤ 2 * a → GW [(e, t), (-e, 2 * a), (e, q)]

/-- A word of `GW` of length at most `L` ends where the word `ws` ends. -/
def Nrm (ws : List (ℝ × ℝ)) (L : ℝ) : Prop := ∃ ws', GW ws' ∧ SameEnd ws ws' ∧ wordLen ws' ≤ L

theorem Nrm.via {ws ws' : List (ℝ × ℝ)} {L L' : ℝ} (h : Nrm ws' L') (hs : SameEnd ws ws') (hL : L' ≤ L) : Nrm ws L := by
  obtain ⟨w, h1, h2, h3⟩ := h
  exact ⟨w, h1, hs.trans h2, h3.trans hL⟩

theorem GW.mirror {ws : List (ℝ × ℝ)} (h : GW ws) : GW (mirrorW ws) := by
  cases h with
  | csc h1 h2 h3 h4 h5 h6 =>
    have := GW.csc h1.neg h2.neg h3 h4 h5 h6
    simpa [mirrorW] using this
  | ccc h1 h2 h3 h4 h5 h6 => exact GW.ccc h1.neg h2 h3 h4 h5 h6

theorem Nrm.mirror {ws : List (ℝ × ℝ)} {L : ℝ} (h : Nrm ws L) : Nrm (mirrorW ws) L := by
  obtain ⟨w, h1, h2, h3⟩ := h
  exact ⟨_, h1.mirror, h2.mirror, by rwa [wordLen_mirror]⟩

theorem turn_floor' {t : ℝ} (ht : 0 ≤ t) : ∃ n : ℤ, 0 ≤ t - n * (2 * π) ∧ t - n * (2 * π) < 2 * π ∧ t - n * (2 * π) ≤ t := by
  have hpi : 0 < 2 * π := by positivity
  refine ⟨⌊t / (2 * π)⌋, ?_, ?_, ?_⟩
  · have := Int.floor_le (t / (2 * π))
    rw [le_div_iff₀ hpi] at this
    linarith
  · have := Int.lt_floor_add_one (t / (2 * π))
    rw [div_lt_iff₀ hpi] at this
    linarith
  · have : (0:ℝ) ≤ (⌊t / (2 * π)⌋ : ℤ) := by exact_mod_cast Int.floor_nonneg.2 (by positivity)
    nlinarith

theorem Csc.nrm {ws : List (ℝ × ℝ)} {L : ℝ} (h : Csc ws L) : Nrm ws L := by
  obtain ⟨e, f, t, p, q, he, hf, ht, hp, hq, hs, hL⟩ := h
  obtain ⟨n, n0, n1, n2⟩ := turn_floor' hq
  have h2 := SameEnd.turns e 0 f t p q 0 n he hf
  simp only [Int.cast_zero, zero_mul, sub_zero] at h2
  exact ⟨_, GW.csc he hf ht hp n0 n1, hs.trans h2, by rw [wordLen3 ht hp n0]; linarith⟩

/-- The first turn is empty. -/
theorem SameEnd.drop_first (e f g p q : ℝ) : SameEnd [(e, 0), (f, p), (g, q)] [(f, p), (0, 0), (g, q)] := by
  apply SameEnd.of ⟨0, 0, 0⟩ <;> simp [uEnd, uStep]
  exact AngleEq.refl _

/-- The last turn is empty. -/
theorem SameEnd.drop_last (e f g t p : ℝ) : SameEnd [(e, t), (f, p), (g, 0)] [(e, t), (0, 0), (f, p)] := by
  apply SameEnd.of ⟨0, 0, 0⟩ <;> simp [uEnd, uStep]
  exact AngleEq.refl _

/-- The middle turn is a whole turn. -/
theorem SameEnd.drop_middle (t q : ℝ) : SameEnd [(1, t), (-1, 2 * π), (1, q)] [(1, t), (0, 0), (1, q)] := by
  refine SameEnd.left (end_LRL0 t (2 * π) q) (end_LSL (h1 := 0) (h3 := q) (by ring) (by ring)) ?_ ?_ ?_
  · simp
  · simp
  · exact (full_turn q).symm

theorem LRL_short {t p q : ℝ} (ht : 0 ≤ t) (hp : π ≤ p) (hp2 : p ≤ 2 * π) (hq : 0 ≤ q) (hqp : q ≤ p) :
    Nrm [(1, t), (-1, p), (1, q)] (t + p + q) := by
  have hpi := pi_pos
  rcases eq_or_lt_of_le ht with h | h
  · subst h
    exact (Csc.of neg_one_sign one_sign (by linarith) le_rfl hq (SameEnd.drop_first _ _ _ _ _) (by linarith)).nrm
  rcases eq_or_lt_of_le hq with h' | h'
  · subst h'
    exact (Csc.of one_sign neg_one_sign ht le_rfl (by linarith) (SameEnd.drop_last _ _ _ _ _) (by linarith)).nrm
  rcases eq_or_lt_of_le hp2 with h2 | h2
  · subst h2
    exact (Csc.of one_sign one_sign ht le_rfl hq (SameEnd.drop_middle _ _) (by linarith)).nrm
  rcases eq_or_lt_of_le hp with h3 | h3
  · subst h3
    exact (half_csc h h').nrm
  · obtain ⟨a, rfl⟩ : ∃ a, p = 2 * a := ⟨p / 2, by ring⟩
    exact ⟨_, GW.ccc one_sign h (by linarith) (by linarith) h' hqp, SameEnd.refl _, by rw [wordLen3 ht (by linarith) hq]⟩

theorem LRL_nrm {t p q : ℝ} (ht : 0 ≤ t) (hp : π ≤ p) (hp2 : p ≤ 2 * π) (hq : 0 ≤ q) (hq2 : q < 2 * π) :
    Nrm [(1, t), (-1, p), (1, q)] (t + p + q) := by
  have hpi := pi_pos
  by_cases hqp : q ≤ p
  · exact LRL_short ht hp hp2 hq hqp
  push Not at hqp
  obtain ⟨a, rfl⟩ : ∃ a, p = 2 * a := ⟨p / 2, by ring⟩
  by_cases c1 : a ≤ t
  · exact (LRL_LSL (by linarith) (by linarith) c1 (by linarith)).nrm
  push Not at c1
  by_cases c2 : 2 * a - π ≤ t
  · obtain ⟨x, P, x0, P0, hL, g1, g2⟩ := RSL_alt ht c1.le (by linarith) (by linarith) (by linarith)
    exact (LRL_RSL x0 P0 hL g1 g2 (by linarith)).nrm
  push Not at c2
  rcases eq_or_lt_of_le ht with h | h
  · subst h
    exact (Csc.of neg_one_sign one_sign (by linarith) le_rfl hq (SameEnd.drop_first _ _ _ _ _) (by linarith)).nrm
  obtain ⟨t', b, v, k1, k2, k3, k4, k5, k6, k7⟩ := LRL_RLR h (by linarith) c2 hqp.le hq2
  have := (LRL_short (p := 2 * b) k1 (by linarith) (by linarith) k4 k5).mirror
  simp only [mirrorW, List.map_cons, List.map_nil, neg_neg] at this
  exact this.via k7 k6

theorem DW.nrm {ws : List (ℝ × ℝ)} (h : DW ws) : Nrm ws (wordLen ws) := by
  cases h with
  | @csc e f t p q he hf ht hp hq =>
    rw [wordLen3 ht hp hq]
    exact (Csc.of he hf ht hp hq (SameEnd.refl _) le_rfl).nrm
  | @ccc e t p q he ht hp hp2 hq =>
    rw [wordLen3 ht (by linarith [pi_pos]) hq]
    obtain ⟨n, n0, n1, n2⟩ := turn_floor' hq
    have h2 := SameEnd.turns e (-e) e t p q 0 n he he
    simp only [Int.cast_zero, zero_mul, sub_zero] at h2
    have key := LRL_nrm ht hp hp2 n0 n1
    rcases he with rfl | rfl
    · exact key.via h2 (by linarith)
    · have := key.mirror
      simp only [mirrorW, List.map_cons, List.map_nil, neg_neg] at this
      rw [neg_neg] at h2 ⊢
      exact this.via h2 (by linarith)

/-! ### One more short piece -/

theorem ok_of_fwd {ws : List (ℝ × ℝ)} {u : ℝ} (h : ∀ r, 0 < r → Fwd (ws ++ [(u, r)]) (wordLen ws + r)) : Ok ws u :=
  eventually_nhdsWithin_of_forall fun r hr => h r hr

/-- The same turn is continued. -/
theorem SameEnd.join (e f g t p q r : ℝ) (hg : IsSign g) :
    SameEnd ([(e, t), (f, p), (g, q)] ++ [(g, r)]) [(e, t), (f, p), (g, q + r)] := by
  have key : ∀ c : Config, uStep g r (uStep g q c) = uStep g (q + r) c := by
    intro c
    rcases hg with rfl | rfl
    · simp only [uStep, Config.mk.injEq]
      norm_num
      refine ⟨?_, ?_, ?_⟩ <;> ring_nf
    · simp only [uStep, Config.mk.injEq]
      norm_num
      refine ⟨?_, ?_, ?_⟩ <;> ring_nf
  apply SameEnd.of ⟨0, 0, 0⟩
  · simp only [uEnd, List.cons_append, List.nil_append, key]
  · simp only [uEnd, List.cons_append, List.nil_append, key]
  · simp only [uEnd, List.cons_append, List.nil_append, key]
    exact AngleEq.refl _

theorem csc_ok_left {e t p q u : ℝ} (he : IsSign e) (ht : 0 ≤ t) (hp : 0 ≤ p) (hq : 0 ≤ q) (hq2 : q < 2 * π)
    (hu : u = 0 ∨ u = 1 ∨ u = -1) : Ok [(e, t), (0, p), (1, q)] u := by
  have hpi := pi_pos
  rcases hu with hu | rfl | hu
  rotate_left
  · apply ok_of_fwd
    intro r hr
    rw [wordLen3 ht hp hq]
    exact Fwd.csc he one_sign ht hp (by linarith : 0 ≤ q + r) (SameEnd.join _ _ _ _ _ _ _ one_sign) (by linarith)
  all_goals
    have hsh : ∃ rho g, Shift q u rho g := by
      subst hu
      first | exact ⟨_, _, Shift.right q⟩ | exact ⟨_, _, Shift.line q⟩
    obtain ⟨rho, g, hs⟩ := hsh
    have hu' : u = 0 ∨ u = -1 := by first | exact Or.inl hu | exact Or.inr hu
    clear hu
    rcases eq_or_lt_of_le hq with h0 | h0
    · subst h0
      apply ok_of_fwd
      intro r hr
      rw [wordLen3 ht hp le_rfl]
      rcases hu' with rfl | rfl
      · refine Fwd.csc he one_sign ht (by linarith : 0 ≤ p + r) le_rfl ?_ (by linarith)
        apply SameEnd.of ⟨0, 0, 0⟩ <;> simp [uEnd, uStep]
        · ring
        · ring
        · exact AngleEq.refl _
      · refine Fwd.csc he neg_one_sign ht hp hr.le ?_ (by linarith)
        apply SameEnd.of ⟨0, 0, 0⟩ <;> simp [uEnd, uStep]
        exact AngleEq.refl _
    rcases eq_or_lt_of_le hp with hp0 | hp0
    · subst hp0
      rcases he with rfl | rfl
      · apply ok_of_fwd
        intro r hr
        rw [wordLen3 ht le_rfl hq]
        rcases hu' with rfl | rfl
        · refine Fwd.csc one_sign one_sign (add_nonneg ht hq) hr.le le_rfl ?_ (by linarith)
          apply SameEnd.of ⟨0, 0, 0⟩ <;> simp [uEnd, uStep]
          exact AngleEq.refl _
        · refine Fwd.csc one_sign neg_one_sign (add_nonneg ht hq) le_rfl hr.le ?_ (by linarith)
          apply SameEnd.of ⟨0, 0, 0⟩ <;> simp [uEnd, uStep]
          exact AngleEq.refl _
      · rcases eq_or_lt_of_le ht with ht0 | ht0
        · subst ht0
          apply ok_of_fwd
          intro r hr
          rw [wordLen3 le_rfl le_rfl hq]
          rcases hu' with rfl | rfl
          · refine Fwd.csc one_sign one_sign hq hr.le le_rfl ?_ (by linarith)
            apply SameEnd.of ⟨0, 0, 0⟩ <;> simp [uEnd, uStep]
            exact AngleEq.refl _
          · refine Fwd.csc one_sign neg_one_sign hq le_rfl hr.le ?_ (by linarith)
            apply SameEnd.of ⟨0, 0, 0⟩ <;> simp [uEnd, uStep]
            exact AngleEq.refl _
        by_cases hqp : q ≤ π
        · exact ok_RL hs ht0 h0 hqp
        push Not at hqp
        rcases hu' with rfl | rfl
        · obtain ⟨a, rfl⟩ : ∃ a, q = 2 * a := ⟨q / 2, by ring⟩
          have := (ok_LRL (Shift.line (0 - 2 * a)) ht0 (by linarith) (by linarith) le_rfl (by linarith)
            (Or.inr ⟨rfl, fun _ => rfl⟩)).mirror
          simp only [mirrorW, List.map_cons, List.map_nil, neg_neg, neg_zero] at this
          refine this.via ?_ (le_of_eq ?_)
          · apply SameEnd.of ⟨0, 0, 0⟩ <;> simp [uEnd, uStep]
            exact AngleEq.refl _
          · rw [wordLen3 ht (by linarith) le_rfl, wordLen3 ht le_rfl hq]; ring
        · apply ok_of_fwd
          intro r hr
          rw [wordLen3 ht le_rfl hq]
          refine Fwd.ccc neg_one_sign ht hqp.le hq2.le hr.le ?_ (by linarith)
          apply SameEnd.of ⟨0, 0, 0⟩ <;> simp [uEnd, uStep]
          exact AngleEq.refl _
    · rcases eq_or_lt_of_le ht with ht0 | ht0
      · subst ht0
        refine (ok_SL hs hp0 h0).via ?_ (le_of_eq ?_)
        · apply SameEnd.of ⟨0, 0, 0⟩ <;> simp [uEnd, uStep]
          exact AngleEq.refl _
        · rw [wordLen3 le_rfl hp hq, wordLen3 le_rfl hp hq]
      · rcases he with rfl | rfl
        · exact ok_LSL hs ht0 hp0 h0
        · exact ok_RSL hs ht0 hp0 h0

theorem ccc_ok_left {t a q u : ℝ} (ht : 0 < t) (ha : π / 2 < a) (ha2 : a < π) (hq : 0 < q) (hqa : q ≤ 2 * a)
    (hu : u = 0 ∨ u = 1 ∨ u = -1) : Ok [(1, t), (-1, 2 * a), (1, q)] u := by
  rcases hu with rfl | rfl | rfl
  · exact ok_LRL (Shift.line _) ht ha ha2 hq.le hqa (Or.inl hq)
  · apply ok_of_fwd
    intro r hr
    rw [wordLen3 ht.le (by linarith [pi_pos]) hq.le]
    exact Fwd.ccc one_sign ht.le (by linarith) (by linarith) (by linarith : 0 ≤ q + r) (SameEnd.join _ _ _ _ _ _ _ one_sign)
      (by linarith)
  · exact ok_LRL (Shift.right _) ht ha ha2 hq.le hqa (Or.inl hq)

theorem GW.ok {ws : List (ℝ × ℝ)} (h : GW ws) {u : ℝ} (hu : u = 0 ∨ u = 1 ∨ u = -1) : Ok ws u := by
  have hu' : -u = 0 ∨ -u = 1 ∨ -u = -1 := by rcases hu with rfl | rfl | rfl <;> simp
  cases h with
  | @csc e f t p q he hf ht hp hq hq2 =>
    rcases hf with rfl | rfl
    · exact csc_ok_left he ht hp hq hq2 hu
    · have := (csc_ok_left he.neg ht hp hq hq2 hu').mirror
      simpa [mirrorW] using this
  | @ccc e t a q he ht ha ha2 hq hqa =>
    rcases he with rfl | rfl
    · exact ccc_ok_left ht ha ha2 hq hqa hu
    · have := (ccc_ok_left ht ha ha2 hq hqa hu').mirror
      simpa [mirrorW] using this

end Spec
