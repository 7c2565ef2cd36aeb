import Verif.Lemmas.CompareAll
import Mathlib.Analysis.SpecialFunctions.Trigonometric.Arctan
import Mathlib.Analysis.SpecialFunctions.Trigonometric.Bounds

/-!
# Forward paths with any number of pieces: Dubins words and one more short piece
-/

noncomputable section

namespace Spec

open SF Real Filter Topology

/-- The Dubins words, at unit curvature; the middle one of three turns is at least half a turn. -/
inductive DW : List (ℝ × ℝ) → Prop
  | csc {e f t p q : ℝ} : IsSign e → IsSign f → 0 ≤ t → 0 ≤ p → 0 ≤ q → DW [(e, t), (0, p), (f, q)]
  | ccc {e t p q : ℝ} : IsSign e → 0 ≤ t → π ≤ p → p ≤ 2 * π → 0 ≤ q → DW [(e, t), (-e, p), (e, q)]

/-- A Dubins word of length at most `L` ends where the word `ws` ends. -/
def Fwd (ws : List (ℝ × ℝ)) (L : ℝ) : Prop := ∃ ws', DW ws' ∧ SameEnd ws ws' ∧ wordLen ws' ≤ L

theorem DW.mirror {ws : List (ℝ × ℝ)} (h : DW ws) : DW (mirrorW ws) := by
  cases h with
  | csc h1 h2 h3 h4 h5 =>
    have := DW.csc h1.neg h2.neg h3 h4 h5
    simpa [mirrorW] using this
  | ccc h1 h2 h3 h4 h5 => exact DW.ccc h1.neg h2 h3 h4 h5

theorem DW.reverse {ws : List (ℝ × ℝ)} (h : DW ws) : DW ws.reverse := by
  cases h with
  | csc h1 h2 h3 h4 h5 => exact DW.csc h2 h1 h5 h4 h3
  | ccc h1 h2 h3 h4 h5 => exact DW.ccc h1 h5 h3 h4 h2

theorem DW.unit {ws : List (ℝ × ℝ)} (h : DW ws) : UnitW ws := by
  cases h with
  | csc h1 h2 h3 h4 h5 => exact unitW3 h1 (Or.inl rfl) h2
  | ccc h1 h2 h3 h4 h5 => exact unitW3 h1 (Or.inr h1.neg) h1

theorem Fwd.via {ws ws' : List (ℝ × ℝ)} {L L' : ℝ} (h : Fwd ws' L') (hs : SameEnd ws ws') (hL : L' ≤ L) : Fwd ws L := by
  obtain ⟨w, h1, h2, h3⟩ := h
  exact ⟨w, h1, hs.trans h2, h3.trans hL⟩

theorem Fwd.mirror {ws : List (ℝ × ℝ)} {L : ℝ} (h : Fwd ws L) : Fwd (mirrorW ws) L := by
  obtain ⟨w, h1, h2, h3⟩ := h
  exact ⟨_, h1.mirror, h2.mirror, by rwa [wordLen_mirror]⟩

theorem Fwd.reverse {ws : List (ℝ × ℝ)} {L : ℝ} (h : Fwd ws L) (hw : UnitW ws) : Fwd ws.reverse L := by
  obtain ⟨w, h1, h2, h3⟩ := h
  exact ⟨_, h1.reverse, h2.reverse hw h1.unit, by rwa [wordLen_reverse]⟩

theorem wordLen3 {e f g a b c : ℝ} (ha : 0 ≤ a) (hb : 0 ≤ b) (hc : 0 ≤ c) :
    wordLen [(e, a), (f, b), (g, c)] = a + b + c := by
  simp only [wordLen, List.map_cons, List.map_nil, List.sum_cons, List.sum_nil, abs_of_nonneg ha, abs_of_nonneg hb,
    abs_of_nonneg hc]
  ring

theorem Fwd.csc {ws : List (ℝ × ℝ)} {e f t p q L : ℝ} (he : IsSign e) (hf : IsSign f) (ht : 0 ≤ t) (hp : 0 ≤ p) (hq : 0 ≤ q)
    (h : SameEnd ws [(e, t), (0, p), (f, q)]) (hL : t + p + q ≤ L) : Fwd ws L :=
  ⟨_, DW.csc he hf ht hp hq, h, by rwa [wordLen3 ht hp hq]⟩

theorem Fwd.ccc {ws : List (ℝ × ℝ)} {e t p q L : ℝ} (he : IsSign e) (ht : 0 ≤ t) (hp : π ≤ p) (hp2 : p ≤ 2 * π) (hq : 0 ≤ q)
    (h : SameEnd ws [(e, t), (-e, p), (e, q)]) (hL : t + p + q ≤ L) : Fwd ws L :=
  ⟨_, DW.ccc he ht hp hp2 hq, h, by rwa [wordLen3 ht (by linarith [pi_pos]) hq]⟩

/-- A turn, a line and a turn of length at most `L` end where the word `ws` ends. -/
def Csc (ws : List (ℝ × ℝ)) (L : ℝ) : Prop := ∃ e f t p q : ℝ, IsSign e ∧ IsSign f ∧ 0 ≤ t ∧ 0 ≤ p ∧ 0 ≤ q ∧
  SameEnd ws [(e, t), (0, p), (f, q)] ∧ t + p + q ≤ L

theorem Csc.fwd {ws : List (ℝ × ℝ)} {L : ℝ} (h : Csc ws L) : Fwd ws L := by
  obtain ⟨e, f, t, p, q, he, hf, ht, hp, hq, hs, hL⟩ := h
  exact Fwd.csc he hf ht hp hq hs hL

theorem Csc.of {ws : List (ℝ × ℝ)} {e f t p q L : ℝ} (he : IsSign e) (hf : IsSign f) (ht : 0 ≤ t) (hp : 0 ≤ p) (hq : 0 ≤ q)
    (h : SameEnd ws [(e, t), (0, p), (f, q)]) (hL : t + p + q ≤ L) : Csc ws L :=
  ⟨e, f, t, p, q, he, hf, ht, hp, hq, h, hL⟩

theorem Csc.reverse {ws : List (ℝ × ℝ)} {L : ℝ} (h : Csc ws L) (hw : UnitW ws) : Csc ws.reverse L := by
  obtain ⟨e, f, t, p, q, he, hf, ht, hp, hq, hs, hL⟩ := h
  exact ⟨f, e, q, p, t, hf, he, hq, hp, ht, hs.reverse hw (unitW3 he (Or.inl rfl) hf), by linarith⟩

theorem Csc.mirror {ws : List (ℝ × ℝ)} {L : ℝ} (h : Csc ws L) : Csc (mirrorW ws) L := by
  obtain ⟨e, f, t, p, q, he, hf, ht, hp, hq, hs, hL⟩ := h
  have := hs.mirror
  simp only [mirrorW, List.map_cons, List.map_nil, neg_zero] at this
  exact ⟨-e, -f, t, p, q, he.neg, hf.neg, ht, hp, hq, this, hL⟩

theorem Csc.via {ws ws' : List (ℝ × ℝ)} {L L' : ℝ} (h : Csc ws' L') (hs : SameEnd ws ws') (hL : L' ≤ L) : Csc ws L := by
  obtain ⟨e, f, t, p, q, he, hf, ht, hp, hq, h1, h2⟩ := h
  exact ⟨e, f, t, p, q, he, hf, ht, hp, hq, hs.trans h1, h2.trans hL⟩

theorem SameEnd.refl (ws : List (ℝ × ℝ)) : SameEnd ws ws := fun _ _ _ h => h

theorem SameEnd.append {ws ws' : List (ℝ × ℝ)} (h : SameEnd ws ws') (v : List (ℝ × ℝ)) : SameEnd (ws ++ v) (ws' ++ v) := by
  obtain ⟨hx, hy, ht⟩ := h _ _ _ ⟨rfl, rfl, AngleEq.refl _⟩
  have hc : SameConfig (uEnd ws' ⟨0, 0, 0⟩) (uEnd ws ⟨0, 0, 0⟩) := ⟨hx, hy, ht⟩
  rintro x y phi ⟨h1, h2, h3⟩
  rw [uEnd_append] at h1 h2 h3
  rw [uEnd_from] at h1 h2 h3
  simp only at h1 h2 h3
  refine ⟨?_, ?_, ?_⟩
  · rw [uEnd_append, uEnd_from]
    simp only
    rw [hx, ht.sin_eq, ht.cos_eq]; exact h1
  · rw [uEnd_append, uEnd_from]
    simp only
    rw [hy, ht.sin_eq, ht.cos_eq]; exact h2
  · rw [uEnd_append, uEnd_from]
    simp only
    exact (ht.add (AngleEq.refl _)).trans h3

/-- After the word `ws`, a short piece of type `u` costs at most its own length. -/
def Ok (ws : List (ℝ × ℝ)) (u : ℝ) : Prop := ∀ᶠ r in 𝓝[>] (0:ℝ), Fwd (ws ++ [(u, r)]) (wordLen ws + r)

theorem Ok.via {ws ws' : List (ℝ × ℝ)} {u : ℝ} (h : Ok ws' u) (hs : SameEnd ws ws') (hL : wordLen ws' ≤ wordLen ws) :
    Ok ws u := by
  filter_upwards [h] with r hr
  exact hr.via (hs.append _) (by linarith)

theorem Ok.mirror {ws : List (ℝ × ℝ)} {u : ℝ} (h : Ok ws u) : Ok (mirrorW ws) (-u) := by
  filter_upwards [h] with r hr
  have := hr.mirror
  rw [wordLen_mirror]
  simpa [mirrorW] using this

/-! ### The shift of the circle of the last turn -/

/-- A piece of type `u` and length `r` from a place on a left circle with heading `h`: the circle moves by `rho r`, the heading
decreases by `g r`. -/
structure Shift (h u : ℝ) (rho g : ℝ → ℝ) : Prop where
  crho : Continuous rho
  cg : Continuous g
  rho0 : rho 0 = 0
  g0 : g 0 = 0
  nonneg : ∀ᶠ r in 𝓝[>] (0:ℝ), 0 ≤ rho r
  gnonneg : ∀ᶠ r in 𝓝[>] (0:ℝ), 0 ≤ g r
  le : ∀ᶠ r in 𝓝[>] (0:ℝ), rho r ≤ r + g r
  ends : ∀ (r : ℝ) (ws : List (ℝ × ℝ)) (p : Config) (x y : ℝ), uEnd ws p = onL x y h → uEnd (ws ++ [(u, r)]) p =
    onL (x + rho r * cos (h - g r / 2)) (y + rho r * sin (h - g r / 2)) (h - g r)

theorem Shift.line (h : ℝ) : Shift h 0 (fun r => r) (fun _ => 0) where
  crho := continuous_id
  cg := continuous_const
  rho0 := rfl
  g0 := rfl
  nonneg := eventually_nhdsWithin_of_forall fun _ hr => le_of_lt hr
  gnonneg := Eventually.of_forall fun _ => le_rfl
  le := Eventually.of_forall fun r => by simp
  ends := by
    intro r ws p x y e
    rw [uEnd_append, e]
    simp only [uEnd]
    rw [step_SL]; simp

theorem Shift.right (h : ℝ) : Shift h (-1) (fun r => 4 * sin (r / 2)) (fun r => r) where
  crho := by fun_prop
  cg := continuous_id
  rho0 := by simp
  g0 := rfl
  nonneg := by
    have : Set.Ioo (0:ℝ) 1 ∈ 𝓝[>] (0:ℝ) := Ioo_mem_nhdsGT one_pos
    filter_upwards [this] with r hr
    have := sin_nonneg_of_nonneg_of_le_pi (x := r / 2) (by linarith [hr.1]) (by linarith [hr.2, pi_gt_three])
    positivity
  gnonneg := eventually_nhdsWithin_of_forall fun _ hr => le_of_lt hr
  le := by
    refine eventually_nhdsWithin_of_forall fun r hr => ?_
    have hr' : 0 < r := hr
    have := sin_le (x := r / 2) (by linarith)
    linarith
  ends := by
    intro r ws p x y e
    rw [uEnd_append, e]
    simp only [uEnd]
    rw [onL_onR, step_R (h' := h - r) (by ring), onR_onL]
    have e1 : sin h = sin (h - r / 2) * cos (r / 2) + cos (h - r / 2) * sin (r / 2) := by rw [← sin_add]; congr 1; ring
    have e2 : cos h = cos (h - r / 2) * cos (r / 2) - sin (h - r / 2) * sin (r / 2) := by rw [← cos_add]; congr 1; ring
    have e3 : sin (h - r) = sin (h - r / 2) * cos (r / 2) - cos (h - r / 2) * sin (r / 2) := by rw [← sin_sub]; congr 1; ring
    have e4 : cos (h - r) = cos (h - r / 2) * cos (r / 2) + sin (h - r / 2) * sin (r / 2) := by rw [← cos_sub]; congr 1; ring
    have f1 : x + 2 * sin h - 2 * sin (h - r) = x + 4 * sin (r / 2) * cos (h - r / 2) := by rw [e1, e3]; ring
    have f2 : y - 2 * cos h + 2 * cos (h - r) = y + 4 * sin (r / 2) * sin (h - r / 2) := by rw [e2, e4]; ring
    rw [f1, f2]

theorem polar_t {X Y : ℝ} (hX : 0 < X) : X = √(X ^ 2 + Y ^ 2) * cos (arctan (Y / X)) ∧
    Y = √(X ^ 2 + Y ^ 2) * sin (arctan (Y / X)) := by
  have h : √(X ^ 2 + Y ^ 2) = X * √(1 + (Y / X) ^ 2) := by
    rw [show X ^ 2 + Y ^ 2 = X ^ 2 * (1 + (Y / X) ^ 2) by field_simp, sqrt_mul (by positivity), sqrt_sq hX.le]
  have h0 : 0 < √(1 + (Y / X) ^ 2) := by positivity
  rw [cos_arctan, sin_arctan, h]
  constructor <;> field_simp

/-! ### One more piece after a turn, a line and a left turn -/

theorem ext_LSL {t p q u r : ℝ} {rho g : ℝ → ℝ} (hs : Shift q u rho g) (hp : 0 ≤ p) (h0 : 0 ≤ rho r) (h1 : rho r ≤ r + g r)
    (hX : 0 < p + rho r * cos (q - g r / 2))
    (ht : 0 ≤ t + arctan (rho r * sin (q - g r / 2) / (p + rho r * cos (q - g r / 2))))
    (hq : 0 ≤ q - g r - arctan (rho r * sin (q - g r / 2) / (p + rho r * cos (q - g r / 2)))) :
    Fwd ([(1, t), (0, p), (1, q)] ++ [(u, r)]) (t + p + q + r) := by
  obtain ⟨e1, e2⟩ := polar_t (Y := rho r * sin (q - g r / 2)) hX
  obtain ⟨n, hn⟩ : ∃ n, n = arctan (rho r * sin (q - g r / 2) / (p + rho r * cos (q - g r / 2))) := ⟨_, rfl⟩
  obtain ⟨P, hP⟩ : ∃ P, P = √((p + rho r * cos (q - g r / 2)) ^ 2 + (rho r * sin (q - g r / 2)) ^ 2) := ⟨_, rfl⟩
  rw [← hn] at e1 e2 ht hq
  rw [← hP] at e1 e2
  have hP0 : 0 ≤ P := by rw [hP]; positivity
  have hP1 : P ≤ p + rho r := by
    rw [hP]
    apply Real.sqrt_le_iff.2
    refine ⟨by linarith, ?_⟩
    have c1 := sin_sq_add_cos_sq (q - g r / 2)
    have c2 := cos_le_one (q - g r / 2)
    have := mul_nonneg hp h0
    have e : (p + rho r * cos (q - g r / 2)) ^ 2 + (rho r * sin (q - g r / 2)) ^ 2 =
        (p + rho r) ^ 2 - 2 * (p * rho r * (1 - cos (q - g r / 2))) := by linear_combination rho r ^ 2 * c1
    have := mul_nonneg this (sub_nonneg.2 c2)
    linarith
  refine Fwd.csc one_sign one_sign ht hP0 hq ?_ (by linarith)
  refine SameEnd.left (hs.ends r _ _ _ _ (end_LSL0 t p q)) (end_LSL (h1 := n) (h3 := q - g r) (by ring) (by ring)) ?_ ?_
    (AngleEq.refl _)
  · rw [zero_add]; exact e1
  · rw [zero_add, zero_add]; exact e2

theorem ext_RSL {t p q u r P n X Y : ℝ} {rho g : ℝ → ℝ} (hs : Shift q u rho g) (h1 : rho r ≤ r + g r)
    (hX : X = p + rho r * cos (q - g r / 2)) (hY : Y = 2 + rho r * sin (q - g r / 2)) (h4 : 4 ≤ X ^ 2 + Y ^ 2)
    (hP : P = √(X ^ 2 + Y ^ 2 - 4)) (hA : 0 < X * P + 2 * Y) (hn : n = arctan ((P * Y - 2 * X) / (X * P + 2 * Y)))
    (ht : 0 ≤ t - n) (hq : 0 ≤ q - g r - n)
    (hL : P * sin n + 2 * cos n = Y → P * cos n - 2 * sin n = X → P - 2 * n ≤ p + rho r) :
    Fwd ([(-1, t), (0, p), (1, q)] ++ [(u, r)]) (t + p + q + r) := by
  obtain ⟨e1, e2⟩ := polar_t (Y := P * Y - 2 * X) hA
  rw [← hn] at e1 e2
  have hP0 : 0 ≤ P := by rw [hP]; positivity
  have hP2 : P ^ 2 = X ^ 2 + Y ^ 2 - 4 := by rw [hP]; exact sq_sqrt (by linarith)
  have hR : √((X * P + 2 * Y) ^ 2 + (P * Y - 2 * X) ^ 2) = X ^ 2 + Y ^ 2 := by
    rw [show (X * P + 2 * Y) ^ 2 + (P * Y - 2 * X) ^ 2 = (X ^ 2 + Y ^ 2) ^ 2 by linear_combination (X ^ 2 + Y ^ 2) * hP2]
    exact sqrt_sq (by positivity)
  rw [hR] at e1 e2
  have hne : X ^ 2 + Y ^ 2 ≠ 0 := by linarith
  have g1 : P * sin n + 2 * cos n = Y := by
    apply mul_left_cancel₀ hne
    linear_combination -P * e2 - 2 * e1 + Y * hP2
  have g2 : P * cos n - 2 * sin n = X := by
    apply mul_left_cancel₀ hne
    linear_combination -P * e1 + 2 * e2 + X * hP2
  have := hL g1 g2
  refine Fwd.csc neg_one_sign one_sign ht hP0 hq ?_ (by linarith)
  refine SameEnd.left (hs.ends r _ _ _ _ (end_RSL (x := 0) (y := 0) (h0 := t) (h1 := 0) (h3 := q) (by ring) (by ring)))
    (end_RSL (h1 := n) (h3 := q - g r) (by ring) (by ring)) ?_ ?_ (AngleEq.refl _)
  · simp only [sin_zero, cos_zero]; linear_combination -g2 - hX
  · simp only [sin_zero, cos_zero]; linear_combination -g1 - hY

end Spec
