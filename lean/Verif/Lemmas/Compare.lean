import Verif.Lemmas.RSCut
import Verif.Lemmas.RSCorner

/-!
# Reeds-Shepp words that replace Dubins words: the words and their ends
-/

noncomputable section

namespace Spec

open SF Real

/-- Both words end in the same configuration. -/
def SameEnd (ws ws' : List (ℝ × ℝ)) : Prop := ∀ x y phi, Hits ws x y phi → Hits ws' x y phi

theorem SameEnd.trans {a b c : List (ℝ × ℝ)} (h : SameEnd a b) (h' : SameEnd b c) : SameEnd a c :=
  fun x y phi k => h' x y phi (h x y phi k)

theorem SameEnd.of {ws ws' : List (ℝ × ℝ)} (p : Config) (hx : (uEnd ws p).x = (uEnd ws' p).x)
    (hy : (uEnd ws p).y = (uEnd ws' p).y) (ht : AngleEq (uEnd ws p).theta (uEnd ws' p).theta) :
    SameEnd ws ws' := by
  rw [uEnd_from ws p, uEnd_from ws' p] at hx hy ht
  simp only at hx hy ht
  have hsc := sin_sq_add_cos_sq p.theta
  have e1 : (uEnd ws ⟨0, 0, 0⟩).x = (uEnd ws' ⟨0, 0, 0⟩).x := by
    linear_combination cos p.theta * hx + sin p.theta * hy -
      ((uEnd ws ⟨0, 0, 0⟩).x - (uEnd ws' ⟨0, 0, 0⟩).x) * hsc
  have e2 : (uEnd ws ⟨0, 0, 0⟩).y = (uEnd ws' ⟨0, 0, 0⟩).y := by
    linear_combination -sin p.theta * hx + cos p.theta * hy -
      ((uEnd ws ⟨0, 0, 0⟩).y - (uEnd ws' ⟨0, 0, 0⟩).y) * hsc
  have e3 : AngleEq (uEnd ws ⟨0, 0, 0⟩).theta (uEnd ws' ⟨0, 0, 0⟩).theta := by
    have := ht.sub (AngleEq.refl p.theta)
    simpa using this
  rintro x y phi ⟨h1, h2, h3⟩
  exact ⟨e1 ▸ h1, e2 ▸ h2, e3.symm.trans h3⟩

/-- The Reeds-Shepp words used below, at unit curvature. -/
inductive RSW : List (ℝ × ℝ) → Prop
  | csc {e f s t u v : ℝ} : IsSign e → IsSign f → IsSign s → IsHalfTurn t → 0 ≤ u → IsHalfTurn v →
      RSW [(e, s * t), (0, s * u), (f, s * v)]
  | ccc {e s s' t u v : ℝ} : IsSign e → IsSign s → IsSign s' → IsHalfTurn t → 0 ≤ u → u ≤ π → 0 ≤ v →
      RSW [(e, s * t), (-e, -s * u), (e, s' * v)]
  | ccc_rev {e s s' t u v : ℝ} : IsSign e → IsSign s → IsSign s' → IsHalfTurn t → 0 ≤ u → u ≤ π → 0 ≤ v →
      RSW [(e, s' * v), (-e, -s * u), (e, s * t)]
  | ccsc {e f s t u v : ℝ} : IsSign e → IsSign f → IsSign s → IsHalfTurn t → 0 ≤ u → IsHalfTurn v →
      RSW [(e, s * t), (-e, -s * (π / 2)), (0, -s * u), (f, -s * v)]
  | ccsc_rev {e f s t u v : ℝ} : IsSign e → IsSign f → IsSign s → IsHalfTurn t → 0 ≤ u → IsHalfTurn v →
      RSW [(f, -s * v), (0, -s * u), (-e, -s * (π / 2)), (e, s * t)]

theorem RSW.path {ws : List (ℝ × ℝ)} (h : RSW ws) (k : ℝ) : ReedsSheppPath k (wordSegs k ws) := by
  cases h with
  | csc h1 h2 h3 h4 h5 h6 => exact ReedsSheppPath.csc h1 h2 h3 h4 h5 h6
  | ccc h1 h2 h3 h4 h5 h6 h7 => exact ReedsSheppPath.ccc h1 h2 h3 h4 h5 h6 h7
  | ccc_rev h1 h2 h3 h4 h5 h6 h7 => exact ReedsSheppPath.ccc_rev h1 h2 h3 h4 h5 h6 h7
  | ccsc h1 h2 h3 h4 h5 h6 => exact ReedsSheppPath.ccsc h1 h2 h3 h4 h5 h6
  | ccsc_rev h1 h2 h3 h4 h5 h6 => exact ReedsSheppPath.ccsc_rev h1 h2 h3 h4 h5 h6

theorem RSW.reverse {ws : List (ℝ × ℝ)} (h : RSW ws) : RSW ws.reverse := by
  cases h with
  | csc h1 h2 h3 h4 h5 h6 => exact RSW.csc h2 h1 h3 h6 h5 h4
  | ccc h1 h2 h3 h4 h5 h6 h7 => exact RSW.ccc_rev h1 h2 h3 h4 h5 h6 h7
  | ccc_rev h1 h2 h3 h4 h5 h6 h7 => exact RSW.ccc h1 h2 h3 h4 h5 h6 h7
  | ccsc h1 h2 h3 h4 h5 h6 => exact RSW.ccsc_rev h1 h2 h3 h4 h5 h6
  | ccsc_rev h1 h2 h3 h4 h5 h6 => exact RSW.ccsc h1 h2 h3 h4 h5 h6

theorem RSW.mirror {ws : List (ℝ × ℝ)} (h : RSW ws) : RSW (mirrorW ws) := by
  cases h with
  | csc h1 h2 h3 h4 h5 h6 =>
    have := RSW.csc h1.neg h2.neg h3 h4 h5 h6
    simpa [mirrorW] using this
  | ccc h1 h2 h3 h4 h5 h6 h7 => exact RSW.ccc h1.neg h2 h3 h4 h5 h6 h7
  | ccc_rev h1 h2 h3 h4 h5 h6 h7 => exact RSW.ccc_rev h1.neg h2 h3 h4 h5 h6 h7
  | ccsc h1 h2 h3 h4 h5 h6 =>
    have := RSW.ccsc h1.neg h2.neg h3 h4 h5 h6
    simpa [mirrorW] using this
  | ccsc_rev h1 h2 h3 h4 h5 h6 =>
    have := RSW.ccsc_rev h1.neg h2.neg h3 h4 h5 h6
    simpa [mirrorW] using this

theorem IsSign.unit {e : ℝ} (h : IsSign e) : e = 0 ∨ e = 1 ∨ e = -1 := Or.inr h

theorem RSW.unit {ws : List (ℝ × ℝ)} (h : RSW ws) : UnitW ws := by
  cases h with
  | csc h1 h2 h3 h4 h5 h6 => intro w hw; simp at hw; rcases hw with rfl | rfl | rfl <;> simp [h1.unit, h2.unit]
  | ccc h1 h2 h3 h4 h5 h6 h7 => intro w hw; simp at hw; rcases hw with rfl | rfl | rfl <;> first | exact h1.unit | exact h1.neg.unit
  | ccc_rev h1 h2 h3 h4 h5 h6 h7 => intro w hw; simp at hw; rcases hw with rfl | rfl | rfl <;> first | exact h1.unit | exact h1.neg.unit
  | ccsc h1 h2 h3 h4 h5 h6 => intro w hw; simp at hw; rcases hw with rfl | rfl | rfl | rfl <;> first | exact h1.unit | exact h1.neg.unit | exact Or.inl rfl | exact h2.unit
  | ccsc_rev h1 h2 h3 h4 h5 h6 => intro w hw; simp at hw; rcases hw with rfl | rfl | rfl | rfl <;> first | exact h2.unit | exact Or.inl rfl | exact h1.neg.unit | exact h1.unit

/-- A Reeds-Shepp word of length at most `L` ends where the word `ws` ends. -/
def Beaten (ws : List (ℝ × ℝ)) (L : ℝ) : Prop := ∃ ws', RSW ws' ∧ SameEnd ws ws' ∧ wordLen ws' ≤ L

theorem Beaten.via {ws ws' : List (ℝ × ℝ)} {L L' : ℝ} (h : Beaten ws' L') (hs : SameEnd ws ws') (hL : L' ≤ L) :
    Beaten ws L := by
  obtain ⟨w, h1, h2, h3⟩ := h
  exact ⟨w, h1, hs.trans h2, h3.trans hL⟩

theorem Beaten.by {ws ws' : List (ℝ × ℝ)} {L : ℝ} (h : RSW ws') (hs : SameEnd ws ws') (hL : wordLen ws' ≤ L) :
    Beaten ws L := ⟨ws', h, hs, hL⟩

theorem IsSign.abs_mul {s a : ℝ} (hs : IsSign s) (ha : 0 ≤ a) : |s * a| = a := by
  rcases hs with rfl | rfl <;> simp [abs_of_nonneg ha]

theorem IsSign.abs_neg_mul {s a : ℝ} (hs : IsSign s) (ha : 0 ≤ a) : |-s * a| = a := hs.neg.abs_mul ha

theorem one_sign : IsSign 1 := Or.inl rfl

theorem neg_one_sign : IsSign (-1) := Or.inr rfl

theorem Beaten.csc {ws : List (ℝ × ℝ)} {e f s t u v L : ℝ} (he : IsSign e) (hf : IsSign f) (hs : IsSign s)
    (ht : IsHalfTurn t) (hu : 0 ≤ u) (hv : IsHalfTurn v) (h : SameEnd ws [(e, s * t), (0, s * u), (f, s * v)])
    (hL : t + u + v ≤ L) : Beaten ws L :=
  ⟨_, RSW.csc he hf hs ht hu hv, h, by
    simp only [wordLen, List.map_cons, List.map_nil, List.sum_cons, List.sum_nil, hs.abs_mul ht.1, hs.abs_mul hu, hs.abs_mul hv.1]
    linarith⟩

theorem Beaten.ccc {ws : List (ℝ × ℝ)} {e s s' t u v L : ℝ} (he : IsSign e) (hs : IsSign s) (hs' : IsSign s')
    (ht : IsHalfTurn t) (hu : 0 ≤ u) (hu2 : u ≤ π) (hv : 0 ≤ v) (h : SameEnd ws [(e, s * t), (-e, -s * u), (e, s' * v)])
    (hL : t + u + v ≤ L) : Beaten ws L :=
  ⟨_, RSW.ccc he hs hs' ht hu hu2 hv, h, by
    simp only [wordLen, List.map_cons, List.map_nil, List.sum_cons, List.sum_nil, hs.abs_mul ht.1, hs.abs_neg_mul hu, hs'.abs_mul hv]
    linarith⟩

theorem Beaten.ccc_rev {ws : List (ℝ × ℝ)} {e s s' t u v L : ℝ} (he : IsSign e) (hs : IsSign s) (hs' : IsSign s')
    (ht : IsHalfTurn t) (hu : 0 ≤ u) (hu2 : u ≤ π) (hv : 0 ≤ v) (h : SameEnd ws [(e, s' * v), (-e, -s * u), (e, s * t)])
    (hL : t + u + v ≤ L) : Beaten ws L :=
  ⟨_, RSW.ccc_rev he hs hs' ht hu hu2 hv, h, by
    simp only [wordLen, List.map_cons, List.map_nil, List.sum_cons, List.sum_nil, hs.abs_mul ht.1, hs.abs_neg_mul hu, hs'.abs_mul hv]
    linarith⟩

theorem Beaten.ccsc {ws : List (ℝ × ℝ)} {e f s t u v L : ℝ} (he : IsSign e) (hf : IsSign f) (hs : IsSign s)
    (ht : IsHalfTurn t) (hu : 0 ≤ u) (hv : IsHalfTurn v)
    (h : SameEnd ws [(e, s * t), (-e, -s * (π / 2)), (0, -s * u), (f, -s * v)])
    (hL : t + π / 2 + u + v ≤ L) : Beaten ws L :=
  ⟨_, RSW.ccsc he hf hs ht hu hv, h, by
    simp only [wordLen, List.map_cons, List.map_nil, List.sum_cons, List.sum_nil, hs.abs_mul ht.1, hs.abs_neg_mul hu,
      hs.abs_neg_mul hv.1, hs.abs_neg_mul (by positivity : 0 ≤ π / 2)]
    linarith⟩

theorem mirrorW_mirrorW (ws : List (ℝ × ℝ)) : mirrorW (mirrorW ws) = ws := by
  simp [mirrorW, Function.comp_def]

theorem wordLen_mirror (ws : List (ℝ × ℝ)) : wordLen (mirrorW ws) = wordLen ws := by
  simp [mirrorW, wordLen, Function.comp_def]

theorem wordLen_reverse (ws : List (ℝ × ℝ)) : wordLen ws.reverse = wordLen ws := by
  simp [wordLen, List.sum_reverse]

theorem SameEnd.mirror {ws ws' : List (ℝ × ℝ)} (h : SameEnd ws ws') : SameEnd (mirrorW ws) (mirrorW ws') := by
  intro x y phi k
  apply Hits.mirror
  apply h
  have : Hits (mirrorW ws) x (- -y) (- -phi) := by simpa using k
  have := Hits.mirror this
  rwa [mirrorW_mirrorW] at this

theorem SameEnd.reverse {ws ws' : List (ℝ × ℝ)} (h : SameEnd ws ws') (hw : UnitW ws) (hw' : UnitW ws') :
    SameEnd ws.reverse ws'.reverse := by
  intro x y phi k
  apply Hits.reverse hw'
  apply h
  have hr : UnitW ws.reverse := fun w m => hw w (List.mem_reverse.1 m)
  have := k.reverse' hr
  rwa [List.reverse_reverse] at this

theorem Beaten.mirror {ws : List (ℝ × ℝ)} {L : ℝ} (h : Beaten ws L) : Beaten (mirrorW ws) L := by
  obtain ⟨w, h1, h2, h3⟩ := h
  exact ⟨_, h1.mirror, h2.mirror, by rwa [wordLen_mirror]⟩

theorem Beaten.reverse {ws : List (ℝ × ℝ)} {L : ℝ} (h : Beaten ws L) (hw : UnitW ws) : Beaten ws.reverse L := by
  obtain ⟨w, h1, h2, h3⟩ := h
  exact ⟨_, h1.reverse, h2.reverse hw h1.unit, by rwa [wordLen_reverse]⟩

theorem unitW3 {e f g a b c : ℝ} (he : IsSign e) (hf : f = 0 ∨ IsSign f) (hg : IsSign g) : UnitW [(e, a), (f, b), (g, c)] := by
  intro w hw
  simp at hw
  rcases hw with rfl | rfl | rfl
  · exact he.unit
  · exact hf
  · exact hg.unit

/-! ### Ends of words, in terms of the headings between the pieces -/

/-- On the left turning circle around `(x, y)`, with heading `h`. -/
def onL (x y h : ℝ) : Config := ⟨x + sin h, y - cos h, h⟩

/-- On the right turning circle around `(x, y)`, with heading `h`. -/
def onR (x y h : ℝ) : Config := ⟨x - sin h, y + cos h, h⟩

theorem onL_onR (x y h : ℝ) : onL x y h = onR (x + 2 * sin h) (y - 2 * cos h) h := by
  simp only [onL, onR]; ext <;> simp <;> ring

theorem step_L {x y h h' l : ℝ} (e : l = h' - h) : uStep 1 l (onL x y h) = onL x y h' := by
  subst e; simp only [onL, uStep]; ext <;> simp

theorem step_R {x y h h' l : ℝ} (e : l = h - h') : uStep (-1) l (onR x y h) = onR x y h' := by
  subst e; simp only [onR, uStep]; ext <;> simp

theorem step_SL (x y h l : ℝ) : uStep 0 l (onL x y h) = onL (x + l * cos h) (y + l * sin h) h := by
  simp only [onL, uStep]; ext <;> simp <;> ring

theorem step_SR (x y h l : ℝ) : uStep 0 l (onR x y h) = onR (x + l * cos h) (y + l * sin h) h := by
  simp only [onR, uStep]; ext <;> simp <;> ring

theorem onR_onL (x y h : ℝ) : onR x y h = onL (x - 2 * sin h) (y + 2 * cos h) h := by
  simp only [onL, onR]; ext <;> simp <;> ring

theorem end_LSL {x y h0 h1 h3 a p c : ℝ} (ea : a = h1 - h0) (ec : c = h3 - h1) :
    uEnd [(1, a), (0, p), (1, c)] (onL x y h0) = onL (x + p * cos h1) (y + p * sin h1) h3 := by
  simp only [uEnd]; rw [step_L ea, step_SL, step_L ec]

theorem end_LSR {x y h0 h1 h3 a p c : ℝ} (ea : a = h1 - h0) (ec : c = h1 - h3) :
    uEnd [(1, a), (0, p), (-1, c)] (onL x y h0) =
      onR (x + 2 * sin h1 + p * cos h1) (y - 2 * cos h1 + p * sin h1) h3 := by
  simp only [uEnd]; rw [step_L ea, onL_onR, step_SR, step_R ec]

theorem end_RSL {x y h0 h1 h3 a p c : ℝ} (ea : a = h0 - h1) (ec : c = h3 - h1) :
    uEnd [(-1, a), (0, p), (1, c)] (onL x y h0) =
      onL (x + 2 * sin h0 - 2 * sin h1 + p * cos h1) (y - 2 * cos h0 + 2 * cos h1 + p * sin h1) h3 := by
  simp only [uEnd]; rw [onL_onR, step_R ea, onR_onL, step_SL, step_L ec]

theorem end_RSR {x y h0 h1 h3 a p c : ℝ} (ea : a = h0 - h1) (ec : c = h1 - h3) :
    uEnd [(-1, a), (0, p), (-1, c)] (onL x y h0) =
      onR (x + 2 * sin h0 + p * cos h1) (y - 2 * cos h0 + p * sin h1) h3 := by
  simp only [uEnd]; rw [onL_onR, step_R ea, step_SR, step_R ec]

theorem end_LRL {x y h0 h1 h2 h3 a b c : ℝ} (ea : a = h1 - h0) (eb : b = h1 - h2) (ec : c = h3 - h2) :
    uEnd [(1, a), (-1, b), (1, c)] (onL x y h0) =
      onL (x + 2 * sin h1 - 2 * sin h2) (y - 2 * cos h1 + 2 * cos h2) h3 := by
  simp only [uEnd]; rw [step_L ea, onL_onR, step_R eb, onR_onL, step_L ec]

theorem end_LRSL {x y h0 h1 h2 h3 a b s c : ℝ} (ea : a = h1 - h0) (eb : b = h1 - h2) (ec : c = h3 - h2) :
    uEnd [(1, a), (-1, b), (0, s), (1, c)] (onL x y h0) =
      onL (x + 2 * sin h1 - 2 * sin h2 + s * cos h2) (y - 2 * cos h1 + 2 * cos h2 + s * sin h2) h3 := by
  simp only [uEnd]; rw [step_L ea, onL_onR, step_R eb, onR_onL, step_SL, step_L ec]

theorem end_LRSR {x y h0 h1 h2 h3 a b s c : ℝ} (ea : a = h1 - h0) (eb : b = h1 - h2) (ec : c = h2 - h3) :
    uEnd [(1, a), (-1, b), (0, s), (-1, c)] (onL x y h0) =
      onR (x + 2 * sin h1 + s * cos h2) (y - 2 * cos h1 + s * sin h2) h3 := by
  simp only [uEnd]; rw [step_L ea, onL_onR, step_R eb, step_SR, step_R ec]

theorem end_LSL0 (t p q : ℝ) : uEnd [(1, t), (0, p), (1, q)] (onL 0 0 (-t)) = onL p 0 q := by
  rw [end_LSL (h1 := 0) (h3 := q) (by ring) (by ring)]; simp

theorem end_LSR0 (t p q : ℝ) : uEnd [(1, t), (0, p), (-1, q)] (onL 0 0 (-t)) = onR p (-2) (-q) := by
  rw [end_LSR (h1 := 0) (h3 := -q) (by ring) (by ring)]; simp

/-- Two words from `onL 0 0 h` that both end on left circles. -/
theorem SameEnd.left {ws ws' : List (ℝ × ℝ)} {h x y g x' y' g' : ℝ} (e : uEnd ws (onL 0 0 h) = onL x y g)
    (e' : uEnd ws' (onL 0 0 h) = onL x' y' g') (hx : x = x') (hy : y = y') (hg : AngleEq g g') : SameEnd ws ws' := by
  apply SameEnd.of (onL 0 0 h)
  · rw [e, e']; simp only [onL]; rw [hx, hg.sin_eq]
  · rw [e, e']; simp only [onL]; rw [hy, hg.cos_eq]
  · rw [e, e']; exact hg

/-- Two words from `onL 0 0 h` that both end on right circles. -/
theorem SameEnd.right {ws ws' : List (ℝ × ℝ)} {h x y g x' y' g' : ℝ} (e : uEnd ws (onL 0 0 h) = onR x y g)
    (e' : uEnd ws' (onL 0 0 h) = onR x' y' g') (hx : x = x') (hy : y = y') (hg : AngleEq g g') : SameEnd ws ws' := by
  apply SameEnd.of (onL 0 0 h)
  · rw [e, e']; simp only [onR]; rw [hx, hg.sin_eq]
  · rw [e, e']; simp only [onR]; rw [hy, hg.cos_eq]
  · rw [e, e']; exact hg

theorem full_turn (a : ℝ) : AngleEq a (a - 2 * π) := (AngleEq.sub_two_pi a).symm

/-- Whole turns may be left out. -/
theorem SameEnd.turns (e f g a b c : ℝ) (n m : ℤ) (he : IsSign e) (hg : IsSign g) :
    SameEnd [(e, a), (f, b), (g, c)] [(e, a - n * (2 * π)), (f, b), (g, c - m * (2 * π))] := by
  have k1 : ∀ (e l : ℝ) (n : ℤ) (p : Config), IsSign e → ∃ j : ℤ, uStep e (l - n * (2 * π)) p =
      ⟨(uStep e l p).x, (uStep e l p).y, (uStep e l p).theta + j * (2 * π)⟩ := by
    intro e l n p he
    rcases he with rfl | rfl
    · refine ⟨-n, ?_⟩
      simp only [uStep]
      have : p.theta + 1 * (l - n * (2 * π)) = p.theta + 1 * l - n * (2 * π) := by ring
      rw [this, sin_sub_int_mul_two_pi, cos_sub_int_mul_two_pi]
      ext <;> simp <;> ring
    · refine ⟨n, ?_⟩
      simp only [uStep]
      have : p.theta + -1 * (l - n * (2 * π)) = p.theta + -1 * l + n * (2 * π) := by ring
      rw [this, sin_add_int_mul_two_pi, cos_add_int_mul_two_pi]
      ext <;> simp
  have k2 : ∀ (e l : ℝ) (j : ℤ) (p : Config), uStep e l ⟨p.x, p.y, p.theta + j * (2 * π)⟩ =
      ⟨(uStep e l p).x, (uStep e l p).y, (uStep e l p).theta + j * (2 * π)⟩ := by
    intro e l j p
    simp only [uStep]
    have : p.theta + j * (2 * π) + e * l = p.theta + e * l + j * (2 * π) := by ring
    rw [this, sin_add_int_mul_two_pi, cos_add_int_mul_two_pi, sin_add_int_mul_two_pi, cos_add_int_mul_two_pi]
  obtain ⟨j, hj⟩ := k1 e a n ⟨0, 0, 0⟩ he
  obtain ⟨i, hi⟩ := k1 g c m (uStep f b (uStep e a ⟨0, 0, 0⟩)) hg
  apply SameEnd.of ⟨0, 0, 0⟩
  all_goals
    simp only [uEnd]
    rw [hj, k2 f b j (uStep e a ⟨0, 0, 0⟩), k2 g _ j (uStep f b (uStep e a ⟨0, 0, 0⟩)), hi]
  exact ⟨-i - j, by push_cast; ring⟩

end Spec
