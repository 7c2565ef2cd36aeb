import Verif.Spec.Hybrid
import Verif.Spec.Turn

/-!
# Hybrid curvature of lists of pieces
-/

noncomputable section

namespace Spec

/-- End curvature. -/
def Segment.out (c : Segment) : ℝ := c.kappa + c.sigma * |c.len|

/-- `HybridCurvature` after the driven segment `st`. -/
def Hyb : Option Segment → List Segment → Prop
  | _, [] => True
  | st, c :: cs => if c.len = 0 then Hyb st cs else (∀ p ∈ st, Joins p c) ∧ Hyb (some c) cs

theorem hyb_driven (cs : List Segment) (st : Option Segment) : Hyb st cs ↔ (st.toList ++ driven cs).IsChain Joins := by
  induction cs generalizing st with
  | nil => cases st <;> simp [Hyb, driven]
  | cons c cs ih =>
    by_cases h : c.len = 0
    · simp only [Hyb, h, if_true, driven, ne_eq, not_true_eq_false, decide_false, Bool.false_eq_true, not_false_eq_true,
        List.filter_cons_of_neg]
      exact ih st
    · have hd : driven (c :: cs) = c :: driven cs := by simp [driven, h]
      rw [Hyb, if_neg h, ih, hd]
      cases st with
      | none => simp
      | some p => simp [List.isChain_cons_cons]

theorem hyb_none {cs : List Segment} : Hyb none cs ↔ HybridCurvature cs := by
  rw [hyb_driven]; rfl

/-- What a piece needs from its neighbours: curvature and driving direction at both ends; `mz` says that
it may have length zero. -/
structure PD where
  k0 : ℝ
  a : ℝ
  k1 : ℝ
  b : ℝ
  mz : Bool

/-- The pieces fit together after a piece ending with curvature and direction `st`. -/
def HybD : Option (ℝ × ℝ) → List PD → Prop
  | _, [] => True
  | st, D :: Ds => (∀ p ∈ st, p.1 = D.k0 ∨ p.2 * D.a < 0) ∧ HybD (some (D.k1, D.b)) Ds ∧ (D.mz = true → HybD st Ds)

/-- The abstract state describes the last driven segment. -/
def Same : Option (ℝ × ℝ) → Option Segment → Prop
  | none, none => True
  | some p, some c => c.out = p.1 ∧ 0 < p.2 * c.len
  | _, _ => False

theorem driven_cons {c : Segment} {cs : List Segment} (h : c.len ≠ 0) : driven (c :: cs) = c :: driven cs := by
  simp [driven, h]

theorem driven_skip {c : Segment} {cs : List Segment} (h : c.len = 0) : driven (c :: cs) = driven cs := by
  simp [driven, h]

theorem out_of_nil {cs : List Segment} {k k' : ℝ} (h : CurvatureContinuous k cs k') (hn : driven cs = []) : k = k' := by
  induction cs generalizing k with
  | nil => exact h
  | cons c cs ih =>
    by_cases hc : c.len = 0
    · rw [driven_skip hc] at hn
      have := ih h.2 hn
      rw [hc, abs_zero, mul_zero, add_zero, h.1] at this
      exact this
    · rw [driven_cons hc] at hn; simp at hn

/-- A piece of continuous curvature. -/
theorem hyb_piece {cs rest : List Segment} {k0 k1 : ℝ} {st : Option Segment} (h : CurvatureContinuous k0 cs k1)
    (hj : ∀ p ∈ st, ∀ x ∈ (driven cs).head?, p.out = k0 ∨ p.len * x.len < 0)
    (hl : ∀ y ∈ (driven cs).getLast?, y.out = k1 → Hyb (some y) rest) (hz : driven cs = [] → Hyb st rest) :
    Hyb st (cs ++ rest) := by
  induction cs generalizing k0 st with
  | nil => exact hz rfl
  | cons c cs ih =>
    by_cases hc : c.len = 0
    · rw [driven_skip hc] at hj hl hz
      rw [List.cons_append, Hyb, if_pos hc]
      have h2 := h.2
      rw [hc, abs_zero, mul_zero, add_zero, h.1] at h2
      exact ih h2 hj hl hz
    · rw [driven_cons hc] at hj hl hz
      rw [List.cons_append, Hyb, if_neg hc]
      refine ⟨fun p hp => ?_, ih h.2 ?_ ?_ ?_⟩
      · rcases hj p hp c (by simp) with h' | h'
        · left; rw [h.1]; exact h'.symm
        · exact .inr h'
      · intro p hp x hx
        obtain rfl := Option.some.inj hp
        exact .inl rfl
      · intro y hy ho
        refine hl y ?_ ho
        rw [List.getLast?_cons]
        rw [Option.mem_def] at hy ⊢
        rw [hy]; rfl
      · intro hn
        refine hl c (by rw [hn]; rfl) (out_of_nil h.2 hn)

theorem hybD_piece {cs : List Segment} {D : PD} (h : CurvatureContinuous D.k0 cs D.k1)
    (ha : ∀ x ∈ (driven cs).head?, 0 < D.a * x.len) (hb : ∀ x ∈ (driven cs).getLast?, 0 < D.b * x.len)
    (hz : D.mz = false → driven cs ≠ []) {Ds : List PD} {rest : List Segment}
    (hr : ∀ st st', Same st st' → HybD st Ds → Hyb st' rest) {st : Option (ℝ × ℝ)} {st' : Option Segment}
    (hs : Same st st') (hd : HybD st (D :: Ds)) : Hyb st' (cs ++ rest) := by
  refine hyb_piece h ?_ ?_ ?_
  · intro p hp x hx
    obtain rfl := hp
    cases st with
    | none => exact absurd hs id
    | some r =>
      rcases hd.1 r rfl with h' | h'
      · left; rw [hs.1]; exact h'
      · right
        have h1 := hs.2
        have h2 := ha x hx
        have : (r.2 * p.len) * (D.a * x.len) = (r.2 * D.a) * (p.len * x.len) := by ring
        have h3 := mul_pos h1 h2
        rw [this] at h3
        exact neg_of_mul_pos_right h3 h'.le
  · intro y hy ho
    exact hr (some (D.k1, D.b)) (some y) ⟨ho, hb y hy⟩ hd.2.1
  · intro hn
    refine hr st st' hs (hd.2.2 ?_)
    cases hm : D.mz
    · exact absurd hn (hz hm)
    · rfl

end Spec
