import Verif.Lemmas.Split

/-!
# The parts of a Dubins path are Dubins paths
-/

noncomputable section

namespace Spec

open Real

/-- The segments `cs` describe the same motion as a path with property `P`, and have its length. -/
def Fits (P : List Segment → Prop) (cs : List Segment) : Prop :=
  ∃ ws, P ws ∧ totalLength ws = totalLength cs ∧ ∀ p, arriveAll ws p = arriveAll cs p

theorem arriveAll_zero_cons (k : ℝ) (cs : List Segment) (p : Config) :
    arriveAll (⟨0, k, 0⟩ :: cs) p = arriveAll cs p := by
  simp only [arriveAll, abs_zero, arrive_zero]

theorem totalLength_cons (c : Segment) (cs : List Segment) :
    totalLength (c :: cs) = |c.len| + totalLength cs := by simp [totalLength]

theorem cut3 {A B C c : Segment} {pre post : List Segment} (h : [A, B, C] = pre ++ c :: post) :
    (pre = [] ∧ c = A ∧ post = [B, C]) ∨ (pre = [A] ∧ c = B ∧ post = [C]) ∨
      (pre = [A, B] ∧ c = C ∧ post = []) := by
  rcases pre with _ | ⟨a, _ | ⟨b, _ | ⟨d, l⟩⟩⟩
  · simp only [List.nil_append, List.cons.injEq] at h
    exact Or.inl ⟨rfl, h.1.symm, h.2.symm⟩
  · simp only [List.cons_append, List.nil_append, List.cons.injEq] at h
    exact Or.inr (Or.inl ⟨by rw [h.1], h.2.1.symm, h.2.2.symm⟩)
  · simp only [List.cons_append, List.nil_append, List.cons.injEq] at h
    exact Or.inr (Or.inr ⟨by rw [h.1, h.2.1], h.2.2.1.symm, h.2.2.2.symm⟩)
  · simp at h

theorem fits_refl {P : List Segment → Prop} {cs : List Segment} (h : P cs) : Fits P cs :=
  ⟨cs, h, rfl, fun _ => rfl⟩

theorem fits_of {P : List Segment → Prop} {ws cs : List Segment} (h : P ws)
    (e : totalLength ws = totalLength cs) (e' : ∀ p, arriveAll ws p = arriveAll cs p) : Fits P cs := ⟨ws, h, e, e'⟩

theorem arriveAll_one_zero (c : Segment) (k : ℝ) (cs : List Segment) (p : Config) :
    arriveAll (c :: ⟨0, k, 0⟩ :: cs) p = arriveAll (c :: cs) p := by
  simp only [arriveAll, abs_zero, arrive_zero]

/-- Both parts of a Dubins path cut at any place are (up to empty segments) Dubins paths. -/
theorem DubinsPath.cut {k : ℝ} {pre post : List Segment} {c : Segment} {r : ℝ} (hk : 0 < k)
    (h : DubinsPath k (pre ++ c :: post)) (h0 : 0 ≤ r) (h1 : r ≤ 1) :
    Fits (DubinsPath k) (pre ++ [c.part r]) ∧ Fits (DubinsPath k) (c.part (1 - r) :: post) := by
  have h1' : 0 ≤ 1 - r := by linarith
  have one : (1:ℝ) = 1 ∨ (1:ℝ) = -1 := Or.inl rfl
  have z : (0:ℝ) ≤ 0 := le_rfl
  generalize hcs : pre ++ c :: post = cs at h
  cases h with
  | @csc e1 e3 a b d he1 he3 ha hb hd =>
    rcases cut3 hcs.symm with ⟨rfl, rfl, rfl⟩ | ⟨rfl, rfl, rfl⟩ | ⟨rfl, rfl, rfl⟩
    · constructor
      · refine fits_of (DubinsPath.csc (a := r * a) he1 he1 (by positivity) z z) ?_ fun p => ?_
        · simp [totalLength, Segment.part]
        · simp only [Segment.part, List.nil_append, arriveAll, abs_zero, arrive_zero]
      · exact fits_refl (DubinsPath.csc he1 he3 (by positivity) hb hd)
    · constructor
      · refine fits_of (DubinsPath.csc (a := a) (b := r * b) he1 he1 ha (by positivity) z) ?_ fun p => ?_
        · simp [totalLength, Segment.part]
        · simp only [Segment.part, List.cons_append, List.nil_append, arriveAll, abs_zero, arrive_zero]
      · refine fits_of (DubinsPath.csc (a := 0) (b := (1 - r) * b) he3 he3 z (by positivity) hd) ?_ fun p => ?_
        · simp [totalLength, Segment.part]
        · simp only [Segment.part, arriveAll, abs_zero, arrive_zero]
    · constructor
      · exact fits_refl (DubinsPath.csc he1 he3 ha hb (by positivity))
      · refine fits_of (DubinsPath.csc (a := 0) (b := 0) (c := (1 - r) * d) he3 he3 z z (by positivity)) ?_ fun p => ?_
        · simp [totalLength, Segment.part]
        · simp only [Segment.part, arriveAll, abs_zero, arrive_zero]
  | @ccc e a b d he ha hb1 hb2 hd =>
    have hb : 0 ≤ b := by
      by_contra hc
      have := mul_neg_of_pos_of_neg hk (not_le.1 hc)
      linarith [pi_pos]
    have he' : -e = 1 ∨ -e = -1 := by rcases he with rfl | rfl <;> simp
    rcases cut3 hcs.symm with ⟨rfl, rfl, rfl⟩ | ⟨rfl, rfl, rfl⟩ | ⟨rfl, rfl, rfl⟩
    · constructor
      · refine fits_of (DubinsPath.csc (a := r * a) he he (by positivity) z z) ?_ fun p => ?_
        · simp [totalLength, Segment.part]
        · simp only [Segment.part, List.nil_append, arriveAll, abs_zero, arrive_zero]
      · exact fits_refl (DubinsPath.ccc he (by positivity) hb1 hb2 hd)
    · constructor
      · refine fits_of (DubinsPath.csc (a := a) (b := 0) (c := r * b) he he' ha z (by positivity)) ?_ fun p => ?_
        · simp [totalLength, Segment.part]
        · simp only [Segment.part, List.cons_append, List.nil_append, arriveAll, abs_zero, arrive_zero]
      · refine fits_of (DubinsPath.csc (a := (1 - r) * b) (b := 0) (c := d) he' he (by positivity) z hd) ?_ fun p => ?_
        · simp [totalLength, Segment.part]
        · simp only [Segment.part, arriveAll, abs_zero, arrive_zero]
    · constructor
      · exact fits_refl (DubinsPath.ccc he ha hb1 hb2 (by positivity))
      · refine fits_of (DubinsPath.csc (a := 0) (b := 0) (c := (1 - r) * d) he he z z (by positivity)) ?_ fun p => ?_
        · simp [totalLength, Segment.part]
        · simp only [Segment.part, arriveAll, abs_zero, arrive_zero]

end Spec

namespace SF

open Real Spec Props

theorem dubins_type (d al be : ℝ) : ∃ n ≤ 5, (dubins d al be).type = dubins_path_type n := by
  by_cases hs : d < DUBINS_EPS ∧ |al - be| < DUBINS_EPS
  · exact ⟨0, by omega, by simp only [dubins, if_pos hs]⟩
  · have h := (dubins_min hs).1
    have hd : DPath.default.type = dubins_path_type 0 := rfl
    simp only [List.mem_cons, List.not_mem_nil, or_false] at h
    rcases h with h | h | h | h | h | h <;> rw [h]
    · unfold dubinsLSL; split_ifs
      exacts [⟨0, by omega, rfl⟩, ⟨0, by omega, rfl⟩]
    · unfold dubinsRSR; split_ifs
      exacts [⟨1, by omega, rfl⟩, ⟨0, by omega, rfl⟩]
    · unfold dubinsRSL; split_ifs
      exacts [⟨2, by omega, rfl⟩, ⟨0, by omega, rfl⟩]
    · unfold dubinsLSR; split_ifs
      exacts [⟨3, by omega, rfl⟩, ⟨0, by omega, rfl⟩]
    · unfold dubinsRLR; split_ifs
      exacts [⟨4, by omega, rfl⟩, ⟨0, by omega, rfl⟩]
    · unfold dubinsLRL; split_ifs
      exacts [⟨5, by omega, rfl⟩, ⟨0, by omega, rfl⟩]

/-- The path found is a Dubins path. -/
theorem dubins_path {sp : DubinsSpace} (hk : 0 < sp.kappa) (s1 s2 : State)
    (hfar : sp.kappa * dist2 s1 s2 ≤ 10 ^ 200) :
    DubinsPath sp.kappa ((sp.pathControls (sp.dubins s1 s2)).map seg) := by
  obtain ⟨h1, -, h3, h4, -, h6, -, -⟩ := dubins_asserts hk s1 s2 hfar
  obtain ⟨n, hn, ht⟩ := dubins_type (sp.params s1 s2).1 (sp.params s1 s2).2.1 (sp.params s1 s2).2.2
  change (sp.dubins s1 s2).type = _ at ht
  have e : ∀ x : ℝ, sp.kappa * (x / sp.kappa) = x := fun x => by field_simp
  rw [pathControls_seg, ht]
  rw [ht] at h6
  have a1 : 0 ≤ (sp.dubins s1 s2).t / sp.kappa := by positivity
  have a2 : 0 ≤ (sp.dubins s1 s2).p / sp.kappa := by positivity
  have a3 : 0 ≤ (sp.dubins s1 s2).q / sp.kappa := by positivity
  have csc : ∀ e1 e3 : ℝ, (e1 = 1 ∨ e1 = -1) → (e3 = 1 ∨ e3 = -1) →
      DubinsPath sp.kappa [⟨(sp.dubins s1 s2).t / sp.kappa, e1 * sp.kappa, 0⟩,
        ⟨(sp.dubins s1 s2).p / sp.kappa, 0 * sp.kappa, 0⟩, ⟨(sp.dubins s1 s2).q / sp.kappa, e3 * sp.kappa, 0⟩] := by
    intro e1 e3 he1 he3
    rw [zero_mul]
    exact DubinsPath.csc he1 he3 a1 a2 a3
  interval_cases n
  · exact csc 1 1 (Or.inl rfl) (Or.inl rfl)
  · exact csc (-1) (-1) (Or.inr rfl) (Or.inr rfl)
  · exact csc (-1) 1 (Or.inr rfl) (Or.inl rfl)
  · exact csc 1 (-1) (Or.inl rfl) (Or.inr rfl)
  · obtain ⟨b1, b2⟩ := h6 (by simp [dubins_path_type])
    have := DubinsPath.ccc (kappa := sp.kappa) (e := -1) (Or.inr rfl) a1 (by rw [e]; exact b1) (by rw [e]; exact b2.le) a3
    rw [neg_neg] at this
    exact this
  · obtain ⟨b1, b2⟩ := h6 (by simp [dubins_path_type])
    exact DubinsPath.ccc (kappa := sp.kappa) (e := 1) (Or.inl rfl) a1 (by rw [e]; exact b1) (by rw [e]; exact b2.le) a3

end SF
