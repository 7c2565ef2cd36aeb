import Verif.Spec.ReedsShepp
import Verif.Spec.Hybrid
import Verif.Lemmas.DubinsCut

/-!
# The parts of a Reeds-Shepp path are Reeds-Shepp paths
-/

noncomputable section

namespace Spec

open Real

/-- The segments `cs` are, up to empty segments, a path with property `P`. -/
def FitsRS (k : ℝ) (cs : List Segment) : Prop := ∃ ws, ReedsSheppPath k ws ∧ driven ws = driven cs

theorem totalLength_driven (cs : List Segment) : totalLength (driven cs) = totalLength cs := by
  induction cs with
  | nil => rfl
  | cons c cs ih =>
    by_cases h : c.len = 0
    · rw [totalLength_cons, ← ih, h, abs_zero, zero_add]; simp [driven, h]
    · rw [totalLength_cons, ← ih, ← totalLength_cons]; simp [driven, h]

theorem arriveAll_driven (cs : List Segment) (p : Config) : arriveAll (driven cs) p = arriveAll cs p := by
  induction cs generalizing p with
  | nil => rfl
  | cons c cs ih =>
    by_cases h : c.len = 0
    · rw [arriveAll, h, abs_zero, arrive_zero, ← ih]; simp [driven, h]
    · rw [arriveAll, ← ih]; simp [driven, h, arriveAll]

theorem driven_reverse (cs : List Segment) : driven cs.reverse = (driven cs).reverse := by
  unfold driven; rw [List.filter_reverse]

theorem FitsRS.reaches {k : ℝ} {cs : List Segment} (h : FitsRS k cs) :
    ∃ ws, ReedsSheppPath k ws ∧ totalLength ws = totalLength cs ∧ ∀ p, arriveAll ws p = arriveAll cs p := by
  obtain ⟨ws, h1, h2⟩ := h
  refine ⟨ws, h1, ?_, fun p => ?_⟩
  · rw [← totalLength_driven ws, h2, totalLength_driven]
  · rw [← arriveAll_driven ws, h2, arriveAll_driven]

theorem rsPiece_zero (k e s : ℝ) : (rsPiece k e s 0).len = 0 := by simp [rsPiece]

theorem driven_cons_zero {c : Segment} (h : c.len = 0) (cs : List Segment) : driven (c :: cs) = driven cs := by
  simp [driven, h]

theorem driven_cons_zero_snd {c d : Segment} (h : d.len = 0) (cs : List Segment) :
    driven (c :: d :: cs) = driven (c :: cs) := by
  simp [driven, h, List.filter_cons]

theorem rsPiece_part (k e s a r : ℝ) : (rsPiece k e s a).part r = rsPiece k e s (r * a) := by
  simp only [rsPiece, Segment.part, Segment.mk.injEq, and_true]; ring

theorem IsSign.neg {e : ℝ} (h : IsSign e) : IsSign (-e) := by rcases h with rfl | rfl <;> simp [IsSign]

theorem IsHalfTurn.part {a r : ℝ} (h : IsHalfTurn a) (h0 : 0 ≤ r) (h1 : r ≤ 1) : IsHalfTurn (r * a) :=
  ⟨mul_nonneg h0 h.1, by nlinarith [h.1, h.2]⟩

theorem IsHalfTurn.zero : IsHalfTurn 0 := ⟨le_rfl, pi_pos.le⟩

theorem cut4 {A B C D c : Segment} {pre post : List Segment} (h : [A, B, C, D] = pre ++ c :: post) :
    (pre = [] ∧ c = A ∧ post = [B, C, D]) ∨ (∃ pre', pre = A :: pre' ∧ [B, C, D] = pre' ++ c :: post) := by
  rcases pre with _ | ⟨a, l⟩
  · simp only [List.nil_append, List.cons.injEq] at h
    exact Or.inl ⟨rfl, h.1.symm, h.2.symm⟩
  · simp only [List.cons_append, List.cons.injEq] at h
    exact Or.inr ⟨l, by rw [h.1], h.2⟩

theorem cut5 {A B C D E c : Segment} {pre post : List Segment} (h : [A, B, C, D, E] = pre ++ c :: post) :
    (pre = [] ∧ c = A ∧ post = [B, C, D, E]) ∨ (∃ pre', pre = A :: pre' ∧ [B, C, D, E] = pre' ++ c :: post) := by
  rcases pre with _ | ⟨a, l⟩
  · simp only [List.nil_append, List.cons.injEq] at h
    exact Or.inl ⟨rfl, h.1.symm, h.2.symm⟩
  · simp only [List.cons_append, List.cons.injEq] at h
    exact Or.inr ⟨l, by rw [h.1], h.2⟩

theorem fits_C {k e s a : ℝ} (he : IsSign e) (hs : IsSign s) (ha : 0 ≤ a) : FitsRS k [rsPiece k e s a] :=
  ⟨_, ReedsSheppPath.ccc (t := 0) (u := 0) (v := a) he hs hs IsHalfTurn.zero le_rfl pi_pos.le ha, by
    rw [driven_cons_zero (rsPiece_zero _ _ _), driven_cons_zero (rsPiece_zero _ _ _)]⟩

theorem fits_SC {k f s u v : ℝ} (hf : IsSign f) (hs : IsSign s) (hu : 0 ≤ u) (hv : IsHalfTurn v) :
    FitsRS k [rsPiece k 0 s u, rsPiece k f s v] :=
  ⟨_, ReedsSheppPath.csc (t := 0) hf hf hs IsHalfTurn.zero hu hv, by
    rw [driven_cons_zero (rsPiece_zero _ _ _)]⟩

/-- Two turns on opposite sides. -/
theorem fits_CC {k e s s' u v : ℝ} (he : IsSign e) (hs : IsSign s) (hs' : IsSign s') (hu : 0 ≤ u) (hu2 : u ≤ π)
    (hv : 0 ≤ v) : FitsRS k [rsPiece k (-e) s u, rsPiece k e s' v] :=
  ⟨_, ReedsSheppPath.ccc (t := 0) he hs.neg hs' IsHalfTurn.zero hu hu2 hv, by
    rw [driven_cons_zero (rsPiece_zero _ _ _), neg_neg]⟩

/-- The rest of a Reeds-Shepp path cut at any place. -/
theorem ReedsSheppPath.rest {k : ℝ} {pre post : List Segment} {c : Segment} {r : ℝ}
    (h : ReedsSheppPath k (pre ++ c :: post)) (h0 : 0 ≤ r) (h1 : r ≤ 1) :
    FitsRS k (c.part r :: post) := by
  have hpi := pi_pos
  generalize hcs : pre ++ c :: post = cs at h
  cases h with
  | @csc e f s t u v he hf hs ht hu hv =>
    rcases cut3 hcs.symm with ⟨rfl, rfl, rfl⟩ | ⟨rfl, rfl, rfl⟩ | ⟨rfl, rfl, rfl⟩ <;> rw [rsPiece_part]
    · exact ⟨_, ReedsSheppPath.csc he hf hs (ht.part h0 h1) hu hv, rfl⟩
    · exact fits_SC hf hs (mul_nonneg h0 hu) hv
    · exact fits_C hf hs (mul_nonneg h0 hv.1)
  | @ccc e s s' t u v he hs hs' ht hu hu2 hv =>
    rcases cut3 hcs.symm with ⟨rfl, rfl, rfl⟩ | ⟨rfl, rfl, rfl⟩ | ⟨rfl, rfl, rfl⟩ <;> rw [rsPiece_part]
    · exact ⟨_, ReedsSheppPath.ccc he hs hs' (ht.part h0 h1) hu hu2 hv, rfl⟩
    · exact fits_CC he hs.neg hs' (mul_nonneg h0 hu) (by nlinarith) hv
    · exact fits_C he hs' (mul_nonneg h0 hv)
  | @ccc_rev e s s' t u v he hs hs' ht hu hu2 hv =>
    rcases cut3 hcs.symm with ⟨rfl, rfl, rfl⟩ | ⟨rfl, rfl, rfl⟩ | ⟨rfl, rfl, rfl⟩ <;> rw [rsPiece_part]
    · exact ⟨_, ReedsSheppPath.ccc_rev he hs hs' ht hu hu2 (mul_nonneg h0 hv), rfl⟩
    · exact fits_CC he hs.neg hs (mul_nonneg h0 hu) (by nlinarith) ht.1
    · exact fits_C he hs (mul_nonneg h0 ht.1)
  | @cccc_in e s t u v he hs ht hu hu2 hv =>
    rcases cut4 hcs.symm with ⟨rfl, rfl, rfl⟩ | ⟨pre', rfl, h'⟩
    · rw [rsPiece_part]; exact ⟨_, ReedsSheppPath.cccc_in he hs (ht.part h0 h1) hu hu2 hv, rfl⟩
    · rcases cut3 h' with ⟨rfl, rfl, rfl⟩ | ⟨rfl, rfl, rfl⟩ | ⟨rfl, rfl, rfl⟩ <;> rw [rsPiece_part]
      · have := ReedsSheppPath.ccc (kappa := k) (t := r * u) (u := u) (v := v) he.neg hs hs.neg ⟨mul_nonneg h0 hu, by nlinarith⟩ hu (by linarith) hv.1
        rw [neg_neg] at this
        exact ⟨_, this, rfl⟩
      · have := fits_CC (k := k) (u := r * u) (v := v) he.neg hs.neg hs.neg (mul_nonneg h0 hu) (by nlinarith) hv.1
        rwa [neg_neg] at this
      · exact fits_C he.neg hs.neg (mul_nonneg h0 hv.1)
  | @cccc_out e s t u v he hs ht hu hu2 hv =>
    rcases cut4 hcs.symm with ⟨rfl, rfl, rfl⟩ | ⟨pre', rfl, h'⟩
    · rw [rsPiece_part]; exact ⟨_, ReedsSheppPath.cccc_out he hs (ht.part h0 h1) hu hu2 hv, rfl⟩
    · rcases cut3 h' with ⟨rfl, rfl, rfl⟩ | ⟨rfl, rfl, rfl⟩ | ⟨rfl, rfl, rfl⟩ <;> rw [rsPiece_part]
      · have := ReedsSheppPath.ccc_rev (kappa := k) (t := v) (u := u) (v := r * u) he.neg hs hs.neg hv hu (by linarith) (mul_nonneg h0 hu)
        rw [neg_neg] at this
        exact ⟨_, this, rfl⟩
      · have := fits_CC (k := k) (u := r * u) (v := v) he.neg hs.neg hs (mul_nonneg h0 hu) (by nlinarith) hv.1
        rwa [neg_neg] at this
      · exact fits_C he.neg hs (mul_nonneg h0 hv.1)
  | @ccsc e f s t u v he hf hs ht hu hv =>
    rcases cut4 hcs.symm with ⟨rfl, rfl, rfl⟩ | ⟨pre', rfl, h'⟩
    · rw [rsPiece_part]; exact ⟨_, ReedsSheppPath.ccsc he hf hs (ht.part h0 h1) hu hv, rfl⟩
    · rcases cut3 h' with ⟨rfl, rfl, rfl⟩ | ⟨rfl, rfl, rfl⟩ | ⟨rfl, rfl, rfl⟩ <;> rw [rsPiece_part]
      · exact ⟨_, ReedsSheppPath.csc he.neg hf hs.neg ⟨by positivity, by nlinarith⟩ hu hv, rfl⟩
      · exact fits_SC hf hs.neg (mul_nonneg h0 hu) hv
      · exact fits_C hf hs.neg (mul_nonneg h0 hv.1)
  | @ccsc_rev e f s t u v he hf hs ht hu hv =>
    rcases cut4 hcs.symm with ⟨rfl, rfl, rfl⟩ | ⟨pre', rfl, h'⟩
    · rw [rsPiece_part]; exact ⟨_, ReedsSheppPath.ccsc_rev he hf hs ht hu (hv.part h0 h1), rfl⟩
    · rcases cut3 h' with ⟨rfl, rfl, rfl⟩ | ⟨rfl, rfl, rfl⟩ | ⟨rfl, rfl, rfl⟩ <;> rw [rsPiece_part]
      · exact ⟨_, ReedsSheppPath.ccsc_rev he hf hs ht (mul_nonneg h0 hu) IsHalfTurn.zero, by
          rw [driven_cons_zero (rsPiece_zero _ _ _)]⟩
      · exact fits_CC he hs.neg hs (by positivity) (by nlinarith) ht.1
      · exact fits_C he hs (mul_nonneg h0 ht.1)
  | @ccscc e s t u v he hs ht hu hv =>
    rcases cut5 hcs.symm with ⟨rfl, rfl, rfl⟩ | ⟨pre', rfl, h'⟩
    · rw [rsPiece_part]; exact ⟨_, ReedsSheppPath.ccscc he hs (ht.part h0 h1) hu hv, rfl⟩
    · rcases cut4 h' with ⟨rfl, rfl, rfl⟩ | ⟨pre'', rfl, h''⟩
      · rw [rsPiece_part]
        have := ReedsSheppPath.ccsc_rev (kappa := k) (t := v) (u := u) (v := r * (π / 2)) he.neg he.neg hs hv hu ⟨by positivity, by nlinarith⟩
        rw [neg_neg] at this
        exact ⟨_, this, rfl⟩
      · rcases cut3 h'' with ⟨rfl, rfl, rfl⟩ | ⟨rfl, rfl, rfl⟩ | ⟨rfl, rfl, rfl⟩ <;> rw [rsPiece_part]
        · have := ReedsSheppPath.ccsc_rev (kappa := k) (t := v) (u := r * u) (v := 0) he.neg he.neg hs hv (mul_nonneg h0 hu) IsHalfTurn.zero
          rw [neg_neg] at this
          exact ⟨_, this, by rw [driven_cons_zero (rsPiece_zero _ _ _)]⟩
        · have := fits_CC (k := k) (u := r * (π / 2)) (v := v) he.neg hs.neg hs (by positivity) (by nlinarith) hv.1
          rwa [neg_neg] at this
        · exact fits_C he.neg hs (mul_nonneg h0 hv.1)

theorem ReedsSheppPath.reverse {k : ℝ} {cs : List Segment} (h : ReedsSheppPath k cs) : ReedsSheppPath k cs.reverse := by
  cases h with
  | csc he hf hs ht hu hv => exact ReedsSheppPath.csc hf he hs hv hu ht
  | ccc he hs hs' ht hu hu2 hv => exact ReedsSheppPath.ccc_rev he hs hs' ht hu hu2 hv
  | ccc_rev he hs hs' ht hu hu2 hv => exact ReedsSheppPath.ccc he hs hs' ht hu hu2 hv
  | cccc_in he hs ht hu hu2 hv =>
    have := ReedsSheppPath.cccc_in (kappa := k) he.neg hs.neg hv hu hu2 ht
    simp only [neg_neg] at this; exact this
  | cccc_out he hs ht hu hu2 hv =>
    have := ReedsSheppPath.cccc_out (kappa := k) he.neg hs hv hu hu2 ht
    simp only [neg_neg] at this; exact this
  | ccsc he hf hs ht hu hv => exact ReedsSheppPath.ccsc_rev he hf hs ht hu hv
  | ccsc_rev he hf hs ht hu hv => exact ReedsSheppPath.ccsc he hf hs ht hu hv
  | ccscc he hs ht hu hv =>
    have := ReedsSheppPath.ccscc (kappa := k) he.neg hs hv hu ht
    simp only [neg_neg] at this; exact this

/-- The first part of a Reeds-Shepp path cut at any place. -/
theorem ReedsSheppPath.start {k : ℝ} {pre post : List Segment} {c : Segment} {r : ℝ}
    (h : ReedsSheppPath k (pre ++ c :: post)) (h0 : 0 ≤ r) (h1 : r ≤ 1) :
    FitsRS k (pre ++ [c.part r]) := by
  have e : (pre ++ c :: post).reverse = post.reverse ++ c :: pre.reverse := by simp
  have h' := h.reverse
  rw [e] at h'
  obtain ⟨ws, h2, h3⟩ := h'.rest h0 h1
  refine ⟨ws.reverse, h2.reverse, ?_⟩
  rw [driven_reverse, h3, ← driven_reverse]
  simp

end Spec
