import Verif.Spec.Sampling
import Verif.Lemmas.Predict
import Verif.Lemmas.DubinsStates

/-!
# Cutting a path of arcs and lines in two at a sample
-/

noncomputable section

namespace Spec

open Real

/-- The first part of a segment. -/
def Segment.part (c : Segment) (r : ℝ) : Segment := ⟨r * c.len, c.kappa, c.sigma⟩

theorem arriveAll_part {c : Segment} (hc : c.sigma = 0) {r : ℝ} (h0 : 0 ≤ r) (p : Config) :
    arriveAll [c.part r] p = arrive c.dir c.kappa 0 (r * |c.len|) p := by
  simp only [arriveAll, Segment.part, hc, abs_mul, abs_of_nonneg h0]
  rcases h0.eq_or_lt with h | h
  · simp only [← h, zero_mul, arrive_zero]
  · congr 1
    unfold Segment.dir
    simp only [mul_neg_iff, h, true_and, not_lt.2 h0, false_and, or_false]

theorem arriveAll_parts {c : Segment} (hc : c.sigma = 0) {r : ℝ} (h0 : 0 ≤ r) (h1 : r ≤ 1) (p : Config) :
    arriveAll [c.part r, c.part (1 - r)] p = arriveAll [c] p := by
  have e : [c.part r, c.part (1 - r)] = [c.part r] ++ [c.part (1 - r)] := rfl
  rw [e, arriveAll_append, arriveAll_part hc h0, arriveAll_part hc (by linarith)]
  have := arrive_add c.dir c.kappa 0 (r * |c.len|) ((1 - r) * |c.len|) p
  simp only [zero_mul, add_zero] at this
  rw [this]
  simp only [arriveAll, hc]
  congr 1; ring

/-- A sample of a path of arcs and lines cuts one of its segments in two. -/
theorem At.split {cs : List Segment} {p : Config} {s : ℝ} {a : Sample} (h : At cs p s a)
    (h0 : ∀ c ∈ cs, c.sigma = 0) :
    ∃ pre c post r, cs = pre ++ c :: post ∧ 0 ≤ r ∧ r ≤ 1 ∧ s = totalLength (pre ++ [c.part r]) ∧
      SameConfig a.cfg (arriveAll (pre ++ [c.part r]) p) ∧
      arriveAll cs p = arriveAll (c.part (1 - r) :: post) (arriveAll (pre ++ [c.part r]) p) := by
  induction h with
  | @here c cs p m s a hs0 hs1 hd hm _ _ =>
    have hc := h0 c (by simp)
    obtain ⟨r, hr0, hr1, hr⟩ : ∃ r, 0 ≤ r ∧ r ≤ 1 ∧ s = r * |c.len| := by
      rcases (abs_nonneg c.len).eq_or_lt with h | h
      · exact ⟨0, le_rfl, zero_le_one, by linarith⟩
      · exact ⟨s / |c.len|, by positivity, (div_le_one h).2 hs1, by field_simp⟩
    refine ⟨[], c, cs, r, rfl, hr0, hr1, ?_, ?_, ?_⟩
    · simp [totalLength, Segment.part, abs_mul, abs_of_nonneg hr0, hr]
    · rw [List.nil_append, arriveAll_part hc hr0, ← hr]
      rw [drives_iff] at hd
      rw [hc] at hd
      rw [← hd]; exact hm
    · have := arriveAll_parts hc hr0 hr1 p
      have e1 : c :: cs = [c] ++ cs := rfl
      have e2 : c.part (1 - r) :: cs = [c.part (1 - r)] ++ cs := rfl
      rw [e1, e2, arriveAll_append, arriveAll_append, ← this]
      rfl
  | @later c cs p q s a hd hat ih =>
    obtain ⟨pre, c', post, r, e, hr0, hr1, hs, hm, hq⟩ := ih (fun c' hc' => h0 c' (by simp [hc']))
    rw [drives_iff] at hd
    refine ⟨c :: pre, c', post, r, by rw [e]; rfl, hr0, hr1, ?_, ?_, ?_⟩
    · rw [hs]; simp [totalLength]
    · simp only [List.cons_append, arriveAll, ← hd]; exact hm
    · simp only [List.cons_append, arriveAll, ← hd]; exact hq

end Spec
