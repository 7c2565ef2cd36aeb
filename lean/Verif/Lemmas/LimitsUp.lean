import Verif.Lemmas.PmLimits
import Verif.Lemmas.CcRsPlan

/-!
# Limits of paths of one and two turns

Such paths are accepted within a tolerance, so their limits are exceeded by a factor close to one.
-/

noncomputable section

namespace Spec

open Real Props

theorem WithinFactor.append {k s m : ℝ} {cs cs' : List SF.Control} (h : WithinFactor k s m cs) (h' : WithinFactor k s m cs') :
    WithinFactor k s m (cs ++ cs') := by
  unfold WithinFactor
  rw [List.map_append]
  exact ⟨h.1.append h'.1, h.2.append h'.2⟩

theorem InLimits.factor {k s m : ℝ} {cs : List SF.Control} (h : InLimits k s cs) (hm : 1 ≤ m) (hk : 0 ≤ k) (hs : 0 ≤ s) :
    WithinFactor k s m cs := limits_up hm hk hs h

/-- Clothoids that turn by one radian at most and are long compared to the error. -/
theorem slack_of {k s E r : ℝ} (H : Rng k s) (hks : k ^ 2 ≤ 2 * s) (hr0 : 0 ≤ r) (hr : r ≤ 1 / 2)
    (hE : E ≤ r * clothoidBound k s) : Slack k s E (1 + 2 * r) := by
  refine ⟨by linarith, .inr fun a a0 _ ha => ?_⟩
  have hA := ccA_pos H.kappa H.sigma H.clothoid
  have hB := ccB_pos H.kappa H.sigma H.clothoid
  have hs := H.sigma
  have ha1 : a ≤ 1 := by
    refine ha.trans ?_
    rw [div_le_one (by positivity)]
    exact hks
  have hcos : 1 / 2 ≤ cos a := by
    have := one_sub_sq_div_two_le_cos (x := a)
    nlinarith
  have hsin : 0 ≤ sin a := sin_nonneg_of_nonneg_of_le_pi a0 (by linarith [pi_gt_three])
  have hch : ccA k s ≤ 2 * (ccA k s * cos a + ccB k s * sin a) := by
    have := mul_nonneg hB.le hsin
    nlinarith
  have h1 : E ≤ r * ccA k s := hE.trans (mul_le_mul_of_nonneg_left (clothoidBound_le H) hr0)
  calc (1 + 2 * r) * E ≤ (1 + 2 * r) * (r * ccA k s) := mul_le_mul_of_nonneg_left h1 (by linarith)
    _ ≤ 2 * (r * ccA k s) := mul_le_mul_of_nonneg_right (by linarith) (by positivity)
    _ = (1 + 2 * r - 1) * ccA k s := by ring
    _ ≤ _ := mul_le_mul_of_nonneg_left hch (by linarith)

section
variable {k s R A d k0 k1 len m : ℝ} {ts : List (SF.Circle × SF.Configuration)} {cs : List SF.Control} {p q : Config} {t : ℕ}
  {pm1 pm2 : Bool}

theorem CC00.PathOk.limitsUp (h : PathOk k s R A SF.epsilon d cs p q len t) (hk : 0 ≤ k) (hs : 0 ≤ s) (hR : 0 ≤ R)
    (hm : Slack k s (SF.epsilon * (1 + R)) m) : WithinFactor k s m cs := by
  have he : (0:ℝ) < SF.epsilon := by norm_num [SF.epsilon]
  have hRe := mul_nonneg he.le hR
  unfold PathOk at h
  split at h
  · obtain ⟨rfl, _⟩ := h
    exact line_factor hm.1 hk hs 0
  · obtain ⟨⟨x, rfl⟩, _⟩ := h
    exact line_factor hm.1 hk hs x
  · refine h.1.limitsUp m (hm.mono h.1.nonneg ?_)
    unfold cenErr
    split <;> linarith

theorem PlanOk.limitsUp (h : PlanOk k s d k0 k1 ts cs p q len t) (hk : 0 ≤ k) (hs : 0 ≤ s)
    (hm : Slack k s (SF.epsilon * (1 + 1 / k)) m) : WithinFactor k s m cs := by
  cases h with
  | empty hc => subst hc; exact line_factor hm.1 hk hs 0
  | leg _ hE _ _ h =>
    exact (h.track SF.epsilon (by norm_num [SF.epsilon]) fun x _ => tiny_le x.1 x.2).limitsUp m (hm.mono h.nonneg hE)

theorem CcOk.limitsUp (h : CcOk k s ts cs p q len t) (hk : 0 ≤ k) (hs : 0 ≤ s)
    (hm : Slack k s (SF.epsilon * missBound k s) m) : WithinFactor k s m cs := by
  cases h with
  | empty hc => subst hc; exact line_factor hm.1 hk hs 0
  | line hc => subst hc; exact line_factor hm.1 hk hs _
  | leg _ hE _ _ h =>
    exact (h.track SF.epsilon (by norm_num [SF.epsilon]) fun x _ => tiny_le x.1 x.2).limitsUp m (hm.mono h.nonneg hE)

end

end Spec
