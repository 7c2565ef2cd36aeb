import Verif.Lemmas.PmEmpty
import Verif.Lemmas.Cc00Far
import Verif.Spec.Predict

/-!
# CC-Dubins: the planners between the predicted states
-/

noncomputable section

namespace Spec

open Real Props
open CC00 (startOf cfg_startOf)

theorem rounded_small {K x : ℝ} (h : |x| < SF.epsilon) : rounded K x = 0 := by
  rw [rounded, if_pos (by norm_num [SF.epsilon] at h; exact h)]

theorem rounded_side {K x : ℝ} {l : Bool} (h : ¬ |x| < SF.epsilon) (hl : Toward l x) :
    sideCurvature K l = rounded K x := by
  have h' : ¬ |x| < 1 / 10000 := by norm_num [SF.epsilon] at h; norm_num; exact h
  rw [rounded, if_neg h']
  cases l
  · have hx : x ≤ 0 := by simpa [Toward] using hl
    have : ¬ 0 ≤ x := by
      intro h0
      have : x = 0 := le_antisymm hx h0
      rw [this] at h'; norm_num at h'
    rw [if_neg this]; rfl
  · have hx : 0 ≤ x := by simpa [Toward] using hl
    rw [if_pos hx]; rfl

/-- What the planners guarantee between two predicted states. -/
structure Mid (sp : SF.HCSpace) (d : ℝ) (opp far : Prop) (a b : SF.State) (cs : List SF.Control) (len : ℝ) : Prop where
  ne : cs ≠ []
  length : |totalLength (cs.map seg) - len| ≤ SF.epsilon * (1 + 4 * radiusBound sp.kappa sp.sigma)
  way : SF.epsilon * (1 + radiusBound sp.kappa sp.sigma) ≤ ccA sp.kappa sp.sigma → OneWay d cs
  bound : len ≤ dist2 a b + 40 * (sp.kappa / sp.sigma) + 60 / sp.kappa
  leads : ¬ opp → Leads (cs.map seg) (pose a) (pose b) len
    (SF.epsilon * (2 + 7 * radiusBound sp.kappa sp.sigma + 4 * totalLength (cs.map seg))) (3 * SF.epsilon)
    (SF.epsilon * (1 + 4 * radiusBound sp.kappa sp.sigma))
  flat : ¬ opp → ∀ c ∈ cs, c.sigma = 0 → c.kappa = 0 ∨ |c.kappa| > SF.epsilon
  cont : ¬ opp → far → CurvatureContinuous (rounded sp.kappa a.kappa) (cs.map seg) (rounded sp.kappa b.kappa)

/-- States too far apart for the shortcuts of the planners. -/
def FarPair (sp : SF.HCSpace) (a b : SF.State) : Prop := 2 * radiusBound sp.kappa sp.sigma + SF.epsilon ≤ dist2 a b

section
variable {sp : SF.HCSpace} {a b : SF.State} {cs : List SF.Control} {len d k0 k1 : ℝ} {t : ℕ}
  {ts : List (SF.Circle × SF.Configuration)}

theorem way_le {k s : ℝ} (H : Rng k s) (h : SF.epsilon * (1 + radiusBound k s) ≤ ccA k s) :
    SF.epsilon * (1 + 1 / k) ≤ ccA k s := by
  have := H.inv_le
  have := H.pos
  have : 0 < 1 / k := by positivity
  refine le_trans ?_ h
  refine mul_le_mul_of_nonneg_left ?_ (by norm_num [SF.epsilon])
  linarith

theorem pose_dist (a b : SF.State) : (pose a).dist (pose b) = dist2 a b := by
  rw [Config.dist_comm]; rfl

/-- From the summary of the planners with curvature at the ends. -/
theorem Mid.of_plan {opp : Prop} (H : Rng sp.kappa sp.sigma) (hb : Basic sp.kappa sp.sigma d ts cs len)
    (hlen : len ≤ dist2 a b + 40 * (sp.kappa / sp.sigma) + 60 / sp.kappa)
    (hok : opp ∨ PlanOk sp.kappa sp.sigma d k0 k1 ts cs (pose a) (pose b) len t)
    (h0 : k0 = rounded sp.kappa a.kappa) (h1 : FarPair sp a b → k1 = rounded sp.kappa b.kappa) :
    Mid sp d opp (FarPair sp a b) a b cs len := by
  have hd : 0 ≤ dist2 a b := sqrt_nonneg _
  have he : (0:ℝ) < SF.epsilon := by norm_num [SF.epsilon]
  refine ⟨hb.ne, hb.length, fun hA => hb.way (way_le H hA), by linarith, fun ho => ?_, fun ho => ?_, fun ho hf => ?_⟩
  · refine ((hok.resolve_left ho).leads H).mono ?_ le_rfl le_rfl
    have := mul_nonneg he.le (totalLength_nonneg (cs.map seg))
    linarith
  · exact (hok.resolve_left ho).flat
  · have hok := hok.resolve_left ho
    rw [← h0, ← h1 hf]
    refine hok.cont ?_
    rintro rfl
    cases hok with
    | empty _ hw _ =>
      have := hw.1
      rw [pose_dist] at this
      have hR := H.inv_le
      have := H.pos
      have : 0 < 1 / sp.kappa := by positivity
      unfold FarPair at hf
      linarith
    | leg ht => omega

end

namespace CC

open SF.CC

variable {sp : SF.HCSpace}

theorem mid (h : InRange sp.kappa sp.sigma) (a b : SF.State) (hfar : dist2 a b ≤ 10 ^ 100) :
    ∃ cs len, (controls_planners sp).call a b = some cs ∧ (distance_planners sp).call a b = some len ∧
      Mid sp (sg sp.forwards) (Props.CC.OpposedPair sp a b) (FarPair sp a b) a b cs len := by
  have H := h.rng
  have he : SF.epsilon = 1 / 10000 := by norm_num [SF.epsilon]
  by_cases ha : |a.kappa| < SF.epsilon <;> by_cases hb : |b.kappa| < SF.epsilon
  · obtain ⟨cs, hcs, hok, hne, _⟩ := Spec.CC00.plan h a b hfar (tau := SF.epsilon) (by norm_num [SF.epsilon])
      fun x _ => tiny_le _ _
    have hR := Spec.CC00.radius_le' h
    have hR0 := Spec.CC00.radius_nonneg h
    have he0 : (0:ℝ) < SF.epsilon := by norm_num [SF.epsilon]
    have hl := (hok.leads hR0).congr (cfg_startOf a) (cfg_startOf b)
    have m := mul_le_mul_of_nonneg_left hR he0.le
    have m0 := mul_nonneg he0.le (hR0.trans hR)
    have hlen : SF.CC00.get_distance sp a b ≤ dist2 a b + 40 * (sp.kappa / sp.sigma) + 60 / sp.kappa := by
      refine (Spec.CC00.distance_le a b h.kappa h.sigma h.clothoid).trans ?_
      have hk0 := H.pos
      have hs0 := H.sigma
      have : 0 < 1 / sp.kappa := by positivity
      have : 0 < sp.kappa / sp.sigma := by positivity
      have e3 : 2 * π / sp.kappa ≤ 8 * (1 / sp.kappa) := by
        rw [show 2 * π / sp.kappa = 2 * π * (1 / sp.kappa) by ring]
        nlinarith [pi_lt_four]
      rw [radiusBound, show 2 / sp.kappa = 2 * (1 / sp.kappa) by ring] at hR
      rw [turnBound, show 60 / sp.kappa = 60 * (1 / sp.kappa) by ring]
      linarith
    refine ⟨cs, SF.CC00.get_distance sp a b, ?_, ?_, hne, ?_, fun hA => hok.oneWay hR0 ?_, hlen, fun _ => ?_,
      fun _ => hok.flat, fun _ _ => ?_⟩
    · rw [SF.SubPlanners.call, if_pos ha, if_pos hb]; exact hcs
    · rw [SF.SubPlanners.call, if_pos ha, if_pos hb]; rfl
    · refine hl.length.trans ?_; linarith
    · linarith
    · refine hl.mono ?_ le_rfl ?_ <;> linarith
    · rw [rounded_small ha, rounded_small hb]; exact hok.cont
  · obtain ⟨l, t, r, cs, hT, _, hcs, hd, hlen, hbas, hok⟩ := Spec.CC0pm.plan h a b hfar
    refine ⟨cs, r.length, ?_, ?_, ?_⟩
    · rw [SF.SubPlanners.call, if_pos ha, if_neg hb]; exact hcs
    · rw [SF.SubPlanners.call, if_pos ha, if_neg hb]; exact hd
    · exact Mid.of_plan H hbas hlen (hok.imp_left fun ho => .inl (by rw [← he]; exact ⟨ha, hb, ho⟩))
        (rounded_small ha).symm fun _ => rounded_side hb hT
  · obtain ⟨l, t, r, cs, hT, _, hcs, hd, hlen, hbas, hok⟩ := Spec.CCpm0.plan h a b hfar
    refine ⟨cs, r.length, ?_, ?_, ?_⟩
    · rw [SF.SubPlanners.call, if_neg ha, if_pos hb]; exact hcs
    · rw [SF.SubPlanners.call, if_neg ha, if_pos hb]; exact hd
    · exact Mid.of_plan H hbas hlen (hok.imp_left fun ho => .inr (by rw [← he]; exact ⟨ha, hb, ho⟩))
        (rounded_side ha hT) fun _ => (rounded_small hb).symm
  · obtain ⟨l1, l2, t, r, cs, hT1, hT2, _, hcs, hd, hlen, hok, h2⟩ := Spec.CCpmpm.plan h a b hfar
    refine ⟨cs, r.length, ?_, ?_, ?_⟩
    · rw [SF.SubPlanners.call, if_neg ha, if_neg hb]; exact hcs
    · rw [SF.SubPlanners.call, if_neg ha, if_neg hb]; exact hd
    · refine Mid.of_plan H (hok.basic H) hlen (.inr hok) (rounded_side ha hT1) fun hf => ?_
      rw [if_neg, rounded_side hb hT2]
      intro e
      have h3 := h2 e
      have hR := H.inv_le
      have := H.pos
      have : 0 < 1 / sp.kappa := by positivity
      unfold FarPair at hf
      rw [show 2 / sp.kappa = 2 * (1 / sp.kappa) by ring] at h3
      linarith

end CC

end Spec
