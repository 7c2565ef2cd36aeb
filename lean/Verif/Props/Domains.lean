import Verif.Lemmas.DomainsWitness

/-!
# Operations inside their domain (C117)
-/

noncomputable section

namespace Props

open Real SF Spec Spec.Dom
open Spec.CC00 (CircOk circOk_at)

/-- **C117, CC-Dubins.** For any two states, planning with CC00-, CC0pm-, CCpm0- and CCpmpm-Dubins divides only by numbers different from
zero, takes only square roots of numbers that are not negative, and calls `asin` only on `[-1, 1]`: in all candidates, not only the shortest
one. -/
theorem C117_cc_dubins {sp : HCSpace} (H : InRange sp.kappa sp.sigma) (s1 s2 : State) :
    NoDomainError (CC00.distance_ops sp s1 s2) ∧ NoDomainError (CC0pm.distance_ops sp s1 s2) ∧
    NoDomainError (CCpm0.distance_ops sp s1 s2) ∧ NoDomainError (CCpmpm.distance_ops sp s1 s2) :=
  ⟨cc00_distance H.rng s1 s2, cc0pm_distance H.rng s1 s2, ccpm0_distance H.rng s1 s2, ccpmpm_distance H.rng s1 s2⟩

/-- **C117, HC-Reeds-Shepp.** Partial: the same for HC00-, HC0pm-, HCpm0- and HCpmpm-Reeds-Shepp if the circles are narrow, their radius
smaller than `2 / kappa`; without that it is false, see `C117_hc_counterexample`. -/
theorem C117_hc_partial (pm1 pm2 : Bool) {sp : HCSpace} (H : InRange sp.kappa sp.sigma) (hR : sp.param.radius < 2 / sp.kappa) (s1 s2 : State) :
    NoDomainError (HcRs.distance_ops pm1 pm2 sp s1 s2) := by
  have hR : ccR sp.kappa sp.sigma < 2 / sp.kappa := (radius_param H.rng) ▸ hR
  exact fun o ho => (hc_distance H.rng s1 s2 pm1 pm2 ho).resolve_right fun h => h.1 hR

/-- In particular if the sharpness is at least the square of the curvature. -/
theorem C117_hc_sharp_partial (pm1 pm2 : Bool) {sp : HCSpace} (H : InRange sp.kappa sp.sigma) (h : sp.kappa ^ 2 ≤ sp.sigma) (s1 s2 : State) :
    NoDomainError (HcRs.distance_ops pm1 pm2 sp s1 s2) :=
  C117_hc_partial pm1 pm2 H ((radius_param H.rng).trans_lt (ccR_lt_two H.rng h)) s1 s2

/-- Whatever the parameters, only the operations of `TcTTcT_tangent_circles` can be undefined. -/
theorem C117_hc_only_TcTTcT (pm1 pm2 : Bool) {sp : HCSpace} (H : InRange sp.kappa sp.sigma) (s1 s2 : State) {o : Op}
    (ho : o ∈ HcRs.distance_ops pm1 pm2 sp s1 s2) (hu : ¬ Defined o) :
    ∃ i j, HcRs.TcTTcT_exists sp.param (scratch (HcRs.end_circle pm1 sp s1 i) (HcRs.end_circle pm2 sp s2 j))
        (HcRs.end_circle pm1 sp s1 i) (HcRs.end_circle pm2 sp s2 j) ∧
      o ∈ HcRs.TcTTcT_ops sp.param (scratch (HcRs.end_circle pm1 sp s1 i) (HcRs.end_circle pm2 sp s2 j)) (HcRs.end_circle pm1 sp s1 i) :=
  ((hc_distance H.rng s1 s2 pm1 pm2 ho).resolve_left hu).2

/-- **C117 is false for HC-Reeds-Shepp**: with `kappa = 1`, `sigma = 1/10000`, HC00-Reeds-Shepp takes the square root of a negative number
on the way from the origin to a state `radius` behind it, facing backwards. -/
theorem C117_hc_counterexample : ∃ sp : HCSpace, InRange sp.kappa sp.sigma ∧ ∃ s1 s2,
    ¬ NoDomainError (HcRs.distance_ops false false sp s1 s2) := by
  obtain ⟨x, hx, h⟩ := wit_bad
  refine ⟨flat, ?_, _, _, fun hn => absurd (hn _ h) (not_le.2 hx)⟩
  constructor <;> norm_num [flat]

/-- **C117, Reeds-Shepp.** The word functions call `sqrt`, `asin` and `acos` only where these are defined. -/
theorem C117_reeds_shepp (x y phi : ℝ) : NoDomainError (word_ops x y phi) := words_nd x y phi

/-- **C117, integration.** Whatever the state, the control and the step, a step of the integration has no undefined operation. -/
theorem C117_integrate (state : State) (control : Control) (step : ℝ) :
    NoDomainError (integrate_ODE_ops state) ∧ NoDomainError (hc_integrate_ODE_ops state control step) :=
  ⟨nd_if fun h => nd_one (pos_of_gt_eps h),
    nd_ite (fun h => clothoid_nd (pos_of_gt_eps h) _ _) (nd_if fun h => nd_one (pos_of_gt_eps h))⟩

/-- **C117, constructor.** The constructor of the HC and CC spaces has none. -/
theorem C117_space {kappa sigma : ℝ} (H : InRange kappa sigma) : NoDomainError (space_ops kappa sigma) := space_nd H.rng

/-- **C117, turns.** Nor has a turn on a circle of the space, to whatever configuration. -/
theorem C117_turns {sp : HCSpace} (H : InRange sp.kappa sp.sigma) (start q : Configuration) (left forward regular order : Bool) :
    NoDomainError (Move.ops (.cc (circleAt start left forward regular sp.param) q order)) ∧
    NoDomainError (Move.ops (.hc (circleAt start left forward regular sp.param) q order)) :=
  ⟨move_nd H.rng.kappa H.rng.sigma (at_cc H.rng), move_nd H.rng.kappa H.rng.sigma (at_hc H.rng)⟩

section Examples

/-- A space with `kappa = sigma = 1`. -/
private def unitSpace : HCSpace := ⟨1, 1, 1 / 10, true⟩

private theorem unit_range : InRange unitSpace.kappa unitSpace.sigma := by constructor <;> norm_num [unitSpace]

/-- The hypotheses of the planner theorems hold for `kappa = sigma = 1`. -/
example : InRange unitSpace.kappa unitSpace.sigma ∧ unitSpace.kappa ^ 2 ≤ unitSpace.sigma ∧ unitSpace.param.radius < 2 / unitSpace.kappa :=
  ⟨unit_range, by norm_num [unitSpace], (radius_param unit_range.rng).trans_lt (ccR_lt_two unit_range.rng (by norm_num [unitSpace]))⟩

example (s1 s2 : State) : NoDomainError (HcRs.distance_ops true false unitSpace s1 s2) :=
  C117_hc_sharp_partial true false unit_range (by norm_num [unitSpace]) s1 s2

/-- Lists that are not empty: steps on an arc and on a clothoid. -/
example : Op.div 1 ∈ integrate_ODE_ops ⟨0, 0, 0, 1, 1⟩ ∧ Op.sqrt |(1:ℝ)| ∈ hc_integrate_ODE_ops ⟨0, 0, 0, 1, 1⟩ ⟨1, 0, 1⟩ 1 := by
  refine ⟨?_, ?_⟩
  · unfold integrate_ODE_ops; rw [if_pos (by norm_num [epsilon])]; exact List.mem_singleton.2 rfl
  · unfold hc_integrate_ODE_ops; rw [if_pos (by norm_num [epsilon])]; simp [end_of_clothoid_ops]

/-- One of the words calls `acos` for the goal `(3, 0, 0)`. -/
example : Op.acos ((20 - 3 * 3 - 2 * 2) / 16) ∈ word_ops 3 0 0 := by
  unfold word_ops
  have : rhoLpRumLumRp 3 0 0 = (20 - 3 * 3 - 2 * 2) / 16 := by unfold rhoLpRumLumRp; norm_num
  simp only [this]
  norm_num

/-- A division by zero is not defined, nor is `asin` above 1. -/
example : ¬ NoDomainError [.div 0] ∧ ¬ NoDomainError [.asin 2] :=
  ⟨fun h => h _ (List.mem_singleton.2 rfl) rfl, fun h => absurd (h _ (List.mem_singleton.2 rfl)).2 (by norm_num)⟩

end Examples

end Props
