import Verif.Lemmas.Calls
import Verif.Props.CcDubins

/-!
# Debug assertions of the turn functions (C90)
-/

noncomputable section

namespace Props

open Real SF Spec Spec.Calls

/-- **C90, CC-Dubins.** For any two states and any parameters, CC00-, CC0pm-, CCpm0- and CCpmpm-Dubins call the turn functions only with
configurations of the fitting curvature, both while computing the lengths of all candidates and while generating the controls of the
shortest one, so none of the assertions fails. -/
theorem C90_cc_dubins_calls (sp : HCSpace) (s1 s2 : State) :
    (CallsOk (CC00.distance_calls sp s1 s2) ∧ ∀ l, CC00.control_calls sp s1 s2 = some l → CallsOk l) ∧
    (CallsOk (CC0pm.distance_calls sp s1 s2) ∧ ∀ l, CC0pm.control_calls sp s1 s2 = some l → CallsOk l) ∧
    (CallsOk (CCpm0.distance_calls sp s1 s2) ∧ ∀ l, CCpm0.control_calls sp s1 s2 = some l → CallsOk l) ∧
    (CallsOk (CCpmpm.distance_calls sp s1 s2) ∧ ∀ l, CCpmpm.control_calls sp s1 s2 = some l → CallsOk l) :=
  ⟨⟨(cc00_distance_fine sp s1 s2).ok, fun _ h => (cc00_control_fine h).ok⟩,
    ⟨(cc0pm_distance_fine sp s1 s2).ok, fun _ h => (cc0pm_control_fine h).ok⟩,
    ⟨(ccpm0_distance_fine sp s1 s2).ok, fun _ h => (ccpm0_control_fine h).ok⟩,
    ⟨(ccpmpm_distance_fine sp s1 s2).ok, fun _ h => (ccpmpm_control_fine h).ok⟩⟩

/-- **C90, HC-Reeds-Shepp.** The same for HC00-, HC0pm-, HCpm0- and HCpmpm-Reeds-Shepp. -/
theorem C90_hc_calls (pm1 pm2 : Bool) (sp : HCSpace) (s1 s2 : State) :
    CallsOk (HcRs.distance_calls pm1 pm2 sp s1 s2) ∧ ∀ l, HcRs.control_calls pm1 pm2 sp s1 s2 = some l → CallsOk l :=
  ⟨(hc_distance_fine pm1 pm2 sp s1 s2).ok,
    fun _ h => Fine.ok fun mv hmv => hc_distance_fine pm1 pm2 sp s1 s2 mv (hc_control_sub h hmv)⟩

/-- **C90, CC00-Reeds-Shepp.** The same for CC00-Reeds-Shepp. -/
theorem C90_cc_rs_calls (sp : HCSpace) (s1 s2 : State) :
    CallsOk (CcRs.distance_calls sp s1 s2) ∧ CallsOk (CcRs.control_calls sp s1 s2) :=
  ⟨(cc_distance_fine sp s1 s2).ok, Fine.ok fun mv hmv => cc_distance_fine sp s1 s2 mv (cc_control_sub sp s1 s2 hmv)⟩

/-- The lists are the calls made: unless start and goal coincide (type E, where the controls are the one empty control), `get_controls`
returns exactly what the listed calls append, and is undefined exactly where the list is. -/
theorem C90_controls_of_calls (pm1 pm2 : Bool) (sp : HCSpace) (s1 s2 : State) :
    ((CC00.cc00_dubins sp s1 s2).type ≠ cc_dubins.E →
      CC00.get_controls sp s1 s2 = (CC00.control_calls sp s1 s2).map (·.flatMap Move.controls)) ∧
    ((∀ p, CC0pm.cc0pm_dubins sp s1 s2 = some p → p.type ≠ cc_dubins.E) →
      CC0pm.get_controls sp s1 s2 = (CC0pm.control_calls sp s1 s2).map (·.flatMap Move.controls)) ∧
    ((∀ p, CCpm0.ccpm0_dubins sp s1 s2 = some p → p.type ≠ cc_dubins.E) →
      CCpm0.get_controls sp s1 s2 = (CCpm0.control_calls sp s1 s2).map (·.flatMap Move.controls)) ∧
    ((∀ p, CCpmpm.ccpmpm_dubins sp s1 s2 = some p → p.type ≠ cc_dubins.E) →
      CCpmpm.get_controls sp s1 s2 = (CCpmpm.control_calls sp s1 s2).map (·.flatMap Move.controls)) ∧
    ((∀ p, HcRs.reeds_shepp pm1 pm2 sp s1 s2 = some p → p.type ≠ hc_cc_rs.E) →
      HcRs.get_controls pm1 pm2 sp s1 s2 = (HcRs.control_calls pm1 pm2 sp s1 s2).map (·.flatMap Move.controls)) ∧
    ((CcRs.reeds_shepp sp s1 s2).type ≠ hc_cc_rs.E → (CcRs.reeds_shepp sp s1 s2).lost = false →
      CcRs.get_controls sp s1 s2 = some ((CcRs.control_calls sp s1 s2).flatMap Move.controls)) := by
  refine ⟨fun h => cc00_link h, fun h => ?_, fun h => ?_, fun h => ?_, fun h => ?_, fun h hl => ?_⟩
  · unfold CC0pm.get_controls CC0pm.control_calls
    cases hp : CC0pm.cc0pm_dubins sp s1 s2 with
    | none => rfl
    | some p => exact cc0pm_link (h p hp)
  · unfold CCpm0.get_controls CCpm0.control_calls
    cases hp : CCpm0.ccpm0_dubins sp s1 s2 with
    | none => rfl
    | some p => exact ccpm0_link (h p hp)
  · unfold CCpmpm.get_controls CCpmpm.control_calls
    cases hp : CCpmpm.ccpmpm_dubins sp s1 s2 with
    | none => rfl
    | some p => exact ccpmpm_link (h p hp)
  · unfold HcRs.get_controls HcRs.control_calls
    cases hp : HcRs.reeds_shepp pm1 pm2 sp s1 s2 with
    | none => rfl
    | some p =>
      show some (HcRs.path_controls p) = some _
      rw [HcRs.path_controls, if_neg (h p hp)]
  · show CcRs.path_controls _ = _
    rw [CcRs.path_controls, hl, if_neg (by simp), if_neg h]
    rfl

/-- Non-trivial: the calls for the goal 100 behind the start are a turn, a line and a turn. -/
example : ∃ c1 c2 q1 q2, CC00.control_calls ⟨1, 1, 1, true⟩ ⟨0, 0, 0, 0, 0⟩ ⟨-100, 0, 0, 0, 0⟩ =
    some [.cc c1 q1 true, .line q1 q2, .cc c2 q2 false] := by
  have ht := (Spec.CC00.back_path (sp := ⟨1, 1, 1, true⟩) rfl rfl rfl (s1 := ⟨0, 0, 0, 0, 0⟩) (s2 := ⟨-100, 0, 0, 0, 0⟩) rfl rfl).1
  have hr : InRange (HCSpace.mk 1 1 1 true).kappa (HCSpace.mk 1 1 1 true).sigma := by constructor <;> norm_num
  obtain ⟨_, _, cs, hcs, _⟩ := C38_cc00_always (sp := ⟨1, 1, 1, true⟩) hr ⟨0, 0, 0, 0, 0⟩ ⟨-100, 0, 0, 0, 0⟩ (by
    rw [dist2, show ((-100:ℝ) - 0) ^ 2 + (0 - 0) ^ 2 = 100 ^ 2 by norm_num, sqrt_sq (by norm_num)]
    norm_num)
  have hl := (C90_controls_of_calls true true ⟨1, 1, 1, true⟩ ⟨0, 0, 0, 0, 0⟩ ⟨-100, 0, 0, 0, 0⟩).1 (by rw [ht]; decide)
  rw [hl] at hcs
  obtain ⟨l, hl, -⟩ := Option.map_eq_some_iff.1 hcs
  unfold CC00.control_calls CC00.path_calls at hl ⊢
  rw [ht] at hl ⊢
  obtain ⟨c1, h1, hl⟩ := Option.bind_eq_some_iff.1 hl
  obtain ⟨q1, h2, hl⟩ := Option.bind_eq_some_iff.1 hl
  obtain ⟨q2, h3, hl⟩ := Option.bind_eq_some_iff.1 hl
  obtain ⟨c2, h4, hl⟩ := Option.map_eq_some_iff.1 hl
  refine ⟨c1, c2, q1, q2, ?_⟩
  show (CC00.cc00_dubins _ _ _).row.cstart.bind _ = _
  rw [h1]
  show (CC00.cc00_dubins _ _ _).row.qi1.bind _ = _
  rw [h2]
  show (CC00.cc00_dubins _ _ _).row.qi2.bind _ = _
  rw [h3]
  show (CC00.cc00_dubins _ _ _).row.cend.map _ = _
  rw [h4]
  rfl

end Props
