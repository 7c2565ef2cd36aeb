import Verif.Lemmas.Dispatch

/-!
# The planners for any curvature agree with the planners for fixed curvatures
-/

noncomputable section

namespace Props

open SF Spec Real

variable {sp : HCSpace} {junk : ℝ} {s1 s2 : State}

/-- What the vehicle does when it is given `cs`: the controls of length zero do nothing. -/
def driven (cs : List Control) : List Control :=
  open Classical in cs.filter fun c => c.delta_s ≠ 0

/-- The possible results `IsControls` are those of `special`, up to controls of length zero. -/
def SameControls (IsControls : List Control → Prop) (special : Option (List Control)) : Prop :=
  (∀ cs, IsControls cs → ∃ cs', special = some cs' ∧ driven cs = driven cs') ∧
    ∀ cs', special = some cs' → ∃ cs, IsControls cs ∧ driven cs = driven cs'

theorem SameControls.of_stay {f : SubPlanners (List Control)} {special : Option (List Control)} (hf : f.call s1 s2 = special)
    (hE : state_equal s1 s2 → special = some empty_controls) :
    SameControls (IsMinControls f [(s1, ⟨0, s1.kappa, 0⟩)] [(s2, ⟨0, s2.kappa, 0⟩)]) special := by
  have e : driven [⟨0, s1.kappa, 0⟩] = driven empty_controls := by simp [driven, empty_controls]
  constructor
  · intro cs h
    rcases (stay_controls cs).1 h with ⟨h1, rfl⟩ | ⟨-, h2⟩
    · exact ⟨_, hE h1, e⟩
    · exact ⟨cs, by rw [← hf, h2], rfl⟩
  · intro cs' h
    by_cases h1 : state_equal s1 s2
    · refine ⟨_, (stay_controls _).2 (Or.inl ⟨h1, rfl⟩), ?_⟩
      rw [hE h1] at h
      rw [← Option.some.inj h, e]
    · exact ⟨cs', (stay_controls _).2 (Or.inr ⟨h1, by rw [hf, h]⟩), rfl⟩

theorem zero_small {k : ℝ} (h : k = 0) : |k| < epsilon := by rw [h]; norm_num [epsilon]

theorem full_large {k K : ℝ} (hK : 1 / 10000 < K) (h : |k| = K) : ¬ |k| < epsilon := by
  rw [h, epsilon]; linarith

theorem full_stays {k K : ℝ} (h : |k| = K) : |k| < epsilon ∨ K - |k| < epsilon := by
  right; rw [h, sub_self]; norm_num [epsilon]

theorem full_sign {K : ℝ} (hK : 1 / 10000 < K) (h1 : |s1.kappa| = K) (h2 : |s2.kappa| = K) (h : state_equal s1 s2) :
    s1.kappa < 0 ↔ s2.kappa < 0 := by
  have := abs_le.1 (state_equal_kappa h)
  rw [epsilon] at this
  rcases abs_choice s1.kappa with a | a <;> rcases abs_choice s2.kappa with b | b <;> constructor <;> intro <;> linarith

theorem mixed_apart {K : ℝ} (hK : 1 / 10000 < K) (h1 : s1.kappa = 0) (h2 : |s2.kappa| = K) : ¬ state_equal s1 s2 := by
  intro h
  have := state_equal_kappa h
  rw [h1, sub_zero, h2, epsilon] at this
  linarith

theorem mixed_apart' {K : ℝ} (hK : 1 / 10000 < K) (h1 : |s1.kappa| = K) (h2 : s2.kappa = 0) : ¬ state_equal s1 s2 := by
  intro h
  have := state_equal_kappa h
  rw [h2, zero_sub, abs_neg, h1, epsilon] at this
  linarith

/-! ## C109 -/

/-- **C109, CC-Dubins, zero curvature at both ends.** -/
theorem C109_cc_00 (h1 : s1.kappa = 0) (h2 : s2.kappa = 0) :
    CC.get_distance sp junk s1 s2 = some (CC00.get_distance sp s1 s2) ∧
      SameControls (CC.IsControls sp junk s1 s2) (CC00.get_controls sp s1 s2) := by
  have e1 := zero_small h1
  have e2 := zero_small h2
  rw [CC.get_distance, show CC.IsControls sp junk s1 s2 = IsMinControls _ _ _ from funext fun _ => rfl, CC.start_states, CC.end_states,
    Spec.CC.predict_stay (Or.inl e1), Spec.CC.predict_stay (Or.inl e2)]
  have c : ∀ {α} (f : SubPlanners α), f.call s1 s2 = f.p00 s1 s2 := fun f => by rw [SubPlanners.call, if_pos e1, if_pos e2]
  exact ⟨by rw [stay_distance fun h => by rw [c]; exact congrArg some (Spec.CC00.equal_plan sp h).1, c]; rfl,
    .of_stay (c _) fun h => (Spec.CC00.equal_plan sp h).2⟩

/-- **C109, CC-Dubins, from zero to maximal curvature.** -/
theorem C109_cc_0pm (hK : 1 / 10000 < sp.kappa) (h1 : s1.kappa = 0) (h2 : |s2.kappa| = sp.kappa) :
    CC.get_distance sp junk s1 s2 = CC0pm.get_distance sp s1 s2 ∧
      SameControls (CC.IsControls sp junk s1 s2) (CC0pm.get_controls sp s1 s2) := by
  have e1 := zero_small h1
  have e2 := full_large hK h2
  have hne := mixed_apart hK h1 h2
  rw [CC.get_distance, show CC.IsControls sp junk s1 s2 = IsMinControls _ _ _ from funext fun _ => rfl, CC.start_states, CC.end_states,
    Spec.CC.predict_stay (Or.inl e1), Spec.CC.predict_stay (full_stays h2)]
  have c : ∀ {α} (f : SubPlanners α), f.call s1 s2 = f.p0pm s1 s2 := fun f => by rw [SubPlanners.call, if_pos e1, if_neg e2]
  exact ⟨by rw [stay_distance fun h => absurd h hne, c]; rfl, .of_stay (c _) fun h => absurd h hne⟩

/-- **C109, CC-Dubins, from maximal to zero curvature.** -/
theorem C109_cc_pm0 (hK : 1 / 10000 < sp.kappa) (h1 : |s1.kappa| = sp.kappa) (h2 : s2.kappa = 0) :
    CC.get_distance sp junk s1 s2 = CCpm0.get_distance sp s1 s2 ∧
      SameControls (CC.IsControls sp junk s1 s2) (CCpm0.get_controls sp s1 s2) := by
  have e1 := full_large hK h1
  have e2 := zero_small h2
  have hne := mixed_apart' hK h1 h2
  rw [CC.get_distance, show CC.IsControls sp junk s1 s2 = IsMinControls _ _ _ from funext fun _ => rfl, CC.start_states, CC.end_states,
    Spec.CC.predict_stay (full_stays h1), Spec.CC.predict_stay (Or.inl e2)]
  have c : ∀ {α} (f : SubPlanners α), f.call s1 s2 = f.ppm0 s1 s2 := fun f => by rw [SubPlanners.call, if_neg e1, if_pos e2]
  exact ⟨by rw [stay_distance fun h => absurd h hne, c]; rfl, .of_stay (c _) fun h => absurd h hne⟩

/-- **C109, CC-Dubins, maximal curvature at both ends.** -/
theorem C109_cc_pmpm (hK : 1 / 10000 < sp.kappa) (h1 : |s1.kappa| = sp.kappa) (h2 : |s2.kappa| = sp.kappa) :
    CC.get_distance sp junk s1 s2 = CCpmpm.get_distance sp s1 s2 ∧
      SameControls (CC.IsControls sp junk s1 s2) (CCpmpm.get_controls sp s1 s2) := by
  have e1 := full_large hK h1
  have e2 := full_large hK h2
  have E := fun h => Spec.CCpmpm.equal_plan sp h (full_sign hK h1 h2 h)
  rw [CC.get_distance, show CC.IsControls sp junk s1 s2 = IsMinControls _ _ _ from funext fun _ => rfl, CC.start_states, CC.end_states,
    Spec.CC.predict_stay (full_stays h1), Spec.CC.predict_stay (full_stays h2)]
  have c : ∀ {α} (f : SubPlanners α), f.call s1 s2 = f.ppmpm s1 s2 := fun f => by rw [SubPlanners.call, if_neg e1, if_neg e2]
  exact ⟨by rw [stay_distance fun h => by rw [c]; exact (E h).1, c]; rfl, .of_stay (c _) fun h => (E h).2⟩

/-- **C109, HC-Reeds-Shepp.** `pm1` and `pm2` tell which ends have maximal curvature; the planners are HC00 (`false false`), HC0pm
(`false true`), HCpm0 (`true false`) and HCpmpm (`true true`). -/
theorem C109_hc (hK : 1 / 10000 < sp.kappa) {pm1 pm2 : Bool} (h1 : |s1.kappa| = if pm1 then sp.kappa else 0)
    (h2 : |s2.kappa| = if pm2 then sp.kappa else 0) :
    HC.get_distance sp junk s1 s2 = HcRs.get_distance pm1 pm2 sp s1 s2 ∧
      SameControls (HC.IsControls sp junk s1 s2) (HcRs.get_controls pm1 pm2 sp s1 s2) := by
  have st : ∀ {s : State} {pm : Bool}, |s.kappa| = (if pm then sp.kappa else 0) →
      (|s.kappa| < epsilon ∨ sp.kappa - |s.kappa| < epsilon) ∧ (|s.kappa| < epsilon ↔ pm = false) := by
    intro s pm h
    cases pm
    · have := zero_small (abs_eq_zero.1 h)
      exact ⟨Or.inl this, by simp [this]⟩
    · exact ⟨full_stays h, by simp [not_lt.1 (full_large hK h)]⟩
  obtain ⟨a1, e1⟩ := st h1
  obtain ⟨a2, e2⟩ := st h2
  rw [HC.get_distance, show HC.IsControls sp junk s1 s2 = IsMinControls _ _ _ from funext fun _ => rfl,
    Spec.HC.predict_stay a1, Spec.HC.predict_stay a2]
  have E : state_equal s1 s2 → HcRs.get_distance pm1 pm2 sp s1 s2 = some 0 ∧
      HcRs.get_controls pm1 pm2 sp s1 s2 = some empty_controls := by
    intro h
    cases pm1 <;> cases pm2
    · exact Spec.HcRs.equal_plan false sp h (by rw [abs_eq_zero.1 h1, abs_eq_zero.1 h2])
    · exact absurd h (mixed_apart hK (abs_eq_zero.1 h1) h2)
    · exact absurd h (mixed_apart' hK h1 (abs_eq_zero.1 h2))
    · exact Spec.HcRs.equal_plan true sp h (full_sign hK h1 h2 h)
  have cd : (HC.distance_planners sp).call s1 s2 = HcRs.get_distance pm1 pm2 sp s1 s2 := by
    rw [SubPlanners.call]
    simp only [e1, e2]
    cases pm1 <;> cases pm2 <;> rfl
  have cc : (HC.controls_planners sp).call s1 s2 = HcRs.get_controls pm1 pm2 sp s1 s2 := by
    rw [SubPlanners.call]
    simp only [e1, e2]
    cases pm1 <;> cases pm2 <;> rfl
  exact ⟨by rw [stay_distance fun h => by rw [cd]; exact (E h).1, cd], .of_stay cc fun h => (E h).2⟩

/-- The planners are different: with curvature at the goal the result is that of CC0pm, not that of CC00. -/
example : CC.get_distance ⟨1, 1, 1, true⟩ 0 ⟨0, 0, 0, 0, 0⟩ ⟨9, 2, 1, -1, 0⟩
    = CC0pm.get_distance ⟨1, 1, 1, true⟩ ⟨0, 0, 0, 0, 0⟩ ⟨9, 2, 1, -1, 0⟩ :=
  (C109_cc_0pm (by norm_num) rfl (by norm_num)).1

example : HC.get_distance ⟨1, 1, 1, true⟩ 0 ⟨0, 0, 0, 1, 0⟩ ⟨9, 2, 1, -1, 0⟩
    = HcRs.get_distance true true ⟨1, 1, 1, true⟩ ⟨0, 0, 0, 1, 0⟩ ⟨9, 2, 1, -1, 0⟩ :=
  (C109_hc (pm1 := true) (pm2 := true) (by norm_num) (by norm_num) (by norm_num)).1

/-- Controls of length zero are not driven. -/
example : driven [⟨0, 1, 0⟩, ⟨2, 0, 1⟩, ⟨0, 0, 0⟩] = [⟨2, 0, 1⟩] := by simp [driven]

end Props
