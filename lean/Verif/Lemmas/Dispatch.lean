import Verif.Lemmas.PmEmpty
import Verif.Lemmas.HcPair

/-!
# The planners for any curvature at curvatures that need no prediction
-/

noncomputable section

namespace Spec

open Real Props

/-- Close states are equal for all planners. -/
theorem configuration_equal_of {s1 s2 : SF.State} (h : SF.state_equal s1 s2) {q1 q2 : SF.Configuration}
    (x1 : q1.x = s1.x) (y1 : q1.y = s1.y) (t1 : q1.theta = SF.twopify s1.theta)
    (x2 : q2.x = s2.x) (y2 : q2.y = s2.y) (t2 : q2.theta = SF.twopify s2.theta) : SF.configuration_equal q1 q2 := by
  unfold SF.state_equal at h
  unfold SF.configuration_equal SF.configuration_distance
  rw [x1, y1, t1, x2, y2, t2]
  split_ifs at h with h1 h2 h3
  rw [if_neg h2, if_neg h3]; trivial

theorem state_equal_kappa {s1 s2 : SF.State} (h : SF.state_equal s1 s2) : |s2.kappa - s1.kappa| ≤ SF.epsilon := by
  unfold SF.state_equal at h
  by_contra hc
  rw [if_pos (not_le.1 hc)] at h
  exact h

/-- Two planners behind `call` that agree with `empty_controls` on equal states. -/
theorem stay_distance {f : SF.SubPlanners ℝ} {s1 s2 : SF.State} (hE : SF.state_equal s1 s2 → f.call s1 s2 = some 0) :
    SF.min_distance f [(s1, ⟨0, s1.kappa, 0⟩)] [(s2, ⟨0, s2.kappa, 0⟩)] = f.call s1 s2 := by
  have he : ¬ |(0:ℝ)| > SF.epsilon := by norm_num [SF.epsilon]
  have pd : SF.pair_distance f (s1, ⟨0, s1.kappa, 0⟩) (s2, ⟨0, s2.kappa, 0⟩) = f.call s1 s2 := by
    unfold SF.pair_distance
    by_cases h : SF.state_equal s1 s2
    · rw [if_pos h, hE h]
      simp [SF.subtract_control]
    · rw [if_neg h]
      simp only [if_neg he]
      cases f.call s1 s2 <;> rfl
  unfold SF.min_distance SF.pairs
  simp only [List.flatMap_cons, List.flatMap_nil, List.map_cons, List.map_nil, List.append_nil, List.mapM_cons,
    List.mapM_nil, pd]
  cases f.call s1 s2 <;> simp [List.min?]

theorem stay_controls {f : SF.SubPlanners (List SF.Control)} {s1 s2 : SF.State} (cs : List SF.Control) :
    SF.IsMinControls f [(s1, ⟨0, s1.kappa, 0⟩)] [(s2, ⟨0, s2.kappa, 0⟩)] cs ↔
      (SF.state_equal s1 s2 ∧ cs = [⟨0, s1.kappa, 0⟩]) ∨ (¬ SF.state_equal s1 s2 ∧ f.call s1 s2 = some cs) := by
  have he : ¬ |(0:ℝ)| > SF.epsilon := by norm_num [SF.epsilon]
  unfold SF.IsMinControls SF.pairs
  simp only [List.flatMap_cons, List.flatMap_nil, List.map_cons, List.map_nil, List.append_nil, List.mapM_cons,
    List.mapM_nil]
  unfold SF.pair_controls
  by_cases h : SF.state_equal s1 s2
  · simp only [h, true_and, not_true, false_and, or_false, SF.subtract_control, sub_zero]
    constructor
    · rintro ⟨l, hl, hx, _⟩
      simp at hl
      subst hl
      simpa using hx
    · rintro rfl
      exact ⟨[[⟨0, s1.kappa, 0⟩]], by simp, by simp, by simp⟩
  · simp only [h, false_and, not_false_eq_true, true_and, false_or, if_neg he]
    cases hc : f.call s1 s2 with
    | none => simp
    | some x =>
      simp only [Option.map_some, Option.some.injEq]
      constructor
      · rintro ⟨l, hl, hx, _⟩
        simp at hl
        subst hl
        simp at hx
        exact hx.symm
      · rintro rfl
        exact ⟨[x], by simp, by simp, by simp⟩

namespace CC00

open SF.CC00

theorem equal_plan (sp : SF.HCSpace) {s1 s2 : SF.State} (h : SF.state_equal s1 s2) :
    get_distance sp s1 s2 = 0 ∧ get_controls sp s1 s2 = some SF.empty_controls := by
  have hp : ∀ n, path sp s1 s2 n = ⟨startOf s1, startOf s2, 0, { length := 0 }⟩ := by
    intro n
    have he : SF.configuration_equal (start_circle sp (startOf s1) (n / 2)).start (end_circle sp (startOf s2) (n % 2)).start :=
      configuration_equal_of h rfl rfl rfl rfl rfl rfl
    exact best_single (t := table sp (SF.scratch (start_circle sp (startOf s1) (n / 2)) (end_circle sp (startOf s2) (n % 2)))
      (start_circle sp (startOf s1) (n / 2)) (end_circle sp (startOf s2) (n % 2))) (i := 0) (r := { length := 0 })
      (by unfold table; rw [if_pos he]) (by norm_num) small_dbl _ _
  have : cc00_dubins sp s1 s2 = ⟨startOf s1, startOf s2, 0, { length := 0 }⟩ := by
    rw [cc00_dubins]; exact hp _
  rw [get_distance, get_controls, this]
  exact ⟨rfl, rfl⟩

end CC00

namespace CCpmpm

open SF.CCpmpm

theorem equal_plan (sp : SF.HCSpace) {s1 s2 : SF.State} (h : SF.state_equal s1 s2)
    (hs' : s1.kappa < 0 ↔ s2.kappa < 0) :
    get_distance sp s1 s2 = some 0 ∧ get_controls sp s1 s2 = some SF.empty_controls := by
  have hp : ∀ n < 4, ∀ p, path sp s1 s2 n = some p → p.length = 0 ∧ path_controls p = some SF.empty_controls := by
    intro n hn p hnp
    obtain ⟨hT, hT', rfl⟩ := (path_some hn).1 hnp
    have he : SF.configuration_equal (start_circle sp s1 (n / 2)).start (end_circle sp s2 (n % 2)).start := by
      rw [start_start, end_start]
      unfold curvedOf
      exact configuration_equal_of h rfl rfl rfl rfl rfl rfl
    have := best_single (t := table sp (SF.scratch (start_circle sp s1 (n / 2)) (end_circle sp s2 (n % 2)))
      (start_circle sp s1 (n / 2)) (end_circle sp s2 (n % 2))) (i := 0) (r := { length := 0 })
      (by unfold table; rw [if_pos he]) (by norm_num) small_dbl (start_circle sp s1 (n / 2)).start
      (end_circle sp s2 (n % 2)).start
    rw [circles_dubins_path, this]
    exact ⟨rfl, rfl⟩
  have p0 : ∃ n < 4, ∃ p, path sp s1 s2 n = some p := by
    by_cases h1 : s1.kappa < 0
    · have h2 := hs'.1 h1
      exact ⟨3, by norm_num, _, (path_some (by norm_num)).2 ⟨by simp [Toward, h1.le], by simp [Toward, h2.le], rfl⟩⟩
    · have h2 := mt hs'.2 h1
      exact ⟨0, by norm_num, _, (path_some (by norm_num)).2
        ⟨by simp [Toward, not_lt.1 h1], by simp [Toward, not_lt.1 h2], rfl⟩⟩
  obtain ⟨n0, hn0, p, h0⟩ := p0
  obtain ⟨n, p', hn, hpn, hb, _⟩ := best_of_spec (path := path sp s1 s2) hn0 h0
    (by rw [(hp n0 hn0 p h0).1]; exact small_dbl)
  obtain ⟨e1, e2⟩ := hp n hn p' hpn
  rw [get_distance, get_controls, ccpmpm_dubins, hb]
  exact ⟨by rw [Option.map_some, e1], by rw [Option.bind_some, e2]⟩

end CCpmpm

namespace HcRs

open SF.HcRs

theorem equal_plan (pm : Bool) (sp : SF.HCSpace) {s1 s2 : SF.State} (h : SF.state_equal s1 s2)
    (hs' : s1.kappa < 0 ↔ s2.kappa < 0) :
    get_distance pm pm sp s1 s2 = some 0 ∧ get_controls pm pm sp s1 s2 = some SF.empty_controls := by
  have hp : ∀ n < 16, ∀ p, path pm pm sp s1 s2 n = some p → p.length = 0 ∧ path_controls p = SF.empty_controls := by
    intro n hn p hnp
    obtain ⟨hT, hT', rfl⟩ := path_some.1 hnp
    have he : SF.configuration_equal (end_circle pm sp s1 (n / 4)).start (end_circle pm sp s2 (n % 4)).start := by
      unfold end_circle
      exact configuration_equal_of h rfl rfl rfl rfl rfl rfl
    obtain ⟨c1, h1⟩ : ∃ c, c = end_circle pm sp s1 (n / 4) := ⟨_, rfl⟩
    obtain ⟨c2, h2⟩ : ∃ c, c = end_circle pm sp s2 (n % 4) := ⟨_, rfl⟩
    rw [← h1, ← h2] at he ⊢
    have ht : ∀ i, table pm pm sp (SF.scratch c1 c2) c1 c2 i = if i = SF.hc_cc_rs.E then { length := 0 } else {} := by
      intro i
      unfold table shortcut
      rw [if_pos he]
    have hb := C04_array_index_min (fun i => (table pm pm sp (SF.scratch c1 c2) c1 c2 i).length) SF.nb_hc_cc_rs_paths
      (by norm_num [SF.nb_hc_cc_rs_paths])
    have := hb.2.1 0 (by norm_num [SF.nb_hc_cc_rs_paths])
    have hbE : SF.array_index_min (fun i => (table pm pm sp (SF.scratch c1 c2) c1 c2 i).length) SF.nb_hc_cc_rs_paths
        = SF.hc_cc_rs.E := by
      by_contra hne
      rw [ht _, if_neg hne, ht 0, if_pos (by rfl)] at this
      exact absurd small_dbl (not_lt.2 this)
    have hcp : circles_rs_path pm pm sp c1 c2 = ⟨SF.hc_cc_rs.E, { length := 0 }⟩ := by
      show RSPath.mk _ (table pm pm sp (SF.scratch c1 c2) c1 c2 _) = _
      rw [hbE, ht, if_pos rfl]
    rw [hcp]
    exact ⟨rfl, rfl⟩
  have p0 : ∃ n < 16, ∃ p, path pm pm sp s1 s2 n = some p := by
    by_cases h1 : s1.kappa < 0
    · have h2 := hs'.1 h1
      exact ⟨5, by norm_num, _, path_some.2 ⟨fun _ => by simp [Toward, h1.le], fun _ => by simp [Toward, h2.le], rfl⟩⟩
    · have h2 := mt hs'.2 h1
      exact ⟨0, by norm_num, _, path_some.2
        ⟨fun _ => by simp [Toward, not_lt.1 h1], fun _ => by simp [Toward, not_lt.1 h2], rfl⟩⟩
  obtain ⟨n0, hn0, p, h0⟩ := p0
  obtain ⟨n, p', hn, hpn, hb, _⟩ := best_spec hn0 h0 (by rw [(hp n0 hn0 p h0).1]; exact small_dbl)
  obtain ⟨e1, e2⟩ := hp n hn p' hpn
  rw [get_distance, get_controls, hb]
  exact ⟨by rw [Option.map_some, e1], by rw [Option.map_some, e2]⟩

end HcRs

end Spec
