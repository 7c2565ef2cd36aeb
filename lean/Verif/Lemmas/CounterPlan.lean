import Verif.Lemmas.Counter
import Verif.Lemmas.HcPlan
import Verif.Lemmas.CcRsPlan
import Verif.Props.HcReedsSheppAll
import Verif.Props.CcReedsShepp
import Verif.Props.GetPath

/-!
# The number of controls
-/

noncomputable section

namespace Spec.Count

open SF

theorem straight_len (a b : Configuration) : (straight_controls a b).length = 1 := rfl

theorem rs_len (c : SF.Circle) (q : Configuration) (o : Bool) : (rs_turn_controls c q o).length = 1 := rfl

theorem hc_len (c : SF.Circle) (q : Configuration) (o : Bool) : (hc_turn_controls c q o).length = 2 := by
  cases o <;> rfl

theorem cc_len (c : SF.Circle) (q : Configuration) (o : Bool) : (cc_turn_controls c q o).length ≤ 3 := by
  unfold cc_turn_controls
  simp only
  split_ifs
  · rw [straight_len]; omega
  · rw [straight_len]; omega
  · unfold cc_elementary_controls
    cases c.cc_elementary_sharpness q (c.deflection q) with
    | none => exact le_rfl
    | some x =>
      simp only
      split_ifs
      · simp
      · exact le_rfl
  · exact le_rfl

theorem move_len (m : Move) : m.controls.length ≤ 3 := by
  cases m with
  | cc c q o => exact cc_len c q o
  | hc c q o => exact (hc_len c q o).trans_le (by omega)
  | rs c q o => exact (rs_len c q o).trans_le (by omega)
  | line a b => exact (straight_len a b).trans_le (by omega)

theorem moves_len (l : List Move) : (l.flatMap Move.controls).length ≤ 3 * l.length := by
  induction l with
  | nil => simp
  | cons m l ih =>
    rw [List.flatMap_cons, List.length_append, List.length_cons]
    have := move_len m
    omega

theorem shorter_moves {a b : RSRow} {n : ℕ} (ha : a.moves.length ≤ n) (hb : b.moves.length ≤ n) : (a.shorter b).moves.length ≤ n := by
  unfold RSRow.shorter
  split_ifs <;> assumption

theorem empty_moves (n : ℕ) : ({} : RSRow).moves.length ≤ n := Nat.zero_le _

end Spec.Count

namespace Spec.HcRs

open SF SF.HcRs Spec.Count

theorem family_moves (pm1 pm2 : Bool) (sp : HCSpace) (m : Scratch) (c1 c2 : SF.Circle) (i : ℕ) :
    (family pm1 pm2 sp m c1 c2 i).moves.length ≤ 5 := by
  unfold family
  split
  case h_6 => unfold TST_path; split_ifs <;> exact Nat.le_of_ble_eq_true rfl
  case h_7 => unfold TSTcT_path; split_ifs <;> exact Nat.le_of_ble_eq_true rfl
  case h_8 => unfold TcTST_path; split_ifs <;> exact Nat.le_of_ble_eq_true rfl
  case h_9 => unfold TcTSTcT_path; split_ifs <;> exact Nat.le_of_ble_eq_true rfl
  case h_13 => unfold TcST_path; split_ifs <;> exact Nat.le_of_ble_eq_true rfl
  case h_14 => unfold TScT_path; split_ifs <;> exact Nat.le_of_ble_eq_true rfl
  case h_15 => unfold TcScT_path; split_ifs <;> exact Nat.le_of_ble_eq_true rfl
  case h_16 => exact empty_moves _
  all_goals split_ifs
  all_goals first
    | exact empty_moves _
    | exact Nat.le_of_ble_eq_true rfl
    | exact shorter_moves (Nat.le_of_ble_eq_true rfl) (Nat.le_of_ble_eq_true rfl)
    | (unfold TTcTT_path; simp only
       split_ifs <;>
         first
         | exact empty_moves _
         | exact shorter_moves (Nat.le_of_ble_eq_true rfl) (Nat.le_of_ble_eq_true rfl))
    | (unfold TcTT_path; simp only
       split_ifs <;>
         first
         | exact empty_moves _
         | exact shorter_moves (Nat.le_of_ble_eq_true rfl) (Nat.le_of_ble_eq_true rfl))
    | (unfold TTcT_path; simp only
       split_ifs <;>
         first
         | exact empty_moves _
         | exact shorter_moves (Nat.le_of_ble_eq_true rfl) (Nat.le_of_ble_eq_true rfl))
    | (unfold TcTTcT_path; simp only
       split_ifs <;>
         first
         | exact empty_moves _
         | exact shorter_moves (Nat.le_of_ble_eq_true rfl) (Nat.le_of_ble_eq_true rfl))

theorem path_moves (pm1 pm2 : Bool) (sp : HCSpace) (m : Scratch) (c1 c2 : SF.Circle) (i : ℕ) :
    (table pm1 pm2 sp m c1 c2 i).moves.length ≤ 5 := by
  unfold table
  rcases hs : shortcut pm1 pm2 sp m c1 c2 with _ | ⟨t, r⟩
  · exact family_moves ..
  · simp only
    split_ifs
    · unfold shortcut at hs
      by_cases h0 : configuration_equal c1.start c2.start
      · rw [if_pos h0] at hs
        simp only [Option.some.injEq, Prod.mk.injEq] at hs
        rw [← hs.2]; exact Nat.le_of_ble_eq_true rfl
      · rw [if_neg h0] at hs
        cases pm1 <;> cases pm2 <;> simp only at hs <;> split_ifs at hs <;>
          simp only [Option.some.injEq, Prod.mk.injEq] at hs <;> rw [← hs.2] <;> exact Nat.le_of_ble_eq_true rfl
    · exact empty_moves _

theorem controls_len {pm1 pm2 : Bool} {sp : HCSpace} {s1 s2 : State} {cs : List Control}
    (h : get_controls pm1 pm2 sp s1 s2 = some cs) : cs.length ≤ 15 := by
  unfold get_controls at h
  obtain ⟨p, hp, rfl⟩ := Option.map_eq_some_iff.1 h
  obtain ⟨-, -, rfl⟩ := path_some.1 hp
  unfold path_controls
  split_ifs
  · simp [empty_controls]
  · refine (moves_len _).trans ?_
    have := path_moves pm1 pm2 sp
    exact Nat.mul_le_mul_left 3 (this _ _ _ _)

end Spec.HcRs

namespace Spec.CcRs

open SF SF.CcRs Spec.Count

theorem family_moves (sp : HCSpace) (m : Scratch) (c1 c2 : SF.Circle) (i : ℕ) :
    (family sp m c1 c2 i).moves.length ≤ 5 := by
  unfold family
  split
  case h_6 => unfold TST_path; split_ifs <;> exact Nat.le_of_ble_eq_true rfl
  case h_7 => unfold TSTcT_path; split_ifs <;> exact Nat.le_of_ble_eq_true rfl
  case h_8 => unfold TcTST_path; split_ifs <;> exact Nat.le_of_ble_eq_true rfl
  case h_9 => unfold TcTSTcT_path; split_ifs <;> exact Nat.le_of_ble_eq_true rfl
  case h_13 => unfold TcST_path; split_ifs <;> exact Nat.le_of_ble_eq_true rfl
  case h_14 => unfold TScT_path; split_ifs <;> exact Nat.le_of_ble_eq_true rfl
  case h_15 => unfold TcScT_path; split_ifs <;> exact Nat.le_of_ble_eq_true rfl
  case h_16 => exact empty_moves _
  all_goals split_ifs
  all_goals first
    | exact empty_moves _
    | exact Nat.le_of_ble_eq_true rfl
    | exact shorter_moves (Nat.le_of_ble_eq_true rfl) (Nat.le_of_ble_eq_true rfl)
    | (unfold TTcTT_path; simp only
       split_ifs <;>
         first
         | exact empty_moves _
         | exact shorter_moves (Nat.le_of_ble_eq_true rfl) (Nat.le_of_ble_eq_true rfl))
    | (unfold TcTT_path; simp only
       split_ifs <;>
         first
         | exact empty_moves _
         | exact shorter_moves (Nat.le_of_ble_eq_true rfl) (Nat.le_of_ble_eq_true rfl))
    | (unfold TTcT_path; simp only
       split_ifs <;>
         first
         | exact empty_moves _
         | exact shorter_moves (Nat.le_of_ble_eq_true rfl) (Nat.le_of_ble_eq_true rfl))
    | (unfold TcTTcT_path; simp only
       split_ifs <;>
         first
         | exact empty_moves _
         | exact shorter_moves (Nat.le_of_ble_eq_true rfl) (Nat.le_of_ble_eq_true rfl))

theorem path_moves (sp : HCSpace) (m : Scratch) (c1 c2 : SF.Circle) (i : ℕ) :
    (table sp m c1 c2 i).moves.length ≤ 5 := by
  unfold table
  rcases hs : shortcut c1 c2 with _ | ⟨t, r⟩
  · exact family_moves ..
  · simp only
    split_ifs
    · unfold shortcut at hs
      split_ifs at hs <;> simp only [Option.some.injEq, Prod.mk.injEq] at hs <;> rw [← hs.2] <;> exact Nat.le_of_ble_eq_true rfl
    · exact empty_moves _

theorem controls_len {sp : HCSpace} {s1 s2 : State} {cs : List Control} (h : get_controls sp s1 s2 = some cs) : cs.length ≤ 15 := by
  unfold get_controls path_controls at h
  split_ifs at h
  · simp only [Option.some.injEq] at h
    rw [← h]; simp [empty_controls]
  · simp only [Option.some.injEq] at h
    rw [← h]
    refine (moves_len _).trans ?_
    exact Nat.mul_le_mul_left 3 (path_moves sp _ _ _ _)

end Spec.CcRs

namespace Spec.Count

open SF

theorem app3 {a b c : List Control} (ha : a.length ≤ 3) (hb : b.length ≤ 3) (hc : c.length ≤ 3) : (a ++ b ++ c).length ≤ 15 := by
  simp only [List.length_append]; omega

theorem app2 {a b : List Control} (ha : a.length ≤ 3) (hb : b.length ≤ 3) : (a ++ b).length ≤ 15 := by
  simp only [List.length_append]; omega

theorem app4 {a b c d : List Control} (ha : a.length ≤ 3) (hb : b.length ≤ 3) (hc : c.length ≤ 3) (hd : d.length ≤ 3) :
    (a ++ b ++ c ++ d).length ≤ 15 := by
  simp only [List.length_append]; omega

theorem hc_le (c : SF.Circle) (q : Configuration) (o : Bool) : (hc_turn_controls c q o).length ≤ 3 := by
  rw [hc_len]; omega

theorem straight_le (a b : Configuration) : (straight_controls a b).length ≤ 3 := by rw [straight_len]; omega

theorem cc00_len {sp : HCSpace} {s1 s2 : State} {cs : List Control} (h : CC00.get_controls sp s1 s2 = some cs) : cs.length ≤ 15 := by
  unfold CC00.get_controls CC00.path_controls at h
  split at h
  · obtain rfl := Option.some.inj h; simp [empty_controls]
  · obtain rfl := Option.some.inj h; rw [straight_len]; omega
  · obtain ⟨a, -, rfl⟩ := Option.map_eq_some_iff.1 h
    exact (cc_len ..).trans (by omega)
  · simp only [Option.bind_eq_some_iff, Option.map_eq_some_iff] at h
    obtain ⟨_, -, _, -, _, -, rfl⟩ := h
    exact app2 (cc_len ..) (cc_len ..)
  · simp only [Option.bind_eq_some_iff, Option.map_eq_some_iff] at h
    obtain ⟨_, -, _, -, _, -, _, -, rfl⟩ := h
    exact app3 (cc_len ..) (straight_le ..) (cc_len ..)
  · simp only [Option.bind_eq_some_iff, Option.map_eq_some_iff] at h
    obtain ⟨_, -, _, -, _, -, _, -, _, -, rfl⟩ := h
    exact app3 (cc_len ..) (cc_len ..) (cc_len ..)
  · obtain rfl := Option.some.inj h; simp

theorem cc0pm_len {sp : HCSpace} {s1 s2 : State} {cs : List Control} (h : CC0pm.get_controls sp s1 s2 = some cs) : cs.length ≤ 15 := by
  unfold CC0pm.get_controls at h
  obtain ⟨p, -, h⟩ := Option.bind_eq_some_iff.1 h
  unfold CC0pm.path_controls at h
  split at h
  · obtain rfl := Option.some.inj h; simp [empty_controls]
  · obtain ⟨a, -, rfl⟩ := Option.map_eq_some_iff.1 h
    exact (hc_le ..).trans (by omega)
  · simp only [Option.bind_eq_some_iff, Option.map_eq_some_iff] at h
    obtain ⟨_, -, _, -, _, -, _, -, rfl⟩ := h
    exact app2 (cc_len ..) (hc_le ..)
  · simp only [Option.bind_eq_some_iff, Option.map_eq_some_iff] at h
    obtain ⟨_, -, _, -, _, -, _, -, _, -, rfl⟩ := h
    exact app3 (cc_len ..) (straight_le ..) (hc_le ..)
  · simp only [Option.bind_eq_some_iff, Option.map_eq_some_iff] at h
    obtain ⟨_, -, _, -, _, -, _, -, _, -, _, -, rfl⟩ := h
    exact app3 (cc_len ..) (cc_len ..) (hc_le ..)
  · obtain rfl := Option.some.inj h; simp

theorem ccpm0_len {sp : HCSpace} {s1 s2 : State} {cs : List Control} (h : CCpm0.get_controls sp s1 s2 = some cs) : cs.length ≤ 15 := by
  unfold CCpm0.get_controls at h
  obtain ⟨p, -, h⟩ := Option.bind_eq_some_iff.1 h
  unfold CCpm0.path_controls at h
  split at h
  · obtain rfl := Option.some.inj h; simp [empty_controls]
  · obtain ⟨a, -, rfl⟩ := Option.map_eq_some_iff.1 h
    exact (hc_le ..).trans (by omega)
  · simp only [Option.bind_eq_some_iff, Option.map_eq_some_iff] at h
    obtain ⟨_, -, _, -, _, -, _, -, rfl⟩ := h
    exact app2 (hc_le ..) (cc_len ..)
  · simp only [Option.bind_eq_some_iff, Option.map_eq_some_iff] at h
    obtain ⟨_, -, _, -, _, -, _, -, _, -, rfl⟩ := h
    exact app3 (hc_le ..) (straight_le ..) (cc_len ..)
  · simp only [Option.bind_eq_some_iff, Option.map_eq_some_iff] at h
    obtain ⟨_, -, _, -, _, -, _, -, _, -, _, -, rfl⟩ := h
    exact app3 (hc_le ..) (cc_len ..) (cc_len ..)
  · obtain rfl := Option.some.inj h; simp

theorem ccpmpm_len {sp : HCSpace} {s1 s2 : State} {cs : List Control} (h : CCpmpm.get_controls sp s1 s2 = some cs) :
    cs.length ≤ 15 := by
  unfold CCpmpm.get_controls at h
  obtain ⟨p, -, h⟩ := Option.bind_eq_some_iff.1 h
  unfold CCpmpm.path_controls at h
  split at h
  · obtain rfl := Option.some.inj h; simp [empty_controls]
  · obtain ⟨a, -, rfl⟩ := Option.map_eq_some_iff.1 h
    rw [rs_len]; omega
  · simp only [Option.bind_eq_some_iff, Option.map_eq_some_iff] at h
    obtain ⟨_, -, _, -, _, -, _, -, rfl⟩ := h
    exact app2 (hc_le ..) (hc_le ..)
  · simp only [Option.bind_eq_some_iff, Option.map_eq_some_iff] at h
    obtain ⟨_, -, _, -, _, -, _, -, _, -, _, -, rfl⟩ := h
    exact app3 (hc_le ..) (straight_le ..) (hc_le ..)
  · simp only [Option.bind_eq_some_iff, Option.map_eq_some_iff] at h
    obtain ⟨_, -, _, -, _, -, _, -, _, -, _, -, rfl⟩ := h
    exact app3 (hc_le ..) (cc_len ..) (hc_le ..)
  · simp only [Option.bind_eq_some_iff, Option.map_eq_some_iff] at h
    obtain ⟨_, -, _, -, _, -, _, -, _, -, _, -, _, -, rfl⟩ := h
    exact app4 (hc_le ..) (cc_len ..) (cc_len ..) (hc_le ..)
  · obtain rfl := Option.some.inj h; simp

/-- Controls of a planner for arbitrary curvatures, given those of the planners it calls. -/
theorem min_len {f : SubPlanners (List Control)} {a b : List Predicted} {cs : List Control} (h : IsMinControls f a b cs)
    (hf : ∀ s1 s2 cs, f.call s1 s2 = some cs → cs.length ≤ 15) : cs.length ≤ 17 := by
  obtain ⟨l, hl, hm, -⟩ := h
  have key : ∀ (ps : List (Predicted × Predicted)) (l : List (List Control)),
      ps.mapM (fun p => pair_controls f p.1 p.2) = some l → ∀ cs ∈ l, cs.length ≤ 17 := by
    intro ps
    induction ps with
    | nil => intro l hl cs hcs; simp at hl; subst hl; cases hcs
    | cons p ps ih =>
      intro l hl cs hcs
      rw [List.mapM_cons] at hl
      simp only [Option.bind_eq_bind, Option.bind_eq_some_iff, Option.pure_def, Option.some.injEq] at hl
      obtain ⟨c, hc, l', hl', rfl⟩ := hl
      rcases List.mem_cons.1 hcs with rfl | hcs
      · unfold pair_controls at hc
        by_cases he : state_equal p.1.1 p.2.1
        · rw [if_pos he] at hc
          obtain rfl := Option.some.inj hc; simp
        · rw [if_neg he] at hc
          obtain ⟨d, hd, rfl⟩ := Option.map_eq_some_iff.1 hc
          have := hf _ _ _ hd
          simp only
          split_ifs <;> (try simp only [List.length_append, List.length_cons, List.length_nil]) <;> omega
      · exact ih l' hl' cs hcs
  exact key _ l hl cs hm

theorem cc_any_len {sp : HCSpace} {junk : ℝ} {s1 s2 : State} {cs : List Control} (h : SF.CC.IsControls sp junk s1 s2 cs) :
    cs.length ≤ 17 := by
  refine min_len h fun a b c hc => ?_
  unfold SubPlanners.call at hc
  split_ifs at hc
  · exact cc00_len hc
  · exact cc0pm_len hc
  · exact ccpm0_len hc
  · exact ccpmpm_len hc

theorem hc_any_len {sp : HCSpace} {junk : ℝ} {s1 s2 : State} {cs : List Control} (h : SF.HC.IsControls sp junk s1 s2 cs) :
    cs.length ≤ 17 := by
  refine min_len h fun a b c hc => ?_
  unfold SubPlanners.call at hc
  split_ifs at hc <;> exact Spec.HcRs.controls_len hc

end Spec.Count
