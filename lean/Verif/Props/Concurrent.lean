import Verif.Lemmas.Concurrent
import Verif.Lemmas.History

/-!
# C39: history and concurrency
-/

noncomputable section

namespace Props

open SF Spec Real

/-- **C39, histories (partial).** Queries made one after the other give the answers of `cc00_dubins`, whatever the members `distance`
and `angle` contain at the beginning and whatever was queried before.  Missing: concurrent queries, see
`C39_concurrent_false`. -/
theorem C39_history_partial (sp : HCSpace) (m : Scratch) (qs : List (State × State)) :
    CC00.runQueries sp m qs = qs.map fun q => some (CC00.cc00_dubins sp q.1 q.2) := by
  induction qs generalizing m with
  | nil => rfl
  | cons q qs ih =>
    rw [CC00.runQueries, List.map_cons, Spec.CC00.runAlone_result, ih]

example : CC00.runQueries ⟨1, 1, 1, true⟩ ⟨7, 7⟩ [(⟨0, 0, 0, 0, 0⟩, ⟨-100, 0, 0, 0, 0⟩), (⟨0, 0, 0, 0, 0⟩, ⟨3, 0, 0, 0, 0⟩)]
    = [some (CC00.cc00_dubins ⟨1, 1, 1, true⟩ ⟨0, 0, 0, 0, 0⟩ ⟨-100, 0, 0, 0, 0⟩),
       some (CC00.cc00_dubins ⟨1, 1, 1, true⟩ ⟨0, 0, 0, 0, 0⟩ ⟨3, 0, 0, 0, 0⟩)] :=
  C39_history_partial _ _ _

/-- **C39, histories of all planners (partial).**  Objects of all nine helper classes are queried in any order; their members `distance` and
`angle` survive from query to query.  Whatever they contain at the beginning (`M`, `M'`) and whatever was asked
before (`qs`), a query gets the answers (distance and controls) of a new object, namely those of the planners of this model, in which
no member survives.  Missing: concurrent queries, see `C39_concurrent_false`. -/
theorem C39_history_all_partial (sp : HCSpace) (M M' : History.Kind → Scratch) (qs : List (History.Kind × State × State))
    (k : History.Kind) (s1 s2 : State) :
    (History.run sp M (qs ++ [(k, s1, s2)])).getLast? = (History.run sp M' [(k, s1, s2)]).getLast? ∧
    History.run sp M' [(k, s1, s2)] = [match k with
      | .cc00 => ⟨some (CC00.get_distance sp s1 s2), CC00.get_controls sp s1 s2⟩
      | .cc0pm => ⟨CC0pm.get_distance sp s1 s2, CC0pm.get_controls sp s1 s2⟩
      | .ccpm0 => ⟨CCpm0.get_distance sp s1 s2, CCpm0.get_controls sp s1 s2⟩
      | .ccpmpm => ⟨CCpmpm.get_distance sp s1 s2, CCpmpm.get_controls sp s1 s2⟩
      | .hc pm1 pm2 => ⟨HcRs.get_distance pm1 pm2 sp s1 s2, HcRs.get_controls pm1 pm2 sp s1 s2⟩
      | .cc00rs => ⟨some (CcRs.get_distance sp s1 s2), CcRs.get_controls sp s1 s2⟩] := by
  rw [History.run_eq, History.run_eq]
  exact ⟨by simp, by cases k <;> rfl⟩

/-- The members contain the values of an earlier query of another pair of states. -/
example : (History.run ⟨1, 1, 1, true⟩ (fun _ => ⟨7, 7⟩) ([(.cc00rs, ⟨0, 0, 0, 0, 0⟩, ⟨-100, 0, 0, 0, 0⟩)]
      ++ [(.cc00rs, ⟨0, 0, 0, 0, 0⟩, ⟨3, 0, 0, 0, 0⟩)])).getLast?
    = some ⟨some (CcRs.get_distance ⟨1, 1, 1, true⟩ ⟨0, 0, 0, 0, 0⟩ ⟨3, 0, 0, 0, 0⟩),
        CcRs.get_controls ⟨1, 1, 1, true⟩ ⟨0, 0, 0, 0, 0⟩ ⟨3, 0, 0, 0, 0⟩⟩ := by
  obtain ⟨a, b⟩ := C39_history_all_partial ⟨1, 1, 1, true⟩ (fun _ => ⟨7, 7⟩) (fun _ => ⟨0, 0⟩)
    [(.cc00rs, ⟨0, 0, 0, 0, 0⟩, ⟨-100, 0, 0, 0, 0⟩)] .cc00rs ⟨0, 0, 0, 0, 0⟩ ⟨3, 0, 0, 0, 0⟩
  rw [a, b]; rfl

/-- **C39 is false for concurrent queries.** Two threads query the same object.  The second one writes the shared members between
the write and the read of the first one.  The first thread, asked for the distance to a goal at Euclidean distance
100 (the right answer is at least 80), is then told that it is below 60. -/
theorem C39_concurrent_false : ∃ (sp : HCSpace) (a1 a2 b1 b2 : State) (schedule : List Bool),
    InRange sp.kappa sp.sigma ∧ dist2 a1 a2 = 100 ∧ 80 ≤ CC00.get_distance sp a1 a2 ∧
    ∀ m, ∃ p, (CC00.runTwo sp schedule m (.begin a1 a2) (.begin b1 b2)).1.result = some p ∧ p.length < 60 := by
  have h : InRange 1 1 := by constructor <;> norm_num
  obtain ⟨sp, hsp⟩ : ∃ sp : HCSpace, sp = ⟨1, 1, 1, true⟩ := ⟨_, rfl⟩
  have hk : sp.kappa = 1 := by rw [hsp]
  have hs : sp.sigma = 1 := by rw [hsp]
  have hf : sp.forwards = true := by rw [hsp]
  have h' : InRange sp.kappa sp.sigma := by rw [hk, hs]; exact h
  obtain ⟨s1, hs1⟩ : ∃ s1 : State, s1 = ⟨0, 0, 0, 0, 0⟩ := ⟨_, rfl⟩
  obtain ⟨s2, hs2⟩ : ∃ s2 : State, s2 = ⟨-100, 0, 0, 0, 0⟩ := ⟨_, rfl⟩
  obtain ⟨s3, hs3⟩ : ∃ s3 : State, s3 = ⟨2 * ccA 1 1, 0, 0, 0, 0⟩ := ⟨_, rfl⟩
  have e1 : pose s1 = ⟨0, 0, 0⟩ := by rw [hs1]; rfl
  have e2 : pose s2 = ⟨-100, 0, 0⟩ := by rw [hs2]; rfl
  have e3 : pose s3 = ⟨2 * ccA 1 1, 0, 0⟩ := by rw [hs3]; rfl
  have hd : dist2 s1 s2 = 100 := by
    rw [dist2, hs1, hs2, show ((-100:ℝ) - 0) ^ 2 + (0 - 0) ^ 2 = 100 ^ 2 by norm_num]
    exact sqrt_sq (by norm_num)
  refine ⟨sp, s1, s2, s1, s3, Spec.CC00.badSchedule, h', hd, Spec.CC00.back_length hk hs hf e1 e2, fun m => ?_⟩
  obtain ⟨f, hres, h0⟩ := Spec.CC00.bad_paths sp m s1 s2 s1 s3
  refine ⟨_, hres, ?_⟩
  have hmin := (C04_array_index_min (fun n => (f n).length) 4 (by norm_num)).2.1 0 (by norm_num)
  refine lt_of_le_of_lt hmin ?_
  simp only [h0]
  have h1 := Spec.CC00.start_circle_ok h'.kappa h'.sigma h'.clothoid (Spec.CC00.startOf s1) 0
  have h2 := Spec.CC00.end_circle_ok h'.kappa h'.sigma h'.clothoid (Spec.CC00.startOf s2) 0
  have h3 := Spec.CC00.end_circle_ok h'.kappa h'.sigma h'.clothoid (Spec.CC00.startOf s3) 0
  have hR : sp.param.radius ≤ 5 := by
    have := Spec.CC00.radius_le' h'
    rw [hk, hs, radiusBound] at this
    linarith
  have c1 := Spec.CC00.startOf_zero 0 e1
  have c2 := Spec.CC00.startOf_zero _ e2
  have c3 := Spec.CC00.startOf_zero _ e3
  have hcd : configuration_distance (Spec.CC00.startOf s1) (Spec.CC00.startOf s2) = 100 := hd
  have hm : (scratch (CC00.start_circle sp (Spec.CC00.startOf s1) 0)
      (CC00.end_circle sp (Spec.CC00.startOf s3) 0)).distance = 0 := by
    have hc : center (CC00.end_circle sp (Spec.CC00.startOf s3) 0)
        = center (CC00.start_circle sp (Spec.CC00.startOf s1) 0) := by
      rw [h3.cen, h1.cen]
      change cen (sg (!sp.forwards) * ccA sp.kappa sp.sigma) (sg true * ccB sp.kappa sp.sigma)
        (cfg (Spec.CC00.startOf s3)) = cen (sg sp.forwards * ccA sp.kappa sp.sigma)
        (sg true * ccB sp.kappa sp.sigma) (cfg (Spec.CC00.startOf s1))
      rw [c1, c3, hf, hk, hs]
      apply Complex.ext <;> simp [cen, sg, Config.pos, cis]
      ring
    change center_distance _ _ = 0
    rw [center_distance_eq, hc, sub_self, norm_zero]
  have key := Spec.CC00.disturbed_le h'.kappa h'.sigma h'.clothoid h1 h2 rfl rfl hm ?_ ?_ hf ?_
  · refine lt_of_le_of_lt key ?_
    change 3 * turnBound sp.kappa sp.sigma sp.param.radius < 60
    rw [hk, hs, turnBound]
    linarith [pi_lt_d2]
  · intro hE
    unfold configuration_equal at hE
    split_ifs at hE with ha hb
    change ¬ configuration_distance (Spec.CC00.startOf s1) (Spec.CC00.startOf s2) > SF.epsilon at hb
    rw [hcd] at hb; norm_num [SF.epsilon] at hb
  · rintro ⟨_, hE⟩
    change configuration_aligned (Spec.CC00.startOf s1) (Spec.CC00.startOf s2) at hE
    unfold configuration_aligned at hE
    split_ifs at hE with ha
    have x1 : (Spec.CC00.startOf s1).x = 0 := congrArg Config.x c1
    have x2 : (Spec.CC00.startOf s1).y = 0 := congrArg Config.y c1
    have x3 : (Spec.CC00.startOf s1).theta = 0 := congrArg Config.theta c1
    have x4 : (Spec.CC00.startOf s2).x = -100 := congrArg Config.x c2
    have x5 : (Spec.CC00.startOf s2).y = 0 := congrArg Config.y c2
    have : SF.atan2 (0 - 0) (-100 - 0) = π := by
      unfold SF.atan2
      have : (⟨-100 - 0, 0 - 0⟩ : ℂ) = ((-100 : ℝ) : ℂ) := by apply Complex.ext <;> simp
      rw [this, Complex.arg_ofReal_of_neg (by norm_num)]
    simp only [x1, x2, x3, x4, x5, this] at hE
    rw [SF.twopify_of_mem pi_pos.le (by linarith [pi_pos]), sub_zero, abs_of_pos pi_pos] at hE
    norm_num [SF.epsilon] at hE
    linarith [pi_gt_three]
  · intro hE
    have := Spec.CC00.on_circle_dist h1 hE
    change configuration_distance (Spec.CC00.startOf s1) (Spec.CC00.startOf s2) ≤ 2 * sp.param.radius + _ at this
    rw [hcd] at this
    norm_num [SF.epsilon] at this
    linarith

end Props
