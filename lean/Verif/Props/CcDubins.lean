import Verif.Lemmas.Cc00Far

/-!
# Properties of the CC-Dubins planners
-/

noncomputable section

namespace Props

open SF Spec Real

variable {sp : HCSpace}

/-! ## C36 -/

/-- **C36.** The controls of CC00-Dubins exist and lead from `state1` to `state2` up to the resolution
1e-4 of the library: position error at most `1e-4 (2 + 6 R + 4 L)` for path length `L` and radius `R`, besides the
error of the Fresnel integrals; heading error at most `3e-4`. -/
theorem C36_cc00_reaches (h : InRange sp.kappa sp.sigma) (s1 s2 : State) (hfar : dist2 s1 s2 ≤ 10 ^ 100) :
    ∃ cs, CC00.get_controls sp s1 s2 = some cs ∧
      LeadsTo cs s1 s2 (1 / 10000 * (2 + 6 * radiusBound sp.kappa sp.sigma + 4 * lengthOf cs)) (3 / 10000) := by
  obtain ⟨cs, hcs, hok, _⟩ := Spec.CC00.plan h s1 s2 hfar (tau := SF.epsilon) (by norm_num [SF.epsilon])
    fun x _ => tiny_le _ _
  refine ⟨cs, hcs, Leads.leadsTo ((((hok.leads (Spec.CC00.radius_nonneg h)).congr
    (Spec.CC00.cfg_startOf s1) (Spec.CC00.cfg_startOf s2))).mono ?_ ?_ le_rfl)⟩
  · have := Spec.CC00.radius_le' h
    rw [lengthOf, SF.epsilon]; linarith
  · norm_num [SF.epsilon]

/-- **C36, exact part.** Without the shortcuts of the library (paths of one or two turns and straight
paths, which are accepted within 1e-4, and turns by less than 1e-4) the controls lead to `state2`
exactly, up to the error of the Fresnel integrals. -/
theorem C36_cc00_exact (h : InRange sp.kappa sp.sigma) (s1 s2 : State) (hfar : dist2 s1 s2 ≤ 10 ^ 100)
    (ht : (CC00.cc00_dubins sp s1 s2).type = cc_dubins.TST ∨ (CC00.cc00_dubins sp s1 s2).type = cc_dubins.TTT)
    (hturn : ∀ x ∈ Spec.CC00.turns (CC00.cc00_dubins sp s1 s2).type (CC00.cc00_dubins sp s1 s2).row
      (CC00.cc00_dubins sp s1 s2).end_, x.1.deflection x.2 = 0 ∨ 1 / 10000 ≤ x.1.deflection x.2) :
    ∃ cs, CC00.get_controls sp s1 s2 = some cs ∧ LeadsTo cs s1 s2 0 0 ∧
      CC00.get_distance sp s1 s2 = lengthOf cs := by
  have hend : (CC00.cc00_dubins sp s1 s2).end_ = Spec.CC00.startOf s2 := rfl
  rw [hend] at hturn
  obtain ⟨cs, hcs, hok, _⟩ := Spec.CC00.plan h s1 s2 hfar (tau := 0) le_rfl fun x hx => by
    unfold tiny
    split_ifs with hlt
    · rcases hturn x hx with h0 | h0
      · exact h0.le
      · exact absurd hlt (not_lt.2 h0)
    · exact le_rfl
  have hT : ∃ n, Track sp.kappa sp.sigma sp.param.radius 0 0 0 n 0 cs (cfg (Spec.CC00.startOf s1))
      (cfg (Spec.CC00.startOf s2)) (CC00.get_distance sp s1 s2) := by
    rcases ht with ht | ht <;> rw [ht] at hok
    · exact ⟨2, hok.1⟩
    · exact ⟨3, hok.1⟩
  obtain ⟨n, hT⟩ := hT
  have hl := hT.leads.congr (Spec.CC00.cfg_startOf s1) (Spec.CC00.cfg_startOf s2)
  refine ⟨cs, hcs, Leads.leadsTo (hl.mono (by simp) (by simp) le_rfl), ?_⟩
  have := hl.length
  simp only [mul_zero, add_zero, abs_nonpos_iff] at this
  exact (sub_eq_zero.1 this).symm

/-- **C36, `get_path`.** If no control has a sharpness that the integration neglects, the last state of
`get_path` is `state2` up to the same errors. -/
theorem C36_cc00_get_path (h : InRange sp.kappa sp.sigma) (hd : 0 < sp.discretization) (s1 s2 : State)
    (hfar : dist2 s1 s2 ≤ 10 ^ 100) (hs : ∀ cs, CC00.get_controls sp s1 s2 = some cs → Sharp cs) :
    ∃ cs l e, CC00.get_controls sp s1 s2 = some cs ∧ CC00.get_path sp s1 s2 = some l ∧ l.getLast? = some e ∧
      Within (1 / 10000 * (2 + 6 * radiusBound sp.kappa sp.sigma + 4 * lengthOf cs) + 2 * pathTol (cs.map seg))
        (3 / 10000) (pose e) (pose s2) := by
  obtain ⟨cs, hcs, hok, hne, _⟩ := Spec.CC00.plan h s1 s2 hfar (tau := SF.epsilon) (by norm_num [SF.epsilon])
    fun x _ => tiny_le _ _
  obtain ⟨cs', hcs', hL⟩ := C36_cc00_reaches h s1 s2 hfar
  obtain rfl : cs' = cs := Option.some.inj (hcs'.symm.trans hcs)
  obtain ⟨l, e, g1, g2, g3⟩ := LeadsTo.integrate hL hd hne hok.cont (hs _ hcs) hok.flat
  exact ⟨cs', l, e, hcs, by rw [CC00.get_path, hcs]; exact g1, g2, g3⟩

/-- Parameters and states to which C36 applies. -/
example : InRange 1 1 ∧ dist2 ⟨0, 0, 0, 0, 0⟩ ⟨-100, 0, 0, 0, 0⟩ ≤ 10 ^ 100 := by
  refine ⟨by constructor <;> norm_num, ?_⟩
  rw [dist2, show ((-100:ℝ) - 0) ^ 2 + (0 - 0) ^ 2 = 100 ^ 2 by norm_num, sqrt_sq (by norm_num)]
  norm_num

/-- For a goal straight behind the exact part applies. -/
example : (CC00.cc00_dubins ⟨1, 1, 1, true⟩ ⟨0, 0, 0, 0, 0⟩ ⟨-100, 0, 0, 0, 0⟩).type = cc_dubins.TST ∧
    ∀ x ∈ Spec.CC00.turns (CC00.cc00_dubins ⟨1, 1, 1, true⟩ ⟨0, 0, 0, 0, 0⟩ ⟨-100, 0, 0, 0, 0⟩).type
      (CC00.cc00_dubins ⟨1, 1, 1, true⟩ ⟨0, 0, 0, 0, 0⟩ ⟨-100, 0, 0, 0, 0⟩).row
      (CC00.cc00_dubins ⟨1, 1, 1, true⟩ ⟨0, 0, 0, 0, 0⟩ ⟨-100, 0, 0, 0, 0⟩).end_,
      x.1.deflection x.2 = 0 ∨ 1 / 10000 ≤ x.1.deflection x.2 := by
  have h := Spec.CC00.back_path (sp := ⟨1, 1, 1, true⟩) rfl rfl rfl (s1 := ⟨0, 0, 0, 0, 0⟩) (s2 := ⟨-100, 0, 0, 0, 0⟩)
    rfl rfl
  exact ⟨h.1, fun x hx => .inr (h.2 x hx)⟩

/-! ## C37 -/

/-- **C37.** `get_distance` is the length of the controls, exactly if no turn deflects by less than 1e-4. -/
theorem C37_cc00_distance (h : InRange sp.kappa sp.sigma) (s1 s2 : State) (hfar : dist2 s1 s2 ≤ 10 ^ 100)
    (hturn : ∀ x ∈ Spec.CC00.turns (CC00.cc00_dubins sp s1 s2).type (CC00.cc00_dubins sp s1 s2).row
      (CC00.cc00_dubins sp s1 s2).end_, 1 / 10000 ≤ x.1.deflection x.2) :
    ∃ cs, CC00.get_controls sp s1 s2 = some cs ∧ CC00.get_distance sp s1 s2 = lengthOf cs := by
  obtain ⟨cs, hcs, _, _, hl⟩ := Spec.CC00.plan h s1 s2 hfar (tau := SF.epsilon) (by norm_num [SF.epsilon])
    fun x _ => tiny_le _ _
  exact ⟨cs, hcs, (hl hturn).symm⟩

/-- **C37, all paths.** `get_distance` differs from the length of the controls by at most `1e-4 (1 + 3 R)`. -/
theorem C37_cc00_distance_all (h : InRange sp.kappa sp.sigma) (s1 s2 : State) (hfar : dist2 s1 s2 ≤ 10 ^ 100) :
    ∃ cs, CC00.get_controls sp s1 s2 = some cs ∧
      |CC00.get_distance sp s1 s2 - lengthOf cs| ≤ 1 / 10000 * (1 + 3 * radiusBound sp.kappa sp.sigma) := by
  obtain ⟨cs, hcs, hok, _⟩ := Spec.CC00.plan h s1 s2 hfar (tau := SF.epsilon) (by norm_num [SF.epsilon])
    fun x _ => tiny_le _ _
  refine ⟨cs, hcs, ?_⟩
  have := (hok.leads (Spec.CC00.radius_nonneg h)).length
  rw [abs_sub_comm]
  refine this.trans ?_
  have := Spec.CC00.radius_le' h
  rw [SF.epsilon]; linarith

/-! ## C38 -/

/-- **C38.** A path is always found: the distance is bounded by the Euclidean distance plus a constant,
so it is never the "no path" value, and controls are returned. -/
theorem C38_cc00_always (h : InRange sp.kappa sp.sigma) (s1 s2 : State) (hfar : dist2 s1 s2 ≤ 10 ^ 100) :
    CC00.get_distance sp s1 s2 ≤ dist2 s1 s2 + 30 * (sp.kappa / sp.sigma) + 40 / sp.kappa ∧
    CC00.get_distance sp s1 s2 < dblMax ∧ ∃ cs, CC00.get_controls sp s1 s2 = some cs ∧ cs ≠ [] := by
  refine ⟨?_, Spec.CC00.distance_finite s1 s2 h.kappa h.sigma h.clothoid h.finite hfar, ?_⟩
  · refine (Spec.CC00.distance_le s1 s2 h.kappa h.sigma h.clothoid).trans ?_
    have hr := Spec.CC00.radius_le' h
    have hk0 : 0 < sp.kappa := lt_trans (by norm_num) h.kappa
    have e2 : 2 / sp.kappa = 2 * (1 / sp.kappa) := by ring
    have e4 : 40 / sp.kappa = 40 * (1 / sp.kappa) := by ring
    have e3 : 2 * π / sp.kappa ≤ 8 * (1 / sp.kappa) := by
      rw [show 2 * π / sp.kappa = 2 * π * (1 / sp.kappa) by ring]
      have : 0 < 1 / sp.kappa := by positivity
      nlinarith [pi_lt_four]
    rw [radiusBound, e2] at hr
    rw [turnBound, e4]
    linarith
  · obtain ⟨cs, hcs, _, hne, _⟩ := Spec.CC00.plan h s1 s2 hfar (tau := SF.epsilon) (by norm_num [SF.epsilon])
      fun x _ => tiny_le _ _
    exact ⟨cs, hcs, hne⟩

/-! ## C50 -/

/-- **C50.** `get_distance` is not shorter than the Euclidean distance, up to the tolerances of C36 and C37. -/
theorem C50_cc00_euclid (h : InRange sp.kappa sp.sigma) (s1 s2 : State) (hfar : dist2 s1 s2 ≤ 10 ^ 100) :
    ∃ cs, CC00.get_controls sp s1 s2 = some cs ∧
      dist2 s1 s2 ≤ CC00.get_distance sp s1 s2
        + 1 / 10000 * (3 + 9 * radiusBound sp.kappa sp.sigma + 4 * lengthOf cs) + pathTol (cs.map seg) := by
  obtain ⟨cs, hcs, hok, _⟩ := Spec.CC00.plan h s1 s2 hfar (tau := SF.epsilon) (by norm_num [SF.epsilon])
    fun x _ => tiny_le _ _
  refine ⟨cs, hcs, ?_⟩
  have := (hok.leads (Spec.CC00.radius_nonneg h)).euclid
  have hd : (cfg (Spec.CC00.startOf s1)).dist (cfg (Spec.CC00.startOf s2)) = dist2 s1 s2 := by
    rw [Config.dist_comm]; rfl
  rw [hd] at this
  have := Spec.CC00.radius_le' h
  rw [lengthOf]
  norm_num [SF.epsilon] at *
  linarith

/-- **C50, exact part.** Under the conditions of the exact part of C36 only the error of the Fresnel integrals
remains. -/
theorem C50_cc00_euclid_exact (h : InRange sp.kappa sp.sigma) (s1 s2 : State) (hfar : dist2 s1 s2 ≤ 10 ^ 100)
    (ht : (CC00.cc00_dubins sp s1 s2).type = cc_dubins.TST ∨ (CC00.cc00_dubins sp s1 s2).type = cc_dubins.TTT)
    (hturn : ∀ x ∈ Spec.CC00.turns (CC00.cc00_dubins sp s1 s2).type (CC00.cc00_dubins sp s1 s2).row
      (CC00.cc00_dubins sp s1 s2).end_, x.1.deflection x.2 = 0 ∨ 1 / 10000 ≤ x.1.deflection x.2) :
    ∃ cs, CC00.get_controls sp s1 s2 = some cs ∧
      dist2 s1 s2 ≤ CC00.get_distance sp s1 s2 + pathTol (cs.map seg) := by
  obtain ⟨cs, hcs, ⟨e, h1, h2⟩, hl⟩ := C36_cc00_exact h s1 s2 hfar ht hturn
  refine ⟨cs, hcs, ?_⟩
  rw [drivesAll_iff.1 h1] at h2
  have := (Leads.mk (len := lengthOf cs) (c := 0) h2 (by simp [lengthOf])).euclid
  have hd : (pose s1).dist (pose s2) = dist2 s1 s2 := by rw [Config.dist_comm]; rfl
  rw [hd] at this
  rw [hl]; linarith

/-! ## C51 -/

/-- **C51.** The curvature along the controls is continuous, and zero at both ends. -/
theorem C51_cc00_continuous (h : InRange sp.kappa sp.sigma) (s1 s2 : State) (hfar : dist2 s1 s2 ≤ 10 ^ 100) :
    ∃ cs, CC00.get_controls sp s1 s2 = some cs ∧ CurvatureContinuous 0 (cs.map seg) 0 := by
  obtain ⟨cs, hcs, hok, _⟩ := Spec.CC00.plan h s1 s2 hfar (tau := SF.epsilon) (by norm_num [SF.epsilon])
    fun x _ => tiny_le _ _
  exact ⟨cs, hcs, hok.cont⟩

/-- **C51, limits (partial).** Unless the path consists of one or two turns, which are accepted within 1e-4, curvature and
sharpness respect the limits, up to the relative error of the Fresnel integrals. -/
theorem C51_cc00_limits_partial (h : InRange sp.kappa sp.sigma) (s1 s2 : State) (hfar : dist2 s1 s2 ≤ 10 ^ 100)
    (h2 : (CC00.cc00_dubins sp s1 s2).type ≠ cc_dubins.T) (h3 : (CC00.cc00_dubins sp s1 s2).type ≠ cc_dubins.TT) :
    ∃ cs, CC00.get_controls sp s1 s2 = some cs ∧
      CurvatureAtMost (sp.kappa * (1 + 1 / 10 ^ 8)) (cs.map seg) ∧
      SharpnessAtMost (sp.sigma * (1 + 2 / 10 ^ 8)) (cs.map seg) := by
  obtain ⟨cs, hcs, hok, _⟩ := Spec.CC00.plan h s1 s2 hfar (tau := SF.epsilon) (by norm_num [SF.epsilon])
    fun x _ => tiny_le _ _
  exact ⟨cs, hcs, hok.limits (le_trans (by norm_num) h.kappa.le) h.sigma.le h2 h3⟩

/-- **C51, limits far apart (partial).** The same for states more than four radii apart. -/
theorem C51_cc00_limits_far_partial (h : InRange sp.kappa sp.sigma) (s1 s2 : State) (hfar : dist2 s1 s2 ≤ 10 ^ 100)
    (hd : 4 * radiusBound sp.kappa sp.sigma + 1 / 10000 < dist2 s1 s2) :
    ∃ cs, CC00.get_controls sp s1 s2 = some cs ∧
      CurvatureAtMost (sp.kappa * (1 + 1 / 10 ^ 8)) (cs.map seg) ∧
      SharpnessAtMost (sp.sigma * (1 + 2 / 10 ^ 8)) (cs.map seg) := by
  have := Spec.CC00.far_type h s1 s2 hfar (by rw [SF.epsilon]; linarith [Spec.CC00.radius_le' h])
  exact C51_cc00_limits_partial h s1 s2 hfar this.1 this.2

/-- States far enough apart for C51. -/
example : 4 * radiusBound 1 1 + 1 / 10000 < dist2 ⟨0, 0, 0, 0, 0⟩ ⟨-100, 0, 0, 0, 0⟩ := by
  rw [dist2, show ((-100:ℝ) - 0) ^ 2 + (0 - 0) ^ 2 = 100 ^ 2 by norm_num, sqrt_sq (by norm_num), radiusBound]
  norm_num

/-! ## C52 -/

/-- **C52.** The forward planner never drives backwards and the backward planner never forwards, provided that the
clothoids are long compared to the tolerance for one- and two-turn paths. -/
theorem C52_cc00_direction (h : InRange sp.kappa sp.sigma) (s1 s2 : State) (hfar : dist2 s1 s2 ≤ 10 ^ 100)
    (hA : 1 / 1000 * (1 + radiusBound sp.kappa sp.sigma) ≤ min (sp.kappa / sp.sigma) (1 / √sp.sigma / 2)) :
    ∃ cs, CC00.get_controls sp s1 s2 = some cs ∧ DrivesOnly (if sp.forwards then 1 else -1) cs := by
  obtain ⟨cs, hcs, hok, _⟩ := Spec.CC00.plan h s1 s2 hfar (tau := SF.epsilon) (by norm_num [SF.epsilon])
    fun x _ => tiny_le _ _
  have := ccA_lower' h.kappa h.sigma h.clothoid
  have := Spec.CC00.radius_le' h
  exact ⟨cs, hcs, hok.oneWay (Spec.CC00.radius_nonneg h) (by norm_num [SF.epsilon]; linarith)⟩

example : 1 / 1000 * (1 + radiusBound 1 1) ≤ min ((1:ℝ) / 1) (1 / √1 / 2) := by
  rw [radiusBound]; norm_num

end Props
