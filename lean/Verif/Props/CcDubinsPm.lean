import Verif.Lemmas.PmEmpty

/-!
# Properties of the CC-Dubins planners with curvature at the ends
-/

noncomputable section

namespace Props

open SF Spec Real

variable {sp : HCSpace}

/-- Position tolerance of the planners for controls `cs`. -/
def planTol (sp : HCSpace) (cs : List Control) : ℝ :=
  1 / 10000 * (2 + 7 * radiusBound sp.kappa sp.sigma + 3 * lengthOf cs)

theorem PlanOk_leadsTo {d k0 k1 len : ℝ} {ts : List (Circle × Configuration)} {cs : List Control} {s1 s2 : State} {t : ℕ}
    (h : InRange sp.kappa sp.sigma) (hok : PlanOk sp.kappa sp.sigma d k0 k1 ts cs (pose s1) (pose s2) len t) :
    LeadsTo cs s1 s2 (planTol sp cs) (3 / 10000) := by
  refine Leads.leadsTo ((hok.leads h.rng).mono ?_ ?_ le_rfl)
  · rw [planTol, lengthOf, SF.epsilon]
  · norm_num [SF.epsilon]

theorem PlanOk_euclid {d k0 k1 len : ℝ} {ts : List (Circle × Configuration)} {cs : List Control} {s1 s2 : State} {t : ℕ}
    (h : InRange sp.kappa sp.sigma) (hok : PlanOk sp.kappa sp.sigma d k0 k1 ts cs (pose s1) (pose s2) len t) :
    dist2 s1 s2 ≤ len + planTol sp cs + 1 / 10000 * (1 + 4 * radiusBound sp.kappa sp.sigma) + pathTol (cs.map seg) := by
  have := (hok.leads h.rng).euclid
  have hd : (pose s1).dist (pose s2) = dist2 s1 s2 := by rw [Config.dist_comm]; rfl
  rw [hd] at this
  rw [planTol, lengthOf]
  norm_num [SF.epsilon] at *
  linarith

/-! ## C40 -/

/-- **C40 (partial).** Unless a start circle and a goal circle of opposite sense have the same centre up to 1e-4, the controls of
CC0pm-Dubins exist and lead from `state1` to `state2` up to the resolution of the library. -/
theorem C40_cc0pm_reaches_partial (h : InRange sp.kappa sp.sigma) (s1 s2 : State) (hfar : dist2 s1 s2 ≤ 10 ^ 100)
    (ho : ¬ CC0pm.Opposed sp s1 s2) :
    ∃ cs, SF.CC0pm.get_controls sp s1 s2 = some cs ∧ LeadsTo cs s1 s2 (planTol sp cs) (3 / 10000) := by
  obtain ⟨l, t, r, cs, _, _, hcs, _, _, _, hok⟩ := Spec.CC0pm.plan h s1 s2 hfar
  exact ⟨cs, hcs, PlanOk_leadsTo h (hok.resolve_left ho)⟩

/-- **C40, far apart (partial).** The same for states more than two radii apart. -/
theorem C40_cc0pm_reaches_far_partial (h : InRange sp.kappa sp.sigma) (s1 s2 : State) (hfar : dist2 s1 s2 ≤ 10 ^ 100)
    (hd : 2 * radiusBound sp.kappa sp.sigma + 1 / 10000 ≤ dist2 s1 s2) :
    ∃ cs, SF.CC0pm.get_controls sp s1 s2 = some cs ∧ LeadsTo cs s1 s2 (planTol sp cs) (3 / 10000) :=
  C40_cc0pm_reaches_partial h s1 s2 hfar fun ho => absurd (Spec.CC0pm.opposed_near h ho) (not_lt.2 hd)

/-- **C40, exact part (partial).** Without the shortcuts of the library the controls lead to `state2` exactly, up to the error of
the Fresnel integrals. -/
theorem C40_cc0pm_exact_partial (h : InRange sp.kappa sp.sigma) (s1 s2 : State) (hfar : dist2 s1 s2 ≤ 10 ^ 100)
    {p : CCPath} (hp : SF.CC0pm.cc0pm_dubins sp s1 s2 = some p) (ho : ¬ CC0pm.Opposed sp s1 s2)
    (ht : p.type = cc_dubins.TST ∨ p.type = cc_dubins.TTT)
    (hturn : ∀ x ∈ Spec.CC0pm.turns p.type p.row, x.1.deflection x.2 = 0 ∨ 1 / 10000 ≤ x.1.deflection x.2) :
    ∃ cs, SF.CC0pm.get_controls sp s1 s2 = some cs ∧ LeadsTo cs s1 s2 0 0 := by
  obtain ⟨l, t, r, cs, _, hd, hcs, _, _, _, hok⟩ := Spec.CC0pm.plan h s1 s2 hfar
  obtain rfl := Option.some.inj (hp.symm.trans hd)
  have hp := hok.resolve_left ho
  refine ⟨cs, hcs, Leads.leadsTo (hp.precise ?_ ?_ ?_ hturn)⟩ <;> rcases ht with ht | ht <;>
    simp only at ht <;> rw [ht] <;> norm_num

/-- **C40, `get_path` (partial).** If no control has a sharpness that the integration neglects, the last state of `get_path` is
`state2` up to the same errors. -/
theorem C40_cc0pm_get_path_partial (h : InRange sp.kappa sp.sigma) (hd : 0 < sp.discretization) (s1 s2 : State)
    (hfar : dist2 s1 s2 ≤ 10 ^ 100) (ho : ¬ CC0pm.Opposed sp s1 s2)
    (hs : ∀ cs, SF.CC0pm.get_controls sp s1 s2 = some cs → Sharp cs) :
    ∃ cs l e, SF.CC0pm.get_controls sp s1 s2 = some cs ∧ SF.CC0pm.get_path sp s1 s2 = some l ∧ l.getLast? = some e ∧
      Within (planTol sp cs + 2 * pathTol (cs.map seg)) (3 / 10000) (pose e) (pose s2) := by
  obtain ⟨l, t, r, cs, _, _, hcs, _, _, hb, hok⟩ := Spec.CC0pm.plan h s1 s2 hfar
  have hp := hok.resolve_left ho
  obtain ⟨k0, k1, hk⟩ := hb.cont
  obtain ⟨l, e, g1, g2, g3⟩ := LeadsTo.integrate (PlanOk_leadsTo h hp) hd hb.ne hk (hs _ hcs) hp.flat
  exact ⟨cs, l, e, hcs, by rw [SF.CC0pm.get_path, hcs]; exact g1, g2, g3⟩

/-- States to which the partial theorems apply. -/
example : ¬ CC0pm.Opposed ⟨1, 1, 1, true⟩ ⟨0, 0, 0, 0, 0⟩ ⟨-100, 0, 0, 1, 0⟩ := by
  intro h
  have := Spec.CC0pm.opposed_near (by constructor <;> norm_num) h
  rw [dist2, show ((-100:ℝ) - 0) ^ 2 + (0 - 0) ^ 2 = 100 ^ 2 by norm_num, sqrt_sq (by norm_num), radiusBound] at this
  norm_num at this

/-- **C40 is false.** For `kappa = 1`, `sigma = 100` and a goal of curvature `-1` more than 1 m away from the start, the controls
miss the goal by at least 1 m; they end with curvature `+1`, and `get_distance` is 1 cm. -/
theorem C40_cc0pm_false : ∃ (sp : HCSpace) (s1 s2 : State) (cs : List Control), InRange sp.kappa sp.sigma ∧
    s2.kappa = -sp.kappa ∧ SF.CC0pm.get_controls sp s1 s2 = some cs ∧ SF.CC0pm.get_distance sp s1 s2 = some (1 / 100) ∧
    CurvatureContinuous 0 (cs.map seg) sp.kappa ∧ (∀ a b, LeadsTo cs s1 s2 a b → 1 ≤ a) ∧ 1 ≤ dist2 s1 s2 := by
  obtain ⟨cs, h1, h2, h3, h4, h5⟩ := Spec.CC0pm.witness
  exact ⟨Spec.CC0pm.wsp, Spec.CC0pm.ws1, Spec.CC0pm.ws2, cs, Spec.CC0pm.wrng, rfl, h1, h2, h3, h4, h5⟩

/-! ## C53 -/

/-- **C53 (partial).** The same for CCpm0-Dubins. -/
theorem C53_ccpm0_reaches_partial (h : InRange sp.kappa sp.sigma) (s1 s2 : State) (hfar : dist2 s1 s2 ≤ 10 ^ 100)
    (ho : ¬ CCpm0.Opposed sp s1 s2) :
    ∃ cs, SF.CCpm0.get_controls sp s1 s2 = some cs ∧ LeadsTo cs s1 s2 (planTol sp cs) (3 / 10000) := by
  obtain ⟨l, t, r, cs, _, _, hcs, _, _, _, hok⟩ := Spec.CCpm0.plan h s1 s2 hfar
  exact ⟨cs, hcs, PlanOk_leadsTo h (hok.resolve_left ho)⟩

/-- **C53, far apart (partial).** -/
theorem C53_ccpm0_reaches_far_partial (h : InRange sp.kappa sp.sigma) (s1 s2 : State) (hfar : dist2 s1 s2 ≤ 10 ^ 100)
    (hd : 2 * radiusBound sp.kappa sp.sigma + 1 / 10000 ≤ dist2 s1 s2) :
    ∃ cs, SF.CCpm0.get_controls sp s1 s2 = some cs ∧ LeadsTo cs s1 s2 (planTol sp cs) (3 / 10000) :=
  C53_ccpm0_reaches_partial h s1 s2 hfar fun ho => absurd (Spec.CCpm0.opposed_near h ho) (not_lt.2 hd)

/-- **C53, exact part (partial).** -/
theorem C53_ccpm0_exact_partial (h : InRange sp.kappa sp.sigma) (s1 s2 : State) (hfar : dist2 s1 s2 ≤ 10 ^ 100)
    {p : CCPath} (hp : SF.CCpm0.ccpm0_dubins sp s1 s2 = some p) (ho : ¬ CCpm0.Opposed sp s1 s2)
    (ht : p.type = cc_dubins.TST ∨ p.type = cc_dubins.TTT)
    (hturn : ∀ x ∈ Spec.CCpm0.turns p.type p.row, x.1.deflection x.2 = 0 ∨ 1 / 10000 ≤ x.1.deflection x.2) :
    ∃ cs, SF.CCpm0.get_controls sp s1 s2 = some cs ∧ LeadsTo cs s1 s2 0 0 := by
  obtain ⟨l, t, r, cs, _, hd, hcs, _, _, _, hok⟩ := Spec.CCpm0.plan h s1 s2 hfar
  obtain rfl := Option.some.inj (hp.symm.trans hd)
  have hp := hok.resolve_left ho
  refine ⟨cs, hcs, Leads.leadsTo (hp.precise ?_ ?_ ?_ hturn)⟩ <;> rcases ht with ht | ht <;>
    simp only at ht <;> rw [ht] <;> norm_num

/-- **C53, `get_path` (partial).** -/
theorem C53_ccpm0_get_path_partial (h : InRange sp.kappa sp.sigma) (hd : 0 < sp.discretization) (s1 s2 : State)
    (hfar : dist2 s1 s2 ≤ 10 ^ 100) (ho : ¬ CCpm0.Opposed sp s1 s2)
    (hs : ∀ cs, SF.CCpm0.get_controls sp s1 s2 = some cs → Sharp cs) :
    ∃ cs l e, SF.CCpm0.get_controls sp s1 s2 = some cs ∧ SF.CCpm0.get_path sp s1 s2 = some l ∧ l.getLast? = some e ∧
      Within (planTol sp cs + 2 * pathTol (cs.map seg)) (3 / 10000) (pose e) (pose s2) := by
  obtain ⟨l, t, r, cs, _, _, hcs, _, _, hb, hok⟩ := Spec.CCpm0.plan h s1 s2 hfar
  have hp := hok.resolve_left ho
  obtain ⟨k0, k1, hk⟩ := hb.cont
  obtain ⟨l, e, g1, g2, g3⟩ := LeadsTo.integrate (PlanOk_leadsTo h hp) hd hb.ne hk (hs _ hcs) hp.flat
  exact ⟨cs, l, e, hcs, by rw [SF.CCpm0.get_path, hcs]; exact g1, g2, g3⟩

/-- States to which the partial theorems apply. -/
example : ¬ CCpm0.Opposed ⟨1, 1, 1, true⟩ ⟨0, 0, 0, 1, 0⟩ ⟨-100, 0, 0, 0, 0⟩ := by
  intro h
  have := Spec.CCpm0.opposed_near (by constructor <;> norm_num) h
  rw [dist2, show ((-100:ℝ) - 0) ^ 2 + (0 - 0) ^ 2 = 100 ^ 2 by norm_num, sqrt_sq (by norm_num), radiusBound] at this
  norm_num at this

/-- **C53 is false.** -/
theorem C53_ccpm0_false : ∃ (sp : HCSpace) (s1 s2 : State) (cs : List Control), InRange sp.kappa sp.sigma ∧
    s1.kappa = -sp.kappa ∧ SF.CCpm0.get_controls sp s1 s2 = some cs ∧ SF.CCpm0.get_distance sp s1 s2 = some (1 / 100) ∧
    CurvatureContinuous sp.kappa (cs.map seg) 0 ∧ (∀ a b, LeadsTo cs s1 s2 a b → 1 ≤ a) ∧ 1 ≤ dist2 s1 s2 := by
  obtain ⟨cs, h1, h2, h3, h4, h5⟩ := Spec.CCpm0.witness
  exact ⟨Spec.CCpm0.wsp, Spec.CC0pm.ws2, Spec.CC0pm.ws1, cs, Spec.CCpm0.wrng, rfl, h1, h2, h3, h4, h5⟩

/-! ## C54 -/

/-- **C54.** The controls of CCpmpm-Dubins exist and lead from `state1` to `state2` up to the resolution of the library. -/
theorem C54_ccpmpm_reaches (h : InRange sp.kappa sp.sigma) (s1 s2 : State) (hfar : dist2 s1 s2 ≤ 10 ^ 100) :
    ∃ cs, SF.CCpmpm.get_controls sp s1 s2 = some cs ∧ LeadsTo cs s1 s2 (planTol sp cs) (3 / 10000) := by
  obtain ⟨l1, l2, t, r, cs, _, _, _, hcs, _, _, hok, _⟩ := Spec.CCpmpm.plan h s1 s2 hfar
  exact ⟨cs, hcs, PlanOk_leadsTo h hok⟩

/-- **C54, exact part.** Without the shortcuts of the library only the error of the Fresnel integrals remains. -/
theorem C54_ccpmpm_exact (h : InRange sp.kappa sp.sigma) (s1 s2 : State) (hfar : dist2 s1 s2 ≤ 10 ^ 100)
    {p : CCPath} (hp : SF.CCpmpm.ccpmpm_dubins sp s1 s2 = some p)
    (ht : p.type = cc_dubins.TST ∨ p.type = cc_dubins.TTT ∨ p.type = cc_dubins.TTTT)
    (hturn : ∀ x ∈ Spec.CCpmpm.turns p.type p.row, x.1.deflection x.2 = 0 ∨ 1 / 10000 ≤ x.1.deflection x.2) :
    ∃ cs, SF.CCpmpm.get_controls sp s1 s2 = some cs ∧ LeadsTo cs s1 s2 0 0 := by
  obtain ⟨l1, l2, t, r, cs, _, _, hd, hcs, _, _, hok, _⟩ := Spec.CCpmpm.plan h s1 s2 hfar
  obtain rfl := Option.some.inj (hp.symm.trans hd)
  refine ⟨cs, hcs, Leads.leadsTo (hok.precise ?_ ?_ ?_ hturn)⟩ <;> rcases ht with ht | ht | ht <;>
    simp only at ht <;> rw [ht] <;> norm_num

/-- **C54, `get_path`.** -/
theorem C54_ccpmpm_get_path (h : InRange sp.kappa sp.sigma) (hd : 0 < sp.discretization) (s1 s2 : State)
    (hfar : dist2 s1 s2 ≤ 10 ^ 100) (hs : ∀ cs, SF.CCpmpm.get_controls sp s1 s2 = some cs → Sharp cs) :
    ∃ cs l e, SF.CCpmpm.get_controls sp s1 s2 = some cs ∧ SF.CCpmpm.get_path sp s1 s2 = some l ∧
      l.getLast? = some e ∧
      Within (planTol sp cs + 2 * pathTol (cs.map seg)) (3 / 10000) (pose e) (pose s2) := by
  obtain ⟨l1, l2, t, r, cs, _, _, _, hcs, _, _, hok, _⟩ := Spec.CCpmpm.plan h s1 s2 hfar
  have hb := hok.basic h.rng
  obtain ⟨k0, k1, hk⟩ := hb.cont
  obtain ⟨l, e, g1, g2, g3⟩ := LeadsTo.integrate (PlanOk_leadsTo h hok) hd hb.ne hk (hs _ hcs) hok.flat
  exact ⟨cs, l, e, hcs, by rw [SF.CCpmpm.get_path, hcs]; exact g1, g2, g3⟩

/-- Parameters and states of C54. -/
example : InRange 1 1 ∧ dist2 ⟨0, 0, 0, 1, 0⟩ ⟨3, 4, 2, -1, 0⟩ ≤ 10 ^ 100 := by
  refine ⟨by constructor <;> norm_num, ?_⟩
  rw [dist2, show ((3:ℝ) - 0) ^ 2 + (4 - 0) ^ 2 = 5 ^ 2 by norm_num, sqrt_sq (by norm_num)]
  norm_num

/-! ## C55 -/

/-- **C55, CC0pm.** `get_distance` is the length of the controls, exactly if no CC turn deflects by less than 1e-4 and up to
`1e-4 (1 + 4 R)` in general.  This also holds for the paths that miss the goal. -/
theorem C55_cc0pm_distance (h : InRange sp.kappa sp.sigma) (s1 s2 : State) (hfar : dist2 s1 s2 ≤ 10 ^ 100) :
    ∃ p cs len, SF.CC0pm.cc0pm_dubins sp s1 s2 = some p ∧ SF.CC0pm.get_controls sp s1 s2 = some cs ∧
      SF.CC0pm.get_distance sp s1 s2 = some len ∧
      |len - lengthOf cs| ≤ 1 / 10000 * (1 + 4 * radiusBound sp.kappa sp.sigma) ∧
      ((∀ x ∈ Spec.CC0pm.turns p.type p.row, 1 / 10000 ≤ x.1.deflection x.2) → len = lengthOf cs) := by
  obtain ⟨l, t, r, cs, _, hd, hcs, hl, _, hb, _⟩ := Spec.CC0pm.plan h s1 s2 hfar
  refine ⟨_, cs, _, hd, hcs, hl, ?_, fun ht => (hb.exact ht).symm⟩
  rw [abs_sub_comm]; exact hb.length

/-- **C55, CCpm0.** -/
theorem C55_ccpm0_distance (h : InRange sp.kappa sp.sigma) (s1 s2 : State) (hfar : dist2 s1 s2 ≤ 10 ^ 100) :
    ∃ p cs len, SF.CCpm0.ccpm0_dubins sp s1 s2 = some p ∧ SF.CCpm0.get_controls sp s1 s2 = some cs ∧
      SF.CCpm0.get_distance sp s1 s2 = some len ∧
      |len - lengthOf cs| ≤ 1 / 10000 * (1 + 4 * radiusBound sp.kappa sp.sigma) ∧
      ((∀ x ∈ Spec.CCpm0.turns p.type p.row, 1 / 10000 ≤ x.1.deflection x.2) → len = lengthOf cs) := by
  obtain ⟨l, t, r, cs, _, hd, hcs, hl, _, hb, _⟩ := Spec.CCpm0.plan h s1 s2 hfar
  refine ⟨_, cs, _, hd, hcs, hl, ?_, fun ht => (hb.exact ht).symm⟩
  rw [abs_sub_comm]; exact hb.length

/-- **C55, CCpmpm.** -/
theorem C55_ccpmpm_distance (h : InRange sp.kappa sp.sigma) (s1 s2 : State) (hfar : dist2 s1 s2 ≤ 10 ^ 100) :
    ∃ p cs len, SF.CCpmpm.ccpmpm_dubins sp s1 s2 = some p ∧ SF.CCpmpm.get_controls sp s1 s2 = some cs ∧
      SF.CCpmpm.get_distance sp s1 s2 = some len ∧
      |len - lengthOf cs| ≤ 1 / 10000 * (1 + 4 * radiusBound sp.kappa sp.sigma) ∧
      ((∀ x ∈ Spec.CCpmpm.turns p.type p.row, 1 / 10000 ≤ x.1.deflection x.2) → len = lengthOf cs) := by
  obtain ⟨l1, l2, t, r, cs, _, _, hd, hcs, hl, _, hok, _⟩ := Spec.CCpmpm.plan h s1 s2 hfar
  have hb := hok.basic h.rng
  refine ⟨_, cs, _, hd, hcs, hl, ?_, fun ht => (hb.exact ht).symm⟩
  rw [abs_sub_comm]; exact hb.length

/-! ## C56 -/

/-- **C56, CC0pm.** A path is always found: the null pointer of a skipped combination is never dereferenced, the distance is
bounded, so it is never the "no path" value, and there are controls. -/
theorem C56_cc0pm_always (h : InRange sp.kappa sp.sigma) (s1 s2 : State) (hfar : dist2 s1 s2 ≤ 10 ^ 100) :
    ∃ len cs, SF.CC0pm.get_distance sp s1 s2 = some len ∧
      len ≤ dist2 s1 s2 + 40 * (sp.kappa / sp.sigma) + 60 / sp.kappa ∧ len < dblMax ∧
      SF.CC0pm.get_controls sp s1 s2 = some cs ∧ cs ≠ [] := by
  obtain ⟨l, t, r, cs, _, _, hcs, hl, hlen, hb, _⟩ := Spec.CC0pm.plan h s1 s2 hfar
  exact ⟨_, cs, hl, hlen, hlen.trans_lt (bound_finite h hfar), hcs, hb.ne⟩

/-- **C56, CCpm0.** -/
theorem C56_ccpm0_always (h : InRange sp.kappa sp.sigma) (s1 s2 : State) (hfar : dist2 s1 s2 ≤ 10 ^ 100) :
    ∃ len cs, SF.CCpm0.get_distance sp s1 s2 = some len ∧
      len ≤ dist2 s1 s2 + 40 * (sp.kappa / sp.sigma) + 60 / sp.kappa ∧ len < dblMax ∧
      SF.CCpm0.get_controls sp s1 s2 = some cs ∧ cs ≠ [] := by
  obtain ⟨l, t, r, cs, _, _, hcs, hl, hlen, hb, _⟩ := Spec.CCpm0.plan h s1 s2 hfar
  exact ⟨_, cs, hl, hlen, hlen.trans_lt (bound_finite h hfar), hcs, hb.ne⟩

/-- **C56, CCpmpm.** -/
theorem C56_ccpmpm_always (h : InRange sp.kappa sp.sigma) (s1 s2 : State) (hfar : dist2 s1 s2 ≤ 10 ^ 100) :
    ∃ len cs, SF.CCpmpm.get_distance sp s1 s2 = some len ∧
      len ≤ dist2 s1 s2 + 40 * (sp.kappa / sp.sigma) + 60 / sp.kappa ∧ len < dblMax ∧
      SF.CCpmpm.get_controls sp s1 s2 = some cs ∧ cs ≠ [] := by
  obtain ⟨l1, l2, t, r, cs, _, _, _, hcs, hl, hlen, hok, _⟩ := Spec.CCpmpm.plan h s1 s2 hfar
  exact ⟨_, cs, hl, hlen, hlen.trans_lt (bound_finite h hfar), hcs, (hok.basic h.rng).ne⟩

/-! ## C57 -/

/-- **C57, CC0pm (partial).** Unless start and goal pose coincide or there are opposed circles, the curvature is continuous, zero at
the start and `±kappa` at the goal with the sign of the goal's curvature.  If the path has more than two turns or a straight line, curvature
and sharpness respect the limits up to the relative error of the Fresnel integrals. -/
theorem C57_cc0pm_curvature_partial (h : InRange sp.kappa sp.sigma) (s1 s2 : State) (hfar : dist2 s1 s2 ≤ 10 ^ 100)
    {p : CCPath} (hp : SF.CC0pm.cc0pm_dubins sp s1 s2 = some p) (ho : ¬ CC0pm.Opposed sp s1 s2)
    (hE : p.type ≠ cc_dubins.E) :
    ∃ cs l, SF.CC0pm.get_controls sp s1 s2 = some cs ∧ Toward l s2.kappa ∧
      CurvatureContinuous 0 (cs.map seg) (sideCurvature sp.kappa l) ∧
      (p.type ≠ cc_dubins.T → p.type ≠ cc_dubins.TT → CurvatureAtMost (sp.kappa * (1 + 1 / 10 ^ 8)) (cs.map seg) ∧
        SharpnessAtMost (sp.sigma * (1 + 2 / 10 ^ 8)) (cs.map seg)) := by
  obtain ⟨l, t, r, cs, hT, hd, hcs, _, _, _, hok⟩ := Spec.CC0pm.plan h s1 s2 hfar
  obtain rfl := Option.some.inj (hp.symm.trans hd)
  have hok := hok.resolve_left ho
  exact ⟨cs, l, hcs, hT, hok.cont hE, fun h2 h3 => hok.limits h.rng h2 h3⟩

/-- **C57, CCpm0 (partial).** -/
theorem C57_ccpm0_curvature_partial (h : InRange sp.kappa sp.sigma) (s1 s2 : State) (hfar : dist2 s1 s2 ≤ 10 ^ 100)
    {p : CCPath} (hp : SF.CCpm0.ccpm0_dubins sp s1 s2 = some p) (ho : ¬ CCpm0.Opposed sp s1 s2)
    (hE : p.type ≠ cc_dubins.E) :
    ∃ cs l, SF.CCpm0.get_controls sp s1 s2 = some cs ∧ Toward l s1.kappa ∧
      CurvatureContinuous (sideCurvature sp.kappa l) (cs.map seg) 0 ∧
      (p.type ≠ cc_dubins.T → p.type ≠ cc_dubins.TT → CurvatureAtMost (sp.kappa * (1 + 1 / 10 ^ 8)) (cs.map seg) ∧
        SharpnessAtMost (sp.sigma * (1 + 2 / 10 ^ 8)) (cs.map seg)) := by
  obtain ⟨l, t, r, cs, hT, hd, hcs, _, _, _, hok⟩ := Spec.CCpm0.plan h s1 s2 hfar
  obtain rfl := Option.some.inj (hp.symm.trans hd)
  have hok := hok.resolve_left ho
  exact ⟨cs, l, hcs, hT, hok.cont hE, fun h2 h3 => hok.limits h.rng h2 h3⟩

/-- **C57, CCpmpm (partial).** Unless the poses coincide or one turn suffices, the curvature is continuous with the signs of
the given curvatures at both ends. -/
theorem C57_ccpmpm_curvature_partial (h : InRange sp.kappa sp.sigma) (s1 s2 : State) (hfar : dist2 s1 s2 ≤ 10 ^ 100)
    {p : CCPath} (hp : SF.CCpmpm.ccpmpm_dubins sp s1 s2 = some p)
    (hE : p.type ≠ cc_dubins.E) (hT : p.type ≠ cc_dubins.T) :
    ∃ cs l1 l2, SF.CCpmpm.get_controls sp s1 s2 = some cs ∧ Toward l1 s1.kappa ∧ Toward l2 s2.kappa ∧
      CurvatureContinuous (sideCurvature sp.kappa l1) (cs.map seg) (sideCurvature sp.kappa l2) ∧
      (p.type ≠ cc_dubins.TT → CurvatureAtMost (sp.kappa * (1 + 1 / 10 ^ 8)) (cs.map seg) ∧
        SharpnessAtMost (sp.sigma * (1 + 2 / 10 ^ 8)) (cs.map seg)) := by
  obtain ⟨l1, l2, t, r, cs, hT1, hT2, hd, hcs, _, _, hok, _⟩ := Spec.CCpmpm.plan h s1 s2 hfar
  obtain rfl := Option.some.inj (hp.symm.trans hd)
  simp only at hT
  rw [if_neg hT] at hok
  exact ⟨cs, l1, l2, hcs, hT1, hT2, hok.cont hE, fun h3 => hok.limits h.rng hT h3⟩

/-- **C57 is false for CC0pm:** to a goal at the start pose with curvature `kappa = 1` the curvature stays zero. -/
theorem C57_cc0pm_false : ∃ (sp : HCSpace) (s1 s2 : State) (cs : List Control), InRange sp.kappa sp.sigma ∧
    s2.kappa = sp.kappa ∧ SF.CC0pm.get_controls sp s1 s2 = some cs ∧
    ∀ k0 k1, CurvatureContinuous k0 (cs.map seg) k1 → k1 = 0 := by
  refine ⟨⟨1, 1, 1, true⟩, Spec.CC0pm.es1, Spec.CC0pm.es2, empty_controls, by constructor <;> norm_num, rfl, ?_, ?_⟩
  · rw [SF.CC0pm.get_controls, Spec.CC0pm.e_plan]; rfl
  · intro k0 k1 h
    have := h.2
    simpa [seg, empty_controls, CurvatureContinuous] using this.symm

/-- **C57 is false for CCpm0.** -/
theorem C57_ccpm0_false : ∃ (sp : HCSpace) (s1 s2 : State) (cs : List Control), InRange sp.kappa sp.sigma ∧
    s1.kappa = sp.kappa ∧ SF.CCpm0.get_controls sp s1 s2 = some cs ∧
    ∀ k0 k1, CurvatureContinuous k0 (cs.map seg) k1 → k0 = 0 := by
  refine ⟨⟨1, 1, 1, true⟩, Spec.CC0pm.es2, Spec.CC0pm.es1, empty_controls, by constructor <;> norm_num, rfl, ?_, ?_⟩
  · rw [SF.CCpm0.get_controls, Spec.CCpm0.e_plan]; rfl
  · intro k0 k1 h
    simpa [seg, empty_controls] using h.1.symm

/-- **C57 is false for CCpmpm:** from the origin, turning left with curvature 1, to a state a quarter turn further that turns
right, the controls are a left turn only; the curvature at the goal is `+1` instead of `-1`. -/
theorem C57_ccpmpm_false : ∃ (sp : HCSpace) (s1 s2 : State) (cs : List Control), InRange sp.kappa sp.sigma ∧
    s1.kappa = sp.kappa ∧ s2.kappa = -sp.kappa ∧ SF.CCpmpm.get_controls sp s1 s2 = some cs ∧
    ∀ k0 k1, CurvatureContinuous k0 (cs.map seg) k1 → k1 = sp.kappa := by
  obtain ⟨x, hx⟩ := Spec.CCpmpm.t_controls
  refine ⟨_, _, _, _, ?_, rfl, rfl, hx, ?_⟩
  · constructor <;> norm_num [Spec.CCpmpm.tsp]
  · intro k0 k1 h
    have := h.2
    simp [seg, CurvatureContinuous] at this
    rw [← this]; rfl

/-! ## C58 -/

/-- **C58, CC0pm.** The forward planner never drives backwards and the backward planner never forwards, provided that the
clothoids are long compared to the tolerance for one- and two-turn paths. -/
theorem C58_cc0pm_direction (h : InRange sp.kappa sp.sigma) (s1 s2 : State) (hfar : dist2 s1 s2 ≤ 10 ^ 100)
    (hA : 1 / 1000 * (1 + 1 / sp.kappa) ≤ min (sp.kappa / sp.sigma) (1 / √sp.sigma / 2)) :
    ∃ cs, SF.CC0pm.get_controls sp s1 s2 = some cs ∧ DrivesOnly (if sp.forwards then 1 else -1) cs := by
  obtain ⟨l, t, r, cs, _, _, hcs, _, _, hb, _⟩ := Spec.CC0pm.plan h s1 s2 hfar
  have := ccA_lower' h.kappa h.sigma h.clothoid
  exact ⟨cs, hcs, hb.way (by rw [SF.epsilon]; linarith)⟩

/-- **C58, CCpm0.** -/
theorem C58_ccpm0_direction (h : InRange sp.kappa sp.sigma) (s1 s2 : State) (hfar : dist2 s1 s2 ≤ 10 ^ 100)
    (hA : 1 / 1000 * (1 + 1 / sp.kappa) ≤ min (sp.kappa / sp.sigma) (1 / √sp.sigma / 2)) :
    ∃ cs, SF.CCpm0.get_controls sp s1 s2 = some cs ∧ DrivesOnly (if sp.forwards then 1 else -1) cs := by
  obtain ⟨l, t, r, cs, _, _, hcs, _, _, hb, _⟩ := Spec.CCpm0.plan h s1 s2 hfar
  have := ccA_lower' h.kappa h.sigma h.clothoid
  exact ⟨cs, hcs, hb.way (by rw [SF.epsilon]; linarith)⟩

/-- **C58, CCpmpm.** -/
theorem C58_ccpmpm_direction (h : InRange sp.kappa sp.sigma) (s1 s2 : State) (hfar : dist2 s1 s2 ≤ 10 ^ 100)
    (hA : 1 / 1000 * (1 + 1 / sp.kappa) ≤ min (sp.kappa / sp.sigma) (1 / √sp.sigma / 2)) :
    ∃ cs, SF.CCpmpm.get_controls sp s1 s2 = some cs ∧ DrivesOnly (if sp.forwards then 1 else -1) cs := by
  obtain ⟨l1, l2, t, r, cs, _, _, _, hcs, _, _, hok, _⟩ := Spec.CCpmpm.plan h s1 s2 hfar
  have := ccA_lower' h.kappa h.sigma h.clothoid
  exact ⟨cs, hcs, (hok.basic h.rng).way (by rw [SF.epsilon]; linarith)⟩

example : 1 / 1000 * (1 + 1 / 1) ≤ min ((1:ℝ) / 1) (1 / √1 / 2) := by norm_num

/-! ## C59 -/

/-- **C59, CC0pm (partial).** Unless there are opposed circles, `get_distance` is not shorter than the Euclidean distance, up to the
tolerances. -/
theorem C59_cc0pm_euclid_partial (h : InRange sp.kappa sp.sigma) (s1 s2 : State) (hfar : dist2 s1 s2 ≤ 10 ^ 100)
    (ho : ¬ CC0pm.Opposed sp s1 s2) :
    ∃ cs len, SF.CC0pm.get_controls sp s1 s2 = some cs ∧ SF.CC0pm.get_distance sp s1 s2 = some len ∧
      dist2 s1 s2 ≤ len + planTol sp cs + 1 / 10000 * (1 + 4 * radiusBound sp.kappa sp.sigma)
        + pathTol (cs.map seg) := by
  obtain ⟨l, t, r, cs, _, _, hcs, hl, _, _, hok⟩ := Spec.CC0pm.plan h s1 s2 hfar
  exact ⟨cs, _, hcs, hl, PlanOk_euclid h (hok.resolve_left ho)⟩

/-- **C59, CCpm0 (partial).** -/
theorem C59_ccpm0_euclid_partial (h : InRange sp.kappa sp.sigma) (s1 s2 : State) (hfar : dist2 s1 s2 ≤ 10 ^ 100)
    (ho : ¬ CCpm0.Opposed sp s1 s2) :
    ∃ cs len, SF.CCpm0.get_controls sp s1 s2 = some cs ∧ SF.CCpm0.get_distance sp s1 s2 = some len ∧
      dist2 s1 s2 ≤ len + planTol sp cs + 1 / 10000 * (1 + 4 * radiusBound sp.kappa sp.sigma)
        + pathTol (cs.map seg) := by
  obtain ⟨l, t, r, cs, _, _, hcs, hl, _, _, hok⟩ := Spec.CCpm0.plan h s1 s2 hfar
  exact ⟨cs, _, hcs, hl, PlanOk_euclid h (hok.resolve_left ho)⟩

/-- **C59, CCpmpm.** -/
theorem C59_ccpmpm_euclid (h : InRange sp.kappa sp.sigma) (s1 s2 : State) (hfar : dist2 s1 s2 ≤ 10 ^ 100) :
    ∃ cs len, SF.CCpmpm.get_controls sp s1 s2 = some cs ∧ SF.CCpmpm.get_distance sp s1 s2 = some len ∧
      dist2 s1 s2 ≤ len + planTol sp cs + 1 / 10000 * (1 + 4 * radiusBound sp.kappa sp.sigma)
        + pathTol (cs.map seg) := by
  obtain ⟨l1, l2, t, r, cs, _, _, _, hcs, hl, _, hok, _⟩ := Spec.CCpmpm.plan h s1 s2 hfar
  exact ⟨cs, _, hcs, hl, PlanOk_euclid h hok⟩

/-- **C59 is false for CC0pm:** states at least 1 m apart at distance 1 cm. -/
theorem C59_cc0pm_false : ∃ (sp : HCSpace) (s1 s2 : State), InRange sp.kappa sp.sigma ∧
    SF.CC0pm.get_distance sp s1 s2 = some (1 / 100) ∧ 1 ≤ dist2 s1 s2 := by
  obtain ⟨cs, _, h2, _, _, h5⟩ := Spec.CC0pm.witness
  exact ⟨_, _, _, Spec.CC0pm.wrng, h2, h5⟩

/-- **C59 is false for CCpm0.** -/
theorem C59_ccpm0_false : ∃ (sp : HCSpace) (s1 s2 : State), InRange sp.kappa sp.sigma ∧
    SF.CCpm0.get_distance sp s1 s2 = some (1 / 100) ∧ 1 ≤ dist2 s1 s2 := by
  obtain ⟨cs, _, h2, _, _, h5⟩ := Spec.CCpm0.witness
  exact ⟨_, _, _, Spec.CCpm0.wrng, h2, h5⟩

end Props
