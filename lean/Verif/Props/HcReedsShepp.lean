import Verif.Lemmas.HcAll

/-!
# Properties of the hybrid-curvature Reeds-Shepp planners

`HC00`, `HC0pm`, `HCpm0` and `HCpmpm` are the cases of `pm1` and `pm2` (curvature `±kappa` instead of zero at the start and
at the goal).
-/

noncomputable section

namespace Props

open SF Spec Real

variable {sp : HCSpace} {pm1 pm2 : Bool}

/-- Position tolerance of the planners for controls `cs`. -/
def hcPlanTol (sp : HCSpace) (cs : List Control) : ℝ :=
  1 / 10000 * (2 + 8 * radiusBound sp.kappa sp.sigma + 4 * lengthOf cs)

theorem hcOk_leadsTo {k0 k1 len : ℝ} {ts : List (Circle × Configuration)} {cs : List Control} {s1 s2 : State} {t : ℕ}
    (h : InRange sp.kappa sp.sigma) (hok : Spec.HcOk pm1 pm2 sp.kappa sp.sigma k0 k1 ts cs (pose s1) (pose s2) len t) :
    LeadsTo cs s1 s2 (hcPlanTol sp cs) (3 / 10000) := by
  refine Leads.leadsTo ((hok.leads h.rng).mono ?_ ?_ le_rfl)
  · rw [hcPlanTol, lengthOf, SF.epsilon]
  · norm_num [SF.epsilon]

theorem not_opposed (hpm : pm1 = pm2) (s1 s2 : State) : ¬ HcRs.Opposed pm1 pm2 sp s1 s2 := fun h => h.1 hpm

/-- The plan without opposed circles. -/
theorem hc_plan (h : InRange sp.kappa sp.sigma) (s1 s2 : State) (hfar : dist2 s1 s2 ≤ 10 ^ 100)
    (ho : ¬ HcRs.Opposed pm1 pm2 sp s1 s2) :
    ∃ p l1 l2, SF.HcRs.reeds_shepp pm1 pm2 sp s1 s2 = some p ∧
      SF.HcRs.get_controls pm1 pm2 sp s1 s2 = some (SF.HcRs.path_controls p) ∧
      SF.HcRs.get_distance pm1 pm2 sp s1 s2 = some p.length ∧
      (pm1 = true → Toward l1 s1.kappa) ∧ (pm2 = true → Toward l2 s2.kappa) ∧
      Spec.HcOk pm1 pm2 sp.kappa sp.sigma (if pm1 then sideCurvature sp.kappa l1 else 0)
        (if pm2 then sideCurvature sp.kappa (if p.type = 2 ∧ pm1 = true ∧ pm2 = true then l1 else l2) else 0)
        (Spec.HcRs.ccTurns p) (SF.HcRs.path_controls p) (pose s1) (pose s2) p.length p.type := by
  obtain ⟨p, l1, l2, hp, _, hT1, hT2, _, hok⟩ := Spec.HcRs.plan (pm1 := pm1) (pm2 := pm2) h s1 s2 hfar
  exact ⟨p, l1, l2, hp, by rw [SF.HcRs.get_controls, hp]; rfl, by rw [SF.HcRs.get_distance, hp]; rfl, hT1, hT2,
    hok.resolve_left ho⟩

/-! ## C69 -/

/-- **C69.** The controls of HC00- and HCpmpm-Reeds-Shepp exist and lead from `state1` to `state2` up to the resolution of the
library. -/
theorem C69_hc_reaches (hpm : pm1 = pm2) (h : InRange sp.kappa sp.sigma) (s1 s2 : State) (hfar : dist2 s1 s2 ≤ 10 ^ 100) :
    ∃ cs, SF.HcRs.get_controls pm1 pm2 sp s1 s2 = some cs ∧ LeadsTo cs s1 s2 (hcPlanTol sp cs) (3 / 10000) := by
  obtain ⟨p, l1, l2, _, hcs, _, _, _, hok⟩ := hc_plan h s1 s2 hfar (not_opposed hpm s1 s2)
  exact ⟨_, hcs, hcOk_leadsTo h hok⟩

/-- **C69, exact part.** Without the shortcuts of the library, i.e. for paths with at least three turns or a straight line between
turns that do not deflect by less than 1e-4, only the error of the Fresnel integrals remains. -/
theorem C69_hc_exact (hpm : pm1 = pm2) (h : InRange sp.kappa sp.sigma) (s1 s2 : State) (hfar : dist2 s1 s2 ≤ 10 ^ 100)
    {p : SF.HcRs.RSPath} (hp : SF.HcRs.reeds_shepp pm1 pm2 sp s1 s2 = some p) (ht : hc_cc_rs.TcTcT ≤ p.type)
    (hturn : ∀ x ∈ Spec.HcRs.ccTurns p, x.1.deflection x.2 = 0 ∨ 1 / 10000 ≤ x.1.deflection x.2) :
    ∃ cs, SF.HcRs.get_controls pm1 pm2 sp s1 s2 = some cs ∧ LeadsTo cs s1 s2 0 0 := by
  obtain ⟨p', l1, l2, hp', hcs, _, _, _, hok⟩ := hc_plan h s1 s2 hfar (not_opposed hpm s1 s2)
  obtain rfl := Option.some.inj (hp.symm.trans hp')
  exact ⟨_, hcs, Leads.leadsTo (hok.precise ht hturn)⟩

/-- **C69, `get_path`.** If no control has a sharpness that the integration neglects, the last state of `get_path` is
`state2` up to the same errors. -/
theorem C69_hc_get_path (hpm : pm1 = pm2) (h : InRange sp.kappa sp.sigma) (hd : 0 < sp.discretization) (s1 s2 : State)
    (hfar : dist2 s1 s2 ≤ 10 ^ 100) (hs : ∀ cs, SF.HcRs.get_controls pm1 pm2 sp s1 s2 = some cs → Sharp cs) :
    ∃ cs l e, SF.HcRs.get_controls pm1 pm2 sp s1 s2 = some cs ∧ SF.HcRs.get_path pm1 pm2 sp s1 s2 = some l ∧
      l.getLast? = some e ∧
      Within (hcPlanTol sp cs + 2 * pathTol (cs.map seg)) (3 / 10000) (pose e) (pose s2) := by
  obtain ⟨p, l1, l2, _, hcs, _, _, _, hok⟩ := hc_plan h s1 s2 hfar (not_opposed hpm s1 s2)
  obtain ⟨l, e, g1, g2, g3⟩ := hok.integrate h.rng.kappa (hs _ hcs) hd (hcOk_leadsTo h hok)
  exact ⟨_, l, e, hcs, by rw [SF.HcRs.get_path, hcs]; exact g1, g2, g3⟩

/-- Parameters and states of C69. -/
example : InRange 1 1 ∧ dist2 ⟨0, 0, 0, 1, 0⟩ ⟨3, 4, 2, -1, 0⟩ ≤ 10 ^ 100 := by
  refine ⟨by constructor <;> norm_num, ?_⟩
  rw [dist2, show ((3:ℝ) - 0) ^ 2 + (4 - 0) ^ 2 = 5 ^ 2 by norm_num, sqrt_sq (by norm_num)]
  norm_num

/-! ## C70 -/

/-- **C70 (partial).** For HC0pm and HCpm0 the same, unless a start circle and a goal circle of opposite sense have the same
centre up to 1e-4. -/
theorem C70_hc_reaches_partial (h : InRange sp.kappa sp.sigma) (s1 s2 : State) (hfar : dist2 s1 s2 ≤ 10 ^ 100)
    (ho : ¬ HcRs.Opposed pm1 pm2 sp s1 s2) :
    ∃ cs, SF.HcRs.get_controls pm1 pm2 sp s1 s2 = some cs ∧ LeadsTo cs s1 s2 (hcPlanTol sp cs) (3 / 10000) := by
  obtain ⟨p, l1, l2, _, hcs, _, _, _, hok⟩ := hc_plan h s1 s2 hfar ho
  exact ⟨_, hcs, hcOk_leadsTo h hok⟩

/-- **C70, far apart (partial).** In particular for states more than two radii apart. -/
theorem C70_hc_reaches_far_partial (h : InRange sp.kappa sp.sigma) (s1 s2 : State) (hfar : dist2 s1 s2 ≤ 10 ^ 100)
    (hd : 2 * radiusBound sp.kappa sp.sigma + 1 / 10000 ≤ dist2 s1 s2) :
    ∃ cs, SF.HcRs.get_controls pm1 pm2 sp s1 s2 = some cs ∧ LeadsTo cs s1 s2 (hcPlanTol sp cs) (3 / 10000) :=
  C70_hc_reaches_partial h s1 s2 hfar fun ho => absurd (Spec.HcRs.opposed_near h ho) (not_lt.2 hd)

/-- **C70, exact part (partial).** -/
theorem C70_hc_exact_partial (h : InRange sp.kappa sp.sigma) (s1 s2 : State) (hfar : dist2 s1 s2 ≤ 10 ^ 100)
    (ho : ¬ HcRs.Opposed pm1 pm2 sp s1 s2) {p : SF.HcRs.RSPath} (hp : SF.HcRs.reeds_shepp pm1 pm2 sp s1 s2 = some p)
    (ht : hc_cc_rs.TcTcT ≤ p.type)
    (hturn : ∀ x ∈ Spec.HcRs.ccTurns p, x.1.deflection x.2 = 0 ∨ 1 / 10000 ≤ x.1.deflection x.2) :
    ∃ cs, SF.HcRs.get_controls pm1 pm2 sp s1 s2 = some cs ∧ LeadsTo cs s1 s2 0 0 := by
  obtain ⟨p', l1, l2, hp', hcs, _, _, _, hok⟩ := hc_plan h s1 s2 hfar ho
  obtain rfl := Option.some.inj (hp.symm.trans hp')
  exact ⟨_, hcs, Leads.leadsTo (hok.precise ht hturn)⟩

/-- **C70, `get_path` (partial).** -/
theorem C70_hc_get_path_partial (h : InRange sp.kappa sp.sigma) (hd : 0 < sp.discretization) (s1 s2 : State)
    (hfar : dist2 s1 s2 ≤ 10 ^ 100) (ho : ¬ HcRs.Opposed pm1 pm2 sp s1 s2)
    (hs : ∀ cs, SF.HcRs.get_controls pm1 pm2 sp s1 s2 = some cs → Sharp cs) :
    ∃ cs l e, SF.HcRs.get_controls pm1 pm2 sp s1 s2 = some cs ∧ SF.HcRs.get_path pm1 pm2 sp s1 s2 = some l ∧
      l.getLast? = some e ∧
      Within (hcPlanTol sp cs + 2 * pathTol (cs.map seg)) (3 / 10000) (pose e) (pose s2) := by
  obtain ⟨p, l1, l2, _, hcs, _, _, _, hok⟩ := hc_plan h s1 s2 hfar ho
  obtain ⟨l, e, g1, g2, g3⟩ := hok.integrate h.rng.kappa (hs _ hcs) hd (hcOk_leadsTo h hok)
  exact ⟨_, l, e, hcs, by rw [SF.HcRs.get_path, hcs]; exact g1, g2, g3⟩

/-- States to which the partial theorems apply. -/
example : ¬ HcRs.Opposed false true ⟨1, 1, 1, true⟩ ⟨0, 0, 0, 0, 0⟩ ⟨-100, 0, 0, 1, 0⟩ := by
  intro h
  have := Spec.HcRs.opposed_near (by constructor <;> norm_num) h
  rw [dist2, show ((-100:ℝ) - 0) ^ 2 + (0 - 0) ^ 2 = 100 ^ 2 by norm_num, sqrt_sq (by norm_num), radiusBound] at this
  norm_num at this

/-- **C70 is false for HC0pm.** For `kappa = 1`, `sigma = 100` and a goal of curvature `-1` at least 1 m away from the start,
`get_distance` is at most 1 cm and the controls end at least 0.9 m away from the goal. -/
theorem C70_hc0pm_false : ∃ (sp : HCSpace) (s1 s2 : State) (cs : List Control) (len : ℝ), InRange sp.kappa sp.sigma ∧
    s2.kappa = -sp.kappa ∧ SF.HcRs.get_controls false true sp s1 s2 = some cs ∧
    SF.HcRs.get_distance false true sp s1 s2 = some len ∧ len ≤ 1 / 100 ∧ 1 ≤ dist2 s1 s2 ∧
    ∀ e, DrivesAll (cs.map seg) (pose s1) e → 9 / 10 ≤ e.dist (pose s2) := by
  obtain ⟨p, hp, hl⟩ := Spec.HcRs.x_plan
  obtain ⟨h1, h2, _⟩ := Spec.HcRs.w_far
  exact ⟨Spec.CC0pm.wsp, Spec.CC0pm.ws1, Spec.CC0pm.ws2, _, _, Spec.CC0pm.wrng, rfl, by rw [SF.HcRs.get_controls, hp]; rfl,
    by rw [SF.HcRs.get_distance, hp]; rfl, hl, h1, Spec.HcRs.short h1 h2 hp hl⟩

/-- **C70 is false for HCpm0.** -/
theorem C70_hcpm0_false : ∃ (sp : HCSpace) (s1 s2 : State) (cs : List Control) (len : ℝ), InRange sp.kappa sp.sigma ∧
    s1.kappa = -sp.kappa ∧ SF.HcRs.get_controls true false sp s1 s2 = some cs ∧
    SF.HcRs.get_distance true false sp s1 s2 = some len ∧ len ≤ 1 / 100 ∧ 1 ≤ dist2 s1 s2 ∧
    ∀ e, DrivesAll (cs.map seg) (pose s1) e → 9 / 10 ≤ e.dist (pose s2) := by
  obtain ⟨p, hp, hl⟩ := Spec.HcRs.y_plan
  obtain ⟨h1, h2, h3⟩ := Spec.HcRs.w_far
  rw [← h3] at h1 h2
  exact ⟨Spec.CC0pm.wsp, Spec.CC0pm.ws2, Spec.CC0pm.ws1, _, _, Spec.CC0pm.wrng, rfl, by rw [SF.HcRs.get_controls, hp]; rfl,
    by rw [SF.HcRs.get_distance, hp]; rfl, hl, h1, Spec.HcRs.short h1 h2 hp hl⟩

/-! ## C71 -/

/-- **C71.** `get_distance` of the four planners is the length of the controls, exactly if no CC turn deflects by less than 1e-4
and up to `1e-4 (1 + 4 R)` in general.  This also holds for the paths that miss the goal. -/
theorem C71_hc_distance (h : InRange sp.kappa sp.sigma) (s1 s2 : State) (hfar : dist2 s1 s2 ≤ 10 ^ 100) :
    ∃ p cs len, SF.HcRs.reeds_shepp pm1 pm2 sp s1 s2 = some p ∧ SF.HcRs.get_controls pm1 pm2 sp s1 s2 = some cs ∧
      SF.HcRs.get_distance pm1 pm2 sp s1 s2 = some len ∧
      |len - lengthOf cs| ≤ 1 / 10000 * (1 + 4 * radiusBound sp.kappa sp.sigma) ∧
      ((∀ x ∈ Spec.HcRs.ccTurns p, 1 / 10000 ≤ x.1.deflection x.2) → len = lengthOf cs) := by
  obtain ⟨p, l1, l2, hp, _, _, _, hb, _⟩ := Spec.HcRs.plan (pm1 := pm1) (pm2 := pm2) h s1 s2 hfar
  refine ⟨p, _, _, hp, by rw [SF.HcRs.get_controls, hp]; rfl, by rw [SF.HcRs.get_distance, hp]; rfl, ?_,
    fun ht => (hb.exact ht).symm⟩
  rw [abs_sub_comm]; exact hb.length

/-! ## C72 -/

/-- **C72.** A path is always found: the null pointer of a skipped combination is never dereferenced, the distance is
bounded, so it is never the "no path" value, and there are controls. -/
theorem C72_hc_always (h : InRange sp.kappa sp.sigma) (s1 s2 : State) (hfar : dist2 s1 s2 ≤ 10 ^ 100) :
    ∃ len cs, SF.HcRs.get_distance pm1 pm2 sp s1 s2 = some len ∧
      len ≤ dist2 s1 s2 + 40 * (sp.kappa / sp.sigma) + 60 / sp.kappa ∧ len < dblMax ∧
      SF.HcRs.get_controls pm1 pm2 sp s1 s2 = some cs ∧ cs ≠ [] := by
  obtain ⟨p, l1, l2, hp, hlen, _, _, hb, _⟩ := Spec.HcRs.plan (pm1 := pm1) (pm2 := pm2) h s1 s2 hfar
  exact ⟨_, _, by rw [SF.HcRs.get_distance, hp]; rfl, hlen, hlen.trans_lt (bound_finite h hfar),
    by rw [SF.HcRs.get_controls, hp]; rfl, hb.ne⟩

/-! ## C73 -/

/-- **C73 (partial).** Unless the poses coincide, the circles are opposed, or both ends have curvature and one turn suffices, the
curvature is zero or `±kappa` with the sign of the state at both ends; in between it jumps only where the driving direction
changes, provided that the clothoids of one- and two-turn paths are long compared to the tolerance. -/
theorem C73_hc_curvature_partial (h : InRange sp.kappa sp.sigma) (s1 s2 : State) (hfar : dist2 s1 s2 ≤ 10 ^ 100)
    (ho : ¬ HcRs.Opposed pm1 pm2 sp s1 s2) {p : SF.HcRs.RSPath} (hp : SF.HcRs.reeds_shepp pm1 pm2 sp s1 s2 = some p)
    (hE : p.type ≠ hc_cc_rs.E) (hT : ¬ (p.type = hc_cc_rs.T ∧ pm1 = true ∧ pm2 = true)) :
    ∃ cs k0 k1, SF.HcRs.get_controls pm1 pm2 sp s1 s2 = some cs ∧
      EndCurvature pm1 sp.kappa s1 k0 ∧ StartsWith k0 (cs.map seg) ∧
      EndCurvature pm2 sp.kappa s2 k1 ∧ EndsWith k1 (cs.map seg) ∧
      ((p.type = hc_cc_rs.T ∨ p.type = hc_cc_rs.TT ∨ p.type = hc_cc_rs.TcT →
          1 / 1000 * (1 + radiusBound sp.kappa sp.sigma) ≤ min (sp.kappa / sp.sigma) (1 / √sp.sigma / 2)) →
        HybridCurvature (cs.map seg)) := by
  obtain ⟨p', l1, l2, hp', hcs, _, hT1, hT2, hok⟩ := hc_plan h s1 s2 hfar ho
  obtain rfl := Option.some.inj (hp.symm.trans hp')
  rw [if_neg hT] at hok
  have he := hok.ends hE
  have hA := ccA_lower' h.kappa h.sigma h.clothoid
  have hA0 : (0:ℝ) ≤ min (sp.kappa / sp.sigma) (1 / √sp.sigma / 2) := by
    have := h.rng.pos; have := h.sigma; positivity
  refine ⟨_, _, _, hcs, ?_, he.1, ?_, he.2, fun hc => hok.hybrid (fun ht => ?_) (by linarith)⟩
  · unfold EndCurvature
    split_ifs with hpm
    · exact ⟨l1, hT1 hpm, rfl⟩
    · rfl
  · unfold EndCurvature
    split_ifs with hpm
    · exact ⟨l2, hT2 hpm, rfl⟩
    · rfl
  · have := hc ht
    rw [SF.epsilon]; linarith

example : 1 / 1000 * (1 + radiusBound 1 1) ≤ min ((1:ℝ) / 1) (1 / √1 / 2) := by norm_num [radiusBound]

/-- Far states have neither opposed circles nor one- or two-turn paths. -/
theorem hc_far (h : InRange sp.kappa sp.sigma) {s1 s2 : State} (hfar : dist2 s1 s2 ≤ 10 ^ 100)
    (hd : 4 * radiusBound sp.kappa sp.sigma + 1 / 5000 ≤ dist2 s1 s2) :
    ¬ HcRs.Opposed pm1 pm2 sp s1 s2 ∧ ∃ p, SF.HcRs.reeds_shepp pm1 pm2 sp s1 s2 = some p ∧
      p.type ≠ hc_cc_rs.E ∧ p.type ≠ hc_cc_rs.T ∧ p.type ≠ hc_cc_rs.TT ∧ p.type ≠ hc_cc_rs.TcT := by
  have hR := h.rng.radius_nonneg
  obtain ⟨p, l1, l2, hp, hlen, _⟩ := Spec.HcRs.plan (pm1 := pm1) (pm2 := pm2) h s1 s2 hfar
  refine ⟨fun ho => ?_, p, hp, ?_⟩
  · have := Spec.HcRs.opposed_near h ho
    linarith
  · have ht : ¬ (p.type = 0 ∨ p.type = 2 ∨ p.type = 3 ∨ p.type = 4) := fun ht => by
      have := Spec.HcRs.type_near h.rng hp (hlen.trans_lt (bound_finite h hfar)) ht
      norm_num [SF.epsilon] at this hd
      linarith
    push Not at ht
    exact ht

/-- **C73, far apart (partial).** Without further assumptions for states more than four radii apart. -/
theorem C73_hc_curvature_far_partial (h : InRange sp.kappa sp.sigma) (s1 s2 : State) (hfar : dist2 s1 s2 ≤ 10 ^ 100)
    (hd : 4 * radiusBound sp.kappa sp.sigma + 1 / 5000 ≤ dist2 s1 s2) :
    ∃ cs k0 k1, SF.HcRs.get_controls pm1 pm2 sp s1 s2 = some cs ∧
      EndCurvature pm1 sp.kappa s1 k0 ∧ StartsWith k0 (cs.map seg) ∧
      EndCurvature pm2 sp.kappa s2 k1 ∧ EndsWith k1 (cs.map seg) ∧ HybridCurvature (cs.map seg) := by
  obtain ⟨ho, p, hp, hE, hT, hTT, hTcT⟩ := hc_far (pm1 := pm1) (pm2 := pm2) h hfar hd
  obtain ⟨cs, k0, k1, h1, h2, h3, h4, h5, h6⟩ := C73_hc_curvature_partial h s1 s2 hfar ho hp hE fun hc => hT hc.1
  exact ⟨cs, k0, k1, h1, h2, h3, h4, h5, h6 (by tauto)⟩

/-- States that are far apart. -/
example : 4 * radiusBound 1 1 + 1 / 5000 ≤ dist2 ⟨0, 0, 0, 0, 0⟩ ⟨-100, 0, 0, 1, 0⟩ := by
  rw [dist2, show ((-100:ℝ) - 0) ^ 2 + (0 - 0) ^ 2 = 100 ^ 2 by norm_num, sqrt_sq (by norm_num), radiusBound]
  norm_num

/-- **C73 is false:** between states with the same pose the curvature is zero, whatever the curvatures of the states. -/
theorem C73_hc_false_empty (pm1 pm2 : Bool) (s1 s2 : State) (hx : s1.x = s2.x) (hy : s1.y = s2.y) (ht : s1.theta = s2.theta) :
    ∃ cs, SF.HcRs.get_controls pm1 pm2 sp s1 s2 = some cs ∧
      ∀ k, StartsWith k (cs.map seg) ∨ EndsWith k (cs.map seg) → k = 0 := by
  refine ⟨empty_controls, by rw [SF.HcRs.get_controls, Spec.HcRs.same_pose hx hy ht]; rfl, ?_⟩
  rintro k (⟨c, hc, hk⟩ | ⟨c, hc, hk⟩) <;>
  · simp only [empty_controls, seg, List.map_cons, List.map_nil, List.head?_cons, List.getLast?_singleton,
      Option.some.injEq] at hc
    simp [← hk, ← hc]

/-- A state without and one with curvature at the same pose. -/
example : ∃ cs, SF.HcRs.get_controls false true ⟨1, 1, 1, true⟩ ⟨0, 0, 0, 0, 0⟩ ⟨0, 0, 0, 1, 0⟩ = some cs ∧
    ∀ k, StartsWith k (cs.map seg) ∨ EndsWith k (cs.map seg) → k = 0 :=
  C73_hc_false_empty _ _ _ _ rfl rfl rfl

/-- **C73 is false for HCpmpm:** from the origin, turning left with curvature 1, to a state a quarter turn further that turns
right, the curvature at the goal is `+1` instead of `-1`. -/
theorem C73_hcpmpm_false : ∃ (sp : HCSpace) (s1 s2 : State) (cs : List Control), InRange sp.kappa sp.sigma ∧
    s1.kappa = sp.kappa ∧ s2.kappa = -sp.kappa ∧ SF.HcRs.get_controls true true sp s1 s2 = some cs ∧
    EndsWith sp.kappa (cs.map seg) ∧ ∀ k, EndCurvature true sp.kappa s2 k → ¬ EndsWith k (cs.map seg) := by
  have hr : InRange Spec.CCpmpm.tsp.kappa Spec.CCpmpm.tsp.sigma := by constructor <;> norm_num [Spec.CCpmpm.tsp]
  have hfar : dist2 Spec.CCpmpm.ts1 Spec.CCpmpm.ts2 ≤ 10 ^ 100 := by
    rw [dist2]
    refine (sqrt_le_sqrt (y := 2 ^ 2) ?_).trans ?_
    · norm_num [Spec.CCpmpm.ts1, Spec.CCpmpm.ts2]
    · rw [sqrt_sq (by norm_num)]; norm_num
  obtain ⟨p, hp, ht⟩ := Spec.HcRs.t_plan
  obtain ⟨p', l1, l2, hp', hcs, _, hT1, _, hok⟩ := hc_plan hr _ _ hfar (not_opposed (pm1 := true) rfl _ _)
  obtain rfl := Option.some.inj (hp.symm.trans hp')
  have hc3 : p.type = 2 ∧ true = true ∧ true = true := ⟨ht, rfl, rfl⟩
  rw [if_pos hc3] at hok
  have he := (hok.ends (by rw [ht]; norm_num)).2
  have hl : l1 = true := by
    by_contra hc
    have := (hT1 rfl).2 (by simpa using hc)
    norm_num [Spec.CCpmpm.ts1] at this
  rw [if_pos rfl, hl] at he
  have hk : sideCurvature Spec.CCpmpm.tsp.kappa true = 1 := by rw [sideCurvature_eq]; norm_num [sg, Spec.CCpmpm.tsp]
  rw [hk] at he
  refine ⟨_, _, _, _, hr, rfl, rfl, hcs, he, ?_⟩
  rintro k ⟨l, hT, rfl⟩ ⟨c, hc, h1⟩
  obtain ⟨c', hc', h2⟩ := he
  obtain rfl := Option.some.inj (hc.symm.trans hc')
  have hl : l = false := by
    by_contra hc
    have := hT.1 (by simpa using hc)
    norm_num [Spec.CCpmpm.ts2] at this
  rw [h2, hl, sideCurvature_eq] at h1
  norm_num [sg, Spec.CCpmpm.tsp] at h1

/-! ## C74 -/

/-- **C74 (partial).** Curvature and sharpness respect the limits up to the relative error of the Fresnel integrals, except for
one- and two-turn paths with elementary CC turns (`T` without curvature at the ends, `TT` unless both ends have curvature), where
the CC turn starts from the given pose and not from the exact circle. -/
theorem C74_hc_limits_partial (h : InRange sp.kappa sp.sigma) (s1 s2 : State) (hfar : dist2 s1 s2 ≤ 10 ^ 100)
    {p : SF.HcRs.RSPath} (hp : SF.HcRs.reeds_shepp pm1 pm2 sp s1 s2 = some p)
    (h2 : p.type = hc_cc_rs.T → pm1 = true ∨ pm2 = true) (h3 : p.type = hc_cc_rs.TT → pm1 = true ∧ pm2 = true) :
    ∃ cs, SF.HcRs.get_controls pm1 pm2 sp s1 s2 = some cs ∧
      CurvatureAtMost (sp.kappa * (1 + 1 / 10 ^ 8)) (cs.map seg) ∧
      SharpnessAtMost (sp.sigma * (1 + 2 / 10 ^ 8)) (cs.map seg) := by
  obtain ⟨p', l1, l2, hp', _, _, _, hb, _⟩ := Spec.HcRs.plan (pm1 := pm1) (pm2 := pm2) h s1 s2 hfar
  obtain rfl := Option.some.inj (hp.symm.trans hp')
  exact ⟨_, by rw [SF.HcRs.get_controls, hp]; rfl, hb.limits h2 h3⟩

/-- **C74, far apart (partial).** Without further assumptions for states more than four radii apart. -/
theorem C74_hc_limits_far_partial (h : InRange sp.kappa sp.sigma) (s1 s2 : State) (hfar : dist2 s1 s2 ≤ 10 ^ 100)
    (hd : 4 * radiusBound sp.kappa sp.sigma + 1 / 5000 ≤ dist2 s1 s2) :
    ∃ cs, SF.HcRs.get_controls pm1 pm2 sp s1 s2 = some cs ∧
      CurvatureAtMost (sp.kappa * (1 + 1 / 10 ^ 8)) (cs.map seg) ∧
      SharpnessAtMost (sp.sigma * (1 + 2 / 10 ^ 8)) (cs.map seg) := by
  obtain ⟨ho, p, hp, hE, hT, hTT, hTcT⟩ := hc_far (pm1 := pm1) (pm2 := pm2) h hfar hd
  exact C74_hc_limits_partial h s1 s2 hfar hp (fun hc => absurd hc hT) fun hc => absurd hc hTT

/-- **C74, both ends with curvature.** HCpmpm always respects the limits. -/
theorem C74_hcpmpm_limits (h : InRange sp.kappa sp.sigma) (s1 s2 : State) (hfar : dist2 s1 s2 ≤ 10 ^ 100) :
    ∃ cs, SF.HcRs.get_controls true true sp s1 s2 = some cs ∧
      CurvatureAtMost (sp.kappa * (1 + 1 / 10 ^ 8)) (cs.map seg) ∧
      SharpnessAtMost (sp.sigma * (1 + 2 / 10 ^ 8)) (cs.map seg) := by
  obtain ⟨p', l1, l2, hp', hcs, _, _, _, hok⟩ := hc_plan h s1 s2 hfar (not_opposed (pm1 := true) rfl s1 s2)
  exact ⟨_, hcs, hok.limits h.rng (fun _ => .inl rfl) (fun _ => ⟨rfl, rfl⟩)⟩

/-! ## C75 -/

/-- **C75 (partial).** Unless there are opposed circles, `get_distance` is not shorter than the Euclidean distance, up to the
tolerances. -/
theorem C75_hc_euclid_partial (h : InRange sp.kappa sp.sigma) (s1 s2 : State) (hfar : dist2 s1 s2 ≤ 10 ^ 100)
    (ho : ¬ HcRs.Opposed pm1 pm2 sp s1 s2) :
    ∃ cs len, SF.HcRs.get_controls pm1 pm2 sp s1 s2 = some cs ∧ SF.HcRs.get_distance pm1 pm2 sp s1 s2 = some len ∧
      dist2 s1 s2 ≤ len + hcPlanTol sp cs + 1 / 10000 * (1 + 4 * radiusBound sp.kappa sp.sigma)
        + pathTol (cs.map seg) := by
  obtain ⟨p, l1, l2, _, hcs, hl, _, _, hok⟩ := hc_plan h s1 s2 hfar ho
  refine ⟨_, _, hcs, hl, ?_⟩
  have := (hok.leads h.rng).euclid
  have hd : (pose s1).dist (pose s2) = dist2 s1 s2 := by rw [Config.dist_comm]; rfl
  rw [hd] at this
  rw [hcPlanTol, lengthOf]
  norm_num [SF.epsilon] at *
  linarith

/-- **C75 is false for HC0pm:** states at least 1 m apart at a distance of at most 1 cm. -/
theorem C75_hc0pm_false : ∃ (sp : HCSpace) (s1 s2 : State) (len : ℝ), InRange sp.kappa sp.sigma ∧
    SF.HcRs.get_distance false true sp s1 s2 = some len ∧ len ≤ 1 / 100 ∧ 1 ≤ dist2 s1 s2 := by
  obtain ⟨sp, s1, s2, cs, len, h1, _, _, h2, h3, h4, _⟩ := C70_hc0pm_false
  exact ⟨sp, s1, s2, len, h1, h2, h3, h4⟩

/-- **C75 is false for HCpm0.** -/
theorem C75_hcpm0_false : ∃ (sp : HCSpace) (s1 s2 : State) (len : ℝ), InRange sp.kappa sp.sigma ∧
    SF.HcRs.get_distance true false sp s1 s2 = some len ∧ len ≤ 1 / 100 ∧ 1 ≤ dist2 s1 s2 := by
  obtain ⟨sp, s1, s2, cs, len, h1, _, _, h2, h3, h4, _⟩ := C70_hcpm0_false
  exact ⟨sp, s1, s2, len, h1, h2, h3, h4⟩

end Props
