import Verif.Lemmas.Covers
import Verif.Props.GetPath
import Verif.Props.Sideways

/-!
# Checking the states of a path checks the path: C133
-/

noncomputable section

namespace Props

open SF Spec Real

/-- Wherever the car is on the way given by the controls `cs` from `s`, one of the states `path` is at most `h` away and has a heading that
differs by at most `e`. -/
def Covers (h e : ℝ) (s : State) (cs : List Control) (path : List State) : Prop :=
  ∀ u a, At (cs.map seg) (pose s) u a → ∃ x ∈ path, Within h e a.cfg (pose x)

/-- **C133, integration of Dubins and Reeds-Shepp**, for all controls of curvature at most `K` that are straight or above the resolution. -/
theorem C133_integrate {disc K : ℝ} (hd : 0 < disc) (junk : ℝ × ℝ) (s : State) {cs : List Control} (hR : ∀ c ∈ cs, Resolved c)
    (hc : CurvatureAtMost K (cs.map seg)) : Covers (disc / 2) (K * (disc / 2)) s cs (integrate disc junk s cs) := by
  obtain ⟨q, hq⟩ := C12_integrate_samples hd junk s cs hR
  intro u a ha
  obtain ⟨b, hb, hw⟩ := hq.covers hd hc u a ha
  obtain ⟨x, hx, rfl⟩ := List.mem_map.1 hb
  exact ⟨x, hx, hw⟩

/-- Three controls to which it applies, and a place on the way between two states. -/
example : (∀ c ∈ ([⟨1, 1, 0⟩, ⟨-2, 0, 0⟩, ⟨0.3, -1, 0⟩] : List Control), Resolved c) ∧
    CurvatureAtMost 1 (([⟨1, 1, 0⟩, ⟨-2, 0, 0⟩, ⟨0.3, -1, 0⟩] : List Control).map seg) ∧
    At (([⟨1, 1, 0⟩, ⟨-2, 0, 0⟩, ⟨0.3, -1, 0⟩] : List Control).map seg) ⟨0, 0, 0⟩ (1 / 7) ⟨arrive 1 1 0 (1 / 7) ⟨0, 0, 0⟩, 1, 1⟩ := by
  refine ⟨?_, ?_, ?_⟩
  · intro c hc
    simp only [List.mem_cons, List.not_mem_nil, or_false] at hc
    rcases hc with rfl | rfl | rfl <;> norm_num [Resolved]
  · intro c hc t _ _
    simp only [List.map_cons, List.map_nil, List.mem_cons, List.not_mem_nil, or_false] at hc
    rcases hc with rfl | rfl | rfl <;> simp [seg]
  · have hdir : (seg ⟨1, 1, 0⟩).dir = 1 := by norm_num [Segment.dir, seg]
    refine .here (m := arrive 1 1 0 (1 / 7) ⟨0, 0, 0⟩) (by norm_num) (by norm_num [seg]) ?_ (SameConfig.refl _) (by simp [seg]) hdir.symm
    rw [drives_iff, hdir]; rfl

/-- Without the resolution C133 is false: half a circle of curvature 1e-4 is integrated as a straight line, and no state has the heading
at its end. -/
theorem C133_unresolved_false : ∃ (s : State) (c : Control), c.sigma = 0 ∧ CurvatureAtMost (1 / 10000) [seg c] ∧
    ∀ (disc : ℝ), 0 < disc → disc ≤ 1 → ∀ junk : ℝ × ℝ, ¬ Covers (disc / 2) (1 / 10000 * (disc / 2)) s [c] (integrate disc junk s [c]) := by
  have hp := pi_gt_three
  have hl : 0 < π * 10000 := by linarith
  refine ⟨⟨0, 0, 0, 0, 0⟩, ⟨π * 10000, 1 / 10000, 0⟩, rfl, ?_, ?_⟩
  · intro c hc t _ _
    rw [List.mem_singleton.1 hc]
    norm_num [seg, abs_of_pos]
  · intro disc hd hd1 junk hcov
    have hdir : (seg ⟨π * 10000, 1 / 10000, 0⟩).dir = 1 := by rw [Segment.dir, if_neg]; simp only [seg]; linarith
    obtain ⟨x, hx, -, t, ⟨n, ht⟩, hh⟩ := hcov (π * 10000) ⟨arrive 1 (1 / 10000) 0 (π * 10000) ⟨0, 0, 0⟩, 1 / 10000, 1⟩ (by
      refine .here (m := arrive 1 (1 / 10000) 0 (π * 10000) ⟨0, 0, 0⟩) hl.le ?_ ?_ (SameConfig.refl _) (by simp [seg]) hdir.symm
      · simp only [seg]; exact le_abs_self _
      · rw [drives_iff, hdir]; rfl)
    have hx0 : x.theta = 0 := integrateLoop_theta [⟨π * 10000, 1 / 10000, 0⟩] (by
      intro c hc
      rw [List.mem_singleton.1 hc]
      norm_num [abs_of_pos]) _ x hx
    have e1 : (arrive 1 (1 / 10000) 0 (π * 10000) ⟨0, 0, 0⟩).theta = π := by simp only [arrive, heading]; ring
    simp only at hh
    change t = x.theta + _ at ht
    rw [e1, ht, hx0, zero_add] at hh
    have h2 : |π - n * (2 * π)| ≤ 1 := hh.trans (by linarith)
    rcases le_or_gt n 0 with hn | hn
    · have : (n:ℝ) ≤ 0 := by exact_mod_cast hn
      have := (abs_le.1 h2).2
      nlinarith
    · have : (1:ℝ) ≤ n := by exact_mod_cast hn
      have := (abs_le.1 h2).1
      nlinarith

/-- **C133, integration of the planners with clothoids**, up to the error of the Fresnel integrals. -/
theorem C133_hc_integrate {disc K : ℝ} (hd : 0 < disc) (s : State) {cs : List Control} {k : ℝ} (hne : cs ≠ [])
    (hR : Representable k (cs.map seg)) (hk : ∀ c ∈ cs.head?, c.kappa = k) (hc : CurvatureAtMost K (cs.map seg)) :
    ∃ path, hcIntegrate disc s cs = some path ∧ Covers (disc / 2 + pathTol (cs.map seg)) (K * (disc / 2)) s cs path := by
  obtain ⟨c, cs, rfl⟩ := List.exists_cons_of_ne_nil hne
  have hk' : c.kappa = k := hk c rfl
  rw [← hk'] at hR
  obtain ⟨l, q, h1, h2⟩ := C12_hc_integrate_samples hd s c cs hR
  refine ⟨_, h1, ?_⟩
  intro u a ha
  obtain ⟨b, hb, hw⟩ := h2.covers hd hc (smp ⟨s.x, s.y, s.theta, c.kappa, sgn c.delta_s⟩) (Near.of_same le_rfl (SameConfig.refl _)) u a ha
  rw [zero_add] at hw
  rw [← List.map_cons (f := smp)] at hb
  obtain ⟨x, hx, rfl⟩ := List.mem_map.1 hb
  exact ⟨x, hx, hw⟩

/-- A clothoid to which it applies. -/
example : Representable 0 (([⟨1, 0, 1⟩, ⟨-2, 1, 0⟩] : List Control).map seg) ∧
    CurvatureAtMost 1 (([⟨1, 0, 1⟩, ⟨-2, 1, 0⟩] : List Control).map seg) := by
  refine ⟨?_, ?_⟩
  · norm_num [Representable, seg]
  · intro c hc t t0 t1
    simp only [List.map_cons, List.map_nil, List.mem_cons, List.not_mem_nil, or_false] at hc
    rcases hc with rfl | rfl
    · simp only [seg, abs_one] at t1 ⊢
      rw [abs_le]; constructor <;> linarith
    · simp [seg]

/-- **C133, Reeds-Shepp.** -/
theorem C133_rs {sp : RSSpace} (hv : sp.Valid) (hk : sp.kappa > 1 / 10000) (junk : ℝ × ℝ) (s1 s2 : State)
    (hfar : sp.kappa * dist2 s1 s2 ≤ 10 ^ 200) :
    Covers (sp.discretization / 2) (sp.kappa * (sp.discretization / 2)) s1 (sp.get_controls s1 s2) (sp.get_path junk s1 s2) := by
  obtain ⟨-, -, h3⟩ := C43_rs_controls hv s1 s2 hfar
  exact C133_integrate hv.2 junk s1 (fun c hc => ⟨(h3 c hc).2.1, (h3 c hc).1.imp_right (fun h => by rw [h]; exact hk)⟩)
    (curvature_arcs hv.1.le fun c hc => ⟨(h3 c hc).1, (h3 c hc).2.1⟩)

/-- **C133, Dubins.** -/
theorem C133_dubins {sp : DubinsSpace} (hv : sp.Valid) (hk : sp.kappa > 1 / 10000) (junk : ℝ × ℝ) (s1 s2 : State)
    (hfar : sp.kappa * dist2 s1 s2 ≤ 10 ^ 200) :
    Covers (sp.discretization / 2) (sp.kappa * (sp.discretization / 2)) s1 (sp.get_controls s1 s2) (sp.get_path junk s1 s2) := by
  obtain ⟨-, h3⟩ := C17_dubins_controls hv s1 s2 hfar
  exact C133_integrate hv.2 junk s1 (fun c hc => ⟨(h3 c hc).2.1, (h3 c hc).1.imp_right (fun h => by rw [h]; exact hk)⟩)
    (curvature_arcs hv.1.le fun c hc => ⟨(h3 c hc).1, (h3 c hc).2.1⟩)

/-- A planner and states to which C133 applies. -/
example : (⟨1, 1 / 10⟩ : RSSpace).Valid ∧ (1:ℝ) > 1 / 10000 ∧ (1:ℝ) * dist2 ⟨0, 0, 0, 0, 0⟩ ⟨-100, 0, 0, 0, 0⟩ ≤ 10 ^ 200 := by
  refine ⟨⟨by norm_num, by norm_num⟩, by norm_num, ?_⟩
  rw [dist2, show ((-100:ℝ) - 0) ^ 2 + (0 - 0) ^ 2 = 100 ^ 2 by norm_num, sqrt_sq (by norm_num)]
  norm_num

variable {sp : HCSpace}

/-- **C133, CC00-Dubins.** If no control has a sharpness that the integration neglects. -/
theorem C133_cc00 (h : InRange sp.kappa sp.sigma) (hd : 0 < sp.discretization) (s1 s2 : State) (hfar : dist2 s1 s2 ≤ 10 ^ 100)
    (hc : CoarseEnough sp.kappa sp.sigma (toleranceRatio sp.kappa sp.sigma))
    (hs : ∀ cs, CC00.get_controls sp s1 s2 = some cs → Sharp cs) :
    ∃ cs path, CC00.get_controls sp s1 s2 = some cs ∧ CC00.get_path sp s1 s2 = some path ∧
      Covers (sp.discretization / 2 + pathTol (cs.map seg)) (curvatureUp sp * (sp.discretization / 2)) s1 cs path := by
  obtain ⟨cs, hcs, hok, hne, _⟩ := Spec.CC00.plan h s1 s2 hfar (tau := SF.epsilon) (by norm_num [SF.epsilon])
    fun x _ => tiny_le _ _
  obtain ⟨cs', hcs', hl, _⟩ := C126_cc00_limits h s1 s2 hfar hc
  obtain rfl : cs' = cs := Option.some.inj (hcs'.symm.trans hcs)
  obtain ⟨path, h1, h2⟩ := C133_hc_integrate hd s1 hne (representable_of hok.cont (hs _ hcs) hok.flat) (by
    intro c hc
    obtain ⟨c', cs'', e⟩ := List.exists_cons_of_ne_nil hne
    have hcont := hok.cont
    rw [e] at hc hcont
    obtain rfl : c' = c := by simpa using hc
    exact hcont.1) hl
  exact ⟨cs', path, hcs, by rw [CC00.get_path, hcs]; exact h1, h2⟩

/-- **C133, HC planners.** All four; for HC0pm and HCpm0 unless opposed circles share their centre (C70). -/
theorem C133_hc {pm1 pm2 : Bool} (h : InRange sp.kappa sp.sigma) (hd : 0 < sp.discretization) (s1 s2 : State)
    (hfar : dist2 s1 s2 ≤ 10 ^ 100) (ho : ¬ HcRs.Opposed pm1 pm2 sp s1 s2)
    (hc : CoarseEnough sp.kappa sp.sigma (toleranceRatio sp.kappa sp.sigma))
    (hs : ∀ cs, SF.HcRs.get_controls pm1 pm2 sp s1 s2 = some cs → Sharp cs) :
    ∃ cs path, SF.HcRs.get_controls pm1 pm2 sp s1 s2 = some cs ∧ SF.HcRs.get_path pm1 pm2 sp s1 s2 = some path ∧
      Covers (sp.discretization / 2 + pathTol (cs.map seg)) (curvatureUp sp * (sp.discretization / 2)) s1 cs path := by
  obtain ⟨p, l1, l2, _, hcs, _, _, _, hok⟩ := hc_plan h s1 s2 hfar ho
  obtain ⟨cs', hcs', hl, _⟩ := C126_hc_limits pm1 pm2 h s1 s2 hfar hc
  obtain rfl := Option.some.inj (hcs'.symm.trans hcs)
  obtain ⟨k', hr, hh⟩ := hok.representable h.rng.kappa (hs _ hcs)
  obtain ⟨path, h1, h2⟩ := C133_hc_integrate hd s1 hok.ne hr hh hl
  exact ⟨_, path, hcs, by rw [SF.HcRs.get_path, hcs]; exact h1, h2⟩

/-- Parameters to which C133 applies. -/
example : InRange 1 1 ∧ CoarseEnough 1 1 (toleranceRatio 1 1) ∧ Sharp [⟨1, 0, 1⟩, ⟨1, 1, 0⟩, ⟨1, 1, -1⟩] := by
  refine ⟨⟨by norm_num, by norm_num, by norm_num, by norm_num⟩, ⟨by norm_num, by rw [ratio_one.1]; norm_num⟩, ?_⟩
  intro c hc
  simp only [List.mem_cons, List.not_mem_nil, or_false] at hc
  rcases hc with rfl | rfl | rfl <;> norm_num

/-- A path with continuous curvature. -/
theorem C133_continuous {disc K : ℝ} (hd : 0 < disc) (s : State) {cs : List Control} {k k' : ℝ} (hne : cs ≠ [])
    (hcont : CurvatureContinuous k (cs.map seg) k') (hs : Sharp cs)
    (hf : ∀ c ∈ cs, c.sigma = 0 → c.kappa = 0 ∨ |c.kappa| > SF.epsilon) (hc : CurvatureAtMost K (cs.map seg)) :
    ∃ path, hcIntegrate disc s cs = some path ∧ Covers (disc / 2 + pathTol (cs.map seg)) (K * (disc / 2)) s cs path := by
  refine C133_hc_integrate hd s hne (representable_of hcont hs hf) ?_ hc
  intro c hc
  obtain ⟨c', cs'', rfl⟩ := List.exists_cons_of_ne_nil hne
  obtain rfl : c' = c := by simpa using hc
  exact hcont.1

/-- **C133, CC0pm-Dubins**, unless opposed circles share their centre (C40). -/
theorem C133_cc0pm (h : InRange sp.kappa sp.sigma) (hd : 0 < sp.discretization) (s1 s2 : State) (hfar : dist2 s1 s2 ≤ 10 ^ 100)
    (ho : ¬ CC0pm.Opposed sp s1 s2) (hc : CoarseEnough sp.kappa sp.sigma (toleranceRatio sp.kappa sp.sigma))
    (hs : ∀ cs, SF.CC0pm.get_controls sp s1 s2 = some cs → Sharp cs) :
    ∃ cs path, SF.CC0pm.get_controls sp s1 s2 = some cs ∧ SF.CC0pm.get_path sp s1 s2 = some path ∧
      Covers (sp.discretization / 2 + pathTol (cs.map seg)) (curvatureUp sp * (sp.discretization / 2)) s1 cs path := by
  obtain ⟨l, t, r, cs, _, _, hcs, _, _, hb, hok⟩ := Spec.CC0pm.plan h s1 s2 hfar
  obtain ⟨cs', hcs', hl, _⟩ := C126_cc0pm_limits h s1 s2 hfar hc
  obtain rfl : cs' = cs := Option.some.inj (hcs'.symm.trans hcs)
  obtain ⟨k0, k1, hk⟩ := hb.cont
  obtain ⟨path, h1, h2⟩ := C133_continuous hd s1 hb.ne hk (hs _ hcs) (hok.resolve_left ho).flat hl
  exact ⟨cs', path, hcs, by rw [SF.CC0pm.get_path, hcs]; exact h1, h2⟩

/-- **C133, CCpm0-Dubins**, unless opposed circles share their centre (C53). -/
theorem C133_ccpm0 (h : InRange sp.kappa sp.sigma) (hd : 0 < sp.discretization) (s1 s2 : State) (hfar : dist2 s1 s2 ≤ 10 ^ 100)
    (ho : ¬ CCpm0.Opposed sp s1 s2) (hc : CoarseEnough sp.kappa sp.sigma (toleranceRatio sp.kappa sp.sigma))
    (hs : ∀ cs, SF.CCpm0.get_controls sp s1 s2 = some cs → Sharp cs) :
    ∃ cs path, SF.CCpm0.get_controls sp s1 s2 = some cs ∧ SF.CCpm0.get_path sp s1 s2 = some path ∧
      Covers (sp.discretization / 2 + pathTol (cs.map seg)) (curvatureUp sp * (sp.discretization / 2)) s1 cs path := by
  obtain ⟨l, t, r, cs, _, _, hcs, _, _, hb, hok⟩ := Spec.CCpm0.plan h s1 s2 hfar
  obtain ⟨cs', hcs', hl, _⟩ := C126_ccpm0_limits h s1 s2 hfar hc
  obtain rfl : cs' = cs := Option.some.inj (hcs'.symm.trans hcs)
  obtain ⟨k0, k1, hk⟩ := hb.cont
  obtain ⟨path, h1, h2⟩ := C133_continuous hd s1 hb.ne hk (hs _ hcs) (hok.resolve_left ho).flat hl
  exact ⟨cs', path, hcs, by rw [SF.CCpm0.get_path, hcs]; exact h1, h2⟩

/-- **C133, CCpmpm-Dubins.** -/
theorem C133_ccpmpm (h : InRange sp.kappa sp.sigma) (hd : 0 < sp.discretization) (s1 s2 : State) (hfar : dist2 s1 s2 ≤ 10 ^ 100)
    (hs : ∀ cs, SF.CCpmpm.get_controls sp s1 s2 = some cs → Sharp cs) :
    ∃ cs path, SF.CCpmpm.get_controls sp s1 s2 = some cs ∧ SF.CCpmpm.get_path sp s1 s2 = some path ∧
      Covers (sp.discretization / 2 + pathTol (cs.map seg)) (sp.kappa * (1 + 1 / 10 ^ 8) * (sp.discretization / 2)) s1 cs path := by
  obtain ⟨l1, l2, t, r, cs, _, _, _, hcs, _, _, hok, _⟩ := Spec.CCpmpm.plan h s1 s2 hfar
  obtain ⟨cs', hcs', hl, _⟩ := C57_ccpmpm_limits h s1 s2 hfar
  obtain rfl : cs' = cs := Option.some.inj (hcs'.symm.trans hcs)
  have hb := hok.basic h.rng
  obtain ⟨k0, k1, hk⟩ := hb.cont
  obtain ⟨path, h1, h2⟩ := C133_continuous hd s1 hb.ne hk (hs _ hcs) hok.flat hl
  exact ⟨cs', path, hcs, by rw [SF.CCpmpm.get_path, hcs]; exact h1, h2⟩

/-- **C133, CC00-Reeds-Shepp**, whenever it returns controls (C83). -/
theorem C133_cc00_rs (h : InRange sp.kappa sp.sigma) (hd : 0 < sp.discretization) (s1 s2 : State) (hfar : dist2 s1 s2 ≤ 10 ^ 100)
    (hc : CoarseEnough sp.kappa sp.sigma (cuspRatio sp.kappa sp.sigma)) {cs : List Control}
    (hcs : SF.CcRs.get_controls sp s1 s2 = some cs) (hs : Sharp cs) :
    ∃ path, SF.CcRs.get_path sp s1 s2 = some path ∧
      Covers (sp.discretization / 2 + pathTol (cs.map seg))
        ((1 + 2 * cuspRatio sp.kappa sp.sigma) * (sp.kappa * (1 + 1 / 10 ^ 8)) * (sp.discretization / 2)) s1 cs path := by
  have hl := (C126_cc00_rs_limits h s1 s2 hfar hc hcs).1
  rcases Spec.CcRs.plan h s1 s2 hfar with ⟨hn, _⟩ | ⟨cs', hcs', hok⟩
  · rw [hn] at hcs; simp at hcs
  · obtain rfl : cs' = cs := Option.some.inj (hcs'.symm.trans hcs)
    obtain ⟨path, h1, h2⟩ := C133_continuous hd s1 hok.ne hok.cont hs hok.flat hl
    exact ⟨path, by rw [SF.CcRs.get_path, hcs]; exact h1, h2⟩

variable {junk : ℝ}

/-- **C133, CC-Dubins**, for states that are far apart (C60). -/
theorem C133_cc_far (h : InRange sp.kappa sp.sigma) (hd : 0 < sp.discretization) (s1 s2 : State) (hr : InReach sp s1 s2)
    (hf : FarApart sp s1 s2) (h1 : |s1.kappa| ≤ sp.kappa) (h2 : |s2.kappa| ≤ sp.kappa)
    (hc : CoarseEnough sp.kappa sp.sigma (toleranceRatio sp.kappa sp.sigma)) {cs : List Control}
    (hcs : SF.CC.IsControls sp junk s1 s2 cs) (hs : Sharp cs) :
    ∃ path, hcIntegrate sp.discretization s1 cs = some path ∧
      Covers (sp.discretization / 2 + pathTol (cs.map seg)) ((curvatureUp sp + 1 / 10000) * (sp.discretization / 2)) s1 cs path := by
  obtain ⟨ho, hA⟩ := Spec.CC.far_good (junk := junk) h hf.far
  obtain ⟨_, _, hall⟩ := Spec.CC.plan h junk s1 s2 hr
  obtain ⟨len, hp⟩ := hall cs hcs
  obtain ⟨k0, k1, hcont, _⟩ := hp.cont (by tauto) hf.far h1 h2
  exact C133_continuous hd s1 hp.ne hcont hs (hp.flat (by tauto) (.inl hf.far)) (C126_cc_limits h s1 s2 hr hA h1 h2 hc hcs).1

/-- **C133, HC-Reeds-Shepp**, unless opposed circles share their centre, and if coinciding predicted states can be joined (C76). -/
theorem C133_hcrs (h : InRange sp.kappa sp.sigma) (hd : 0 < sp.discretization) (s1 s2 : State) (hr : InReach sp s1 s2)
    (ho : ¬ HC.Opposed sp junk s1 s2) (hA : HC.AllJoinable sp junk s1 s2) (hk : s1.kappa = 0 ∨ |s1.kappa| > 1 / 10000)
    (h1 : |s1.kappa| ≤ sp.kappa) (h2 : |s2.kappa| ≤ sp.kappa)
    (hc : CoarseEnough sp.kappa sp.sigma (toleranceRatio sp.kappa sp.sigma)) {cs : List Control}
    (hcs : SF.HC.IsControls sp junk s1 s2 cs) (hs : Sharp cs) :
    ∃ path, hcIntegrate sp.discretization s1 cs = some path ∧
      Covers (sp.discretization / 2 + pathTol (cs.map seg)) ((curvatureUp sp + 1 / 10000) * (sp.discretization / 2)) s1 cs path := by
  obtain ⟨_, _, hall⟩ := Spec.HC.plan h junk s1 s2 hr
  obtain ⟨len, hp⟩ := hall cs hcs
  obtain ⟨k', hrep, hh⟩ := hp.rep (by tauto) hs (.inr (by rw [SF.epsilon]; exact hk))
  exact C133_hc_integrate hd s1 hp.ne hrep hh (C126_hcrs_limits_near_partial h s1 s2 hr hA h1 h2 hc hcs).1

end Props
