import Verif.Lemmas.Ellipse
import Verif.Props.Counter

/-!
# Paths stay in an ellipse around their ends: C128
-/

noncomputable section

namespace Props

open SF Spec Real

/-- Every state of `path` lies in the ellipse with the start `s` and the last state of `path` as foci and long axis `len`, and at most
`len` from the start. -/
def InEllipse (len : ℝ) (s : State) (path : List State) : Prop :=
  ∃ e, path.getLast? = some e ∧ ∀ x ∈ path, dist2 s x + dist2 x e ≤ len ∧ dist2 s x ≤ len

theorem gap_dist2 (s t : State) : gap s t = dist2 s t := by
  rw [gap, Config.dist_comm]; rfl

theorem lens_eq (cs : List Control) : lens cs = lengthOf cs := by
  simp only [lens, lengthOf, totalLength, List.map_map]; rfl

theorem InEllipse.mono {a b : ℝ} {s : State} {path : List State} (h : InEllipse a s path) (hab : a ≤ b) : InEllipse b s path := by
  obtain ⟨e, h1, h2⟩ := h
  exact ⟨e, h1, fun x hx => ⟨(h2 x hx).1.trans hab, (h2 x hx).2.trans hab⟩⟩

theorem onWay_ellipse {len tol : ℝ} {s q x f : State} (h : OnWay len tol s q x) (hx : f.x = q.x) (hy : f.y = q.y) :
    dist2 s x + dist2 x f ≤ len + 2 * tol ∧ dist2 s x ≤ len + 2 * tol := by
  obtain ⟨t, h0, h1, h2, h3⟩ := h
  rw [← gap_dist2, ← gap_dist2, gap_of_pos rfl rfl hx hy]
  have : 0 ≤ gap x q := Config.dist_nonneg _ _
  exact ⟨by linarith, by linarith⟩

/-- **C128, integration of Dubins and Reeds-Shepp**, for all controls and every discretization. -/
theorem C128_integrate {disc : ℝ} (hd : 0 < disc) (junk : ℝ × ℝ) (s : State) {cs : List Control} (hne : cs ≠ []) :
    InEllipse (lengthOf cs) s (integrate disc junk s cs) := by
  obtain ⟨st, hst⟩ : ∃ st : State, st = { x := s.x, y := s.y, theta := s.theta, kappa := junk.1, d := junk.2 } := ⟨_, rfl⟩
  obtain ⟨e, -, ⟨f, f1, f2, f3⟩, -, h3⟩ := integrateLoop_gap hd cs st
  have hl : integrate disc junk s cs = integrateLoop disc cs st := by rw [integrate, hst]
  rw [hl]
  refine ⟨f, ?_, fun x hx => ?_⟩
  · obtain ⟨c, cs, rfl⟩ := List.exists_cons_of_ne_nil hne
    simp only [integrateLoop, List.cons_append, List.getLast?_cons_cons] at f1 ⊢
    exact f1
  · have hw := onWay_ellipse (h3 x hx) f2 f3
    have e1 : dist2 st x = dist2 s x := by rw [hst]; rfl
    rw [e1, lens_eq] at hw
    simpa using hw

/-- **C128, integration of the planners with clothoids**, for all controls and every discretization: the error of the Fresnel integrals
adds at most `5e-14` for every control at each end. -/
theorem C128_hc_integrate {disc : ℝ} (hd : 0 < disc) (s : State) {cs : List Control} (hne : cs ≠ []) :
    ∃ path, hcIntegrate disc s cs = some path ∧ InEllipse (lengthOf cs + cs.length / 10 ^ 13) s path := by
  obtain ⟨c, cs, rfl⟩ := List.exists_cons_of_ne_nil hne
  obtain ⟨st, hst⟩ : ∃ st : State, st = { x := s.x, y := s.y, theta := s.theta, kappa := c.kappa, d := sgn c.delta_s } := ⟨_, rfl⟩
  obtain ⟨e, -, ⟨f, f1, f2, f3⟩, h2, h3⟩ := hcIntegrateLoop_gap hd (c :: cs) st
  refine ⟨st :: hcIntegrateLoop disc (c :: cs) st, by rw [hst]; rfl, f, f1, fun x hx => ?_⟩
  have hw : OnWay (lens (c :: cs)) ((c :: cs).length * (5 / 10 ^ 14)) st e x := by
    rcases List.mem_cons.1 hx with rfl | hx
    · exact OnWay.start (lens_nonneg _) (by positivity) h2
    · exact h3 x hx
  have hw := onWay_ellipse hw f2 f3
  have e1 : dist2 st x = dist2 s x := by rw [hst]; rfl
  rw [e1, lens_eq] at hw
  have e2 : 2 * (((c :: cs).length : ℝ) * (5 / 10 ^ 14)) = (c :: cs).length / 10 ^ 13 := by ring
  rw [e2] at hw
  exact hw

/-- **C128, interpolation of Dubins and Reeds-Shepp**, for all controls: the state at `t` is at most the fraction `t` of the length from
the start and at most the rest from the last state of the path. -/
theorem C128_interpolate {disc : ℝ} (hd : 0 < disc) (junk : ℝ × ℝ) (s : State) {cs : List Control} (hne : cs ≠ []) {t : ℝ}
    (h0 : 0 ≤ t) (h1 : t ≤ 1) : ∃ e, (integrate disc junk s cs).getLast? = some e ∧
      dist2 s (interpolate disc junk s cs t) ≤ t * lengthOf cs ∧ dist2 (interpolate disc junk s cs t) e ≤ (1 - t) * lengthOf cs := by
  obtain ⟨st, hst⟩ : ∃ st : State, st = { x := s.x, y := s.y, theta := s.theta, kappa := junk.1, d := junk.2 } := ⟨_, rfl⟩
  obtain ⟨e, e0, ⟨f, f1, f2, f3⟩, h2, -⟩ := integrateLoop_gap hd cs st
  have hl : integrate disc junk s cs = integrateLoop disc cs st := by rw [integrate, hst]
  have hn := lens_nonneg cs
  refine ⟨f, ?_, ?_⟩
  · rw [hl]
    obtain ⟨c, cs, rfl⟩ := List.exists_cons_of_ne_nil hne
    simp only [integrateLoop, List.cons_append, List.getLast?_cons_cons] at f1 ⊢
    exact f1
  · have e1 : ∀ x, dist2 s x = gap st x := fun x => by rw [gap_dist2, hst]; rfl
    rw [e1, ← gap_dist2, gap_of_pos rfl rfl f2 f3, ← lens_eq]
    have hs : s_path cs = lens cs := by rw [s_path_eq, lens_eq, lengthOf]
    have hi : interpolate disc junk s cs t = if t ≤ 0 then st else interpolateLoop disc (t * lens cs) cs 0 st := by
      rw [interpolate, ← hst, hs, if_neg (not_lt.2 h1)]
    rw [hi]
    split_ifs with h
    · obtain rfl := le_antisymm h h0
      rw [gap_self]
      exact ⟨by simp, by linarith⟩
    · obtain ⟨a, b⟩ := interpolateLoop_gap hd cs (si := t * lens cs) 0 st (by positivity) (by nlinarith)
      rw [← e0] at b
      exact ⟨by linarith, by linarith⟩

/-- **C128, interpolation of the planners with clothoids**, for all controls. -/
theorem C128_hc_interpolate {disc : ℝ} (hd : 0 < disc) (s : State) {cs : List Control} (hne : cs ≠ []) {t : ℝ}
    (h0 : 0 ≤ t) (h1 : t ≤ 1) : ∃ path e x, hcIntegrate disc s cs = some path ∧ path.getLast? = some e ∧
      hcInterpolate disc s cs t = some x ∧ dist2 s x ≤ t * lengthOf cs + cs.length / (2 * 10 ^ 13) ∧
      dist2 x e ≤ (1 - t) * lengthOf cs + cs.length / (2 * 10 ^ 13) := by
  obtain ⟨c, cs, rfl⟩ := List.exists_cons_of_ne_nil hne
  obtain ⟨st, hst⟩ : ∃ st : State, st = { x := s.x, y := s.y, theta := s.theta, kappa := c.kappa, d := sgn c.delta_s } := ⟨_, rfl⟩
  obtain ⟨e, e0, ⟨f, f1, f2, f3⟩, h2, -⟩ := hcIntegrateLoop_gap hd (c :: cs) st
  have hn := lens_nonneg (c :: cs)
  have hs : s_path (c :: cs) = lens (c :: cs) := by rw [s_path_eq, lens_eq, lengthOf]
  refine ⟨st :: hcIntegrateLoop disc (c :: cs) st, f, if t ≤ 0 then st else hcInterpolateLoop disc (t * lens (c :: cs)) (c :: cs) 0 st,
    by rw [hst]; rfl, f1, ?_, ?_⟩
  · rw [hcInterpolate, hcFirst, Option.map_some, ← hst, hs, if_neg (not_lt.2 h1)]
  · have e1 : ∀ x, dist2 s x = gap st x := fun x => by rw [gap_dist2, hst]; rfl
    have e2 : ((c :: cs).length : ℝ) / (2 * 10 ^ 13) = (c :: cs).length * (5 / 10 ^ 14) := by ring
    have hp : 0 ≤ ((c :: cs).length : ℝ) * (5 / 10 ^ 14) := by positivity
    rw [e1, ← gap_dist2, gap_of_pos rfl rfl f2 f3, ← lens_eq, e2]
    split_ifs with h
    · obtain rfl := le_antisymm h h0
      rw [gap_self]
      exact ⟨by linarith, by linarith⟩
    · obtain ⟨a, b⟩ := hcInterpolateLoop_gap hd (c :: cs) (si := t * lens (c :: cs)) 0 st (by positivity) (by nlinarith)
      rw [← e0] at b
      exact ⟨by linarith, by linarith⟩

/-- **C128, Dubins.** -/
theorem C128_dubins {sp : DubinsSpace} (hv : sp.Valid) (junk : ℝ × ℝ) (s1 s2 : State) (hfar : sp.kappa * dist2 s1 s2 ≤ 10 ^ 200) :
    InEllipse (sp.get_distance s1 s2) s1 (sp.get_path junk s1 s2) := by
  have hne : sp.get_controls s1 s2 ≠ [] := by
    intro h; have := (C17_dubins_controls hv s1 s2 hfar).1; rw [h] at this; simp at this
  rw [C16_dubins_distance hv s1 s2 hfar]
  exact C128_integrate hv.2 junk s1 hne

/-- **C128, Reeds-Shepp.** -/
theorem C128_rs {sp : RSSpace} (hv : sp.Valid) (junk : ℝ × ℝ) (s1 s2 : State) (hfar : sp.kappa * dist2 s1 s2 ≤ 10 ^ 200) :
    InEllipse (sp.get_distance s1 s2) s1 (sp.get_path junk s1 s2) := by
  have hne : sp.get_controls s1 s2 ≠ [] := by
    intro h; have := (C43_rs_controls hv s1 s2 hfar).1; rw [h] at this; simp at this
  rw [C23_rs_distance hv s1 s2]
  exact C128_integrate hv.2 junk s1 hne

variable {sp : HCSpace}

/-- The states on the way of the controls `cs` of a planner that reports the distance `d`: in the ellipse, and not far from the start in
terms of the distance of the goal. -/
structure StaysNear (sp : HCSpace) (s1 s2 : State) (d tol : ℝ) (cs : List Control) : Prop where
  ellipse : ∃ path, hcIntegrate sp.discretization s1 cs = some path ∧ InEllipse (d + 1 / 1000 * tol) s1 path
  near : ∃ path, hcIntegrate sp.discretization s1 cs = some path ∧
    InEllipse (dist2 s1 s2 + 50 * (sp.kappa / sp.sigma) + 60 / sp.kappa + 1 / 1000 * tol) s1 path

theorem staysNear (hd : 0 < sp.discretization) {s1 s2 : State} {d tol : ℝ} {cs : List Control} (hne : cs ≠ []) (hn : cs.length ≤ 17)
    (h1 : d ≤ dist2 s1 s2 + 50 * (sp.kappa / sp.sigma) + 60 / sp.kappa) (h2 : lengthOf cs - d ≤ 1 / 2000 * tol) (ht : 1 ≤ tol) :
    StaysNear sp s1 s2 d tol cs := by
  obtain ⟨path, hp, he⟩ := C128_hc_integrate hd s1 hne
  have h3 : (cs.length : ℝ) ≤ 17 := by exact_mod_cast hn
  have h4 : (cs.length : ℝ) / 10 ^ 13 ≤ 1 / 2000 := by
    rw [div_le_iff₀ (by norm_num)]; linarith
  exact ⟨⟨path, hp, he.mono (by linarith)⟩, ⟨path, hp, he.mono (by linarith)⟩⟩

theorem pm_near (h : InRange sp.kappa sp.sigma) (hd : 0 < sp.discretization) {s1 s2 : State}
    {cs : List Control} (hne : cs ≠ []) (hn : cs.length ≤ 17) {len : ℝ}
    (h1 : len ≤ dist2 s1 s2 + 50 * (sp.kappa / sp.sigma) + 60 / sp.kappa)
    (h2 : |len - lengthOf cs| ≤ 1 / 10000 * (1 + 4 * radiusBound sp.kappa sp.sigma)) :
    StaysNear sp s1 s2 len (1 + radiusBound sp.kappa sp.sigma) cs := by
  have hR := h.rng.radius_nonneg
  have := (abs_sub_le_iff.1 h2).2
  exact staysNear hd hne hn h1 (by linarith) (by linarith)

/-- **C128, CC00-Dubins.** -/
theorem C128_cc00 (h : InRange sp.kappa sp.sigma) (hd : 0 < sp.discretization) (s1 s2 : State) (hfar : dist2 s1 s2 ≤ 10 ^ 100) :
    ∃ cs, CC00.get_controls sp s1 s2 = some cs ∧
      StaysNear sp s1 s2 (CC00.get_distance sp s1 s2) (1 + radiusBound sp.kappa sp.sigma) cs := by
  obtain ⟨h1, -, cs, hcs, hne⟩ := C38_cc00_always h s1 s2 hfar
  obtain ⟨cs', hcs', h2⟩ := C37_cc00_distance_all h s1 s2 hfar
  obtain rfl : cs = cs' := Option.some.inj (hcs.symm.trans hcs')
  have hk : 0 < 1 / sp.kappa := one_div_pos.2 (lt_trans (by norm_num) h.kappa)
  have hs := h.clothoid
  have hR := h.rng.radius_nonneg
  have h0 : 0 ≤ dist2 s1 s2 := sqrt_nonneg _
  refine ⟨cs, hcs, pm_near h hd hne ((Spec.Count.cc00_len hcs).trans (by omega)) ?_ (h2.trans (by linarith))⟩
  rw [div_eq_mul_one_div 40] at h1
  rw [div_eq_mul_one_div 60]
  linarith

/-- **C128, CC0pm-Dubins.** -/
theorem C128_cc0pm (h : InRange sp.kappa sp.sigma) (hd : 0 < sp.discretization) (s1 s2 : State) (hfar : dist2 s1 s2 ≤ 10 ^ 100) :
    ∃ cs len, SF.CC0pm.get_controls sp s1 s2 = some cs ∧ SF.CC0pm.get_distance sp s1 s2 = some len ∧
      StaysNear sp s1 s2 len (1 + radiusBound sp.kappa sp.sigma) cs := by
  obtain ⟨len, cs, hl, h1, -, hcs, hne⟩ := C56_cc0pm_always h s1 s2 hfar
  obtain ⟨-, cs', len', -, hcs', hl', h2, -⟩ := C55_cc0pm_distance h s1 s2 hfar
  obtain rfl : cs = cs' := Option.some.inj (hcs.symm.trans hcs')
  obtain rfl : len = len' := Option.some.inj (hl.symm.trans hl')
  exact ⟨cs, len, hcs, hl, pm_near h hd hne ((Spec.Count.cc0pm_len hcs).trans (by omega)) (pm_bound h h1) h2⟩

/-- **C128, CCpm0-Dubins.** -/
theorem C128_ccpm0 (h : InRange sp.kappa sp.sigma) (hd : 0 < sp.discretization) (s1 s2 : State) (hfar : dist2 s1 s2 ≤ 10 ^ 100) :
    ∃ cs len, SF.CCpm0.get_controls sp s1 s2 = some cs ∧ SF.CCpm0.get_distance sp s1 s2 = some len ∧
      StaysNear sp s1 s2 len (1 + radiusBound sp.kappa sp.sigma) cs := by
  obtain ⟨len, cs, hl, h1, -, hcs, hne⟩ := C56_ccpm0_always h s1 s2 hfar
  obtain ⟨-, cs', len', -, hcs', hl', h2, -⟩ := C55_ccpm0_distance h s1 s2 hfar
  obtain rfl : cs = cs' := Option.some.inj (hcs.symm.trans hcs')
  obtain rfl : len = len' := Option.some.inj (hl.symm.trans hl')
  exact ⟨cs, len, hcs, hl, pm_near h hd hne ((Spec.Count.ccpm0_len hcs).trans (by omega)) (pm_bound h h1) h2⟩

/-- **C128, CCpmpm-Dubins.** -/
theorem C128_ccpmpm (h : InRange sp.kappa sp.sigma) (hd : 0 < sp.discretization) (s1 s2 : State) (hfar : dist2 s1 s2 ≤ 10 ^ 100) :
    ∃ cs len, SF.CCpmpm.get_controls sp s1 s2 = some cs ∧ SF.CCpmpm.get_distance sp s1 s2 = some len ∧
      StaysNear sp s1 s2 len (1 + radiusBound sp.kappa sp.sigma) cs := by
  obtain ⟨len, cs, hl, h1, -, hcs, hne⟩ := C56_ccpmpm_always h s1 s2 hfar
  obtain ⟨-, cs', len', -, hcs', hl', h2, -⟩ := C55_ccpmpm_distance h s1 s2 hfar
  obtain rfl : cs = cs' := Option.some.inj (hcs.symm.trans hcs')
  obtain rfl : len = len' := Option.some.inj (hl.symm.trans hl')
  exact ⟨cs, len, hcs, hl, pm_near h hd hne ((Spec.Count.ccpmpm_len hcs).trans (by omega)) (pm_bound h h1) h2⟩

/-- **C128, HC00-, HC0pm-, HCpm0- and HCpmpm-Reeds-Shepp.** -/
theorem C128_hc (pm1 pm2 : Bool) (h : InRange sp.kappa sp.sigma) (hd : 0 < sp.discretization) (s1 s2 : State)
    (hfar : dist2 s1 s2 ≤ 10 ^ 100) :
    ∃ cs len, SF.HcRs.get_controls pm1 pm2 sp s1 s2 = some cs ∧ SF.HcRs.get_distance pm1 pm2 sp s1 s2 = some len ∧
      StaysNear sp s1 s2 len (1 + radiusBound sp.kappa sp.sigma) cs := by
  obtain ⟨len, cs, hl, h1, -, hcs, hne⟩ := C72_hc_always (pm1 := pm1) (pm2 := pm2) h s1 s2 hfar
  obtain ⟨-, cs', len', -, hcs', hl', h2, -⟩ := C71_hc_distance (pm1 := pm1) (pm2 := pm2) h s1 s2 hfar
  obtain rfl : cs = cs' := Option.some.inj (hcs.symm.trans hcs')
  obtain rfl : len = len' := Option.some.inj (hl.symm.trans hl')
  exact ⟨cs, len, hcs, hl, pm_near h hd hne ((Spec.HcRs.controls_len hcs).trans (by omega)) (pm_bound h h1) h2⟩

/-- **C128, CC-Dubins.** -/
theorem C128_cc (junk : ℝ) (h : InRange sp.kappa sp.sigma) (hd : 0 < sp.discretization) (s1 s2 : State) (hr : InReach sp s1 s2) :
    ∃ len, SF.CC.get_distance sp junk s1 s2 = some len ∧ ∀ cs, SF.CC.IsControls sp junk s1 s2 cs →
      StaysNear sp s1 s2 len (1 + radiusBound sp.kappa sp.sigma) cs := by
  obtain ⟨⟨len, hl, h1⟩, -, hne⟩ := C62_cc_always (junk := junk) h s1 s2 hr
  obtain ⟨len', hl', h2⟩ := C61_cc_distance (junk := junk) h s1 s2 hr
  obtain rfl : len = len' := Option.some.inj (hl.symm.trans hl')
  exact ⟨len, hl, fun cs hcs => pm_near h hd (hne cs hcs) (Spec.Count.cc_any_len hcs) h1 (by rw [abs_sub_comm]; exact h2 cs hcs)⟩

/-- **C128, HC-Reeds-Shepp.** -/
theorem C128_hcrs (junk : ℝ) (h : InRange sp.kappa sp.sigma) (hd : 0 < sp.discretization) (s1 s2 : State) (hr : InReach sp s1 s2) :
    ∃ len, SF.HC.get_distance sp junk s1 s2 = some len ∧ ∀ cs, SF.HC.IsControls sp junk s1 s2 cs →
      StaysNear sp s1 s2 len (1 + radiusBound sp.kappa sp.sigma) cs := by
  obtain ⟨⟨len, hl, h1⟩, -, hne⟩ := C78_hcrs_always (junk := junk) h s1 s2 hr
  obtain ⟨len', hl', h2⟩ := C77_hcrs_distance (junk := junk) h s1 s2 hr
  obtain rfl : len = len' := Option.some.inj (hl.symm.trans hl')
  exact ⟨len, hl, fun cs hcs => pm_near h hd (hne cs hcs) (Spec.Count.hc_any_len hcs) h1 (by rw [abs_sub_comm]; exact h2 cs hcs)⟩

/-- **C128, CC00-Reeds-Shepp**, whenever it returns controls (C85). -/
theorem C128_cc00_rs (h : InRange sp.kappa sp.sigma) (hd : 0 < sp.discretization) (s1 s2 : State) (hfar : dist2 s1 s2 ≤ 10 ^ 100)
    {cs : List Control} (hcs : CcRs.get_controls sp s1 s2 = some cs) (hne : cs ≠ []) :
    StaysNear sp s1 s2 (CcRs.get_distance sp s1 s2) (missBound sp.kappa sp.sigma) cs := by
  have h1 := (C85_cc00_rs_always h s1 s2 hfar).1
  have h2 := (abs_sub_le_iff.1 (C84_cc00_rs_distance_all h s1 s2 hfar hcs)).2
  have hR := h.rng.radius_nonneg
  have hA := Spec.clothoidBound_pos h.rng
  have hm : 1 + radiusBound sp.kappa sp.sigma ≤ missBound sp.kappa sp.sigma := by
    unfold missBound
    have : 0 ≤ (2 * radiusBound sp.kappa sp.sigma + 1) / clothoidBound sp.kappa sp.sigma := by positivity
    linarith
  exact staysNear hd hne ((Spec.CcRs.controls_len hcs).trans (by omega)) (pm_bound h h1) (by linarith) (by linarith)

/-- A quarter circle and a metre back, in steps of half a metre: the hypotheses of the theorems on integration hold. -/
example : (0:ℝ) < 1 / 2 ∧ ([⟨π / 2, 1, 0⟩, ⟨-1, 0, 0⟩] : List Control) ≠ [] ∧ lengthOf [⟨π / 2, 1, 0⟩, ⟨-1, 0, 0⟩] = π / 2 + 1 := by
  refine ⟨by norm_num, by simp, ?_⟩
  simp [lengthOf, totalLength, seg]
  positivity

/-- A state to which all theorems on planners apply. -/
example : InRange 1 1 ∧ InReach ⟨1, 1, 1, true⟩ ⟨0, 0, 0, 1 / 2, 0⟩ ⟨15, 0, 0, -1 / 3, 0⟩ ∧
    dist2 ⟨0, 0, 0, 1 / 2, 0⟩ ⟨15, 0, 0, -1 / 3, 0⟩ ≤ 10 ^ 100 := by
  have hd : dist2 (⟨0, 0, 0, 1 / 2, 0⟩ : State) ⟨15, 0, 0, -1 / 3, 0⟩ = 15 := by
    rw [dist2, show ((15:ℝ) - 0) ^ 2 + (0 - 0) ^ 2 = 15 ^ 2 by norm_num, sqrt_sq (by norm_num)]
  exact ⟨⟨by norm_num, by norm_num, by norm_num, by norm_num⟩, by unfold InReach; rw [hd]; norm_num, by rw [hd]; norm_num⟩

end Props
