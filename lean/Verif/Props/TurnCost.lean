import Verif.Lemmas.Sideways
import Verif.Props.BehindCc

/-!
# Turning costs at least the angle times the turning radius: C131
-/

noncomputable section

namespace Props

open SF Spec Real

/-- The heading of the goal `s2` is that of `s1` turned by `phi`, at most half a turn to either side. -/
def TurnedBy (phi : ℝ) (s1 s2 : State) : Prop := |phi| ≤ π ∧ AngleEq s2.theta (s1.theta + phi)

/-- Of all equal angles, one of at most half a turn is least. -/
theorem half_turn_least {phi : ℝ} (h : |phi| ≤ π) (n : ℤ) : |phi| ≤ |phi + n * (2 * π)| := by
  rcases eq_or_ne n 0 with rfl | hn
  · simp
  have h1 : (1:ℝ) ≤ |(n:ℝ)| := by
    rw [← Int.cast_abs]
    exact_mod_cast Int.one_le_abs hn
  have hp := pi_pos
  have h2 : |(n:ℝ) * (2 * π)| = |(n:ℝ)| * (2 * π) := by rw [abs_mul, abs_of_pos (by linarith : 0 < 2 * π)]
  have h3 : |(n:ℝ) * (2 * π)| ≤ |phi + n * (2 * π)| + |phi| := by
    have := abs_sub (phi + n * (2 * π)) phi
    rwa [add_sub_cancel_left] at this
  rw [h2] at h3
  nlinarith

/-- Paths that turn by `phi` up to `turn` are long enough. -/
theorem turn_length {K turn phi t : ℝ} {s1 s2 : State} {e : Config} {cs : List Segment} (hc : CurvatureAtMost K cs)
    (he : DrivesAll cs (pose s1) e) (hi : AngleEq t s2.theta) (ht : |e.theta - t| ≤ turn) (hphi : TurnedBy phi s1 s2) :
    |phi| - turn ≤ K * totalLength cs := by
  obtain ⟨i, hi⟩ := hi
  obtain ⟨hp, j, hj⟩ := hphi
  have h1 := heading_change he hc
  have h2 := half_turn_least hp (i + j)
  rw [hj] at hi
  have h3 : phi + (i + j : ℤ) * (2 * π) = t - s1.theta := by rw [hi]; push_cast; ring
  rw [h3] at h2
  have h4 := abs_sub_le t e.theta s1.theta
  rw [abs_sub_comm t e.theta] at h4
  change |e.theta - s1.theta| ≤ K * totalLength cs at h1
  linarith

/-- **C131, controls.** Whatever the planner, controls that turn by `phi` and keep the curvature limit are long enough. -/
theorem C131_controls {K tol turn phi : ℝ} {s1 s2 : State} {cs : List Control} (hc : CurvatureAtMost K (cs.map seg))
    (h : LeadsTo cs s1 s2 tol turn) (hphi : TurnedBy phi s1 s2) : |phi| - turn ≤ K * lengthOf cs := by
  obtain ⟨e, he, -, t, hi, ht⟩ := h
  exact turn_length hc he hi ht hphi

/-- A quarter of a circle. -/
example : LeadsTo [⟨π / 2, 1, 0⟩] ⟨0, 0, 0, 0, 0⟩ ⟨1, 1, π / 2, 0, 0⟩ 0 0 ∧ CurvatureAtMost 1 (([⟨π / 2, 1, 0⟩] : List Control).map seg) ∧
    TurnedBy (π / 2) ⟨0, 0, 0, 0, 0⟩ ⟨1, 1, π / 2, 0, 0⟩ ∧ lengthOf [⟨π / 2, 1, 0⟩] = π / 2 := by
  have hl : 0 < π / 2 := by have := pi_pos; linarith
  refine ⟨⟨⟨1, 1, π / 2⟩, .cons (q := ⟨1, 1, π / 2⟩) ?_ (.nil _), ?_⟩, ?_, ⟨?_, 0, by simp⟩, ?_⟩
  · rw [drives_iff]
    simp only [seg]
    rw [arrive_arc one_ne_zero]
    simp only [Segment.dir, not_lt.2 hl.le, if_false, abs_of_pos hl, pose, zero_add, one_mul, mul_one, sin_zero, cos_zero, sin_pi_div_two,
      cos_pi_div_two]
    ext <;> dsimp only <;> norm_num
  · refine ⟨?_, π / 2, ⟨0, by simp [pose]⟩, by simp⟩
    simp [Config.dist, pose, pathTol, segTol, seg]
  · intro c hc t _ _
    simp only [List.map_cons, List.map_nil, List.mem_cons, List.not_mem_nil, or_false] at hc
    rw [hc]
    simp [seg]
  · rw [abs_of_pos hl]; linarith
  · simp [lengthOf, totalLength, seg, abs_of_pos hl]

/-- Curvature zero or `±K` and no sharpness. -/
theorem curvature_arcs {K : ℝ} (hK : 0 ≤ K) {cs : List Control} (h : ∀ c ∈ cs, (c.kappa = 0 ∨ |c.kappa| = K) ∧ c.sigma = 0) :
    CurvatureAtMost K (cs.map seg) := by
  intro c hc t _ _
  obtain ⟨x, hx, rfl⟩ := List.mem_map.1 hc
  obtain ⟨h1, h2⟩ := h x hx
  simp only [seg, h2, zero_mul, add_zero]
  rcases h1 with h1 | h1
  · rw [h1, abs_zero]; exact hK
  · exact h1.le

/-- **C131, Reeds-Shepp.** -/
theorem C131_rs {sp : RSSpace} (hv : sp.Valid) {phi : ℝ} {s1 s2 : State} (hfar : sp.kappa * dist2 s1 s2 ≤ 10 ^ 200)
    (hphi : TurnedBy phi s1 s2) : |phi| / sp.kappa ≤ sp.get_distance s1 s2 := by
  obtain ⟨e, he, hx, hy, ht⟩ := C22_rs_reaches hv s1 s2 hfar
  obtain ⟨-, -, h1⟩ := C43_rs_controls hv s1 s2 hfar
  have h2 := turn_length (turn := 0) (curvature_arcs hv.1.le fun c hc => ⟨(h1 c hc).1, (h1 c hc).2.1⟩) he ht (by simp) hphi
  rw [div_le_iff₀' hv.1, C23_rs_distance hv]
  simpa using h2

/-- Forwards, backwards and forwards again on three arcs, a car turns on the spot. -/
theorem turn_on_the_spot {k e psi : ℝ} (hk : 0 < k) (he : IsSign e) (h0 : 0 ≤ psi) (h1 : psi ≤ π) (p : Config) :
    ∃ cs, ReedsSheppPath k cs ∧ Reaches cs p ⟨p.x, p.y, p.theta + e * psi⟩ ∧ totalLength cs = psi / k := by
  have hp := pi_pos
  have hk' := hk.ne'
  have s0 : 0 ≤ sin (psi / 2) := sin_nonneg_of_nonneg_of_le_pi (by linarith) (by linarith)
  have s1 := sin_le_one (psi / 2)
  obtain ⟨b, hb⟩ : ∃ b : ℝ, b = 2 * arcsin (sin (psi / 2) / 2) := ⟨_, rfl⟩
  obtain ⟨a, ha⟩ : ∃ a : ℝ, a = (psi - b) / 2 := ⟨_, rfl⟩
  have b0 : 0 ≤ b := by rw [hb]; have := arcsin_nonneg.2 (by linarith : 0 ≤ sin (psi / 2) / 2); linarith
  have bpsi : b ≤ psi := by
    have h2 : arcsin (sin (psi / 2) / 2) ≤ arcsin (sin (psi / 2)) := arcsin_le_arcsin (by linarith)
    rw [arcsin_sin (by linarith) (by linarith)] at h2
    linarith
  have sb : 2 * sin (b / 2) = sin (psi / 2) := by
    rw [hb, mul_div_cancel_left₀ _ two_ne_zero, sin_arcsin (by linarith) (by linarith)]
    ring
  have a0 : 0 ≤ a := by rw [ha]; linarith
  have la : 0 ≤ a / k := div_nonneg a0 hk.le
  have lb : 0 ≤ b / k := div_nonneg b0 hk.le
  have p1 : rsPiece k e 1 a = ⟨a / k, e * k, 0⟩ := by rw [rsPiece, one_mul]
  have p2 : rsPiece k (-e) (-1) b = ⟨-(b / k), -e * k, 0⟩ := by rw [rsPiece, neg_one_mul, neg_div]
  have htot : totalLength [rsPiece k e 1 a, rsPiece k (-e) (-1) b, rsPiece k e 1 a] = psi / k := by
    simp only [p1, p2, totalLength, List.map_cons, List.map_nil, List.sum_cons, List.sum_nil, abs_neg, abs_of_nonneg la, abs_of_nonneg lb]
    rw [ha]; ring
  refine ⟨_, ReedsSheppPath.ccc he (.inl rfl) (.inl rfl) ⟨a0, by linarith⟩ b0 (by linarith) a0, ?_, htot⟩
  have hne : e ≠ 0 := by rcases he with rfl | rfl <;> norm_num
  rcases eq_or_lt_of_le b0 with hbz | hbp
  · -- no turn at all
    have hs : sin (psi / 2) = 0 := by rw [← sb, ← hbz]; simp
    have hz : psi = 0 := by
      by_contra hne
      have : 0 < sin (psi / 2) := sin_pos_of_pos_of_lt_pi (by have := lt_of_le_of_ne h0 (Ne.symm hne); linarith) (by linarith)
      linarith
    have haz : a = 0 := by rw [ha, ← hbz, hz]; simp
    refine ⟨_, .cons (drives_iff.2 rfl) (.cons (drives_iff.2 rfl) (.cons (drives_iff.2 rfl) (.nil _))), ?_⟩
    simp only [rsPiece, haz, ← hbz, hz, mul_zero, zero_div, abs_zero, arrive_zero, add_zero]
    exact SameConfig.refl _
  have dn : -(b / k) < 0 := by have := div_pos hbp hk; linarith
  rw [p1, p2]
  refine ⟨_, .cons (drives_iff.2 rfl) (.cons (drives_iff.2 rfl) (.cons (drives_iff.2 rfl) (.nil _))), ?_⟩
  simp only [Segment.dir, if_pos dn, if_neg (not_lt.2 la), abs_neg, abs_of_nonneg la, abs_of_nonneg lb]
  have hek : e * k ≠ 0 := mul_ne_zero hne hk'
  have hek' : -e * k ≠ 0 := mul_ne_zero (neg_ne_zero.2 hne) hk'
  rw [arrive_arc hek, arrive_arc hek', arrive_arc hek]
  have q1 : 1 * (a / k) * (e * k) = e * a := by field_simp
  have q2 : -1 * (b / k) * (-e * k) = e * b := by field_simp
  have q3 : e * k * 1 * (a / k) = e * a := by field_simp
  have q4 : -e * k * -1 * (b / k) = e * b := by field_simp
  simp only [q1, q2, q3, q4]
  obtain ⟨c, hc⟩ : ∃ c : ℝ, c = p.theta + e * (psi / 2) := ⟨_, rfl⟩
  have c1 : p.theta + e * a = c - e * (b / 2) := by rw [hc, ha]; ring
  have c2 : p.theta + e * a + e * b = c + e * (b / 2) := by rw [hc, ha]; ring
  have c3 : p.theta + e * a + e * b + e * a = c + e * (psi / 2) := by rw [hc, ha]; ring
  have c0 : p.theta = c - e * (psi / 2) := by rw [hc]; ring
  have se : ∀ x : ℝ, sin (e * x) = e * sin x ∧ cos (e * x) = cos x := by
    intro x; rcases he with rfl | rfl <;> simp
  refine ⟨?_, ?_, ⟨0, ?_⟩⟩
  · change p.x + 1 / (e * k) * (-sin p.theta + sin (p.theta + e * a)) + 1 / (-e * k) * (-sin (p.theta + e * a) + sin (p.theta + e * a + e * b)) +
      1 / (e * k) * (-sin (p.theta + e * a + e * b) + sin (p.theta + e * a + e * b + e * a)) = p.x
    rw [c3, c2, c1, c0]
    simp only [sin_add, sin_sub, se]
    rw [← sb]
    field_simp
    ring
  · change p.y + 1 / (e * k) * (cos p.theta - cos (p.theta + e * a)) + 1 / (-e * k) * (cos (p.theta + e * a) - cos (p.theta + e * a + e * b)) +
      1 / (e * k) * (cos (p.theta + e * a + e * b) - cos (p.theta + e * a + e * b + e * a)) = p.y
    rw [c3, c2, c1, c0]
    simp only [cos_add, cos_sub, se]
    rw [← sb]
    field_simp
    ring
  · change p.theta + e * a + e * b + e * a = p.theta + e * psi + _
    rw [ha]; push_cast; ring

/-- **C131, sharp.** Reeds-Shepp paths turn on the spot for exactly the angle times the turning radius. -/
theorem C131_rs_spot {sp : RSSpace} (hv : sp.Valid) {phi : ℝ} {s1 s2 : State} (hx : s2.x = s1.x) (hy : s2.y = s1.y)
    (hphi : TurnedBy phi s1 s2) : sp.get_distance s1 s2 = |phi| / sp.kappa := by
  have hk := hv.1
  refine le_antisymm ?_ (C131_rs hv ?_ hphi)
  · obtain ⟨e, he, hs⟩ : ∃ e, IsSign e ∧ phi = e * |phi| := by
      rcases le_total 0 phi with h | h
      · exact ⟨1, .inl rfl, by rw [abs_of_nonneg h, one_mul]⟩
      · exact ⟨-1, .inr rfl, by rw [abs_of_nonpos h]; ring⟩
    obtain ⟨cs, h1, ⟨q, h2, h3, h4, h5⟩, h6⟩ := turn_on_the_spot hk he (abs_nonneg phi) hphi.1 (pose s1)
    rw [← h6]
    refine C25_rs_shortest hv s1 s2 cs h1 ⟨q, h2, h3.trans hx.symm, h4.trans hy.symm, ?_⟩
    rw [← hs] at h5
    exact h5.trans hphi.2.symm
  · have : dist2 s1 s2 = 0 := by rw [dist2, hx, hy]; simp
    rw [this, mul_zero]
    positivity

/-- A half turn on the spot. -/
example : (⟨2, 1 / 10⟩ : RSSpace).Valid ∧ TurnedBy (-π) ⟨3, 4, 1, 0, 0⟩ ⟨3, 4, 1 + π, 0, 0⟩ ∧
    (⟨2, 1 / 10⟩ : RSSpace).get_distance ⟨3, 4, 1, 0, 0⟩ ⟨3, 4, 1 + π, 0, 0⟩ = π / 2 := by
  have hv : (⟨2, 1 / 10⟩ : RSSpace).Valid := ⟨by norm_num, by norm_num⟩
  have ht : TurnedBy (-π) ⟨3, 4, 1, 0, 0⟩ ⟨3, 4, 1 + π, 0, 0⟩ := ⟨by rw [abs_neg, abs_of_pos pi_pos], 1, by push_cast; ring⟩
  exact ⟨hv, ht, by
    rw [C131_rs_spot (s1 := ⟨3, 4, 1, 0, 0⟩) (s2 := ⟨3, 4, 1 + π, 0, 0⟩) hv rfl rfl ht, abs_neg, abs_of_pos pi_pos]⟩

/-- **C131, Dubins.** Up to the tolerance of 1e-6 in the heading (C15). -/
theorem C131_dubins {sp : DubinsSpace} (hv : sp.Valid) {phi : ℝ} {s1 s2 : State} (hfar : sp.kappa * dist2 s1 s2 ≤ 10 ^ 200)
    (hphi : TurnedBy phi s1 s2) : (|phi| - 1 / 10 ^ 6) / sp.kappa ≤ sp.get_distance s1 s2 := by
  obtain ⟨e, he, hd, t, ht, htt⟩ := C15_dubins_reaches_within hv s1 s2 hfar
  obtain ⟨-, h1⟩ := C17_dubins_controls hv s1 s2 hfar
  have h2 := turn_length (curvature_arcs hv.1.le fun c hc => ⟨(h1 c hc).1, (h1 c hc).2.1⟩) he ht htt hphi
  rwa [div_le_iff₀' hv.1, C16_dubins_distance hv s1 s2 hfar]

/-- **C131, Dubins, exact.** -/
theorem C131_dubins_exact {sp : DubinsSpace} (hv : sp.Valid) {phi : ℝ} {s1 s2 : State} (hfar : sp.kappa * dist2 s1 s2 ≤ 10 ^ 200)
    (hne : ¬ NearlyEqual sp.kappa s1 s2) (hz : ¬ NearlyTangent sp.kappa s1 s2)
    (hphi : TurnedBy phi s1 s2) : |phi| / sp.kappa ≤ sp.get_distance s1 s2 := by
  obtain ⟨e, he, hx, hy, ht⟩ := C15_dubins_reaches hv s1 s2 hfar hne hz
  obtain ⟨-, h1⟩ := C17_dubins_controls hv s1 s2 hfar
  have h2 := turn_length (turn := 0) (curvature_arcs hv.1.le fun c hc => ⟨(h1 c hc).1, (h1 c hc).2.1⟩) he ht (by simp) hphi
  rw [div_le_iff₀' hv.1, C16_dubins_distance hv s1 s2 hfar]
  simpa using h2

variable {sp : HCSpace} {junk phi : ℝ}

/-- **C131, CC00-Dubins.** -/
theorem C131_cc00 (h : InRange sp.kappa sp.sigma) {s1 s2 : State} (hfar : dist2 s1 s2 ≤ 10 ^ 100)
    (hc : CoarseEnough sp.kappa sp.sigma (toleranceRatio sp.kappa sp.sigma)) (hphi : TurnedBy phi s1 s2) :
    ∃ cs, CC00.get_controls sp s1 s2 = some cs ∧ |phi| - 3 / 10000 ≤ curvatureUp sp * lengthOf cs := by
  obtain ⟨cs, hcs, hl, _⟩ := C126_cc00_limits h s1 s2 hfar hc
  obtain ⟨cs'', hcs'', hr⟩ := C36_cc00_reaches h s1 s2 hfar
  obtain rfl := Option.some.inj (hcs''.symm.trans hcs)
  exact ⟨_, hcs, C131_controls hl hr hphi⟩

/-- **C131, CC0pm-Dubins (partial).** Unless opposed circles share their centre (C40), where the goal is missed. -/
theorem C131_cc0pm_partial (h : InRange sp.kappa sp.sigma) {s1 s2 : State} (hfar : dist2 s1 s2 ≤ 10 ^ 100)
    (hc : CoarseEnough sp.kappa sp.sigma (toleranceRatio sp.kappa sp.sigma)) (ho : ¬ CC0pm.Opposed sp s1 s2)
    (hphi : TurnedBy phi s1 s2) :
    ∃ cs, SF.CC0pm.get_controls sp s1 s2 = some cs ∧ |phi| - 3 / 10000 ≤ curvatureUp sp * lengthOf cs := by
  obtain ⟨cs, hcs, hl, _⟩ := C126_cc0pm_limits h s1 s2 hfar hc
  obtain ⟨cs'', hcs'', hr⟩ := C40_cc0pm_reaches_partial h s1 s2 hfar ho
  obtain rfl := Option.some.inj (hcs''.symm.trans hcs)
  exact ⟨_, hcs, C131_controls hl hr hphi⟩

/-- **C131, CCpm0-Dubins (partial).** -/
theorem C131_ccpm0_partial (h : InRange sp.kappa sp.sigma) {s1 s2 : State} (hfar : dist2 s1 s2 ≤ 10 ^ 100)
    (hc : CoarseEnough sp.kappa sp.sigma (toleranceRatio sp.kappa sp.sigma)) (ho : ¬ CCpm0.Opposed sp s1 s2)
    (hphi : TurnedBy phi s1 s2) :
    ∃ cs, SF.CCpm0.get_controls sp s1 s2 = some cs ∧ |phi| - 3 / 10000 ≤ curvatureUp sp * lengthOf cs := by
  obtain ⟨cs, hcs, hl, _⟩ := C126_ccpm0_limits h s1 s2 hfar hc
  obtain ⟨cs'', hcs'', hr⟩ := C53_ccpm0_reaches_partial h s1 s2 hfar ho
  obtain rfl := Option.some.inj (hcs''.symm.trans hcs)
  exact ⟨_, hcs, C131_controls hl hr hphi⟩

/-- **C131, CCpmpm-Dubins.** -/
theorem C131_ccpmpm (h : InRange sp.kappa sp.sigma) {s1 s2 : State} (hfar : dist2 s1 s2 ≤ 10 ^ 100) (hphi : TurnedBy phi s1 s2) :
    ∃ cs, SF.CCpmpm.get_controls sp s1 s2 = some cs ∧ |phi| - 3 / 10000 ≤ sp.kappa * (1 + 1 / 10 ^ 8) * lengthOf cs := by
  obtain ⟨cs, hcs, hl, _⟩ := C57_ccpmpm_limits h s1 s2 hfar
  obtain ⟨cs'', hcs'', hr⟩ := C54_ccpmpm_reaches h s1 s2 hfar
  obtain rfl := Option.some.inj (hcs''.symm.trans hcs)
  exact ⟨_, hcs, C131_controls hl hr hphi⟩

/-- **C131, CC-Dubins (partial).** Every possible result, unless opposed circles share their centre and if the assertions hold (C60). -/
theorem C131_cc_partial (h : InRange sp.kappa sp.sigma) {s1 s2 : State} (hr : InReach sp s1 s2) (ho : ¬ CC.Opposed sp junk s1 s2)
    (hA : SF.CC.Asserts sp junk s1 s2) (h1 : |s1.kappa| ≤ sp.kappa) (h2 : |s2.kappa| ≤ sp.kappa)
    (hc : CoarseEnough sp.kappa sp.sigma (toleranceRatio sp.kappa sp.sigma)) {cs : List Control}
    (hcs : SF.CC.IsControls sp junk s1 s2 cs) (hphi : TurnedBy phi s1 s2) :
    |phi| - anyTurn sp ≤ (curvatureUp sp + 1 / 10000) * lengthOf cs :=
  C131_controls (C126_cc_limits h s1 s2 hr hA h1 h2 hc hcs).1 (C60_cc_reaches_partial h s1 s2 hr ho hA hcs) hphi

/-- **C131, HC planners with equal end conditions** (HC00 and HCpmpm). -/
theorem C131_hc {pm1 pm2 : Bool} (hpm : pm1 = pm2) (h : InRange sp.kappa sp.sigma) {s1 s2 : State} (hfar : dist2 s1 s2 ≤ 10 ^ 100)
    (hc : CoarseEnough sp.kappa sp.sigma (toleranceRatio sp.kappa sp.sigma)) (hphi : TurnedBy phi s1 s2) :
    ∃ cs, SF.HcRs.get_controls pm1 pm2 sp s1 s2 = some cs ∧ |phi| - 3 / 10000 ≤ curvatureUp sp * lengthOf cs := by
  obtain ⟨cs, hcs, hl, _⟩ := C126_hc_limits pm1 pm2 h s1 s2 hfar hc
  obtain ⟨cs'', hcs'', hr⟩ := C69_hc_reaches hpm h s1 s2 hfar
  obtain rfl := Option.some.inj (hcs''.symm.trans hcs)
  exact ⟨_, hcs, C131_controls hl hr hphi⟩

/-- **C131, HC0pm and HCpm0 (partial).** Unless opposed circles share their centre (C70). -/
theorem C131_hc_partial {pm1 pm2 : Bool} (h : InRange sp.kappa sp.sigma) {s1 s2 : State} (hfar : dist2 s1 s2 ≤ 10 ^ 100)
    (hc : CoarseEnough sp.kappa sp.sigma (toleranceRatio sp.kappa sp.sigma)) (ho : ¬ HcRs.Opposed pm1 pm2 sp s1 s2)
    (hphi : TurnedBy phi s1 s2) :
    ∃ cs, SF.HcRs.get_controls pm1 pm2 sp s1 s2 = some cs ∧ |phi| - 3 / 10000 ≤ curvatureUp sp * lengthOf cs := by
  obtain ⟨cs, hcs, hl, _⟩ := C126_hc_limits pm1 pm2 h s1 s2 hfar hc
  obtain ⟨cs'', hcs'', hr⟩ := C70_hc_reaches_partial h s1 s2 hfar ho
  obtain rfl := Option.some.inj (hcs''.symm.trans hcs)
  exact ⟨_, hcs, C131_controls hl hr hphi⟩

/-- **C131, HC-Reeds-Shepp (partial).** Every possible result, unless opposed circles share their centre and if the ends of all candidates
can be joined (C76). -/
theorem C131_hcrs_partial (h : InRange sp.kappa sp.sigma) {s1 s2 : State} (hr : InReach sp s1 s2) (ho : ¬ HC.Opposed sp junk s1 s2)
    (hA : HC.AllJoinable sp junk s1 s2) (h1 : |s1.kappa| ≤ sp.kappa) (h2 : |s2.kappa| ≤ sp.kappa)
    (hc : CoarseEnough sp.kappa sp.sigma (toleranceRatio sp.kappa sp.sigma)) {cs : List Control}
    (hcs : SF.HC.IsControls sp junk s1 s2 cs) (hphi : TurnedBy phi s1 s2) :
    |phi| - anyTurn sp ≤ (curvatureUp sp + 1 / 10000) * lengthOf cs :=
  C131_controls (C126_hcrs_limits_near_partial h s1 s2 hr hA h1 h2 hc hcs).1 (C76_hcrs_reaches_partial h s1 s2 hr ho hA hcs) hphi

/-- **C131, CC00-Reeds-Shepp (partial).** Whenever it returns a path (C83). -/
theorem C131_cc00_rs_partial (h : InRange sp.kappa sp.sigma) {s1 s2 : State} (hfar : dist2 s1 s2 ≤ 10 ^ 100)
    (hc : CoarseEnough sp.kappa sp.sigma (cuspRatio sp.kappa sp.sigma)) {cs : List Control}
    (hcs : SF.CcRs.get_controls sp s1 s2 = some cs) (hphi : TurnedBy phi s1 s2) :
    |phi| - 4 / 10000 ≤ (1 + 2 * cuspRatio sp.kappa sp.sigma) * (sp.kappa * (1 + 1 / 10 ^ 8)) * lengthOf cs :=
  C131_controls (C126_cc00_rs_limits h s1 s2 hfar hc hcs).1 (C83_cc00_rs_reaches_partial h s1 s2 hfar hcs) hphi

/-- Parameters and states that the theorems cover. -/
example : InRange 1 1 ∧ CoarseEnough 1 1 (toleranceRatio 1 1) ∧ TurnedBy π ⟨0, 0, 0, 0, 0⟩ ⟨5, 6, -π, 0, 0⟩ := by
  have h : InRange 1 1 := ⟨by norm_num, by norm_num, by norm_num, by norm_num⟩
  exact ⟨h, ⟨by norm_num, by rw [ratio_one.1]; norm_num⟩, by rw [abs_of_pos pi_pos], -1, by push_cast; ring⟩

end Props
