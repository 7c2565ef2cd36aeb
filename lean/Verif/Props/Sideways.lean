import Verif.Props.TurnCost

/-!
# Moving sideways costs a square root: C132
-/

noncomputable section

namespace Props

open SF Spec Real

/-- How far `s2` lies to the left of a car in `s1`. -/
def toTheLeft (s1 s2 : State) : ℝ := (s2.y - s1.y) * cos s1.theta - (s2.x - s1.x) * sin s1.theta

/-- How far `s2` lies ahead of a car in `s1`. -/
def straightAhead (s1 s2 : State) : ℝ := (s2.x - s1.x) * cos s1.theta + (s2.y - s1.y) * sin s1.theta

/-- Paths of length `L` and curvature at most `K` get from `s1` no further sideways than half of `K L^2`, and half of that if they end with
the heading that they begin with; `tol` and `turn` say how exactly they lead to the goal. -/
def SidewaysLimit (K tol turn L : ℝ) (s1 s2 : State) : Prop :=
  |toTheLeft s1 s2| - tol ≤ K * L ^ 2 / 2 ∧
    (AngleEq s2.theta s1.theta → |toTheLeft s1 s2| - tol ≤ K * L ^ 2 / 4 + turn * L / 2)

/-- The limit for paths that lead to the goal nearly. -/
theorem sideways_near {K tol turn t : ℝ} {s1 s2 : State} {e : Config} {cs : List Segment} (hc : CurvatureAtMost K cs)
    (he : DrivesAll cs (pose s1) e) (hpos : e.dist (pose s2) ≤ tol) (hi : AngleEq t s2.theta) (ht : |e.theta - t| ≤ turn) :
    SidewaysLimit K tol turn (totalLength cs) s1 s2 := by
  have hT : 0 ≤ totalLength cs := by unfold totalLength; exact List.sum_nonneg (by simp)
  have hw : |toTheLeft s1 s2| ≤ |leftOf s1.theta (pose s1) e| + tol := by
    have h1 : toTheLeft s1 s2 = leftOf s1.theta (pose s1) e + leftOf s1.theta e (pose s2) := by
      rw [← leftOf_add]; rfl
    have h2 := leftOf_le s1.theta e (pose s2)
    have h3 : √(((pose s2).x - e.x) ^ 2 + ((pose s2).y - e.y) ^ 2) ≤ tol := by
      have : (pose s2).dist e ≤ tol := by rw [Config.dist_comm]; exact hpos
      exact this
    rw [h1]
    have := abs_add_le (leftOf s1.theta (pose s1) e) (leftOf s1.theta e (pose s2))
    linarith
  have h0 : |(pose s1).theta - s1.theta| = 0 := by simp [pose]
  constructor
  · have := leftOf_drives (theta0 := s1.theta) he hc _ hT le_rfl
    rw [h0] at this
    simp only [sub_self] at this
    nlinarith
  · intro ha
    obtain ⟨i, hi⟩ := hi
    obtain ⟨j, hj⟩ := ha
    rw [hj] at hi
    have hn : t - s1.theta = (i + j : ℤ) * (2 * π) := by rw [hi]; push_cast; ring
    rcases eq_or_ne (i + j) 0 with hz | hz
    · rw [hz, Int.cast_zero, zero_mul] at hn
      have h1 := leftOf_drives (theta0 := s1.theta) he hc (totalLength cs / 2) (by linarith) (by linarith)
      rw [h0] at h1
      have h2 : |e.theta - s1.theta| ≤ turn := by rw [show s1.theta = t by linarith]; exact ht
      have h3 := mul_le_mul_of_nonneg_right h2 (by linarith : 0 ≤ totalLength cs - totalLength cs / 2)
      nlinarith
    · have h1 := heading_change he hc
      have h2 := leftOf_le s1.theta (pose s1) e
      have h3 := he.chord
      have hp := pi_gt_three
      have h4 : 2 * π ≤ |t - s1.theta| := by
        rw [hn, abs_mul, abs_of_pos (by linarith : 0 < 2 * π), ← Int.cast_abs]
        have : (1:ℝ) ≤ ((|i + j| : ℤ) : ℝ) := by exact_mod_cast Int.one_le_abs hz
        nlinarith
      have h5 := abs_sub_le t e.theta s1.theta
      rw [abs_sub_comm t e.theta] at h5
      change |e.theta - s1.theta| ≤ _ at h1
      have h6 : 1 ≤ K * totalLength cs / 4 + turn / 2 := by
        have : 0 ≤ turn := (abs_nonneg _).trans ht
        linarith
      have h7 := mul_le_mul_of_nonneg_right h6 hT
      nlinarith

/-- **C132, controls.** Whatever the planner. -/
theorem C132_controls {K tol turn : ℝ} {s1 s2 : State} {cs : List Control} (hc : CurvatureAtMost K (cs.map seg))
    (h : LeadsTo cs s1 s2 tol turn) : SidewaysLimit K (tol + pathTol (cs.map seg)) turn (lengthOf cs) s1 s2 := by
  obtain ⟨e, he, hpos, t, hi, ht⟩ := h
  exact sideways_near hc he hpos hi ht

/-- A quarter of a circle leads one radius to the left. -/
example : LeadsTo [⟨π / 2, 1, 0⟩] ⟨0, 0, 0, 0, 0⟩ ⟨1, 1, π / 2, 0, 0⟩ 0 0 ∧ CurvatureAtMost 1 (([⟨π / 2, 1, 0⟩] : List Control).map seg) ∧
    toTheLeft ⟨0, 0, 0, 0, 0⟩ ⟨1, 1, π / 2, 0, 0⟩ = 1 := by
  have hl : 0 < π / 2 := by have := pi_pos; linarith
  refine ⟨⟨⟨1, 1, π / 2⟩, .cons (q := ⟨1, 1, π / 2⟩) ?_ (.nil _), ?_⟩, ?_, by simp [toTheLeft]⟩
  · rw [drives_iff]
    simp only [seg]
    rw [arrive_arc one_ne_zero]
    simp only [Segment.dir, not_lt.2 hl.le, if_false, abs_of_pos hl, pose, zero_add, one_mul, mul_one, sin_zero, cos_zero, sin_pi_div_two,
      cos_pi_div_two]
    ext <;> dsimp only <;> norm_num
  · refine ⟨?_, π / 2, ⟨0, by simp [pose]⟩, by simp⟩
    simp [Config.dist, pose, pathTol, segTol, seg]
  · intro c hc t _ _
    simp only [List.map_cons, List.map_nil, List.mem_cons, List.not_mem_nil, or_false] at hc
    rw [hc]
    simp [seg]

/-- The limit as a bound on the length. -/
theorem sideways_sqrt {K L : ℝ} (hK : 0 < K) (hL : 0 ≤ L) {s1 s2 : State} (h : SidewaysLimit K 0 0 L s1 s2) :
    √(2 * |toTheLeft s1 s2| / K) ≤ L ∧ (AngleEq s2.theta s1.theta → 2 * √(|toTheLeft s1 s2| / K) ≤ L) := by
  obtain ⟨h1, h2⟩ := h
  constructor
  · rw [sqrt_le_left hL, div_le_iff₀' hK]
    linarith
  · intro ha
    have h3 := h2 ha
    have : √(|toTheLeft s1 s2| / K) ≤ L / 2 := by
      rw [sqrt_le_left (by linarith), div_le_iff₀' hK]
      linarith
    linarith

/-- **C132, Reeds-Shepp.** -/
theorem C132_rs {sp : RSSpace} (hv : sp.Valid) (s1 s2 : State) (hfar : sp.kappa * dist2 s1 s2 ≤ 10 ^ 200) :
    √(2 * |toTheLeft s1 s2| / sp.kappa) ≤ sp.get_distance s1 s2 ∧
      (AngleEq s2.theta s1.theta → 2 * √(|toTheLeft s1 s2| / sp.kappa) ≤ sp.get_distance s1 s2) := by
  obtain ⟨e, he, hx, hy, ht⟩ := C22_rs_reaches hv s1 s2 hfar
  obtain ⟨-, -, h1⟩ := C43_rs_controls hv s1 s2 hfar
  rw [C23_rs_distance hv]
  refine sideways_sqrt hv.1 (by unfold totalLength; exact List.sum_nonneg (by simp))
    (sideways_near (curvature_arcs hv.1.le fun c hc => ⟨(h1 c hc).1, (h1 c hc).2.1⟩) he ?_ ht (by simp))
  rw [Config.dist, hx, hy]; simp

/-- **C132, Dubins (partial).** Outside the tolerance zones of C15. -/
theorem C132_dubins_partial {sp : DubinsSpace} (hv : sp.Valid) (s1 s2 : State) (hfar : sp.kappa * dist2 s1 s2 ≤ 10 ^ 200)
    (hne : ¬ NearlyEqual sp.kappa s1 s2) (hz : ¬ NearlyTangent sp.kappa s1 s2) :
    √(2 * |toTheLeft s1 s2| / sp.kappa) ≤ sp.get_distance s1 s2 := by
  obtain ⟨e, he, hx, hy, ht⟩ := C15_dubins_reaches hv s1 s2 hfar hne hz
  obtain ⟨-, h1⟩ := C17_dubins_controls hv s1 s2 hfar
  rw [C16_dubins_distance hv s1 s2 hfar]
  refine (sideways_sqrt hv.1 (by unfold totalLength; exact List.sum_nonneg (by simp))
    (sideways_near (curvature_arcs hv.1.le fun c hc => ⟨(h1 c hc).1, (h1 c hc).2.1⟩) he ?_ ht (by simp))).1
  rw [Config.dist, hx, hy]; simp

/-- Parallel parking: left and right forwards, left and right backwards on four equal arcs. -/
theorem parallel_parking {k e t : ℝ} (hk : 0 < k) (he : IsSign e) (h0 : 0 < t) (h1 : t ≤ π / 3) (p : Config) :
    ∃ cs, ReedsSheppPath k cs ∧ totalLength cs = 4 * t / k ∧
      Reaches cs p ⟨p.x - e * (4 * (1 - cos t) / k) * sin p.theta, p.y + e * (4 * (1 - cos t) / k) * cos p.theta, p.theta⟩ := by
  have hp := pi_pos
  have hk' := hk.ne'
  have lt : 0 < t / k := div_pos h0 hk
  have hne : e ≠ 0 := by rcases he with rfl | rfl <;> norm_num
  have p1 : rsPiece k e 1 t = ⟨t / k, e * k, 0⟩ := by rw [rsPiece, one_mul]
  have p2 : rsPiece k (-e) 1 t = ⟨t / k, -e * k, 0⟩ := by rw [rsPiece, one_mul]
  have p3 : rsPiece k e (-1) t = ⟨-(t / k), e * k, 0⟩ := by rw [rsPiece, neg_one_mul, neg_div]
  have p4 : rsPiece k (-e) (-1) t = ⟨-(t / k), -e * k, 0⟩ := by rw [rsPiece, neg_one_mul, neg_div]
  refine ⟨_, ReedsSheppPath.cccc_in (t := t) (u := t) (v := t) he (.inl rfl) ⟨h0.le, by linarith⟩ h0.le h1 ⟨h0.le, by linarith⟩, ?_, ?_⟩
  · simp only [p1, p2, p3, p4, totalLength, List.map_cons, List.map_nil, List.sum_cons, List.sum_nil, abs_neg, abs_of_pos lt]
    ring
  rw [p1, p2, p3, p4]
  refine ⟨_, .cons (drives_iff.2 rfl) (.cons (drives_iff.2 rfl) (.cons (drives_iff.2 rfl) (.cons (drives_iff.2 rfl) (.nil _)))), ?_⟩
  have dn : -(t / k) < 0 := by linarith
  simp only [Segment.dir, if_pos dn, if_neg (not_lt.2 lt.le), abs_neg, abs_of_pos lt]
  have hek : e * k ≠ 0 := mul_ne_zero hne hk'
  have hek' : -e * k ≠ 0 := mul_ne_zero (neg_ne_zero.2 hne) hk'
  rw [arrive_arc hek, arrive_arc hek', arrive_arc hek, arrive_arc hek']
  have q1 : 1 * (t / k) * (e * k) = e * t := by field_simp
  have q2 : 1 * (t / k) * (-e * k) = -(e * t) := by field_simp
  have q3 : -1 * (t / k) * (e * k) = -(e * t) := by field_simp
  have q4 : -1 * (t / k) * (-e * k) = e * t := by field_simp
  have q5 : e * k * 1 * (t / k) = e * t := by field_simp
  have q6 : -e * k * 1 * (t / k) = -(e * t) := by field_simp
  have q7 : e * k * -1 * (t / k) = -(e * t) := by field_simp
  have q8 : -e * k * -1 * (t / k) = e * t := by field_simp
  have hee : e * e = 1 := by rcases he with rfl | rfl <;> norm_num
  have se : ∀ x : ℝ, sin (e * x) = e * sin x ∧ cos (e * x) = cos x := by
    intro x; rcases he with rfl | rfl <;> simp
  have ie : 1 / (e * k) = e / k := by rw [div_eq_div_iff hek hk']; rw [← mul_assoc, hee]
  have ie' : 1 / (-e * k) = -e / k := by rw [div_eq_div_iff hek' hk']; linear_combination -k * hee
  simp only [q1, q2, q3, q4, q5, q6, q7, q8, add_neg_cancel_right, neg_add_cancel_right, ie, ie']
  refine ⟨?_, ?_, ⟨0, ?_⟩⟩
  · dsimp only
    simp only [sin_add, ← sub_eq_add_neg, sin_sub, se]
    ring
  · dsimp only
    simp only [cos_add, ← sub_eq_add_neg, cos_sub, se]
    ring
  · push_cast; ring

/-- **C132, parallel parking.** Reeds-Shepp paths lead to a goal beside the car with the same heading, at most two turning radii away, on at
most the length of four equal arcs; the square root is the right order. -/
theorem C132_rs_parking {sp : RSSpace} (hv : sp.Valid) {s1 s2 : State} (hb : straightAhead s1 s2 = 0) (ht : AngleEq s2.theta s1.theta)
    (hw : sp.kappa * |toTheLeft s1 s2| ≤ 2) :
    sp.get_distance s1 s2 ≤ 4 * arccos (1 - sp.kappa * |toTheLeft s1 s2| / 4) / sp.kappa ∧
      sp.get_distance s1 s2 ≤ 5 * √(|toTheLeft s1 s2| / sp.kappa) := by
  have hk := hv.1
  obtain ⟨w, hwd⟩ : ∃ w, w = toTheLeft s1 s2 := ⟨_, rfl⟩
  rw [← hwd] at hw ⊢
  have hp := pi_pos
  have hx : s2.x = s1.x - w * sin s1.theta := by
    rw [hwd, toTheLeft]
    rw [straightAhead] at hb
    linear_combination (s1.x - s2.x) * (sin_sq_add_cos_sq s1.theta) + cos s1.theta * hb
  have hy : s2.y = s1.y + w * cos s1.theta := by
    rw [hwd, toTheLeft]
    rw [straightAhead] at hb
    linear_combination (s1.y - s2.y) * (sin_sq_add_cos_sq s1.theta) + sin s1.theta * hb
  obtain ⟨t, htd⟩ : ∃ t, t = arccos (1 - sp.kappa * |w| / 4) := ⟨_, rfl⟩
  rw [← htd]
  have hkw : 0 ≤ sp.kappa * |w| := by positivity
  have hct : cos t = 1 - sp.kappa * |w| / 4 := by rw [htd, cos_arccos (by linarith) (by linarith)]
  have t0 : 0 ≤ t := by rw [htd]; exact arccos_nonneg _
  have t1 : t ≤ π / 3 := by
    have : arccos (1 - sp.kappa * |w| / 4) ≤ arccos (1 / 2) := arccos_le_arccos (by linarith)
    rw [← cos_pi_div_three, arccos_cos (by linarith) (by linarith)] at this
    rw [htd]; exact this
  have first : sp.get_distance s1 s2 ≤ 4 * t / sp.kappa := by
    obtain ⟨e, he, hs⟩ : ∃ e, IsSign e ∧ w = e * |w| := by
      rcases le_total 0 w with h | h
      · exact ⟨1, .inl rfl, by rw [abs_of_nonneg h, one_mul]⟩
      · exact ⟨-1, .inr rfl, by rw [abs_of_nonpos h]; ring⟩
    rcases eq_or_lt_of_le t0 with hz | hpos
    · have hw0 : |w| = 0 := by
        rw [← hz, cos_zero] at hct
        have : sp.kappa * |w| = 0 := by linarith
        exact (mul_eq_zero.1 this).resolve_left hk.ne'
      have hw0' : w = 0 := abs_eq_zero.1 hw0
      rw [hw0', zero_mul] at hx hy
      rw [C131_rs_spot (phi := 0) hv (by linarith) (by linarith) ⟨by rw [abs_zero]; exact hp.le, by rw [add_zero]; exact ht⟩, ← hz]
      simp
    · obtain ⟨cs, h1, h2, q, h3, h4, h5, h6⟩ := parallel_parking hk he hpos t1 (pose s1)
      rw [← h2]
      have hwe : e * (4 * (1 - cos t) / sp.kappa) = w := by
        rw [hct, show 4 * (1 - (1 - sp.kappa * |w| / 4)) / sp.kappa = |w| by field_simp; ring]
        exact hs.symm
      rw [hwe] at h4 h5
      exact C25_rs_shortest hv s1 s2 cs h1 ⟨q, h3, h4.trans hx.symm, h5.trans hy.symm, h6.trans ht.symm⟩
  refine ⟨first, first.trans ?_⟩
  have h2 := cos_le_one_sub_mul_cos_sq (x := t) (by rw [abs_of_nonneg t0]; linarith)
  rw [hct] at h2
  have h3 : t ^ 2 * 16 ≤ 25 * (sp.kappa * |w|) := by
    have h4 : 2 / π ^ 2 * t ^ 2 ≤ sp.kappa * |w| / 4 := by linarith
    have h5 : t ^ 2 * 8 ≤ sp.kappa * |w| * π ^ 2 := by
      rw [div_mul_eq_mul_div, div_le_iff₀ (by positivity)] at h4
      linarith
    have h6 : π ^ 2 ≤ 25 / 2 := by nlinarith [pi_lt_d2]
    have := mul_le_mul_of_nonneg_left h6 hkw
    linarith
  have h7 : 4 * t / sp.kappa = √((4 * t / sp.kappa) ^ 2) := (sqrt_sq (by positivity)).symm
  rw [h7, show (5:ℝ) = √(5 ^ 2) from (sqrt_sq (by norm_num)).symm, ← sqrt_mul (by norm_num)]
  apply sqrt_le_sqrt
  rw [div_pow, ← mul_div_assoc, div_le_div_iff₀ (by positivity) hk]
  have := mul_le_mul_of_nonneg_right h3 hk.le
  nlinarith

/-- A parking place two metres to the right of a car with turning radius 1 m. -/
example : (⟨1, 1 / 10⟩ : RSSpace).Valid ∧ straightAhead ⟨0, 0, 0, 0, 0⟩ ⟨0, -2, 0, 0, 0⟩ = 0 ∧
    (1:ℝ) * |toTheLeft ⟨0, 0, 0, 0, 0⟩ ⟨0, -2, 0, 0, 0⟩| ≤ 2 ∧
    2 * √2 ≤ (⟨1, 1 / 10⟩ : RSSpace).get_distance ⟨0, 0, 0, 0, 0⟩ ⟨0, -2, 0, 0, 0⟩ ∧
    (⟨1, 1 / 10⟩ : RSSpace).get_distance ⟨0, 0, 0, 0, 0⟩ ⟨0, -2, 0, 0, 0⟩ ≤ 4 * π / 3 := by
  have hv : (⟨1, 1 / 10⟩ : RSSpace).Valid := ⟨by norm_num, by norm_num⟩
  have hs : straightAhead ⟨0, 0, 0, 0, 0⟩ ⟨0, -2, 0, 0, 0⟩ = 0 := by simp [straightAhead]
  have hl : toTheLeft ⟨0, 0, 0, 0, 0⟩ ⟨0, -2, 0, 0, 0⟩ = -2 := by simp [toTheLeft]
  have ha : |toTheLeft ⟨0, 0, 0, 0, 0⟩ ⟨0, -2, 0, 0, 0⟩| = 2 := by rw [hl]; norm_num
  have hd : dist2 ⟨0, 0, 0, 0, 0⟩ ⟨0, -2, 0, 0, 0⟩ = 2 := by
    rw [dist2, show ((0:ℝ) - 0) ^ 2 + (-2 - 0) ^ 2 = 2 ^ 2 by norm_num, sqrt_sq (by norm_num)]
  have h1 := (C132_rs hv ⟨0, 0, 0, 0, 0⟩ ⟨0, -2, 0, 0, 0⟩ (by rw [hd]; norm_num)).2 (AngleEq.refl _)
  have h2 := (C132_rs_parking (s1 := ⟨0, 0, 0, 0, 0⟩) (s2 := ⟨0, -2, 0, 0, 0⟩) hv hs (AngleEq.refl _) (by rw [ha]; norm_num)).1
  rw [ha] at h1 h2
  refine ⟨hv, hs, by rw [ha]; norm_num, by simpa using h1, h2.trans_eq ?_⟩
  rw [show (1:ℝ) - 1 * 2 / 4 = 1 / 2 by norm_num, ← cos_pi_div_three, arccos_cos (by positivity) (by linarith [pi_pos])]
  ring

variable {sp : HCSpace} {junk : ℝ}

/-- **C132, CC00-Dubins.** -/
theorem C132_cc00 (h : InRange sp.kappa sp.sigma) (s1 s2 : State) (hfar : dist2 s1 s2 ≤ 10 ^ 100)
    (hc : CoarseEnough sp.kappa sp.sigma (toleranceRatio sp.kappa sp.sigma)) :
    ∃ cs, CC00.get_controls sp s1 s2 = some cs ∧ SidewaysLimit (curvatureUp sp)
      (1 / 10000 * (2 + 6 * radiusBound sp.kappa sp.sigma + 4 * lengthOf cs) + pathTol (cs.map seg)) (3 / 10000) (lengthOf cs) s1 s2 := by
  obtain ⟨cs, hcs, hl, _⟩ := C126_cc00_limits h s1 s2 hfar hc
  obtain ⟨cs'', hcs'', hr⟩ := C36_cc00_reaches h s1 s2 hfar
  obtain rfl := Option.some.inj (hcs''.symm.trans hcs)
  exact ⟨_, hcs, C132_controls hl hr⟩

/-- **C132, CCpmpm-Dubins.** -/
theorem C132_ccpmpm (h : InRange sp.kappa sp.sigma) (s1 s2 : State) (hfar : dist2 s1 s2 ≤ 10 ^ 100) :
    ∃ cs, SF.CCpmpm.get_controls sp s1 s2 = some cs ∧ SidewaysLimit (sp.kappa * (1 + 1 / 10 ^ 8))
      (planTol sp cs + pathTol (cs.map seg)) (3 / 10000) (lengthOf cs) s1 s2 := by
  obtain ⟨cs, hcs, hl, _⟩ := C57_ccpmpm_limits h s1 s2 hfar
  obtain ⟨cs'', hcs'', hr⟩ := C54_ccpmpm_reaches h s1 s2 hfar
  obtain rfl := Option.some.inj (hcs''.symm.trans hcs)
  exact ⟨_, hcs, C132_controls hl hr⟩

/-- **C132, HC00 and HCpmpm.** -/
theorem C132_hc {pm1 pm2 : Bool} (hpm : pm1 = pm2) (h : InRange sp.kappa sp.sigma) (s1 s2 : State) (hfar : dist2 s1 s2 ≤ 10 ^ 100)
    (hc : CoarseEnough sp.kappa sp.sigma (toleranceRatio sp.kappa sp.sigma)) :
    ∃ cs, SF.HcRs.get_controls pm1 pm2 sp s1 s2 = some cs ∧ SidewaysLimit (curvatureUp sp)
      (hcPlanTol sp cs + pathTol (cs.map seg)) (3 / 10000) (lengthOf cs) s1 s2 := by
  obtain ⟨cs, hcs, hl, _⟩ := C126_hc_limits pm1 pm2 h s1 s2 hfar hc
  obtain ⟨cs'', hcs'', hr⟩ := C69_hc_reaches hpm h s1 s2 hfar
  obtain rfl := Option.some.inj (hcs''.symm.trans hcs)
  exact ⟨_, hcs, C132_controls hl hr⟩

/-- **C132, CC0pm-Dubins (partial).** Unless opposed circles share their centre (C40), where the goal is missed. -/
theorem C132_cc0pm_partial (h : InRange sp.kappa sp.sigma) (s1 s2 : State) (hfar : dist2 s1 s2 ≤ 10 ^ 100)
    (hc : CoarseEnough sp.kappa sp.sigma (toleranceRatio sp.kappa sp.sigma)) (ho : ¬ CC0pm.Opposed sp s1 s2) :
    ∃ cs, SF.CC0pm.get_controls sp s1 s2 = some cs ∧ SidewaysLimit (curvatureUp sp)
      (planTol sp cs + pathTol (cs.map seg)) (3 / 10000) (lengthOf cs) s1 s2 := by
  obtain ⟨cs, hcs, hl, _⟩ := C126_cc0pm_limits h s1 s2 hfar hc
  obtain ⟨cs'', hcs'', hr⟩ := C40_cc0pm_reaches_partial h s1 s2 hfar ho
  obtain rfl := Option.some.inj (hcs''.symm.trans hcs)
  exact ⟨_, hcs, C132_controls hl hr⟩

/-- **C132, CCpm0-Dubins (partial).** -/
theorem C132_ccpm0_partial (h : InRange sp.kappa sp.sigma) (s1 s2 : State) (hfar : dist2 s1 s2 ≤ 10 ^ 100)
    (hc : CoarseEnough sp.kappa sp.sigma (toleranceRatio sp.kappa sp.sigma)) (ho : ¬ CCpm0.Opposed sp s1 s2) :
    ∃ cs, SF.CCpm0.get_controls sp s1 s2 = some cs ∧ SidewaysLimit (curvatureUp sp)
      (planTol sp cs + pathTol (cs.map seg)) (3 / 10000) (lengthOf cs) s1 s2 := by
  obtain ⟨cs, hcs, hl, _⟩ := C126_ccpm0_limits h s1 s2 hfar hc
  obtain ⟨cs'', hcs'', hr⟩ := C53_ccpm0_reaches_partial h s1 s2 hfar ho
  obtain rfl := Option.some.inj (hcs''.symm.trans hcs)
  exact ⟨_, hcs, C132_controls hl hr⟩

/-- **C132, CC-Dubins (partial).** Every possible result, unless opposed circles share their centre and if the assertions hold (C60). -/
theorem C132_cc_partial (h : InRange sp.kappa sp.sigma) (s1 s2 : State) (hr : InReach sp s1 s2) (ho : ¬ CC.Opposed sp junk s1 s2)
    (hA : SF.CC.Asserts sp junk s1 s2) (h1 : |s1.kappa| ≤ sp.kappa) (h2 : |s2.kappa| ≤ sp.kappa)
    (hc : CoarseEnough sp.kappa sp.sigma (toleranceRatio sp.kappa sp.sigma)) {cs : List Control}
    (hcs : SF.CC.IsControls sp junk s1 s2 cs) :
    SidewaysLimit (curvatureUp sp + 1 / 10000) (anyTol sp cs + pathTol (cs.map seg)) (anyTurn sp) (lengthOf cs) s1 s2 :=
  C132_controls (C126_cc_limits h s1 s2 hr hA h1 h2 hc hcs).1 (C60_cc_reaches_partial h s1 s2 hr ho hA hcs)

/-- **C132, HC0pm and HCpm0 (partial).** Unless opposed circles share their centre (C70). -/
theorem C132_hc_partial {pm1 pm2 : Bool} (h : InRange sp.kappa sp.sigma) (s1 s2 : State) (hfar : dist2 s1 s2 ≤ 10 ^ 100)
    (hc : CoarseEnough sp.kappa sp.sigma (toleranceRatio sp.kappa sp.sigma)) (ho : ¬ HcRs.Opposed pm1 pm2 sp s1 s2) :
    ∃ cs, SF.HcRs.get_controls pm1 pm2 sp s1 s2 = some cs ∧ SidewaysLimit (curvatureUp sp)
      (hcPlanTol sp cs + pathTol (cs.map seg)) (3 / 10000) (lengthOf cs) s1 s2 := by
  obtain ⟨cs, hcs, hl, _⟩ := C126_hc_limits pm1 pm2 h s1 s2 hfar hc
  obtain ⟨cs'', hcs'', hr⟩ := C70_hc_reaches_partial h s1 s2 hfar ho
  obtain rfl := Option.some.inj (hcs''.symm.trans hcs)
  exact ⟨_, hcs, C132_controls hl hr⟩

/-- **C132, HC-Reeds-Shepp (partial).** Every possible result, unless opposed circles share their centre and if the ends of all candidates
can be joined (C76). -/
theorem C132_hcrs_partial (h : InRange sp.kappa sp.sigma) (s1 s2 : State) (hr : InReach sp s1 s2) (ho : ¬ HC.Opposed sp junk s1 s2)
    (hA : HC.AllJoinable sp junk s1 s2) (h1 : |s1.kappa| ≤ sp.kappa) (h2 : |s2.kappa| ≤ sp.kappa)
    (hc : CoarseEnough sp.kappa sp.sigma (toleranceRatio sp.kappa sp.sigma)) {cs : List Control}
    (hcs : SF.HC.IsControls sp junk s1 s2 cs) :
    SidewaysLimit (curvatureUp sp + 1 / 10000) (hcAnyTol sp cs + pathTol (cs.map seg)) (anyTurn sp) (lengthOf cs) s1 s2 :=
  C132_controls (C126_hcrs_limits_near_partial h s1 s2 hr hA h1 h2 hc hcs).1 (C76_hcrs_reaches_partial h s1 s2 hr ho hA hcs)

/-- **C132, CC00-Reeds-Shepp (partial).** Whenever it returns a path (C83). -/
theorem C132_cc00_rs_partial (h : InRange sp.kappa sp.sigma) (s1 s2 : State) (hfar : dist2 s1 s2 ≤ 10 ^ 100)
    (hc : CoarseEnough sp.kappa sp.sigma (cuspRatio sp.kappa sp.sigma)) {cs : List Control}
    (hcs : SF.CcRs.get_controls sp s1 s2 = some cs) :
    SidewaysLimit ((1 + 2 * cuspRatio sp.kappa sp.sigma) * (sp.kappa * (1 + 1 / 10 ^ 8)))
      (ccPlanTol sp cs + pathTol (cs.map seg)) (4 / 10000) (lengthOf cs) s1 s2 :=
  C132_controls (C126_cc00_rs_limits h s1 s2 hfar hc hcs).1 (C83_cc00_rs_reaches_partial h s1 s2 hfar hcs)

end Props
