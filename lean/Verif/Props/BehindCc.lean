import Verif.Props.Behind
import Verif.Props.Cost

/-!
# A goal that is not ahead costs a full circle, planners with continuous curvature: C130
-/

noncomputable section

namespace Props

open SF Spec Real Set

/-- The controls `cs` are nearly as long as a full circle of curvature `K` if the goal `s2` has the heading of `s1`, is not ahead and is
not within the tolerance: `tol` and `turn` say how exactly the controls lead to the goal. -/
def NearlyCircle (d K tol turn : ℝ) (s1 s2 : State) (cs : List Control) : Prop :=
  AngleEq s2.theta s1.theta → ahead d (pose s1) (pose s2) ≤ 0 → π / 2 * (K * tol + turn) < K * (dist2 s1 s2 - tol) →
    2 * π - turn - π / 2 * (K * tol + turn) ≤ K * lengthOf cs

/-- Being ahead changes by at most the distance. -/
theorem ahead_near {d ε : ℝ} {p q r : Config} (hd : d = 1 ∨ d = -1) (h : q.dist r ≤ ε) : ahead d p q ≤ ahead d p r + ε := by
  have h1 : (d * ((q.x - r.x) * cos p.theta + (q.y - r.y) * sin p.theta)) ^ 2 ≤ (q.x - r.x) ^ 2 + (q.y - r.y) ^ 2 := by
    have e : d ^ 2 = 1 := by rcases hd with rfl | rfl <;> norm_num
    rw [mul_pow, e, one_mul]
    have := sq_nonneg ((q.x - r.x) * sin p.theta - (q.y - r.y) * cos p.theta)
    have := sin_sq_add_cos_sq p.theta
    nlinarith
  have h2 := le_sqrt_of_sq_le h1
  have h3 : √((q.x - r.x) ^ 2 + (q.y - r.y) ^ 2) ≤ ε := h
  unfold ahead
  linarith

/-- The sine is above its chords. -/
theorem sin_chords {m c : ℝ} (h0 : 0 ≤ m) (h1 : m ≤ π) (h : sin m ≤ c) : m ≤ π / 2 * c ∨ π - π / 2 * c ≤ m := by
  have hp := pi_pos
  rcases le_total m (π / 2) with h2 | h2
  · left
    have := mul_le_sin h0 h2
    have : π / 2 * (2 / π * m) ≤ π / 2 * c := mul_le_mul_of_nonneg_left (this.trans h) (by linarith)
    rwa [← mul_assoc, show π / 2 * (2 / π) = 1 by field_simp, one_mul] at this
  · right
    have := mul_le_sin (x := π - m) (by linarith) (by linarith)
    rw [sin_pi_sub] at this
    have : π / 2 * (2 / π * (π - m)) ≤ π / 2 * c := mul_le_mul_of_nonneg_left (this.trans h) (by linarith)
    rw [← mul_assoc, show π / 2 * (2 / π) = 1 by field_simp, one_mul] at this
    linarith

/-- **C130, controls that lead to the goal nearly.** -/
theorem C130_controls_near {d K a turn : ℝ} (hd : d = 1 ∨ d = -1) (hK : 0 < K) {s1 s2 : State} {cs : List Control} (hdir : DrivesOnly d cs)
    (hc : CurvatureAtMost K (cs.map seg)) (h : LeadsTo cs s1 s2 a turn) :
    NearlyCircle d K (a + pathTol (cs.map seg)) turn s1 s2 cs := by
  intro ha hb hdist
  obtain ⟨e, he, hpos, t, ht, hturn⟩ := h
  obtain ⟨tol, htol⟩ : ∃ tol : ℝ, tol = a + pathTol (cs.map seg) := ⟨_, rfl⟩
  rw [← htol] at hpos hdist ⊢
  have hp := pi_pos
  have hdir' : ∀ c ∈ cs.map seg, c.len ≠ 0 → c.dir = d := by
    intro c hcm h0
    obtain ⟨x, hx, rfl⟩ := List.mem_map.1 hcm
    have h1 := hdir x hx
    change x.delta_s ≠ 0 at h0
    change (if x.delta_s < 0 then (-1:ℝ) else 1) = d
    rcases hd with rfl | rfl
    · rw [if_neg (by linarith)]
    · rw [if_pos (lt_of_le_of_ne (by linarith) h0)]
  have hL : 0 ≤ lengthOf cs := by unfold lengthOf totalLength; exact List.sum_nonneg (by simp)
  have hcan : CanDrive d K (lengthOf cs) (pose s1) e := ⟨e, DrivesAll.curve hd he hdir' hc, SameConfig.refl _⟩
  have hchord : dist2 s1 s2 ≤ lengthOf cs + tol := by
    have h1 := he.chord
    have h2 := Config.dist_triangle (pose s1) e (pose s2)
    have h3 : (pose s1).dist (pose s2) = dist2 s1 s2 := by rw [Config.dist_comm]; rfl
    have h4 : (pose s1).dist e ≤ lengthOf cs := by rw [Config.dist_comm]; exact h1
    linarith
  have htn : 0 ≤ turn := (abs_nonneg _).trans hturn
  have htl : 0 ≤ tol := (Config.dist_nonneg _ _).trans hpos
  by_contra hlt
  rw [not_le] at hlt
  have hang : AngleEq e.theta ((pose s1).theta + (e.theta - t)) := by
    obtain ⟨i, hi⟩ := ht
    obtain ⟨j, hj⟩ := ha
    refine ⟨i + j, ?_⟩
    change t = s2.theta + i * (2 * π) at hi
    change e.theta = s1.theta + (e.theta - t) + _
    rw [hi, hj]
    push_cast
    ring
  have hphi := abs_nonneg (e.theta - t)
  have hKt : 0 ≤ K * tol := by positivity
  have hx : 0 ≤ π / 2 * (K * tol + turn) := by positivity
  have hs : K * lengthOf cs < 2 * π - |e.theta - t| := by linarith
  have key := (C130_paths hd hK hL hcan hang hs).1
  rw [div_le_iff₀' hK] at key
  have hah := ahead_near (p := pose s1) hd hpos
  have hsin : sin |e.theta - t| ≤ turn := (sin_le hphi).trans hturn
  have : K * ahead d (pose s1) e ≤ K * tol := mul_le_mul_of_nonneg_left (by linarith) hK.le
  have hKL : 0 ≤ K * lengthOf cs := by positivity
  rcases sin_chords (m := (K * lengthOf cs + |e.theta - t|) / 2) (c := (K * tol + turn) / 2) (by linarith) (by linarith) (by linarith) with h1 | h1
  · have : K * (dist2 s1 s2 - tol) ≤ K * lengthOf cs := mul_le_mul_of_nonneg_left (by linarith) hK.le
    linarith
  · linarith

/-- Two half circles, to a goal four radii to the side. -/
example : LeadsTo [⟨π, 1, 0⟩, ⟨π, -1, 0⟩] ⟨0, 0, 0, 0, 0⟩ ⟨0, 4, 0, 0, 0⟩ 0 0 ∧ DrivesOnly 1 [⟨π, 1, 0⟩, ⟨π, -1, 0⟩] ∧
    CurvatureAtMost 1 (([⟨π, 1, 0⟩, ⟨π, -1, 0⟩] : List Control).map seg) ∧ ahead 1 (pose ⟨0, 0, 0, 0, 0⟩) (pose ⟨0, 4, 0, 0, 0⟩) ≤ 0 ∧
    π / 2 * (1 * 0 + 0) < 1 * (dist2 ⟨0, 0, 0, 0, 0⟩ ⟨0, 4, 0, 0, 0⟩ - 0) := by
  have hl := pi_pos
  refine ⟨⟨⟨0, 4, 0⟩, .cons (q := ⟨0, 2, π⟩) ?_ (.cons (q := ⟨0, 4, 0⟩) ?_ (.nil _)), ?_⟩, ?_, ?_, by simp [ahead, pose], ?_⟩
  · rw [drives_iff]
    simp only [seg]
    rw [arrive_arc one_ne_zero]
    simp only [Segment.dir, not_lt.2 hl.le, if_false, abs_of_pos hl, pose, zero_add, one_mul, mul_one, sin_zero, cos_zero, sin_pi, cos_pi]
    ext <;> dsimp only <;> norm_num
  · rw [drives_iff]
    simp only [seg]
    rw [arrive_arc (by norm_num)]
    simp only [Segment.dir, not_lt.2 hl.le, if_false, abs_of_pos hl, one_mul, mul_neg, mul_one, add_neg_cancel, sin_zero, cos_zero, sin_pi, cos_pi]
    ext <;> dsimp only <;> norm_num
  · refine ⟨?_, 0, ⟨0, by simp [pose]⟩, by simp⟩
    simp [Config.dist, pose, pathTol, segTol, seg]
  · intro c hc
    simp only [List.mem_cons, List.not_mem_nil, or_false] at hc
    rcases hc with rfl | rfl <;> simp [hl.le]
  · intro c hc t _ _
    simp only [List.map_cons, List.map_nil, List.mem_cons, List.not_mem_nil, or_false] at hc
    rcases hc with rfl | rfl <;> simp [seg]
  · have : (0:ℝ) < dist2 ⟨0, 0, 0, 0, 0⟩ ⟨0, 4, 0, 0, 0⟩ := by unfold dist2; positivity
    simpa using this

variable {sp : HCSpace} {junk : ℝ}

/-- The curvature that C126 allows. -/
def curvatureUp (sp : HCSpace) : ℝ := (1 + 2 * toleranceRatio sp.kappa sp.sigma) * (sp.kappa * (1 + 1 / 10 ^ 8))

/-- The driving direction of a planner with clothoids. -/
def wayOf (sp : HCSpace) : ℝ := if sp.forwards then 1 else -1

theorem wayOf_sign (sp : HCSpace) : wayOf sp = 1 ∨ wayOf sp = -1 := by unfold wayOf; split_ifs <;> simp

theorem curvatureUp_pos (h : InRange sp.kappa sp.sigma) : 0 < curvatureUp sp := by simpa [curvatureUp] using tolerance_pos h le_rfl

/-- **C130, CC00-Dubins.** -/
theorem C130_cc00 (h : InRange sp.kappa sp.sigma) (s1 s2 : State) (hfar : dist2 s1 s2 ≤ 10 ^ 100)
    (hc : CoarseEnough sp.kappa sp.sigma (toleranceRatio sp.kappa sp.sigma)) :
    ∃ cs, CC00.get_controls sp s1 s2 = some cs ∧ NearlyCircle (wayOf sp) (curvatureUp sp)
      (1 / 10000 * (2 + 6 * radiusBound sp.kappa sp.sigma + 4 * lengthOf cs) + pathTol (cs.map seg)) (3 / 10000) s1 s2 cs := by
  obtain ⟨cs, hcs, hl, _⟩ := C126_cc00_limits h s1 s2 hfar hc
  obtain ⟨cs', hcs', hw⟩ := C52_cc00_direction h s1 s2 hfar (hc.long h)
  obtain rfl := Option.some.inj (hcs'.symm.trans hcs)
  obtain ⟨cs'', hcs'', hr⟩ := C36_cc00_reaches h s1 s2 hfar
  obtain rfl := Option.some.inj (hcs''.symm.trans hcs)
  exact ⟨_, hcs, C130_controls_near (wayOf_sign sp) (curvatureUp_pos h) hw hl hr⟩

/-- **C130, CC0pm-Dubins (partial).** Unless opposed circles share their centre (C40), where the goal is missed. -/
theorem C130_cc0pm_partial (h : InRange sp.kappa sp.sigma) (s1 s2 : State) (hfar : dist2 s1 s2 ≤ 10 ^ 100)
    (hc : CoarseEnough sp.kappa sp.sigma (toleranceRatio sp.kappa sp.sigma)) (ho : ¬ CC0pm.Opposed sp s1 s2) :
    ∃ cs, SF.CC0pm.get_controls sp s1 s2 = some cs ∧ NearlyCircle (wayOf sp) (curvatureUp sp)
      (planTol sp cs + pathTol (cs.map seg)) (3 / 10000) s1 s2 cs := by
  obtain ⟨cs, hcs, hl, _⟩ := C126_cc0pm_limits h s1 s2 hfar hc
  obtain ⟨cs', hcs', hw⟩ := C58_cc0pm_direction h s1 s2 hfar ((hc.long h).turn h)
  obtain rfl := Option.some.inj (hcs'.symm.trans hcs)
  obtain ⟨cs'', hcs'', hr⟩ := C40_cc0pm_reaches_partial h s1 s2 hfar ho
  obtain rfl := Option.some.inj (hcs''.symm.trans hcs)
  exact ⟨_, hcs, C130_controls_near (wayOf_sign sp) (curvatureUp_pos h) hw hl hr⟩

/-- **C130, CCpm0-Dubins (partial).** -/
theorem C130_ccpm0_partial (h : InRange sp.kappa sp.sigma) (s1 s2 : State) (hfar : dist2 s1 s2 ≤ 10 ^ 100)
    (hc : CoarseEnough sp.kappa sp.sigma (toleranceRatio sp.kappa sp.sigma)) (ho : ¬ CCpm0.Opposed sp s1 s2) :
    ∃ cs, SF.CCpm0.get_controls sp s1 s2 = some cs ∧ NearlyCircle (wayOf sp) (curvatureUp sp)
      (planTol sp cs + pathTol (cs.map seg)) (3 / 10000) s1 s2 cs := by
  obtain ⟨cs, hcs, hl, _⟩ := C126_ccpm0_limits h s1 s2 hfar hc
  obtain ⟨cs', hcs', hw⟩ := C58_ccpm0_direction h s1 s2 hfar ((hc.long h).turn h)
  obtain rfl := Option.some.inj (hcs'.symm.trans hcs)
  obtain ⟨cs'', hcs'', hr⟩ := C53_ccpm0_reaches_partial h s1 s2 hfar ho
  obtain rfl := Option.some.inj (hcs''.symm.trans hcs)
  exact ⟨_, hcs, C130_controls_near (wayOf_sign sp) (curvatureUp_pos h) hw hl hr⟩

/-- **C130, CCpmpm-Dubins.** -/
theorem C130_ccpmpm (h : InRange sp.kappa sp.sigma) (hA : LongClothoids sp) (s1 s2 : State) (hfar : dist2 s1 s2 ≤ 10 ^ 100) :
    ∃ cs, SF.CCpmpm.get_controls sp s1 s2 = some cs ∧ NearlyCircle (wayOf sp) (sp.kappa * (1 + 1 / 10 ^ 8))
      (planTol sp cs + pathTol (cs.map seg)) (3 / 10000) s1 s2 cs := by
  obtain ⟨cs, hcs, hl, _⟩ := C57_ccpmpm_limits h s1 s2 hfar
  obtain ⟨cs', hcs', hw⟩ := C58_ccpmpm_direction h s1 s2 hfar (hA.turn h)
  obtain rfl := Option.some.inj (hcs'.symm.trans hcs)
  obtain ⟨cs'', hcs'', hr⟩ := C54_ccpmpm_reaches h s1 s2 hfar
  obtain rfl := Option.some.inj (hcs''.symm.trans hcs)
  exact ⟨_, hcs, C130_controls_near (wayOf_sign sp) h.pos' hw hl hr⟩

/-- **C130, CC-Dubins (partial).** Every possible result, unless opposed circles share their centre and if the assertions hold (C60). -/
theorem C130_cc_partial (h : InRange sp.kappa sp.sigma) (s1 s2 : State) (hr : InReach sp s1 s2) (ho : ¬ CC.Opposed sp junk s1 s2)
    (hA : SF.CC.Asserts sp junk s1 s2) (h1 : |s1.kappa| ≤ sp.kappa) (h2 : |s2.kappa| ≤ sp.kappa)
    (hc : CoarseEnough sp.kappa sp.sigma (toleranceRatio sp.kappa sp.sigma)) {cs : List Control}
    (hcs : SF.CC.IsControls sp junk s1 s2 cs) :
    NearlyCircle (wayOf sp) (curvatureUp sp + 1 / 10000) (anyTol sp cs + pathTol (cs.map seg)) (anyTurn sp) s1 s2 cs :=
  C130_controls_near (wayOf_sign sp) (tolerance_pos h (by norm_num)) (C64_cc_direction h s1 s2 hr (hc.long h) hcs)
    (C126_cc_limits h s1 s2 hr hA h1 h2 hc hcs).1 (C60_cc_reaches_partial h s1 s2 hr ho hA hcs)

/-- Parameters that the theorems cover. -/
example : InRange 1 1 ∧ CoarseEnough 1 1 (toleranceRatio 1 1) ∧ LongClothoids ⟨1, 1, 1, true⟩ := by
  have h : InRange 1 1 := ⟨by norm_num, by norm_num, by norm_num, by norm_num⟩
  have hc : CoarseEnough 1 1 (toleranceRatio 1 1) := ⟨by norm_num, by rw [ratio_one.1]; norm_num⟩
  exact ⟨h, hc, CoarseEnough.long (sp := ⟨1, 1, 1, true⟩) h hc⟩

end Props
