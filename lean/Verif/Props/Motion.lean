import Verif.Lemmas.CcRsMirror
import Verif.Lemmas.MotionWitness
import Verif.Spec.Motion

/-!
# Congruent planning problems
-/

noncomputable section

namespace Props

open SF Spec Real

/-! ## C89 -/

/-- **C89, negation.** Reflecting start and goal can change the distance of the CC00-Reeds-Shepp planner: for maximum curvature 1
and maximum sharpness 1000 the distance from the origin to `(7, 3)` with heading `-π/2` is at least 8.7, the distance of
the reflected states is less. -/
theorem C89_cc_rs_mirror_false :
    ∃ sp : HCSpace, InRange sp.kappa sp.sigma ∧ ∃ s1 s2 : State,
      CcRs.get_distance sp (mirror.move s1) (mirror.move s2) < CcRs.get_distance sp s1 s2 := by
  refine ⟨⟨1, 1000, 1, true⟩, ⟨by norm_num, by norm_num, by norm_num, by norm_num⟩, ⟨0, 0, 0, 0, 0⟩, ⟨7, 3, -(π / 2), 0, 0⟩, ?_⟩
  refine lt_of_lt_of_le (Spec.mirrored_lt rfl rfl ?_ ?_ ?_ ?_ ?_ ?_) (Spec.example_ge rfl rfl rfl rfl rfl rfl rfl rfl) <;>
    simp [mirror, Motion.move, Motion.sign]

/-- **C89, partial.** Reflecting start and goal does not change the distance of the CC00-Dubins planner, for parameters in range and
states more than two (bounded) turning radii apart that are not on a line.  Missing: states closer than that, states on a line,
where the tolerances of the shortcuts apply; for the CC00-Reeds-Shepp planner the claim is false
(`C89_cc_rs_mirror_false`). -/
theorem C89_cc_dubins_mirror_partial (sp : HCSpace) (h : InRange sp.kappa sp.sigma) (s1 s2 : State)
    (far : 2 * radiusBound sp.kappa sp.sigma + 1 / 10000 < dist2 s1 s2) (line : ¬ OnLine s1 s2) :
    CC00.get_distance sp (mirror.move s1) (mirror.move s2) = CC00.get_distance sp s1 s2 :=
  Spec.Open.cc00 h.rng ⟨far, line⟩ mirror

/-- The states of the example are in the range of the positive theorems. -/
theorem motion_example : 2 * radiusBound 1 1 + 1 / 10000 < dist2 ⟨0, 0, 0, 0, 0⟩ ⟨20, 5, 1, 0, 0⟩ ∧
    ¬ OnLine ⟨0, 0, 0, 0, 0⟩ ⟨20, 5, 1, 0, 0⟩ := by
  have hp := pi_gt_three
  constructor
  · unfold radiusBound dist2
    refine lt_of_lt_of_le (b := 20) (by norm_num) (Real.le_sqrt_of_sq_le (by norm_num))
  · rintro ⟨⟨n, hn⟩, -⟩
    have hn' := abs_le.1 hn
    have h1 : (n : ℝ) * (2 * π) ≤ 1 + 1 / 10000 := by linarith [hn'.2]
    have h2 : 1 - 1 / 10000 ≤ (n : ℝ) * (2 * π) := by linarith [hn'.1]
    have h3 : (0 : ℝ) < n := by
      by_contra hc
      push Not at hc
      nlinarith
    have h4 : (1 : ℝ) ≤ n := by exact_mod_cast (Int.cast_pos.1 h3)
    nlinarith

example : CC00.get_distance ⟨1, 1, 1, true⟩ (mirror.move ⟨0, 0, 0, 0, 0⟩) (mirror.move ⟨20, 5, 1, 0, 0⟩) =
    CC00.get_distance ⟨1, 1, 1, true⟩ ⟨0, 0, 0, 0, 0⟩ ⟨20, 5, 1, 0, 0⟩ :=
  C89_cc_dubins_mirror_partial _ ⟨by norm_num, by norm_num, by norm_num, by norm_num⟩ _ _ motion_example.1 motion_example.2

/-! ## C91 -/

/-- **C91, partial, CC00-Dubins.** Rotating and translating start and goal does not change the distance, for parameters in range and
states more than two (bounded) turning radii apart that are not on a line.  Missing: states closer than that or on a line; there the
claim is false (`C91_cc_dubins_false`). -/
theorem C91_cc_dubins_partial (sp : HCSpace) (h : InRange sp.kappa sp.sigma) (s1 s2 : State)
    (far : 2 * radiusBound sp.kappa sp.sigma + 1 / 10000 < dist2 s1 s2) (line : ¬ OnLine s1 s2) (angle dx dy : ℝ) :
    CC00.get_distance sp ((⟨false, angle, dx, dy⟩ : Motion).move s1) ((⟨false, angle, dx, dy⟩ : Motion).move s2) =
      CC00.get_distance sp s1 s2 :=
  Spec.Open.cc00 h.rng ⟨far, line⟩ _

example : CC00.get_distance ⟨1, 1, 1, true⟩ ((⟨false, 3, -4, 5⟩ : Motion).move ⟨0, 0, 0, 0, 0⟩)
      ((⟨false, 3, -4, 5⟩ : Motion).move ⟨20, 5, 1, 0, 0⟩) =
    CC00.get_distance ⟨1, 1, 1, true⟩ ⟨0, 0, 0, 0, 0⟩ ⟨20, 5, 1, 0, 0⟩ :=
  C91_cc_dubins_partial _ ⟨by norm_num, by norm_num, by norm_num, by norm_num⟩ _ _ motion_example.1 motion_example.2 _ _ _

/-- **C91, partial, CC00-Reeds-Shepp.** The same for the CC00-Reeds-Shepp planner. -/
theorem C91_cc_rs_partial (sp : HCSpace) (h : InRange sp.kappa sp.sigma) (s1 s2 : State)
    (far : 2 * radiusBound sp.kappa sp.sigma + 1 / 10000 < dist2 s1 s2) (line : ¬ OnLine s1 s2) (angle dx dy : ℝ) :
    CcRs.get_distance sp ((⟨false, angle, dx, dy⟩ : Motion).move s1) ((⟨false, angle, dx, dy⟩ : Motion).move s2) =
      CcRs.get_distance sp s1 s2 :=
  Spec.Open.cc_rs h.rng ⟨far, line⟩ rfl

example : CcRs.get_distance ⟨1, 1, 1, true⟩ ((⟨false, 3, -4, 5⟩ : Motion).move ⟨0, 0, 0, 0, 0⟩)
      ((⟨false, 3, -4, 5⟩ : Motion).move ⟨20, 5, 1, 0, 0⟩) =
    CcRs.get_distance ⟨1, 1, 1, true⟩ ⟨0, 0, 0, 0, 0⟩ ⟨20, 5, 1, 0, 0⟩ :=
  C91_cc_rs_partial _ ⟨by norm_num, by norm_num, by norm_num, by norm_num⟩ _ _ motion_example.1 motion_example.2 _ _ _

/-- **C91, negation.** For maximum curvature 1/2 and maximum sharpness 2500 the CC00-Dubins distance between the headings `0` and
`-5e-5` at the same place is positive; rotated by one radian it is not. -/
theorem C91_cc_dubins_false :
    ∃ sp : HCSpace, InRange sp.kappa sp.sigma ∧ ∃ (s1 s2 : State) (T : Motion), T.mirrored = false ∧
      CC00.get_distance sp (T.move s1) (T.move s2) < CC00.get_distance sp s1 s2 := by
  refine ⟨⟨1 / 2, 2500, 1, true⟩, ⟨by norm_num, by norm_num, by norm_num, by norm_num⟩, ⟨0, 0, 0, 0, 0⟩, ⟨0, 0, -(1 / 20000), 0, 0⟩,
    ⟨false, 1, 0, 0⟩, rfl, lt_of_le_of_lt (Spec.cut_zero ?_ ?_ ?_ ?_) (Spec.cut_pos rfl rfl rfl rfl)⟩
  · rfl
  · rfl
  · norm_num [Motion.move, Motion.sign]
  · norm_num [Motion.move, Motion.sign]

end Props
