import Verif.Lemmas.DoubleAngle
import Verif.Lemmas.DoubleAligned
import Verif.Lemmas.DoubleReal
import Verif.Lemmas.DoubleSteps

/-!
# Double precision: angles, a goal straight ahead, integration steps

`Rounds fl` says that `fl` rounds to a nearest double (any rule for ties); `Spec.exists_rounds` shows that there is such a
rounding, and every theorem below holds for each of them.
-/

noncomputable section

namespace Props

open SF Spec Real

/-- The constants are within 2.5e-16 of the numbers they stand for, and below them. -/
theorem C103_constants {fl : ℝ → ℝ} (F : Rounds fl) :
    SF.Dbl.TWO_PI fl = 2 * SF.Dbl.PI fl ∧ SF.Dbl.TWO_PI fl < 2 * π ∧ 2 * π - SF.Dbl.TWO_PI fl < 1 / (4 * 10 ^ 15) := by
  have h1 := pi_gt_d20
  have h2 := pi_lt_d20
  refine ⟨F.two_pi_eq, ?_, ?_⟩ <;> rw [F.two_pi] <;> norm_num at h1 h2 ⊢ <;> linarith

/-- **C103 is false in double precision.**  `twopify` does not return an angle in [0, 2π) of doubles: it returns
2π itself for small negative angles (here -2^-60) and a negative angle for some angles of several turns. -/
theorem C103_twopify_double_false {fl : ℝ → ℝ} (F : Rounds fl) :
    (∃ a, IsDouble a ∧ ¬ SF.Dbl.twopify fl a < SF.Dbl.TWO_PI fl) ∧
    (∃ a, IsDouble a ∧ |a| < 208 ∧ SF.Dbl.twopify fl a < 0) := by
  constructor
  · refine ⟨-2 ^ (-60 : ℤ), (IsDouble.pow (-60) (by norm_num) (by norm_num)).neg, ?_⟩
    rw [F.tw_tiny (by norm_num) (by norm_num)]
    exact lt_irrefl _
  · refine ⟨7295307681779328 * 2 ^ (-45 : ℤ), ?_, ?_, ?_⟩
    · exact .mul_pow 7295307681779328 (-45) (by norm_num) (by norm_num) (by norm_num) (by norm_num)
    · rw [abs_of_pos (by positivity)]; norm_num
    · rw [F.twopify_neg]
      have : (0:ℝ) < 2 ^ (-45 : ℤ) := by positivity
      linarith

/-- **C103, partial.**  For angles of at most four turns that are zero or not denormal, `twopify` returns an angle in [0, 2π] of
doubles, both ends included, which differs by at most 2^-51 from the exact canonical angle `a - 2πn` of [0, 2π).  Missing
for the full statement: the open upper end, which is false. -/
theorem C103_twopify_double_partial {fl : ℝ → ℝ} (F : Rounds fl) {a : ℝ} (ha : IsDouble a)
    (hs : a ≤ -2 ^ (-1000 : ℤ) ∨ 0 ≤ a) (h : |a| ≤ 4 * SF.Dbl.TWO_PI fl) :
    0 ≤ SF.Dbl.twopify fl a ∧ SF.Dbl.twopify fl a ≤ SF.Dbl.TWO_PI fl ∧
    ∃ n : ℤ, 0 ≤ a - n * SF.Dbl.TWO_PI fl ∧ a - n * SF.Dbl.TWO_PI fl < SF.Dbl.TWO_PI fl ∧
      |SF.Dbl.twopify fl a - (a - n * SF.Dbl.TWO_PI fl)| ≤ 2 ^ (-51 : ℤ) := by
  obtain ⟨h1, h2, n, -, h3, h4, h5⟩ := F.twopify ha hs h
  exact ⟨h1, h2, n, h3, h4, h5⟩

/-- An angle of minus one and a half units: `twopify` is within 2^-51 of `a + 2π`. -/
example : ∃ fl, Rounds fl ∧ ∃ n : ℤ, n = -1 ∧
    |SF.Dbl.twopify fl (-3 / 2) - (-3 / 2 - n * SF.Dbl.TWO_PI fl)| ≤ 2 ^ (-51 : ℤ) := by
  obtain ⟨fl, F⟩ := exists_rounds
  obtain ⟨b1, b2⟩ := F.two_pi_bounds
  have hd : IsDouble (-3 / 2) := IsDouble.mul_pow (-3) (-1) (by norm_num) (by norm_num) (by norm_num) (by norm_num)
  obtain ⟨-, -, n, h1, h2, h3⟩ := C103_twopify_double_partial F hd
    (.inl (by
      have : (2:ℝ) ^ (-1000 : ℤ) ≤ 2 ^ (0 : ℤ) := zpow_le_zpow_right₀ (by norm_num) (by norm_num)
      rw [zpow_zero] at this; linarith))
    (by rw [abs_le]; constructor <;> linarith)
  refine ⟨fl, F, n, ?_, h3⟩
  have l1 : (n:ℝ) < 0 := by nlinarith
  have l2 : (-2:ℝ) < n := by nlinarith
  have l1' : n < 0 := by exact_mod_cast l1
  have l2' : -2 < n := by exact_mod_cast l2
  omega

/-- **C104.**  `pify` is exact in double precision: for every double it returns a double of [-π, π] (of doubles) that differs from
the argument by a multiple of 2π (of doubles), without any rounding error. -/
theorem C104_pify_double {fl : ℝ → ℝ} (F : Rounds fl) {a : ℝ} (ha : IsDouble a) :
    IsDouble (SF.Dbl.pify fl a) ∧ -SF.Dbl.PI fl ≤ SF.Dbl.pify fl a ∧ SF.Dbl.pify fl a ≤ SF.Dbl.PI fl ∧
    ∃ n : ℤ, SF.Dbl.pify fl a = a - n * SF.Dbl.TWO_PI fl := F.pify ha

/-- A large angle: a million is mapped into [-π, π]. -/
example : ∃ fl, Rounds fl ∧ |SF.Dbl.pify fl (10 ^ 6)| ≤ SF.Dbl.PI fl := by
  obtain ⟨fl, F⟩ := exists_rounds
  have hd : IsDouble (10 ^ 6) := IsDouble.mul_pow (10 ^ 6) 0 (by norm_num) (by norm_num) (by norm_num) (by norm_num)
  obtain ⟨-, h1, h2, -⟩ := C104_pify_double F hd
  exact ⟨fl, F, abs_le.2 ⟨by linarith, h2⟩⟩

/-- **C105 in real arithmetic.**  If the goal lies straight ahead with the same heading, the Dubins distance is at most the distance of
the positions. -/
theorem C105_dubins_ahead_real {sp : DubinsSpace} (hv : sp.Valid) (hf : sp.forwards = true) (s1 s2 : State) {L : ℝ} (hL : 0 ≤ L)
    (hx : s2.x = s1.x + L * cos s1.theta) (hy : s2.y = s1.y + L * sin s1.theta) (ht : s2.theta = s1.theta) :
    sp.get_distance s1 s2 ≤ L := Spec.Straight.ahead_real hv.1 hf s1 s2 hL hx hy ht

/-- A goal three ahead of a start with heading one. -/
example : (⟨1, 1 / 10, true⟩ : DubinsSpace).get_distance ⟨5, -2, 1, 0, 0⟩ ⟨5 + 3 * cos 1, -2 + 3 * sin 1, 1, 0, 0⟩ ≤ 3 :=
  C105_dubins_ahead_real ⟨by norm_num, by norm_num⟩ rfl _ _ (by norm_num) rfl rfl rfl

/-- **C105 is false in double precision.**  Start and goal are about 1.0000002 apart and both head to the goal up to an angle of 2^-60; curvature 1/16.
In real arithmetic the distance is below 2, in double precision the path drives a full circle: the
distance is at least 96. -/
theorem C105_dubins_ahead_double_false (disc : ℝ) :
    ∃ (s1 s2 : State) (L : ℝ), 1 < L ∧ L < 2 ∧ s1.theta = s2.theta ∧ s1.y = s2.y ∧ s2.x = s1.x + L ∧ 0 < s1.theta ∧
      s1.theta = 2 ^ (-60 : ℤ) ∧ IsDouble L ∧
      (⟨1 / 16, disc, true⟩ : DubinsSpace).get_distance s1 s2 ≤ 2 ∧
      ∀ fl, Rounds fl → 96 ≤ SF.Dbl.get_distance fl ⟨1 / 16, disc, true⟩ s1 s2 := by
  obtain ⟨d0, d1⟩ := Spec.Straight.dist_bounds
  refine ⟨⟨0, 0, Spec.Straight.head, 0, 0⟩, ⟨16 * Spec.Straight.dist, 0, Spec.Straight.head, 0, 0⟩, 16 * Spec.Straight.dist,
    by linarith, by linarith, rfl, rfl, (zero_add _).symm, ?_, rfl, Spec.Straight.goal_double, Spec.Straight.near_real disc,
    fun fl F => Spec.Straight.far F disc⟩
  show 0 < Spec.Straight.head
  unfold Spec.Straight.head; positivity

/-- **C105, partial.**  With both headings exactly zero the distance in double precision exceeds the distance `L` of the positions by at most
a relative error of 1e-13 and 2e-7 turning radii.  Missing for the full statement: other headings, for which it is false. -/
theorem C105_dubins_ahead_double_partial {fl : ℝ → ℝ} (F : Rounds fl) {kappa L : ℝ} (disc : ℝ) (hk : 1 / 10 ^ 6 ≤ kappa)
    (hk1 : kappa ≤ 10 ^ 6) (hL : IsDouble L) (hL0 : 0 < L) (hL1 : L ≤ 10 ^ 6) :
    SF.Dbl.get_distance fl ⟨kappa, disc, true⟩ ⟨0, 0, 0, 0, 0⟩ ⟨L, 0, 0, 0, 0⟩
      ≤ L * (1 + 1 / 10 ^ 13) + 2 / 10 ^ 7 * (1 / kappa) := by
  have := Spec.Straight.aligned F disc hk hk1 hL hL0 hL1
  rwa [div_eq_mul_one_div (2 / 10 ^ 7)] at this

/-- The states of the counterexample, with heading zero. -/
example : ∃ fl, Rounds fl ∧
    SF.Dbl.get_distance fl ⟨1 / 16, 1 / 10, true⟩ ⟨0, 0, 0, 0, 0⟩ ⟨16 * Spec.Straight.dist, 0, 0, 0, 0⟩ ≤ 2 := by
  obtain ⟨fl, F⟩ := exists_rounds
  obtain ⟨d0, d1⟩ := Spec.Straight.dist_bounds
  have := C105_dubins_ahead_double_partial F (kappa := 1 / 16) (1 / 10) (by norm_num) (by norm_num) Spec.Straight.goal_double
    (by linarith) (by linarith)
  exact ⟨fl, F, by norm_num at this; linarith⟩

/-- **C106.**  The integration steps of a control in double precision: none exceeds the discretization, there are
`ceil (|delta_s| / discretization)` of them (quotient rounded), and their sum is `|delta_s|` up to a few units in the last place per
step (`e` is the binary exponent of the numbers involved). -/
theorem C106_integration_steps_double {fl : ℝ → ℝ} (F : Rounds fl) {disc ds : ℝ} {e : ℤ} (hd : IsDouble disc) (hd0 : 0 < disc)
    (h : |ds| + disc ≤ 2 ^ (e + 1)) (h1 : -1022 ≤ e) (h2 : e ≤ 900)
    (hq : ds = 0 ∨ 2 ^ (-1022 : ℤ) ≤ |ds| / disc) (hq' : |ds| / disc ≤ 2 ^ (1022 : ℤ)) :
    (∀ x ∈ SF.Dbl.segSteps fl disc ds, x ≤ disc) ∧
    (SF.Dbl.segSteps fl disc ds).length = ⌈fl (|ds| / disc)⌉₊ ∧
    |(SF.Dbl.segSteps fl disc ds).sum - (|ds|)| ≤ (3 * (⌈fl (|ds| / disc)⌉₊ : ℝ) + 2) * 2 ^ (e - 53) := by
  obtain ⟨a, b, -⟩ := F.steps_sum hd hd0 h h1 h2 (SF.Dbl.nSteps fl disc |ds|) le_rfl (abs_nonneg ds)
  refine ⟨a, b, ?_⟩
  exact F.seg_steps hd hd0 h h1 h2 (abs_nonneg ds) (hq.imp_left fun h => by rw [h, abs_zero]) hq'

/-- A control of length 2 sampled in steps of 3/8: six steps whose sum is 2 up to 5e-15. -/
example : ∃ fl, Rounds fl ∧ (SF.Dbl.segSteps fl (3 / 8) (-2)).length = 6 ∧
    |(SF.Dbl.segSteps fl (3 / 8) (-2)).sum - 2| ≤ 5 / 10 ^ 15 := by
  obtain ⟨fl, F⟩ := exists_rounds
  have hd : IsDouble (3 / 8) := IsDouble.mul_pow 3 (-3) (by norm_num) (by norm_num) (by norm_num) (by norm_num)
  have h2 : |(-2 : ℝ)| = 2 := by norm_num
  have l0 : (2:ℝ) ^ (-1022 : ℤ) ≤ 1 := by
    have : (2:ℝ) ^ (-1022 : ℤ) ≤ 2 ^ (0 : ℤ) := zpow_le_zpow_right₀ (by norm_num) (by norm_num)
    rwa [zpow_zero] at this
  have l1 : (2:ℝ) ^ (3 : ℤ) ≤ 2 ^ (1022 : ℤ) := zpow_le_zpow_right₀ (by norm_num) (by norm_num)
  have l2 : (16 / 3 : ℝ) ≤ 2 ^ (3 : ℤ) := by norm_num
  obtain ⟨-, a, b⟩ := C106_integration_steps_double F (ds := -2) (e := 1) hd (by norm_num) (by rw [h2]; norm_num) (by norm_num)
    (by norm_num) (.inr (by rw [h2]; exact l0.trans (by norm_num)))
    (by rw [h2]; exact le_trans (by norm_num) (l2.trans l1))
  rw [h2] at a b
  have q1 : 5 < fl (2 / (3 / 8)) := by
    have : (21 / 4 : ℝ) ≤ fl (2 / (3 / 8)) := by
      have hh : IsDouble (21 / 4) := IsDouble.mul_pow 21 (-2) (by norm_num) (by norm_num) (by norm_num) (by norm_num)
      exact F.ge hh (by norm_num)
    linarith
  have q2 : fl (2 / (3 / 8)) ≤ 6 := by
    have hh : IsDouble (6:ℝ) := IsDouble.mul_pow 6 0 (by norm_num) (by norm_num) (by norm_num) (by norm_num)
    exact F.le hh (by norm_num)
  have q3 : ⌈fl (2 / (3 / 8))⌉₊ = 6 := by
    rw [Nat.ceil_eq_iff (by norm_num)]
    constructor
    · norm_num at q1 ⊢; exact q1
    · exact_mod_cast q2
  rw [q3] at a b
  refine ⟨fl, F, a, b.trans ?_⟩
  norm_num

end Props
