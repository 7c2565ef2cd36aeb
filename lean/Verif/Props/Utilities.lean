import Verif.Lemmas.Drive
import Verif.Lemmas.Ends

/-!
# Properties C01-C05, C07, C08, C10 (utilities)
-/

noncomputable section

namespace Props

open Real Spec SF

/-- **C01.** `twopify` returns the unique representative in `[0, 2π)`. -/
theorem C01_twopify_canonical (a : ℝ) :
    0 ≤ twopify a ∧ twopify a < 2 * π ∧ AngleEq (twopify a) a ∧
      ∀ b, twopify a = twopify b ↔ AngleEq a b := by
  refine ⟨twopify_nonneg a, twopify_lt a, twopify_angleEq a, fun b => ⟨fun h => ?_, twopify_congr⟩⟩
  exact (twopify_angleEq a).symm.trans (h ▸ twopify_angleEq b)

/-- Non-trivial instance: an angle outside the interval is really moved. -/
example : twopify (-π) = π ∧ twopify (5 * π) = π := by
  have hp := Real.pi_pos
  have h1 : twopify (-π) = twopify π := twopify_congr ⟨-1, by push_cast; ring⟩
  have h2 : twopify (5 * π) = twopify π := twopify_congr ⟨2, by push_cast; ring⟩
  rw [h1, h2, twopify_of_mem hp.le (by linarith)]
  exact ⟨rfl, rfl⟩

/-- **C02, negation.** The documented range `[-π, π[` of `pify` is violated, and
`pify` is not a function of the heading: `π` and `-π` are congruent but are
mapped to different values. -/
theorem C02_pify_documented_range_false :
    (¬ ∀ a, -π ≤ pify a ∧ pify a < π) ∧
    (∃ a b, AngleEq a b ∧ pify a ≠ pify b) := by
  have hp := Real.pi_pos
  have h1 : pify π = π := pify_of_mem (by linarith) le_rfl
  have h2 : pify (-π) = -π := pify_of_mem le_rfl (by linarith)
  refine ⟨fun h => ?_, π, -π, ⟨1, by push_cast; ring⟩, by rw [h1, h2]; linarith⟩
  have := (h π).2
  rw [h1] at this; exact lt_irrefl _ this

/-- **C02, what holds.** `pify` returns a congruent angle in the closed interval
`[-π, π]`; away from the odd multiples of `π` it is in the open interval and
depends only on the heading.  (Missing from the documented claim: the half-open
range and canonicity at odd multiples of `π`, which are false.) -/
theorem C02_pify_partial (a : ℝ) :
    -π ≤ pify a ∧ pify a ≤ π ∧ AngleEq (pify a) a ∧
      (¬ AngleEq a π → -π < pify a ∧ pify a < π ∧ ∀ b, AngleEq a b → pify b = pify a) := by
  have hp := Real.pi_pos
  have key : ∀ c, AngleEq c a → ¬ AngleEq a π → -π < pify c ∧ pify c < π := by
    intro c hc h
    constructor
    · refine lt_of_le_of_ne (neg_pi_le_pify c) fun he => h ?_
      have : AngleEq (pify c) a := (pify_angleEq c).trans hc
      rw [← he] at this
      exact this.symm.trans ⟨-1, by push_cast; ring⟩
    · refine lt_of_le_of_ne (pify_le_pi c) fun he => h ?_
      have : AngleEq (pify c) a := (pify_angleEq c).trans hc
      rw [he] at this; exact this.symm
  refine ⟨neg_pi_le_pify a, pify_le_pi a, pify_angleEq a, fun h => ?_⟩
  obtain ⟨ha1, ha2⟩ := key a (AngleEq.refl a) h
  refine ⟨ha1, ha2, fun b hb => ?_⟩
  obtain ⟨hb1, hb2⟩ := key b hb.symm h
  have hab : AngleEq (pify b) (pify a) :=
    (pify_angleEq b).trans (hb.symm.trans (pify_angleEq a).symm)
  have h3 : AngleEq (pify b + π) (pify a + π) := hab.add_right π
  have := angleEq_eq_of_mem h3 (by linarith) (by linarith) (by linarith) (by linarith)
  linarith

example : ¬ AngleEq (π / 2) π := by
  rintro ⟨n, hn⟩
  have hp := Real.pi_pos
  have h1 : (4 * n + 1 : ℝ) = 0 := by
    have : π * (4 * n + 1) = 0 := by linarith
    rcases mul_eq_zero.1 this with h | h
    · exact absurd h hp.ne'
    · exact h
  have : (4 * n + 1 : ℤ) = 0 := by exact_mod_cast h1
  omega

/-- **C03.** The two frame changes are inverse to each other and preserve distances. -/
theorem C03_frame_changes (x y theta : ℝ) :
    (∀ u v, (fun p : ℝ × ℝ => local_frame_change x y theta p.1 p.2)
        (global_frame_change x y theta u v) = (u, v)) ∧
    (∀ u v, (fun p : ℝ × ℝ => global_frame_change x y theta p.1 p.2)
        (local_frame_change x y theta u v) = (u, v)) ∧
    (∀ u v u' v', ((global_frame_change x y theta u v).1 - (global_frame_change x y theta u' v').1) ^ 2
        + ((global_frame_change x y theta u v).2 - (global_frame_change x y theta u' v').2) ^ 2
        = (u - u') ^ 2 + (v - v') ^ 2) ∧
    (∀ u v u' v', ((local_frame_change x y theta u v).1 - (local_frame_change x y theta u' v').1) ^ 2
        + ((local_frame_change x y theta u v).2 - (local_frame_change x y theta u' v').2) ^ 2
        = (u - u') ^ 2 + (v - v') ^ 2) ∧
    (∀ v, global_frame_change x y theta 0 0 = (x, y) ∧
      global_frame_change x y theta v 0 = (x + v * cos theta, y + v * sin theta)) := by
  have h := Real.sin_sq_add_cos_sq theta
  refine ⟨fun u v => ?_, fun u v => ?_, fun u v u' v' => ?_, fun u v u' v' => ?_, fun v => ⟨?_, ?_⟩⟩
  · simp only [global_frame_change, local_frame_change]
    ext
    · linear_combination u * h
    · linear_combination v * h
  · simp only [global_frame_change, local_frame_change]
    ext
    · linear_combination (u - x) * h
    · linear_combination (v - y) * h
  · simp only [global_frame_change]
    linear_combination ((u - u') ^ 2 + (v - v') ^ 2) * h
  · simp only [local_frame_change]
    linear_combination ((u - u') ^ 2 + (v - v') ^ 2) * h
  · simp [global_frame_change]
  · simp [global_frame_change, add_comm]

example : global_frame_change 1 2 (π / 2) 3 0 = (1, 5) := by
  simp [global_frame_change]; norm_num

/-- Loop invariant of `array_index_min`. -/
theorem aim_invariant (a : ℕ → ℝ) (m : ℕ) :
    let st := (List.range' 1 m).foldl (aimStep a) (a 0, 0)
    st.2 < m + 1 ∧ st.1 = a st.2 ∧ (∀ i, i < m + 1 → a st.2 ≤ a i) ∧
      (∀ i, i < st.2 → a st.2 < a i) := by
  induction m with
  | zero =>
    refine ⟨by simp, rfl, ?_, ?_⟩
    · intro i hi; have : i = 0 := by omega
      subst this; exact le_rfl
    · intro i hi; simp at hi
  | succ m ih =>
    rw [List.range'_concat, List.foldl_append]
    simp only [List.foldl_cons, List.foldl_nil]
    obtain ⟨h1, h2, h3, h4⟩ := ih
    set st := (List.range' 1 m).foldl (aimStep a) (a 0, 0) with hst
    have hidx : 1 + 1 * m = m + 1 := by ring
    rw [hidx]
    unfold aimStep
    split_ifs with hlt
    · rw [h2] at hlt
      refine ⟨by simp, rfl, ?_, ?_⟩
      · intro i hi
        rcases Nat.lt_succ_iff_lt_or_eq.1 hi with h | h
        · exact hlt.le.trans (h3 i h)
        · subst h; exact le_rfl
      · intro i hi
        exact lt_of_lt_of_le hlt (h3 i hi)
    · rw [h2] at hlt
      refine ⟨by omega, h2, ?_, h4⟩
      intro i hi
      rcases Nat.lt_succ_iff_lt_or_eq.1 hi with h | h
      · exact h3 i h
      · subst h; exact not_lt.1 hlt

/-- **C04.** `array_index_min` returns the first index of the minimum of every
non-empty array. -/
theorem C04_array_index_min (a : ℕ → ℝ) (n : ℕ) (hn : 1 ≤ n) :
    array_index_min a n < n ∧ (∀ i, i < n → a (array_index_min a n) ≤ a i) ∧
      (∀ i, i < array_index_min a n → a (array_index_min a n) < a i) := by
  obtain ⟨h1, _, h3, h4⟩ := aim_invariant a (n - 1)
  have : n - 1 + 1 = n := by omega
  rw [this] at h1 h3
  exact ⟨h1, h3, h4⟩

/-- Non-trivial instance, with a tie: the first of the two minima is returned. -/
example : array_index_min (fun i => if i = 0 then 3 else if i = 1 then 1 else if i = 2 then 1 else 2) 4
    = 1 := by
  norm_num [array_index_min, List.range', aimStep]

/-- **C05.** `polar` returns polar coordinates. -/
theorem C05_polar (x y : ℝ) :
    0 ≤ (polar x y).1 ∧ -π < (polar x y).2 ∧ (polar x y).2 ≤ π ∧
      (polar x y).1 * cos (polar x y).2 = x ∧ (polar x y).1 * sin (polar x y).2 = y := by
  have h1 : x * x + y * y = x ^ 2 + y ^ 2 := by ring
  refine ⟨Real.sqrt_nonneg _, (atan2_mem y x).1, (atan2_mem y x).2, ?_, ?_⟩
  · show √(x * x + y * y) * cos (atan2 y x) = x
    rw [h1]; exact sqrt_mul_cos_atan2 y x
  · show √(x * x + y * y) * sin (atan2 y x) = y
    rw [h1]; exact sqrt_mul_sin_atan2 y x

/-- **C07.** `fresnel` is odd and vanishes at zero. -/
theorem C07_fresnel_odd :
    fresnel 0 = (0, 0) ∧ ∀ s, fresnel (-s) = (-(fresnel s).1, -(fresnel s).2) :=
  ⟨fresnel_zero, fresnel_neg⟩

/-- View of a `Pose` as a configuration of the specification. -/
def poseCfg (p : Pose) : Config := ⟨p.x, p.y, p.theta⟩

/-- **C08, arcs.** `end_of_circular_arc` is the end of the solution of the equations of motion. -/
theorem C08_circular_arc (x y theta kappa d L : ℝ) (hk : kappa ≠ 0) :
    ∃ q, Drives d kappa 0 L ⟨x, y, theta⟩ q ∧
      SameConfig (poseCfg (end_of_circular_arc x y theta kappa d L)) q :=
  ⟨_, drives_arc hk ⟨x, y, theta⟩, rfl, rfl, pify_angleEq _⟩

/-- **C08, lines.** `end_of_straight_line` is the end of the solution of the equations of motion. -/
theorem C08_straight_line (x y theta d L : ℝ) :
    Drives d 0 0 L ⟨x, y, theta⟩
      ⟨(end_of_straight_line x y theta d L).1, (end_of_straight_line x y theta d L).2, theta⟩ := by
  rw [drives_iff, arrive_line]; rfl

/-- A quarter turn to the left with radius 2. -/
example : end_of_circular_arc 0 0 0 (1 / 2) 1 π = ⟨2, 2, π / 2⟩ := by
  have hp := Real.pi_pos
  have h : pify (π / 2) = π / 2 := pify_of_mem (by linarith) (by linarith)
  have h2 : 2⁻¹ * π = π / 2 := by ring
  have h3 : π * 2⁻¹ = π / 2 := by ring
  ext <;> simp [end_of_circular_arc, h2, h3, h]

/-- **C10, clothoids.** Splitting a clothoid at any point does not change its end. -/
theorem C10_clothoid_split {sigma : ℝ} (hs : sigma ≠ 0) (x y theta kappa d a b : ℝ) :
    let e1 := end_of_clothoid x y theta kappa sigma d a
    let e2 := end_of_clothoid e1.x e1.y e1.theta e1.kappa sigma d b
    let e := end_of_clothoid x y theta kappa sigma d (a + b)
    SameConfig ⟨e2.x, e2.y, e2.theta⟩ ⟨e.x, e.y, e.theta⟩ ∧ e2.kappa = e.kappa := by
  obtain ⟨h1, h2, h3, h4⟩ := clothoid_split hs x y theta kappa d a b
  exact ⟨⟨h1, h2, h3⟩, h4⟩

/-- **C10, arcs.** -/
theorem C10_arc_split (x y theta kappa d a b : ℝ) :
    let e1 := end_of_circular_arc x y theta kappa d a
    let e2 := end_of_circular_arc e1.x e1.y e1.theta kappa d b
    SameConfig (poseCfg e2) (poseCfg (end_of_circular_arc x y theta kappa d (a + b))) := by
  obtain ⟨h1, h2, h3⟩ := arc_split (kappa := kappa) x y theta d a b
  exact ⟨h1, h2, h3⟩

/-- **C10, lines.** -/
theorem C10_line_split (x y theta d a b : ℝ) :
    let e1 := end_of_straight_line x y theta d a
    end_of_straight_line e1.1 e1.2 theta d b = end_of_straight_line x y theta d (a + b) :=
  line_split x y theta d a b

/-- The zero-length clothoid stays where it is (so the split law is not about a constant function,
together with the line example below). -/
example : end_of_straight_line 1 2 0 (-1) 5 = (-4, 2) := by
  norm_num [end_of_straight_line]

end Props
