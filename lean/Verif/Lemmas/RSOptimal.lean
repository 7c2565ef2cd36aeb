import Verif.Lemmas.RSExists
import Verif.Spec.ReedsShepp

/-!
# The Reeds-Shepp formulas find every solution of their word
-/

noncomputable section

namespace SF

open Real Spec Props

/-- An accepted word of length at most `L` (the `off` of the two longer families included). -/
def RSBest (x y phi L : ℝ) : Prop :=
  (∃ w, (w = LpSpLp x y phi ∨ w = LpSpRp x y phi ∨ w = LpRmL x y phi ∨
      w = LpRmL (rsXb x y phi) (rsYb x y phi) phi) ∧ w.ok ∧ |w.t| + |w.u| + |w.v| ≤ L) ∨
  (∃ w, (w = LpRupLumRm x y phi ∨ w = LpRumLumRp x y phi) ∧ w.ok ∧ |w.t| + 2 * |w.u| + |w.v| ≤ L) ∨
  (∃ w, (w = LpRmSmLm x y phi ∨ w = LpRmSmLm (rsXb x y phi) (rsYb x y phi) phi ∨
      w = LpRmSmRm x y phi ∨ w = LpRmSmRm (rsXb x y phi) (rsYb x y phi) phi) ∧ w.ok ∧
      |w.t| + |w.u| + |w.v| + 0.5 * π ≤ L) ∨
  (∃ w, w = LpRmSLmRp x y phi ∧ w.ok ∧ |w.t| + |w.u| + |w.v| + π ≤ L)

/-- `RSBest` for one of the four symmetric goals. -/
def RSAny (x y phi L : ℝ) : Prop :=
  RSBest x y phi L ∨ RSBest (-x) y (-phi) L ∨ RSBest x (-y) (-phi) L ∨ RSBest (-x) (-y) phi L

theorem RSAny.flip {x y phi L : ℝ} (h : RSAny (-x) y (-phi) L) : RSAny x y phi L := by
  unfold RSAny at *; simp only [neg_neg] at h; tauto

theorem RSAny.mirror {x y phi L : ℝ} (h : RSAny x (-y) (-phi) L) : RSAny x y phi L := by
  unfold RSAny at *; simp only [neg_neg] at h; tauto

theorem rsXb_both (x y phi : ℝ) : rsXb (-x) (-y) phi = -rsXb x y phi := by unfold rsXb; ring
theorem rsYb_both (x y phi : ℝ) : rsYb (-x) (-y) phi = -rsYb x y phi := by unfold rsYb; ring

/-- Such a word is one of the statements executed by the code. -/
theorem RSAny.cand {x y phi L : ℝ} (h : RSAny x y phi L) :
    ∃ c ∈ rsCands x y phi, c.ok ∧ c.path.length ≤ L := by
  have fin : ∀ {c : RSCand} {off : ℝ}, c.Sound off x y phi → c ∈ rsCands x y phi → c.ok →
      c.L + off ≤ L → ∃ c ∈ rsCands x y phi, c.ok ∧ c.path.length ≤ L := by
    intro c off hs hm ho hl
    exact ⟨c, hm, ho, by rw [hs.2.1]; exact hl⟩
  have m1 : ∀ c ∈ candsCSC x y phi, c ∈ rsCands x y phi := by
    intro c h; unfold rsCands; simp only [List.mem_append]; tauto
  have m2 : ∀ c ∈ candsCCC x y phi, c ∈ rsCands x y phi := by
    intro c h; unfold rsCands; simp only [List.mem_append]; tauto
  have m3 : ∀ c ∈ candsCCCC x y phi, c ∈ rsCands x y phi := by
    intro c h; unfold rsCands; simp only [List.mem_append]; tauto
  have m4 : ∀ c ∈ candsCCSC x y phi, c ∈ rsCands x y phi := by
    intro c h; unfold rsCands; simp only [List.mem_append]; tauto
  have m5 : ∀ c ∈ candsCCSCC x y phi, c ∈ rsCands x y phi := by
    intro c h; unfold rsCands; simp only [List.mem_append]; tauto
  have f1 : ∀ c ∈ candsCSC x y phi, c.ok → c.L ≤ L →
      ∃ c ∈ rsCands x y phi, c.ok ∧ c.path.length ≤ L := fun c h o l =>
    fin (candsCSC_sound c h) (m1 c h) o (by linarith)
  have f2 : ∀ c ∈ candsCCC x y phi, c.ok → c.L ≤ L →
      ∃ c ∈ rsCands x y phi, c.ok ∧ c.path.length ≤ L := fun c h o l =>
    fin (candsCCC_sound c h) (m2 c h) o (by linarith)
  have f3 : ∀ c ∈ candsCCCC x y phi, c.ok → c.L ≤ L →
      ∃ c ∈ rsCands x y phi, c.ok ∧ c.path.length ≤ L := fun c h o l =>
    fin (candsCCCC_sound c h) (m3 c h) o (by linarith)
  have f4 : ∀ c ∈ candsCCSC x y phi, c.ok → c.L + 0.5 * π ≤ L →
      ∃ c ∈ rsCands x y phi, c.ok ∧ c.path.length ≤ L := fun c h o l =>
    fin (candsCCSC_sound c h) (m4 c h) o l
  have f5 : ∀ c ∈ candsCCSCC x y phi, c.ok → c.L + π ≤ L →
      ∃ c ∈ rsCands x y phi, c.ok ∧ c.path.length ≤ L := fun c h o l =>
    fin (candsCCSCC_sound c h) (m5 c h) o l
  unfold RSAny RSBest at h
  rw [rsXb_flip, rsYb_flip, rsXb_mirror, rsYb_mirror, rsXb_both, rsYb_both] at h
  rcases h with h | h | h | h
  · rcases h with ⟨w, rfl | rfl | rfl | rfl, ok, hl⟩ | ⟨w, rfl | rfl, ok, hl⟩ |
      ⟨w, rfl | rfl | rfl | rfl, ok, hl⟩ | ⟨w, rfl, ok, hl⟩
    · exact f1 (cand3 (LpSpLp x y phi) 14 1) (by simp [candsCSC]) ok hl
    · exact f1 (cand3 (LpSpRp x y phi) 12 1) (by simp [candsCSC]) ok hl
    · exact f2 (cand3 (LpRmL x y phi) 0 1) (by simp [candsCCC]) ok hl
    · exact f2 (cand3b (LpRmL (rsXb x y phi) (rsYb x y phi) phi) 0 1) (by simp [candsCCC]) ok hl
    · exact f3 (cand4p (LpRupLumRm x y phi) 2 1) (by simp [candsCCCC]) ok hl
    · exact f3 (cand4m (LpRumLumRp x y phi) 2 1) (by simp [candsCCCC]) ok hl
    · exact f4 (cand4h (LpRmSmLm x y phi) 4 1) (by simp [candsCCSC]) ok hl
    · exact f4 (cand4hb (LpRmSmLm (rsXb x y phi) (rsYb x y phi) phi) 6 1) (by simp [candsCCSC]) ok hl
    · exact f4 (cand4h (LpRmSmRm x y phi) 8 1) (by simp [candsCCSC]) ok hl
    · exact f4 (cand4hb (LpRmSmRm (rsXb x y phi) (rsYb x y phi) phi) 10 1) (by simp [candsCCSC]) ok hl
    · exact f5 (cand5 (LpRmSLmRp x y phi) 16 1) (by simp [candsCCSCC]) ok hl
  · rcases h with ⟨w, rfl | rfl | rfl | rfl, ok, hl⟩ | ⟨w, rfl | rfl, ok, hl⟩ |
      ⟨w, rfl | rfl | rfl | rfl, ok, hl⟩ | ⟨w, rfl, ok, hl⟩
    · exact f1 (cand3 (LpSpLp (-x) y (-phi)) 14 (-1)) (by simp [candsCSC]) ok hl
    · exact f1 (cand3 (LpSpRp (-x) y (-phi)) 12 (-1)) (by simp [candsCSC]) ok hl
    · exact f2 (cand3 (LpRmL (-x) y (-phi)) 0 (-1)) (by simp [candsCCC]) ok hl
    · exact f2 (cand3b (LpRmL (-rsXb x y phi) (rsYb x y phi) (-phi)) 0 (-1)) (by simp [candsCCC]) ok hl
    · exact f3 (cand4p (LpRupLumRm (-x) y (-phi)) 2 (-1)) (by simp [candsCCCC]) ok hl
    · exact f3 (cand4m (LpRumLumRp (-x) y (-phi)) 2 (-1)) (by simp [candsCCCC]) ok hl
    · exact f4 (cand4h (LpRmSmLm (-x) y (-phi)) 4 (-1)) (by simp [candsCCSC]) ok hl
    · exact f4 (cand4hb (LpRmSmLm (-rsXb x y phi) (rsYb x y phi) (-phi)) 6 (-1)) (by simp [candsCCSC]) ok hl
    · exact f4 (cand4h (LpRmSmRm (-x) y (-phi)) 8 (-1)) (by simp [candsCCSC]) ok hl
    · exact f4 (cand4hb (LpRmSmRm (-rsXb x y phi) (rsYb x y phi) (-phi)) 10 (-1)) (by simp [candsCCSC]) ok hl
    · exact f5 (cand5 (LpRmSLmRp (-x) y (-phi)) 16 (-1)) (by simp [candsCCSCC]) ok hl
  · rcases h with ⟨w, rfl | rfl | rfl | rfl, ok, hl⟩ | ⟨w, rfl | rfl, ok, hl⟩ |
      ⟨w, rfl | rfl | rfl | rfl, ok, hl⟩ | ⟨w, rfl, ok, hl⟩
    · exact f1 (cand3 (LpSpLp x (-y) (-phi)) 15 1) (by simp [candsCSC]) ok hl
    · exact f1 (cand3 (LpSpRp x (-y) (-phi)) 13 1) (by simp [candsCSC]) ok hl
    · exact f2 (cand3 (LpRmL x (-y) (-phi)) 1 1) (by simp [candsCCC]) ok hl
    · exact f2 (cand3b (LpRmL (rsXb x y phi) (-rsYb x y phi) (-phi)) 1 1) (by simp [candsCCC]) ok hl
    · exact f3 (cand4p (LpRupLumRm x (-y) (-phi)) 3 1) (by simp [candsCCCC]) ok hl
    · exact f3 (cand4m (LpRumLumRp x (-y) (-phi)) 3 1) (by simp [candsCCCC]) ok hl
    · exact f4 (cand4h (LpRmSmLm x (-y) (-phi)) 5 1) (by simp [candsCCSC]) ok hl
    · exact f4 (cand4hb (LpRmSmLm (rsXb x y phi) (-rsYb x y phi) (-phi)) 7 1) (by simp [candsCCSC]) ok hl
    · exact f4 (cand4h (LpRmSmRm x (-y) (-phi)) 9 1) (by simp [candsCCSC]) ok hl
    · exact f4 (cand4hb (LpRmSmRm (rsXb x y phi) (-rsYb x y phi) (-phi)) 11 1) (by simp [candsCCSC]) ok hl
    · exact f5 (cand5 (LpRmSLmRp x (-y) (-phi)) 17 1) (by simp [candsCCSCC]) ok hl
  · rcases h with ⟨w, rfl | rfl | rfl | rfl, ok, hl⟩ | ⟨w, rfl | rfl, ok, hl⟩ |
      ⟨w, rfl | rfl | rfl | rfl, ok, hl⟩ | ⟨w, rfl, ok, hl⟩
    · exact f1 (cand3 (LpSpLp (-x) (-y) phi) 15 (-1)) (by simp [candsCSC]) ok hl
    · exact f1 (cand3 (LpSpRp (-x) (-y) phi) 13 (-1)) (by simp [candsCSC]) ok hl
    · exact f2 (cand3 (LpRmL (-x) (-y) phi) 1 (-1)) (by simp [candsCCC]) ok hl
    · exact f2 (cand3b (LpRmL (-rsXb x y phi) (-rsYb x y phi) phi) 1 (-1)) (by simp [candsCCC]) ok hl
    · exact f3 (cand4p (LpRupLumRm (-x) (-y) phi) 3 (-1)) (by simp [candsCCCC]) ok hl
    · exact f3 (cand4m (LpRumLumRp (-x) (-y) phi) 3 (-1)) (by simp [candsCCCC]) ok hl
    · exact f4 (cand4h (LpRmSmLm (-x) (-y) phi) 5 (-1)) (by simp [candsCCSC]) ok hl
    · exact f4 (cand4hb (LpRmSmLm (-rsXb x y phi) (-rsYb x y phi) phi) 7 (-1)) (by simp [candsCCSC]) ok hl
    · exact f4 (cand4h (LpRmSmRm (-x) (-y) phi) 9 (-1)) (by simp [candsCCSC]) ok hl
    · exact f4 (cand4hb (LpRmSmRm (-rsXb x y phi) (-rsYb x y phi) phi) 11 (-1)) (by simp [candsCCSC]) ok hl
    · exact f5 (cand5 (LpRmSLmRp (-x) (-y) phi) 17 (-1)) (by simp [candsCCSCC]) ok hl

/-! ### Existence with a bound on the length -/

theorem polar_le (x y : ℝ) : (polar x y).1 ≤ |x| + |y| := by
  rw [polar_fst]
  apply sqrt_le_iff.2 ⟨by positivity, ?_⟩
  nlinarith [sq_abs x, sq_abs y, abs_nonneg x, abs_nonneg y, mul_nonneg (abs_nonneg x) (abs_nonneg y)]

theorem abs_pify_le (a : ℝ) : |pify a| ≤ π := abs_le.2 ⟨neg_pi_le_pify a, pify_le_pi a⟩

theorem abs_polar_snd_le (x y : ℝ) : |(polar x y).2| ≤ π :=
  abs_le.2 ⟨(polar_snd_mem x y).1.le, (polar_snd_mem x y).2⟩

theorem polar_goal_le (x y phi e : ℝ) (he : e = 1 ∨ e = -1) :
    (polar (x + e * sin phi) (y - 1 - e * cos phi)).1 ≤ |x| + |y| + 3 := by
  refine (polar_le _ _).trans ?_
  have h1 := abs_add_le x (e * sin phi)
  have h2 : |e * sin phi| ≤ 1 := by rw [abs_s_mul he]; exact abs_sin_le_one _
  have h3 : |y - 1 - e * cos phi| ≤ |y| + 2 := by
    have := abs_le.1 (show |e * cos phi| ≤ 1 by rw [abs_s_mul he]; exact abs_cos_le_one _)
    rw [abs_le]; constructor <;> [linarith [neg_abs_le y]; linarith [le_abs_self y]]
  linarith

theorem pi_lt : π < 3.15 := Real.pi_lt_d2

theorem LpSpLp_len (x y phi : ℝ) : |(LpSpLp x y phi).t| + |(LpSpLp x y phi).u| + |(LpSpLp x y phi).v|
    ≤ |x| + |y| + 12 := by
  have h1 := polar_goal_le x y phi (-1) (Or.inr rfl)
  have e1 : x + -1 * sin phi = x - sin phi := by ring
  have e2 : y - 1 - -1 * cos phi = y - 1 + cos phi := by ring
  rw [e1, e2] at h1
  have h2 := abs_polar_snd_le (x - sin phi) (y - 1 + cos phi)
  have h3 := abs_pify_le (phi - (polar (x - sin phi) (y - 1 + cos phi)).2)
  simp only [LpSpLp]
  rw [abs_of_nonneg (polar_nonneg _ _)]
  linarith [pi_lt]

theorem LpSpRp_len (x y phi : ℝ) : |(LpSpRp x y phi).t| + |(LpSpRp x y phi).u| + |(LpSpRp x y phi).v|
    ≤ |x| + |y| + 12 := by
  have h1 := polar_goal_le x y phi 1 (Or.inl rfl)
  rw [one_mul, one_mul] at h1
  have h0 := polar_nonneg (x + sin phi) (y - 1 - cos phi)
  simp only [LpSpRp]
  set r := (polar (x + sin phi) (y - 1 - cos phi)).1
  have h4 : √(r * r - 4) ≤ r := sqrt_le_iff.2 ⟨h0, by nlinarith⟩
  rw [abs_of_nonneg (sqrt_nonneg _)]
  have a1 := abs_pify_le ((polar (x + sin phi) (y - 1 - cos phi)).2 + atan2 2 √(r * r - 4))
  have a2 := abs_pify_le (pify ((polar (x + sin phi) (y - 1 - cos phi)).2 + atan2 2 √(r * r - 4)) - phi)
  linarith [pi_lt]

theorem LpRmL_len (x y phi : ℝ) : |(LpRmL x y phi).t| + |(LpRmL x y phi).u| + |(LpRmL x y phi).v|
    ≤ |x| + |y| + 12 := by
  simp only [LpRmL]
  set r := (polar (x - sin phi) (y - 1 + cos phi)).1
  set t := pify ((polar (x - sin phi) (y - 1 + cos phi)).2 + 0.5 * (-2 * arcsin (0.25 * r)) + π)
  have h1 : |t| ≤ π := abs_pify_le _
  have h2 := abs_pify_le (phi - t + -2 * arcsin (0.25 * r))
  have h3 : |-2 * arcsin (0.25 * r)| ≤ π := by
    rw [abs_le]
    constructor <;> linarith [neg_pi_div_two_le_arcsin (0.25 * r), arcsin_le_pi_div_two (0.25 * r)]
  linarith [pi_lt, abs_nonneg x, abs_nonneg y]

theorem LpRmSmRm_len (x y phi : ℝ) :
    |(LpRmSmRm x y phi).t| + |(LpRmSmRm x y phi).u| + |(LpRmSmRm x y phi).v| ≤ |x| + |y| + 12 := by
  have h1 := polar_goal_le x y phi 1 (Or.inl rfl)
  rw [one_mul, one_mul] at h1
  have e : (polar (-(y - 1 - cos phi)) (x + sin phi)).1 = (polar (x + sin phi) (y - 1 - cos phi)).1 := by
    rw [polar_fst, polar_fst, neg_sq, add_comm]
  have h0 := polar_nonneg (x + sin phi) (y - 1 - cos phi)
  simp only [LpRmSmRm]
  rw [e]
  have h2 := abs_polar_snd_le (-(y - 1 - cos phi)) (x + sin phi)
  have h3 := abs_pify_le ((polar (-(y - 1 - cos phi)) (x + sin phi)).2 + 0.5 * π - phi)
  have h4 : |2 - (polar (x + sin phi) (y - 1 - cos phi)).1|
      ≤ (polar (x + sin phi) (y - 1 - cos phi)).1 + 2 := by
    rw [abs_le]; constructor <;> linarith
  linarith [pi_lt]

theorem rsXb_le (x y phi : ℝ) : |rsXb x y phi| ≤ |x| + |y| := by
  unfold rsXb
  refine (abs_add_le _ _).trans ?_
  rw [abs_mul, abs_mul]
  have := mul_le_of_le_one_right (abs_nonneg x) (abs_cos_le_one phi)
  have := mul_le_of_le_one_right (abs_nonneg y) (abs_sin_le_one phi)
  linarith

theorem rsYb_le (x y phi : ℝ) : |rsYb x y phi| ≤ |x| + |y| := by
  unfold rsYb
  refine (abs_sub _ _).trans ?_
  rw [abs_mul, abs_mul]
  have := mul_le_of_le_one_right (abs_nonneg x) (abs_sin_le_one phi)
  have := mul_le_of_le_one_right (abs_nonneg y) (abs_cos_le_one phi)
  linarith

theorem RSAcc.best {x y phi : ℝ} (h : RSAcc x y phi) : RSBest x y phi (2 * (|x| + |y|) + 14) := by
  have hx := abs_nonneg x
  have hy := abs_nonneg y
  have h1 := rsXb_le x y phi
  have h2 := rsYb_le x y phi
  have hp := pi_lt
  rcases h with h | h | h | h | h | h
  · left; exact ⟨_, Or.inl rfl, h, by linarith [LpSpLp_len x y phi]⟩
  · left; exact ⟨_, Or.inr (Or.inl rfl), h, by linarith [LpSpRp_len x y phi]⟩
  · left; exact ⟨_, Or.inr (Or.inr (Or.inl rfl)), h, by linarith [LpRmL_len x y phi]⟩
  · left; exact ⟨_, Or.inr (Or.inr (Or.inr rfl)), h,
      by linarith [LpRmL_len (rsXb x y phi) (rsYb x y phi) phi]⟩
  · right; right; left; exact ⟨_, Or.inr (Or.inr (Or.inl rfl)), h,
      by linarith [LpRmSmRm_len x y phi]⟩
  · right; right; left; exact ⟨_, Or.inr (Or.inr (Or.inr rfl)), h,
      by linarith [LpRmSmRm_len (rsXb x y phi) (rsYb x y phi) phi]⟩

/-- Some statement succeeds, with a path of moderate length. -/
theorem rs_exists (x y phi : ℝ) :
    ∃ c ∈ rsCands x y phi, c.ok ∧ c.path.length ≤ 2 * (|x| + |y|) + 14 := by
  apply RSAny.cand
  rcases rs_full x y phi with h | h | h | h
  · exact Or.inl h.best
  · right; left; have := h.best; rwa [abs_neg] at this
  · right; right; left; have := h.best; rwa [abs_neg] at this
  · right; right; right; have := h.best; rwa [abs_neg, abs_neg] at this

/-! ### The formulas find every solution -/

theorem fmod_neg (x y : ℝ) : fmod (-x) y = -fmod x y := by
  unfold fmod truncZ
  rw [neg_div]
  rcases lt_trichotomy (x / y) 0 with h | h | h
  · rw [if_pos (by linarith), if_neg (by linarith)]
    simp [Int.floor_neg]
    ring
  · rw [h]; simp
  · rw [if_neg (by linarith), if_pos h.le]
    simp [Int.ceil_neg]
    ring

theorem pify_neg (a : ℝ) : pify (-a) = -pify a := by
  have hp := pi_pos
  unfold pify
  simp only [fmod_neg]
  split_ifs <;> linarith

/-- `pify` picks a representative of least absolute value. -/
theorem abs_pify_le_abs {a b : ℝ} (h : AngleEq a b) : |pify a| ≤ |b| := by
  obtain ⟨n, hn⟩ := (pify_angleEq a).trans h
  have hp := pi_pos
  have h1 := abs_pify_le a
  by_cases hn0 : n = 0
  · rw [hn, hn0]; simp
  · have h2 : (1:ℝ) ≤ |(n:ℝ)| := by exact_mod_cast Int.one_le_abs hn0
    have h3 : |(n:ℝ) * (2 * π)| = |(n:ℝ)| * (2 * π) := by rw [abs_mul, abs_of_pos (show 0 < 2 * π by positivity)]
    have h4 : (n:ℝ) * (2 * π) = pify a - b := by linarith
    have h5 : |pify a - b| ≤ |pify a| + |b| := abs_sub _ _
    rw [h4] at h3
    nlinarith

/-- Uniqueness of representatives. -/
theorem repr_eq {a b : ℝ} (h : AngleEq a b) (h1 : |a| ≤ π) (h2 : |b| < π) : a = b := by
  obtain ⟨n, hn⟩ := h
  have hp := pi_pos
  obtain ⟨a1, a2⟩ := abs_le.1 h1
  obtain ⟨b1, b2⟩ := abs_lt.1 h2
  have : n = 0 := by
    have h1 : ((-1 : ℤ) : ℝ) < n := by push_cast; nlinarith
    have h2 : (n : ℝ) < (1 : ℤ) := by push_cast; nlinarith
    have h1' := Int.cast_lt.1 h1
    have h2' := Int.cast_lt.1 h2
    omega
  rw [hn, this]; simp

/-- An angle of less than half a turn, with the tolerance `RS_ZERO` of the code at 0. -/
def RTurn (a : ℝ) : Prop := -RS_ZERO ≤ a ∧ a < π

theorem RS_ZERO_lt : RS_ZERO < 1 / 1000 := by unfold RS_ZERO; norm_num

/-- An angle of at most half a turn, with the tolerance of the code at 0. -/
def CTurn (a : ℝ) : Prop := -RS_ZERO ≤ a ∧ a ≤ π

theorem RTurn.closed {a : ℝ} (h : RTurn a) : CTurn a := ⟨h.1, h.2.le⟩

theorem RTurn.abs_lt {a : ℝ} (h : RTurn a) : |a| < π :=
  _root_.abs_lt.2 ⟨by linarith [h.1, RS_ZERO_lt, pi_gt_three], h.2⟩

theorem CTurn.cases {a : ℝ} (h : CTurn a) : RTurn a ∨ a = π := by
  rcases h.2.lt_or_eq with h2 | h2
  · exact Or.inl ⟨h.1, h2⟩
  · exact Or.inr h2

/-- `pify` keeps its sign at half a turn. -/
theorem neg_pi_lt_pify {a : ℝ} (h : -π < a) (h2 : a < 3 * π) : -π < pify a := by
  have hp := pi_pos
  rcases (neg_pi_le_pify a).lt_or_eq with h' | h'
  · exact h'
  · obtain ⟨n, hn⟩ := pify_angleEq a
    have a1 : ((0 : ℤ) : ℝ) > n := by push_cast; nlinarith
    have a2 : (n : ℝ) > ((-2 : ℤ) : ℝ) := by push_cast; nlinarith
    have a1' := Int.cast_lt.1 a1
    have a2' := Int.cast_lt.1 a2
    have hn1 : n = -1 := by omega
    rw [hn1] at hn
    push_cast at hn
    have : a = π := by linarith
    rw [this, pify_of_mem (by linarith) le_rfl] at h'
    linarith

/-- Two representatives of an angle in the half-open range are equal. -/
theorem repr_eq' {a b : ℝ} (h : AngleEq a b) (h1 : |a| ≤ π) (h1' : -π < a) (h2 : CTurn b)  : a = b := by
  rcases h2.cases with h2' | h2'
  · exact repr_eq h h1 h2'.abs_lt
  · have hp := pi_pos
    have ha := (abs_le.1 h1).2
    obtain ⟨n, hn⟩ := h
    have hn0 : n = 0 := by
      have a1 : ((-1 : ℤ) : ℝ) < n := by push_cast; nlinarith
      have a2 : (n : ℝ) < (1 : ℤ) := by push_cast; nlinarith
      have a1' := Int.cast_lt.1 a1
      have a2' := Int.cast_lt.1 a2
      omega
    rw [hn, hn0]; simp

/-- If the left circles coincide, turning suffices. -/
theorem full_zero {x y phi b : ℝ} (h1 : x - sin phi = 0) (h2 : y - 1 + cos phi = 0)
    (hb : AngleEq phi b) : RSAny x y phi |b| := by
  have gen : ∀ X F : ℝ, X - sin F = 0 → y - 1 + cos F = 0 → 0 ≤ pify F → |pify F| ≤ |b| →
      RSBest X y F |b| := by
    intro X F e1 e2 hF hle
    have hp : polar (X - sin F) (y - 1 + cos F) = (0, 0) := by
      rw [e1, e2]; unfold polar
      simp only [mul_zero, add_zero, sqrt_zero]
      congr 1
      exact Complex.arg_zero
    have hz := RS_ZERO_pos
    left
    refine ⟨_, Or.inl rfl, ⟨?_, ?_⟩, ?_⟩
    · rw [hp]; simp only; linarith
    · rw [hp]; simp only [sub_zero]; linarith
    · simp only [LpSpLp]; rw [hp]; simpa using hle
  have hle := abs_pify_le_abs hb
  rcases le_total 0 (pify phi) with h | h
  · exact Or.inl (gen x phi h1 h2 h hle)
  · right; left
    apply gen
    · rw [sin_neg]; linarith
    · rw [cos_neg]; exact h2
    · rw [pify_neg]; linarith
    · rw [pify_neg, abs_neg]; exact hle

theorem RSBest.mono {x y phi L L' : ℝ} (hL : L ≤ L') (hb : RSBest x y phi L) : RSBest x y phi L' := by
  rcases hb with ⟨w, a, b, c⟩ | ⟨w, a, b, c⟩ | ⟨w, a, b, c⟩ | ⟨w, a, b, c⟩
  · left; exact ⟨w, a, b, c.trans hL⟩
  · right; left; exact ⟨w, a, b, c.trans hL⟩
  · right; right; left; exact ⟨w, a, b, c.trans hL⟩
  · right; right; right; exact ⟨w, a, b, c.trans hL⟩

theorem RSAny.mono {x y phi L L' : ℝ} (hL : L ≤ L') (h : RSAny x y phi L) : RSAny x y phi L' :=
  h.imp (RSBest.mono hL) (Or.imp (RSBest.mono hL) (Or.imp (RSBest.mono hL) (RSBest.mono hL)))

theorem opt_LSL {x y phi t u v : ℝ} (ht : RTurn t) (hu : 0 ≤ u) (hv : RTurn v)
    (h : Hits [(1, t), (0, u), (1, v)] x y phi) : RSAny x y phi (|t| + u + |v|) := by
  rw [hits_LSL] at h
  obtain ⟨h1, h2, h3⟩ := h
  rcases hu.lt_or_eq with hpos | h0
  · have hp := polar_angle (x := x - sin phi) (y := y - 1 + cos phi) (t := t) hpos
      (by linarith) (by linarith)
    have et : (polar (x - sin phi) (y - 1 + cos phi)).2 = t :=
      repr_eq hp.2 (abs_polar_snd_le _ _) ht.abs_lt
    have ev : pify (phi - t) = v := by
      apply repr_eq _ (abs_pify_le _) hv.abs_lt
      exact (pify_angleEq _).trans ((h3.symm.sub (AngleEq.refl t)).trans (AngleEq.of_eq (by ring)))
    have hz := RS_ZERO_pos
    left; left
    refine ⟨_, Or.inl rfl, ⟨?_, ?_⟩, ?_⟩
    · change (polar (x - sin phi) (y - 1 + cos phi)).2 ≥ -RS_ZERO; rw [et]; linarith [ht.1]
    · rw [et, ev]; linarith [hv.1]
    · simp only [LpSpLp]; rw [et, ev, hp.1, abs_of_nonneg hu]
  · have := full_zero (b := t + v) (x := x) (y := y) (phi := phi) (by rw [← h0] at h1; linarith)
      (by rw [← h0] at h2; linarith) h3.symm
    rw [← h0, add_zero]; exact this.mono (abs_add_le _ _)

/-- The first angle and the middle length of a word determine it. -/
theorem t_unique {p m X Y t t' : ℝ} (hpos : 0 < p ^ 2 + m ^ 2)
    (h1 : p * cos t' + m * sin t' = X) (h2 : p * sin t' - m * cos t' = Y)
    (h3 : p * cos t + m * sin t = X) (h4 : p * sin t - m * cos t = Y)
    (b' : |t'| ≤ π) (b : |t| < π) : t' = t :=
  repr_eq (csc_unique hpos h1 h2 h3 h4) b' b

theorem v_unique {a v v' phi : ℝ} (h1 : AngleEq (a + v') phi) (h2 : AngleEq (a + v) phi)
    (b' : |v'| ≤ π) (b : |v| < π) : v' = v := by
  apply repr_eq _ b' b
  obtain ⟨n, hn⟩ := h1.trans h2.symm
  exact ⟨n, by linarith⟩

theorem v_unique' {a v v' phi : ℝ} (h1 : AngleEq (a - v') phi) (h2 : AngleEq (a - v) phi)
    (b' : |v'| ≤ π) (b : |v| < π) : v' = v := by
  apply repr_eq _ b' b
  obtain ⟨n, hn⟩ := h1.trans h2.symm
  exact ⟨-n, by push_cast; linarith⟩

theorem opt_LSR {x y phi t u v : ℝ} (ht : RTurn t) (hu : 0 ≤ u) (hv : RTurn v)
    (h : Hits [(1, t), (0, u), (-1, v)] x y phi) : RSAny x y phi (|t| + u + |v|) := by
  rw [hits_LSR] at h
  obtain ⟨h1, h2, h3⟩ := h
  have hsq := polar_sq (x + sin phi) (y - 1 - cos phi)
  have e1 : u * cos t + 2 * sin t = x + sin phi := by linarith
  have e2 : u * sin t - 2 * cos t = y - 1 - cos phi := by linarith
  have hr : (polar (x + sin phi) (y - 1 - cos phi)).1 * (polar (x + sin phi) (y - 1 - cos phi)).1
      = u ^ 2 + 4 := by
    rw [hsq, ← e1, ← e2]; linear_combination (u ^ 2 + 4) * sin_sq_add_cos_sq t
  have reach : reachedLpSpRp x y phi := by unfold reachedLpSpRp; rw [hr]; nlinarith
  have hw := LpSpRp_hits reach
  simp only at hw
  rw [hits_LSR] at hw
  have eu : (LpSpRp x y phi).u = u := by
    simp only [LpSpRp]; rw [hr]
    rw [show u ^ 2 + 4 - 4 = u ^ 2 by ring, sqrt_sq hu]
  rw [eu] at hw
  obtain ⟨w1, w2, w3⟩ := hw
  have bt : |(LpSpRp x y phi).t| ≤ π := abs_pify_le _
  have bv : |(LpSpRp x y phi).v| ≤ π := abs_pify_le _
  have et : (LpSpRp x y phi).t = t :=
    t_unique (by positivity) (by linarith) (by linarith) e1 e2 bt ht.abs_lt
  rw [et] at w3
  have ev : (LpSpRp x y phi).v = v := v_unique' w3 h3 bv hv.abs_lt
  have hz := RS_ZERO_pos
  left; left
  refine ⟨LpSpRp x y phi, Or.inr (Or.inl rfl), ⟨reach, ?_, ?_⟩, ?_⟩
  · change (LpSpRp x y phi).t ≥ -RS_ZERO; rw [et]; linarith [ht.1]
  · change (LpSpRp x y phi).v ≥ -RS_ZERO; rw [ev]; linarith [hv.1]
  · rw [et, ev, eu, abs_of_nonneg hu]

/-- The solution of the `LRL` equations. -/
theorem opt_LRL' {x y phi t u v : ℝ} (ht : CTurn t) (hu : 0 < u) (hu2 : u ≤ π)
    (h : Hits [(1, t), (-1, -u), (1, v)] x y phi) :
    (LpRmL x y phi).ok ∧
      |(LpRmL x y phi).t| + |(LpRmL x y phi).u| + |(LpRmL x y phi).v| ≤ |t| + u + |v| := by
  rw [hits_LRL] at h
  obtain ⟨h1, h2, h3⟩ := h
  have hpi := pi_pos
  have hsq := polar_sq (x - sin phi) (y - 1 + cos phi)
  have e4 : ∀ s, sin (s - -u) = sin s * cos u + cos s * sin u := fun s => by
    rw [sub_neg_eq_add, sin_add]
  have e5 : ∀ s, cos (s - -u) = cos s * cos u - sin s * sin u := fun s => by
    rw [sub_neg_eq_add, cos_add]
  have hs0 : 0 < sin (u / 2) := sin_pos_of_pos_of_lt_pi (by linarith) (by linarith)
  have e3 : cos u = 1 - 2 * sin (u / 2) ^ 2 := by
    have := cos_sq' (u / 2); have h' := cos_two_mul (u / 2)
    rw [show 2 * (u / 2) = u by ring] at h'; linarith
  have e1 : (-2 * sin u) * cos t + (2 * (1 - cos u)) * sin t = x - sin phi := by
    rw [e4] at h1; linarith
  have e2 : (-2 * sin u) * sin t - (2 * (1 - cos u)) * cos t = y - 1 + cos phi := by
    rw [e5] at h2; linarith
  have hr : (polar (x - sin phi) (y - 1 + cos phi)).1 = 4 * sin (u / 2) := by
    have hr0 := polar_nonneg (x - sin phi) (y - 1 + cos phi)
    have : (polar (x - sin phi) (y - 1 + cos phi)).1 ^ 2 = (4 * sin (u / 2)) ^ 2 := by
      rw [sq, hsq, ← e1, ← e2]
      have s1 := sin_sq_add_cos_sq t
      have s2 := sin_sq_add_cos_sq u
      linear_combination (4 * (1 - cos u) ^ 2 + 4 * sin u ^ 2) * s1 + 4 * s2 - 8 * e3
    exact (sq_eq_sq₀ hr0 (by positivity)).1 this
  have reach : reachedLpRmL x y phi := by
    unfold reachedLpRmL; rw [hr]; linarith [sin_le_one (u / 2)]
  have hw := LpRmL_hits reach
  simp only at hw
  rw [hits_LRL] at hw
  have eu : (LpRmL x y phi).u = -u := by
    simp only [LpRmL]; rw [hr]
    rw [show 0.25 * (4 * sin (u / 2)) = sin (u / 2) by ring,
      arcsin_sin (by linarith) (by linarith)]
    ring
  rw [eu] at hw
  obtain ⟨w1, w2, w3⟩ := hw
  have bt : |(LpRmL x y phi).t| ≤ π := abs_pify_le _
  have hc1 : 0 < 1 - cos u := by rw [e3]; nlinarith
  have bt' : -π < (LpRmL x y phi).t := by
    have hm := polar_snd_mem (x - sin phi) (y - 1 + cos phi)
    have e : (LpRmL x y phi).t = pify ((polar (x - sin phi) (y - 1 + cos phi)).2 + 0.5 * (LpRmL x y phi).u + π) := rfl
    rw [e, eu]
    exact neg_pi_lt_pify (by linarith) (by linarith)
  have et : (LpRmL x y phi).t = t :=
    repr_eq' (csc_unique (p := -2 * sin u) (m := 2 * (1 - cos u)) (by positivity)
      (by rw [e4] at w1; linarith) (by rw [e5] at w2; linarith) e1 e2) bt bt' ht
  rw [et] at w3
  have ev : |(LpRmL x y phi).v| ≤ |v| := by
    have e : (LpRmL x y phi).v = pify (phi - (LpRmL x y phi).t + (LpRmL x y phi).u) := rfl
    rw [e, et, eu]
    apply abs_pify_le_abs
    obtain ⟨n, hn⟩ := h3
    exact ⟨-n, by push_cast; linarith⟩
  have hz := RS_ZERO_pos
  refine ⟨⟨reach, ?_, ?_⟩, ?_⟩
  · change (LpRmL x y phi).t ≥ -RS_ZERO; rw [et]; linarith [ht.1]
  · change (LpRmL x y phi).u ≤ RS_ZERO; rw [eu]; linarith
  · rw [et, eu, abs_neg, abs_of_nonneg hu.le]; linarith

theorem LRL_zero {x y phi t v : ℝ}
    (h : Hits [(1, t), (-1, -0), (1, v)] x y phi) : RSAny x y phi (|t| + 0 + |v|) := by
  rw [hits_LRL] at h
  obtain ⟨h1, h2, h3⟩ := h
  simp only [neg_zero, sub_zero, sub_self] at h1 h2 h3
  have := full_zero (x := x) (y := y) (phi := phi) (b := t + v) (by linarith) (by linarith) h3.symm
  exact this.mono (by rw [add_zero]; exact abs_add_le _ _)

theorem opt_LRL {x y phi t u v : ℝ} (ht : CTurn t) (hu : 0 ≤ u) (hu2 : u ≤ π)
    (h : Hits [(1, t), (-1, -u), (1, v)] x y phi) : RSAny x y phi (|t| + u + |v|) := by
  rcases hu.lt_or_eq with hpos | rfl
  · obtain ⟨a, b⟩ := opt_LRL' ht hpos hu2 h
    left; left
    exact ⟨_, Or.inr (Or.inr (Or.inl rfl)), a, b⟩
  · exact LRL_zero h

theorem opt_LRLb {x y phi t u v : ℝ} (ht : CTurn t) (hu : 0 ≤ u) (hu2 : u ≤ π)
    (h : Hits [(1, v), (-1, -u), (1, t)] x y phi) : RSAny x y phi (|t| + u + |v|) := by
  have hw : UnitW [(1, v), (-1, -u), (1, t)] := by
    intro w hw; simp only [List.mem_cons, List.not_mem_nil, or_false] at hw
    rcases hw with rfl | rfl | rfl <;> simp
  rcases hu.lt_or_eq with hpos | rfl
  · have := h.reverse' hw
    simp only [List.reverse_cons, List.reverse_nil, List.nil_append, List.cons_append] at this
    obtain ⟨a, b⟩ := opt_LRL' ht hpos hu2 this
    left; left
    exact ⟨_, Or.inr (Or.inr (Or.inr rfl)), a, b⟩
  · apply LRL_zero
    rw [hits_LRL] at h ⊢
    simp only [neg_zero, sub_zero, sub_self, add_comm t v] at h ⊢
    exact h

theorem rsTau_abs (u v xi eta : ℝ) : |rsTau u v xi eta| ≤ π := by
  unfold rsTau; simp only; split_ifs <;> exact abs_pify_le _

theorem opt_LRLRp {x y phi t u v : ℝ} (ht : RTurn t) (hu : 0 ≤ u) (hu2 : u < π / 3) (hv : RTurn v)
    (h : Hits [(1, t), (-1, u), (1, -u), (-1, -v)] x y phi) : RSAny x y phi (|t| + 2 * u + |v|) := by
  rw [hits_LRLRp] at h
  obtain ⟨h1, h2, h3⟩ := h
  have hpi := pi_pos
  have hcu : 1 / 2 < cos u := by
    rw [← cos_pi_div_three]; exact cos_lt_cos_of_nonneg_of_le_pi hu (by linarith) hu2
  obtain ⟨k, hk⟩ : ∃ k, k = 2 * cos u - 1 := ⟨_, rfl⟩
  have hk0 : 0 < k := by linarith
  have f1 : ∀ s, 2 * (sin s - sin (s - u) + sin (s - 2 * u))
      = (-2 * k * sin u) * cos s + (2 * k * cos u) * sin s := fun s => by
    rw [sin_sub, sin_sub, cos_two_mul, sin_two_mul, hk]; ring
  have f2 : ∀ s, 2 * (-cos s + cos (s - u) - cos (s - 2 * u))
      = (-2 * k * sin u) * sin s - (2 * k * cos u) * cos s := fun s => by
    rw [cos_sub, cos_sub, cos_two_mul, sin_two_mul, hk]; ring
  have e1 : (-2 * k * sin u) * cos t + (2 * k * cos u) * sin t = x + sin phi := by
    rw [← f1]; linarith
  have e2 : (-2 * k * sin u) * sin t - (2 * k * cos u) * cos t = y - 1 - cos phi := by
    rw [← f2]; linarith
  have hr : √((x + sin phi) * (x + sin phi) + (y - 1 - cos phi) * (y - 1 - cos phi)) = 2 * k := by
    have : (x + sin phi) * (x + sin phi) + (y - 1 - cos phi) * (y - 1 - cos phi) = (2 * k) ^ 2 := by
      rw [← e1, ← e2]
      linear_combination 4 * k ^ 2 * (sin u ^ 2 + cos u ^ 2) * sin_sq_add_cos_sq t
        + 4 * k ^ 2 * sin_sq_add_cos_sq u
    rw [this, sqrt_sq (by linarith)]
  have hrho : rhoLpRupLumRm x y phi = cos u := by unfold rhoLpRupLumRm; rw [hr, hk]; ring
  have reach : rhoLpRupLumRm x y phi ≤ 1 := by rw [hrho]; exact cos_le_one _
  have hw := LpRupLumRm_hits reach
  simp only at hw
  rw [hits_LRLRp] at hw
  have eu : (LpRupLumRm x y phi).u = u := by
    change arccos (rhoLpRupLumRm x y phi) = u
    rw [hrho, arccos_cos hu (by linarith)]
  rw [eu] at hw
  obtain ⟨w1, w2, w3⟩ := hw
  have bt : |(LpRupLumRm x y phi).t| ≤ π := rsTau_abs _ _ _ _
  have bv : |(LpRupLumRm x y phi).v| ≤ π := abs_pify_le _
  have et : (LpRupLumRm x y phi).t = t :=
    t_unique (p := -2 * k * sin u) (m := 2 * k * cos u)
      (by have : 0 < 2 * k * cos u := by positivity
          positivity)
      (by rw [← f1]; linarith) (by rw [← f2]; linarith) e1 e2 bt ht.abs_lt
  rw [et] at w3
  have ev : (LpRupLumRm x y phi).v = -v := v_unique' w3 h3 bv (by rw [abs_neg]; exact hv.abs_lt)
  have hz := RS_ZERO_pos
  left; right; left
  refine ⟨LpRupLumRm x y phi, Or.inl rfl, ⟨reach, ?_, ?_⟩, ?_⟩
  · change (LpRupLumRm x y phi).t ≥ -RS_ZERO; rw [et]; linarith [ht.1]
  · change (LpRupLumRm x y phi).v ≤ RS_ZERO; rw [ev]; linarith [hv.1]
  · rw [et, ev, eu, abs_of_nonneg hu, abs_neg]

theorem opt_LRLRm {x y phi t u v : ℝ} (ht : RTurn t) (hu : 0 ≤ u) (hu2 : u ≤ π / 2) (hv : RTurn v)
    (h : Hits [(1, t), (-1, -u), (1, -u), (-1, v)] x y phi) : RSAny x y phi (|t| + 2 * u + |v|) := by
  rw [hits_LRLRm] at h
  obtain ⟨h1, h2, h3⟩ := h
  have hpi := pi_pos
  have hcu : 0 ≤ cos u := cos_nonneg_of_neg_pi_div_two_le_of_le (by linarith) hu2
  have f1 : ∀ s, 4 * sin s - 2 * sin (s - -u)
      = (-2 * sin u) * cos s + (4 - 2 * cos u) * sin s := fun s => by
    rw [sub_neg_eq_add, sin_add]; ring
  have f2 : ∀ s, -4 * cos s + 2 * cos (s - -u)
      = (-2 * sin u) * sin s - (4 - 2 * cos u) * cos s := fun s => by
    rw [sub_neg_eq_add, cos_add]; ring
  have e1 : (-2 * sin u) * cos t + (4 - 2 * cos u) * sin t = x + sin phi := by
    rw [← f1]; linarith
  have e2 : (-2 * sin u) * sin t - (4 - 2 * cos u) * cos t = y - 1 - cos phi := by
    rw [← f2]; linarith
  have hrho : rhoLpRumLumRp x y phi = cos u := by
    unfold rhoLpRumLumRp
    rw [← e1, ← e2]
    linear_combination (-(4 * sin u ^ 2 + (4 - 2 * cos u) ^ 2) / 16) * sin_sq_add_cos_sq t
      - 4 / 16 * sin_sq_add_cos_sq u
  have reach : 0 ≤ rhoLpRumLumRp x y phi ∧ rhoLpRumLumRp x y phi ≤ 1 := by
    rw [hrho]; exact ⟨hcu, cos_le_one _⟩
  have hw := LpRumLumRp_hits reach
  simp only at hw
  rw [hits_LRLRm] at hw
  have eu : (LpRumLumRp x y phi).u = -u := by
    change -arccos (rhoLpRumLumRp x y phi) = -u
    rw [hrho, arccos_cos hu (by linarith)]
  rw [eu] at hw
  obtain ⟨w1, w2, w3⟩ := hw
  have bt : |(LpRumLumRp x y phi).t| ≤ π := rsTau_abs _ _ _ _
  have bv : |(LpRumLumRp x y phi).v| ≤ π := abs_pify_le _
  have hm : 0 < 4 - 2 * cos u := by linarith [cos_le_one u]
  have et : (LpRumLumRp x y phi).t = t :=
    t_unique (p := -2 * sin u) (m := 4 - 2 * cos u) (by positivity)
      (by rw [← f1]; linarith) (by rw [← f2]; linarith) e1 e2 bt ht.abs_lt
  rw [et] at w3
  have ev : (LpRumLumRp x y phi).v = v := v_unique' w3 h3 bv hv.abs_lt
  have hz := RS_ZERO_pos
  left; right; left
  refine ⟨LpRumLumRp x y phi, Or.inr rfl, ⟨reach, ?_, ?_, ?_⟩, ?_⟩
  · change (LpRumLumRp x y phi).u ≥ -0.5 * π; rw [eu]; linarith
  · change (LpRumLumRp x y phi).t ≥ -RS_ZERO; rw [et]; linarith [ht.1]
  · change (LpRumLumRp x y phi).v ≥ -RS_ZERO; rw [ev]; linarith [hv.1]
  · rw [et, ev, eu, abs_neg, abs_of_nonneg hu]

theorem opt_LRSL' {x y phi t u v : ℝ} (ht : CTurn t) (hu : 0 ≤ u) (hv : RTurn v)
    (h : Hits [(1, t), (-1, -(π / 2)), (0, -u), (1, -v)] x y phi) :
    (LpRmSmLm x y phi).ok ∧ |(LpRmSmLm x y phi).t| + |(LpRmSmLm x y phi).u| +
      |(LpRmSmLm x y phi).v| + 0.5 * π ≤ |t| + π / 2 + u + |v| := by
  rw [hits_LRSL] at h
  obtain ⟨h1, h2, h3⟩ := h
  have hpi := pi_pos
  have e1 : (-2) * cos t + (2 + u) * sin t = x - sin phi := by linarith
  have e2 : (-2) * sin t - (2 + u) * cos t = y - 1 + cos phi := by linarith
  have hsq := polar_sq (x - sin phi) (y - 1 + cos phi)
  have hr : (polar (x - sin phi) (y - 1 + cos phi)).1 * (polar (x - sin phi) (y - 1 + cos phi)).1
      = 4 + (2 + u) ^ 2 := by
    rw [hsq, ← e1, ← e2]; linear_combination (4 + (2 + u) ^ 2) * sin_sq_add_cos_sq t
  have reach : reachedLpRmSmLm x y phi := by
    unfold reachedLpRmSmLm
    have := polar_nonneg (x - sin phi) (y - 1 + cos phi)
    nlinarith
  have hw := LpRmSmLm_hits reach
  simp only at hw
  rw [hits_LRSL] at hw
  have eu : (LpRmSmLm x y phi).u = -u := by
    simp only [LpRmSmLm]; rw [hr]
    rw [show 4 + (2 + u) ^ 2 - 4 = (2 + u) ^ 2 by ring, sqrt_sq (by linarith)]; ring
  rw [eu] at hw
  obtain ⟨w1, w2, w3⟩ := hw
  have bt : |(LpRmSmLm x y phi).t| ≤ π := abs_pify_le _
  have bv : |(LpRmSmLm x y phi).v| ≤ π := abs_pify_le _
  have bt' : -π < (LpRmSmLm x y phi).t := by
    have hm := polar_snd_mem (x - sin phi) (y - 1 + cos phi)
    have ha := atan2_mem (√((polar (x - sin phi) (y - 1 + cos phi)).1 * (polar (x - sin phi) (y - 1 + cos phi)).1 - 4)) (-2)
    have ha0 := (atan2_nonneg_iff (x := -2)).2 (sqrt_nonneg ((polar (x - sin phi) (y - 1 + cos phi)).1 * (polar (x - sin phi) (y - 1 + cos phi)).1 - 4))
    exact neg_pi_lt_pify (by linarith) (by linarith)
  have et : (LpRmSmLm x y phi).t = t :=
    repr_eq' (csc_unique (p := -2) (m := 2 + u) (by positivity) (by linarith) (by linarith) e1 e2) bt bt' ht
  rw [et] at w3
  have ev : (LpRmSmLm x y phi).v = -v := v_unique w3 h3 bv (by rw [abs_neg]; exact hv.abs_lt)
  have hz := RS_ZERO_pos
  refine ⟨⟨reach, ?_, ?_, ?_⟩, ?_⟩
  · change (LpRmSmLm x y phi).t ≥ -RS_ZERO; rw [et]; linarith [ht.1]
  · change (LpRmSmLm x y phi).u ≤ RS_ZERO; rw [eu]; linarith
  · change (LpRmSmLm x y phi).v ≤ RS_ZERO; rw [ev]; linarith [hv.1]
  · rw [et, ev, eu, abs_neg, abs_neg, abs_of_nonneg hu]
    linarith

theorem opt_LRSR' {x y phi t u v : ℝ} (ht : CTurn t) (hu : 0 ≤ u) (hv : RTurn v)
    (h : Hits [(1, t), (-1, -(π / 2)), (0, -u), (-1, -v)] x y phi) :
    (LpRmSmRm x y phi).ok ∧ |(LpRmSmRm x y phi).t| + |(LpRmSmRm x y phi).u| +
      |(LpRmSmRm x y phi).v| + 0.5 * π ≤ |t| + π / 2 + u + |v| := by
  rw [hits_LRSR] at h
  obtain ⟨h1, h2, h3⟩ := h
  have hpi := pi_pos
  have e1 : 0 * cos t + (2 + u) * sin t = x + sin phi := by linarith
  have e2 : 0 * sin t - (2 + u) * cos t = y - 1 - cos phi := by linarith
  have hp := polar_angle (x := -(y - 1 - cos phi)) (y := x + sin phi) (r := 2 + u) (t := t)
    (by linarith) (by linarith) (by linarith)
  have hw := LpRmSmRm_hits x y phi
  simp only at hw
  rw [hits_LRSR] at hw
  have eu : (LpRmSmRm x y phi).u = -u := by
    simp only [LpRmSmRm]; rw [hp.1]; ring
  rw [eu] at hw
  obtain ⟨w1, w2, w3⟩ := hw
  have bv : |(LpRmSmRm x y phi).v| ≤ π := abs_pify_le _
  have et : (LpRmSmRm x y phi).t = t :=
    repr_eq' hp.2 (abs_polar_snd_le _ _) (polar_snd_mem _ _).1 ht
  rw [et] at w3
  have ev : (LpRmSmRm x y phi).v = -v := v_unique' w3 h3 bv (by rw [abs_neg]; exact hv.abs_lt)
  have hz := RS_ZERO_pos
  refine ⟨⟨?_, ?_, ?_, ?_⟩, ?_⟩
  · rw [hp.1]; linarith
  · change (LpRmSmRm x y phi).t ≥ -RS_ZERO; rw [et]; linarith [ht.1]
  · change (LpRmSmRm x y phi).u ≤ RS_ZERO; rw [eu]; linarith
  · change (LpRmSmRm x y phi).v ≤ RS_ZERO; rw [ev]; linarith [hv.1]
  · rw [et, ev, eu, abs_neg, abs_neg, abs_of_nonneg hu]
    linarith

theorem opt_LRSf {x y phi t u v f : ℝ} (hf : IsSign f) (ht : CTurn t) (hu : 0 ≤ u) (hv : RTurn v)
    (h : Hits [(1, t), (-1, -(π / 2)), (0, -u), (f, -v)] x y phi) :
    RSAny x y phi (|t| + π / 2 + u + |v|) := by
  rcases hf with rfl | rfl
  · obtain ⟨a, b⟩ := opt_LRSL' ht hu hv h
    left; right; right; left; exact ⟨_, Or.inl rfl, a, b⟩
  · obtain ⟨a, b⟩ := opt_LRSR' ht hu hv h
    left; right; right; left; exact ⟨_, Or.inr (Or.inr (Or.inl rfl)), a, b⟩

theorem opt_LRSfb {x y phi t u v f : ℝ} (hf : IsSign f) (ht : CTurn t) (hu : 0 ≤ u) (hv : RTurn v)
    (h : Hits [(f, -v), (0, -u), (-1, -(π / 2)), (1, t)] x y phi) :
    RSAny x y phi (|t| + π / 2 + u + |v|) := by
  have hw : UnitW [(f, -v), (0, -u), (-1, -(π / 2)), (1, t)] := by
    intro w hw; simp only [List.mem_cons, List.not_mem_nil, or_false] at hw
    rcases hf with rfl | rfl <;> rcases hw with rfl | rfl | rfl | rfl <;> simp
  have := h.reverse' hw
  simp only [List.reverse_cons, List.reverse_nil, List.nil_append, List.cons_append] at this
  rcases hf with rfl | rfl
  · obtain ⟨a, b⟩ := opt_LRSL' ht hu hv this
    left; right; right; left; exact ⟨_, Or.inr (Or.inl rfl), a, b⟩
  · obtain ⟨a, b⟩ := opt_LRSR' ht hu hv this
    left; right; right; left; exact ⟨_, Or.inr (Or.inr (Or.inr rfl)), a, b⟩

theorem opt_LRSLR {x y phi t u v : ℝ} (ht : RTurn t) (hu : -RS_ZERO ≤ u) (hv : RTurn v)
    (h : Hits [(1, t), (-1, -(π / 2)), (0, -u), (1, -(π / 2)), (-1, v)] x y phi) :
    RSAny x y phi (|t| + π + |u| + |v|) := by
  rw [hits_LRSLR] at h
  obtain ⟨h1, h2, h3⟩ := h
  have hpi := pi_pos
  have hz1 := RS_ZERO_lt
  have e1 : (-2) * cos t + (4 + u) * sin t = x + sin phi := by linarith
  have e2 : (-2) * sin t - (4 + u) * cos t = y - 1 - cos phi := by linarith
  have hsq := polar_sq (x + sin phi) (y - 1 - cos phi)
  have hr : (polar (x + sin phi) (y - 1 - cos phi)).1 * (polar (x + sin phi) (y - 1 - cos phi)).1
      = 4 + (4 + u) ^ 2 := by
    rw [hsq, ← e1, ← e2]; linear_combination (4 + (4 + u) ^ 2) * sin_sq_add_cos_sq t
  have reach : reachedLpRmSLmRp x y phi := by
    unfold reachedLpRmSLmRp
    have := polar_nonneg (x + sin phi) (y - 1 - cos phi)
    nlinarith
  have hw := LpRmSLmRp_hits reach
  simp only at hw
  rw [hits_LRSLR] at hw
  have eu : (LpRmSLmRp x y phi).u = -u := by
    simp only [LpRmSLmRp]; rw [hr]
    rw [show 4 + (4 + u) ^ 2 - 4 = (4 + u) ^ 2 by ring, sqrt_sq (by linarith)]; ring
  rw [eu] at hw
  obtain ⟨w1, w2, w3⟩ := hw
  have bt : |(LpRmSLmRp x y phi).t| ≤ π := abs_pify_le _
  have bv : |(LpRmSLmRp x y phi).v| ≤ π := abs_pify_le _
  have et : (LpRmSLmRp x y phi).t = t :=
    t_unique (p := -2) (m := 4 + u) (by nlinarith) (by linarith) (by linarith) e1 e2 bt ht.abs_lt
  rw [et] at w3
  have ev : (LpRmSLmRp x y phi).v = v := v_unique' w3 h3 bv hv.abs_lt
  have hz := RS_ZERO_pos
  left; right; right; right
  refine ⟨LpRmSLmRp x y phi, rfl, ⟨reach, ?_, ?_, ?_⟩, ?_⟩
  · change (LpRmSLmRp x y phi).u ≤ RS_ZERO; rw [eu]; linarith
  · change (LpRmSLmRp x y phi).t ≥ -RS_ZERO; rw [et]; linarith [ht.1]
  · change (LpRmSLmRp x y phi).v ≥ -RS_ZERO; rw [ev]; linarith [hv.1]
  · rw [et, ev, eu, abs_neg]
    linarith

/-! ### The families, for both sides and both directions -/

/-- A word with sides multiplied by `e` and lengths by `s`. -/
def symW (e s : ℝ) (ws : List (ℝ × ℝ)) : List (ℝ × ℝ) := ws.map fun w => (e * w.1, s * w.2)

theorem sym_reduce {e s : ℝ} (he : IsSign e) (hs : IsSign s) {ws : List (ℝ × ℝ)} {x y phi L : ℝ}
    (h : Hits (symW e s ws) x y phi)
    (base : ∀ {x y phi : ℝ}, Hits ws x y phi → RSAny x y phi L) : RSAny x y phi L := by
  rcases he with rfl | rfl <;> rcases hs with rfl | rfl
  · apply base
    simpa [symW] using h
  · apply RSAny.flip
    apply base
    have := Hits.flip (ws := symW 1 (-1) ws) (x := -x) (y := y) (phi := -phi) (by simpa using h)
    simpa [symW, flipW, Function.comp_def] using this
  · apply RSAny.mirror
    apply base
    have := Hits.mirror (ws := symW (-1) 1 ws) (x := x) (y := -y) (phi := -phi) (by simpa using h)
    simpa [symW, mirrorW, Function.comp_def] using this
  · apply RSAny.flip
    apply RSAny.mirror
    apply base
    have := Hits.flip_mirror (ws := symW (-1) (-1) ws) (x := -x) (y := -y) (phi := phi)
      (by simpa using h)
    simpa [symW, mirrorW, flipW, Function.comp_def] using this

/-! ### The result for a pair of states -/

theorem RSPath.length_nonneg (p : RSPath) : 0 ≤ p.length := by unfold RSPath.length; positivity

/-- The planner's answer is an accepted candidate. -/
theorem rs_core {sp : RSSpace} (hk : 0 < sp.kappa) {s1 s2 : State}
    (hfar : sp.kappa * dist2 s1 s2 ≤ 10 ^ 200) :
    (∃ c ∈ rsCands (sp.params s1 s2).1 (sp.params s1 s2).2.1 (sp.params s1 s2).2.2, c.ok ∧
      sp.reeds_shepp s1 s2 = c.path) ∧
    (sp.reeds_shepp s1 s2).length ≤ 4 * (sp.kappa * dist2 s1 s2) + 14 := by
  obtain ⟨h1, -, h3⟩ := reeds_shepp_result (sp.params s1 s2).1 (sp.params s1 s2).2.1
    (sp.params s1 s2).2.2
  obtain ⟨c, hc, ok, hl⟩ := rs_exists (sp.params s1 s2).1 (sp.params s1 s2).2.1
    (sp.params s1 s2).2.2
  have hxy : (sp.params s1 s2).1 ^ 2 + (sp.params s1 s2).2.1 ^ 2 = (sp.kappa * dist2 s1 s2) ^ 2 := by
    rw [mul_pow, dist2, sq_sqrt (by positivity)]
    simp only [RSSpace.params]
    linear_combination (sp.kappa ^ 2 * ((s2.x - s1.x) ^ 2 + (s2.y - s1.y) ^ 2)) *
      sin_sq_add_cos_sq s1.theta
  have hd0 : 0 ≤ sp.kappa * dist2 s1 s2 := mul_nonneg hk.le (sqrt_nonneg _)
  have hx : |(sp.params s1 s2).1| ≤ sp.kappa * dist2 s1 s2 :=
    abs_le_of_sq_le_sq (by nlinarith [sq_nonneg (sp.params s1 s2).2.1]) hd0
  have hy : |(sp.params s1 s2).2.1| ≤ sp.kappa * dist2 s1 s2 :=
    abs_le_of_sq_le_sq (by nlinarith [sq_nonneg (sp.params s1 s2).1]) hd0
  have hle : (sp.reeds_shepp s1 s2).length ≤ 4 * (sp.kappa * dist2 s1 s2) + 14 := by
    have := h3 c hc ok
    unfold RSSpace.reeds_shepp
    linarith
  refine ⟨?_, hle⟩
  rcases h1 with h1 | h1
  · exfalso
    have hl' : (sp.reeds_shepp s1 s2).length = dblMax := by
      unfold RSSpace.reeds_shepp
      rw [h1]
      have : (0:ℝ) ≤ dblMax := le_trans (by positivity) dblMax_large.le
      simp [RSPath.default, RSPath.length, abs_of_nonneg this]
    have hbig := dblMax_large
    have : (10:ℝ) ^ 201 = 10 * 10 ^ 200 := by rw [pow_succ]; ring
    have h1 : (14:ℝ) ≤ 10 ^ 200 := le_trans (by norm_num : (14:ℝ) ≤ 10 ^ 2) (pow_le_pow_right₀ (by norm_num) (by norm_num))
    linarith
  · exact h1

/-- Every arc of a candidate is at most half a turn. -/
theorem rsCands_arcs {x y phi : ℝ} {c : RSCand} (hc : c ∈ rsCands x y phi) :
    ∀ w ∈ c.path.word, w.1 ≠ 0 → |w.2| ≤ π := by
  have hpi := pi_pos
  have hh : |0.5 * π| ≤ π := by rw [abs_of_pos (by positivity)]; linarith
  have a1 : ∀ x y phi, |(LpSpLp x y phi).t| ≤ π ∧ |(LpSpLp x y phi).v| ≤ π :=
    fun x y phi => ⟨abs_polar_snd_le _ _, abs_pify_le _⟩
  have a2 : ∀ x y phi, |(LpSpRp x y phi).t| ≤ π ∧ |(LpSpRp x y phi).v| ≤ π :=
    fun x y phi => ⟨abs_pify_le _, abs_pify_le _⟩
  have a3 : ∀ x y phi, |(LpRmL x y phi).t| ≤ π ∧ |(LpRmL x y phi).u| ≤ π ∧
      |(LpRmL x y phi).v| ≤ π := fun x y phi => ⟨abs_pify_le _, by
        simp only [LpRmL]
        rw [abs_le]
        constructor <;> linarith [neg_pi_div_two_le_arcsin (0.25 *
          (polar (x - sin phi) (y - 1 + cos phi)).1), arcsin_le_pi_div_two (0.25 *
          (polar (x - sin phi) (y - 1 + cos phi)).1)], abs_pify_le _⟩
  have a4 : ∀ x y phi, |(LpRupLumRm x y phi).t| ≤ π ∧ |(LpRupLumRm x y phi).u| ≤ π ∧
      |(LpRupLumRm x y phi).v| ≤ π := fun x y phi => ⟨rsTau_abs _ _ _ _, by
        simp only [LpRupLumRm]
        rw [abs_of_nonneg (arccos_nonneg _)]; exact arccos_le_pi _, abs_pify_le _⟩
  have a5 : ∀ x y phi, |(LpRumLumRp x y phi).t| ≤ π ∧ |(LpRumLumRp x y phi).u| ≤ π ∧
      |(LpRumLumRp x y phi).v| ≤ π := fun x y phi => ⟨rsTau_abs _ _ _ _, by
        simp only [LpRumLumRp]
        rw [abs_neg, abs_of_nonneg (arccos_nonneg _)]; exact arccos_le_pi _, abs_pify_le _⟩
  have a6 : ∀ x y phi, |(LpRmSmLm x y phi).t| ≤ π ∧ |(LpRmSmLm x y phi).v| ≤ π :=
    fun x y phi => ⟨abs_pify_le _, abs_pify_le _⟩
  have a7 : ∀ x y phi, |(LpRmSmRm x y phi).t| ≤ π ∧ |(LpRmSmRm x y phi).v| ≤ π :=
    fun x y phi => ⟨abs_polar_snd_le _ _, abs_pify_le _⟩
  have a8 : ∀ x y phi, |(LpRmSLmRp x y phi).t| ≤ π ∧ |(LpRmSLmRp x y phi).v| ≤ π :=
    fun x y phi => ⟨abs_pify_le _, abs_pify_le _⟩
  unfold rsCands at hc
  simp only [List.mem_append] at hc
  rcases hc with (((hc | hc) | hc) | hc) | hc
  · simp only [candsCSC, List.mem_cons, List.not_mem_nil, or_false] at hc
    rcases hc with rfl | rfl | rfl | rfl | rfl | rfl | rfl | rfl <;>
      simp [cand3, RSPath.word, RSPath.segs, reeds_shepp_path_type, rsWordOf, a1, a2]
  · simp only [candsCCC, List.mem_cons, List.not_mem_nil, or_false] at hc
    rcases hc with rfl | rfl | rfl | rfl | rfl | rfl | rfl | rfl <;>
      simp [cand3, cand3b, RSPath.word, RSPath.segs, reeds_shepp_path_type, rsWordOf, a3]
  · simp only [candsCCCC, List.mem_cons, List.not_mem_nil, or_false] at hc
    rcases hc with rfl | rfl | rfl | rfl | rfl | rfl | rfl | rfl <;>
      simp [cand4p, cand4m, RSPath.word, RSPath.segs, reeds_shepp_path_type, rsWordOf, a4, a5]
  · simp only [candsCCSC, List.mem_cons, List.not_mem_nil, or_false] at hc
    rcases hc with rfl | rfl | rfl | rfl | rfl | rfl | rfl | rfl | rfl | rfl | rfl | rfl | rfl |
      rfl | rfl | rfl <;>
      simp only [cand4h, cand4hb, RSPath.word, RSPath.segs, reeds_shepp_path_type, rsWordOf,
        List.mem_cons, List.not_mem_nil, or_false, forall_eq_or_imp, forall_eq, ne_eq, abs_neg,
        abs_mul, one_mul, neg_mul] <;>
      simp [a6, a7, hh, ← abs_mul]
  · simp only [candsCCSCC, List.mem_cons, List.not_mem_nil, or_false] at hc
    rcases hc with rfl | rfl | rfl | rfl <;>
      simp only [cand5, RSPath.word, RSPath.segs, reeds_shepp_path_type, rsWordOf,
        List.mem_cons, List.not_mem_nil, or_false, forall_eq_or_imp, forall_eq, ne_eq, abs_neg,
        abs_mul, one_mul, neg_mul] <;>
      simp [a8, hh, ← abs_mul]

end SF
