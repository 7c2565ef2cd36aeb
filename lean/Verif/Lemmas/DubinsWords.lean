import Verif.Lemmas.Dubins

/-!
# The six Dubins words in uniform notation

`e = 1` for a left turn, `e = -1` for a right turn.
-/

noncomputable section

namespace SF

open Real Spec

def cscU (e1 e3 d al be : ℝ) : ℝ := d + e1 * sin al - e3 * sin be
def cscV (e1 e3 al be : ℝ) : ℝ := e3 * cos be - e1 * cos al
def cscTmp (e1 e3 d al be : ℝ) : ℝ :=
  cscU e1 e3 d al be ^ 2 + cscV e1 e3 al be ^ 2 - (e1 - e3) ^ 2
def cscP (e1 e3 d al be : ℝ) : ℝ := √(max (cscTmp e1 e3 d al be) 0)
def cscTh (e1 e3 d al be : ℝ) : ℝ :=
  atan2 (cscV e1 e3 al be) (cscU e1 e3 d al be) - atan2 (-(e1 - e3)) (cscP e1 e3 d al be)
def cscT (e1 e3 d al be : ℝ) : ℝ := twopify (e1 * (cscTh e1 e3 d al be - al))
def cscQ (e1 e3 d al be : ℝ) : ℝ := twopify (e3 * (be - cscTh e1 e3 d al be))

def cccTmp (e d al be : ℝ) : ℝ := 1 - (cscU e e d al be ^ 2 + cscV e e al be ^ 2) / 8
def cccP (e d al be : ℝ) : ℝ := 2 * π - arccos (cccTmp e d al be)
def cccTh (e d al be : ℝ) : ℝ := atan2 (cscV e e al be) (cscU e e d al be)
def cccT (e d al be : ℝ) : ℝ := twopify (e * (cccTh e d al be - al) + 0.5 * cccP e d al be)
def cccQ (e d al be : ℝ) : ℝ := twopify (e * (be - al) - cccT e d al be + cccP e d al be)

theorem tmpLSL_eq (d al be : ℝ) : tmpLSL d al be = cscTmp 1 1 d al be := by
  have h1 := sin_sq_add_cos_sq al
  have h2 := sin_sq_add_cos_sq be
  simp only [tmpLSL, cscTmp, cscU, cscV]
  linear_combination -h1 - h2

theorem tmpRSR_eq (d al be : ℝ) : tmpRSR d al be = cscTmp (-1) (-1) d al be := by
  have h1 := sin_sq_add_cos_sq al
  have h2 := sin_sq_add_cos_sq be
  simp only [tmpRSR, cscTmp, cscU, cscV]
  linear_combination -h1 - h2

theorem tmpRSL_eq (d al be : ℝ) : tmpRSL d al be = cscTmp (-1) 1 d al be := by
  have h1 := sin_sq_add_cos_sq al
  have h2 := sin_sq_add_cos_sq be
  simp only [tmpRSL, cscTmp, cscU, cscV]
  linear_combination -h1 - h2

theorem tmpLSR_eq (d al be : ℝ) : tmpLSR d al be = cscTmp 1 (-1) d al be := by
  have h1 := sin_sq_add_cos_sq al
  have h2 := sin_sq_add_cos_sq be
  simp only [tmpLSR, cscTmp, cscU, cscV]
  linear_combination -h1 - h2

theorem tmpRLR_eq (d al be : ℝ) : tmpRLR d al be = cccTmp (-1) d al be := by
  have h1 := sin_sq_add_cos_sq al
  have h2 := sin_sq_add_cos_sq be
  simp only [tmpRLR, cccTmp, cscU, cscV]
  linear_combination h1 / 8 + h2 / 8

theorem tmpLRL_eq (d al be : ℝ) : tmpLRL d al be = cccTmp 1 d al be := by
  have h1 := sin_sq_add_cos_sq al
  have h2 := sin_sq_add_cos_sq be
  simp only [tmpLRL, cccTmp, cscU, cscV]
  linear_combination h1 / 8 + h2 / 8

theorem atan2_zero_nonneg {p : ℝ} (hp : 0 ≤ p) : atan2 0 p = 0 := by
  unfold atan2
  exact Complex.arg_ofReal_of_nonneg hp

theorem pathLSL_eq (d al be : ℝ) : pathLSL d al be =
    ⟨dubins_path_type 0, cscT 1 1 d al be, cscP 1 1 d al be, cscQ 1 1 d al be⟩ := by
  have hth : cscTh 1 1 d al be = atan2 (cos be - cos al) (d + sin al - sin be) := by
    simp [cscTh, cscU, cscV, atan2_zero_nonneg (sqrt_nonneg _), cscP]
  simp only [pathLSL, cscT, cscQ, cscP, hth, tmpLSL_eq]
  congr 2 <;> ring

theorem pathRSR_eq (d al be : ℝ) : pathRSR d al be =
    ⟨dubins_path_type 1, cscT (-1) (-1) d al be, cscP (-1) (-1) d al be,
      cscQ (-1) (-1) d al be⟩ := by
  have hth : cscTh (-1) (-1) d al be = atan2 (cos al - cos be) (d - sin al + sin be) := by
    simp only [cscTh, cscU, cscV, cscP, sub_self, neg_zero, atan2_zero_nonneg (sqrt_nonneg _),
      sub_zero]
    congr 1 <;> ring
  simp only [pathRSR, cscT, cscQ, cscP, hth, tmpRSR_eq]
  congr 2 <;> ring

theorem pathRSL_eq (d al be : ℝ) : pathRSL d al be =
    ⟨dubins_path_type 2, cscT (-1) 1 d al be, cscP (-1) 1 d al be, cscQ (-1) 1 d al be⟩ := by
  have hth : cscTh (-1) 1 d al be = atan2 (cos al + cos be) (d - sin al - sin be)
      - atan2 2 (cscP (-1) 1 d al be) := by
    simp only [cscTh, cscU, cscV]
    congr 2 <;> ring
  simp only [pathRSL, cscT, cscQ, hth, tmpRSL_eq]
  simp only [cscP]
  congr 2 <;> ring

theorem pathLSR_eq (d al be : ℝ) : pathLSR d al be =
    ⟨dubins_path_type 3, cscT 1 (-1) d al be, cscP 1 (-1) d al be, cscQ 1 (-1) d al be⟩ := by
  have hth : cscTh 1 (-1) d al be = atan2 (-cos al - cos be) (d + sin al + sin be)
      - atan2 (-2) (cscP 1 (-1) d al be) := by
    simp only [cscTh, cscU, cscV]
    congr 2 <;> ring
  simp only [pathLSR, cscT, cscQ, hth, tmpLSR_eq]
  simp only [cscP]
  congr 2 <;> ring

theorem pathRLR_eq (d al be : ℝ) : pathRLR d al be =
    ⟨dubins_path_type 4, cccT (-1) d al be, cccP (-1) d al be, cccQ (-1) d al be⟩ := by
  have hth : cccTh (-1) d al be = atan2 (cos al - cos be) (d - sin al + sin be) := by
    simp only [cccTh, cscU, cscV]
    congr 1 <;> ring
  have ht : twopify (al - atan2 (cos al - cos be) (d - sin al + sin be)
      + 0.5 * (2 * π - arccos (cccTmp (-1) d al be))) = cccT (-1) d al be := by
    simp only [cccT, hth, cccP]; congr 1; ring
  simp only [pathRLR, tmpRLR_eq, ht, cccQ, cccP]
  congr 2; ring

theorem pathLRL_eq (d al be : ℝ) : pathLRL d al be =
    ⟨dubins_path_type 5, cccT 1 d al be, cccP 1 d al be, cccQ 1 d al be⟩ := by
  have hth : cccTh 1 d al be = atan2 (-cos al + cos be) (d + sin al - sin be) := by
    simp only [cccTh, cscU, cscV]
    congr 1 <;> ring
  have ht : twopify (-al + atan2 (-cos al + cos be) (d + sin al - sin be)
      + 0.5 * (2 * π - arccos (cccTmp 1 d al be))) = cccT 1 d al be := by
    simp only [cccT, hth, cccP]; congr 1; ring
  simp only [pathLRL, tmpLRL_eq, ht, cccQ, cccP]
  congr 2; ring

theorem sign_mul_twopify {e : ℝ} (he : e = 1 ∨ e = -1) (a : ℝ) :
    AngleEq (e * twopify (e * a)) a := by
  rcases he with rfl | rfl
  · simpa using twopify_angleEq a
  · have := (twopify_angleEq (-1 * a)).neg
    simpa using this

theorem csc_heading1 {e1 : ℝ} (h1 : e1 = 1 ∨ e1 = -1) (e3 d al be : ℝ) :
    AngleEq (al + e1 * cscT e1 e3 d al be) (cscTh e1 e3 d al be) := by
  have := (sign_mul_twopify h1 (cscTh e1 e3 d al be - al)).add_left al
  have e : al + (cscTh e1 e3 d al be - al) = cscTh e1 e3 d al be := by ring
  rw [e] at this; exact this

theorem csc_heading2 {e1 e3 : ℝ} (h1 : e1 = 1 ∨ e1 = -1) (h3 : e3 = 1 ∨ e3 = -1) (d al be : ℝ) :
    AngleEq (al + e1 * cscT e1 e3 d al be + e3 * cscQ e1 e3 d al be) be := by
  have a := csc_heading1 h1 e3 d al be
  have b := sign_mul_twopify h3 (be - cscTh e1 e3 d al be)
  have := a.add b
  have e : cscTh e1 e3 d al be + (be - cscTh e1 e3 d al be) = be := by ring
  rw [e] at this; exact this

theorem cscP_sq {e1 e3 d al be : ℝ} (h : 0 ≤ cscTmp e1 e3 d al be) :
    cscP e1 e3 d al be ^ 2 + (e1 - e3) ^ 2
      = cscU e1 e3 d al be ^ 2 + cscV e1 e3 al be ^ 2 := by
  rw [cscP, max_eq_left h, sq_sqrt h, cscTmp]; ring

/-- The CSC words solve their equations when `tmp ≥ 0`. -/
theorem csc_solves {e1 e3 d al be : ℝ} (h1 : e1 = 1 ∨ e1 = -1)
    (h : 0 ≤ cscTmp e1 e3 d al be) :
    cscP e1 e3 d al be * cos (al + e1 * cscT e1 e3 d al be)
      + (e1 - e3) * sin (al + e1 * cscT e1 e3 d al be) = cscU e1 e3 d al be ∧
    cscP e1 e3 d al be * sin (al + e1 * cscT e1 e3 d al be)
      - (e1 - e3) * cos (al + e1 * cscT e1 e3 d al be) = cscV e1 e3 al be := by
  have a := csc_heading1 h1 e3 d al be
  rw [a.cos_eq, a.sin_eq]
  exact csc_exact (cscP_sq h)

/-- Residual of the CSC words in the tolerance zone. -/
theorem csc_almost {e1 e3 d al be : ℝ} (h1 : e1 = 1 ∨ e1 = -1) (h3 : e3 = 1 ∨ e3 = -1)
    (h : DUBINS_ZERO ≤ cscTmp e1 e3 d al be) :
    (cscP e1 e3 d al be * cos (al + e1 * cscT e1 e3 d al be)
      + (e1 - e3) * sin (al + e1 * cscT e1 e3 d al be) - cscU e1 e3 d al be) ^ 2 +
    (cscP e1 e3 d al be * sin (al + e1 * cscT e1 e3 d al be)
      - (e1 - e3) * cos (al + e1 * cscT e1 e3 d al be) - cscV e1 e3 al be) ^ 2
      ≤ (1 / 10 ^ 9) ^ 2 := by
  by_cases h0 : 0 ≤ cscTmp e1 e3 d al be
  · obtain ⟨a, b⟩ := csc_solves h1 h0
    rw [a, b]; norm_num
  · have h0 := not_le.1 h0
    have a := csc_heading1 h1 e3 d al be
    rw [a.cos_eq, a.sin_eq]
    have := csc_residual (cscU e1 e3 d al be) (cscV e1 e3 al be) (cscP e1 e3 d al be) (e1 - e3)
    simp only at this
    unfold cscTh
    rw [this]
    have hp : cscP e1 e3 d al be = 0 := by rw [cscP, max_eq_right h0.le, sqrt_zero]
    rw [hp]
    have hm : (e1 - e3) ^ 2 = 4 := by
      have hne : (e1 - e3) ^ 2 ≠ 0 := by
        intro hz
        have : 0 ≤ cscTmp e1 e3 d al be := by
          rw [cscTmp, hz, sub_zero]; positivity
        linarith
      rcases h1 with rfl | rfl <;> rcases h3 with rfl | rfl <;> first | (norm_num; done) | (exfalso; apply hne; norm_num)
    rw [hm]
    have e4 : √((0:ℝ) ^ 2 + 4) = 2 := by
      rw [show (0:ℝ) ^ 2 + 4 = 2 ^ 2 by norm_num]; exact sqrt_sq (by norm_num)
    rw [e4]
    set w := cscU e1 e3 d al be ^ 2 + cscV e1 e3 al be ^ 2 with hw
    have hwt : cscTmp e1 e3 d al be = w - 4 := by rw [cscTmp, hm]
    rw [hwt] at h h0
    unfold DUBINS_ZERO at h
    have hw0 : 0 ≤ w := by positivity
    have hs := sq_sqrt hw0
    set r := √w
    have hr0 : 0 ≤ r := sqrt_nonneg _
    have hr2 : r < 2 := by nlinarith
    have hr1 : 1 ≤ r := by nlinarith
    have : 0 ≤ 2 - r ∧ 2 - r ≤ 1 / 10 ^ 9 := by
      constructor
      · linarith
      · nlinarith
    exact pow_le_pow_left₀ this.1 this.2 2

theorem cccP_range {e d al be : ℝ} (h : |cccTmp e d al be| < 1) :
    π < cccP e d al be ∧ cccP e d al be < 2 * π := by
  obtain ⟨h1, h2⟩ := abs_lt.1 h
  have a1 : 0 < arccos (cccTmp e d al be) := arccos_pos.2 h2
  have a2 : arccos (cccTmp e d al be) < π := by
    rcases lt_or_eq_of_le (arccos_le_pi (cccTmp e d al be)) with h3 | h3
    · exact h3
    · rw [arccos_eq_pi] at h3; linarith
  unfold cccP
  constructor <;> linarith

theorem ccc_sin {e d al be : ℝ} (h : |cccTmp e d al be| < 1) :
    4 * sin (cccP e d al be / 2) = √(cscU e e d al be ^ 2 + cscV e e al be ^ 2) := by
  obtain ⟨hp1, hp2⟩ := cccP_range h
  obtain ⟨h1, h2⟩ := abs_lt.1 h
  have hs : 0 < sin (cccP e d al be / 2) := by
    apply sin_pos_of_pos_of_lt_pi <;> linarith [pi_pos]
  have hc : cos (cccP e d al be) = cccTmp e d al be := by
    rw [cccP, cos_two_pi_sub, cos_arccos h1.le h2.le]
  have h3 : cos (cccP e d al be) = 1 - 2 * sin (cccP e d al be / 2) ^ 2 := by
    have := cos_two_mul (cccP e d al be / 2)
    have e2 : 2 * (cccP e d al be / 2) = cccP e d al be := by ring
    rw [e2] at this
    have := sin_sq_add_cos_sq (cccP e d al be / 2)
    linarith
  rw [eq_comm, sqrt_eq_iff_mul_self_eq (by positivity) (by positivity)]
  rw [hc, cccTmp] at h3
  linarith

theorem ccc_heading {e d al be : ℝ} (he : e = 1 ∨ e = -1) :
    AngleEq (al + e * cccT e d al be - e * cccP e d al be / 2) (cccTh e d al be) ∧
    AngleEq (al + e * cccT e d al be - e * cccP e d al be + e * cccQ e d al be) be := by
  have hee : e * e = 1 := by rcases he with rfl | rfl <;> norm_num
  constructor
  · have h := sign_mul_twopify he (cccTh e d al be - al + e * (0.5 * cccP e d al be))
    have e1 : e * (cccTh e d al be - al + e * (0.5 * cccP e d al be))
        = e * (cccTh e d al be - al) + 0.5 * cccP e d al be := by
      linear_combination (0.5 * cccP e d al be) * hee
    rw [e1] at h
    have h' := h.add_right (al - e * cccP e d al be / 2)
    refine (AngleEq.of_eq ?_).trans (h'.trans (AngleEq.of_eq ?_))
    · unfold cccT; ring
    · ring
  · have h := sign_mul_twopify he (be - al - e * cccT e d al be + e * cccP e d al be)
    have e1 : e * (be - al - e * cccT e d al be + e * cccP e d al be)
        = e * (be - al) - cccT e d al be + cccP e d al be := by
      linear_combination (- cccT e d al be + cccP e d al be) * hee
    rw [e1] at h
    have h' := h.add_right (al + e * cccT e d al be - e * cccP e d al be)
    refine (AngleEq.of_eq ?_).trans (h'.trans (AngleEq.of_eq ?_))
    · unfold cccQ; ring
    · ring

/-- The CCC words solve their equations. -/
theorem ccc_solves {e d al be : ℝ} (he : e = 1 ∨ e = -1) (h : |cccTmp e d al be| < 1) :
    2 * e * (sin (al + e * cccT e d al be)
      - sin (al + e * cccT e d al be - e * cccP e d al be)) = cscU e e d al be ∧
    2 * e * (cos (al + e * cccT e d al be - e * cccP e d al be)
      - cos (al + e * cccT e d al be)) = cscV e e al be := by
  obtain ⟨a, b⟩ := ccc_sub e (al + e * cccT e d al be) (cccP e d al be) he
  have c := (ccc_heading (d := d) (al := al) (be := be) he).1
  rw [a, b, c.cos_eq, c.sin_eq, ccc_sin h]
  exact ⟨sqrt_mul_cos_atan2 _ _, sqrt_mul_sin_atan2 _ _⟩

/-- Sign of a turn. -/
def SegT.sign : SegT → ℝ
  | .left => 1
  | .straight => 0
  | .right => -1

/-- `a` leads from heading `al` at the origin to within `eps` of the point `(d, 0)`, with a
heading within `eta` of `be` (unit curvature). -/
def DPath.Hits (a : DPath) (eps eta d al be : ℝ) : Prop :=
  ∀ (kappa : ℝ) (c : Config) (th : ℝ), 0 < kappa → AngleEq al (c.theta - th) →
    let r := arriveAll [⟨a.t / kappa, a.type.1.sign * kappa, 0⟩,
      ⟨a.p / kappa, a.type.2.1.sign * kappa, 0⟩, ⟨a.q / kappa, a.type.2.2.sign * kappa, 0⟩] c
    ∃ rx ry h, rx ^ 2 + ry ^ 2 ≤ eps ^ 2 ∧ |h - be| ≤ eta ∧ AngleEq (r.theta - th) h ∧
      r.x - (c.x + d / kappa * cos th) = 1 / kappa * (cos th * rx - sin th * ry) ∧
      r.y - (c.y + d / kappa * sin th) = 1 / kappa * (sin th * rx + cos th * ry)

theorem csc_hits {ty : SegT × SegT × SegT} {e1 e3 d al be eps : ℝ} (h1 : e1 = 1 ∨ e1 = -1)
    (h3 : e3 = 1 ∨ e3 = -1) (hty1 : ty.1.sign = e1) (hty2 : ty.2.1.sign = 0)
    (hty3 : ty.2.2.sign = e3)
    (h : (0 ≤ cscTmp e1 e3 d al be) ∨ (DUBINS_ZERO ≤ cscTmp e1 e3 d al be ∧ 1 / 10 ^ 9 ≤ eps)) :
    DPath.Hits ⟨ty, cscT e1 e3 d al be, cscP e1 e3 d al be, cscQ e1 e3 d al be⟩ eps 0 d al be := by
  intro kappa c th hk hal
  have := csc_end (t := cscT e1 e3 d al be) (p := cscP e1 e3 d al be) (q := cscQ e1 e3 d al be)
    (d := d) (be := be) hk h1 h3 (twopify_nonneg _) (sqrt_nonneg _) (twopify_nonneg _) hal
    (csc_heading2 h1 h3 d al be)
  simp only at this
  obtain ⟨a1, a2, a3⟩ := this
  simp only [hty1, hty2, hty3, zero_mul]
  refine ⟨_, _, be, ?_, by simp, a3, a1, a2⟩
  have hle : ∀ rx ry : ℝ, rx = cscP e1 e3 d al be * cos (al + e1 * cscT e1 e3 d al be)
      + (e1 - e3) * sin (al + e1 * cscT e1 e3 d al be) - cscU e1 e3 d al be →
      ry = cscP e1 e3 d al be * sin (al + e1 * cscT e1 e3 d al be)
      - (e1 - e3) * cos (al + e1 * cscT e1 e3 d al be) - cscV e1 e3 al be →
      rx ^ 2 + ry ^ 2 ≤ eps ^ 2 := by
    rintro rx ry rfl rfl
    rcases h with h | ⟨h, he⟩
    · obtain ⟨a, b⟩ := csc_solves h1 h
      rw [a, b]; simp; positivity
    · exact (csc_almost h1 h3 h).trans (pow_le_pow_left₀ (by norm_num) he 2)
  exact hle _ _ rfl rfl

theorem ccc_hits {ty : SegT × SegT × SegT} {e d al be eps : ℝ} (he : e = 1 ∨ e = -1)
    (hty1 : ty.1.sign = e) (hty2 : ty.2.1.sign = -e) (hty3 : ty.2.2.sign = e)
    (h : |cccTmp e d al be| < 1) :
    DPath.Hits ⟨ty, cccT e d al be, cccP e d al be, cccQ e d al be⟩ eps 0 d al be := by
  intro kappa c th hk hal
  have hp : 0 ≤ cccP e d al be := le_trans pi_pos.le (cccP_range h).1.le
  have := ccc_end (t := cccT e d al be) (p := cccP e d al be) (q := cccQ e d al be)
    (d := d) (be := be) hk he (twopify_nonneg _) hp (twopify_nonneg _) hal (ccc_heading he).2
  simp only at this
  obtain ⟨a1, a2, a3⟩ := this
  simp only [hty1, hty2, hty3]
  refine ⟨_, _, be, ?_, by simp, a3, a1, a2⟩
  obtain ⟨a, b⟩ := ccc_solves he h
  have hle : ∀ rx ry : ℝ, rx = 2 * e * (sin (al + e * cccT e d al be)
      - sin (al + e * cccT e d al be - e * cccP e d al be)) - cscU e e d al be →
      ry = 2 * e * (cos (al + e * cccT e d al be - e * cccP e d al be)
      - cos (al + e * cccT e d al be)) - cscV e e al be →
      rx ^ 2 + ry ^ 2 ≤ eps ^ 2 := by
    rintro rx ry rfl rfl
    rw [a, b]; simp; positivity
  exact hle _ _ rfl rfl

end SF
