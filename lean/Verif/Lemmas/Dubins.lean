import Verif.Model.Dubins
import Verif.Lemmas.Drive
import Verif.Lemmas.Angle
import Verif.Spec.Dubins
import Verif.Spec.Bridge

/-!
# Geometry of the Dubins words
-/

noncomputable section

namespace Spec

open Real

/-- A path is at least as long as its chord. -/
theorem arrive_chord {d kappa sigma L : ℝ} (hd : d = 1 ∨ d = -1) (hL : 0 ≤ L) (p : Config) :
    √(((arrive d kappa sigma L p).x - p.x) ^ 2 + ((arrive d kappa sigma L p).y - p.y) ^ 2) ≤ L := by
  have hdd : d ^ 2 = 1 := by rcases hd with rfl | rfl <;> norm_num
  set X := (arrive d kappa sigma L p).x - p.x with hX
  set Y := (arrive d kappa sigma L p).y - p.y with hY
  have hx : X = ∫ s in (0:ℝ)..L, d * cos (heading d kappa sigma p.theta s) := by
    rw [hX]; simp [arrive]
  have hy : Y = ∫ s in (0:ℝ)..L, d * sin (heading d kappa sigma p.theta s) := by
    rw [hY]; simp [arrive]
  have hc : Continuous (heading d kappa sigma p.theta) := heading_continuous _ _ _ _
  have key : ∀ a b : ℝ, a ^ 2 + b ^ 2 = 1 → a * X + b * Y ≤ L := by
    intro a b hab
    have : a * X + b * Y = ∫ s in (0:ℝ)..L, (a * (d * cos (heading d kappa sigma p.theta s))
        + b * (d * sin (heading d kappa sigma p.theta s))) := by
      have i1 : IntervalIntegrable (fun s => a * (d * cos (heading d kappa sigma p.theta s)))
          MeasureTheory.volume 0 L :=
        (by fun_prop : Continuous fun s => a * (d * cos (heading d kappa sigma p.theta s))
          ).intervalIntegrable _ _
      have i2 : IntervalIntegrable (fun s => b * (d * sin (heading d kappa sigma p.theta s)))
          MeasureTheory.volume 0 L :=
        (by fun_prop : Continuous fun s => b * (d * sin (heading d kappa sigma p.theta s))
          ).intervalIntegrable _ _
      rw [intervalIntegral.integral_add i1 i2]
      rw [intervalIntegral.integral_const_mul a, intervalIntegral.integral_const_mul b, ← hx, ← hy]
    rw [this]
    have h1 : ∀ s ∈ Set.Icc (0:ℝ) L, (a * (d * cos (heading d kappa sigma p.theta s))
        + b * (d * sin (heading d kappa sigma p.theta s))) ≤ 1 := by
      intro s _
      set h := heading d kappa sigma p.theta s
      have h2 := sin_sq_add_cos_sq h
      have h3 : (a * (d * cos h) + b * (d * sin h)) ^ 2 ≤ 1 := by
        have h4 : (a * (d * cos h) + b * (d * sin h)) ^ 2 + (a * sin h - b * cos h) ^ 2 = 1 := by
          have : (a * (d * cos h) + b * (d * sin h)) ^ 2 = d ^ 2 * (a * cos h + b * sin h) ^ 2 := by
            ring
          rw [this, hdd]
          have : 1 * (a * cos h + b * sin h) ^ 2 + (a * sin h - b * cos h) ^ 2
            = (a ^ 2 + b ^ 2) * (sin h ^ 2 + cos h ^ 2) := by ring
          rw [this, hab, h2]; ring
        nlinarith [sq_nonneg (a * sin h - b * cos h)]
      nlinarith [sq_nonneg (a * (d * cos h) + b * (d * sin h) - 1)]
    calc _ ≤ ∫ s in (0:ℝ)..L, (1:ℝ) := by
            apply intervalIntegral.integral_mono_on hL
            · exact (by fun_prop : Continuous fun s =>
                a * (d * cos (heading d kappa sigma p.theta s))
                + b * (d * sin (heading d kappa sigma p.theta s))).intervalIntegrable _ _
            · simp
            · exact h1
      _ = L := by simp
  by_cases h0 : X ^ 2 + Y ^ 2 = 0
  · rw [h0, sqrt_zero]; exact hL
  · have hpos : 0 < X ^ 2 + Y ^ 2 := lt_of_le_of_ne (by positivity) (Ne.symm h0)
    set r := √(X ^ 2 + Y ^ 2) with hr
    have hrp : 0 < r := sqrt_pos.2 hpos
    have hrr : r ^ 2 = X ^ 2 + Y ^ 2 := sq_sqrt hpos.le
    have := key (X / r) (Y / r) (by field_simp; linarith)
    have e : X / r * X + Y / r * Y = r := by field_simp; linarith
    linarith

theorem dir_eq (c : Segment) : c.dir = 1 ∨ c.dir = -1 := by
  unfold Segment.dir; split_ifs <;> simp

theorem dist_triangle (a b c d e f : ℝ) :
    √((a - e) ^ 2 + (b - f) ^ 2) ≤ √((a - c) ^ 2 + (b - d) ^ 2) + √((c - e) ^ 2 + (d - f) ^ 2) := by
  set r := √((a - c) ^ 2 + (b - d) ^ 2) with hr
  set s := √((c - e) ^ 2 + (d - f) ^ 2) with hs
  have h1 : r ^ 2 = (a - c) ^ 2 + (b - d) ^ 2 := sq_sqrt (by positivity)
  have h2 : s ^ 2 = (c - e) ^ 2 + (d - f) ^ 2 := sq_sqrt (by positivity)
  have hr0 : 0 ≤ r := sqrt_nonneg _
  have hs0 : 0 ≤ s := sqrt_nonneg _
  apply sqrt_le_iff.2 ⟨by positivity, ?_⟩
  have h3 : (a - c) * (c - e) + (b - d) * (d - f) ≤ r * s := by
    apply abs_le_of_sq_le_sq' _ (by positivity) |>.2
    rw [mul_pow, h1, h2]
    nlinarith [sq_nonneg ((a - c) * (d - f) - (b - d) * (c - e))]
  nlinarith

/-- A list of segments is at least as long as its chord. -/
theorem arriveAll_chord (cs : List Segment) (p : Config) :
    √(((arriveAll cs p).x - p.x) ^ 2 + ((arriveAll cs p).y - p.y) ^ 2) ≤ totalLength cs := by
  induction cs generalizing p with
  | nil => simp [arriveAll, totalLength]
  | cons c cs ih =>
    set q := arrive c.dir c.kappa c.sigma |c.len| p with hq
    have h1 := arrive_chord (kappa := c.kappa) (sigma := c.sigma) (dir_eq c) (abs_nonneg c.len) p
    have h2 := ih q
    have h3 := dist_triangle (arriveAll cs q).x (arriveAll cs q).y q.x q.y p.x p.y
    have e : totalLength (c :: cs) = |c.len| + totalLength cs := by simp [totalLength]
    rw [e]
    have e2 : arriveAll (c :: cs) p = arriveAll cs q := rfl
    rw [e2]
    linarith

theorem DrivesAll.chord {cs : List Segment} {p q : Config} (h : DrivesAll cs p q) :
    √((q.x - p.x) ^ 2 + (q.y - p.y) ^ 2) ≤ totalLength cs := by
  rw [drivesAll_iff] at h; rw [h]; exact arriveAll_chord cs p

/-- Turning by `e * l` on a circle of curvature `e * kappa`. -/
theorem arrive_turn {kappa e l : ℝ} (hk : 0 < kappa) (he : e = 1 ∨ e = -1) (p : Config) :
    arrive 1 (e * kappa) 0 (l / kappa) p =
      ⟨p.x + 1 / kappa * (e * (sin (p.theta + e * l) - sin p.theta)),
       p.y + 1 / kappa * (e * (cos p.theta - cos (p.theta + e * l))), p.theta + e * l⟩ := by
  have hne : e * kappa ≠ 0 := by rcases he with rfl | rfl <;> simp [hk.ne']
  have e1 : 1 * (l / kappa) * (e * kappa) = e * l := by field_simp
  have e2 : e * kappa * 1 * (l / kappa) = e * l := by field_simp
  rw [arrive_arc hne, e1, e2]
  ext
  · rcases he with rfl | rfl <;> field_simp <;> ring
  · rcases he with rfl | rfl <;> field_simp
  · rfl

theorem arrive_straight {kappa l : ℝ} (hk : 0 < kappa) (p : Config) :
    arrive 1 0 0 (l / kappa) p =
      ⟨p.x + 1 / kappa * (l * cos p.theta), p.y + 1 / kappa * (l * sin p.theta), p.theta⟩ := by
  rw [arrive_line]
  ext <;> field_simp

theorem dir_of_nonneg {l k s : ℝ} (h : 0 ≤ l) : (⟨l, k, s⟩ : Segment).dir = 1 := by
  simp [Segment.dir, not_lt.2 h]

/-- End of a turn-straight-turn path relative to a goal at distance `d / kappa` in
direction `th`: the residuals of the two Dubins equations, rotated into the world frame. -/
theorem csc_end {kappa e1 e3 t p q d th al be : ℝ} {c : Config} (hk : 0 < kappa)
    (h1 : e1 = 1 ∨ e1 = -1) (h3 : e3 = 1 ∨ e3 = -1) (ht : 0 ≤ t) (hp : 0 ≤ p) (hq : 0 ≤ q)
    (hal : AngleEq al (c.theta - th)) (hbe : AngleEq (al + e1 * t + e3 * q) be) :
    let r := arriveAll [⟨t / kappa, e1 * kappa, 0⟩, ⟨p / kappa, 0, 0⟩, ⟨q / kappa, e3 * kappa, 0⟩] c
    let rx := p * cos (al + e1 * t) + (e1 - e3) * sin (al + e1 * t)
      - (d + e1 * sin al - e3 * sin be)
    let ry := p * sin (al + e1 * t) - (e1 - e3) * cos (al + e1 * t)
      - (e3 * cos be - e1 * cos al)
    r.x - (c.x + d / kappa * cos th) = 1 / kappa * (cos th * rx - sin th * ry) ∧
    r.y - (c.y + d / kappa * sin th) = 1 / kappa * (sin th * rx + cos th * ry) ∧
    AngleEq (r.theta - th) be := by
  have n1 : 0 ≤ t / kappa := by positivity
  have n2 : 0 ≤ p / kappa := by positivity
  have n3 : 0 ≤ q / kappa := by positivity
  have hr : arriveAll [⟨t / kappa, e1 * kappa, 0⟩, ⟨p / kappa, 0, 0⟩, ⟨q / kappa, e3 * kappa, 0⟩] c
      = arrive 1 (e3 * kappa) 0 (q / kappa) (arrive 1 0 0 (p / kappa)
        (arrive 1 (e1 * kappa) 0 (t / kappa) c)) := by
    simp only [arriveAll, dir_of_nonneg n1, dir_of_nonneg n2, dir_of_nonneg n3, abs_of_nonneg n1,
      abs_of_nonneg n2, abs_of_nonneg n3]
  intro r rx ry
  have hr' : r = _ := hr
  rw [arrive_turn hk h1, arrive_straight hk, arrive_turn hk h3] at hr'
  have a1 : AngleEq (c.theta + e1 * t) (th + (al + e1 * t)) := by
    have := (hal.symm.add_right (th + e1 * t))
    have e : c.theta - th + (th + e1 * t) = c.theta + e1 * t := by ring
    have e' : al + (th + e1 * t) = th + (al + e1 * t) := by ring
    rwa [e, e'] at this
  have a0 : AngleEq c.theta (th + al) := by
    have := (hal.symm.add_right th)
    have e : c.theta - th + th = c.theta := by ring
    rw [e, add_comm al th] at this; exact this
  have a3 : AngleEq (c.theta + e1 * t + e3 * q) (th + be) := by
    have := (a1.add_right (e3 * q)).trans
      (AngleEq.of_eq (by ring : th + (al + e1 * t) + e3 * q = (al + e1 * t + e3 * q) + th))
    refine this.trans ?_
    rw [add_comm th be]; exact hbe.add_right th
  refine ⟨?_, ?_, ?_⟩
  · rw [hr']
    simp only [a0.sin_eq, a1.sin_eq, a1.cos_eq, a3.sin_eq, rx, ry]
    rw [sin_add th al, sin_add th be, sin_add th (al + e1 * t), cos_add th (al + e1 * t)]
    ring
  · rw [hr']
    simp only [a0.cos_eq, a1.sin_eq, a1.cos_eq, a3.cos_eq, rx, ry]
    rw [cos_add th al, cos_add th be, sin_add th (al + e1 * t), cos_add th (al + e1 * t)]
    ring
  · rw [hr']
    have := a3.add_right (-th)
    have e : th + be + -th = be := by ring
    rw [e] at this
    exact this

/-- End of a turn-turn-turn path relative to a goal at distance `d / kappa` in direction `th`. -/
theorem ccc_end {kappa e t p q d th al be : ℝ} {c : Config} (hk : 0 < kappa)
    (he : e = 1 ∨ e = -1) (ht : 0 ≤ t) (hp : 0 ≤ p) (hq : 0 ≤ q)
    (hal : AngleEq al (c.theta - th)) (hbe : AngleEq (al + e * t - e * p + e * q) be) :
    let r := arriveAll [⟨t / kappa, e * kappa, 0⟩, ⟨p / kappa, -e * kappa, 0⟩,
      ⟨q / kappa, e * kappa, 0⟩] c
    let rx := 2 * e * (sin (al + e * t) - sin (al + e * t - e * p)) - (d + e * sin al - e * sin be)
    let ry := 2 * e * (cos (al + e * t - e * p) - cos (al + e * t)) - (e * cos be - e * cos al)
    r.x - (c.x + d / kappa * cos th) = 1 / kappa * (cos th * rx - sin th * ry) ∧
    r.y - (c.y + d / kappa * sin th) = 1 / kappa * (sin th * rx + cos th * ry) ∧
    AngleEq (r.theta - th) be := by
  have n1 : 0 ≤ t / kappa := by positivity
  have n2 : 0 ≤ p / kappa := by positivity
  have n3 : 0 ≤ q / kappa := by positivity
  have he' : -e = 1 ∨ -e = -1 := by rcases he with rfl | rfl <;> simp
  have hr : arriveAll [⟨t / kappa, e * kappa, 0⟩, ⟨p / kappa, -e * kappa, 0⟩,
        ⟨q / kappa, e * kappa, 0⟩] c
      = arrive 1 (e * kappa) 0 (q / kappa) (arrive 1 (-e * kappa) 0 (p / kappa)
        (arrive 1 (e * kappa) 0 (t / kappa) c)) := by
    simp only [arriveAll, dir_of_nonneg n1, dir_of_nonneg n2, dir_of_nonneg n3, abs_of_nonneg n1,
      abs_of_nonneg n2, abs_of_nonneg n3]
  intro r rx ry
  have hr' : r = _ := hr
  rw [arrive_turn hk he, arrive_turn hk he', arrive_turn hk he] at hr'
  have a0 : AngleEq c.theta (th + al) := by
    have := (hal.symm.add_right th)
    have e : c.theta - th + th = c.theta := by ring
    rw [e, add_comm al th] at this; exact this
  have a1 : AngleEq (c.theta + e * t) (th + (al + e * t)) :=
    (a0.add_right (e * t)).trans (AngleEq.of_eq (by ring))
  have a2 : AngleEq (c.theta + e * t + -e * p) (th + (al + e * t - e * p)) :=
    (a1.add_right (-e * p)).trans (AngleEq.of_eq (by ring))
  have a3 : AngleEq (c.theta + e * t + -e * p + e * q) (th + be) := by
    have := (a2.add_right (e * q)).trans
      (AngleEq.of_eq (by ring : th + (al + e * t - e * p) + e * q
        = (al + e * t - e * p + e * q) + th))
    refine this.trans ?_
    rw [add_comm th be]; exact hbe.add_right th
  refine ⟨?_, ?_, ?_⟩
  · rw [hr']
    simp only [a0.sin_eq, a1.sin_eq, a2.sin_eq, a3.sin_eq, rx, ry]
    rw [sin_add th al, sin_add th be, sin_add th (al + e * t), sin_add th (al + e * t - e * p)]
    ring
  · rw [hr']
    simp only [a0.cos_eq, a1.cos_eq, a2.cos_eq, a3.cos_eq, rx, ry]
    rw [cos_add th al, cos_add th be, cos_add th (al + e * t), cos_add th (al + e * t - e * p)]
    ring
  · rw [hr']
    have := a3.add_right (-th)
    have e : th + be + -th = be := by ring
    rw [e] at this
    exact this

end Spec

namespace SF

open Real Spec

/-- The angle chosen by the CSC words: `(p - i m) e^{i theta}` points in direction `(u, v)`. -/
theorem csc_angle (u v p m : ℝ) :
    let theta := atan2 v u - atan2 (-m) p
    let r := √(p ^ 2 + m ^ 2)
    p * cos theta + m * sin theta = r * cos (atan2 v u) ∧
    p * sin theta - m * cos theta = r * sin (atan2 v u) := by
  intro theta r
  have h1 : r * cos (atan2 (-m) p) = p := by
    have := sqrt_mul_cos_atan2 (-m) p
    rwa [neg_sq] at this
  have h2 : r * sin (atan2 (-m) p) = -m := by
    have := sqrt_mul_sin_atan2 (-m) p
    rwa [neg_sq] at this
  set A := atan2 v u
  set B := atan2 (-m) p
  have hm : m = -(r * sin B) := by linarith
  have hs := sin_sq_add_cos_sq B
  constructor
  · rw [← h1, hm]
    simp only [theta, cos_sub, sin_sub]
    linear_combination (r * cos A) * hs
  · rw [← h1, hm]
    simp only [theta, cos_sub, sin_sub]
    linear_combination (r * sin A) * hs

theorem csc_exact {u v p m : ℝ} (h : p ^ 2 + m ^ 2 = u ^ 2 + v ^ 2) :
    let theta := atan2 v u - atan2 (-m) p
    p * cos theta + m * sin theta = u ∧ p * sin theta - m * cos theta = v := by
  intro theta
  obtain ⟨h1, h2⟩ := csc_angle u v p m
  rw [h] at h1 h2
  exact ⟨h1.trans (sqrt_mul_cos_atan2 v u), h2.trans (sqrt_mul_sin_atan2 v u)⟩

/-- The angle solving the CSC equations is unique modulo full turns. -/
theorem csc_unique {u v p m phi psi : ℝ} (hpos : 0 < p ^ 2 + m ^ 2)
    (h1 : p * cos phi + m * sin phi = u) (h2 : p * sin phi - m * cos phi = v)
    (h3 : p * cos psi + m * sin psi = u) (h4 : p * sin psi - m * cos psi = v) :
    AngleEq phi psi := by
  apply AngleEq.of_cos_sin
  · have e1 : (p ^ 2 + m ^ 2) * cos phi = p * u - m * v := by
      rw [← h1, ← h2]; ring
    have e2 : (p ^ 2 + m ^ 2) * cos psi = p * u - m * v := by
      rw [← h3, ← h4]; ring
    exact mul_left_cancel₀ hpos.ne' (e1.trans e2.symm)
  · have e1 : (p ^ 2 + m ^ 2) * sin phi = p * v + m * u := by
      rw [← h1, ← h2]; ring
    have e2 : (p ^ 2 + m ^ 2) * sin psi = p * v + m * u := by
      rw [← h3, ← h4]; ring
    exact mul_left_cancel₀ hpos.ne' (e1.trans e2.symm)

/-- Residual of the CSC equations when `p² + m²` is not exactly `u² + v²`. -/
theorem csc_residual (u v p m : ℝ) :
    let theta := atan2 v u - atan2 (-m) p
    let rx := p * cos theta + m * sin theta - u
    let ry := p * sin theta - m * cos theta - v
    rx ^ 2 + ry ^ 2 = (√(p ^ 2 + m ^ 2) - √(u ^ 2 + v ^ 2)) ^ 2 := by
  intro theta rx ry
  obtain ⟨h1, h2⟩ := csc_angle u v p m
  have h3 := sqrt_mul_cos_atan2 v u
  have h4 := sqrt_mul_sin_atan2 v u
  have hs := sin_sq_add_cos_sq (atan2 v u)
  have e1 : rx = (√(p ^ 2 + m ^ 2) - √(u ^ 2 + v ^ 2)) * cos (atan2 v u) := by
    simp only [rx, theta]; rw [h1, sub_mul, h3]
  have e2 : ry = (√(p ^ 2 + m ^ 2) - √(u ^ 2 + v ^ 2)) * sin (atan2 v u) := by
    simp only [ry, theta]; rw [h2, sub_mul, h4]
  rw [e1, e2]
  linear_combination (√(p ^ 2 + m ^ 2) - √(u ^ 2 + v ^ 2)) ^ 2 * hs

/-- Sum-to-product for the CCC words. -/
theorem ccc_sub (e a p : ℝ) (he : e = 1 ∨ e = -1) :
    2 * e * (sin a - sin (a - e * p)) = 4 * sin (p / 2) * cos (a - e * p / 2) ∧
    2 * e * (cos (a - e * p) - cos a) = 4 * sin (p / 2) * sin (a - e * p / 2) := by
  have e1 : a = (a - e * p / 2) + e * (p / 2) := by ring
  have e2 : a - e * p = (a - e * p / 2) - e * (p / 2) := by ring
  have hs : sin (e * (p / 2)) = e * sin (p / 2) := by
    rcases he with rfl | rfl <;> simp
  have hc : cos (e * (p / 2)) = cos (p / 2) := by
    rcases he with rfl | rfl <;> simp
  have hee : e * e = 1 := by rcases he with rfl | rfl <;> norm_num
  generalize a - e * p / 2 = b at e1 e2
  rw [e2, e1]
  constructor
  · rw [sin_add, sin_sub, hs, hc]
    linear_combination (4 * cos b * sin (p / 2)) * hee
  · rw [cos_add, cos_sub, hs, hc]
    linear_combination (4 * sin b * sin (p / 2)) * hee

end SF
