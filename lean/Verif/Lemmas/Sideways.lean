import Verif.Lemmas.Dubins
import Verif.Spec.Turn

/-!
# How far a car gets sideways
-/

noncomputable section

namespace Spec

open Real intervalIntegral

/-- Displacement from `p` to `q` to the left of the direction `theta0`. -/
def leftOf (theta0 : ℝ) (p q : Config) : ℝ := (q.y - p.y) * cos theta0 - (q.x - p.x) * sin theta0

theorem leftOf_add (theta0 : ℝ) (p q r : Config) : leftOf theta0 p r = leftOf theta0 p q + leftOf theta0 q r := by
  unfold leftOf; ring

theorem leftOf_le (theta0 : ℝ) (p q : Config) : |leftOf theta0 p q| ≤ √((q.x - p.x) ^ 2 + (q.y - p.y) ^ 2) := by
  apply abs_le_sqrt
  unfold leftOf
  nlinarith [sin_sq_add_cos_sq theta0, sq_nonneg ((q.x - p.x) * cos theta0 + (q.y - p.y) * sin theta0)]

theorem abs_integral_le {f g : ℝ → ℝ} {a b : ℝ} (hab : a ≤ b) (hf : Continuous f) (hg : Continuous g)
    (h : ∀ s, a ≤ s → s ≤ b → |f s| ≤ g s) : |∫ s in a..b, f s| ≤ ∫ s in a..b, g s := by
  refine (abs_integral_le_integral_abs hab).trans ?_
  exact integral_mono_on hab (hf.abs.intervalIntegrable _ _) (hg.intervalIntegrable _ _) fun s hs => h s hs.1 hs.2

/-- One segment: the heading differs from `theta0` by at most the difference at either end and `K` times the way from there. -/
theorem leftOf_arrive {d k sigma L K theta0 l : ℝ} (hd : |d| = 1) (h0 : 0 ≤ l) (hl : l ≤ L)
    (hc : ∀ t, 0 ≤ t → t ≤ L → |k + sigma * t| ≤ K) (p : Config) :
    |leftOf theta0 p (arrive d k sigma L p)| ≤ |p.theta - theta0| * l + K * l ^ 2 / 2 +
      (|(arrive d k sigma L p).theta - theta0| * (L - l) + K * (L - l) ^ 2 / 2) := by
  have hcont := heading_continuous d k sigma p.theta
  have e : leftOf theta0 p (arrive d k sigma L p) = ∫ s in (0:ℝ)..L, d * sin (heading d k sigma p.theta s - theta0) := by
    simp only [leftOf, arrive, add_sub_cancel_left]
    rw [← integral_mul_const, ← integral_mul_const, ← integral_sub]
    · congr 1
      funext s
      rw [sin_sub]; ring
    · exact Continuous.intervalIntegrable (by fun_prop) _ _
    · exact Continuous.intervalIntegrable (by fun_prop) _ _
  have hcf : Continuous fun s => d * sin (heading d k sigma p.theta s - theta0) := by fun_prop
  rw [e, ← integral_add_adjacent_intervals (b := l) (hcf.intervalIntegrable _ _) (hcf.intervalIntegrable _ _)]
  refine (abs_add_le _ _).trans (add_le_add ?_ ?_)
  · refine (abs_integral_le h0 hcf (g := fun s => |p.theta - theta0| + K * s) (by fun_prop) ?_).trans_eq ?_
    · intro s s0 s1
      rw [abs_mul, hd, one_mul]
      refine abs_sin_le_abs.trans ?_
      have h1 := hc (s / 2) (by linarith) (by linarith)
      have h2 : heading d k sigma p.theta s - theta0 = (p.theta - theta0) + d * ((k + sigma * (s / 2)) * s) := by unfold heading; ring
      rw [h2]
      refine (abs_add_le _ _).trans ?_
      rw [abs_mul, hd, one_mul, abs_mul, abs_of_nonneg s0]
      have := mul_le_mul_of_nonneg_right h1 s0
      linarith
    · rw [integral_add (by simp) (Continuous.intervalIntegrable (by fun_prop) _ _), integral_const_mul, integral_id, integral_const]
      simp only [smul_eq_mul]; ring
  · refine (abs_integral_le hl hcf (g := fun s => |(arrive d k sigma L p).theta - theta0| + K * (L - s)) (by fun_prop) ?_).trans_eq ?_
    · intro s s0 s1
      rw [abs_mul, hd, one_mul]
      refine abs_sin_le_abs.trans ?_
      have h1 := hc ((L + s) / 2) (by linarith) (by linarith)
      have h2 : heading d k sigma p.theta s - theta0 =
          ((arrive d k sigma L p).theta - theta0) + -(d * ((k + sigma * ((L + s) / 2)) * (L - s))) := by
        simp only [arrive, heading]; ring
      rw [h2]
      refine (abs_add_le _ _).trans ?_
      rw [abs_neg, abs_mul, hd, one_mul, abs_mul, abs_of_nonneg (sub_nonneg.2 s1)]
      have := mul_le_mul_of_nonneg_right h1 (sub_nonneg.2 s1)
      linarith
    · have : ∀ s, |(arrive d k sigma L p).theta - theta0| + K * (L - s) = (|(arrive d k sigma L p).theta - theta0| + K * L) + (-K) * s := by
        intro s; ring
      simp only [this]
      rw [integral_add (by simp) (Continuous.intervalIntegrable (by fun_prop) _ _), integral_const_mul, integral_id, integral_const]
      simp only [smul_eq_mul]; ring

/-- Along a path of curvature at most `K` the heading changes by at most `K` times the length. -/
theorem heading_change {K : ℝ} {cs : List Segment} {p q : Config} (h : DrivesAll cs p q) (hc : CurvatureAtMost K cs) :
    |q.theta - p.theta| ≤ K * totalLength cs := by
  induction h with
  | nil p => simp [totalLength]
  | @cons c cs p q r h1 _ ih =>
    have ih' := ih fun c' hc' => hc c' (List.mem_cons_of_mem _ hc')
    rw [drives_iff] at h1
    have hd : |c.dir| = 1 := by unfold Segment.dir; split_ifs <;> norm_num
    have h2 : |q.theta - p.theta| ≤ K * |c.len| := by
      have h3 := hc c List.mem_cons_self (|c.len| / 2) (by positivity) (by linarith [abs_nonneg c.len])
      rw [h1]
      simp only [arrive, heading]
      rw [add_sub_cancel_left, abs_mul, hd, one_mul,
        show c.kappa * |c.len| + c.sigma * |c.len| ^ 2 / 2 = (c.kappa + c.sigma * (|c.len| / 2)) * |c.len| by ring, abs_mul, abs_abs]
      exact mul_le_mul_of_nonneg_right h3 (abs_nonneg _)
    have h3 := abs_sub_le r.theta q.theta p.theta
    simp only [totalLength, List.map_cons, List.sum_cons] at ih' ⊢
    rw [mul_add]
    linarith

/-- The same for a list of segments, for every place `l` along the path. -/
theorem leftOf_drives {K theta0 : ℝ} {cs : List Segment} {p q : Config} (h : DrivesAll cs p q) (hc : CurvatureAtMost K cs) :
    ∀ l, 0 ≤ l → l ≤ totalLength cs → |leftOf theta0 p q| ≤ |p.theta - theta0| * l + K * l ^ 2 / 2 +
      (|q.theta - theta0| * (totalLength cs - l) + K * (totalLength cs - l) ^ 2 / 2) := by
  induction h with
  | nil p =>
    intro l h0 h1
    have : l = 0 := le_antisymm (by simpa [totalLength] using h1) h0
    simp [leftOf, totalLength, this]
  | @cons c cs p q r h1 h2 ih =>
    intro l l0 l1
    have hc' : CurvatureAtMost K cs := fun c' hc' => hc c' (List.mem_cons_of_mem _ hc')
    have hcc := hc c List.mem_cons_self
    have hd : |c.dir| = 1 := by unfold Segment.dir; split_ifs <;> norm_num
    have ha := abs_nonneg c.len
    have hT : 0 ≤ totalLength cs := by unfold totalLength; exact List.sum_nonneg (by simp)
    have e : totalLength (c :: cs) = |c.len| + totalLength cs := by simp [totalLength]
    have hs1 : DrivesAll [c] p q := .cons h1 (.nil _)
    have g1 := heading_change hs1 fun c' hc' => hc c' (by rw [List.mem_singleton.1 hc']; exact List.mem_cons_self)
    have g2 := heading_change h2 hc'
    have e1 : totalLength [c] = |c.len| := by simp [totalLength]
    rw [e1] at g1
    rw [e] at l1 ⊢
    rw [drives_iff] at h1
    have key : ∀ m, 0 ≤ m → m ≤ |c.len| → |leftOf theta0 p q| ≤ |p.theta - theta0| * m + K * m ^ 2 / 2 +
        (|q.theta - theta0| * (|c.len| - m) + K * (|c.len| - m) ^ 2 / 2) := by
      intro m m0 m1
      rw [h1]
      exact leftOf_arrive hd m0 m1 hcc p
    have hsum : |leftOf theta0 p r| ≤ |leftOf theta0 p q| + |leftOf theta0 q r| := by
      rw [leftOf_add theta0 p q r]; exact abs_add_le _ _
    have t1 : |q.theta - theta0| ≤ |p.theta - theta0| + K * |c.len| := by
      have := abs_sub_le q.theta p.theta theta0; linarith
    have t2 : |q.theta - theta0| ≤ |r.theta - theta0| + K * totalLength cs := by
      have := abs_sub_le q.theta r.theta theta0
      rw [abs_sub_comm q.theta r.theta] at this
      linarith
    rcases le_total l |c.len| with hle | hle
    · have k1 := key l l0 hle
      have k2 := ih hc' 0 le_rfl hT
      have := mul_le_mul_of_nonneg_right t2 (sub_nonneg.2 hle)
      nlinarith
    · have k1 := key |c.len| ha le_rfl
      have k2 := ih hc' (l - |c.len|) (sub_nonneg.2 hle) (by linarith)
      have := mul_le_mul_of_nonneg_right t1 (sub_nonneg.2 hle)
      have e3 : totalLength cs - (l - |c.len|) = |c.len| + totalLength cs - l := by ring
      rw [e3] at k2
      nlinarith

end Spec
