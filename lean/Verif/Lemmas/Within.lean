import Verif.Lemmas.Frame
import Mathlib.Analysis.Calculus.MeanValue

/-!
# Propagation of position and heading errors along a path
-/

noncomputable section

namespace Spec

open Real

theorem norm_cis_sub (a b : ℝ) : ‖cis a - cis b‖ ≤ |a - b| := by
  have h : ∀ t, HasDerivAt cis (Complex.I * cis t) t := by
    intro t
    have h1 := (hasDerivAt_cos t).ofReal_comp
    have h2 := ((hasDerivAt_sin t).ofReal_comp).mul_const Complex.I
    have e : cis = fun t => ((cos t : ℝ) : ℂ) + ((sin t : ℝ) : ℂ) * Complex.I := by
      funext t; apply Complex.ext <;> simp [cis, -Complex.ofReal_cos, -Complex.ofReal_sin]
    rw [e]
    refine (h1.add h2).congr_deriv ?_
    apply Complex.ext <;> simp [-Complex.ofReal_cos, -Complex.ofReal_sin]
  have := Convex.norm_image_sub_le_of_norm_hasDerivWithin_le (f := cis)
    (f' := fun t => Complex.I * cis t) (C := 1) (s := Set.univ) (x := b) (y := a)
    (fun t _ => (h t).hasDerivWithinAt) (fun t _ => by simp [norm_cis]) convex_univ trivial trivial
  simpa using this

/-- Displacement of a segment in the frame of its start. -/
def disp (d kappa sigma L : ℝ) : ℂ := (arrive d kappa sigma L ⟨0, 0, 0⟩).pos

theorem arrive_pos (d kappa sigma L : ℝ) (p : Config) :
    (arrive d kappa sigma L p).pos = p.pos + cis p.theta * disp d kappa sigma L := by
  have hc : Continuous fun s => heading d kappa sigma 0 s := heading_continuous _ _ _ _
  have i1 : IntervalIntegrable (fun s => d * cos (heading d kappa sigma 0 s)) MeasureTheory.volume 0 L :=
    (continuous_const.mul (continuous_cos.comp hc)).intervalIntegrable _ _
  have i2 : IntervalIntegrable (fun s => d * sin (heading d kappa sigma 0 s)) MeasureTheory.volume 0 L :=
    (continuous_const.mul (continuous_sin.comp hc)).intervalIntegrable _ _
  have hh : ∀ s, heading d kappa sigma p.theta s = p.theta + heading d kappa sigma 0 s := by
    intro s; unfold heading; ring
  unfold disp Config.pos cis
  apply Complex.ext
  · simp only [arrive, Complex.add_re, Complex.mul_re, zero_add]
    have : (fun s => d * cos (heading d kappa sigma p.theta s))
        = fun s => cos p.theta * (d * cos (heading d kappa sigma 0 s))
          - sin p.theta * (d * sin (heading d kappa sigma 0 s)) := by
      funext s; rw [hh, cos_add]; ring
    rw [this, intervalIntegral.integral_sub (i1.const_mul _) (i2.const_mul _),
      intervalIntegral.integral_const_mul (cos p.theta), intervalIntegral.integral_const_mul (sin p.theta)]
  · simp only [arrive, Complex.add_im, Complex.mul_im, zero_add]
    have : (fun s => d * sin (heading d kappa sigma p.theta s))
        = fun s => sin p.theta * (d * cos (heading d kappa sigma 0 s))
          + cos p.theta * (d * sin (heading d kappa sigma 0 s)) := by
      funext s; rw [hh, sin_add]; ring
    rw [this, intervalIntegral.integral_add (i1.const_mul _) (i2.const_mul _),
      intervalIntegral.integral_const_mul (sin p.theta), intervalIntegral.integral_const_mul (cos p.theta)]
    ring

theorem norm_disp_le {d : ℝ} (hd : d = 1 ∨ d = -1) (kappa sigma L : ℝ) (hL : 0 ≤ L) :
    ‖disp d kappa sigma L‖ ≤ L := by
  obtain ⟨X, Y, T, hX, hY, hT, hX0, hY0, hT0, hX1, hY1, hT1⟩ :=
    drives_arrive d kappa sigma L ⟨0, 0, 0⟩
  have e : ∀ s, HasDerivAt (fun s => ((X s : ℝ) : ℂ) + ((Y s : ℝ) : ℂ) * Complex.I) (d * cis (T s)) s := by
    intro s
    refine ((hX s).ofReal_comp.add ((hY s).ofReal_comp.mul_const Complex.I)).congr_deriv ?_
    apply Complex.ext <;> simp [cis, -Complex.ofReal_cos, -Complex.ofReal_sin]
  have := Convex.norm_image_sub_le_of_norm_hasDerivWithin_le
    (f := fun s => ((X s : ℝ) : ℂ) + ((Y s : ℝ) : ℂ) * Complex.I)
    (f' := fun s => d * cis (T s)) (C := 1) (s := Set.univ) (x := 0) (y := L)
    (fun t _ => (e t).hasDerivWithinAt) (fun t _ => by
      rw [norm_mul, norm_cis]; rcases hd with rfl | rfl <;> simp) convex_univ trivial trivial
  rw [hX0, hY0, hX1, hY1] at this
  have e2 : disp d kappa sigma L = ((arrive d kappa sigma L ⟨0, 0, 0⟩).x : ℂ)
      + ((arrive d kappa sigma L ⟨0, 0, 0⟩).y : ℂ) * Complex.I := by
    unfold disp Config.pos; apply Complex.ext <;> simp
  rw [e2]
  simpa [abs_of_nonneg hL] using this

theorem Within.mono {a b a' b' : ℝ} {p q : Config} (h : Within a b p q) (ha : a ≤ a') (hb : b ≤ b') :
    Within a' b' p q := by
  obtain ⟨h1, t, h2, h3⟩ := h
  exact ⟨h1.trans ha, t, h2, h3.trans hb⟩

theorem Within.trans {a b a' b' : ℝ} {p q r : Config} (h : Within a b p q) (h' : Within a' b' q r) :
    Within (a + a') (b + b') p r := by
  obtain ⟨h1, t, ⟨n, h2⟩, h3⟩ := h
  obtain ⟨k1, u, ⟨m, k2⟩, k3⟩ := h'
  refine ⟨(Config.dist_triangle p q r).trans (add_le_add h1 k1), u + n * (2 * π), ⟨n + m, ?_⟩, ?_⟩
  · rw [k2]; push_cast; ring
  · have : p.theta - (u + n * (2 * π)) = (p.theta - t) + (q.theta - u) := by rw [h2]; ring
    rw [this]
    exact (abs_add_le _ _).trans (add_le_add h3 k3)

theorem Near.within {a : ℝ} {p q : Config} (h : Near a p q) : Within a 0 p q :=
  ⟨h.1, p.theta, h.2, by simp⟩

theorem Within.near {a : ℝ} {p q : Config} (h : Within a 0 p q) : Near a p q := by
  obtain ⟨h1, t, h2, h3⟩ := h
  have : p.theta = t := by
    have := abs_nonpos_iff.1 h3; linarith
  exact ⟨h1, this ▸ h2⟩

theorem SameConfig.within {p q : Config} (h : SameConfig p q) : Within 0 0 p q :=
  (Near.of_same le_rfl h).within

theorem Within.arrive {a b d kappa sigma L : ℝ} (hd : d = 1 ∨ d = -1) (hL : 0 ≤ L) {p q : Config}
    (h : Within a b p q) :
    Within (a + b * L) b (arrive d kappa sigma L p) (arrive d kappa sigma L q) := by
  obtain ⟨h1, t, h2, h3⟩ := h
  refine ⟨?_, heading d kappa sigma t L, h2.add_right _, ?_⟩
  · rw [Config.dist_eq, arrive_pos, arrive_pos, ← h2.cis_eq]
    rw [Config.dist_eq] at h1
    have e : p.pos + cis p.theta * disp d kappa sigma L - (q.pos + cis t * disp d kappa sigma L)
        = (p.pos - q.pos) + (cis p.theta - cis t) * disp d kappa sigma L := by ring
    rw [e]
    refine (norm_add_le _ _).trans (add_le_add h1 ?_)
    rw [norm_mul]
    exact mul_le_mul ((norm_cis_sub _ _).trans h3) (norm_disp_le hd _ _ _ hL) (norm_nonneg _)
      ((abs_nonneg _).trans h3)
  · have : (Spec.arrive d kappa sigma L p).theta - heading d kappa sigma t L = p.theta - t := by
      simp only [Spec.arrive, heading]; ring
    rw [this]; exact h3

theorem Within.arriveAll {cs : List Segment} {a b : ℝ} {p q : Config} (h : Within a b p q) :
    Within (a + b * totalLength cs) b (arriveAll cs p) (arriveAll cs q) := by
  induction cs generalizing p q a with
  | nil => simpa [totalLength, Spec.arriveAll] using h
  | cons c cs ih =>
    have := ih (h.arrive (d := c.dir) (kappa := c.kappa) (sigma := c.sigma) (dir_pm c) (abs_nonneg c.len))
    rw [show a + b * totalLength (c :: cs) = a + b * |c.len| + b * totalLength cs by
      simp only [totalLength, List.map_cons, List.sum_cons]; ring]
    exact this

theorem totalLength_append (a b : List Segment) :
    totalLength (a ++ b) = totalLength a + totalLength b := by simp [totalLength]

theorem pathTol_append (a b : List Segment) : pathTol (a ++ b) = pathTol a + pathTol b := by
  simp [pathTol]

/-- Chaining: if the first part ends within an error of `q` and the second part, driven from
`q`, ends within an error of `r`. -/
theorem Within.chain {cs ds : List Segment} {a b a' b' : ℝ} {p q r : Config}
    (h : Within a b (Spec.arriveAll cs p) q) (h' : Within a' b' (Spec.arriveAll ds q) r) :
    Within (a + a' + b * totalLength ds) (b + b') (Spec.arriveAll (cs ++ ds) p) r := by
  rw [arriveAll_append]
  exact ((h.arriveAll).trans h').mono (by linarith) le_rfl

/-- The end of a path is at most its length away. -/
theorem arriveAll_dist (cs : List Segment) (p : Config) : (arriveAll cs p).dist p ≤ totalLength cs := by
  induction cs generalizing p with
  | nil => simp [totalLength, Spec.arriveAll, Config.dist_self]
  | cons c cs ih =>
    have h1 : (Spec.arrive c.dir c.kappa c.sigma |c.len| p).dist p ≤ |c.len| := by
      rw [Config.dist_eq, arrive_pos, add_sub_cancel_left, norm_mul, norm_cis, one_mul]
      exact norm_disp_le (dir_pm c) _ _ _ (abs_nonneg _)
    have h2 := ih (Spec.arrive c.dir c.kappa c.sigma |c.len| p)
    have h3 := Config.dist_triangle (arriveAll (c :: cs) p) (Spec.arrive c.dir c.kappa c.sigma |c.len| p) p
    simp only [totalLength, List.map_cons, List.sum_cons] at h2 ⊢
    simp only [Spec.arriveAll] at h3 ⊢
    linarith

end Spec
