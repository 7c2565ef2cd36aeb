import Mathlib.Analysis.Calculus.MeanValue
import Mathlib.MeasureTheory.Integral.IntervalIntegral.FundThmCalculus
import Mathlib.Analysis.SpecialFunctions.Integrals.Basic
import Verif.Spec.Kinematics
import Verif.Lemmas.Angle

/-!
# Lemmas about the kinematic specification
-/

noncomputable section

namespace Spec

open Real

/-- Heading after arc length `s`. -/
def heading (d kappa sigma theta s : ℝ) : ℝ := theta + d * (kappa * s + sigma * s ^ 2 / 2)

/-- Closed form of the end of a segment. -/
def arrive (d kappa sigma L : ℝ) (p : Config) : Config where
  x := p.x + ∫ s in (0:ℝ)..L, d * cos (heading d kappa sigma p.theta s)
  y := p.y + ∫ s in (0:ℝ)..L, d * sin (heading d kappa sigma p.theta s)
  theta := heading d kappa sigma p.theta L

theorem heading_hasDerivAt (d kappa sigma theta s : ℝ) :
    HasDerivAt (heading d kappa sigma theta) (d * (kappa + sigma * s)) s := by
  unfold heading
  have h1 : HasDerivAt (fun s : ℝ => kappa * s + sigma * s ^ 2 / 2) (kappa + sigma * s) s := by
    have h2 := ((hasDerivAt_id' s).const_mul kappa)
    have h3 := (((hasDerivAt_pow 2 s).const_mul sigma).div_const 2)
    exact (h2.add h3).congr_deriv (by push_cast; ring)
  exact (h1.const_mul d).const_add theta

theorem heading_continuous (d kappa sigma theta : ℝ) :
    Continuous (heading d kappa sigma theta) := by
  unfold heading; fun_prop

theorem heading_unique {d kappa sigma : ℝ} {T : ℝ → ℝ}
    (hT : ∀ s, HasDerivAt T (d * (kappa + sigma * s)) s) (s : ℝ) :
    T s = heading d kappa sigma (T 0) s := by
  have key : ∀ s, HasDerivAt (fun s => T s - heading d kappa sigma (T 0) s) 0 s := by
    intro s
    exact ((hT s).sub (heading_hasDerivAt d kappa sigma (T 0) s)).congr_deriv (sub_self _)
  have hc := is_const_of_deriv_eq_zero (fun s => (key s).differentiableAt) (fun s => (key s).deriv) s 0
  have h0 : heading d kappa sigma (T 0) 0 = T 0 := by unfold heading; ring
  rw [h0] at hc; linarith

theorem drives_arrive (d kappa sigma L : ℝ) (p : Config) :
    Drives d kappa sigma L p (arrive d kappa sigma L p) := by
  have hc : Continuous fun s => d * cos (heading d kappa sigma p.theta s) := by
    have := heading_continuous d kappa sigma p.theta
    fun_prop
  have hs : Continuous fun s => d * sin (heading d kappa sigma p.theta s) := by
    have := heading_continuous d kappa sigma p.theta
    fun_prop
  refine ⟨fun u => p.x + ∫ s in (0:ℝ)..u, d * cos (heading d kappa sigma p.theta s),
    fun u => p.y + ∫ s in (0:ℝ)..u, d * sin (heading d kappa sigma p.theta s),
    heading d kappa sigma p.theta, ?_, ?_, heading_hasDerivAt _ _ _ _, ?_, ?_, ?_, rfl, rfl, rfl⟩
  · intro s
    exact (intervalIntegral.integral_hasDerivAt_right (hc.intervalIntegrable _ _)
      (hc.stronglyMeasurableAtFilter _ _) hc.continuousAt).const_add _
  · intro s
    exact (intervalIntegral.integral_hasDerivAt_right (hs.intervalIntegrable _ _)
      (hs.stronglyMeasurableAtFilter _ _) hs.continuousAt).const_add _
  · simp
  · simp
  · unfold heading; ring

theorem drives_iff {d kappa sigma L : ℝ} {p q : Config} :
    Drives d kappa sigma L p q ↔ q = arrive d kappa sigma L p := by
  constructor
  · rintro ⟨X, Y, T, hX, hY, hT, hx0, hy0, ht0, hx, hy, ht⟩
    have hTT : ∀ s, T s = heading d kappa sigma p.theta s := by
      intro s; rw [heading_unique hT s, ht0]
    have hc : Continuous fun s => d * cos (heading d kappa sigma p.theta s) := by
      have := heading_continuous d kappa sigma p.theta
      fun_prop
    have hs : Continuous fun s => d * sin (heading d kappa sigma p.theta s) := by
      have := heading_continuous d kappa sigma p.theta
      fun_prop
    ext
    · have := intervalIntegral.integral_eq_sub_of_hasDerivAt (a := 0) (b := L)
        (fun s _ => by have := hX s; rwa [hTT s] at this) (hc.intervalIntegrable _ _)
      simp only [arrive]; rw [this]; linarith
    · have := intervalIntegral.integral_eq_sub_of_hasDerivAt (a := 0) (b := L)
        (fun s _ => by have := hY s; rwa [hTT s] at this) (hs.intervalIntegrable _ _)
      simp only [arrive]; rw [this]; linarith
    · simp only [arrive]; rw [← hTT, ht]
  · rintro rfl; exact drives_arrive _ _ _ _ _

theorem arrive_zero (d kappa sigma : ℝ) (p : Config) : arrive d kappa sigma 0 p = p := by
  ext <;> simp [arrive, heading]

theorem arrive_line (d L : ℝ) (p : Config) :
    arrive d 0 0 L p = ⟨p.x + d * L * cos p.theta, p.y + d * L * sin p.theta, p.theta⟩ := by
  ext <;> simp [arrive, heading] <;> ring

/-- Circular arcs in closed form. -/
theorem drives_arc {d kappa L : ℝ} (hk : kappa ≠ 0) (p : Config) :
    Drives d kappa 0 L p
      ⟨p.x + (1 / kappa) * (-sin p.theta + sin (p.theta + d * L * kappa)),
       p.y + (1 / kappa) * (cos p.theta - cos (p.theta + d * L * kappa)),
       p.theta + kappa * d * L⟩ := by
  have hT : ∀ s : ℝ, HasDerivAt (fun s => p.theta + d * s * kappa) (d * kappa) s := by
    intro s
    have := (((hasDerivAt_id s).const_mul d).mul_const kappa).const_add p.theta
    simpa using this
  refine ⟨fun s => p.x + (1 / kappa) * (-sin p.theta + sin (p.theta + d * s * kappa)),
    fun s => p.y + (1 / kappa) * (cos p.theta - cos (p.theta + d * s * kappa)),
    fun s => p.theta + d * s * kappa, ?_, ?_, ?_, ?_, ?_, ?_, rfl, rfl, ?_⟩
  · intro s
    have := ((((hT s).sin).const_add (-sin p.theta)).const_mul (1 / kappa)).const_add p.x
    exact this.congr_deriv (by field_simp)
  · intro s
    have := ((((hT s).cos).const_sub (cos p.theta)).const_mul (1 / kappa)).const_add p.y
    exact this.congr_deriv (by field_simp)
  · intro s; exact (hT s).congr_deriv (by ring)
  · simp
  · simp
  · simp
  · simp; ring

theorem arrive_arc {d kappa L : ℝ} (hk : kappa ≠ 0) (p : Config) :
    arrive d kappa 0 L p =
      ⟨p.x + (1 / kappa) * (-sin p.theta + sin (p.theta + d * L * kappa)),
       p.y + (1 / kappa) * (cos p.theta - cos (p.theta + d * L * kappa)),
       p.theta + kappa * d * L⟩ := (drives_iff.1 (drives_arc hk p)).symm

/-- End of a list of segments in closed form. -/
def arriveAll : List Segment → Config → Config
  | [], p => p
  | c :: cs, p => arriveAll cs (arrive c.dir c.kappa c.sigma |c.len| p)

theorem drivesAll_iff {cs : List Segment} {p q : Config} :
    DrivesAll cs p q ↔ q = arriveAll cs p := by
  induction cs generalizing p with
  | nil =>
    constructor
    · intro h; cases h; rfl
    · rintro rfl; exact DrivesAll.nil _
  | cons c cs ih =>
    constructor
    · intro h
      cases h with
      | cons h1 h2 =>
        rw [drives_iff] at h1
        rw [ih] at h2
        rw [h2, h1]; rfl
    · rintro rfl
      exact DrivesAll.cons (drives_arrive _ _ _ _ _) (ih.2 rfl)

/-- Two configurations with the same heading modulo full turns. -/
theorem arrive_congr {d kappa sigma L : ℝ} {p q : Config} (h : SameConfig p q) :
    SameConfig (arrive d kappa sigma L p) (arrive d kappa sigma L q) := by
  obtain ⟨hx, hy, ht⟩ := h
  have hh : ∀ s, AngleEq (heading d kappa sigma p.theta s) (heading d kappa sigma q.theta s) :=
    fun s => ht.add_right _
  refine ⟨?_, ?_, hh L⟩
  · simp only [arrive, hx, (hh _).cos_eq]
  · simp only [arrive, hy, (hh _).sin_eq]

@[refl] theorem SameConfig.refl (p : Config) : SameConfig p p := ⟨rfl, rfl, AngleEq.refl _⟩

theorem SameConfig.trans {p q r : Config} (h : SameConfig p q) (h' : SameConfig q r) :
    SameConfig p r := ⟨h.1.trans h'.1, h.2.1.trans h'.2.1, h.2.2.trans h'.2.2⟩

theorem SameConfig.symm {p q : Config} (h : SameConfig p q) : SameConfig q p :=
  ⟨h.1.symm, h.2.1.symm, h.2.2.symm⟩

theorem arriveAll_congr {cs : List Segment} {p q : Config} (h : SameConfig p q) :
    SameConfig (arriveAll cs p) (arriveAll cs q) := by
  induction cs generalizing p q with
  | nil => exact h
  | cons c cs ih => exact ih (arrive_congr h)

end Spec
