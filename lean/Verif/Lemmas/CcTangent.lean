import Verif.Model.CcDubins
import Verif.Lemmas.TurnAll
import Verif.Lemmas.Within

/-!
# Tangent circles of CC paths
-/

noncomputable section

namespace Spec

open Real Props

/-- The part of `CircleOk` that the geometry of the outer circle needs. -/
structure GeomOk (c : SF.Circle) (A B : ℝ) : Prop where
  radius : c.radius = √(A ^ 2 + B ^ 2)
  sin_mu : c.radius * c.sin_mu = A
  cos_mu : c.radius * c.cos_mu = B
  sin_mu_eq : c.sin_mu = sin c.mu
  cos_mu_eq : c.cos_mu = cos c.mu

theorem CircleOk.geom {c : SF.Circle} {k s A B : ℝ} (h : CircleOk c k s A B) : GeomOk c A B :=
  ⟨h.radius, h.sin_mu, h.cos_mu, h.sin_mu_eq, h.cos_mu_eq⟩

theorem norm_mul_cis_arg (z : ℂ) : (‖z‖ : ℂ) * cis (Complex.arg z) = z := by
  apply Complex.ext
  · simp [cis, Complex.norm_mul_cos_arg]
  · simp [cis, Complex.norm_mul_sin_arg]

theorem cis_twopify (a : ℝ) : cis (SF.twopify a) = cis a := (Spec.AngleEq.cis_eq (SF.twopify_angleEq a))

theorem center_distance_eq (c1 c2 : SF.Circle) : SF.center_distance c1 c2 = ‖center c2 - center c1‖ := by
  rw [SF.center_distance, sqrt_eq_norm]; rfl

theorem atan2_eq (c1 c2 : SF.Circle) :
    SF.atan2 (c2.yc - c1.yc) (c2.xc - c1.xc) = Complex.arg (center c2 - center c1) := rfl

/-- Centres in polar coordinates. -/
theorem center_polar (c1 c2 : SF.Circle) :
    center c2 = center c1 + (SF.center_distance c1 c2 : ℂ) * cis (SF.atan2 (c2.yc - c1.yc) (c2.xc - c1.xc)) := by
  rw [center_distance_eq, atan2_eq, norm_mul_cis_arg]; ring

theorem frame_cis (x y t a b : ℝ) :
    (⟨(SF.global_frame_change x y t a b).1, (SF.global_frame_change x y t a b).2⟩ : ℂ)
      = ⟨x, y⟩ + cis t * ⟨a, b⟩ := by
  apply Complex.ext <;> simp [SF.global_frame_change, cis] <;> ring

theorem cfg_pos (x y t k : ℝ) : (cfg (SF.configuration x y t k)).pos = ⟨x, y⟩ := rfl

theorem cis_cfg (x y t k : ℝ) : cis (cfg (SF.configuration x y t k)).theta = cis t := cis_twopify t

theorem cen_cfg (a b x y t k : ℝ) :
    cen a b (cfg (SF.configuration x y t k)) = ⟨x, y⟩ + cis t * ⟨a, b⟩ := by
  rw [cen, cfg_pos, cis_cfg]

theorem cis_neg_angle (a : ℝ) : cis (-a) = ⟨cos a, -sin a⟩ := by simp [cis]

/-- Tangent configuration of two circles: centre errors. -/
theorem TT_spec {c1 : SF.Circle} {A B : ℝ} (h : GeomOk c1 A B) (c2 : SF.Circle) :
    cen (-(sg c1.forward * A)) (sg c1.left * B) (cfg (SF.CC00.TT_tangent_circles c1 c2)) - center c1
      = ((SF.center_distance c1 c2 / 2 - c1.radius : ℝ) : ℂ)
        * cis (SF.atan2 (c2.yc - c1.yc) (c2.xc - c1.xc)) ∧
    cen (sg c1.forward * A) (-(sg c1.left * B)) (cfg (SF.CC00.TT_tangent_circles c1 c2)) - center c2
      = -(((SF.center_distance c1 c2 / 2 - c1.radius : ℝ) : ℂ)
        * cis (SF.atan2 (c2.yc - c1.yc) (c2.xc - c1.xc))) := by
  have hp := center_polar c1 c2
  rw [SF.CC00.TT_tangent_circles]
  obtain ⟨g, hg⟩ : ∃ g, g = SF.atan2 (c2.yc - c1.yc) (c2.xc - c1.xc) := ⟨_, rfl⟩
  obtain ⟨D, hD⟩ : ∃ D, D = SF.center_distance c1 c2 := ⟨_, rfl⟩
  simp only [← hg, ← hD] at hp ⊢
  have hmid : (⟨(c1.xc + c2.xc) / 2, (c1.yc + c2.yc) / 2⟩ : ℂ) = center c1 + ((D / 2 : ℝ) : ℂ) * cis g := by
    have : (⟨(c1.xc + c2.xc) / 2, (c1.yc + c2.yc) / 2⟩ : ℂ) = (center c1 + center c2) / 2 := by
      apply Complex.ext <;> simp [center]
    rw [this, hp]; push_cast; ring
  have key : ∀ t, t = g + sg c1.left * (π / 2) - sg c1.left * sg c1.forward * c1.mu →
      cis t * (⟨sg c1.forward * A, -(sg c1.left * B)⟩ : ℂ) = (c1.radius : ℂ) * cis g := by
    rintro t rfl
    rw [← h.sin_mu, ← h.cos_mu, h.sin_mu_eq, h.cos_mu_eq, sub_eq_add_neg, add_assoc, cis_add, mul_assoc, mul_comm (cis g)]
    congr 1
    have h1 := sin_sq_add_cos_sq c1.mu
    generalize c1.mu = m at h1 ⊢
    have e1 : cos (-m) = cos m := cos_neg m
    have e2 : sin (-m) = -sin m := sin_neg m
    cases c1.left <;> cases c1.forward <;> apply Complex.ext <;>
      simp [cis, sg, cos_add, sin_add] <;> first | linear_combination c1.radius * h1 | ring
  have hth : (if c1.left = true then if c1.forward = true then g + π / 2 - c1.mu else g + π / 2 + c1.mu
      else if c1.forward = true then g - π / 2 + c1.mu else g - π / 2 - c1.mu)
      = g + sg c1.left * (π / 2) - sg c1.left * sg c1.forward * c1.mu := by
    cases c1.left <;> cases c1.forward <;> simp [sg] <;> ring
  have hk := key _ hth
  rw [cen_cfg, cen_cfg, hmid]
  generalize (if c1.left = true then if c1.forward = true then g + π / 2 - c1.mu else g + π / 2 + c1.mu
      else if c1.forward = true then g - π / 2 + c1.mu else g - π / 2 - c1.mu) = t at hk ⊢
  have hneg : (⟨-(sg c1.forward * A), sg c1.left * B⟩ : ℂ) = -⟨sg c1.forward * A, -(sg c1.left * B)⟩ := by
    apply Complex.ext <;> simp
  rw [hneg, mul_neg, hk, hp]
  push_cast
  constructor <;> ring

/-- External tangent. -/
theorem TeST_spec {c1 : SF.Circle} {A B : ℝ} (h : GeomOk c1 A B) (c2 : SF.Circle) :
    let q := SF.CC00.TeST_tangent_circles c1 c2
    cen (-(sg c1.forward * A)) (sg c1.left * B) (cfg q.1) = center c1 ∧
    cen (sg c1.forward * A) (sg c1.left * B) (cfg q.2) = center c2 ∧
    q.1.theta = q.2.theta ∧
    (cfg q.2).pos - (cfg q.1).pos = cis q.1.theta *
      ((sg c1.forward * (SF.center_distance c1 c2 - 2 * A) : ℝ) : ℂ) := by
  have hp := center_polar c1 c2
  rw [SF.CC00.TeST_tangent_circles]
  obtain ⟨g, hg⟩ : ∃ g, g = SF.atan2 (c2.yc - c1.yc) (c2.xc - c1.xc) := ⟨_, rfl⟩
  obtain ⟨D, hD⟩ : ∃ D, D = SF.center_distance c1 c2 := ⟨_, rfl⟩
  simp only [← hg, ← hD, h.sin_mu, h.cos_mu] at hp ⊢
  change center c2 = _ at hp
  have e1 : (⟨c1.xc, c1.yc⟩ : ℂ) = center c1 := rfl
  have e2 : (⟨c2.xc, c2.yc⟩ : ℂ) = center c2 := rfl
  have hpi : cis (g + π) = -cis g := by rw [cis_add, cis_pi]; ring
  have eA : ∀ a b : ℝ, (⟨a, b⟩ : ℂ) = a + b * Complex.I := fun a b => Complex.mk_eq_add_mul_I a b
  have hth : ∀ x y t x' y' : ℝ, (SF.configuration x y t 0).theta = (SF.configuration x' y' t 0).theta :=
    fun _ _ _ _ _ => rfl
  have hc : ∀ x y t : ℝ, cis (SF.configuration x y t 0).theta = cis t := fun x y t => cis_twopify t
  cases hl : c1.left <;> cases hf : c1.forward <;>
    simp only [if_true, if_false, Bool.false_eq_true, sg, cen_cfg, cfg_pos, frame_cis, e1, e2, hpi, hp, hc] <;>
    refine ⟨?_, ?_, rfl, ?_⟩ <;> simp only [eA] <;> push_cast <;> ring

/-- Internal tangent. -/
theorem TiST_spec {c1 : SF.Circle} {A B : ℝ} (h : GeomOk c1 A B) (c2 : SF.Circle)
    (hB : 0 < B) (hD : 2 * c1.radius ≤ SF.center_distance c1 c2) :
    let q := SF.CC00.TiST_tangent_circles c1 c2
    cen (-(sg c1.forward * A)) (sg c1.left * B) (cfg q.1) = center c1 ∧
    cen (sg c1.forward * A) (-(sg c1.left * B)) (cfg q.2) = center c2 ∧
    q.1.theta = q.2.theta ∧
    (cfg q.2).pos - (cfg q.1).pos = cis q.1.theta *
      ((sg c1.forward * (√(SF.center_distance c1 c2 ^ 2 - 4 * B ^ 2) - 2 * A) : ℝ) : ℂ) ∧
    2 * A ≤ √(SF.center_distance c1 c2 ^ 2 - 4 * B ^ 2) := by
  have hp := center_polar c1 c2
  rw [SF.CC00.TiST_tangent_circles]
  have hR := h.radius
  have hRB : B ≤ c1.radius := by rw [hR]; exact le_trans (le_abs_self B) (radius_bound A B).2
  have hR2 : c1.radius ^ 2 = A ^ 2 + B ^ 2 := by rw [hR, sq_sqrt (by positivity)]
  have hq4 : 2 * c1.radius * c1.cos_mu = 2 * B := by rw [mul_assoc, h.cos_mu]
  obtain ⟨g, hg⟩ : ∃ g, g = SF.atan2 (c2.yc - c1.yc) (c2.xc - c1.xc) := ⟨_, rfl⟩
  obtain ⟨D, hDD⟩ : ∃ D, D = SF.center_distance c1 c2 := ⟨_, rfl⟩
  simp only [← hg, ← hDD, h.sin_mu, h.cos_mu, hq4] at hp hD ⊢
  have hDpos : 0 < D := by linarith
  obtain ⟨a, ha⟩ : ∃ a, a = arcsin (2 * B / D) := ⟨_, rfl⟩
  have hsin : D * sin a = 2 * B := by
    rw [ha, sin_arcsin (by linarith [show 0 ≤ 2 * B / D by positivity]) (by rw [div_le_one hDpos]; linarith)]
    field_simp
  have hcos : D * cos a = √(D ^ 2 - 4 * B ^ 2) := by
    rw [ha, cos_arcsin]
    rw [show D ^ 2 - 4 * B ^ 2 = D ^ 2 * (1 - (2 * B / D) ^ 2) by field_simp; ring,
      sqrt_mul (by positivity), sqrt_sq hDpos.le]
  have hge : 2 * A ≤ √(D ^ 2 - 4 * B ^ 2) := by
    apply le_sqrt_of_sq_le
    nlinarith
  rw [← hcos] at hge ⊢
  simp only [← ha]
  have e1 : (⟨c1.xc, c1.yc⟩ : ℂ) = center c1 := rfl
  have e2 : (⟨c2.xc, c2.yc⟩ : ℂ) = center c2 := rfl
  have hpi : ∀ t, cis (t + π) = -cis t := fun t => by rw [cis_add, cis_pi]; ring
  have eA : ∀ a b : ℝ, (⟨a, b⟩ : ℂ) = a + b * Complex.I := fun a b => Complex.mk_eq_add_mul_I a b
  have hc : ∀ x y t : ℝ, cis (SF.configuration x y t 0).theta = cis t := fun x y t => cis_twopify t
  -- the centre in the turned frame
  have hplus : (D : ℂ) * cis g = cis (g + a) * (((D * cos a : ℝ) : ℂ) - ((2 * B : ℝ) : ℂ) * Complex.I) := by
    have : (((D * cos a : ℝ) : ℂ) - ((2 * B : ℝ) : ℂ) * Complex.I) = D * cis (-a) := by
      rw [← hsin, cis_neg_angle, eA]; push_cast; ring
    rw [this, cis_add]
    linear_combination (-(D : ℂ) * cis g) * cis_mul_neg a
  have hminus : (D : ℂ) * cis g = cis (g - a) * (((D * cos a : ℝ) : ℂ) + ((2 * B : ℝ) : ℂ) * Complex.I) := by
    have : (((D * cos a : ℝ) : ℂ) + ((2 * B : ℝ) : ℂ) * Complex.I) = D * cis a := by
      rw [← hsin, cis, eA]; push_cast; ring
    rw [this, sub_eq_add_neg, cis_add]
    linear_combination (-(D : ℂ) * cis g) * cis_neg_mul a
  have hI : Complex.I * Complex.I = -1 := Complex.I_mul_I
  cases hl : c1.left <;> cases hf : c1.forward <;>
    simp only [if_true, if_false, Bool.false_eq_true, sg, cen_cfg, cfg_pos, frame_cis, e1, e2, hpi, hc] <;>
    refine ⟨?_, ?_, rfl, ?_, hge⟩ <;> first | (rw [hp, hplus]; simp only [eA]; push_cast; ring1) |
      (rw [hp, hminus]; simp only [eA]; push_cast; ring1) | (simp only [eA]; push_cast; ring1)

end Spec
