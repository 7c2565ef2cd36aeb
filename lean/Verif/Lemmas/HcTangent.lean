import Verif.Lemmas.Tangent
import Verif.Model.HcReedsShepp

/-!
# Hybrid-curvature Reeds-Shepp: where circles are left and entered
-/

noncomputable section

namespace Spec

open Real Props

/-- A CC circle with centre `z` may be left in `q`, with curvature zero. -/
def AtTan (k s : ℝ) (f l : Bool) (z : ℂ) (q : SF.Configuration) (e : ℝ) : Prop :=
  ‖cen (-(sg f * ccA k s)) (sg l * ccB k s) (cfg q) - z‖ ≤ e

/-- The inner circle with centre `z` passes through `q`. -/
def AtCusp (k : ℝ) (l : Bool) (z : ℂ) (q : SF.Configuration) (e : ℝ) : Prop :=
  ‖cen 0 (1 / (sg l * k)) (cfg q) - z‖ ≤ e

/-- `q2` lies straight ahead of `q1` by `d * x`. -/
def Ahead (d : ℝ) (q1 q2 : SF.Configuration) (x : ℝ) : Prop :=
  q1.theta = q2.theta ∧ (cfg q2).pos - (cfg q1).pos = cis q1.theta * ((d * x : ℝ) : ℂ)

theorem Ahead.length {d x : ℝ} {q1 q2 : SF.Configuration} (h : Ahead d q1 q2 x) (hd : d = 1 ∨ d = -1) (hx : 0 ≤ x) :
    SF.configuration_distance q1 q2 = x := by
  rw [configuration_distance_eq, h.2, norm_cis_mul, Complex.norm_real, Real.norm_eq_abs, abs_mul]
  rcases hd with rfl | rfl <;> simp [abs_of_nonneg hx]

theorem AtTan.mono {k s e e' : ℝ} {f l : Bool} {z : ℂ} {q : SF.Configuration} (h : AtTan k s f l z q e) (he : e ≤ e') :
    AtTan k s f l z q e' := le_trans h he

theorem AtCusp.mono {k e e' : ℝ} {l : Bool} {z : ℂ} {q : SF.Configuration} (h : AtCusp k l z q e) (he : e ≤ e') :
    AtCusp k l z q e' := le_trans h he

theorem cen_cusp {k : ℝ} (l : Bool) (x y t κ : ℝ) :
    cen 0 (1 / (sg l * k)) (cfg (SF.configuration x y t κ)) = ⟨x, y⟩ + cis t * (((sg l * (1 / k) : ℝ) : ℂ) * Complex.I) := by
  rw [cen_cfg, ← rs_inv]
  congr 2
  apply Complex.ext <;> simp

section tangents
variable {k s : ℝ} (H : Rng k s)

include H in
theorem TT_at (c1 c2 : SF.Circle) {e : ℝ} (hd : |‖center c2 - center c1‖ - 2 * ccR k s| ≤ 2 * e) :
    AtTan k s c1.forward c1.left (center c1)
      (SF.HcRs.TT_tangent_circles (SF.hc_cc_circle_param k s) c1 c2) e ∧
    AtTan k s (!c1.forward) (!c1.left) (center c2)
      (SF.HcRs.TT_tangent_circles (SF.hc_cc_circle_param k s) c1 c2) e := by
  have h := geom_reparam H c1
  have S := TT_spec h c2
  have hcd : SF.center_distance (c1.reparam (SF.hc_cc_circle_param k s)) c2 = ‖center c2 - center c1‖ :=
    center_distance_eq _ _
  have hd : ‖((SF.center_distance (c1.reparam (SF.hc_cc_circle_param k s)) c2 / 2
        - (c1.reparam (SF.hc_cc_circle_param k s)).radius : ℝ) : ℂ)
      * cis (SF.atan2 (c2.yc - (c1.reparam (SF.hc_cc_circle_param k s)).yc)
        (c2.xc - (c1.reparam (SF.hc_cc_circle_param k s)).xc))‖ ≤ e := by
    rw [norm_mul, norm_cis, mul_one, Complex.norm_real, Real.norm_eq_abs, h.ccR, hcd]
    have h' := abs_le.mp hd
    rw [abs_le]; constructor <;> linarith
  refine ⟨?_, ?_⟩
  · rw [AtTan, SF.HcRs.TT_tangent_circles]
    exact (congrArg norm S.1).trans_le hd
  · rw [AtTan, sg_not, sg_not, neg_mul, neg_neg, neg_mul, SF.HcRs.TT_tangent_circles]
    refine (congrArg norm S.2).trans_le ?_
    rw [norm_neg]; exact hd

theorem TcT_at (c1 c2 : SF.Circle) {e : ℝ} (hd : |‖center c2 - center c1‖ - 2 * (1 / k)| ≤ 2 * e) :
    AtCusp k c1.left (center c1) (SF.HcRs.TcT_tangent_circles c1 c2) e ∧
    AtCusp k (!c1.left) (center c2) (SF.HcRs.TcT_tangent_circles c1 c2) e := by
  have hp := center_polar c1 c2
  rw [← center_distance_eq] at hd
  unfold SF.HcRs.TcT_tangent_circles AtCusp
  obtain ⟨g, hg⟩ : ∃ g, g = SF.atan2 (c2.yc - c1.yc) (c2.xc - c1.xc) := ⟨_, rfl⟩
  obtain ⟨D, hD⟩ : ∃ D, D = SF.center_distance c1 c2 := ⟨_, rfl⟩
  simp only [← hg, ← hD, neg_zero, ite_self] at hp hd ⊢
  have e1 : (⟨c1.xc, c1.yc⟩ : ℂ) = center c1 := rfl
  have hcis : cis (if c1.left then g + π / 2 else g - π / 2) * (((sg c1.left * (1 / k) : ℝ) : ℂ) * Complex.I)
      = -(((1 / k : ℝ) : ℂ) * cis g) := by
    cases c1.left <;> apply Complex.ext <;> simp [cis, sg, cos_add, sin_add, cos_sub, sin_sub] <;> ring
  have key : ‖(((D / 2 - 1 / k : ℝ) : ℂ)) * cis g‖ ≤ e := by
    rw [norm_mul, norm_cis, mul_one, Complex.norm_real, Real.norm_eq_abs]
    have := abs_le.1 hd
    rw [abs_le]; constructor <;> linarith
  have hz : (⟨0.5 * D, 0⟩ : ℂ) = ((D / 2 : ℝ) : ℂ) := by
    apply Complex.ext <;> simp; ring
  constructor
  · rw [cen_cusp, frame_cis, e1, hcis, hz]
    refine (congrArg norm ?_).trans_le key
    push_cast; ring
  · rw [cen_cusp, frame_cis, e1, sg_not, neg_mul, Complex.ofReal_neg, neg_mul, mul_neg, hcis, hz, hp,
      ← norm_neg]
    refine (congrArg norm ?_).trans_le key
    push_cast; ring

include H in
theorem TiST_at (c1 c2 : SF.Circle) (hd : 2 * ccR k s ≤ ‖center c2 - center c1‖) :
    let q := SF.HcRs.TiST_tangent_circles (SF.hc_cc_circle_param k s) c1 c2
    AtTan k s c1.forward c1.left (center c1) q.1 0 ∧ AtTan k s (!c1.forward) (!c1.left) (center c2) q.2 0 ∧
      ∃ x, 0 ≤ x ∧ x ≤ ‖center c2 - center c1‖ ∧ Ahead (sg c1.forward) q.1 q.2 x := by
  have h := geom_reparam H c1
  have hB := ccB_pos H.kappa H.sigma H.clothoid
  have hA := ccA_pos H.kappa H.sigma H.clothoid
  have hcd : SF.center_distance (c1.reparam (SF.hc_cc_circle_param k s)) c2 = ‖center c2 - center c1‖ :=
    center_distance_eq _ _
  obtain ⟨S1, S2, S3, S4, S5⟩ := TiST_spec h c2 hB (by rw [h.ccR, hcd]; exact hd)
  rw [hcd] at S4 S5
  refine ⟨?_, ?_, _, ?_, ?_, S3, S4⟩
  · exact (congrArg norm (sub_eq_zero.2 S1)).trans_le (by simp)
  · rw [AtTan, sg_not, sg_not, neg_mul, neg_neg, neg_mul]
    exact (congrArg norm (sub_eq_zero.2 S2)).trans_le (by simp)
  · linarith
  · have h0 : 0 ≤ ‖center c2 - center c1‖ := norm_nonneg _
    have : √(‖center c2 - center c1‖ ^ 2 - 4 * ccB k s ^ 2) ≤ ‖center c2 - center c1‖ :=
      sqrt_le_iff.2 ⟨h0, by nlinarith⟩
    linarith

include H in
theorem TeST_at (c1 c2 : SF.Circle) (hd : 2 * ccA k s ≤ ‖center c2 - center c1‖) :
    let q := SF.HcRs.TeST_tangent_circles (SF.hc_cc_circle_param k s) c1 c2
    AtTan k s c1.forward c1.left (center c1) q.1 0 ∧ AtTan k s (!c1.forward) c1.left (center c2) q.2 0 ∧
      ∃ x, 0 ≤ x ∧ x ≤ ‖center c2 - center c1‖ ∧ Ahead (sg c1.forward) q.1 q.2 x := by
  have h := geom_reparam H c1
  have hA := ccA_pos H.kappa H.sigma H.clothoid
  have hcd : SF.center_distance (c1.reparam (SF.hc_cc_circle_param k s)) c2 = ‖center c2 - center c1‖ :=
    center_distance_eq _ _
  obtain ⟨S1, S2, S3, S4⟩ := TeST_spec h c2
  rw [hcd] at S4
  refine ⟨?_, ?_, _, ?_, ?_, S3, S4⟩
  · exact (congrArg norm (sub_eq_zero.2 S1)).trans_le (by simp)
  · rw [AtTan, sg_not, neg_mul, neg_neg]
    exact (congrArg norm (sub_eq_zero.2 S2)).trans_le (by simp)
  · linarith
  · linarith

/-! ### Lines that start or end at a cusp -/

theorem sg_mul_sg (a : Bool) : sg a * sg a = 1 := by cases a <;> simp [sg]

/-- The other centre seen along the line. -/
theorem polar_turn {D b g v a : ℝ} (hD : 0 < D) (hb : |b| ≤ D) (hv : v = 1 ∨ v = -1)
    (ha : a = arcsin (b / D)) :
    (D : ℂ) * cis g = cis (g + v * a) * (((√(D ^ 2 - b ^ 2) : ℝ) : ℂ) - ((v * b : ℝ) : ℂ) * Complex.I) := by
  have hb' := abs_le.1 hb
  have hsin : D * sin a = b := by
    rw [ha, sin_arcsin (by rw [le_div_iff₀ hD]; linarith) (by rw [div_le_one hD]; linarith)]
    field_simp
  have hcos : D * cos a = √(D ^ 2 - b ^ 2) := by
    rw [ha, cos_arcsin]
    rw [show D ^ 2 - b ^ 2 = D ^ 2 * (1 - (b / D) ^ 2) by field_simp,
      sqrt_mul (by positivity), sqrt_sq hD.le]
  have e : (((√(D ^ 2 - b ^ 2) : ℝ) : ℂ) - ((v * b : ℝ) : ℂ) * Complex.I) = D * cis (-(v * a)) := by
    rw [← hcos, ← hsin]
    apply Complex.ext <;> rcases hv with rfl | rfl <;> simp [cis, -Complex.ofReal_cos, -Complex.ofReal_sin]
  rw [e, cis_add]
  linear_combination (-(D : ℂ) * cis g) * cis_mul_neg (v * a)

/-- Line from a cusp on `c1` to the tangent of `c2`; `w` is `1` if the line crosses and `-1` otherwise. -/
theorem cusp_line {z1 z2 : ℂ} {g D b x t : ℝ} {f l l2 : Bool}
    (hp : z2 = z1 + (D : ℂ) * cis g)
    (hturn : (D : ℂ) * cis g = cis t * ((x : ℂ) - ((b : ℝ) : ℂ) * Complex.I))
    (hb : b = sg f * (sg l2 * ccB k s - sg l * (1 / k)))
    {q1 q2 : SF.Configuration}
    (h1 : (cfg q1).pos = z1 + cis t * (((sg l * sg f * (1 / k) : ℝ) : ℂ) * Complex.I))
    (h2 : (cfg q2).pos = z2 + cis t * (-((ccA k s : ℝ) : ℂ) + ((sg l2 * sg f * ccB k s : ℝ) : ℂ) * Complex.I))
    (c1 : cis q1.theta = -((sg f : ℝ) : ℂ) * cis t) (c2 : cis q2.theta = -((sg f : ℝ) : ℂ) * cis t)
    (ht : q1.theta = q2.theta) :
    AtCusp k l z1 q1 0 ∧ AtTan k s f l2 z2 q2 0 ∧ Ahead (-sg f) q1 q2 (x - ccA k s) := by
  have hf : ((sg f : ℝ) : ℂ) * ((sg f : ℝ) : ℂ) = 1 := by exact_mod_cast sg_mul_sg f
  have eA : ∀ a b : ℝ, (⟨a, b⟩ : ℂ) = a + b * Complex.I := fun a b => Complex.mk_eq_add_mul_I a b
  refine ⟨?_, ?_, ht, ?_⟩
  · rw [AtCusp, cen, h1, ← rs_inv, eA, show (cfg q1).theta = q1.theta from rfl, c1]
    refine (congrArg norm ?_).trans_le (norm_zero (E := ℂ)).le
    push_cast; ring
  · rw [AtTan, cen, h2, eA, show (cfg q2).theta = q2.theta from rfl, c2]
    refine (congrArg norm ?_).trans_le (norm_zero (E := ℂ)).le
    push_cast
    linear_combination ((ccA k s : ℂ) * cis t) * hf
  · rw [h1, h2, hp, hturn, c1, hb]
    push_cast
    linear_combination (-(x : ℂ) + (ccA k s : ℂ)) * cis t * hf

/-- Line from the tangent of `c1` to a cusp on `c2`. -/
theorem line_cusp {z1 z2 : ℂ} {g D b x t : ℝ} {f l l2 : Bool}
    (hp : z2 = z1 + (D : ℂ) * cis g)
    (hturn : (D : ℂ) * cis g = cis t * ((x : ℂ) - ((b : ℝ) : ℂ) * Complex.I))
    (hb : b = sg f * (sg l * ccB k s - sg l2 * (1 / k)))
    {q1 q2 : SF.Configuration}
    (h1 : (cfg q1).pos = z1 + cis t * (((ccA k s : ℝ) : ℂ) - ((sg l * sg f * ccB k s : ℝ) : ℂ) * Complex.I))
    (h2 : (cfg q2).pos = z2 - cis t * (((sg l2 * sg f * (1 / k) : ℝ) : ℂ) * Complex.I))
    (c1 : cis q1.theta = ((sg f : ℝ) : ℂ) * cis t) (c2 : cis q2.theta = ((sg f : ℝ) : ℂ) * cis t)
    (ht : q1.theta = q2.theta) :
    AtTan k s f l z1 q1 0 ∧ AtCusp k l2 z2 q2 0 ∧ Ahead (sg f) q1 q2 (x - ccA k s) := by
  have hf : ((sg f : ℝ) : ℂ) * ((sg f : ℝ) : ℂ) = 1 := by exact_mod_cast sg_mul_sg f
  have eA : ∀ a b : ℝ, (⟨a, b⟩ : ℂ) = a + b * Complex.I := fun a b => Complex.mk_eq_add_mul_I a b
  refine ⟨?_, ?_, ht, ?_⟩
  · rw [AtTan, cen, h1, eA, show (cfg q1).theta = q1.theta from rfl, c1]
    refine (congrArg norm ?_).trans_le (norm_zero (E := ℂ)).le
    push_cast
    linear_combination (-(ccA k s : ℂ) * cis t) * hf
  · rw [AtCusp, cen, h2, ← rs_inv, eA, show (cfg q2).theta = q2.theta from rfl, c2]
    refine (congrArg norm ?_).trans_le (norm_zero (E := ℂ)).le
    push_cast; ring
  · rw [h1, h2, hp, hturn, c1, hb]
    push_cast
    linear_combination (-(x : ℂ) + (ccA k s : ℂ)) * cis t * hf

/-- Line from a cusp to a cusp. -/
theorem cusp_cusp {z1 z2 : ℂ} {g D b x t : ℝ} {f l l2 : Bool}
    (hp : z2 = z1 + (D : ℂ) * cis g)
    (hturn : (D : ℂ) * cis g = cis t * ((x : ℂ) - ((b : ℝ) : ℂ) * Complex.I))
    (hb : b = sg f * (sg l2 * (1 / k) - sg l * (1 / k)))
    {q1 q2 : SF.Configuration}
    (h1 : (cfg q1).pos = z1 + cis t * (((sg l * sg f * (1 / k) : ℝ) : ℂ) * Complex.I))
    (h2 : (cfg q2).pos = z2 + cis t * (((sg l2 * sg f * (1 / k) : ℝ) : ℂ) * Complex.I))
    (c1 : cis q1.theta = -((sg f : ℝ) : ℂ) * cis t) (c2 : cis q2.theta = -((sg f : ℝ) : ℂ) * cis t)
    (ht : q1.theta = q2.theta) :
    AtCusp k l z1 q1 0 ∧ AtCusp k l2 z2 q2 0 ∧ Ahead (-sg f) q1 q2 x := by
  have hf : ((sg f : ℝ) : ℂ) * ((sg f : ℝ) : ℂ) = 1 := by exact_mod_cast sg_mul_sg f
  have eA : ∀ a b : ℝ, (⟨a, b⟩ : ℂ) = a + b * Complex.I := fun a b => Complex.mk_eq_add_mul_I a b
  refine ⟨?_, ?_, ht, ?_⟩
  · rw [AtCusp, cen, h1, ← rs_inv, eA, show (cfg q1).theta = q1.theta from rfl, c1]
    refine (congrArg norm ?_).trans_le (norm_zero (E := ℂ)).le
    push_cast; ring
  · rw [AtCusp, cen, h2, ← rs_inv, eA, show (cfg q2).theta = q2.theta from rfl, c2]
    refine (congrArg norm ?_).trans_le (norm_zero (E := ℂ)).le
    push_cast; ring
  · rw [h1, h2, hp, hturn, c1, hb]
    push_cast
    linear_combination (-(x : ℂ)) * cis t * hf

end tangents

theorem cis_pi_add (t : ℝ) : cis (t + π) = -cis t := by rw [cis_add, cis_pi]; ring

theorem cis_theta (x y t κ : ℝ) : cis (SF.configuration x y t κ).theta = cis t := cis_twopify t

theorem frame_at (x y t a b t' κ : ℝ) :
    (cfg (SF.configuration (SF.global_frame_change x y t a b).1 (SF.global_frame_change x y t a b).2 t' κ)).pos
      = ⟨x, y⟩ + cis t * ((a : ℂ) + (b : ℂ) * Complex.I) := by
  rw [cfg_pos, frame_cis, Complex.mk_eq_add_mul_I a b]

section lines
variable {k s : ℝ} (H : Rng k s) (c1 c2 : SF.Circle) (hi : |c1.kappa_inv| = 1 / k) (hkk : |c1.kappa| = k)

theorem scratch_polar : center c2 = center c1 + ((SF.scratch c1 c2).distance : ℂ) * cis (SF.scratch c1 c2).angle :=
  center_polar c1 c2

theorem scratch_distance : (SF.scratch c1 c2).distance = ‖center c2 - center c1‖ := center_distance_eq c1 c2

theorem sqrt_guard {A b D : ℝ} (hA : 0 < A) (h : √(A ^ 2 + b ^ 2) ≤ D) : 0 < D ∧ |b| ≤ D ∧ A ≤ √(D ^ 2 - b ^ 2) := by
  have h0 : A ≤ √(A ^ 2 + b ^ 2) := le_sqrt_of_sq_le (by nlinarith [sq_nonneg b])
  have h1 : |b| ≤ √(A ^ 2 + b ^ 2) := abs_le_sqrt (by nlinarith [sq_nonneg A])
  have h2 : A ^ 2 + b ^ 2 ≤ D ^ 2 := by
    have := sq_sqrt (show 0 ≤ A ^ 2 + b ^ 2 by positivity)
    nlinarith [sqrt_nonneg (A ^ 2 + b ^ 2)]
  exact ⟨by linarith, by linarith, le_sqrt_of_sq_le (by linarith)⟩

theorem sqrt_sub_le {b D : ℝ} (hD : 0 < D) : √(D ^ 2 - b ^ 2) ≤ D :=
  sqrt_le_iff.2 ⟨hD.le, by nlinarith [sq_nonneg b]⟩

/-- Factors of the tables below. -/
theorem sin_param {k s : ℝ} (H : Rng k s) : (SF.hc_cc_circle_param k s).radius * (SF.hc_cc_circle_param k s).sin_mu
    = ccA k s := (hc_param_ok H.kappa H.sigma H.clothoid).sin_mu

theorem cos_param {k s : ℝ} (H : Rng k s) : (SF.hc_cc_circle_param k s).radius * (SF.hc_cc_circle_param k s).cos_mu
    = ccB k s := (hc_param_ok H.kappa H.sigma H.clothoid).cos_mu

theorem radius_param {k s : ℝ} (H : Rng k s) : (SF.hc_cc_circle_param k s).radius = ccR k s :=
  (hc_param_ok H.kappa H.sigma H.clothoid).radius

include H hi in
theorem TciST_at (hd : √(ccA k s ^ 2 + (ccB k s + 1 / k) ^ 2) ≤ ‖center c2 - center c1‖) :
    let q := SF.HcRs.TciST_tangents (SF.hc_cc_circle_param k s) (SF.scratch c1 c2) c1 c2
    AtCusp k c1.left (center c1) q.1 0 ∧ AtTan k s c1.forward (!c1.left) (center c2) q.2 0 ∧
      ∃ x, 0 ≤ x ∧ x ≤ ‖center c2 - center c1‖ ∧ Ahead (-sg c1.forward) q.1 q.2 x := by
  have hA := ccA_pos H.kappa H.sigma H.clothoid
  have hp := scratch_polar c1 c2
  rw [← scratch_distance] at hd ⊢
  obtain ⟨D0, hb, hx⟩ := sqrt_guard hA hd
  have e1 : (⟨c1.xc, c1.yc⟩ : ℂ) = center c1 := rfl
  have e2 : (⟨c2.xc, c2.yc⟩ : ℂ) = center c2 := rfl
  obtain ⟨a, ha⟩ : ∃ a, a = arcsin ((ccB k s + 1 / k) / (SF.scratch c1 c2).distance) := ⟨_, rfl⟩
  have key : ∀ q, q = SF.HcRs.TciST_tangents (SF.hc_cc_circle_param k s) (SF.scratch c1 c2) c1 c2 →
      AtCusp k c1.left (center c1) q.1 0 ∧ AtTan k s c1.forward (!c1.left) (center c2) q.2 0 ∧
      Ahead (-sg c1.forward) q.1 q.2 (√((SF.scratch c1 c2).distance ^ 2 - (ccB k s + 1 / k) ^ 2) - ccA k s) := by
    rintro q rfl
    refine cusp_line (t := (SF.scratch c1 c2).angle + (-(sg c1.left * sg c1.forward)) * a)
      (b := (-(sg c1.left * sg c1.forward)) * (ccB k s + 1 / k)) hp
      (polar_turn D0 hb (by cases c1.left <;> cases c1.forward <;> simp [sg]) ha)
      (by cases c1.left <;> cases c1.forward <;> simp [sg] <;> ring) ?_ ?_ ?_ ?_ ?_
    all_goals unfold SF.HcRs.TciST_tangents
    all_goals simp only [cos_param H, sin_param H, hi, ← ha]
    all_goals
      cases hl : c1.left <;> cases hf : c1.forward <;>
      simp [sg, frame_at, e1, e2, cis_theta, cis_pi_add, sub_eq_add_neg] <;>
      rfl
  obtain ⟨h1, h2, h3⟩ := key _ rfl
  exact ⟨h1, h2, _, by linarith, by linarith [sqrt_sub_le (b := ccB k s + 1 / k) D0], h3⟩

include H hi in
theorem TceST_at (hd : √(ccA k s ^ 2 + (ccB k s - 1 / k) ^ 2) ≤ ‖center c2 - center c1‖) :
    let q := SF.HcRs.TceST_tangents (SF.hc_cc_circle_param k s) (SF.scratch c1 c2) c1 c2
    AtCusp k c1.left (center c1) q.1 0 ∧ AtTan k s c1.forward c1.left (center c2) q.2 0 ∧
      ∃ x, 0 ≤ x ∧ x ≤ ‖center c2 - center c1‖ ∧ Ahead (-sg c1.forward) q.1 q.2 x := by
  have hA := ccA_pos H.kappa H.sigma H.clothoid
  have hp := scratch_polar c1 c2
  rw [← scratch_distance] at hd ⊢
  obtain ⟨D0, hb, hx⟩ := sqrt_guard hA hd
  have e1 : (⟨c1.xc, c1.yc⟩ : ℂ) = center c1 := rfl
  have e2 : (⟨c2.xc, c2.yc⟩ : ℂ) = center c2 := rfl
  obtain ⟨a, ha⟩ : ∃ a, a = arcsin ((ccB k s - 1 / k) / (SF.scratch c1 c2).distance) := ⟨_, rfl⟩
  have key : ∀ q, q = SF.HcRs.TceST_tangents (SF.hc_cc_circle_param k s) (SF.scratch c1 c2) c1 c2 →
      AtCusp k c1.left (center c1) q.1 0 ∧ AtTan k s c1.forward c1.left (center c2) q.2 0 ∧
      Ahead (-sg c1.forward) q.1 q.2 (√((SF.scratch c1 c2).distance ^ 2 - (ccB k s - 1 / k) ^ 2) - ccA k s) := by
    rintro q rfl
    refine cusp_line (t := (SF.scratch c1 c2).angle + ((sg c1.left * sg c1.forward)) * a)
      (b := ((sg c1.left * sg c1.forward)) * (ccB k s - 1 / k)) hp
      (polar_turn D0 hb (by cases c1.left <;> cases c1.forward <;> simp [sg]) ha)
      (by cases c1.left <;> cases c1.forward <;> simp [sg] <;> ring) ?_ ?_ ?_ ?_ ?_
    all_goals unfold SF.HcRs.TceST_tangents
    all_goals simp only [cos_param H, sin_param H, hi, ← ha]
    all_goals
      cases hl : c1.left <;> cases hf : c1.forward <;>
      simp [sg, frame_at, e1, e2, cis_theta, cis_pi_add, sub_eq_add_neg] <;>
      rfl
  obtain ⟨h1, h2, h3⟩ := key _ rfl
  exact ⟨h1, h2, _, by linarith, by linarith [sqrt_sub_le (b := ccB k s - 1 / k) D0], h3⟩

include H hi in
theorem TiScT_at (hd : √(ccA k s ^ 2 + (ccB k s + 1 / k) ^ 2) ≤ ‖center c2 - center c1‖) :
    let q := SF.HcRs.TiScT_tangents (SF.hc_cc_circle_param k s) (SF.scratch c1 c2) c1 c2
    AtTan k s c1.forward c1.left (center c1) q.1 0 ∧ AtCusp k (!c1.left) (center c2) q.2 0 ∧
      ∃ x, 0 ≤ x ∧ x ≤ ‖center c2 - center c1‖ ∧ Ahead (sg c1.forward) q.1 q.2 x := by
  have hA := ccA_pos H.kappa H.sigma H.clothoid
  have hp := scratch_polar c1 c2
  rw [← scratch_distance] at hd ⊢
  obtain ⟨D0, hb, hx⟩ := sqrt_guard hA hd
  have e1 : (⟨c1.xc, c1.yc⟩ : ℂ) = center c1 := rfl
  have e2 : (⟨c2.xc, c2.yc⟩ : ℂ) = center c2 := rfl
  obtain ⟨a, ha⟩ : ∃ a, a = arcsin ((ccB k s + 1 / k) / (SF.scratch c1 c2).distance) := ⟨_, rfl⟩
  have key : ∀ q, q = SF.HcRs.TiScT_tangents (SF.hc_cc_circle_param k s) (SF.scratch c1 c2) c1 c2 →
      AtTan k s c1.forward c1.left (center c1) q.1 0 ∧ AtCusp k (!c1.left) (center c2) q.2 0 ∧
      Ahead (sg c1.forward) q.1 q.2 (√((SF.scratch c1 c2).distance ^ 2 - (ccB k s + 1 / k) ^ 2) - ccA k s) := by
    rintro q rfl
    refine line_cusp (t := (SF.scratch c1 c2).angle + ((sg c1.left * sg c1.forward)) * a)
      (b := ((sg c1.left * sg c1.forward)) * (ccB k s + 1 / k)) hp
      (polar_turn D0 hb (by cases c1.left <;> cases c1.forward <;> simp [sg]) ha)
      (by cases c1.left <;> cases c1.forward <;> simp [sg] <;> ring) ?_ ?_ ?_ ?_ ?_
    all_goals unfold SF.HcRs.TiScT_tangents
    all_goals simp only [cos_param H, sin_param H, hi, ← ha]
    all_goals
      cases hl : c1.left <;> cases hf : c1.forward <;>
      simp [sg, frame_at, e1, e2, cis_theta, cis_pi_add, sub_eq_add_neg] <;>
      rfl
  obtain ⟨h1, h2, h3⟩ := key _ rfl
  exact ⟨h1, h2, _, by linarith, by linarith [sqrt_sub_le (b := ccB k s + 1 / k) D0], h3⟩

include H hi in
theorem TeScT_at (hd : √(ccA k s ^ 2 + (ccB k s - 1 / k) ^ 2) ≤ ‖center c2 - center c1‖) :
    let q := SF.HcRs.TeScT_tangents (SF.hc_cc_circle_param k s) (SF.scratch c1 c2) c1 c2
    AtTan k s c1.forward c1.left (center c1) q.1 0 ∧ AtCusp k c1.left (center c2) q.2 0 ∧
      ∃ x, 0 ≤ x ∧ x ≤ ‖center c2 - center c1‖ ∧ Ahead (sg c1.forward) q.1 q.2 x := by
  have hA := ccA_pos H.kappa H.sigma H.clothoid
  have hp := scratch_polar c1 c2
  rw [← scratch_distance] at hd ⊢
  obtain ⟨D0, hb, hx⟩ := sqrt_guard hA hd
  have e1 : (⟨c1.xc, c1.yc⟩ : ℂ) = center c1 := rfl
  have e2 : (⟨c2.xc, c2.yc⟩ : ℂ) = center c2 := rfl
  obtain ⟨a, ha⟩ : ∃ a, a = arcsin ((ccB k s - 1 / k) / (SF.scratch c1 c2).distance) := ⟨_, rfl⟩
  have key : ∀ q, q = SF.HcRs.TeScT_tangents (SF.hc_cc_circle_param k s) (SF.scratch c1 c2) c1 c2 →
      AtTan k s c1.forward c1.left (center c1) q.1 0 ∧ AtCusp k c1.left (center c2) q.2 0 ∧
      Ahead (sg c1.forward) q.1 q.2 (√((SF.scratch c1 c2).distance ^ 2 - (ccB k s - 1 / k) ^ 2) - ccA k s) := by
    rintro q rfl
    refine line_cusp (t := (SF.scratch c1 c2).angle + ((sg c1.left * sg c1.forward)) * a)
      (b := ((sg c1.left * sg c1.forward)) * (ccB k s - 1 / k)) hp
      (polar_turn D0 hb (by cases c1.left <;> cases c1.forward <;> simp [sg]) ha)
      (by cases c1.left <;> cases c1.forward <;> simp [sg] <;> ring) ?_ ?_ ?_ ?_ ?_
    all_goals unfold SF.HcRs.TeScT_tangents
    all_goals simp only [cos_param H, sin_param H, hi, ← ha]
    all_goals
      cases hl : c1.left <;> cases hf : c1.forward <;>
      simp [sg, frame_at, e1, e2, cis_theta, cis_pi_add, sub_eq_add_neg] <;>
      rfl
  obtain ⟨h1, h2, h3⟩ := key _ rfl
  exact ⟨h1, h2, _, by linarith, by linarith [sqrt_sub_le (b := ccB k s - 1 / k) D0], h3⟩

theorem cusp_guard {k D : ℝ} (hk : 0 < k) (h : 2 * (1 / k) < D) : 0 < √(D ^ 2 - (2 * (1 / k)) ^ 2) := by
  have : 0 < 1 / k := by positivity
  exact sqrt_pos.2 (by nlinarith)

include H hi hkk in
theorem TciScT_at (hd : 2 * (1 / k) < ‖center c2 - center c1‖) :
    let q := SF.HcRs.TciScT_tangents (SF.scratch c1 c2) c1 c2
    AtCusp k c1.left (center c1) q.1 0 ∧ AtCusp k (!c1.left) (center c2) q.2 0 ∧
      ∃ x, 0 < x ∧ x ≤ ‖center c2 - center c1‖ ∧ Ahead (-sg c1.forward) q.1 q.2 x := by
  have hp := scratch_polar c1 c2
  rw [← scratch_distance] at hd ⊢
  have hk := H.pos
  have hk' : 0 < 1 / k := by positivity
  have D0 : 0 < (SF.scratch c1 c2).distance := by linarith
  have hb : |2 * (1 / k)| ≤ (SF.scratch c1 c2).distance := by rw [abs_of_nonneg (by positivity)]; exact hd.le
  have e1 : (⟨c1.xc, c1.yc⟩ : ℂ) = center c1 := rfl
  have e2 : (⟨c2.xc, c2.yc⟩ : ℂ) = center c2 := rfl
  have harg : 2 / (k * (SF.scratch c1 c2).distance) = 2 * (1 / k) / (SF.scratch c1 c2).distance := by field_simp
  obtain ⟨a, ha⟩ : ∃ a, a = arcsin (2 * (1 / k) / (SF.scratch c1 c2).distance) := ⟨_, rfl⟩
  have key : ∀ q, q = SF.HcRs.TciScT_tangents (SF.scratch c1 c2) c1 c2 →
      AtCusp k c1.left (center c1) q.1 0 ∧ AtCusp k (!c1.left) (center c2) q.2 0 ∧
      Ahead (-sg c1.forward) q.1 q.2 (√((SF.scratch c1 c2).distance ^ 2 - (2 * (1 / k)) ^ 2)) := by
    rintro q rfl
    refine cusp_cusp (t := (SF.scratch c1 c2).angle + (-(sg c1.left * sg c1.forward)) * a)
      (b := (-(sg c1.left * sg c1.forward)) * (2 * (1 / k))) hp
      (polar_turn D0 hb (by cases c1.left <;> cases c1.forward <;> simp [sg]) ha)
      (by cases c1.left <;> cases c1.forward <;> simp [sg] <;> ring) ?_ ?_ ?_ ?_ ?_
    all_goals unfold SF.HcRs.TciScT_tangents
    all_goals simp only [hkk, hi, harg, ← ha]
    all_goals
      cases hl : c1.left <;> cases hf : c1.forward <;>
      simp [sg, frame_at, e1, e2, cis_theta, cis_pi_add, sub_eq_add_neg] <;>
      rfl
  obtain ⟨h1, h2, h3⟩ := key _ rfl
  exact ⟨h1, h2, _, cusp_guard hk hd, sqrt_sub_le D0, h3⟩

include hi in
theorem TceScT_at :
    let q := SF.HcRs.TceScT_tangents (SF.scratch c1 c2) c1 c2
    AtCusp k c1.left (center c1) q.1 0 ∧ AtCusp k c1.left (center c2) q.2 0 ∧
      Ahead (-sg c1.forward) q.1 q.2 ‖center c2 - center c1‖ := by
  have hp := scratch_polar c1 c2
  rw [← scratch_distance]
  have e1 : (⟨c1.xc, c1.yc⟩ : ℂ) = center c1 := rfl
  have e2 : (⟨c2.xc, c2.yc⟩ : ℂ) = center c2 := rfl
  have key : ∀ q, q = SF.HcRs.TceScT_tangents (SF.scratch c1 c2) c1 c2 →
      AtCusp k c1.left (center c1) q.1 0 ∧ AtCusp k c1.left (center c2) q.2 0 ∧
      Ahead (-sg c1.forward) q.1 q.2 (SF.scratch c1 c2).distance := by
    rintro q rfl
    refine cusp_cusp (t := (SF.scratch c1 c2).angle) (b := 0) hp (by push_cast; ring) (by ring) ?_ ?_ ?_ ?_ ?_
    all_goals unfold SF.HcRs.TceScT_tangents
    all_goals simp only [hi]
    all_goals
      cases hl : c1.left <;> cases hf : c1.forward <;>
      simp [sg, frame_at, e1, e2, cis_theta, cis_pi_add] <;>
      rfl
  exact key _ rfl

end lines

end Spec
