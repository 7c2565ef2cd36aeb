import Verif.Lemmas.HcFamilies
import Verif.Model.CcReedsShepp

/-!
# CC-Reeds-Shepp: where circles are left and entered
-/

noncomputable section

namespace Spec

open Real Props
open CC00 (CircOk cc_turn_ne_nil circOk_at)

/-- A circle with the geometry of CC circles. -/
abbrev Geo (k s : ℝ) (c : SF.Circle) : Prop := GeomOk c (ccA k s) (ccB k s)

section
variable {k s : ℝ} (H : Rng k s)

local notation "P" => SF.hc_cc_circle_param k s

include H in
theorem geo_centered (x y : ℝ) (l f r : Bool) : Geo k s (SF.circleCentered x y l f r P) :=
  (circleCentered_ok (hc_param_ok H.kappa H.sigma H.clothoid) x y l f r).geom

theorem TT_geo (c1 c2 : SF.Circle) (h : Geo k s c1) {e : ℝ} (hd : |‖center c2 - center c1‖ - 2 * ccR k s| ≤ 2 * e) :
    AtTan k s c1.forward c1.left (center c1) (SF.CcRs.TT_tangent_circles c1 c2) e ∧
    AtTan k s (!c1.forward) (!c1.left) (center c2) (SF.CcRs.TT_tangent_circles c1 c2) e := by
  have S := TT_spec h c2
  have hcd : SF.center_distance c1 c2 = ‖center c2 - center c1‖ := center_distance_eq _ _
  have hd : ‖((SF.center_distance c1 c2 / 2 - c1.radius : ℝ) : ℂ) * cis (SF.atan2 (c2.yc - c1.yc) (c2.xc - c1.xc))‖ ≤ e := by
    rw [norm_mul, norm_cis, mul_one, Complex.norm_real, Real.norm_eq_abs, h.ccR, hcd]
    have h' := abs_le.mp hd
    rw [abs_le]; constructor <;> linarith
  refine ⟨?_, ?_⟩
  · rw [AtTan, SF.CcRs.TT_tangent_circles]
    exact (congrArg norm S.1).trans_le hd
  · rw [AtTan, sg_not, sg_not, neg_mul, neg_neg, neg_mul, SF.CcRs.TT_tangent_circles]
    refine (congrArg norm S.2).trans_le ?_
    rw [norm_neg]; exact hd

theorem TT_geo' (c1 c2 : SF.Circle) (h : Geo k s c1) {f l : Bool} {z1 z2 : ℂ} (hf : c1.forward = f) (hl : c1.left = l)
    (h1 : center c1 = z1) (h2 : center c2 = z2) (hd : ‖z2 - z1‖ = 2 * ccR k s) :
    AtTan k s f l z1 (SF.CcRs.TT_tangent_circles c1 c2) 0 ∧
    AtTan k s (!f) (!l) z2 (SF.CcRs.TT_tangent_circles c1 c2) 0 := by
  subst hf hl h1 h2
  exact TT_geo c1 c2 h (by rw [hd]; simp)

include H in
theorem TiST_geo (c1 c2 : SF.Circle) (h : Geo k s c1) (hd : 2 * ccR k s ≤ ‖center c2 - center c1‖) :
    let q := SF.CcRs.TiST_tangent_circles c1 c2
    AtTan k s c1.forward c1.left (center c1) q.1 0 ∧ AtTan k s (!c1.forward) (!c1.left) (center c2) q.2 0 ∧
      ∃ x, 0 ≤ x ∧ x ≤ ‖center c2 - center c1‖ ∧ Ahead (sg c1.forward) q.1 q.2 x := by
  have hB := ccB_pos H.kappa H.sigma H.clothoid
  have hA := ccA_pos H.kappa H.sigma H.clothoid
  have hcd : SF.center_distance c1 c2 = ‖center c2 - center c1‖ := center_distance_eq _ _
  obtain ⟨S1, S2, S3, S4, S5⟩ := TiST_spec h c2 hB (by rw [h.ccR, hcd]; exact hd)
  rw [hcd] at S4 S5
  refine ⟨?_, ?_, _, ?_, ?_, S3, S4⟩
  · exact (congrArg norm (sub_eq_zero.2 S1)).trans_le (by simp)
  · rw [AtTan, sg_not, sg_not, neg_mul, neg_neg, neg_mul]
    exact (congrArg norm (sub_eq_zero.2 S2)).trans_le (by simp)
  · linarith
  · have h0 : 0 ≤ ‖center c2 - center c1‖ := norm_nonneg _
    have : √(‖center c2 - center c1‖ ^ 2 - 4 * ccB k s ^ 2) ≤ ‖center c2 - center c1‖ :=
      sqrt_le_iff.2 ⟨h0, by nlinarith⟩
    linarith

include H in
theorem TeST_geo (c1 c2 : SF.Circle) (h : Geo k s c1) (hd : 2 * ccA k s ≤ ‖center c2 - center c1‖) :
    let q := SF.CcRs.TeST_tangent_circles c1 c2
    AtTan k s c1.forward c1.left (center c1) q.1 0 ∧ AtTan k s (!c1.forward) c1.left (center c2) q.2 0 ∧
      ∃ x, 0 ≤ x ∧ x ≤ ‖center c2 - center c1‖ ∧ Ahead (sg c1.forward) q.1 q.2 x := by
  have hA := ccA_pos H.kappa H.sigma H.clothoid
  have hcd : SF.center_distance c1 c2 = ‖center c2 - center c1‖ := center_distance_eq _ _
  obtain ⟨S1, S2, S3, S4⟩ := TeST_spec h c2
  rw [hcd] at S4
  refine ⟨?_, ?_, _, ?_, ?_, S3, S4⟩
  · exact (congrArg norm (sub_eq_zero.2 S1)).trans_le (by simp)
  · rw [AtTan, sg_not, neg_mul, neg_neg]
    exact (congrArg norm (sub_eq_zero.2 S2)).trans_le (by simp)
  · linarith
  · linarith

/-- The centre errors of `TcT_tangent_circles`. -/
theorem TcT_cc_error (c1 c2 : SF.Circle) {e : ℝ}
    (he : |0.5 * SF.center_distance c1 c2 - ccB k s|
      + |√(c1.radius ^ 2 - (0.5 * SF.center_distance c1 c2) ^ 2) - ccA k s| ≤ e) :
    AtTan k s c1.forward c1.left (center c1) (SF.CcRs.TcT_tangent_circles c1 c2) e ∧
    AtTan k s c1.forward (!c1.left) (center c2) (SF.CcRs.TcT_tangent_circles c1 c2) e := by
  have hp := center_polar c1 c2
  unfold SF.CcRs.TcT_tangent_circles SF.CcRs.TcT_theta AtTan
  obtain ⟨g, hg⟩ : ∃ g, g = SF.atan2 (c2.yc - c1.yc) (c2.xc - c1.xc) := ⟨_, rfl⟩
  obtain ⟨D, hD⟩ : ∃ D, D = SF.center_distance c1 c2 := ⟨_, rfl⟩
  simp only [← hg, ← hD] at hp he ⊢
  obtain ⟨y, hy⟩ : ∃ y, y = √(c1.radius ^ 2 - (0.5 * D) ^ 2) := ⟨_, rfl⟩
  rw [← hy] at he ⊢
  have e1 : (⟨c1.xc, c1.yc⟩ : ℂ) = center c1 := rfl
  have key : ∀ a v : ℝ, |a| = |0.5 * D - ccB k s| → |v| = |y - ccA k s| → ‖cis g * ⟨a, v⟩‖ ≤ e := by
    intro a v ha hv
    rw [norm_cis_mul]
    refine (Complex.norm_le_abs_re_add_abs_im _).trans ?_
    simp only [ha, hv]; exact he
  have hpos : ∀ t κ, (cfg (SF.configuration
      (if c1.left then if c1.forward then SF.global_frame_change c1.xc c1.yc g (0.5 * D) y
        else SF.global_frame_change c1.xc c1.yc g (0.5 * D) (-y)
      else if c1.forward then SF.global_frame_change c1.xc c1.yc g (0.5 * D) (-y)
        else SF.global_frame_change c1.xc c1.yc g (0.5 * D) y).1
      (if c1.left then if c1.forward then SF.global_frame_change c1.xc c1.yc g (0.5 * D) y
        else SF.global_frame_change c1.xc c1.yc g (0.5 * D) (-y)
      else if c1.forward then SF.global_frame_change c1.xc c1.yc g (0.5 * D) (-y)
        else SF.global_frame_change c1.xc c1.yc g (0.5 * D) y).2 t κ)).pos
      = center c1 + cis g * (((0.5 * D : ℝ) : ℂ) + ((sg c1.left * sg c1.forward * y : ℝ) : ℂ) * Complex.I) := by
    intro t κ
    cases c1.left <;> cases c1.forward <;> simp only [if_true, Bool.false_eq_true, if_false, frame_at, e1, sg] <;>
      norm_num
  have hcis : cis (if c1.left then g + π / 2 else g - π / 2) = ((sg c1.left : ℝ) : ℂ) * Complex.I * cis g := by
    cases c1.left <;> apply Complex.ext <;> simp [cis, sg, cos_add, sin_add, cos_sub, sin_sub]
  have eA : ∀ a b : ℝ, (⟨a, b⟩ : ℂ) = a + b * Complex.I := fun a b => Complex.mk_eq_add_mul_I a b
  have hl : ((sg c1.left : ℝ) : ℂ) * ((sg c1.left : ℝ) : ℂ) = 1 := by exact_mod_cast sg_mul_sg c1.left
  have hv : ∀ v : ℝ, |sg c1.left * sg c1.forward * v| = |v| := by
    intro v; cases c1.left <;> cases c1.forward <;> simp [sg]
  have hI := Complex.I_mul_I
  constructor
  · rw [cen, hpos, show ∀ q, (cfg q).theta = q.theta from fun _ => rfl, cis_theta, hcis, eA]
    refine (congrArg norm ?_).trans_le (key (0.5 * D - ccB k s) (sg c1.left * sg c1.forward * (y - ccA k s)) rfl (hv _))
    rw [eA]
    push_cast
    linear_combination (cis g * (ccB k s : ℂ)) * (-hl + ((sg c1.left : ℝ) : ℂ) * ((sg c1.left : ℝ) : ℂ) * hI)
  · rw [cen, hpos, show ∀ q, (cfg q).theta = q.theta from fun _ => rfl, cis_theta, hcis, eA, hp]
    refine (congrArg norm ?_).trans_le (key (-(0.5 * D - ccB k s)) (sg c1.left * sg c1.forward * (y - ccA k s))
      (abs_neg _) (hv _))
    rw [eA, sg_not]
    push_cast
    linear_combination (-cis g * (ccB k s : ℂ)) * (-hl + ((sg c1.left : ℝ) : ℂ) * ((sg c1.left : ℝ) : ℂ) * hI)

include H in
/-- Circles at the distance of a cusp. -/
theorem TcT_cc_at (c1 c2 : SF.Circle) (hP : Geo k s c1) {f l : Bool} {z1 z2 : ℂ} (hf : c1.forward = f)
    (hl : c1.left = l) (h1 : center c1 = z1) (h2 : center c2 = z2) (hd : ‖z2 - z1‖ = 2 * ccB k s) :
    AtTan k s f l z1 (SF.CcRs.TcT_tangent_circles c1 c2) 0 ∧
    AtTan k s f (!l) z2 (SF.CcRs.TcT_tangent_circles c1 c2) 0 := by
  subst hf hl h1 h2
  rw [← center_distance_eq] at hd
  refine TcT_cc_error c1 c2 (le_of_eq ?_)
  rw [hd, hP.ccR, ccR_sq, show (0.5 * (2 * ccB k s)) = ccB k s by ring, add_sub_cancel_right,
    sqrt_sq (ccA_pos H.kappa H.sigma H.clothoid).le]
  simp

include H in
/-- Circles nearly at the distance of a cusp. -/
theorem TcT_cc_near (c1 c2 : SF.Circle) (hP : Geo k s c1) {e : ℝ}
    (hd : |‖center c2 - center c1‖ - 2 * ccB k s| ≤ 2 * e) (hn : ¬SF.CcRs.TcT_negative c1 c2) :
    AtTan k s c1.forward c1.left (center c1) (SF.CcRs.TcT_tangent_circles c1 c2)
      (e * (1 + (2 * ccB k s + e) / ccA k s)) ∧
    AtTan k s c1.forward (!c1.left) (center c2) (SF.CcRs.TcT_tangent_circles c1 c2)
      (e * (1 + (2 * ccB k s + e) / ccA k s)) := by
  have hA := ccA_pos H.kappa H.sigma H.clothoid
  have hB := ccB_pos H.kappa H.sigma H.clothoid
  have hD0 : 0 ≤ ‖center c2 - center c1‖ := norm_nonneg _
  unfold SF.CcRs.TcT_negative at hn
  refine TcT_cc_error c1 c2 ?_
  rw [← center_distance_eq] at hd hD0
  rw [hP.ccR, ccR_sq] at hn ⊢
  generalize SF.center_distance c1 c2 = D at *
  push Not at hn
  have hs := sq_sqrt hn
  have hy := sqrt_nonneg (ccA k s ^ 2 + ccB k s ^ 2 - (0.5 * D) ^ 2)
  generalize √(ccA k s ^ 2 + ccB k s ^ 2 - (0.5 * D) ^ 2) = y at *
  have hd' := abs_le.1 hd
  have he : 0 ≤ e := by linarith [(abs_nonneg _).trans hd]
  have a1 : |0.5 * D - ccB k s| ≤ e := by rw [abs_le]; constructor <;> linarith
  have a2 : |y - ccA k s| ≤ e * ((2 * ccB k s + e) / ccA k s) := by
    have e1 : (y - ccA k s) * (y + ccA k s) = -((0.5 * D - ccB k s) * (0.5 * D + ccB k s)) := by linarith
    have e2 : |y - ccA k s| * (y + ccA k s) = |0.5 * D - ccB k s| * (0.5 * D + ccB k s) := by
      have := congrArg abs e1
      rwa [abs_neg, abs_mul, abs_mul, abs_of_pos (by linarith : 0 < y + ccA k s),
        abs_of_pos (by linarith : 0 < 0.5 * D + ccB k s)] at this
    have e3 : |y - ccA k s| * ccA k s ≤ e * (2 * ccB k s + e) := by
      have : |0.5 * D - ccB k s| * (0.5 * D + ccB k s) ≤ e * (2 * ccB k s + e) :=
        mul_le_mul a1 (by linarith) (by linarith) he
      nlinarith [abs_nonneg (y - ccA k s)]
    rw [← mul_div_assoc, le_div_iff₀ hA]; exact e3
  rw [mul_add, mul_one]
  exact add_le_add a1 a2

/-- A line between two CC circles; `w` is the driving direction. -/
theorem tan_line {z1 z2 : ℂ} {g D b x t w : ℝ} {f1 f2 l1 l2 : Bool} (hw : w = 1 ∨ w = -1)
    (hp : z2 = z1 + (D : ℂ) * cis g)
    (hturn : (D : ℂ) * cis g = cis t * ((x : ℂ) - ((b : ℝ) : ℂ) * Complex.I))
    (hb : b = w * ((sg l1 - sg l2) * ccB k s))
    {q1 q2 : SF.Configuration}
    (h1 : (cfg q1).pos = z1 + cis t * (((w * sg f1 * ccA k s : ℝ) : ℂ) + ((-(w * sg l1 * ccB k s) : ℝ) : ℂ) * Complex.I))
    (h2 : (cfg q2).pos = z2 + cis t * (((w * sg f2 * ccA k s : ℝ) : ℂ) + ((-(w * sg l2 * ccB k s) : ℝ) : ℂ) * Complex.I))
    (c1 : cis q1.theta = (w : ℂ) * cis t) (c2 : cis q2.theta = (w : ℂ) * cis t)
    (ht : q1.theta = q2.theta) :
    AtTan k s f1 l1 z1 q1 0 ∧ AtTan k s f2 l2 z2 q2 0 ∧ Ahead w q1 q2 (x + w * (sg f2 - sg f1) * ccA k s) := by
  have hf : (w : ℂ) * (w : ℂ) = 1 := by rcases hw with rfl | rfl <;> norm_num
  have eA : ∀ a b : ℝ, (⟨a, b⟩ : ℂ) = a + b * Complex.I := fun a b => Complex.mk_eq_add_mul_I a b
  refine ⟨?_, ?_, ht, ?_⟩
  · rw [AtTan, cen, h1, eA, show (cfg q1).theta = q1.theta from rfl, c1]
    refine (congrArg norm ?_).trans_le (norm_zero (E := ℂ)).le
    push_cast; ring
  · rw [AtTan, cen, h2, eA, show (cfg q2).theta = q2.theta from rfl, c2]
    refine (congrArg norm ?_).trans_le (norm_zero (E := ℂ)).le
    push_cast; ring
  · rw [h1, h2, hp, hturn, c1, hb]
    push_cast
    linear_combination (-(cis t) * ((x : ℂ) + w * (((sg f2 : ℝ) : ℂ) - ((sg f1 : ℝ) : ℂ)) * (ccA k s : ℂ))) * hf

theorem straight_polar (D g : ℝ) : (D : ℂ) * cis g = cis g * ((D : ℂ) - ((0 : ℝ) : ℂ) * Complex.I) := by
  simp [mul_comm]

end

section lines
variable {k s : ℝ} (H : Rng k s) (c1 c2 : SF.Circle) (hP : Geo k s c1)

local notation "m" => SF.scratch c1 c2

include H hP in
theorem TciST_cc_at (hd : 2 * ccB k s ≤ ‖center c2 - center c1‖) :
    let q := SF.CcRs.TciST_tangents m c1 c2
    AtTan k s c1.forward c1.left (center c1) q.1 0 ∧ AtTan k s c1.forward (!c1.left) (center c2) q.2 0 ∧
      ∃ x, 0 ≤ x ∧ x ≤ ‖center c2 - center c1‖ ∧ Ahead (-sg c1.forward) q.1 q.2 x := by
  have hA := ccA_pos H.kappa H.sigma H.clothoid
  have hB := ccB_pos H.kappa H.sigma H.clothoid
  have hp := scratch_polar c1 c2
  have hsin := hP.sin_mu
  have hcos := hP.cos_mu
  have h0 : 0 ≤ ‖center c2 - center c1‖ := norm_nonneg _
  rw [← scratch_distance] at hd h0 ⊢
  have e1 : (⟨c1.xc, c1.yc⟩ : ℂ) = center c1 := rfl
  have e2 : (⟨c2.xc, c2.yc⟩ : ℂ) = center c2 := rfl
  have hw : (-sg c1.forward) = 1 ∨ (-sg c1.forward) = -1 := by cases c1.forward <;> simp [sg]
  have D0 : 0 < (m).distance := by linarith
  have hb : |2 * ccB k s| ≤ (m).distance := by rw [abs_of_pos (by linarith)]; exact hd
  obtain ⟨a, ha⟩ : ∃ a, a = arcsin (2 * ccB k s / (m).distance) := ⟨_, rfl⟩
  have harg : 2 * c1.radius * c1.cos_mu = 2 * ccB k s := by rw [← hcos]; ring
  have key : ∀ q, q = SF.CcRs.TciST_tangents m c1 c2 →
      AtTan k s c1.forward c1.left (center c1) q.1 0 ∧ AtTan k s c1.forward (!c1.left) (center c2) q.2 0 ∧
      Ahead (-sg c1.forward) q.1 q.2 (√((m).distance ^ 2 - (2 * ccB k s) ^ 2) + (-sg c1.forward) * (sg c1.forward - sg c1.forward) * ccA k s) := by
    rintro q rfl
    refine tan_line (t := (m).angle + (-(sg c1.left * sg c1.forward)) * a) (b := (-(sg c1.left * sg c1.forward)) * (2 * ccB k s)) hw hp (polar_turn D0 hb (by cases c1.left <;> cases c1.forward <;> simp [sg]) ha)
      (by cases c1.left <;> cases c1.forward <;> norm_num [sg]) ?_ ?_ ?_ ?_ ?_
    all_goals unfold SF.CcRs.TciST_tangents
    all_goals simp only [harg, hsin, hcos, ← ha]
    all_goals
      cases hl : c1.left <;> cases hf : c1.forward <;>
      simp [sg, frame_at, e1, e2, cis_theta, cis_pi_add, sub_eq_add_neg] <;>
      rfl
  obtain ⟨h1, h2, h3⟩ := key _ rfl
  rw [sub_self, mul_zero, zero_mul, add_zero] at h3
  exact ⟨h1, h2, _, sqrt_nonneg _, sqrt_sub_le D0, h3⟩

include H hP in
theorem TceST_cc_at :
    let q := SF.CcRs.TceST_tangents m c1 c2
    AtTan k s c1.forward c1.left (center c1) q.1 0 ∧ AtTan k s c1.forward c1.left (center c2) q.2 0 ∧
      ∃ x, 0 ≤ x ∧ x ≤ ‖center c2 - center c1‖ ∧ Ahead (-sg c1.forward) q.1 q.2 x := by
  have hA := ccA_pos H.kappa H.sigma H.clothoid
  have hB := ccB_pos H.kappa H.sigma H.clothoid
  have hp := scratch_polar c1 c2
  have hsin := hP.sin_mu
  have hcos := hP.cos_mu
  have h0 : 0 ≤ ‖center c2 - center c1‖ := norm_nonneg _
  rw [← scratch_distance] at h0 ⊢
  have e1 : (⟨c1.xc, c1.yc⟩ : ℂ) = center c1 := rfl
  have e2 : (⟨c2.xc, c2.yc⟩ : ℂ) = center c2 := rfl
  have hw : (-sg c1.forward) = 1 ∨ (-sg c1.forward) = -1 := by cases c1.forward <;> simp [sg]
  have key : ∀ q, q = SF.CcRs.TceST_tangents m c1 c2 →
      AtTan k s c1.forward c1.left (center c1) q.1 0 ∧ AtTan k s c1.forward c1.left (center c2) q.2 0 ∧
      Ahead (-sg c1.forward) q.1 q.2 ((m).distance + (-sg c1.forward) * (sg c1.forward - sg c1.forward) * ccA k s) := by
    rintro q rfl
    refine tan_line (t := (m).angle) (b := 0) hw hp (straight_polar _ _)
      (by cases c1.left <;> cases c1.forward <;> norm_num [sg]) ?_ ?_ ?_ ?_ ?_
    all_goals unfold SF.CcRs.TceST_tangents
    all_goals simp only [hsin, hcos]
    all_goals
      cases hl : c1.left <;> cases hf : c1.forward <;>
      simp [sg, frame_at, e1, e2, cis_theta, cis_pi_add] <;>
      rfl
  obtain ⟨h1, h2, h3⟩ := key _ rfl
  rw [sub_self, mul_zero, zero_mul, add_zero] at h3
  exact ⟨h1, h2, _, h0, le_rfl, h3⟩

include H hP in
theorem TiScT_cc_at (hd : 2 * ccB k s ≤ ‖center c2 - center c1‖) :
    let q := SF.CcRs.TiScT_tangents m c1 c2
    AtTan k s c1.forward c1.left (center c1) q.1 0 ∧ AtTan k s c1.forward (!c1.left) (center c2) q.2 0 ∧
      ∃ x, 0 ≤ x ∧ x ≤ ‖center c2 - center c1‖ ∧ Ahead (sg c1.forward) q.1 q.2 x := by
  have hA := ccA_pos H.kappa H.sigma H.clothoid
  have hB := ccB_pos H.kappa H.sigma H.clothoid
  have hp := scratch_polar c1 c2
  have hsin := hP.sin_mu
  have hcos := hP.cos_mu
  have h0 : 0 ≤ ‖center c2 - center c1‖ := norm_nonneg _
  rw [← scratch_distance] at hd h0 ⊢
  have e1 : (⟨c1.xc, c1.yc⟩ : ℂ) = center c1 := rfl
  have e2 : (⟨c2.xc, c2.yc⟩ : ℂ) = center c2 := rfl
  have hw : (sg c1.forward) = 1 ∨ (sg c1.forward) = -1 := by cases c1.forward <;> simp [sg]
  have D0 : 0 < (m).distance := by linarith
  have hb : |2 * ccB k s| ≤ (m).distance := by rw [abs_of_pos (by linarith)]; exact hd
  obtain ⟨a, ha⟩ : ∃ a, a = arcsin (2 * ccB k s / (m).distance) := ⟨_, rfl⟩
  have harg : 2 * c1.radius * c1.cos_mu = 2 * ccB k s := by rw [← hcos]; ring
  have key : ∀ q, q = SF.CcRs.TiScT_tangents m c1 c2 →
      AtTan k s c1.forward c1.left (center c1) q.1 0 ∧ AtTan k s c1.forward (!c1.left) (center c2) q.2 0 ∧
      Ahead (sg c1.forward) q.1 q.2 (√((m).distance ^ 2 - (2 * ccB k s) ^ 2) + (sg c1.forward) * (sg c1.forward - sg c1.forward) * ccA k s) := by
    rintro q rfl
    refine tan_line (t := (m).angle + (sg c1.left * sg c1.forward) * a) (b := (sg c1.left * sg c1.forward) * (2 * ccB k s)) hw hp (polar_turn D0 hb (by cases c1.left <;> cases c1.forward <;> simp [sg]) ha)
      (by cases c1.left <;> cases c1.forward <;> norm_num [sg]) ?_ ?_ ?_ ?_ ?_
    all_goals unfold SF.CcRs.TiScT_tangents
    all_goals simp only [harg, hsin, hcos, ← ha]
    all_goals
      cases hl : c1.left <;> cases hf : c1.forward <;>
      simp [sg, frame_at, e1, e2, cis_theta, cis_pi_add, sub_eq_add_neg] <;>
      rfl
  obtain ⟨h1, h2, h3⟩ := key _ rfl
  rw [sub_self, mul_zero, zero_mul, add_zero] at h3
  exact ⟨h1, h2, _, sqrt_nonneg _, sqrt_sub_le D0, h3⟩

include H hP in
theorem TeScT_cc_at :
    let q := SF.CcRs.TeScT_tangents m c1 c2
    AtTan k s c1.forward c1.left (center c1) q.1 0 ∧ AtTan k s c1.forward c1.left (center c2) q.2 0 ∧
      ∃ x, 0 ≤ x ∧ x ≤ ‖center c2 - center c1‖ ∧ Ahead (sg c1.forward) q.1 q.2 x := by
  have hA := ccA_pos H.kappa H.sigma H.clothoid
  have hB := ccB_pos H.kappa H.sigma H.clothoid
  have hp := scratch_polar c1 c2
  have hsin := hP.sin_mu
  have hcos := hP.cos_mu
  have h0 : 0 ≤ ‖center c2 - center c1‖ := norm_nonneg _
  rw [← scratch_distance] at h0 ⊢
  have e1 : (⟨c1.xc, c1.yc⟩ : ℂ) = center c1 := rfl
  have e2 : (⟨c2.xc, c2.yc⟩ : ℂ) = center c2 := rfl
  have hw : (sg c1.forward) = 1 ∨ (sg c1.forward) = -1 := by cases c1.forward <;> simp [sg]
  have key : ∀ q, q = SF.CcRs.TeScT_tangents m c1 c2 →
      AtTan k s c1.forward c1.left (center c1) q.1 0 ∧ AtTan k s c1.forward c1.left (center c2) q.2 0 ∧
      Ahead (sg c1.forward) q.1 q.2 ((m).distance + (sg c1.forward) * (sg c1.forward - sg c1.forward) * ccA k s) := by
    rintro q rfl
    refine tan_line (t := (m).angle) (b := 0) hw hp (straight_polar _ _)
      (by cases c1.left <;> cases c1.forward <;> norm_num [sg]) ?_ ?_ ?_ ?_ ?_
    all_goals unfold SF.CcRs.TeScT_tangents
    all_goals simp only [hsin, hcos]
    all_goals
      cases hl : c1.left <;> cases hf : c1.forward <;>
      simp [sg, frame_at, e1, e2, cis_theta, cis_pi_add] <;>
      rfl
  obtain ⟨h1, h2, h3⟩ := key _ rfl
  rw [sub_self, mul_zero, zero_mul, add_zero] at h3
  exact ⟨h1, h2, _, h0, le_rfl, h3⟩

include H hP in
theorem TciScT_cc_at (hd : 2 * ccB k s ≤ ‖center c2 - center c1‖) :
    let q := SF.CcRs.TciScT_tangents m c1 c2
    AtTan k s c1.forward c1.left (center c1) q.1 0 ∧ AtTan k s (!c1.forward) (!c1.left) (center c2) q.2 0 ∧
      ∃ x, 2 * ccA k s ≤ x ∧ x ≤ ‖center c2 - center c1‖ + 2 * ccA k s ∧ Ahead (-sg c1.forward) q.1 q.2 x := by
  have hA := ccA_pos H.kappa H.sigma H.clothoid
  have hB := ccB_pos H.kappa H.sigma H.clothoid
  have hp := scratch_polar c1 c2
  have hsin := hP.sin_mu
  have hcos := hP.cos_mu
  have h0 : 0 ≤ ‖center c2 - center c1‖ := norm_nonneg _
  rw [← scratch_distance] at hd h0 ⊢
  have e1 : (⟨c1.xc, c1.yc⟩ : ℂ) = center c1 := rfl
  have e2 : (⟨c2.xc, c2.yc⟩ : ℂ) = center c2 := rfl
  have hw : (-sg c1.forward) = 1 ∨ (-sg c1.forward) = -1 := by cases c1.forward <;> simp [sg]
  have D0 : 0 < (m).distance := by linarith
  have hb : |2 * ccB k s| ≤ (m).distance := by rw [abs_of_pos (by linarith)]; exact hd
  obtain ⟨a, ha⟩ : ∃ a, a = arcsin (2 * ccB k s / (m).distance) := ⟨_, rfl⟩
  have harg : 2 * c1.radius * c1.cos_mu = 2 * ccB k s := by rw [← hcos]; ring
  have key : ∀ q, q = SF.CcRs.TciScT_tangents m c1 c2 →
      AtTan k s c1.forward c1.left (center c1) q.1 0 ∧ AtTan k s (!c1.forward) (!c1.left) (center c2) q.2 0 ∧
      Ahead (-sg c1.forward) q.1 q.2 (√((m).distance ^ 2 - (2 * ccB k s) ^ 2) + (-sg c1.forward) * (sg (!c1.forward) - sg c1.forward) * ccA k s) := by
    rintro q rfl
    refine tan_line (t := (m).angle + (-(sg c1.left * sg c1.forward)) * a) (b := (-(sg c1.left * sg c1.forward)) * (2 * ccB k s)) hw hp (polar_turn D0 hb (by cases c1.left <;> cases c1.forward <;> simp [sg]) ha)
      (by cases c1.left <;> cases c1.forward <;> norm_num [sg]) ?_ ?_ ?_ ?_ ?_
    all_goals unfold SF.CcRs.TciScT_tangents
    all_goals simp only [harg, hsin, hcos, ← ha]
    all_goals
      cases hl : c1.left <;> cases hf : c1.forward <;>
      simp [sg, frame_at, e1, e2, cis_theta, cis_pi_add, sub_eq_add_neg] <;>
      rfl
  obtain ⟨h1, h2, h3⟩ := key _ rfl
  rw [show -sg c1.forward * (sg (!c1.forward) - sg c1.forward) = 2 by cases c1.forward <;> norm_num [sg]] at h3
  exact ⟨h1, h2, _, by linarith [sqrt_nonneg ((m).distance ^ 2 - (2 * ccB k s) ^ 2)], by have := sqrt_sub_le (b := 2 * ccB k s) D0; linarith, h3⟩

include H hP in
theorem TceScT_cc_at :
    let q := SF.CcRs.TceScT_tangents m c1 c2
    AtTan k s c1.forward c1.left (center c1) q.1 0 ∧ AtTan k s (!c1.forward) c1.left (center c2) q.2 0 ∧
      ∃ x, 2 * ccA k s ≤ x ∧ x ≤ ‖center c2 - center c1‖ + 2 * ccA k s ∧ Ahead (-sg c1.forward) q.1 q.2 x := by
  have hA := ccA_pos H.kappa H.sigma H.clothoid
  have hB := ccB_pos H.kappa H.sigma H.clothoid
  have hp := scratch_polar c1 c2
  have hsin := hP.sin_mu
  have hcos := hP.cos_mu
  have h0 : 0 ≤ ‖center c2 - center c1‖ := norm_nonneg _
  rw [← scratch_distance] at h0 ⊢
  have e1 : (⟨c1.xc, c1.yc⟩ : ℂ) = center c1 := rfl
  have e2 : (⟨c2.xc, c2.yc⟩ : ℂ) = center c2 := rfl
  have hw : (-sg c1.forward) = 1 ∨ (-sg c1.forward) = -1 := by cases c1.forward <;> simp [sg]
  have key : ∀ q, q = SF.CcRs.TceScT_tangents m c1 c2 →
      AtTan k s c1.forward c1.left (center c1) q.1 0 ∧ AtTan k s (!c1.forward) c1.left (center c2) q.2 0 ∧
      Ahead (-sg c1.forward) q.1 q.2 ((m).distance + (-sg c1.forward) * (sg (!c1.forward) - sg c1.forward) * ccA k s) := by
    rintro q rfl
    refine tan_line (t := (m).angle) (b := 0) hw hp (straight_polar _ _)
      (by cases c1.left <;> cases c1.forward <;> norm_num [sg]) ?_ ?_ ?_ ?_ ?_
    all_goals unfold SF.CcRs.TceScT_tangents
    all_goals simp only [hsin, hcos]
    all_goals
      cases hl : c1.left <;> cases hf : c1.forward <;>
      simp [sg, frame_at, e1, e2, cis_theta, cis_pi_add] <;>
      rfl
  obtain ⟨h1, h2, h3⟩ := key _ rfl
  rw [show -sg c1.forward * (sg (!c1.forward) - sg c1.forward) = 2 by cases c1.forward <;> norm_num [sg]] at h3
  exact ⟨h1, h2, _, by linarith, by linarith, h3⟩

end lines

end Spec
