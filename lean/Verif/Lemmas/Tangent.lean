import Verif.Lemmas.Leg
import Verif.Model.CcDubinsPm

/-!
# Where circles are left and entered
-/

noncomputable section

namespace Spec

open Real Props
open CC00 (CircOk circOk_at mid_dist)

/-- A turn on `c` may end in `q` (if it starts on `c`), up to the error `e` of the centre. -/
def Tan (k s : ℝ) (c : SF.Circle) (q : SF.Configuration) (e : ℝ) : Prop :=
  ‖cen (-(sg c.forward * ccA k s)) (sg c.left * ccB k s) (cfg q) - center c‖ ≤ e

theorem GeomOk.reparam {c : SF.Circle} {A B : ℝ} (h : GeomOk c A B) (c' : SF.Circle) :
    GeomOk (c'.reparam c.toCircleParam) A B := ⟨h.1, h.2, h.3, h.4, h.5⟩

theorem geom_reparam {k s : ℝ} (H : Rng k s) (c : SF.Circle) :
    GeomOk (c.reparam (SF.hc_cc_circle_param k s)) (ccA k s) (ccB k s) :=
  have h := hc_param_ok H.kappa H.sigma H.clothoid
  ⟨h.radius, h.sin_mu, h.cos_mu, h.sin_mu_eq, h.cos_mu_eq⟩

theorem GeomOk.ccR {c : SF.Circle} {k s : ℝ} (h : GeomOk c (ccA k s) (ccB k s)) : c.radius = ccR k s := h.radius

theorem not_of_ne {a b : Bool} (h : ¬ a = b) : b = !a := by revert h; cases a <;> cases b <;> simp

section
variable {k s : ℝ} {c1 c2 : SF.Circle} (h : GeomOk c1 (ccA k s) (ccB k s)) (hf : c2.forward = !c1.forward)

include h hf in
theorem TT_tan_of (hlr : c2.left = !c1.left) {e : ℝ}
    (hd : |SF.center_distance c1 c2 - 2 * ccR k s| ≤ 2 * e) :
    Tan k s c1 (SF.CC00.TT_tangent_circles c1 c2) e ∧ Tan k s c2 (SF.CC00.TT_tangent_circles c1 c2) e := by
  have S := TT_spec h c2
  have hd : ‖((SF.center_distance c1 c2 / 2 - c1.radius : ℝ) : ℂ)
      * cis (SF.atan2 (c2.yc - c1.yc) (c2.xc - c1.xc))‖ ≤ e := by
    rw [norm_mul, norm_cis, mul_one, Complex.norm_real, Real.norm_eq_abs, h.ccR]
    have h' := abs_le.mp hd
    rw [abs_le]; constructor <;> linarith
  refine ⟨?_, ?_⟩
  · rw [Tan, S.1]; exact hd
  · rw [Tan, hf, hlr, sg_not, sg_not, neg_mul, neg_neg, neg_mul, S.2, norm_neg]; exact hd

include h hf in
theorem TT_tan (ht : SF.CC00.TT_exists (SF.scratch c1 c2) c1 c2) :
    Tan k s c1 (SF.CC00.TT_tangent_circles c1 c2) (SF.epsilon / 2) ∧
      Tan k s c2 (SF.CC00.TT_tangent_circles c1 c2) (SF.epsilon / 2) := by
  unfold SF.CC00.TT_exists at ht
  split_ifs at ht with hlr _
  refine TT_tan_of h hf (not_of_ne hlr) ?_
  rw [h.ccR] at ht
  have : (SF.scratch c1 c2).distance = SF.center_distance c1 c2 := rfl
  rw [this] at ht
  linarith

/-- The line between two tangent configurations. -/
def TanLine (k s : ℝ) (c1 c2 : SF.Circle) (q : SF.Configuration × SF.Configuration) : Prop :=
  Tan k s c1 q.1 0 ∧ Tan k s c2 q.2 0 ∧ q.1.theta = q.2.theta ∧ ∃ x, 0 ≤ x ∧ x ≤ SF.center_distance c1 c2 ∧
    (cfg q.2).pos - (cfg q.1).pos = cis q.1.theta * ((sg c1.forward * x : ℝ) : ℂ)

include h hf in
theorem TiST_tan (H : Rng k s) (ht : SF.CC00.TiST_exists (SF.scratch c1 c2) c1 c2) :
    TanLine k s c1 c2 (SF.CC00.TiST_tangent_circles c1 c2) := by
  unfold SF.CC00.TiST_exists at ht
  split_ifs at ht with hlr _
  have hlr' := not_of_ne hlr
  have hB := ccB_pos H.kappa H.sigma H.clothoid
  have hA := ccA_pos H.kappa H.sigma H.clothoid
  obtain ⟨S1, S2, S3, S4, S5⟩ := TiST_spec h c2 hB ht
  refine ⟨?_, ?_, S3, _, ?_, ?_, S4⟩
  · rw [Tan, S1]; simp
  · rw [Tan, hf, hlr', sg_not, sg_not, neg_mul, neg_neg, neg_mul, S2]; simp
  · linarith
  · have h0 : 0 ≤ SF.center_distance c1 c2 := sqrt_nonneg _
    have : √(SF.center_distance c1 c2 ^ 2 - 4 * ccB k s ^ 2) ≤ SF.center_distance c1 c2 :=
      sqrt_le_iff.2 ⟨h0, by nlinarith⟩
    linarith

include h hf in
theorem TeST_tan (H : Rng k s) (ht : SF.CC00.TeST_exists (SF.scratch c1 c2) c1 c2) :
    TanLine k s c1 c2 (SF.CC00.TeST_tangent_circles c1 c2) := by
  unfold SF.CC00.TeST_exists at ht
  split_ifs at ht with hlr _
  push Not at hlr
  have hA := ccA_pos H.kappa H.sigma H.clothoid
  obtain ⟨S1, S2, S3, S4⟩ := TeST_spec h c2
  have hd : 2 * c1.radius * c1.sin_mu ≤ SF.center_distance c1 c2 := ht
  rw [mul_assoc, h.sin_mu] at hd
  refine ⟨?_, ?_, S3, _, ?_, ?_, S4⟩
  · rw [Tan, S1]; simp
  · rw [Tan, hf, ← hlr, sg_not, neg_mul, neg_neg, S2]; simp
  · linarith
  · linarith

end

/-- Tangency at the start of a circle: the circle there has the right centre. -/
theorem tan_start {k s : ℝ} (H : Rng k s) {q : SF.Configuration} {l f : Bool} {c : SF.Circle} {e : ℝ}
    (ht : Tan k s c q e) (hf : c.forward = !f) (hl : c.left = l) :
    ‖center (SF.circleAt q l f true (SF.hc_cc_circle_param k s)) - center c‖ ≤ e := by
  have hc := (circOk_at H.kappa H.sigma H.clothoid q l f true).cen
  rw [hc]
  rw [Tan, hf, hl, sg_not, neg_mul, neg_neg] at ht
  exact ht

/-- The middle circle between two circles on which it rolls. -/
theorem middle_tan {k s : ℝ} (H : Rng k s) {c1 c2 tgt c1' tgt' : SF.Circle}
    (h1 : GeomOk c1' (ccA k s) (ccB k s)) (h2 : GeomOk tgt' (ccA k s) (ccB k s))
    (e1 : c1'.forward = c1.forward ∧ c1'.left = c1.left ∧ center c1' = center c1)
    (e2 : tgt'.forward = tgt.forward ∧ tgt'.left = tgt.left ∧ center tgt' = center tgt)
    (hf : c2.forward = !c1.forward) (hlr : c2.left = c1.left) (htl : tgt.left = !c1.left)
    (htf : tgt.forward = c1.forward)
    (hd1 : ‖center tgt - center c1‖ = 2 * ccR k s) (hd2 : ‖center c2 - center tgt‖ = 2 * ccR k s)
    (qa qb : SF.Configuration) (hqa : qa = SF.CC00.TT_tangent_circles c1' tgt)
    (hqb : qb = SF.CC00.TT_tangent_circles tgt' c2) :
    Tan k s c1 qa 0 ∧
      Tan k s (SF.circleAt qa (!c1.left) c1.forward true (SF.hc_cc_circle_param k s)) qb 0 ∧
      Tan k s c2 qb 0 := by
  obtain ⟨e11, e12, e13⟩ := e1
  obtain ⟨e21, e22, e23⟩ := e2
  have D1 : SF.center_distance c1' tgt = 2 * c1'.radius := by
    rw [center_distance_eq, e13, h1.ccR]; exact hd1
  have D2 : SF.center_distance tgt' c2 = 2 * tgt'.radius := by
    rw [center_distance_eq, e23, h2.ccR]; exact hd2
  have S1 := TT_spec h1 tgt
  have S2 := TT_spec h2 c2
  rw [D1, ← hqa, show 2 * c1'.radius / 2 - c1'.radius = 0 by ring, Complex.ofReal_zero, zero_mul, neg_zero,
    sub_eq_zero, sub_eq_zero, e11, e12, e13] at S1
  rw [D2, ← hqb, show 2 * tgt'.radius / 2 - tgt'.radius = 0 by ring, Complex.ofReal_zero, zero_mul, neg_zero,
    sub_eq_zero, sub_eq_zero, e21, e22, e23, htl, htf, sg_not, neg_mul, neg_neg] at S2
  have hmo := (circOk_at H.kappa H.sigma H.clothoid qa (!c1.left) c1.forward true).cen
  refine ⟨?_, ?_, ?_⟩
  · rw [Tan, S1.1]; simp
  · rw [Tan, hmo]
    change ‖cen (-(sg c1.forward * ccA k s)) (sg (!c1.left) * ccB k s) (cfg qb)
      - cen (sg c1.forward * ccA k s) (sg (!c1.left) * ccB k s) (cfg qa)‖ ≤ 0
    rw [sg_not, neg_mul, S1.2, S2.1]; simp
  · rw [Tan, hf, hlr, sg_not, neg_mul, neg_neg, S2.2]; simp

/-- Both centres of a middle circle. -/
theorem middle_center {k s : ℝ} {c1 c2 : SF.Circle} (hD : SF.center_distance c1 c2 ≤ 4 * ccR k s) (sg : ℝ)
    (hs : sg ^ 2 = 1) {p : ℝ × ℝ}
    (hp : p = SF.global_frame_change c1.xc c1.yc (SF.scratch c1 c2).angle (0.5 * (SF.scratch c1 c2).distance)
      (sg * √((2 * ccR k s) ^ 2 - (0.5 * (SF.scratch c1 c2).distance) ^ 2))) :
    ‖(⟨p.1, p.2⟩ : ℂ) - center c1‖ = 2 * ccR k s ∧ ‖center c2 - ⟨p.1, p.2⟩‖ = 2 * ccR k s := by
  have hD0 : 0 ≤ SF.center_distance c1 c2 := sqrt_nonneg _
  have hpc := center_polar c1 c2
  have e1 : (⟨c1.xc, c1.yc⟩ : ℂ) = center c1 := rfl
  have m1 := mid_dist hD hD0 (SF.scratch c1 c2).angle sg hs
  change center c2 = center c1 + ((SF.scratch c1 c2).distance : ℂ) * cis (SF.scratch c1 c2).angle at hpc
  rw [hp]
  constructor
  · rw [frame_cis, e1, add_sub_cancel_left]; exact m1.1
  · rw [frame_cis, e1, hpc, add_sub_add_left_eq_sub]; exact m1.2

/-! ### First and last legs of circles of constant curvature -/

/-- The configuration given to HC turns at the outer ends. -/
def outerOf (c : SF.Circle) : SF.Configuration :=
  SF.configuration c.start.x c.start.y c.start.theta c.kappa

theorem cfg_outerOf (c : SF.Circle) : SameConfig (cfg (outerOf c)) (cfg c.start) :=
  ⟨rfl, rfl, SF.twopify_angleEq _⟩

theorem hc_outer {k s : ℝ} (H : Rng k s) {c : SF.Circle} (h : RsOk c k) {q : SF.Configuration} {e : ℝ}
    (ht : Tan k s c q e) {l f : Bool} (hl : l = c.left) (hf : f = !c.forward) :
    ‖cen 0 (1 / (sg (SF.circleAt q l f true (SF.hc_cc_circle_param k s)).left * k)) (cfg (outerOf c))
      - center (SF.circleAt q l f true (SF.hc_cc_circle_param k s))‖ ≤ e := by
  have := tan_start H ht (f := f) (l := l) (by rw [hf, Bool.not_not]) hl.symm
  rw [norm_sub_rev] at this
  rw [cen_congr (cfg_outerOf c)]
  change ‖cen 0 (1 / (sg l * k)) (cfg c.start) - _‖ ≤ e
  rw [hl, ← h.cen]
  rw [hl] at this
  exact this

theorem leg_first_rs {k s : ℝ} (H : Rng k s) {c : SF.Circle} (h : RsOk c k) {q : SF.Configuration} {e : ℝ}
    (ht : Tan k s c q e) {l f : Bool} (hl : l = c.left) (hf : f = !c.forward) :
    DLeg k s (sg c.forward) (sg c.left * k) 0 [] e
      (SF.hc_turn_controls (SF.circleAt q l f true (SF.hc_cc_circle_param k s)) (outerOf c) false) (cfg c.start) (cfg q)
      ((SF.circleAt q l f true (SF.hc_cc_circle_param k s)).hc_turn_length (outerOf c)) := by
  have := (leg_hc_from H (circOk_at H.kappa H.sigma H.clothoid q l f true) rfl (hc_outer H h ht hl hf)).congr
    (cfg_outerOf c) (SameConfig.refl _)
  change DLeg k s (-sg f) (sg l * k) 0 _ _ _ _ _ _ at this
  rw [hf, sg_not, neg_neg, hl] at this
  rw [hf, hl]
  exact this

theorem leg_last_rs {k s : ℝ} (H : Rng k s) {c : SF.Circle} (h : RsOk c k) {q : SF.Configuration} {e : ℝ}
    (ht : Tan k s c q e) {l f : Bool} (hl : l = c.left) (hf : f = !c.forward) :
    DLeg k s (-sg c.forward) 0 (sg c.left * k) [] e
      (SF.hc_turn_controls (SF.circleAt q l f true (SF.hc_cc_circle_param k s)) (outerOf c) true) (cfg q) (cfg c.start)
      ((SF.circleAt q l f true (SF.hc_cc_circle_param k s)).hc_turn_length (outerOf c)) := by
  have := (leg_hc_to H (circOk_at H.kappa H.sigma H.clothoid q l f true) rfl (hc_outer H h ht hl hf)).congr
    (SameConfig.refl _) (cfg_outerOf c)
  change DLeg k s (sg f) 0 (sg l * k) _ _ _ _ _ _ at this
  rw [hf, sg_not, hl] at this
  rw [hf, hl]
  exact this

/-! ### Tables -/

/-- An entry of a table after a conditional assignment. -/
theorem ite_set (p : Prop) [Decidable p] (t : SF.Table) (i : ℕ) (r : SF.Row) (j : ℕ) :
    (if p then t.set i r else t) j = t j ∨ (p ∧ j = i ∧ (if p then t.set i r else t) j = r) := by
  by_cases hp : p
  · simp only [if_pos hp]
    by_cases hj : j = i
    · right; exact ⟨hp, hj, by rw [hj, set_same]⟩
    · left; exact set_other _ _ hj
  · left; rw [if_neg hp]

/-- The selected entry. -/
theorem best_entry {t : SF.Table} {n : ℕ} (hn : 0 < n) (s e : SF.Configuration) :
    ∃ i < n, t.best n s e = ⟨s, e, i, t i⟩ ∧ ∀ j < n, (t i).length ≤ (t j).length := by
  have h := C04_array_index_min (fun i => (t i).length) n hn
  exact ⟨_, h.1, rfl, h.2.1⟩

/-- The selection among four paths. -/
theorem best_of_spec {path : ℕ → Option SF.CCPath} {n0 : ℕ} (hn0 : n0 < 4) {p0 : SF.CCPath}
    (h0 : path n0 = some p0) (hlt : p0.length < SF.dblMax) :
    ∃ n p, n < 4 ∧ path n = some p ∧ SF.best_of path = some p ∧
      ∀ m < 4, ∀ p', path m = some p' → p.length ≤ p'.length := by
  have h := C04_array_index_min (fun n => ((path n).map SF.CCPath.length).getD SF.dblMax) 4 (by norm_num)
  unfold SF.best_of
  generalize SF.array_index_min (fun n => ((path n).map SF.CCPath.length).getD SF.dblMax) 4 = n at h ⊢
  have h1 := h.2.1 n0 hn0
  simp only [h0, Option.map_some, Option.getD_some] at h1
  rcases hp : path n with _ | p
  · simp only [hp, Option.map_none, Option.getD_none] at h1
    exact absurd hlt (not_lt.2 h1)
  · refine ⟨n, p, h.1, hp, rfl, fun m hm p' hp' => ?_⟩
    have := h.2.1 m hm
    simpa only [hp, hp', Option.map_some, Option.getD_some] using this

end Spec
