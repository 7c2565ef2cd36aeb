import Verif.Lemmas.CcOptimalAll
import Verif.Lemmas.CcRsPlan
import Verif.Spec.CcRsOptimal

/-!
# CC00-Reeds-Shepp: the planned path is not longer than any word of at most three parts
-/

noncomputable section

namespace Spec

open Real Props
open CC00 (CircOk circOk_at)

namespace CcRsOpt

theorem frame_unique' {t t' x x' b d : ℝ} (hd : d = 1 ∨ d = -1) (hx : 0 ≤ x) (hx' : 0 ≤ x') (h0 : 0 < x ∨ b ≠ 0)
    (h : cis t * (⟨d * x, b⟩ : ℂ) = cis t' * (⟨d * x', b⟩ : ℂ)) : x = x' ∧ AngleEq t t' := by
  have hn := congrArg (‖·‖) h
  simp only [norm_cis_mul] at hn
  rw [← sqrt_eq_norm, ← sqrt_eq_norm, sqrt_inj (by positivity) (by positivity)] at hn
  have hd2 : d ^ 2 = 1 := by rcases hd with rfl | rfl <;> norm_num
  have e : x = x' := by
    rw [mul_pow, mul_pow, hd2] at hn
    have : x ^ 2 = x' ^ 2 := by linarith
    exact (pow_left_inj₀ hx hx' (by norm_num)).1 this
  refine ⟨e, ?_⟩
  rw [← e] at h
  apply cis_inj
  refine mul_right_cancel₀ ?_ h
  intro hz
  have h1 := congrArg Complex.re hz
  have h2 := congrArg Complex.im hz
  simp only [Complex.zero_re, Complex.zero_im] at h1 h2
  rcases h0 with h0 | h0
  · rcases hd with rfl | rfl <;> simp at h1 <;> linarith
  · exact h0 h2

/-- The centres seen from a line between two circles. -/
theorem line_frame {A B l1 l2 f1 f2 w x : ℝ} (hw : w = 1 ∨ w = -1) {q1 q2 : Config} {C1 C2 : ℂ}
    (h1 : cen (-(f1 * A)) (l1 * B) q1 = C1) (h2 : cen (-(f2 * A)) (l2 * B) q2 = C2)
    (h3 : q2.pos = q1.pos + cis q1.theta * ((w * x : ℝ) : ℂ)) (h4 : AngleEq q2.theta q1.theta) :
    C2 - C1 = cis q1.theta * (⟨w * (x + w * (f1 - f2) * A), (l2 - l1) * B⟩ : ℂ) := by
  have hw2 : w * w = 1 := by rcases hw with rfl | rfl <;> norm_num
  rw [← h1, ← h2]
  unfold cen
  rw [h3, h4.cis_eq]
  have : (⟨w * (x + w * (f1 - f2) * A), (l2 - l1) * B⟩ : ℂ) = ((w * x : ℝ) : ℂ) + ⟨-(f2 * A), l2 * B⟩
      - ⟨-(f1 * A), l1 * B⟩ := by
    apply Complex.ext
    · simp; linear_combination (f1 - f2) * A * hw2
    · simp; ring
  rw [this]; ring

/-- Lines between two circles are unique. -/
theorem line_unique {A B l1 l2 f1 f2 w x x' : ℝ} (hw : w = 1 ∨ w = -1)
    (hu : 0 ≤ x + w * (f1 - f2) * A) (hu' : 0 ≤ x' + w * (f1 - f2) * A)
    (h0 : 0 < x + w * (f1 - f2) * A ∨ (l2 - l1) * B ≠ 0) {q1 q2 r1 r2 : Config} {C1 C2 : ℂ}
    (hq1 : cen (-(f1 * A)) (l1 * B) q1 = C1) (hq2 : cen (-(f2 * A)) (l2 * B) q2 = C2)
    (hq : q2.pos = q1.pos + cis q1.theta * ((w * x : ℝ) : ℂ)) (hqt : AngleEq q2.theta q1.theta)
    (hr1 : cen (-(f1 * A)) (l1 * B) r1 = C1) (hr2 : cen (-(f2 * A)) (l2 * B) r2 = C2)
    (hr : r2.pos = r1.pos + cis r1.theta * ((w * x' : ℝ) : ℂ)) (hrt : AngleEq r2.theta r1.theta) :
    SameConfig r1 q1 ∧ SameConfig r2 q2 ∧ x = x' := by
  have k1 := line_frame hw hq1 hq2 hq hqt
  have k2 := line_frame hw hr1 hr2 hr hrt
  obtain ⟨e1, e2⟩ := frame_unique' hw hu hu' h0 (k1.symm.trans k2)
  refine ⟨same_of_cen (hr1.trans hq1.symm) e2.symm,
    same_of_cen (hr2.trans hq2.symm) (hrt.trans (e2.symm.trans hqt.symm)), by linarith⟩

theorem atTan_eq {k s : ℝ} {f l : Bool} {z : ℂ} {q : SF.Configuration} (h : AtTan k s f l z q 0) :
    cen (-(sg f * ccA k s)) (sg l * ccB k s) (cfg q) = z :=
  sub_eq_zero.1 (norm_le_zero_iff.1 h)

section
variable {k s : ℝ} {c1 c2 : SF.Circle} (H : Rng k s) (h1 : CircOk c1 k s) (h2 : CircOk c2 k s)
  (hr1 : c1.regular = false) (hr2 : c2.regular = false)

include h1 in
theorem leave {q : Config} {L : ℝ} (t : Turned false k s c1.left c1.forward (cfg c1.start) q L) :
    cen (-(sg c1.forward * ccA k s)) (sg c1.left * ccB k s) q = center c1 := t.cen.trans h1.cen.symm

include h2 in
theorem enter {q : Config} {L : ℝ} (t : Turned false k s c2.left (!c2.forward) q (cfg c2.start) L) :
    cen (-(sg c2.forward * ccA k s)) (sg c2.left * ccB k s) q = center c2 := by
  have := t.cen
  rw [sg_not, neg_mul, neg_neg] at this
  rw [h2.cen]; exact this.symm

include h1 h2 hr1 hr2 in
/-- A row with a line. -/
theorem line_le {q1 q2 : Config} {x x' L1 L2 : ℝ} {w : Bool}
    (t1 : Turned false k s c1.left c1.forward (cfg c1.start) q1 L1)
    (t2 : Turned false k s c2.left (!c2.forward) q2 (cfg c2.start) L2) (hx : 0 ≤ x)
    (hq : q2.pos = q1.pos + cis q1.theta * ((sg w * x : ℝ) : ℂ)) (hqt : AngleEq q2.theta q1.theta)
    (hu : 0 ≤ x + sg w * (sg c1.forward - sg c2.forward) * ccA k s)
    (h0 : 0 < x + sg w * (sg c1.forward - sg c2.forward) * ccA k s ∨ (sg c2.left - sg c1.left) * ccB k s ≠ 0)
    {q : SF.Configuration × SF.Configuration}
    (a1 : AtTan k s c1.forward c1.left (center c1) q.1 0) (a2 : AtTan k s c2.forward c2.left (center c2) q.2 0)
    (ha : Ahead (sg w) q.1 q.2 x') (hu' : 0 ≤ x' + sg w * (sg c1.forward - sg c2.forward) * ccA k s) :
    (SF.CcRs.line_row c1 c2 q).length ≤ L1 + x + L2 := by
  obtain ⟨e1, e2, e3⟩ := line_unique (sg_pm w) hu hu' h0 (leave h1 t1) (enter h2 t2) hq hqt
    (atTan_eq a1) (atTan_eq a2) (by rw [← sub_eq_iff_eq_add']; exact ha.2) (AngleEq.of_eq ha.1.symm)
  have b1 := t1.ahead c1 q.1 h1.ok hr1 rfl rfl (SameConfig.refl _) e1
  have b2 := t2.back c2 q.2 h2.ok hr2 rfl (Bool.not_not _).symm (SameConfig.refl _) e2
  have b3 := ha.length (sg_pm w) (e3 ▸ hx)
  unfold SF.CcRs.line_row
  simp only
  rw [b3, ← e3]; linarith

include H h1 h2 hr1 hr2 in
/-- A row with three turns. -/
theorem three_le {q1 q2 : Config} {L1 L2 L3 : ℝ} {d : Bool} {M : ℂ}
    (t1 : Turned false k s c1.left c1.forward (cfg c1.start) q1 L1)
    (t2 : Turned false k s (!c1.left) d q1 q2 L2)
    (t3 : Turned false k s c2.left (!c2.forward) q2 (cfg c2.start) L3) (hlr : c2.left = c1.left)
    (hM : M = cen (sg d * ccA k s) (sg (!c1.left) * ccB k s) q1) {qa qb : SF.Configuration}
    (a1 : AtTan k s c1.forward c1.left (center c1) qa 0) (a2 : AtTan k s (!d) (!c1.left) M qa 0)
    (a3 : AtTan k s d (!c1.left) M qb 0) (a4 : AtTan k s c2.forward c2.left (center c2) qb 0) :
    c1.cc_turn_length qa + (SF.circleAt qa (!c1.left) d c1.regular (SF.hc_cc_circle_param k s)).cc_turn_length qb
      + c2.cc_turn_length qb ≤ L1 + L2 + L3 := by
  have hA := ccA_pos H.kappa H.sigma H.clothoid
  have hB := ccB_pos H.kappa H.sigma H.clothoid
  have u0 : ∀ w f : Bool, 0 ≤ (0 : ℝ) + sg w * (sg f - sg (!w)) * ccA k s := by
    intro w f; cases w <;> cases f <;> norm_num [sg] <;> linarith
  have u0' : ∀ w f : Bool, 0 ≤ (0 : ℝ) + sg w * (sg w - sg f) * ccA k s := by
    intro w f; cases w <;> cases f <;> norm_num [sg] <;> linarith
  have b0 : ∀ l : Bool, (sg (!l) - sg l) * ccB k s ≠ 0 := by
    intro l; cases l <;> norm_num [sg] <;> exact hB.ne'
  have b0' : ∀ l : Bool, (sg l - sg (!l)) * ccB k s ≠ 0 := by
    intro l; cases l <;> norm_num [sg] <;> exact hB.ne'
  have hM1 : cen (-(sg (!d) * ccA k s)) (sg (!c1.left) * ccB k s) q1 = M := by
    rw [sg_not d, neg_mul, neg_neg]; exact hM.symm
  have hM2 : cen (-(sg d * ccA k s)) (sg (!c1.left) * ccB k s) q2 = M := by rw [t2.cen, hM]
  have e1 := (line_unique (x := 0) (x' := 0) (sg_pm d) (u0 d c1.forward) (u0 d c1.forward) (Or.inr (b0 c1.left))
    (leave h1 t1) hM1 (by simp) (AngleEq.refl _) (atTan_eq a1) (atTan_eq a2) (by simp) (AngleEq.refl _)).1
  have e2 := (line_unique (x := 0) (x' := 0) (sg_pm d) (u0' d c2.forward) (u0' d c2.forward)
    (Or.inr (by rw [hlr]; exact b0' c1.left))
    hM2 (enter h2 t3) (by simp) (AngleEq.refl _) (atTan_eq a3) (atTan_eq a4) (by simp) (AngleEq.refl _)).1
  have b1 := t1.ahead c1 qa h1.ok hr1 rfl rfl (SameConfig.refl _) e1
  have b2 := t2.ahead (SF.circleAt qa (!c1.left) d c1.regular (SF.hc_cc_circle_param k s)) qb
    (circOk_at H.kappa H.sigma H.clothoid _ _ _ _).ok hr1 rfl rfl e1 e2
  have b3 := t3.back c2 qb h2.ok hr2 rfl (Bool.not_not _).symm (SameConfig.refl _) e2
  linarith

/-- The two middle circles. -/
theorem middle_unique {r1 r2 D g : ℝ} {M : ℂ} (hD : 0 < D) (h1 : ‖M‖ = r1) (h2 : ‖(D : ℂ) * cis g - M‖ = r2) :
    0 ≤ r1 ^ 2 - ((r1 ^ 2 + D ^ 2 - r2 ^ 2) / (2 * D)) ^ 2 ∧
    (M = cis g * (⟨(r1 ^ 2 + D ^ 2 - r2 ^ 2) / (2 * D), √(r1 ^ 2 - ((r1 ^ 2 + D ^ 2 - r2 ^ 2) / (2 * D)) ^ 2)⟩ : ℂ) ∨
    M = cis g * (⟨(r1 ^ 2 + D ^ 2 - r2 ^ 2) / (2 * D), -√(r1 ^ 2 - ((r1 ^ 2 + D ^ 2 - r2 ^ 2) / (2 * D)) ^ 2)⟩ : ℂ)) := by
  obtain ⟨z, hz⟩ : ∃ z, z = cis (-g) * M := ⟨_, rfl⟩
  have hM : M = cis g * z := by rw [hz, ← mul_assoc, cis_mul_neg, one_mul]
  have n1 : z.re ^ 2 + z.im ^ 2 = r1 ^ 2 := by
    rw [← h1, hM, norm_cis_mul, ← Complex.normSq_eq_norm_sq, Complex.normSq_apply]; ring
  have n2 : (D - z.re) ^ 2 + z.im ^ 2 = r2 ^ 2 := by
    rw [← h2, hM, mul_comm (D : ℂ), ← mul_sub, norm_cis_mul, ← Complex.normSq_eq_norm_sq,
      Complex.normSq_apply]
    simp; ring
  have hre : (r1 ^ 2 + D ^ 2 - r2 ^ 2) / (2 * D) = z.re := by
    rw [div_eq_iff (by positivity)]; linarith
  have him : r1 ^ 2 - z.re ^ 2 = z.im ^ 2 := by linarith
  rw [hre, him, sqrt_sq_eq_abs, hM]
  refine ⟨sq_nonneg _, ?_⟩
  rcases le_total 0 z.im with h | h
  · left; congr 1; rw [abs_of_nonneg h]
  · right; congr 1; rw [abs_of_nonpos h, neg_neg]

end

/-! ### Rows of the tables -/

section
variable {sp : SF.HCSpace} {c1 c2 : SF.Circle} (H : Rng sp.kappa sp.sigma) (h1 : CircOk c1 sp.kappa sp.sigma)
  (h2 : CircOk c2 sp.kappa sp.sigma) (hr1 : c1.regular = false) (hr2 : c2.regular = false)

theorem family_le (hs : SF.CcRs.shortcut c1 c2 = none) {i : ℕ} (hi : i < 18) :
    (SF.CcRs.circles_rs_path sp c1 c2).length ≤ (SF.CcRs.family sp (SF.scratch c1 c2) c1 c2 i).length := by
  have := CcRs.entry_le sp c1 c2 hi
  unfold SF.CcRs.table at this
  rw [hs] at this
  exact this

include H h1 h2 hr1 hr2 in
/-- Words with a line. -/
theorem line_word (hs : SF.CcRs.shortcut c1 c2 = none) {q1 q2 : Config} {x L1 L2 : ℝ} {w : Bool}
    (t1 : Turned false sp.kappa sp.sigma c1.left c1.forward (cfg c1.start) q1 L1)
    (t2 : Turned false sp.kappa sp.sigma c2.left (!c2.forward) q2 (cfg c2.start) L2) (hx : 0 ≤ x)
    (hq : q2.pos = q1.pos + cis q1.theta * ((sg w * x : ℝ) : ℂ)) (hqt : AngleEq q2.theta q1.theta)
    (two : w = c1.forward ∨ w = (!c2.forward) ∨ 2 * (sp.kappa / sp.sigma) + 1 / 10000 ≤ x)
    (one : (w = c1.forward ∧ w = (!c2.forward)) ∨ c1.left ≠ c2.left ∨ 1 / 10000 ≤ x) :
    (SF.CcRs.circles_rs_path sp c1 c2).length ≤ L1 + x + L2 := by
  have hA := ccA_pos H.kappa H.sigma H.clothoid
  have hB := ccB_pos H.kappa H.sigma H.clothoid
  have hAk := ccA_le H.kappa H.sigma H.clothoid
  have hks : 0 < sp.kappa / sp.sigma := lt_trans (by norm_num [SF.epsilon]) H.clothoid
  have he : SF.epsilon = 1 / 10000 := rfl
  have hfr := line_frame (sg_pm w) (leave h1 t1) (enter h2 t2) hq hqt
  have hD := scratch_distance c1 c2
  rw [hfr, norm_cis_mul, ← sqrt_eq_norm, mul_pow (sg w), sq (sg w), sg_sq, one_mul] at hD
  have hopp : ∀ l : Bool, (sg (!l) - sg l) * ccB sp.kappa sp.sigma ≠ 0 := by
    intro l; cases l <;> norm_num [sg] <;> exact hB.ne'
  have hopp2 : ∀ l : Bool, ((sg (!l) - sg l) * ccB sp.kappa sp.sigma) ^ 2 = (2 * ccB sp.kappa sp.sigma) ^ 2 := by
    intro l; cases l <;> norm_num [sg]
  -- the distance of the centres
  have dsame : c2.left = c1.left → 0 ≤ x + sg w * (sg c1.forward - sg c2.forward) * ccA sp.kappa sp.sigma →
      (SF.scratch c1 c2).distance = x + sg w * (sg c1.forward - sg c2.forward) * ccA sp.kappa sp.sigma := by
    intro h hu
    rw [hD, h, sub_self, zero_mul, zero_pow (by norm_num), add_zero, sqrt_sq hu]
  have dopp : c2.left = (!c1.left) → (SF.scratch c1 c2).distance
      = √((x + sg w * (sg c1.forward - sg c2.forward) * ccA sp.kappa sp.sigma) ^ 2 + (2 * ccB sp.kappa sp.sigma) ^ 2) := by
    intro h; rw [hD, h, hopp2]
  have dB : c2.left = (!c1.left) → 2 * ccB sp.kappa sp.sigma ≤ (SF.scratch c1 c2).distance := by
    intro h; rw [dopp h]; exact le_sqrt_of_sq_le (by nlinarith [sq_nonneg (x + sg w * (sg c1.forward - sg c2.forward) * ccA sp.kappa sp.sigma)])
  have hleft : c2.left = c1.left ∨ c2.left = !c1.left := by cases c1.left <;> cases c2.left <;> simp
  have hfwd : c2.forward = c1.forward ∨ c2.forward = !c1.forward := by
    cases c1.forward <;> cases c2.forward <;> simp
  have hwf : w = c1.forward ∨ w = !c1.forward := by cases c1.forward <;> cases w <;> simp
  have hrad := h1.ok.geom.ccR
  rcases hfwd with hf | hf <;> rcases hwf with hw | hw
  · -- TScT
    have eu : sg w * (sg c1.forward - sg c2.forward) * ccA sp.kappa sp.sigma = 0 := by rw [hf]; ring
    rw [eu, add_zero] at dsame dopp
    refine (family_le hs (i := SF.hc_cc_rs.TScT) (by norm_num)).trans ?_
    change (SF.CcRs.TScT_path (SF.scratch c1 c2) c1 c2).length ≤ _
    unfold SF.CcRs.TScT_path
    rcases hleft with hl | hl
    · have hx1 : 1 / 10000 ≤ x := by
        rcases one with h | h | h
        · exfalso; have := h.2; rw [hw, hf] at this; revert this; cases c1.forward <;> simp
        · exact absurd hl.symm h
        · exact h
      rw [if_neg (by unfold SF.CcRs.TiScT_exists; rw [if_pos hl.symm]; exact id), if_pos]
      · obtain ⟨a1, a2, x', hx', _, ha⟩ := TeScT_cc_at H c1 c2 h1.ok.geom
        rw [← hw] at ha
        exact line_le h1 h2 hr1 hr2 t1 t2 hx hq hqt (by rw [eu]; linarith) (by left; rw [eu]; linarith) a1
          (a2.side hf hl) ha (by rw [eu]; linarith)
      · unfold SF.CcRs.TeScT_exists
        rw [if_neg (by simp [hl]), if_neg (by simp [hf]), dsame hl hx, he]; exact hx1
    · rw [if_pos]
      · obtain ⟨a1, a2, x', hx', _, ha⟩ := TiScT_cc_at H c1 c2 h1.ok.geom (by rw [← scratch_distance]; exact dB hl)
        rw [← hw] at ha
        exact line_le h1 h2 hr1 hr2 t1 t2 hx hq hqt (by rw [eu]; linarith) (by right; rw [hl]; exact hopp _) a1
          (a2.side hf hl) ha (by rw [eu]; linarith)
      · unfold SF.CcRs.TiScT_exists
        rw [if_neg (by rw [hl]; cases c1.left <;> simp), if_neg (by simp [hf]), mul_assoc 2, h1.ok.cos_mu]
        exact dB hl
  · -- TcST
    have eu : sg w * (sg c1.forward - sg c2.forward) * ccA sp.kappa sp.sigma = 0 := by rw [hf]; ring
    rw [eu, add_zero] at dsame dopp
    refine (family_le hs (i := SF.hc_cc_rs.TcST) (by norm_num)).trans ?_
    change (SF.CcRs.TcST_path (SF.scratch c1 c2) c1 c2).length ≤ _
    unfold SF.CcRs.TcST_path
    rcases hleft with hl | hl
    · have hx1 : 1 / 10000 ≤ x := by
        rcases one with h | h | h
        · exfalso; have := h.1; rw [hw] at this; revert this; cases c1.forward <;> simp
        · exact absurd hl.symm h
        · exact h
      rw [if_neg (by unfold SF.CcRs.TciST_exists; rw [if_pos hl.symm]; exact id), if_pos]
      · obtain ⟨a1, a2, x', hx', _, ha⟩ := TceST_cc_at H c1 c2 h1.ok.geom
        rw [← sg_not, ← hw] at ha
        exact line_le h1 h2 hr1 hr2 t1 t2 hx hq hqt (by rw [eu]; linarith) (by left; rw [eu]; linarith) a1
          (a2.side hf hl) ha (by rw [eu]; linarith)
      · unfold SF.CcRs.TceST_exists
        rw [if_neg (by simp [hl]), if_neg (by simp [hf]), dsame hl hx, he]; exact hx1
    · rw [if_pos]
      · obtain ⟨a1, a2, x', hx', _, ha⟩ := TciST_cc_at H c1 c2 h1.ok.geom (by rw [← scratch_distance]; exact dB hl)
        rw [← sg_not, ← hw] at ha
        exact line_le h1 h2 hr1 hr2 t1 t2 hx hq hqt (by rw [eu]; linarith) (by right; rw [hl]; exact hopp _) a1
          (a2.side hf hl) ha (by rw [eu]; linarith)
      · unfold SF.CcRs.TciST_exists
        rw [if_neg (by rw [hl]; cases c1.left <;> simp), if_neg (by simp [hf]), mul_assoc 2, h1.ok.cos_mu]
        exact dB hl
  · -- TST
    have eu : sg w * (sg c1.forward - sg c2.forward) * ccA sp.kappa sp.sigma = 2 * ccA sp.kappa sp.sigma := by
      rw [hf, hw]; cases c1.forward <;> norm_num [sg]
    rw [eu] at dsame dopp
    refine (family_le hs (i := SF.hc_cc_rs.TST) (by norm_num)).trans ?_
    change (SF.CcRs.TST_path (SF.scratch c1 c2) c1 c2).length ≤ _
    unfold SF.CcRs.TST_path
    rcases hleft with hl | hl
    · have hd : 2 * ccA sp.kappa sp.sigma ≤ (SF.scratch c1 c2).distance := by rw [dsame hl (by linarith)]; linarith
      rw [if_neg (by unfold SF.CcRs.TiST_exists SF.CC00.TiST_exists; rw [if_pos hl.symm]; exact id), if_pos]
      · obtain ⟨a1, a2, x', hx', _, ha⟩ := TeST_geo H c1 c2 h1.ok.geom (by rw [← scratch_distance]; exact hd)
        rw [← hw] at ha
        exact line_le h1 h2 hr1 hr2 t1 t2 hx hq hqt (by rw [eu]; linarith) (by left; rw [eu]; linarith) a1
          (a2.side hf hl) ha (by rw [eu]; linarith)
      · unfold SF.CcRs.TeST_exists SF.CC00.TeST_exists
        rw [if_neg (by simp [hl]), if_neg (by rw [hf]; cases c1.forward <;> simp), mul_assoc 2, h1.ok.sin_mu]
        exact hd
    · have hd : 2 * ccR sp.kappa sp.sigma ≤ (SF.scratch c1 c2).distance := by
        rw [dopp hl]
        refine le_sqrt_of_sq_le ?_
        rw [mul_pow, ccR_sq]; nlinarith
      rw [if_pos]
      · obtain ⟨a1, a2, x', hx', _, ha⟩ := TiST_geo H c1 c2 h1.ok.geom (by rw [← scratch_distance]; exact hd)
        rw [← hw] at ha
        exact line_le h1 h2 hr1 hr2 t1 t2 hx hq hqt (by rw [eu]; linarith) (by right; rw [hl]; exact hopp _) a1
          (a2.side hf hl) ha (by rw [eu]; linarith)
      · unfold SF.CcRs.TiST_exists SF.CC00.TiST_exists
        rw [if_neg (by rw [hl]; cases c1.left <;> simp), if_neg (by rw [hf]; cases c1.forward <;> simp), hrad]
        exact hd
  · -- TcScT
    have eu : sg w * (sg c1.forward - sg c2.forward) * ccA sp.kappa sp.sigma = -(2 * ccA sp.kappa sp.sigma) := by
      rw [hf, hw]; cases c1.forward <;> norm_num [sg]
    have hx2 : 2 * (sp.kappa / sp.sigma) + 1 / 10000 ≤ x := by
      rcases two with h | h | h
      · exfalso; rw [hw] at h; revert h; cases c1.forward <;> simp
      · exfalso; rw [hw, hf] at h; revert h; cases c1.forward <;> simp
      · exact h
    rw [eu] at dsame dopp
    refine (family_le hs (i := SF.hc_cc_rs.TcScT) (by norm_num)).trans ?_
    change (SF.CcRs.TcScT_path (SF.scratch c1 c2) c1 c2).length ≤ _
    unfold SF.CcRs.TcScT_path
    rcases hleft with hl | hl
    · rw [if_neg (by unfold SF.CcRs.TciScT_exists; rw [if_pos hl.symm]; exact id), if_pos]
      · obtain ⟨a1, a2, x', hx', _, ha⟩ := TceScT_cc_at H c1 c2 h1.ok.geom
        rw [← sg_not, ← hw] at ha
        exact line_le h1 h2 hr1 hr2 t1 t2 hx hq hqt (by rw [eu]; linarith) (by left; rw [eu]; linarith) a1
          (a2.side hf hl) ha (by rw [eu]; linarith)
      · unfold SF.CcRs.TceScT_exists
        rw [if_neg (by simp [hl]), if_neg (by rw [hf]; cases c1.forward <;> simp), dsame hl (by linarith), he]
        linarith
    · rw [if_pos]
      · obtain ⟨a1, a2, x', hx', _, ha⟩ := TciScT_cc_at H c1 c2 h1.ok.geom (by rw [← scratch_distance]; exact dB hl)
        rw [← sg_not, ← hw] at ha
        exact line_le h1 h2 hr1 hr2 t1 t2 hx hq hqt (by rw [eu]; linarith) (by right; rw [hl]; exact hopp _) a1
          (a2.side hf hl) ha (by rw [eu]; linarith)
      · unfold SF.CcRs.TciScT_exists
        rw [if_neg (by rw [hl]; cases c1.left <;> simp), if_neg (by rw [hf]; cases c1.forward <;> simp), mul_assoc 2,
          h1.ok.cos_mu]
        exact dB hl

include H h1 h2 in
/-- The middle circle of a word of three turns. -/
theorem middle_dist {q1 q2 : Config} {L1 L2 L3 : ℝ} {d : Bool} {M : ℂ}
    (t1 : Turned false sp.kappa sp.sigma c1.left c1.forward (cfg c1.start) q1 L1)
    (t2 : Turned false sp.kappa sp.sigma (!c1.left) d q1 q2 L2)
    (t3 : Turned false sp.kappa sp.sigma c2.left (!c2.forward) q2 (cfg c2.start) L3) (hlr : c2.left = c1.left)
    (hM : M = cen (sg d * ccA sp.kappa sp.sigma) (sg (!c1.left) * ccB sp.kappa sp.sigma) q1) :
    ‖M - center c1‖ = (if d = c1.forward then 2 * ccR sp.kappa sp.sigma else 2 * ccB sp.kappa sp.sigma) ∧
    ‖center c2 - M‖ = (if d = c2.forward then 2 * ccB sp.kappa sp.sigma else 2 * ccR sp.kappa sp.sigma) := by
  have hB := ccB_pos H.kappa H.sigma H.clothoid
  have hR : 2 * ccR sp.kappa sp.sigma = √((2 * ccA sp.kappa sp.sigma) ^ 2 + (2 * ccB sp.kappa sp.sigma) ^ 2) := by
    rw [eq_comm, sqrt_eq_iff_mul_self_eq (by positivity) (mul_nonneg zero_le_two (ccR_nonneg _ _))]
    have := ccR_sq sp.kappa sp.sigma
    nlinarith
  have hB' : 2 * ccB sp.kappa sp.sigma = √(0 ^ 2 + (2 * ccB sp.kappa sp.sigma) ^ 2) := by
    rw [zero_pow (by norm_num), zero_add, sqrt_sq (by linarith)]
  have hM1 : cen (-(sg (!d) * ccA sp.kappa sp.sigma)) (sg (!c1.left) * ccB sp.kappa sp.sigma) q1 = M := by
    rw [sg_not d, neg_mul, neg_neg]; exact hM.symm
  have hM2 : cen (-(sg d * ccA sp.kappa sp.sigma)) (sg (!c1.left) * ccB sp.kappa sp.sigma) q2 = M := by rw [t2.cen, hM]
  have e1 := line_frame (x := 0) (sg_pm d) (leave h1 t1) hM1 (by simp) (AngleEq.refl _)
  have e2 := line_frame (x := 0) (sg_pm d) hM2 (enter h2 t3) (by simp) (AngleEq.refl _)
  rw [hlr] at e2
  rw [e1, e2, norm_cis_mul, norm_cis_mul, ← sqrt_eq_norm, ← sqrt_eq_norm, hR]
  constructor
  · split_ifs with h
    · congr 1; rw [← h]; cases d <;> cases c1.left <;> norm_num [sg]
    · have h' : c1.forward = !d := by revert h; cases d <;> cases c1.forward <;> simp
      conv_rhs => rw [hB']
      congr 1; rw [h']; cases d <;> cases c1.left <;> norm_num [sg]
  · split_ifs with h
    · conv_rhs => rw [hB']
      congr 1; rw [← h]; cases d <;> cases c1.left <;> norm_num [sg]
    · have h' : c2.forward = !d := by revert h; cases d <;> cases c2.forward <;> simp
      congr 1; rw [h']; cases d <;> cases c1.left <;> norm_num [sg]

theorem shorter_le {a b : SF.RSRow} {x : ℝ} (h : a.length ≤ x ∨ b.length ≤ x) : (a.shorter b).length ≤ x := by
  unfold SF.RSRow.shorter
  split_ifs with hlt
  · rcases h with h | h
    · exact h
    · exact hlt.le.trans h
  · rcases h with h | h
    · exact (not_lt.1 hlt).trans h
    · exact h

include H h1 h2 hr1 hr2 in
open Classical in
/-- Words of three turns. -/
theorem three_word (hs : SF.CcRs.shortcut c1 c2 = none) {q1 q2 : Config} {L1 L2 L3 : ℝ} {d : Bool}
    (t1 : Turned false sp.kappa sp.sigma c1.left c1.forward (cfg c1.start) q1 L1)
    (t2 : Turned false sp.kappa sp.sigma (!c1.left) d q1 q2 L2)
    (t3 : Turned false sp.kappa sp.sigma c2.left (!c2.forward) q2 (cfg c2.start) L3) (hlr : c2.left = c1.left)
    (hne : c2.forward = (!c1.forward) → center c1 ≠ center c2) :
    (SF.CcRs.circles_rs_path sp c1 c2).length ≤ L1 + L2 + L3 := by
  have hA := ccA_pos H.kappa H.sigma H.clothoid
  have hB := ccB_pos H.kappa H.sigma H.clothoid
  obtain ⟨M, hM⟩ : ∃ M, M = cen (sg d * ccA sp.kappa sp.sigma) (sg (!c1.left) * ccB sp.kappa sp.sigma) q1 := ⟨_, rfl⟩
  obtain ⟨n1, n2⟩ := middle_dist H h1 h2 t1 t2 t3 hlr hM
  have hrad := h1.ok.geom.ccR
  have hBR : ccB sp.kappa sp.sigma < ccR sp.kappa sp.sigma := by
    have := ccR_sq sp.kappa sp.sigma
    have := ccR_nonneg sp.kappa sp.sigma
    nlinarith
  have hp := scratch_polar c1 c2
  have hD := scratch_distance c1 c2
  have tri := norm_add_le (center c2 - M) (M - center c1)
  rw [sub_add_sub_cancel, ← hD] at tri
  have tri2 := norm_sub_norm_le (center c2 - M) (center c1 - M)
  rw [sub_sub_sub_cancel_right, ← hD, norm_sub_rev (center c1) M] at tri2
  have tri3 := norm_sub_norm_le (center c1 - M) (center c2 - M)
  rw [sub_sub_sub_cancel_right, norm_sub_rev (center c1) M, norm_sub_rev (center c1) (center c2), ← hD] at tri3
  have hDpos : center c1 ≠ center c2 → 0 < (SF.scratch c1 c2).distance := by
    intro h; rw [hD, norm_pos_iff, sub_ne_zero]; exact h.symm
  have fr : ∀ a b : ℝ, (⟨(SF.global_frame_change c1.xc c1.yc (SF.scratch c1 c2).angle a b).1,
      (SF.global_frame_change c1.xc c1.yc (SF.scratch c1 c2).angle a b).2⟩ : ℂ)
      = center c1 + cis (SF.scratch c1 c2).angle * ⟨a, b⟩ := by
    intro a b; exact frame_cis _ _ _ _ _
  have hmid := fun h => middle_unique (M := M - center c1) (g := (SF.scratch c1 c2).angle)
    (D := (SF.scratch c1 c2).distance) h rfl rfl
  rw [show ((SF.scratch c1 c2).distance : ℂ) * cis (SF.scratch c1 c2).angle - (M - center c1) = center c2 - M by
    rw [hp]; ring] at hmid
  have hdd : d = c1.forward ∨ d = !c1.forward := by cases c1.forward <;> cases d <;> simp
  have hfwd : c2.forward = c1.forward ∨ c2.forward = !c1.forward := by
    cases c1.forward <;> cases c2.forward <;> simp
  have nn : ∀ b : Bool, (!b) ≠ b := by decide
  have nn' : ∀ b : Bool, b ≠ !b := by decide
  rcases hfwd with hf | hf <;> rcases hdd with rfl | rfl
  · -- TTcT
    rw [if_pos rfl] at n1
    rw [hf, if_pos rfl] at n2
    rw [n1, n2] at hmid tri tri2 tri3
    have side : ∀ dx dy : ℝ, M - center c1 = cis (SF.scratch c1 c2).angle * ⟨dx, dy⟩ →
        (SF.CcRs.TTcT_side sp.param (SF.scratch c1 c2) c1 c2 dx dy).length ≤ L1 + L2 + L3 := by
      intro dx dy hd
      have hpM := (fr dx dy).trans (by rw [← hd]; ring : _ = M)
      unfold SF.CcRs.TTcT_side
      generalize SF.global_frame_change c1.xc c1.yc (SF.scratch c1 c2).angle dx dy = p at *
      obtain ⟨a1, a2⟩ := TT_geo' (z2 := M) c1 (SF.circleCentered p.1 p.2 (!c1.left) c1.forward c1.regular (SF.hc_cc_circle_param sp.kappa sp.sigma)) h1.ok.geom rfl rfl rfl hpM n1
      obtain ⟨a3, a4⟩ := TcT_cc_at H (f := c1.forward) (l := !c1.left) (z1 := M) (SF.circleCentered p.1 p.2 (!c1.left) c1.forward c1.regular (SF.hc_cc_circle_param sp.kappa sp.sigma)) c2 (geo_centered H _ _ _ _ _) rfl rfl hpM rfl n2
      exact three_le H h1 h2 hr1 hr2 t1 t2 t3 hlr hM a1 (a2.side (by simp) rfl) a3
        (a4.side (by simp [hf]) (by rw [hlr, Bool.not_not]))
    have hpos : 0 < (SF.scratch c1 c2).distance := by linarith
    have hm2 := hmid hpos
    have ex : SF.CcRs.TTcT_exists (SF.scratch c1 c2) c1 c2 := by
      unfold SF.CcRs.TTcT_exists
      rw [if_neg (by simp [hlr]), if_neg (by simp [hf])]
      have e1 : 2 * c1.radius * (1 + c1.cos_mu) = 2 * ccR sp.kappa sp.sigma + 2 * ccB sp.kappa sp.sigma := by
        rw [← h1.ok.cos_mu, ← hrad]; ring
      have e2 : 2 * c1.radius * (1 - c1.cos_mu) = 2 * ccR sp.kappa sp.sigma - 2 * ccB sp.kappa sp.sigma := by
        rw [← h1.ok.cos_mu, ← hrad]; ring
      rw [e1, e2]
      constructor <;> linarith
    refine (family_le hs (i := SF.hc_cc_rs.TTcT) (by norm_num)).trans ?_
    change (if SF.CcRs.TTcT_exists (SF.scratch c1 c2) c1 c2 then _ else _ : SF.RSRow).length ≤ _
    rw [if_pos ex]
    unfold SF.CcRs.TTcT_path
    simp only [mul_assoc 2 c1.radius c1.cos_mu, h1.ok.cos_mu]
    simp only [hrad]
    rw [if_neg (by push Not; exact ⟨hpos.ne', hm2.1⟩)]
    exact shorter_le (hm2.2.imp (side _ _) (side _ _))
  · -- TcTT
    rw [if_neg (nn _)] at n1
    rw [hf, if_neg (nn _)] at n2
    rw [n1, n2] at hmid tri tri2 tri3
    have side : ∀ dx dy : ℝ, M - center c1 = cis (SF.scratch c1 c2).angle * ⟨dx, dy⟩ →
        (SF.CcRs.TcTT_side sp.param (SF.scratch c1 c2) c1 c2 dx dy).length ≤ L1 + L2 + L3 := by
      intro dx dy hd
      have hpM := (fr dx dy).trans (by rw [← hd]; ring : _ = M)
      unfold SF.CcRs.TcTT_side
      generalize SF.global_frame_change c1.xc c1.yc (SF.scratch c1 c2).angle dx dy = p at *
      obtain ⟨a1, a2⟩ := TcT_cc_at H (z2 := M) c1 (SF.circleCentered p.1 p.2 (!c1.left) (!c1.forward) c1.regular (SF.hc_cc_circle_param sp.kappa sp.sigma)) h1.ok.geom rfl rfl rfl hpM n1
      obtain ⟨a3, a4⟩ := TT_geo' (f := (!c1.forward)) (l := !c1.left) (z1 := M) (SF.circleCentered p.1 p.2 (!c1.left) (!c1.forward) c1.regular (SF.hc_cc_circle_param sp.kappa sp.sigma)) c2 (geo_centered H _ _ _ _ _) rfl rfl hpM rfl n2
      exact three_le H h1 h2 hr1 hr2 t1 t2 t3 hlr hM a1 (a2.side (by simp) rfl) a3
        (a4.side (by simp [hf]) (by rw [hlr, Bool.not_not]))
    have hpos : 0 < (SF.scratch c1 c2).distance := by linarith
    have hm2 := hmid hpos
    have ex : SF.CcRs.TcTT_exists (SF.scratch c1 c2) c1 c2 := by
      unfold SF.CcRs.TcTT_exists
      rw [if_neg (by simp [hlr]), if_neg (by simp [hf])]
      have e1 : 2 * c1.radius * (1 + c1.cos_mu) = 2 * ccR sp.kappa sp.sigma + 2 * ccB sp.kappa sp.sigma := by
        rw [← h1.ok.cos_mu, ← hrad]; ring
      have e2 : 2 * c1.radius * (1 - c1.cos_mu) = 2 * ccR sp.kappa sp.sigma - 2 * ccB sp.kappa sp.sigma := by
        rw [← h1.ok.cos_mu, ← hrad]; ring
      rw [e1, e2]
      constructor <;> linarith
    refine (family_le hs (i := SF.hc_cc_rs.TcTT) (by norm_num)).trans ?_
    change (if SF.CcRs.TcTT_exists (SF.scratch c1 c2) c1 c2 then _ else _ : SF.RSRow).length ≤ _
    rw [if_pos ex]
    unfold SF.CcRs.TcTT_path
    simp only [mul_assoc 2 c1.radius c1.cos_mu, h1.ok.cos_mu]
    simp only [hrad]
    rw [if_neg (by push Not; exact ⟨hpos.ne', hm2.1⟩)]
    exact shorter_le (hm2.2.imp (side _ _) (side _ _))
  · -- TTT
    rw [if_pos rfl] at n1
    rw [hf, if_neg (nn' _)] at n2
    rw [n1, n2] at hmid tri tri2 tri3
    have side : ∀ dx dy : ℝ, M - center c1 = cis (SF.scratch c1 c2).angle * ⟨dx, dy⟩ →
        (SF.CcRs.TTT_side sp.param (SF.scratch c1 c2) c1 c2 dx dy).length ≤ L1 + L2 + L3 := by
      intro dx dy hd
      have hpM := (fr dx dy).trans (by rw [← hd]; ring : _ = M)
      unfold SF.CcRs.TTT_side
      generalize SF.global_frame_change c1.xc c1.yc (SF.scratch c1 c2).angle dx dy = p at *
      obtain ⟨a1, a2⟩ := TT_geo' (z2 := M) c1 (SF.circleCentered p.1 p.2 (!c1.left) c1.forward c1.regular (SF.hc_cc_circle_param sp.kappa sp.sigma)) h1.ok.geom rfl rfl rfl hpM n1
      obtain ⟨a3, a4⟩ := TT_geo' (f := c1.forward) (l := !c1.left) (z1 := M) (SF.circleCentered p.1 p.2 (!c1.left) c1.forward c1.regular (SF.hc_cc_circle_param sp.kappa sp.sigma)) c2 (geo_centered H _ _ _ _ _) rfl rfl hpM rfl n2
      exact three_le H h1 h2 hr1 hr2 t1 t2 t3 hlr hM a1 (a2.side (by simp) rfl) a3
        (a4.side (by simp [hf]) (by rw [hlr, Bool.not_not]))
    have hpos := hDpos (hne hf)
    have hm2 := hmid hpos
    have ex : SF.CcRs.TTT_exists (SF.scratch c1 c2) c1 c2 := by
      unfold SF.CcRs.TTT_exists SF.CC00.TTT_exists
      rw [if_neg (by simp [hlr]), if_neg (by rw [hf]; exact nn' _)]
      rw [hrad]; linarith
    have edx : ((2 * ccR sp.kappa sp.sigma) ^ 2 + (SF.scratch c1 c2).distance ^ 2 - (2 * ccR sp.kappa sp.sigma) ^ 2) / (2 * (SF.scratch c1 c2).distance)
        = 0.5 * (SF.scratch c1 c2).distance := by
      rw [add_sub_cancel_left]; field_simp; norm_num
    rw [edx] at hm2
    refine (family_le hs (i := SF.hc_cc_rs.TTT) (by norm_num)).trans ?_
    change (if SF.CcRs.TTT_exists (SF.scratch c1 c2) c1 c2 then _ else _ : SF.RSRow).length ≤ _
    rw [if_pos ex]
    unfold SF.CcRs.TTT_path
    simp only [hrad]
    exact shorter_le (hm2.2.imp (side _ _) (side _ _))
  · -- TcTcT
    rw [if_neg (nn _)] at n1
    rw [hf, if_pos rfl] at n2
    rw [n1, n2] at hmid tri tri2 tri3
    have side : ∀ dx dy : ℝ, M - center c1 = cis (SF.scratch c1 c2).angle * ⟨dx, dy⟩ →
        (SF.CcRs.TcTcT_side sp.param (SF.scratch c1 c2) c1 c2 dx dy).length ≤ L1 + L2 + L3 := by
      intro dx dy hd
      have hpM := (fr dx dy).trans (by rw [← hd]; ring : _ = M)
      unfold SF.CcRs.TcTcT_side
      generalize SF.global_frame_change c1.xc c1.yc (SF.scratch c1 c2).angle dx dy = p at *
      obtain ⟨a1, a2⟩ := TcT_cc_at H (z2 := M) c1 (SF.circleCentered p.1 p.2 (!c1.left) (!c1.forward) c1.regular (SF.hc_cc_circle_param sp.kappa sp.sigma)) h1.ok.geom rfl rfl rfl hpM n1
      obtain ⟨a3, a4⟩ := TcT_cc_at H (f := (!c1.forward)) (l := !c1.left) (z1 := M) (SF.circleCentered p.1 p.2 (!c1.left) (!c1.forward) c1.regular (SF.hc_cc_circle_param sp.kappa sp.sigma)) c2 (geo_centered H _ _ _ _ _) rfl rfl hpM rfl n2
      exact three_le H h1 h2 hr1 hr2 t1 t2 t3 hlr hM a1 (a2.side (by simp) rfl) a3
        (a4.side (by simp [hf]) (by rw [hlr, Bool.not_not]))
    have hpos := hDpos (hne hf)
    have hm2 := hmid hpos
    have ex : SF.CcRs.TcTcT_exists (SF.scratch c1 c2) c1 c2 := by
      unfold SF.CcRs.TcTcT_exists
      rw [if_neg (by simp [hlr]), if_neg (by rw [hf]; exact nn' _)]
      rw [mul_assoc 4, h1.ok.cos_mu]; linarith
    have edx : ((2 * ccB sp.kappa sp.sigma) ^ 2 + (SF.scratch c1 c2).distance ^ 2 - (2 * ccB sp.kappa sp.sigma) ^ 2) / (2 * (SF.scratch c1 c2).distance)
        = 0.5 * (SF.scratch c1 c2).distance := by
      rw [add_sub_cancel_left]; field_simp; norm_num
    rw [edx] at hm2
    refine (family_le hs (i := SF.hc_cc_rs.TcTcT) (by norm_num)).trans ?_
    change (if SF.CcRs.TcTcT_exists (SF.scratch c1 c2) c1 c2 then _ else _ : SF.RSRow).length ≤ _
    rw [if_pos ex]
    unfold SF.CcRs.TcTcT_path
    simp only [mul_assoc 2 c1.radius c1.cos_mu, h1.ok.cos_mu]
    exact shorter_le (hm2.2.imp (side _ _) (side _ _))

end

/-! ### The planner -/

section
variable {sp : SF.HCSpace} {s1 s2 : SF.State}

open SF.CcRs

/-- Number of the circle with a driving direction and a side. -/
def idx (f l : Bool) : ℕ := (if f then 0 else 2) + (if l then 0 else 1)

theorem idx_lt (f l : Bool) : idx f l < 4 := by cases f <;> cases l <;> decide

theorem end_left (s : SF.State) (f l : Bool) : (end_circle sp s (idx f l)).left = l := by
  cases f <;> cases l <;> simp [idx, end_circle, SF.circleAt]

theorem end_forward (s : SF.State) (f l : Bool) : (end_circle sp s (idx f l)).forward = f := by
  cases f <;> cases l <;> simp [idx, end_circle, SF.circleAt]

theorem dist_le_path {i j : ℕ} (hi : i < 4) (hj : j < 4) :
    get_distance sp s1 s2 ≤ (circles_rs_path sp (end_circle sp s1 i) (end_circle sp s2 j)).length := by
  have h := (C04_array_index_min (fun n => (path sp s1 s2 n).length) 16 (by norm_num)).2.1 (4 * i + j) (by omega)
  refine h.trans (le_of_eq ?_)
  simp only [path]
  rw [show (4 * i + j) / 4 = i by omega, show (4 * i + j) % 4 = j by omega]

/-- The configuration of a state, as the planner stores it. -/
abbrev startOf (s : SF.State) : SF.Configuration := SF.configuration s.x s.y s.theta 0

/-- The goal is straight ahead or behind. -/
def Aligned (q1 q2 : SF.Configuration) : Prop := SF.configuration_aligned q1 q2 ∨ SF.configuration_aligned q2 q1

theorem table_E {m : SF.Scratch} {c1 c2 : SF.Circle} (h : SF.configuration_equal c1.start c2.start) :
    (table sp m c1 c2 0).length = 0 := by
  unfold table shortcut; rw [if_pos h]; rfl

theorem table_S {m : SF.Scratch} {c1 c2 : SF.Circle} (hne : ¬ SF.configuration_equal c1.start c2.start)
    (h : Aligned c1.start c2.start) :
    (table sp m c1 c2 1).length = SF.configuration_distance c1.start c2.start := by
  unfold table shortcut
  rw [if_neg hne]
  by_cases h1 : SF.configuration_aligned c1.start c2.start
  · rw [if_pos h1]; rfl
  · rw [if_neg h1, if_pos (h.resolve_left h1)]
    change SF.configuration_distance c2.start c1.start = _
    rw [configuration_distance_eq, configuration_distance_eq, norm_sub_rev]

theorem table_T {m : SF.Scratch} {c1 c2 : SF.Circle} (hne : ¬ SF.configuration_equal c1.start c2.start)
    (h : ¬ Aligned c1.start c2.start) (hon : SF.configuration_on_hc_cc_circle c1 c2.start) :
    (table sp m c1 c2 2).length = c1.cc_turn_length c2.start := by
  unfold table shortcut
  rw [if_neg hne, if_neg (fun h' => h (Or.inl h')), if_neg (fun h' => h (Or.inr h')), if_pos hon]; rfl

theorem shortcut_none {c1 c2 : SF.Circle} (hne : ¬ SF.configuration_equal c1.start c2.start)
    (h : ¬ Aligned c1.start c2.start) (hon : ¬ SF.configuration_on_hc_cc_circle c1 c2.start) :
    shortcut c1 c2 = none := by
  unfold shortcut
  rw [if_neg hne, if_neg (fun h' => h (Or.inl h')), if_neg (fun h' => h (Or.inr h')), if_neg hon]

theorem dist_equal (h : SF.configuration_equal (startOf s1) (startOf s2)) : get_distance sp s1 s2 ≤ 0 := by
  refine (dist_le_path (i := 0) (j := 0) (by norm_num) (by norm_num)).trans ?_
  exact (CcRs.entry_le sp _ _ (i := 0) (by norm_num)).trans (le_of_eq (table_E h))

theorem dist_aligned (hne : ¬ SF.configuration_equal (startOf s1) (startOf s2))
    (h : Aligned (startOf s1) (startOf s2)) : get_distance sp s1 s2 ≤ dist2 s1 s2 := by
  refine (dist_le_path (i := 0) (j := 0) (by norm_num) (by norm_num)).trans ?_
  exact (CcRs.entry_le sp _ _ (i := 1) (by norm_num)).trans (le_of_eq (table_S hne h))

end

/-- Every turn of a word. -/
theorem rsTurn_turned {k s : ℝ} (H : Rng k s) (l d : Bool) {w : List Segment} (h : RSTurn k s (sg d) (sg l) w)
    (p : Config) : Turned false k s l d p (libAll w p) (totalLength w) := by
  cases h with
  | full a => exact full_turned H.kappa H.sigma H.clothoid false l d (by simp) p
  | elementary s0 L a hs0 hL h1 h2 h3 ends chord =>
    exact elementary_turned H.kappa H.sigma false l d hs0 hL h1 h2 h3 ends chord p

theorem word_split {k s : ℝ} (H : Rng k s) {cs : List Segment} (hw : RSWord k s cs) (p g : Config)
    (he : SameConfig (libAll cs p) g) :
    (∃ d1 d d2 l1 l2 q1 q2 x L1 L2, Turned false k s l1 d1 p q1 L1 ∧ Turned false k s l2 d2 q2 g L2 ∧ 0 ≤ x ∧
      q2.pos = q1.pos + cis q1.theta * ((sg d * x : ℝ) : ℂ) ∧ AngleEq q2.theta q1.theta ∧
      (d = d1 ∨ d = d2 ∨ 2 * (k / s) + 1 / 10000 ≤ x) ∧ ((d = d1 ∧ d = d2) ∨ l1 ≠ l2 ∨ 1 / 10000 ≤ x) ∧
      totalLength cs = L1 + x + L2) ∨
    (∃ d1 d2 d3 l q1 q2 L1 L2 L3, Turned false k s l d1 p q1 L1 ∧ Turned false k s (!l) d2 q1 q2 L2 ∧
      Turned false k s l d3 q2 g L3 ∧ totalLength cs = L1 + L2 + L3) := by
  have inj : ∀ a b : Bool, sg a = sg b → b = a := by intro a b; cases a <;> cases b <;> norm_num [sg]
  cases hw with
  | @tst d1 d d2 l1 l2 x w1 w2 hd1 hd hd2 hl1 hl2 h1 hx h2 two one =>
    obtain ⟨d1, rfl⟩ := exists_sg hd1
    obtain ⟨d, rfl⟩ := exists_sg hd
    obtain ⟨d2, rfl⟩ := exists_sg hd2
    obtain ⟨b1, rfl⟩ := exists_sg hl1
    obtain ⟨b2, rfl⟩ := exists_sg hl2
    rw [libAll_append, libAll_append] at he
    obtain ⟨e1, e2⟩ := lib_line (len := sg d * x) (libAll w1 p)
    left
    refine ⟨d1, d, d2, b1, b2, libAll w1 p, libArrive ⟨sg d * x, 0, 0⟩ (libAll w1 p), x, totalLength w1,
      totalLength w2, rsTurn_turned H b1 d1 h1 p, ?_, hx, e1, AngleEq.of_eq e2, ?_, ?_, ?_⟩
    · exact (rsTurn_turned H b2 d2 h2 _).congr (SameConfig.refl _) he
    · exact two.imp (inj _ _) (Or.imp_left (inj _ _))
    · exact one.imp (And.imp (inj _ _) (inj _ _)) (Or.imp_left (fun h h' => h (by rw [h'])))
    · rw [totalLength_append, totalLength_append]
      simp only [totalLength, List.map_cons, List.map_nil, List.sum_cons, List.sum_nil,
        abs_pm_mul (sg_pm d) hx, add_zero]
  | @tt d1 d2 l w1 w2 hd1 hd2 hl h1 h2 =>
    obtain ⟨d1, rfl⟩ := exists_sg hd1
    obtain ⟨d2, rfl⟩ := exists_sg hd2
    obtain ⟨b, rfl⟩ := exists_sg hl
    rw [← sg_not] at h2
    rw [libAll_append] at he
    left
    refine ⟨d1, d2, d2, b, !b, libAll w1 p, libAll w1 p, 0, totalLength w1, totalLength w2,
      rsTurn_turned H b d1 h1 p, ?_, le_rfl, by simp, AngleEq.refl _, Or.inr (Or.inl rfl), Or.inr (Or.inl ?_), ?_⟩
    · exact (rsTurn_turned H (!b) d2 h2 _).congr (SameConfig.refl _) he
    · cases b <;> simp
    · rw [totalLength_append, add_zero]
  | @ttt d1 d2 d3 l w1 w2 w3 hd1 hd2 hd3 hl h1 h2 h3 =>
    obtain ⟨d1, rfl⟩ := exists_sg hd1
    obtain ⟨d2, rfl⟩ := exists_sg hd2
    obtain ⟨d3, rfl⟩ := exists_sg hd3
    obtain ⟨b, rfl⟩ := exists_sg hl
    rw [← sg_not] at h2
    rw [libAll_append, libAll_append] at he
    right
    refine ⟨d1, d2, d3, b, libAll w1 p, libAll w2 (libAll w1 p), totalLength w1, totalLength w2, totalLength w3,
      rsTurn_turned H b d1 h1 p, rsTurn_turned H (!b) d2 h2 _,
      (rsTurn_turned H b d3 h3 _).congr (SameConfig.refl _) he, ?_⟩
    rw [totalLength_append, totalLength_append]

section
variable {sp : SF.HCSpace} {s1 s2 : SF.State} (H : Rng sp.kappa sp.sigma)

open SF.CcRs

/-- The goal is off the circles of the start. -/
def Off (sp : SF.HCSpace) (s1 s2 : SF.State) : Prop :=
  ∀ i < 4, ¬ SF.configuration_on_hc_cc_circle (end_circle sp s1 i) (startOf s2)

include H in
theorem word_le {cs : List Segment} (hw : RSWord sp.kappa sp.sigma cs)
    (he : SameConfig (libAll cs (pose s1)) (pose s2)) (hoff : Off sp s1 s2)
    (hA : ¬ Aligned (startOf s1) (startOf s2)) : get_distance sp s1 s2 ≤ totalLength cs := by
  by_cases hE : SF.configuration_equal (startOf s1) (startOf s2)
  · exact (dist_equal hE).trans (totalLength_nonneg cs)
  have hcl : ∀ i j, i < 4 → shortcut (end_circle sp s1 i) (end_circle sp s2 j) = none := fun i j hi =>
    shortcut_none hE hA (hoff i hi)
  have ok := fun (s : SF.State) (i : ℕ) => CcRs.end_ok (sp := sp) H s i
  have ec := fun (s : SF.State) (i : ℕ) => (CcRs.end_cfg (sp := sp) s i).symm
  rcases word_split H hw _ _ he with ⟨d1, d, d2, l1, l2, q1, q2, x, L1, L2, t1, t2, hx, hq, hqt, two, one, e⟩ |
    ⟨d1, d2, d3, l, q1, q2, L1, L2, L3, t1, t2, t3, e⟩
  · rw [e]
    refine (dist_le_path (idx_lt d1 l1) (idx_lt (!d2) l2)).trans ?_
    have t1' := t1.congr (ec s1 (idx d1 l1)) (SameConfig.refl _)
    have t2' := t2.congr (SameConfig.refl _) (ec s2 (idx (!d2) l2))
    have a1 := end_left (sp := sp) s1 d1 l1
    have a2 := end_forward (sp := sp) s1 d1 l1
    have a3 := end_left (sp := sp) s2 (!d2) l2
    have a4 := end_forward (sp := sp) s2 (!d2) l2
    have hs := hcl (idx d1 l1) (idx (!d2) l2) (idx_lt _ _)
    have k1 := ok s1 (idx d1 l1)
    have k2 := ok s2 (idx (!d2) l2)
    have r1 : (end_circle sp s1 (idx d1 l1)).regular = false := rfl
    have r2 : (end_circle sp s2 (idx (!d2) l2)).regular = false := rfl
    generalize end_circle sp s1 (idx d1 l1) = c1 at *
    generalize end_circle sp s2 (idx (!d2) l2) = c2 at *
    subst a1 a2 a3
    have a5 : d2 = !c2.forward := by rw [a4, Bool.not_not]
    subst a5
    exact line_word H k1 k2 r1 r2 hs t1' t2' hx hq hqt two one
  · rw [e]
    refine (dist_le_path (idx_lt d1 l) (idx_lt (!d3) l)).trans ?_
    have t1' := t1.congr (ec s1 (idx d1 l)) (SameConfig.refl _)
    have t3' := t3.congr (SameConfig.refl _) (ec s2 (idx (!d3) l))
    have a1 := end_left (sp := sp) s1 d1 l
    have a2 := end_forward (sp := sp) s1 d1 l
    have a3 := end_left (sp := sp) s2 (!d3) l
    have a4 := end_forward (sp := sp) s2 (!d3) l
    have hs := hcl (idx d1 l) (idx (!d3) l) (idx_lt _ _)
    have k1 := ok s1 (idx d1 l)
    have k2 := ok s2 (idx (!d3) l)
    have r1 : (end_circle sp s1 (idx d1 l)).regular = false := rfl
    have r2 : (end_circle sp s2 (idx (!d3) l)).regular = false := rfl
    have ho := hoff _ (idx_lt d1 l)
    have es : (end_circle sp s2 (idx (!d3) l)).start = startOf s2 := rfl
    generalize end_circle sp s1 (idx d1 l) = c1 at *
    generalize end_circle sp s2 (idx (!d3) l) = c2 at *
    subst a1 a2
    have a5 : d3 = !c2.forward := by rw [a4, Bool.not_not]
    subst a5
    refine three_word H k1 k2 r1 r2 hs t1' t2 (by rw [a3]; exact t3') a3 ?_
    intro hf hc
    refine ho (on_circle k1.ok H.kappa H.sigma H.clothoid (SF.twopify_nonneg _) (SF.twopify_lt _) ?_)
    rw [hc, k2.cen, es, hf, a3, sg_not, neg_mul]

include H in
theorem word_le_tol {cs : List Segment} (hw : RSWord sp.kappa sp.sigma cs)
    (he : SameConfig (libAll cs (pose s1)) (pose s2)) (hoff : Off sp s1 s2) :
    get_distance sp s1 s2 ≤ totalLength cs + pathTol cs := by
  by_cases hA : Aligned (startOf s1) (startOf s2)
  · have h0 := libAll_dist cs (pose s1)
    have : (libAll cs (pose s1)).dist (pose s1) = dist2 s1 s2 := by
      rw [← CC00.dist2_eq, Config.dist_eq, Config.dist_eq, (sameConfig_iff.1 he).1]
    rw [this] at h0
    by_cases hE : SF.configuration_equal (startOf s1) (startOf s2)
    · exact (dist_equal hE).trans (le_trans (sqrt_nonneg _) h0)
    · exact (dist_aligned hE hA).trans h0
  · have := word_le H hw he hoff hA
    linarith [pathTol_nonneg cs]

include H in
/-- A single turn. -/
theorem turn_le {cs : List Segment} {l d : Bool} (hw : RSTurn sp.kappa sp.sigma (sg d) (sg l) cs)
    (he : SameConfig (libAll cs (pose s1)) (pose s2)) :
    get_distance sp s1 s2 ≤ totalLength cs + pathTol cs ∧
    (¬ Aligned (startOf s1) (startOf s2) → get_distance sp s1 s2 ≤ totalLength cs) := by
  have t := (rsTurn_turned H l d hw (pose s1)).congr (CcRs.end_cfg (sp := sp) s1 (idx d l)).symm
    (he.trans (CcRs.end_cfg (sp := sp) s2 0).symm)
  have h0 := libAll_dist cs (pose s1)
  have hd : (libAll cs (pose s1)).dist (pose s1) = dist2 s1 s2 := by
    rw [← CC00.dist2_eq, Config.dist_eq, Config.dist_eq, (sameConfig_iff.1 he).1]
  rw [hd] at h0
  have main : ¬ Aligned (startOf s1) (startOf s2) → get_distance sp s1 s2 ≤ totalLength cs := by
    intro hA
    by_cases hE : SF.configuration_equal (startOf s1) (startOf s2)
    · exact (dist_equal hE).trans t.nonneg
    refine (dist_le_path (idx_lt d l) (j := 0) (by norm_num)).trans ?_
    have a1 := end_left (sp := sp) s1 d l
    have a2 := end_forward (sp := sp) s1 d l
    have k1 := CcRs.end_ok (sp := sp) H s1 (idx d l)
    have r1 : (end_circle sp s1 (idx d l)).regular = false := rfl
    have es1 : (end_circle sp s1 (idx d l)).start = startOf s1 := rfl
    have es : (end_circle sp s2 0).start = startOf s2 := rfl
    generalize end_circle sp s1 (idx d l) = c1 at *
    generalize end_circle sp s2 0 = c2 at *
    subst a1 a2
    have hon : SF.configuration_on_hc_cc_circle c1 c2.start := by
      rw [es] at t ⊢
      refine on_circle k1.ok H.kappa H.sigma H.clothoid (SF.twopify_nonneg _) (SF.twopify_lt _) ?_
      rw [k1.cen]; exact t.cen
    have hT := table_T (sp := sp) (m := SF.scratch c1 c2) (c1 := c1) (c2 := c2) (by rw [es, es1]; exact hE)
      (by rw [es, es1]; exact hA) hon
    refine (CcRs.entry_le sp _ _ (i := 2) (by norm_num)).trans (hT.le.trans ?_)
    exact t.ahead _ _ k1.ok r1 rfl rfl (SameConfig.refl _) (SameConfig.refl _)
  refine ⟨?_, main⟩
  by_cases hA : Aligned (startOf s1) (startOf s2)
  · by_cases hE : SF.configuration_equal (startOf s1) (startOf s2)
    · exact (dist_equal hE).trans (le_trans (sqrt_nonneg _) h0)
    · exact (dist_aligned hE hA).trans h0
  · linarith [main hA, pathTol_nonneg cs]

/-- A straight line. -/
theorem straight_le {d : Bool} {x : ℝ} (hx : 0 ≤ x)
    (he : SameConfig (libAll [⟨sg d * x, 0, 0⟩] (pose s1)) (pose s2)) : get_distance sp s1 s2 ≤ x := by
  obtain ⟨e1, e2⟩ := lib_line (len := sg d * x) (pose s1)
  have he' := sameConfig_iff.1 he
  simp only [libAll] at he'
  rw [e1, e2] at he'
  have hth : (startOf s2).theta = (startOf s1).theta := SF.twopify_congr he'.2.symm
  have hpos : (cfg (startOf s2)).pos = (cfg (startOf s1)).pos
      + cis (startOf s1).theta * ((sg d * x : ℝ) : ℂ) := by
    change (pose s2).pos = (pose s1).pos + _
    rw [← he'.1]
    congr 2
    exact (cis_twopify _).symm
  have hd : dist2 s1 s2 = x := by
    rw [← CC00.dist2_eq, Config.dist_eq, ← he'.1, add_sub_cancel_left, norm_cis_mul, Complex.norm_real,
      Real.norm_eq_abs, abs_pm_mul (sg_pm _) hx]
  by_cases hE : SF.configuration_equal (startOf s1) (startOf s2)
  · exact (dist_equal hE).trans hx
  have hx0 : 0 < x := by
    rcases hx.lt_or_eq with h | h
    · exact h
    · exfalso; apply hE
      unfold SF.configuration_equal
      rw [if_neg (by rw [hth, sub_self]; norm_num [SF.epsilon]), if_neg]
      · trivial
      · change ¬ dist2 s1 s2 > _
        rw [hd, ← h]; norm_num [SF.epsilon]
  rw [← hd]
  refine dist_aligned hE ?_
  cases d
  · right
    refine CC00.aligned_of hx0 hth.symm (SF.twopify_nonneg _) (SF.twopify_lt _) ?_
    rw [hpos, hth]; simp [sg]
  · left
    refine CC00.aligned_of hx0 hth (SF.twopify_nonneg _) (SF.twopify_lt _) ?_
    rw [hpos]; simp [sg]

end

end CcRsOpt

end Spec
