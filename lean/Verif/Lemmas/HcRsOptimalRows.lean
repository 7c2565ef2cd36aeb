import Verif.Lemmas.HcRsOptimal

/-!
# Hybrid-curvature Reeds-Shepp: the words with at most three parts are in the table
-/

noncomputable section

namespace Spec

namespace HcOpt

open Real Props

section
variable {k s : ℝ} (H : Rng k s) {pm1 pm2 : Bool} {c1 c2 : SF.Circle} (h1 : EndOk pm1 k s c1) (h2 : EndOk pm2 k s c2)

/-- Direction of the line after the first joint. -/
def way (u f : Bool) : Bool := if u then !f else f

theorem sg_way (u f : Bool) : sg (way u f) = after u (sg f) := by cases u <;> simp [way, after, sg_not]

/-- Offset along the line. -/
def nA (k s : ℝ) (u : Bool) : ℝ := if u then 0 else ccA k s

theorem offset (u1 u2 f1 : Bool) {f2 : Bool} (hf : f2 = !way u2 (way u1 f1)) :
    sg (way u1 f1) * (jA k s u2 f2 - jA k s u1 f1) = nA k s u1 + nA k s u2 := by
  subst hf
  cases u1 <;> cases u2 <;> cases f1 <;> norm_num [way, nA, jA, sg]

include H in
theorem nA_nonneg (u : Bool) : 0 ≤ nA k s u := by
  have := ccA_pos H.kappa H.sigma H.clothoid
  unfold nA; split_ifs <;> linarith

include H h1 h2 in
/-- A row with a line. -/
theorem line_row {u1 u2 : Bool} (hf : c2.forward = !way u2 (way u1 c1.forward)) {q1 q2 : Config} {x L1 L2 : ℝ}
    (F : First pm1 u1 k s c1.left c1.forward (cfg c1.start) q1 L1)
    (G : Last pm2 u2 k s c2.left c2.forward q2 (cfg c2.start) L2) (hx : 0 ≤ x)
    (hq : q2.pos = q1.pos + cis q1.theta * ((sg (way u1 c1.forward) * x : ℝ) : ℂ)) (hqt : AngleEq q2.theta q1.theta)
    (h0 : u1 = true → u2 = true → 0 < x) {q : SF.Configuration × SF.Configuration} {x' : ℝ} (hx' : 0 ≤ x')
    (j1 : AtJoint k s u1 c1.forward c1.left (center c1) (cfg q.1))
    (j2 : AtJoint k s u2 c2.forward c2.left (center c2) (cfg q.2))
    (ha : Ahead (sg (way u1 c1.forward)) q.1 q.2 x') :
    (firstM pm1 u1 (SF.hc_cc_circle_param k s) c1 q.1).length + SF.configuration_distance q.1 q.2
      + (lastM pm2 u2 (SF.hc_cc_circle_param k s) c2 q.2).length ≤ L1 + x + L2 := by
  have hA := ccA_pos H.kappa H.sigma H.clothoid
  have n1 := nA_nonneg H u1
  have n2 := nA_nonneg H u2
  have o := offset (k := k) (s := s) u1 u2 c1.forward hf
  have F' := F.at_
  have G' := G.at_
  rw [← h1.cen] at F'
  rw [← h2.cen] at G'
  obtain ⟨e1, e2, e3⟩ := joint_unique (sg_pm (way u1 c1.forward)) (x := x) (x' := x') (by rw [o]; linarith)
    (by rw [o]; linarith) (Or.inl (by
      rw [o]
      cases u1
      · have : nA k s false = ccA k s := rfl
        linarith
      · cases u2
        · have : nA k s false = ccA k s := rfl
          linarith
        · have := h0 rfl rfl; linarith)) F' G' hq hqt j1 j2
    (by have := ha.2; rw [sub_eq_iff_eq_add] at this; rw [this, add_comm]; rfl) (AngleEq.of_eq ha.1.symm)
  rw [ha.length (sg_pm _) hx', ← e3]
  have := F.le c1 q.1 h1 rfl rfl (SameConfig.refl _) e1
  have := G.le c2 q.2 h2 rfl rfl (SameConfig.refl _) e2
  linarith

include h1 h2 in
/-- Distance of the centres of the first and the last circle. -/
theorem line_dist {u1 u2 : Bool} (hf : c2.forward = !way u2 (way u1 c1.forward)) {q1 q2 : Config} {x L1 L2 : ℝ}
    (F : First pm1 u1 k s c1.left c1.forward (cfg c1.start) q1 L1)
    (G : Last pm2 u2 k s c2.left c2.forward q2 (cfg c2.start) L2)
    (hq : q2.pos = q1.pos + cis q1.theta * ((sg (way u1 c1.forward) * x : ℝ) : ℂ)) (hqt : AngleEq q2.theta q1.theta) :
    ‖center c2 - center c1‖
      = √((x + (nA k s u1 + nA k s u2)) ^ 2 + (jB k s u2 c2.left - jB k s u1 c1.left) ^ 2) := by
  have F' := F.at_
  have G' := G.at_
  rw [← h1.cen] at F'
  rw [← h2.cen] at G'
  rw [joint_dist (sg_pm (way u1 c1.forward)) F' G' hq hqt, offset _ _ _ hf]

/-- Configurations at a touching point. -/
theorem touch_row {u f f' l : Bool} (H : Rng k s) (hf : u = false → f' = !f) {z1 z2 : ℂ} {q : Config}
    {r : SF.Configuration} (h1 : AtJoint k s u f l z1 q) (h2 : AtJoint k s u f' (!l) z2 q)
    (j1 : AtJoint k s u f l z1 (cfg r)) (j2 : AtJoint k s u f' (!l) z2 (cfg r)) : SameConfig (cfg r) q :=
  (touch H u hf h1 h2).2 _ j1 j2

include H h1 h2 in
/-- A row with three turns. -/
theorem three_row {u1 u2 reg : Bool} (hf : c2.forward = !way u2 (way u1 c1.forward)) (hl : c2.left = c1.left)
    {q1 q2 : Config} {L1 L2 L3 : ℝ} (F : First pm1 u1 k s c1.left c1.forward (cfg c1.start) q1 L1)
    (T : MidTurn reg u1 u2 k s (!c1.left) (way u1 c1.forward) q1 q2 L2)
    (G : Last pm2 u2 k s c2.left c2.forward q2 (cfg c2.start) L3) {M : ℂ}
    (m1 : AtJoint k s u1 (!way u1 c1.forward) (!c1.left) M q1) (m2 : AtJoint k s u2 (way u1 c1.forward) (!c1.left) M q2)
    {qa qb : SF.Configuration} (a1 : AtJoint k s u1 c1.forward c1.left (center c1) (cfg qa))
    (a2 : AtJoint k s u1 (!way u1 c1.forward) (!c1.left) M (cfg qa))
    (a3 : AtJoint k s u2 (way u1 c1.forward) (!c1.left) M (cfg qb))
    (a4 : AtJoint k s u2 c2.forward c2.left (center c2) (cfg qb)) :
    (firstM pm1 u1 (SF.hc_cc_circle_param k s) c1 qa).length
      + midLength reg u1 u2 k s (!c1.left) (way u1 c1.forward) qa qb
      + (lastM pm2 u2 (SF.hc_cc_circle_param k s) c2 qb).length ≤ L1 + L2 + L3 := by
  have F' := F.at_
  have G' := G.at_
  rw [← h1.cen] at F'
  rw [← h2.cen] at G'
  have e1 := touch_row H (by rintro rfl; rfl) F' m1 a1 a2
  have hll : c2.left = !!c1.left := by rw [hl, Bool.not_not]
  rw [hll] at a4 G'
  have e2 := touch_row H (by rintro rfl; exact hf) m2 G' a3 a4
  have := F.le c1 qa h1 rfl rfl (SameConfig.refl _) e1
  have := T.le qa qb e1 e2
  have := G.le c2 qb h2 rfl rfl (SameConfig.refl _) e2
  linarith

end

section
variable {sp : SF.HCSpace} (H : Rng sp.kappa sp.sigma) {pm1 pm2 : Bool} {c1 c2 : SF.Circle}
  (h1 : EndOk pm1 sp.kappa sp.sigma c1) (h2 : EndOk pm2 sp.kappa sp.sigma c2)
  (hs : SF.HcRs.shortcut pm1 pm2 sp (SF.scratch c1 c2) c1 c2 = none)

include hs in
theorem family_le {i : ℕ} (hi : i < 18) : (SF.HcRs.circles_rs_path pm1 pm2 sp c1 c2).length
    ≤ (SF.HcRs.family pm1 pm2 sp (SF.scratch c1 c2) c1 c2 i).length := by
  have := HcRs.entry_le pm1 pm2 sp c1 c2 hi
  unfold SF.HcRs.table at this
  rw [hs] at this
  exact this

theorem sq_le_sqrt {a b c d : ℝ} (ha : 0 ≤ a) (hab : a ≤ c) (hb : b ^ 2 = d ^ 2) :
    √(a ^ 2 + b ^ 2) ≤ √(c ^ 2 + d ^ 2) := sqrt_le_sqrt (by nlinarith)

include H h1 h2 hs in
/-- Words with a line. -/
theorem line_word {u1 u2 : Bool} (hf : c2.forward = !way u2 (way u1 c1.forward)) {q1 q2 : Config} {x L1 L2 : ℝ}
    (F : First pm1 u1 sp.kappa sp.sigma c1.left c1.forward (cfg c1.start) q1 L1)
    (G : Last pm2 u2 sp.kappa sp.sigma c2.left c2.forward q2 (cfg c2.start) L2) (hx : 0 ≤ x)
    (hq : q2.pos = q1.pos + cis q1.theta * ((sg (way u1 c1.forward) * x : ℝ) : ℂ)) (hqt : AngleEq q2.theta q1.theta)
    (two : u1 = true → u2 = true → (c1.left ≠ c2.left ∧ 0 < x) ∨ 1 / 10000 ≤ x) :
    (SF.HcRs.circles_rs_path pm1 pm2 sp c1 c2).length ≤ L1 + x + L2 := by
  have hA := ccA_pos H.kappa H.sigma H.clothoid
  have hB := ccB_pos H.kappa H.sigma H.clothoid
  have hk := H.pos
  have hki : 0 < 1 / sp.kappa := by positivity
  have hi := h1.abs_inv H.pos
  have hD := line_dist h1 h2 hf F G hq hqt
  have row := fun {q : SF.Configuration × SF.Configuration} {x' : ℝ} => line_row (q := q) (x' := x') H h1 h2 hf F G hx hq hqt
    (fun a b => (two a b).elim (fun h => h.2) (fun h => lt_of_lt_of_le (by norm_num) h))
  have hleft : c2.left = c1.left ∨ c2.left = !c1.left := by cases c1.left <;> cases c2.left <;> simp
  have hSD := scratch_distance c1 c2
  have nn : ∀ b : Bool, (!b) ≠ b := by decide
  have nn' : ∀ b : Bool, b ≠ !b := by decide
  have sq2 : ∀ b : Bool, sg b ^ 2 = 1 := by intro b; cases b <;> norm_num [sg]
  cases u1 <;> cases u2
  · -- TST
    have hf' : c2.forward = !c1.forward := hf
    refine (family_le hs (i := SF.hc_cc_rs.TST) (by norm_num)).trans ?_
    change (SF.HcRs.TST_path pm1 pm2 sp.param (SF.scratch c1 c2) c1 c2).length ≤ _
    unfold SF.HcRs.TST_path
    rcases hleft with hl | hl
    · have hD' : 2 * ccA sp.kappa sp.sigma ≤ ‖center c2 - center c1‖ := by
        rw [hD, hl, sub_self]
        refine le_sqrt_of_sq_le ?_
        simp only [nA, Bool.false_eq_true, if_false]; nlinarith
      rw [if_neg, if_pos]
      · obtain ⟨j1, j2, x', hx', _, ha⟩ := TeST_at H c1 c2 hD'
        rw [← hf', ← hl] at j2
        exact row hx' j1.joint j2.joint ha
      · unfold SF.HcRs.TeST_exists SF.CC00.TeST_exists
        rw [if_neg (by simpa [SF.Circle.reparam] using hl.symm), if_neg (by simp [SF.Circle.reparam, hf'])]
        have := sin_param H
        change _ ≥ 2 * (SF.hc_cc_circle_param sp.kappa sp.sigma).radius * (SF.hc_cc_circle_param sp.kappa sp.sigma).sin_mu
        rw [mul_assoc, this, hSD]; exact hD'
      · unfold SF.HcRs.TiST_exists SF.CC00.TiST_exists
        rw [if_pos (by simpa [SF.Circle.reparam] using hl.symm)]; exact id
    · have hD' : 2 * ccR sp.kappa sp.sigma ≤ ‖center c2 - center c1‖ := by
        rw [hD, hl, jB_not]
        refine le_sqrt_of_sq_le ?_
        rw [mul_pow, ccR_sq]
        have := sq2 c1.left
        simp only [nA, jB, Bool.false_eq_true, if_false]; nlinarith
      rw [if_pos]
      · obtain ⟨j1, j2, x', hx', _, ha⟩ := TiST_at H c1 c2 hD'
        rw [← hf', ← hl] at j2
        exact row hx' j1.joint j2.joint ha
      · unfold SF.HcRs.TiST_exists SF.CC00.TiST_exists
        rw [if_neg (by simp [SF.Circle.reparam, hl]), if_neg (by simp [SF.Circle.reparam, hf'])]
        change _ ≥ 2 * (SF.hc_cc_circle_param sp.kappa sp.sigma).radius
        rw [radius_param H, hSD]; exact hD'
  · -- TScT
    have hf' : c2.forward = c1.forward := by rw [hf]; simp [way]
    refine (family_le hs (i := SF.hc_cc_rs.TScT) (by norm_num)).trans ?_
    change (SF.HcRs.TScT_path pm1 pm2 sp.param (SF.scratch c1 c2) c1 c2).length ≤ _
    unfold SF.HcRs.TScT_path
    rcases hleft with hl | hl
    · have hD' : √(ccA sp.kappa sp.sigma ^ 2 + (ccB sp.kappa sp.sigma - 1 / sp.kappa) ^ 2) ≤ ‖center c2 - center c1‖ := by
        rw [hD, hl]
        refine sq_le_sqrt hA.le (by simp only [nA, if_true, Bool.false_eq_true, if_false]; linarith) ?_
        simp only [jB, if_true, Bool.false_eq_true, if_false, ← rs_inv]
        linear_combination (-(1 / sp.kappa - ccB sp.kappa sp.sigma) ^ 2) * sq2 c1.left
      rw [if_neg, if_pos]
      · obtain ⟨j1, j2, x', hx', _, ha⟩ := TeScT_at H c1 c2 hi hD'
        rw [← hl] at j2
        exact row hx' j1.joint (j2.joint _ _) ha
      · unfold SF.HcRs.TeScT_exists
        rw [if_neg (by simp [hl]), if_neg (by simp [hf'])]
        change _ ≥ √(((SF.hc_cc_circle_param sp.kappa sp.sigma).radius * (SF.hc_cc_circle_param sp.kappa sp.sigma).sin_mu) ^ 2 + ((SF.hc_cc_circle_param sp.kappa sp.sigma).radius * (SF.hc_cc_circle_param sp.kappa sp.sigma).cos_mu - |c1.kappa_inv|) ^ 2)
        rw [sin_param H, cos_param H, hi, hSD]; exact hD'
      · unfold SF.HcRs.TiScT_exists
        rw [if_pos hl.symm]; exact id
    · have hD' : √(ccA sp.kappa sp.sigma ^ 2 + (ccB sp.kappa sp.sigma + 1 / sp.kappa) ^ 2) ≤ ‖center c2 - center c1‖ := by
        rw [hD, hl, jB_not]
        refine sq_le_sqrt hA.le (by simp only [nA, if_true, Bool.false_eq_true, if_false]; linarith) ?_
        simp only [jB, if_true, Bool.false_eq_true, if_false, ← rs_inv]
        linear_combination (-(1 / sp.kappa + ccB sp.kappa sp.sigma) ^ 2) * sq2 c1.left
      rw [if_pos]
      · obtain ⟨j1, j2, x', hx', _, ha⟩ := TiScT_at H c1 c2 hi hD'
        rw [← hl] at j2
        exact row hx' j1.joint (j2.joint _ _) ha
      · unfold SF.HcRs.TiScT_exists
        rw [if_neg (by simp [hl]), if_neg (by simp [hf'])]
        change _ ≥ √(((SF.hc_cc_circle_param sp.kappa sp.sigma).radius * (SF.hc_cc_circle_param sp.kappa sp.sigma).sin_mu) ^ 2 + ((SF.hc_cc_circle_param sp.kappa sp.sigma).radius * (SF.hc_cc_circle_param sp.kappa sp.sigma).cos_mu + |c1.kappa_inv|) ^ 2)
        rw [sin_param H, cos_param H, hi, hSD]; exact hD'
  · -- TcST
    have hf' : c2.forward = c1.forward := by rw [hf]; simp [way]
    refine (family_le hs (i := SF.hc_cc_rs.TcST) (by norm_num)).trans ?_
    change (SF.HcRs.TcST_path pm1 pm2 sp.param (SF.scratch c1 c2) c1 c2).length ≤ _
    unfold SF.HcRs.TcST_path
    rcases hleft with hl | hl
    · have hD' : √(ccA sp.kappa sp.sigma ^ 2 + (ccB sp.kappa sp.sigma - 1 / sp.kappa) ^ 2) ≤ ‖center c2 - center c1‖ := by
        rw [hD, hl]
        refine sq_le_sqrt hA.le (by simp only [nA, if_true, Bool.false_eq_true, if_false]; linarith) ?_
        simp only [jB, if_true, Bool.false_eq_true, if_false, ← rs_inv]
        linear_combination (-(1 / sp.kappa - ccB sp.kappa sp.sigma) ^ 2) * sq2 c1.left
      rw [if_neg, if_pos]
      · obtain ⟨j1, j2, x', hx', _, ha⟩ := TceST_at H c1 c2 hi hD'
        rw [← hl, ← hf'] at j2
        rw [← sg_not] at ha
        exact row hx' (j1.joint _ _) j2.joint ha
      · unfold SF.HcRs.TceST_exists
        rw [if_neg (by simp [hl]), if_neg (by simp [hf'])]
        change _ ≥ √(((SF.hc_cc_circle_param sp.kappa sp.sigma).radius * (SF.hc_cc_circle_param sp.kappa sp.sigma).sin_mu) ^ 2 + ((SF.hc_cc_circle_param sp.kappa sp.sigma).radius * (SF.hc_cc_circle_param sp.kappa sp.sigma).cos_mu - |c1.kappa_inv|) ^ 2)
        rw [sin_param H, cos_param H, hi, hSD]; exact hD'
      · unfold SF.HcRs.TciST_exists
        rw [if_pos hl.symm]; exact id
    · have hD' : √(ccA sp.kappa sp.sigma ^ 2 + (ccB sp.kappa sp.sigma + 1 / sp.kappa) ^ 2) ≤ ‖center c2 - center c1‖ := by
        rw [hD, hl, jB_not]
        refine sq_le_sqrt hA.le (by simp only [nA, if_true, Bool.false_eq_true, if_false]; linarith) ?_
        simp only [jB, if_true, Bool.false_eq_true, if_false, ← rs_inv]
        linear_combination (-(1 / sp.kappa + ccB sp.kappa sp.sigma) ^ 2) * sq2 c1.left
      rw [if_pos]
      · obtain ⟨j1, j2, x', hx', _, ha⟩ := TciST_at H c1 c2 hi hD'
        rw [← hl, ← hf'] at j2
        rw [← sg_not] at ha
        exact row hx' (j1.joint _ _) j2.joint ha
      · unfold SF.HcRs.TciST_exists
        rw [if_neg (by simp [hl]), if_neg (by simp [hf'])]
        change _ ≥ √(((SF.hc_cc_circle_param sp.kappa sp.sigma).radius * (SF.hc_cc_circle_param sp.kappa sp.sigma).sin_mu) ^ 2 + ((SF.hc_cc_circle_param sp.kappa sp.sigma).radius * (SF.hc_cc_circle_param sp.kappa sp.sigma).cos_mu + |c1.kappa_inv|) ^ 2)
        rw [sin_param H, cos_param H, hi, hSD]; exact hD'
  · -- TcScT
    have hf' : c2.forward = !c1.forward := by rw [hf]; simp [way]
    have two' := two rfl rfl
    refine (family_le hs (i := SF.hc_cc_rs.TcScT) (by norm_num)).trans ?_
    change (SF.HcRs.TcScT_path pm1 pm2 (SF.scratch c1 c2) c1 c2).length ≤ _
    unfold SF.HcRs.TcScT_path
    rcases hleft with hl | hl
    · have hx4 : 1 / 10000 ≤ x := two'.elim (fun h => absurd hl.symm h.1) id
      have hD' : x ≤ ‖center c2 - center c1‖ := by
        rw [hD, hl, sub_self]
        refine le_sqrt_of_sq_le ?_
        simp only [nA, if_true]; nlinarith
      rw [if_neg, if_pos]
      · obtain ⟨j1, j2, ha⟩ := TceScT_at (k := sp.kappa) c1 c2 hi
        rw [← hl] at j2
        rw [← sg_not] at ha
        exact row (norm_nonneg _) (j1.joint _ _) (j2.joint _ _) ha
      · unfold SF.HcRs.TceScT_exists
        rw [if_neg (by simp [hl]), if_neg (by rw [hf']; exact nn' _), hSD, SF.epsilon]
        linarith
      · unfold SF.HcRs.TciScT_exists
        rw [if_pos hl.symm]; exact id
    · have hx0 : 0 < x := two'.elim (fun h => h.2) (fun h => lt_of_lt_of_le (by norm_num) h)
      have hD' : 2 * (1 / sp.kappa) < ‖center c2 - center c1‖ := by
        rw [hD, hl, jB_not]
        refine lt_sqrt_of_sq_lt ?_
        have := sq2 c1.left
        simp only [nA, jB, if_true, ← rs_inv]
        have e : (-(sg c1.left * (1 / sp.kappa)) - sg c1.left * (1 / sp.kappa)) ^ 2 = (2 * (1 / sp.kappa)) ^ 2 := by
          linear_combination (2 * (1 / sp.kappa)) ^ 2 * this
        rw [e]; nlinarith
      rw [if_pos]
      · obtain ⟨j1, j2, x', hx', _, ha⟩ := TciScT_at H c1 c2 hi (h1.abs_kappa H.pos) hD'
        rw [← hl] at j2
        rw [← sg_not] at ha
        exact row hx'.le (j1.joint _ _) (j2.joint _ _) ha
      · unfold SF.HcRs.TciScT_exists
        rw [if_neg (by simp [hl]), if_neg (by rw [hf']; exact nn' _), hSD, hi]
        exact hD'

open Classical in
include H h1 h2 hs in
/-- Words of two turns with a cusp. -/
theorem cusp_word (hf : c2.forward = c1.forward) (hl : c2.left = !c1.left) {q : Config} {L1 L2 : ℝ}
    (F : First pm1 true sp.kappa sp.sigma c1.left c1.forward (cfg c1.start) q L1)
    (G : Last pm2 true sp.kappa sp.sigma c2.left c2.forward q (cfg c2.start) L2) :
    (SF.HcRs.circles_rs_path pm1 pm2 sp c1 c2).length ≤ L1 + L2 := by
  have F' := F.at_
  have G' := G.at_
  rw [← h1.cen] at F'
  rw [← h2.cen, hl] at G'
  obtain ⟨hD, uniq⟩ := touch H true (by simp) F' G'
  rw [if_pos rfl] at hD
  refine (family_le hs (i := SF.hc_cc_rs.TcT) (by norm_num)).trans ?_
  change (if SF.HcRs.TcT_exists (SF.scratch c1 c2) c1 c2 then _ else _ : SF.RSRow).length ≤ _
  rw [if_pos]
  · obtain ⟨j1, j2⟩ := TcT_at (k := sp.kappa) c1 c2 (e := 0) (by rw [hD]; simp)
    have e := uniq _ (j1.joint _ _) (j2.joint _ _)
    exact add_le_add (F.le c1 _ h1 rfl rfl (SameConfig.refl _) e) (G.le c2 _ h2 rfl rfl (SameConfig.refl _) e)
  · unfold SF.HcRs.TcT_exists
    rw [if_neg (by simp [hl]), if_neg (by simp [hf]), scratch_distance, hD, h1.abs_inv H.pos]
    norm_num [SF.epsilon]

open Classical in
include H h1 h2 hs in
/-- Words of three turns. -/
theorem three_word {u1 u2 : Bool} (hf : c2.forward = !way u2 (way u1 c1.forward)) (hl : c2.left = c1.left)
    {q1 q2 : Config} {L1 L2 L3 : ℝ} (F : First pm1 u1 sp.kappa sp.sigma c1.left c1.forward (cfg c1.start) q1 L1)
    (T : MidTurn (!pm1 && !pm2) u1 u2 sp.kappa sp.sigma (!c1.left) (way u1 c1.forward) q1 q2 L2)
    (G : Last pm2 u2 sp.kappa sp.sigma c2.left c2.forward q2 (cfg c2.start) L3)
    (hne : u1 = u2 → center c1 ≠ center c2) :
    (SF.HcRs.circles_rs_path pm1 pm2 sp c1 c2).length ≤ L1 + L2 + L3 := by
  have hk := H.pos
  have hki : 0 < 1 / sp.kappa := by positivity
  have hRk := Dom.inv_lt_ccR H
  have hi := h1.abs_inv H.pos
  have F' := F.at_
  have G' := G.at_
  rw [← h1.cen] at F'
  rw [← h2.cen] at G'
  obtain ⟨M, m1, m2⟩ := T.at_
  have hll : c2.left = !!c1.left := by rw [hl, Bool.not_not]
  have G'' := G'
  rw [hll] at G''
  have n1 := (touch H u1 (by rintro rfl; rfl) F' m1).1
  have n2 := (touch H u2 (by rintro rfl; exact hf) m2 G'').1
  have row := fun {qa qb : SF.Configuration} => three_row (qa := qa) (qb := qb) H h1 h2 hf hl F T G m1 m2
  have hp := scratch_polar c1 c2
  have hD := scratch_distance c1 c2
  have tri := norm_add_le (center c2 - M) (M - center c1)
  rw [sub_add_sub_cancel, ← hD] at tri
  have tri2 := norm_sub_norm_le (center c2 - M) (center c1 - M)
  rw [sub_sub_sub_cancel_right, ← hD, norm_sub_rev (center c1) M] at tri2
  have tri3 := norm_sub_norm_le (center c1 - M) (center c2 - M)
  rw [sub_sub_sub_cancel_right, norm_sub_rev (center c1) M, norm_sub_rev (center c1) (center c2), ← hD] at tri3
  have hDpos : center c1 ≠ center c2 → 0 < (SF.scratch c1 c2).distance := by
    intro h; rw [hD, norm_pos_iff, sub_ne_zero]; exact h.symm
  have fr : ∀ a b : ℝ, (⟨(SF.global_frame_change c1.xc c1.yc (SF.scratch c1 c2).angle a b).1,
      (SF.global_frame_change c1.xc c1.yc (SF.scratch c1 c2).angle a b).2⟩ : ℂ)
      = center c1 + cis (SF.scratch c1 c2).angle * ⟨a, b⟩ := by
    intro a b; exact frame_cis _ _ _ _ _
  have hmid := fun h => CcRsOpt.middle_unique (M := M - center c1) (g := (SF.scratch c1 c2).angle)
    (D := (SF.scratch c1 c2).distance) h rfl rfl
  rw [show ((SF.scratch c1 c2).distance : ℂ) * cis (SF.scratch c1 c2).angle - (M - center c1) = center c2 - M by
    rw [hp]; ring] at hmid
  rw [n1, n2] at hmid tri tri2 tri3
  have nn : ∀ b : Bool, (!b) ≠ b := by decide
  have nn' : ∀ b : Bool, b ≠ !b := by decide
  cases u1 <;> cases u2 <;> simp only [if_true, Bool.false_eq_true, if_false] at n1 n2 hmid tri tri2 tri3
  · -- TTT
    have hf' : c2.forward = !c1.forward := hf
    have side : ∀ dx dy : ℝ, M - center c1 = cis (SF.scratch c1 c2).angle * ⟨dx, dy⟩ →
        (SF.HcRs.TTT_side pm1 pm2 sp.param (SF.scratch c1 c2) c1 c2 dx dy).length ≤ L1 + L2 + L3 := by
      intro dx dy hd
      have hpM := (fr dx dy).trans (by rw [← hd]; ring : _ = M)
      unfold SF.HcRs.TTT_side
      generalize SF.global_frame_change c1.xc c1.yc (SF.scratch c1 c2).angle dx dy = p at *
      have hc : center (SF.circleCentered p.1 p.2 (!c1.left) c1.forward c1.regular sp.param) = M := hpM
      obtain ⟨a1, a2⟩ := TT_at H c1 (SF.circleCentered p.1 p.2 (!c1.left) c1.forward c1.regular sp.param) (e := 0)
        (by rw [hc, n1]; simp)
      obtain ⟨a3, a4⟩ := TT_at H (SF.circleCentered p.1 p.2 (!c1.left) c1.forward c1.regular sp.param) c2 (e := 0)
        (by rw [hc, n2]; simp)
      rw [hc] at a2 a3
      refine row a1.joint a2.joint a3.joint ?_
      rw [hf', hll]; exact a4.joint
    have hpos := hDpos (hne rfl)
    have hm2 := hmid hpos
    have ex : SF.HcRs.TTT_exists sp.param (SF.scratch c1 c2) c1 c2 := by
      unfold SF.HcRs.TTT_exists SF.CC00.TTT_exists
      rw [if_neg (by simp [SF.Circle.reparam, hl]), if_neg (by simp [SF.Circle.reparam, hf'])]
      change _ ≤ 4 * (SF.hc_cc_circle_param sp.kappa sp.sigma).radius
      rw [radius_param H]; linarith
    have edx : ((2 * ccR sp.kappa sp.sigma) ^ 2 + (SF.scratch c1 c2).distance ^ 2 - (2 * ccR sp.kappa sp.sigma) ^ 2) / (2 * (SF.scratch c1 c2).distance)
        = 0.5 * (SF.scratch c1 c2).distance := by
      rw [add_sub_cancel_left]; field_simp; norm_num
    rw [edx] at hm2
    refine (family_le hs (i := SF.hc_cc_rs.TTT) (by norm_num)).trans ?_
    change (if SF.HcRs.TTT_exists sp.param (SF.scratch c1 c2) c1 c2 then _ else _ : SF.RSRow).length ≤ _
    rw [if_pos ex]
    unfold SF.HcRs.TTT_path
    simp only [show sp.param.radius = ccR sp.kappa sp.sigma from radius_param H]
    exact CcRsOpt.shorter_le (hm2.2.imp (side _ _) (side _ _))
  · -- TTcT
    have hf' : c2.forward = c1.forward := by rw [hf]; simp [way]
    have side : ∀ dx dy : ℝ, M - center c1 = cis (SF.scratch c1 c2).angle * ⟨dx, dy⟩ →
        (SF.HcRs.TTcT_side pm1 pm2 sp.param (SF.scratch c1 c2) c1 c2 dx dy).length ≤ L1 + L2 + L3 := by
      intro dx dy hd
      have hpM := (fr dx dy).trans (by rw [← hd]; ring : _ = M)
      unfold SF.HcRs.TTcT_side
      generalize SF.global_frame_change c1.xc c1.yc (SF.scratch c1 c2).angle dx dy = p at *
      have hc : center (SF.circleCentered p.1 p.2 (!c1.left) c1.forward c1.regular sp.param) = M := hpM
      obtain ⟨a1, a2⟩ := TT_at H c1 (SF.circleCentered p.1 p.2 (!c1.left) c1.forward c1.regular sp.param) (e := 0)
        (by rw [hc, n1]; simp)
      obtain ⟨a3, a4⟩ := TcT_at (k := sp.kappa) (SF.circleCentered p.1 p.2 (!c1.left) c1.forward c1.regular sp.param) c2 (e := 0)
        (by rw [hc, n2]; simp)
      rw [hc] at a2 a3
      refine row a1.joint a2.joint (a3.joint _ _) ?_
      rw [hll]; exact a4.joint _ _
    have hpos : 0 < (SF.scratch c1 c2).distance := by linarith
    have hm2 := hmid hpos
    have ex : SF.HcRs.TTcT_exists sp.param (SF.scratch c1 c2) c1 c2 := by
      unfold SF.HcRs.TTcT_exists
      rw [if_neg (by simp [hl]), if_neg (by simp [hf']), hi,
        show sp.param.radius = ccR sp.kappa sp.sigma from radius_param H]
      constructor <;> linarith
    refine (family_le hs (i := SF.hc_cc_rs.TTcT) (by norm_num)).trans ?_
    change (if SF.HcRs.TTcT_exists sp.param (SF.scratch c1 c2) c1 c2 then _ else _ : SF.RSRow).length ≤ _
    rw [if_pos ex]
    unfold SF.HcRs.TTcT_path
    simp only [show sp.param.radius = ccR sp.kappa sp.sigma from radius_param H, hi]
    rw [if_neg (by push Not; exact ⟨hpos.ne', hm2.1⟩)]
    exact CcRsOpt.shorter_le (hm2.2.imp (side _ _) (side _ _))
  · -- TcTT
    have hf' : c2.forward = c1.forward := by rw [hf]; simp [way]
    have side : ∀ dx dy : ℝ, M - center c1 = cis (SF.scratch c1 c2).angle * ⟨dx, dy⟩ →
        (SF.HcRs.TcTT_side pm1 pm2 sp.param (SF.scratch c1 c2) c1 c2 dx dy).length ≤ L1 + L2 + L3 := by
      intro dx dy hd
      have hpM := (fr dx dy).trans (by rw [← hd]; ring : _ = M)
      unfold SF.HcRs.TcTT_side
      generalize SF.global_frame_change c1.xc c1.yc (SF.scratch c1 c2).angle dx dy = p at *
      have hc : center (SF.circleCentered p.1 p.2 (!c1.left) (!c1.forward) c1.regular sp.param) = M := hpM
      obtain ⟨a1, a2⟩ := TcT_at (k := sp.kappa) c1 (SF.circleCentered p.1 p.2 (!c1.left) (!c1.forward) c1.regular sp.param) (e := 0)
        (by rw [hc, n1]; simp)
      obtain ⟨a3, a4⟩ := TT_at H (SF.circleCentered p.1 p.2 (!c1.left) (!c1.forward) c1.regular sp.param) c2 (e := 0)
        (by rw [hc, n2]; simp)
      rw [hc] at a2 a3
      have r := row (a1.joint _ _) (a2.joint _ _) a3.joint (by rw [hll, hf]; exact a4.joint)
      unfold midLength at r
      simp only [if_true, Bool.false_eq_true, if_false, way, Bool.not_not] at r
      exact r
    have hpos : 0 < (SF.scratch c1 c2).distance := by linarith
    have hm2 := hmid hpos
    have ex : SF.HcRs.TcTT_exists sp.param (SF.scratch c1 c2) c1 c2 := by
      unfold SF.HcRs.TcTT_exists
      rw [if_neg (by simp [hl]), if_neg (by simp [hf']), hi,
        show sp.param.radius = ccR sp.kappa sp.sigma from radius_param H]
      constructor <;> linarith
    refine (family_le hs (i := SF.hc_cc_rs.TcTT) (by norm_num)).trans ?_
    change (if SF.HcRs.TcTT_exists sp.param (SF.scratch c1 c2) c1 c2 then _ else _ : SF.RSRow).length ≤ _
    rw [if_pos ex]
    unfold SF.HcRs.TcTT_path
    simp only [show sp.param.radius = ccR sp.kappa sp.sigma from radius_param H, hi]
    rw [if_neg (by push Not; exact ⟨hpos.ne', hm2.1⟩)]
    exact CcRsOpt.shorter_le (hm2.2.imp (side _ _) (side _ _))
  · -- TcTcT
    have hf' : c2.forward = !c1.forward := by rw [hf]; simp [way]
    have side : ∀ dx dy : ℝ, M - center c1 = cis (SF.scratch c1 c2).angle * ⟨dx, dy⟩ →
        (SF.HcRs.TcTcT_side pm1 pm2 sp.param sp.rs_param (SF.scratch c1 c2) c1 c2 dx dy).length ≤ L1 + L2 + L3 := by
      intro dx dy hd
      have hpM := (fr dx dy).trans (by rw [← hd]; ring : _ = M)
      unfold SF.HcRs.TcTcT_side
      generalize SF.global_frame_change c1.xc c1.yc (SF.scratch c1 c2).angle dx dy = p at *
      have hc : center (SF.circleCentered p.1 p.2 (!c1.left) (!c1.forward) c1.regular sp.param) = M := hpM
      obtain ⟨a1, a2⟩ := TcT_at (k := sp.kappa) c1 (SF.circleCentered p.1 p.2 (!c1.left) (!c1.forward) c1.regular sp.param) (e := 0)
        (by rw [hc, n1]; simp)
      obtain ⟨a3, a4⟩ := TcT_at (k := sp.kappa) (SF.circleCentered p.1 p.2 (!c1.left) (!c1.forward) c1.regular sp.param) c2 (e := 0)
        (by rw [hc, n2]; simp)
      rw [hc] at a2 a3
      refine row (a1.joint _ _) (a2.joint _ _) (a3.joint _ _) ?_
      rw [hll]; exact a4.joint _ _
    have hpos := hDpos (hne rfl)
    have hm2 := hmid hpos
    have ex : SF.HcRs.TcTcT_exists (SF.scratch c1 c2) c1 c2 := by
      unfold SF.HcRs.TcTcT_exists
      rw [if_neg (by simp [hl]), if_neg (by rw [hf']; exact nn' _), hi]; linarith
    have edx : ((2 * (1 / sp.kappa)) ^ 2 + (SF.scratch c1 c2).distance ^ 2 - (2 * (1 / sp.kappa)) ^ 2) / (2 * (SF.scratch c1 c2).distance)
        = 0.5 * (SF.scratch c1 c2).distance := by
      rw [add_sub_cancel_left]; field_simp; norm_num
    rw [edx] at hm2
    refine (family_le hs (i := SF.hc_cc_rs.TcTcT) (by norm_num)).trans ?_
    change (if SF.HcRs.TcTcT_exists (SF.scratch c1 c2) c1 c2 then _ else _ : SF.RSRow).length ≤ _
    rw [if_pos ex]
    unfold SF.HcRs.TcTcT_path
    simp only [hi]
    exact CcRsOpt.shorter_le (hm2.2.imp (side _ _) (side _ _))

end

end HcOpt

end Spec
