import Verif.Lemmas.MotionFamilies

/-!
# The reversed problem: turns and tangents

The planners treat the problem from the goal to the start as a problem of its own.  The lemmas of this file say that
the tangent configurations and the lengths of the turns found for it are those of the original problem.
-/

noncomputable section

namespace Spec.Rev

open Real

/-! ### Opposite directions -/

/-- `a'` is the opposite direction of `a`. -/
def Opp (a a' : ℝ) : Prop := AngleEq a' (a + π)

theorem Opp.cos {a a' : ℝ} (h : Opp a a') : cos a' = -cos a := by
  have h' : AngleEq a' (a + π) := h
  rw [h'.cos_eq, cos_add_pi]

theorem Opp.sin {a a' : ℝ} (h : Opp a a') : sin a' = -sin a := by
  have h' : AngleEq a' (a + π) := h
  rw [h'.sin_eq, sin_add_pi]

theorem Opp.symm {a a' : ℝ} (h : Opp a a') : Opp a' a := by
  obtain ⟨n, hn⟩ := h
  exact ⟨-n - 1, by rw [hn]; push_cast; ring⟩

theorem Opp.add {a a' : ℝ} (h : Opp a a') (x : ℝ) : Opp (a + x) (a' + x) := by
  obtain ⟨n, hn⟩ := h
  exact ⟨n, by rw [hn]; ring⟩

theorem Opp.sub {a a' : ℝ} (h : Opp a a') (x : ℝ) : Opp (a - x) (a' - x) := by
  obtain ⟨n, hn⟩ := h
  exact ⟨n, by rw [hn]; ring⟩

theorem opp_atan2 {u v : ℝ} (h : u ≠ 0 ∨ v ≠ 0) : Opp (SF.atan2 v u) (SF.atan2 (-v) (-u)) := by
  have hr : 0 < √(u ^ 2 + v ^ 2) := by
    refine sqrt_pos.2 ?_
    rcases h with h | h <;> positivity
  have h1 := SF.sqrt_mul_cos_atan2 v u
  have h2 := SF.sqrt_mul_sin_atan2 v u
  have h3 := SF.sqrt_mul_cos_atan2 (-v) (-u)
  have h4 := SF.sqrt_mul_sin_atan2 (-v) (-u)
  rw [neg_sq, neg_sq] at h3 h4
  refine AngleEq.of_cos_sin ?_ ?_
  · rw [cos_add_pi]
    refine mul_left_cancel₀ hr.ne' ?_
    rw [h3, mul_neg, h1]
  · rw [sin_add_pi]
    refine mul_left_cancel₀ hr.ne' ?_
    rw [h4, mul_neg, h2]

theorem gfc_opp {t t' : ℝ} (h : Opp t t') (x y a b : ℝ) :
    SF.global_frame_change x y t' a b = SF.global_frame_change x y t (-a) (-b) := by
  unfold SF.global_frame_change
  rw [h.cos, h.sin]
  ext <;> dsimp only <;> ring

/-! ### Configurations up to curvature -/

/-- Same position and orientation. -/
structure Same (q q' : SF.Configuration) : Prop where
  x : q'.x = q.x
  y : q'.y = q.y
  theta : q'.theta = q.theta

theorem Same.symm {q q' : SF.Configuration} (h : Same q q') : Same q' q := ⟨h.x.symm, h.y.symm, h.theta.symm⟩

theorem Same.refl (q : SF.Configuration) : Same q q := ⟨rfl, rfl, rfl⟩

theorem Same.of {p p' : ℝ × ℝ} {t t' k k' : ℝ} (hp : p' = p) (ht : AngleEq t' t) :
    Same (SF.configuration p.1 p.2 t k) (SF.configuration p'.1 p'.2 t' k') := by
  subst hp
  exact ⟨rfl, rfl, SF.twopify_congr ht⟩

theorem Same.dist {p p' q q' : SF.Configuration} (h : Same p p') (g : Same q q') :
    SF.configuration_distance p' q' = SF.configuration_distance p q := by
  unfold SF.configuration_distance
  rw [h.x, h.y, g.x, g.y]

theorem dist_comm (p q : SF.Configuration) : SF.configuration_distance p q = SF.configuration_distance q p := by
  unfold SF.configuration_distance SF.point_distance
  congr 1; ring

/-! ### Turns -/

section
variable {q q' p p' : SF.Configuration} (c : SF.Circle) (l f r : Bool) (P : SF.CircleParam)

theorem Same.deflection (h : Same q q') : c.deflection q' = c.deflection q := by
  unfold SF.Circle.deflection; rw [h.theta]

theorem Same.hc (h : Same q q') : c.hc_turn_length q' = c.hc_turn_length q := by
  unfold SF.Circle.hc_turn_length; rw [h.deflection]

theorem Same.rs (h : Same q q') : c.rs_turn_length q' = c.rs_turn_length q := by
  unfold SF.Circle.rs_turn_length; rw [h.deflection]

theorem Same.cc (h : Same q q') : c.cc_turn_length q' = c.cc_turn_length q := by
  unfold SF.Circle.cc_turn_length SF.Circle.cc_elementary_sharpness; rw [h.deflection, h.x, h.y]

theorem Same.at (h : Same q q') : SF.circleAt q' l f r P = { SF.circleAt q l f r P with start := q' } := by
  unfold SF.circleAt; rw [h.x, h.y, h.theta]

theorem Same.hc_at (h : Same q q') (g : Same p p') :
    (SF.circleAt q' l f r P).hc_turn_length p' = (SF.circleAt q l f r P).hc_turn_length p := by
  rw [g.hc, h.at]
  unfold SF.Circle.hc_turn_length SF.Circle.deflection
  dsimp only
  rw [show q'.theta = (SF.circleAt q l f r P).start.theta from h.theta]
  rfl

theorem Same.rs_at (h : Same q q') (g : Same p p') :
    (SF.circleAt q' l f r P).rs_turn_length p' = (SF.circleAt q l f r P).rs_turn_length p := by
  rw [g.rs, h.at]
  unfold SF.Circle.rs_turn_length SF.Circle.deflection
  dsimp only
  rw [show q'.theta = (SF.circleAt q l f r P).start.theta from h.theta]
  rfl

theorem Same.cc_at (h : Same q q') (g : Same p p') :
    (SF.circleAt q' l f r P).cc_turn_length p' = (SF.circleAt q l f r P).cc_turn_length p := by
  rw [g.cc, h.at]
  unfold SF.Circle.cc_turn_length SF.Circle.cc_elementary_sharpness SF.Circle.deflection
  dsimp only
  rw [show q'.theta = (SF.circleAt q l f r P).start.theta from h.theta, show q'.x = (SF.circleAt q l f r P).start.x from h.x,
    show q'.y = (SF.circleAt q l f r P).start.y from h.y]
  rfl

/-- The deflection of a turn driven backwards. -/
theorem deflection_rev (q p : SF.Configuration) :
    (SF.circleAt p l (!f) r P).deflection q = (SF.circleAt q l f r P).deflection p := by
  unfold SF.Circle.deflection SF.circleAt
  cases l <;> cases f <;> rfl

theorem rs_rev (q p : SF.Configuration) :
    (SF.circleAt p l (!f) r P).rs_turn_length q = (SF.circleAt q l f r P).rs_turn_length p := by
  unfold SF.Circle.rs_turn_length
  rw [deflection_rev]
  rfl

theorem cc_rev (q p : SF.Configuration) :
    (SF.circleAt p l (!f) r P).cc_turn_length q = (SF.circleAt q l f r P).cc_turn_length p := by
  have e : SF.point_distance p.x p.y q.x q.y = SF.point_distance q.x q.y p.x p.y := dist_comm p q
  unfold SF.Circle.cc_turn_length
  rw [deflection_rev]
  unfold SF.Circle.cc_elementary_sharpness
  rw [show (SF.circleAt p l (!f) r P).start = p from rfl, show (SF.circleAt q l f r P).start = q from rfl, e]
  rfl

end

/-! ### Tangents -/

variable {a b a' b' : SF.Circle}

/-- Same centre. -/
structure Cen (c c' : SF.Circle) : Prop where
  x : c'.xc = c.xc
  y : c'.yc = c.yc

theorem Cen.refl (c : SF.Circle) : Cen c c := ⟨rfl, rfl⟩

theorem Diff.symm (h : Diff a b) : Diff b a := h.imp Ne.symm Ne.symm

theorem angle_opp (ha : Cen a a') (hb : Cen b b') (hd : Diff a b) :
    Opp (SF.atan2 (b.yc - a.yc) (b.xc - a.xc)) (SF.atan2 (a'.yc - b'.yc) (a'.xc - b'.xc)) := by
  rw [ha.x, ha.y, hb.x, hb.y, ← neg_sub b.yc, ← neg_sub b.xc]
  exact opp_atan2 (hd.imp sub_ne_zero.2 sub_ne_zero.2)

theorem center_distance_rev (ha : Cen a a') (hb : Cen b b') : SF.center_distance b' a' = SF.center_distance a b := by
  unfold SF.center_distance
  rw [ha.x, ha.y, hb.x, hb.y]
  congr 1; ring

/-- Closes goals on angles. -/
macro "aeq" h:ident : tactic => `(tactic| (
  obtain ⟨n, hn⟩ := $h
  first
    | exact ⟨n, by linear_combination hn⟩
    | exact ⟨n + 1, by push_cast; linear_combination hn⟩))

theorem TT_rev (ha : Cen a a') (hb : Cen b b') (hl : b'.left = !a.left) (hf : b'.forward = !a.forward) (hm : b'.mu = a.mu)
    (hd : Diff a b) : Same (SF.CC00.TT_tangent_circles a b) (SF.CC00.TT_tangent_circles b' a') := by
  have h := angle_opp ha hb hd
  unfold SF.CC00.TT_tangent_circles
  dsimp only
  generalize SF.atan2 (b.yc - a.yc) (b.xc - a.xc) = t at *
  generalize SF.atan2 (a'.yc - b'.yc) (a'.xc - b'.xc) = t' at *
  refine Same.of (p := ((a.xc + b.xc) / 2, (a.yc + b.yc) / 2)) (p' := ((b'.xc + a'.xc) / 2, (b'.yc + a'.yc) / 2)) ?_ ?_
  · rw [ha.x, ha.y, hb.x, hb.y, add_comm b.xc, add_comm b.yc]
  · rw [hl, hf, hm]
    cases a.left <;> cases a.forward <;>
      simp only [Bool.not_false, Bool.not_true, if_true, if_false, Bool.false_eq_true]
    all_goals aeq h

theorem polar_of_centers (a b : SF.Circle) :
    b.xc = a.xc + SF.center_distance a b * cos (SF.atan2 (b.yc - a.yc) (b.xc - a.xc)) ∧
    b.yc = a.yc + SF.center_distance a b * sin (SF.atan2 (b.yc - a.yc) (b.xc - a.xc)) := by
  unfold SF.center_distance
  rw [SF.sqrt_mul_cos_atan2, SF.sqrt_mul_sin_atan2]
  constructor <;> ring

theorem hc_TcT_rev (ha : Cen a a') (hb : Cen b b') (hl : b'.left = !a.left)
    (hd : Diff a b) : Same (SF.HcRs.TcT_tangent_circles a b) (SF.HcRs.TcT_tangent_circles b' a') := by
  have h := angle_opp ha hb hd
  obtain ⟨e1, e2⟩ := polar_of_centers a b
  unfold SF.HcRs.TcT_tangent_circles
  dsimp only
  rw [center_distance_rev ha hb]
  generalize SF.center_distance a b = D at *
  generalize SF.atan2 (b.yc - a.yc) (b.xc - a.xc) = t at *
  generalize SF.atan2 (a'.yc - b'.yc) (a'.xc - b'.xc) = t' at *
  refine Same.of ?_ ?_
  · simp only [neg_zero, ite_self]
    rw [gfc_opp h, hb.x, hb.y, e1, e2]
    unfold SF.global_frame_change
    ext <;> dsimp only <;> ring
  · rw [hl]
    cases a.left <;> simp only [Bool.not_false, Bool.not_true, if_true, if_false, Bool.false_eq_true]
    all_goals aeq h

theorem cc_TcT_theta_rev (ha : Cen a a') (hb : Cen b b') (hl : b'.left = !a.left) (hd : Diff a b) :
    AngleEq (SF.CcRs.TcT_theta b' a') (SF.CcRs.TcT_theta a b) := by
  have h := angle_opp ha hb hd
  unfold SF.CcRs.TcT_theta
  dsimp only
  rw [hl]
  cases a.left <;> simp only [Bool.not_false, Bool.not_true, if_true, if_false, Bool.false_eq_true]
  all_goals aeq h

theorem cc_TcT_rev (ha : Cen a a') (hb : Cen b b') (hl : b'.left = !a.left) (hf : b'.forward = a.forward) (hr : b'.radius = a.radius)
    (hd : Diff a b) : Same (SF.CcRs.TcT_tangent_circles a b) (SF.CcRs.TcT_tangent_circles b' a') := by
  have h := angle_opp ha hb hd
  have ht := cc_TcT_theta_rev ha hb hl hd
  obtain ⟨e1, e2⟩ := polar_of_centers a b
  unfold SF.CcRs.TcT_tangent_circles
  dsimp only
  rw [center_distance_rev ha hb, hr]
  generalize √(a.radius ^ 2 - (0.5 * SF.center_distance a b) ^ 2) = y at *
  generalize SF.center_distance a b = D at *
  refine Same.of ?_ ht
  generalize SF.atan2 (b.yc - a.yc) (b.xc - a.xc) = t at *
  generalize SF.atan2 (a'.yc - b'.yc) (a'.xc - b'.xc) = t' at *
  rw [hl, hf]
  cases a.left <;> cases a.forward <;> simp only [Bool.not_false, Bool.not_true, if_true, if_false, Bool.false_eq_true]
  all_goals
    rw [gfc_opp h, hb.x, hb.y, e1, e2]
    unfold SF.global_frame_change
    ext <;> dsimp only <;> ring

/-- The configurations of the reversed problem, in reversed order. -/
def Swap (q q' : SF.Configuration × SF.Configuration) : Prop := Same q.1 q'.2 ∧ Same q.2 q'.1

theorem Swap.dist {q q' : SF.Configuration × SF.Configuration} (h : Swap q q') :
    SF.configuration_distance q'.1 q'.2 = SF.configuration_distance q.1 q.2 := by
  rw [h.2.dist h.1, dist_comm]

/-- Closes goals on pairs of tangent configurations. -/
macro "swap" ha:ident hb:ident h:ident : tactic => `(tactic| (
  refine ⟨Same.of ?_ ?_, Same.of ?_ ?_⟩
  · first
      | rw [gfc_opp ($h), Cen.x $ha, Cen.y $ha]
      | rw [gfc_opp (Opp.add $h _), Cen.x $ha, Cen.y $ha]
      | rw [gfc_opp (Opp.sub $h _), Cen.x $ha, Cen.y $ha]
    try simp only [neg_neg, neg_zero]
  · aeq $h
  · first
      | rw [gfc_opp ($h), Cen.x $hb, Cen.y $hb]
      | rw [gfc_opp (Opp.add $h _), Cen.x $hb, Cen.y $hb]
      | rw [gfc_opp (Opp.sub $h _), Cen.x $hb, Cen.y $hb]
    try simp only [neg_neg, neg_zero]
  · aeq $h))

theorem TiST_rev (ha : Cen a a') (hb : Cen b b') (hl : b'.left = !a.left) (hf : b'.forward = !a.forward)
    (hr : b'.radius = a.radius) (hs : b'.sin_mu = a.sin_mu) (hc : b'.cos_mu = a.cos_mu) (hd : Diff a b) :
    Swap (SF.CC00.TiST_tangent_circles a b) (SF.CC00.TiST_tangent_circles b' a') := by
  have h := angle_opp ha hb hd
  unfold SF.CC00.TiST_tangent_circles
  dsimp only
  rw [hl, hf, hr, hs, hc, center_distance_rev ha hb]
  generalize arcsin (2 * a.radius * a.cos_mu / SF.center_distance a b) = x
  generalize SF.atan2 (b.yc - a.yc) (b.xc - a.xc) = t at *
  generalize SF.atan2 (a'.yc - b'.yc) (a'.xc - b'.xc) = t' at *
  cases a.left <;> cases a.forward <;> simp only [Bool.not_false, Bool.not_true, if_true, if_false, Bool.false_eq_true]
  all_goals swap ha hb h

theorem TeST_rev (ha : Cen a a') (hb : Cen b b') (hl : b'.left = a.left) (hf : b'.forward = !a.forward)
    (hr : b'.radius = a.radius) (hs : b'.sin_mu = a.sin_mu) (hc : b'.cos_mu = a.cos_mu) (hd : Diff a b) :
    Swap (SF.CC00.TeST_tangent_circles a b) (SF.CC00.TeST_tangent_circles b' a') := by
  have h := angle_opp ha hb hd
  unfold SF.CC00.TeST_tangent_circles
  dsimp only
  rw [hl, hf, hr, hs, hc]
  generalize SF.atan2 (b.yc - a.yc) (b.xc - a.xc) = t at *
  generalize SF.atan2 (a'.yc - b'.yc) (a'.xc - b'.xc) = t' at *
  cases a.left <;> cases a.forward <;> simp only [Bool.not_false, Bool.not_true, if_true, if_false, Bool.false_eq_true]
  all_goals swap ha hb h

/-! ### Straight lines with cusps -/

/-- Distance and direction of the centres for the reversed problem. -/
structure MRev (m m' : SF.Scratch) : Prop where
  distance : m'.distance = m.distance
  angle : Opp m.angle m'.angle

theorem mRev (hd : Diff a b) : MRev (SF.scratch a b) (SF.scratch b a) :=
  ⟨center_distance_rev (Cen.refl a) (Cen.refl b), angle_opp (Cen.refl a) (Cen.refl b) hd⟩

theorem MRev.symm {m m' : SF.Scratch} (h : MRev m m') : MRev m' m := ⟨h.distance.symm, h.angle.symm⟩

section
variable {m m' : SF.Scratch} {c1 c2 : SF.Circle} {P : SF.CircleParam}

theorem hc_TciST_rev (hm : MRev m m') (hl : c2.left = !c1.left) (hf : c2.forward = c1.forward) (hk : |c2.kappa_inv| = |c1.kappa_inv|) :
    Swap (SF.HcRs.TciST_tangents P m c1 c2) (SF.HcRs.TiScT_tangents P m' c2 c1) := by
  have h := hm.angle
  have h1 := Cen.refl c1
  have h2 := Cen.refl c2
  unfold SF.HcRs.TciST_tangents SF.HcRs.TiScT_tangents
  dsimp only
  rw [hl, hf, hk, hm.distance]
  generalize arcsin ((P.radius * P.cos_mu + |c1.kappa_inv|) / m.distance) = x
  cases c1.left <;> cases c1.forward <;> simp only [Bool.not_false, Bool.not_true, if_true, if_false, Bool.false_eq_true]
  all_goals swap h1 h2 h

theorem hc_TceST_rev (hm : MRev m m') (hl : c2.left = c1.left) (hf : c2.forward = c1.forward) (hk : |c2.kappa_inv| = |c1.kappa_inv|) :
    Swap (SF.HcRs.TceST_tangents P m c1 c2) (SF.HcRs.TeScT_tangents P m' c2 c1) := by
  have h := hm.angle
  have h1 := Cen.refl c1
  have h2 := Cen.refl c2
  unfold SF.HcRs.TceST_tangents SF.HcRs.TeScT_tangents
  dsimp only
  rw [hl, hf, hk, hm.distance]
  generalize arcsin ((P.radius * P.cos_mu - |c1.kappa_inv|) / m.distance) = x
  cases c1.left <;> cases c1.forward <;> simp only [Bool.not_false, Bool.not_true, if_true, if_false, Bool.false_eq_true]
  all_goals swap h1 h2 h

theorem hc_TciScT_rev (hm : MRev m m') (hl : c2.left = !c1.left) (hf : c2.forward = !c1.forward) (hk : |c2.kappa_inv| = |c1.kappa_inv|)
    (hk' : |c2.kappa| = |c1.kappa|) :
    Swap (SF.HcRs.TciScT_tangents m c1 c2) (SF.HcRs.TciScT_tangents m' c2 c1) := by
  have h := hm.angle
  have h1 := Cen.refl c1
  have h2 := Cen.refl c2
  unfold SF.HcRs.TciScT_tangents
  dsimp only
  rw [hl, hf, hk, hk', hm.distance]
  generalize arcsin (2 / (|c1.kappa| * m.distance)) = x
  cases c1.left <;> cases c1.forward <;> simp only [Bool.not_false, Bool.not_true, if_true, if_false, Bool.false_eq_true]
  all_goals swap h1 h2 h

theorem hc_TceScT_rev (hm : MRev m m') (hl : c2.left = c1.left) (hf : c2.forward = !c1.forward) (hk : |c2.kappa_inv| = |c1.kappa_inv|) :
    Swap (SF.HcRs.TceScT_tangents m c1 c2) (SF.HcRs.TceScT_tangents m' c2 c1) := by
  have h := hm.angle
  have h1 := Cen.refl c1
  have h2 := Cen.refl c2
  unfold SF.HcRs.TceScT_tangents
  dsimp only
  rw [hl, hf, hk]
  cases c1.left <;> cases c1.forward <;> simp only [Bool.not_false, Bool.not_true, if_true, if_false, Bool.false_eq_true]
  all_goals swap h1 h2 h

theorem cc_TciST_rev (hm : MRev m m') (hl : c2.left = !c1.left) (hf : c2.forward = c1.forward) (hr : c2.radius = c1.radius)
    (hs : c2.sin_mu = c1.sin_mu) (hc : c2.cos_mu = c1.cos_mu) :
    Swap (SF.CcRs.TciST_tangents m c1 c2) (SF.CcRs.TiScT_tangents m' c2 c1) := by
  have h := hm.angle
  have h1 := Cen.refl c1
  have h2 := Cen.refl c2
  unfold SF.CcRs.TciST_tangents SF.CcRs.TiScT_tangents
  dsimp only
  rw [hl, hf, hr, hs, hc, hm.distance]
  generalize arcsin (2 * c1.radius * c1.cos_mu / m.distance) = x
  cases c1.left <;> cases c1.forward <;> simp only [Bool.not_false, Bool.not_true, if_true, if_false, Bool.false_eq_true]
  all_goals swap h1 h2 h

theorem cc_TceST_rev (hm : MRev m m') (hl : c2.left = c1.left) (hf : c2.forward = c1.forward) (hr : c2.radius = c1.radius)
    (hs : c2.sin_mu = c1.sin_mu) (hc : c2.cos_mu = c1.cos_mu) :
    Swap (SF.CcRs.TceST_tangents m c1 c2) (SF.CcRs.TeScT_tangents m' c2 c1) := by
  have h := hm.angle
  have h1 := Cen.refl c1
  have h2 := Cen.refl c2
  unfold SF.CcRs.TceST_tangents SF.CcRs.TeScT_tangents
  dsimp only
  rw [hl, hf, hr, hs, hc]
  cases c1.left <;> cases c1.forward <;> simp only [Bool.not_false, Bool.not_true, if_true, if_false, Bool.false_eq_true]
  all_goals swap h1 h2 h

theorem cc_TciScT_rev (hm : MRev m m') (hl : c2.left = !c1.left) (hf : c2.forward = !c1.forward) (hr : c2.radius = c1.radius)
    (hs : c2.sin_mu = c1.sin_mu) (hc : c2.cos_mu = c1.cos_mu) :
    Swap (SF.CcRs.TciScT_tangents m c1 c2) (SF.CcRs.TciScT_tangents m' c2 c1) := by
  have h := hm.angle
  have h1 := Cen.refl c1
  have h2 := Cen.refl c2
  unfold SF.CcRs.TciScT_tangents
  dsimp only
  rw [hl, hf, hr, hs, hc, hm.distance]
  generalize arcsin (2 * c1.radius * c1.cos_mu / m.distance) = x
  cases c1.left <;> cases c1.forward <;> simp only [Bool.not_false, Bool.not_true, if_true, if_false, Bool.false_eq_true]
  all_goals swap h1 h2 h

theorem cc_TceScT_rev (hm : MRev m m') (hl : c2.left = c1.left) (hf : c2.forward = !c1.forward) (hr : c2.radius = c1.radius)
    (hs : c2.sin_mu = c1.sin_mu) (hc : c2.cos_mu = c1.cos_mu) :
    Swap (SF.CcRs.TceScT_tangents m c1 c2) (SF.CcRs.TceScT_tangents m' c2 c1) := by
  have h := hm.angle
  have h1 := Cen.refl c1
  have h2 := Cen.refl c2
  unfold SF.CcRs.TceScT_tangents
  dsimp only
  rw [hl, hf, hr, hs, hc]
  cases c1.left <;> cases c1.forward <;> simp only [Bool.not_false, Bool.not_true, if_true, if_false, Bool.false_eq_true]
  all_goals swap h1 h2 h

end

end Spec.Rev
