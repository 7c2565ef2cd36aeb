import Verif.Lemmas.Param
import Verif.Spec.Turn

/-!
# The turn primitives of `paths.cpp`
-/

noncomputable section

namespace Spec

open Real Props

/-- Sign of a flag. -/
def sg (b : Bool) : ℝ := if b then 1 else -1

theorem sg_pm (b : Bool) : sg b = 1 ∨ sg b = -1 := by cases b <;> simp [sg]
theorem sg_not (b : Bool) : sg (!b) = -sg b := by cases b <;> simp [sg]
theorem sg_sq (b : Bool) : sg b * sg b = 1 := by cases b <;> simp [sg]

theorem direction_eq (f o : Bool) : SF.direction f o = sg f * sg o := by
  cases f <;> cases o <;> simp [SF.direction, sg]

theorem direction_pm (f o : Bool) : SF.direction f o = 1 ∨ SF.direction f o = -1 := by
  rw [direction_eq]; exact pm_mul (sg_pm f) (sg_pm o)

/-- Centre of a circle. -/
def center (c : SF.Circle) : ℂ := ⟨c.xc, c.yc⟩

theorem sameCenter_iff {c c' : SF.Circle} : SameCenter c c' ↔ center c = center c' := by
  unfold SameCenter center; rw [Complex.ext_iff]

/-- Parameters of a circle with the signs of its flags. -/
structure CircleOk (c : SF.Circle) (k s A B : ℝ) : Prop where
  kappa : c.kappa = sg c.left * k
  kappa_inv : c.kappa_inv = sg c.left * (1 / k)
  sigma : c.sigma = sg c.left * s
  radius : c.radius = √(A ^ 2 + B ^ 2)
  mu : c.mu = arctan (A / B)
  sin_mu : c.radius * c.sin_mu = A
  cos_mu : c.radius * c.cos_mu = B
  sin_mu_eq : c.sin_mu = sin c.mu
  cos_mu_eq : c.cos_mu = cos c.mu
  delta_min : c.delta_min = k ^ 2 / (2 * s)

theorem circleAt_ok {P : SF.CircleParam} {k s A B : ℝ} (h : ParamOk P k s A B)
    (q : SF.Configuration) (l f r : Bool) : CircleOk (SF.circleAt q l f r P) k s A B := by
  refine ⟨?_, ?_, ?_, h.radius, h.mu, h.sin_mu, h.cos_mu, h.sin_mu_eq, h.cos_mu_eq, h.delta_min⟩
  · cases l <;> simp [SF.circleAt, sg, h.kappa]
  · cases l <;> simp [SF.circleAt, sg, h.kappa_inv]
  · cases l <;> simp [SF.circleAt, sg, h.sigma]

theorem circleCentered_ok {P : SF.CircleParam} {k s A B : ℝ} (h : ParamOk P k s A B)
    (x y : ℝ) (l f r : Bool) : CircleOk (SF.circleCentered x y l f r P) k s A B := by
  refine ⟨?_, ?_, ?_, h.radius, h.mu, h.sin_mu, h.cos_mu, h.sin_mu_eq, h.cos_mu_eq, h.delta_min⟩
  · cases l <;> simp [SF.circleCentered, sg, h.kappa]
  · cases l <;> simp [SF.circleCentered, sg, h.kappa_inv]
  · cases l <;> simp [SF.circleCentered, sg, h.sigma]

theorem frame_eq (q : SF.Configuration) (a b : ℝ) :
    (⟨(SF.global_frame_change q.x q.y q.theta a b).1, (SF.global_frame_change q.x q.y q.theta a b).2⟩ : ℂ)
      = cen a b (cfg q) := by
  unfold cen cfg Config.pos cis SF.global_frame_change
  apply Complex.ext
  · simp; ring
  · simp; ring

theorem circleAt_center {P : SF.CircleParam} {A B : ℝ} (hA : P.radius * P.sin_mu = A)
    (hB : P.radius * P.cos_mu = B) (q : SF.Configuration) (l f r : Bool) :
    center (SF.circleAt q l f r P) = cen (sg f * A) (sg l * B) (cfg q) := by
  unfold center
  cases l <;> cases f <;> simp only [SF.circleAt, sg, hA, hB, Bool.false_eq_true, if_false, if_true,
    one_mul, neg_one_mul] <;> exact frame_eq _ _ _

/-- The deflection is the heading change of the turn. -/
theorem deflection_spec (c : SF.Circle) (q : SF.Configuration) :
    AngleEq q.theta (c.start.theta + sg c.forward * sg c.left * c.deflection q) ∧
    0 ≤ c.deflection q ∧ c.deflection q < 2 * π := by
  unfold SF.Circle.deflection
  rcases c with ⟨_, start, l, f, r, xc, yc⟩
  cases l <;> cases f <;>
    simp only [sg, Bool.and_true, Bool.and_false, Bool.not_false, Bool.not_true,
      Bool.or_true, Bool.or_false, Bool.false_eq_true, if_false, if_true] <;>
    refine ⟨?_, SF.twopify_nonneg _, SF.twopify_lt _⟩
  · refine AngleEq.symm ((((SF.twopify_angleEq _).add_left start.theta).trans (AngleEq.of_eq ?_) :)
      |> fun h => (AngleEq.of_eq (by ring)).trans h)
    ring
  · refine (AngleEq.of_eq ?_).trans ((AngleEq.add_left (SF.twopify_angleEq (start.theta - q.theta)).symm.neg
      start.theta).trans (AngleEq.of_eq ?_)) <;> ring
  · refine (AngleEq.of_eq ?_).trans ((AngleEq.add_left (SF.twopify_angleEq (start.theta - q.theta)).symm.neg
      start.theta).trans (AngleEq.of_eq ?_)) <;> ring
  · refine (AngleEq.of_eq ?_).trans ((AngleEq.add_left (SF.twopify_angleEq (q.theta - start.theta)).symm
      start.theta).trans (AngleEq.of_eq ?_)) <;> ring

theorem ite_abs_angleEq {a b x : ℝ} {p : Prop} [Decidable p] (ha : AngleEq a x) (hb : AngleEq b x) :
    AngleEq (if p then a else b) x := by split_ifs <;> assumption

theorem cc_circular_spec (c : SF.Circle) (delta : ℝ) :
    AngleEq (c.cc_circular_deflection delta) (delta - 2 * c.delta_min) := by
  have h := (AngleEq.refl delta).sub (SF.twopify_angleEq (2 * c.delta_min))
  have h2 : AngleEq (2 * π + delta - SF.twopify (2 * c.delta_min)) (delta - 2 * c.delta_min) :=
    (AngleEq.of_eq (by ring)).trans ((AngleEq.add_two_pi _).trans h)
  unfold SF.Circle.cc_circular_deflection
  simp only
  split_ifs
  · exact h2
  · exact h
  · exact h
  · exact (AngleEq.add_two_pi _).trans h
  · exact h
  · exact (AngleEq.sub_two_pi _).trans h

theorem hc_circular_spec (c : SF.Circle) (delta : ℝ) :
    AngleEq (c.hc_circular_deflection delta) (delta - c.delta_min) := by
  have h := (AngleEq.refl delta).sub (SF.twopify_angleEq c.delta_min)
  have h2 : AngleEq (2 * π + delta - SF.twopify c.delta_min) (delta - c.delta_min) :=
    (AngleEq.of_eq (by ring)).trans ((AngleEq.add_two_pi _).trans h)
  unfold SF.Circle.hc_circular_deflection
  simp only
  split_ifs
  · exact h2
  · exact h
  · exact h
  · exact (AngleEq.add_two_pi _).trans h
  · exact h
  · exact (AngleEq.sub_two_pi _).trans h

theorem rs_circular_spec (c : SF.Circle) (delta : ℝ) :
    AngleEq (c.rs_circular_deflection delta) delta := by
  unfold SF.Circle.rs_circular_deflection
  split_ifs
  · exact AngleEq.refl _
  · exact AngleEq.refl _
  · exact AngleEq.sub_two_pi _

/-! ### Clothoids of full length -/

/-- Rotating the lateral offset. -/
theorem cis_lateral {d l : ℝ} (hd : d = 1 ∨ d = -1) (hl : l = 1 ∨ l = -1) (x a : ℝ) :
    cis (d * l * a) * ⟨0, l * x⟩ = ⟨-(d * (sin a * x)), l * (cos a * x)⟩ := by
  unfold cis
  apply Complex.ext <;>
  rcases hd with rfl | rfl <;> rcases hl with rfl | rfl <;> simp

/-- The first clothoid leads from the CC circle to the inner circle. -/
theorem full_in {k s d l : ℝ} (hk : 0 < k) (hs : 0 < s) (hd : d = 1 ∨ d = -1) (hl : l = 1 ∨ l = -1)
    (p : Config) :
    cen 0 (1 / (l * k)) (libArrive ⟨d * (k / s), 0, l * s⟩ p) = cen (d * ccA k s) (l * ccB k s) p ∧
    AngleEq (libArrive ⟨d * (k / s), 0, l * s⟩ p).theta (p.theta + d * l * (k ^ 2 / (2 * s))) := by
  obtain ⟨h1, h2⟩ := lib_clothoid_in hd hl hs (div_pos hk hs) p
  have e : s * (k / s) ^ 2 / 2 = k ^ 2 / (2 * s) := by field_simp
  rw [e] at h2
  refine ⟨?_, h2⟩
  have hlk : 1 / (l * k) = l * (1 / k) := by rcases hl with rfl | rfl <;> field_simp
  unfold cen
  rw [h1, h2.cis_eq, hlk, cis_add, mul_assoc (cis p.theta), cis_lateral hd hl, add_assoc, ← mul_add]
  congr 2
  unfold ccA ccB
  apply Complex.ext <;> simp <;> ring

/-- The last clothoid leads from the inner circle to the CC circle. -/
theorem full_out {k s d l : ℝ} (hk : 0 < k) (hs : 0 < s) (hd : d = 1 ∨ d = -1) (hl : l = 1 ∨ l = -1)
    (p : Config) :
    cen (-(d * ccA k s)) (l * ccB k s) (libArrive ⟨d * (k / s), l * k, -(l * s)⟩ p)
      = cen 0 (1 / (l * k)) p ∧
    AngleEq (libArrive ⟨d * (k / s), l * k, -(l * s)⟩ p).theta (p.theta + d * l * (k ^ 2 / (2 * s))) := by
  obtain ⟨h1, h2⟩ := lib_clothoid_out hd hl hs (div_pos hk hs) p
  have e : s * (k / s) ^ 2 / 2 = k ^ 2 / (2 * s) := by field_simp
  have e2 : s * (k / s) = k := by field_simp
  rw [e, e2] at h1 h2
  refine ⟨?_, h2⟩
  have hlk : 1 / (l * k) = l * (1 / k) := by rcases hl with rfl | rfl <;> field_simp
  obtain ⟨a, ha⟩ : ∃ a, a = k ^ 2 / (2 * s) := ⟨_, rfl⟩
  have hA : ccA k s = cScale s * (SF.fresnel (cArg s (k / s))).2 - sin a / k := by rw [ha]; rfl
  have hB : ccB k s = cScale s * (SF.fresnel (cArg s (k / s))).1 + cos a / k := by rw [ha]; rfl
  rw [← ha] at h1 h2
  unfold cen
  have key : cis p.theta = cis (p.theta + d * l * a) * cis (-(d * l * a)) := by
    rw [← cis_add]; congr 1; ring
  have e3 : -(d * l * a) = d * l * (-a) := by ring
  rw [h1, h2.cis_eq, hlk, key, mul_assoc _ (cis (-(d * l * a))), e3, cis_lateral hd hl, add_assoc, ← mul_add]
  congr 2
  rw [hA, hB]
  apply Complex.ext <;> simp <;> ring

/-! ### The default CC turn -/

theorem abs_kappa_sigma {c : SF.Circle} {k s A B : ℝ} (h : CircleOk c k s A B) (hk : 0 < k) (hs : 0 < s) :
    |c.kappa / c.sigma| = k / s := by
  rw [h.kappa, h.sigma]
  have := sg_pm c.left
  rcases this with e | e <;> rw [e]
  · rw [one_mul, one_mul, abs_of_pos (div_pos hk hs)]
  · rw [neg_one_mul, neg_one_mul, neg_div_neg_eq, abs_of_pos (div_pos hk hs)]

theorem abs_kappa_inv {c : SF.Circle} {k s A B : ℝ} (h : CircleOk c k s A B) (hk : 0 < k) :
    |c.kappa_inv| = 1 / k := by
  rw [h.kappa_inv]; exact abs_pm_mul (sg_pm _) (by positivity)

theorem cc_default_end {c : SF.Circle} {k s : ℝ} (h : CircleOk c k s (ccA k s) (ccB k s))
    (hk : 0 < k) (hs : 0 < s) (delta : ℝ) (order : Bool) (p : Config) :
    cen (-(SF.direction c.forward order * ccA k s)) (sg c.left * ccB k s)
      (libAll ((SF.cc_default_controls c delta order).map seg) p)
      = cen (SF.direction c.forward order * ccA k s) (sg c.left * ccB k s) p ∧
    AngleEq (libAll ((SF.cc_default_controls c delta order).map seg) p).theta
      (p.theta + SF.direction c.forward order * sg c.left * delta) := by
  have hd := direction_pm c.forward order
  have hl := sg_pm c.left
  unfold SF.cc_default_controls
  simp only [abs_kappa_sigma h hk hs, abs_kappa_inv h hk, List.map_cons, List.map_nil, seg, libAll]
  rw [h.kappa, h.sigma]
  generalize SF.direction c.forward order = d at *
  have hcirc := cc_circular_spec c delta
  rw [h.delta_min] at hcirc
  generalize c.cc_circular_deflection delta = w at *
  generalize sg c.left = l at *
  have hlk : l * k ≠ 0 := by rcases hl with rfl | rfl <;> simp [hk.ne']
  obtain ⟨i1, i2⟩ := full_in hk hs hd hl p
  generalize libArrive ⟨d * (k / s), 0, l * s⟩ p = p1 at *
  obtain ⟨j1, j2⟩ := lib_arc (len := d * (1 / k * w)) hlk p1
  generalize libArrive ⟨d * (1 / k * w), l * k, 0⟩ p1 = p2 at *
  obtain ⟨m1, m2⟩ := full_out hk hs hd hl p2
  refine ⟨by rw [m1, j1, i1], m2.trans ?_⟩
  rw [j2]
  have e : d * (1 / k * w) * (l * k) = d * l * w := by field_simp
  rw [e]
  have hw : AngleEq (d * l * w) (d * l * (delta - 2 * (k ^ 2 / (2 * s)))) := by
    rcases pm_mul hd hl with e | e <;> rw [e]
    · simpa using hcirc
    · simpa using hcirc.neg
  refine ((i2.add hw).add_right _).trans (AngleEq.of_eq ?_)
  ring

/-! ### The elementary path -/

/-- Symmetric pair of clothoids. -/
theorem elementary_end {d l s L : ℝ} (hd : d = 1 ∨ d = -1) (hl : l = 1 ∨ l = -1) (hs : 0 < s)
    (hL : 0 < L) (p : Config) :
    (libAll [⟨d * L, 0, l * s⟩, ⟨d * L, l * s * L, -(l * s)⟩] p).pos = p.pos +
      cis (p.theta + d * l * (s * L ^ 2 / 2)) *
        ((d * (2 * (cScale s * ((SF.fresnel (cArg s L)).2 * cos (s * L ^ 2 / 2)
          + (SF.fresnel (cArg s L)).1 * sin (s * L ^ 2 / 2)))) : ℝ) : ℂ) ∧
    AngleEq (libAll [⟨d * L, 0, l * s⟩, ⟨d * L, l * s * L, -(l * s)⟩] p).theta
      (p.theta + d * l * (s * L ^ 2)) := by
  obtain ⟨i1, i2⟩ := lib_clothoid_in hd hl hs hL p
  simp only [libAll]
  rw [mul_assoc l s L]
  generalize libArrive ⟨d * L, 0, l * s⟩ p = p1 at *
  obtain ⟨j1, j2⟩ := lib_clothoid_out hd hl hs hL p1
  obtain ⟨a, ha⟩ : ∃ a, a = s * L ^ 2 / 2 := ⟨_, rfl⟩
  have ha2 : s * L ^ 2 = 2 * a := by rw [ha]; ring
  rw [← ha] at i2 j1 j2 ⊢
  refine ⟨?_, j2.trans ((i2.add_right _).trans (AngleEq.of_eq (by rw [ha2]; ring)))⟩
  have e1 : cis (p1.theta + d * l * a) = cis (p.theta + d * l * a) * cis (d * l * a) := by
    rw [cis_add, i2.cis_eq]
  have e2 : cis p.theta = cis (p.theta + d * l * a) * cis (-(d * l * a)) := by
    rw [← cis_add]; congr 1; ring
  have key : cis (-(d * l * a)) * ⟨d * (cScale s * (SF.fresnel (cArg s L)).2),
      l * (cScale s * (SF.fresnel (cArg s L)).1)⟩ + cis (d * l * a) *
      ⟨d * (cScale s * (SF.fresnel (cArg s L)).2), -l * (cScale s * (SF.fresnel (cArg s L)).1)⟩
      = ((d * (2 * (cScale s * ((SF.fresnel (cArg s L)).2 * cos a
          + (SF.fresnel (cArg s L)).1 * sin a))) : ℝ) : ℂ) := by
    unfold cis
    rcases hd with rfl | rfl <;> rcases hl with rfl | rfl <;>
      (apply Complex.ext <;> simp [-Complex.ofReal_mul, -Complex.ofReal_add,
        -Complex.ofReal_cos, -Complex.ofReal_sin, -Complex.ofReal_neg] <;> ring)
  rw [j1, i1, e1, ← key]
  linear_combination (⟨d * (cScale s * (SF.fresnel (cArg s L)).2),
      l * (cScale s * (SF.fresnel (cArg s L)).1)⟩ : ℂ) * e2

/-- Target of a turn with small deflection, in the frame of the bisector. -/
theorem turn_chord {d l a A B : ℝ} (hd : d = 1 ∨ d = -1) (hl : l = 1 ∨ l = -1) {p r : Config}
    (ht : AngleEq r.theta (p.theta + d * l * (2 * a))) :
    r.pos = p.pos + cis (p.theta + d * l * a) * ((d * (2 * (A * cos a + B * sin a)) : ℝ) : ℂ)
      + (cen (-(d * A)) (l * B) r - cen (d * A) (l * B) p) := by
  have e1 : cis r.theta = cis (p.theta + d * l * a) * cis (d * l * a) := by
    rw [ht.cis_eq, ← cis_add]; congr 1; ring
  have e2 : cis p.theta = cis (p.theta + d * l * a) * cis (-(d * l * a)) := by
    rw [← cis_add]; congr 1; ring
  have key : cis (-(d * l * a)) * ⟨d * A, l * B⟩ - cis (d * l * a) * ⟨-(d * A), l * B⟩
      = ((d * (2 * (A * cos a + B * sin a)) : ℝ) : ℂ) := by
    unfold cis
    rcases hd with rfl | rfl <;> rcases hl with rfl | rfl <;>
      (apply Complex.ext <;> simp [-Complex.ofReal_mul, -Complex.ofReal_add,
        -Complex.ofReal_cos, -Complex.ofReal_sin, -Complex.ofReal_neg] ; ring)
  unfold cen
  rw [← key]
  rw [show cis p.theta * (⟨d * A, l * B⟩ : ℂ) = cis (p.theta + d * l * a) * (cis (-(d * l * a)) *
    ⟨d * A, l * B⟩) by rw [← mul_assoc, ← e2]]
  rw [show cis r.theta * (⟨-(d * A), l * B⟩ : ℂ) = cis (p.theta + d * l * a) * (cis (d * l * a) *
    ⟨-(d * A), l * B⟩) by rw [← mul_assoc, ← e1]]
  ring

/-! ### The CC turn -/

/-- Where a turn starts. -/
def tFrom (c : SF.Circle) (q : SF.Configuration) (order : Bool) : Config :=
  if order then cfg c.start else cfg q

/-- Where a turn ends. -/
def tTo (c : SF.Circle) (q : SF.Configuration) (order : Bool) : Config :=
  if order then cfg q else cfg c.start

theorem turn_angle (c : SF.Circle) (q : SF.Configuration) (order : Bool) :
    AngleEq (tTo c q order).theta
      ((tFrom c q order).theta + SF.direction c.forward order * sg c.left * c.deflection q) := by
  have h := (deflection_spec c q).1
  rw [direction_eq]
  cases order
  · refine AngleEq.symm ((h.add_right _).trans (AngleEq.of_eq ?_))
    simp only [tTo, sg, cfg, Bool.false_eq_true, if_false]; ring
  · refine h.trans (AngleEq.of_eq ?_)
    simp only [tFrom, sg, cfg, if_true]; ring

theorem turn_distance (c : SF.Circle) (q : SF.Configuration) (order : Bool) :
    SF.point_distance c.start.x c.start.y q.x q.y = ‖(tTo c q order).pos - (tFrom c q order).pos‖ := by
  unfold SF.point_distance
  rw [sqrt_eq_norm]
  cases order
  · rw [norm_sub_rev]; rfl
  · rfl

theorem norm_cis_mul (a : ℝ) (z : ℂ) : ‖cis a * z‖ = ‖z‖ := by rw [norm_mul, norm_cis, one_mul]

/-- The chord of a turn is the distance of its ends up to the error of the centre. -/
theorem chord_dist {d l a A B e : ℝ} (hd : d = 1 ∨ d = -1) (hl : l = 1 ∨ l = -1) {p r : Config}
    (ht : AngleEq r.theta (p.theta + d * l * (2 * a)))
    (he : ‖cen (-(d * A)) (l * B) r - cen (d * A) (l * B) p‖ ≤ e)
    (hpos : 0 ≤ A * cos a + B * sin a) :
    |‖r.pos - p.pos‖ - 2 * (A * cos a + B * sin a)| ≤ e := by
  have h := turn_chord (A := A) (B := B) hd hl ht
  have e1 : ‖cis (p.theta + d * l * a) * ((d * (2 * (A * cos a + B * sin a)) : ℝ) : ℂ)‖
      = 2 * (A * cos a + B * sin a) := by
    rw [norm_cis_mul, Complex.norm_real, Real.norm_eq_abs, abs_pm_mul hd (by linarith)]
  rw [← e1]
  refine (abs_norm_sub_norm_le _ _).trans ?_
  rw [h]
  refine le_trans (le_of_eq ?_) he
  congr 1; ring

/-- A straight line instead of a chord. -/
theorem straight_error (v : ℂ) : ‖(((SF.sgn v.re) * ‖v‖ : ℝ) : ℂ) - v‖ ≤ 2 * |v.im| := by
  have h1 : ‖v‖ ^ 2 = v.re ^ 2 + v.im ^ 2 := by
    rw [Complex.norm_eq_sqrt_sq_add_sq, sq_sqrt (by positivity)]
  have h2 : |v.re| ≤ ‖v‖ := Complex.abs_re_le_norm v
  have h3 : ‖v‖ ≤ |v.re| + |v.im| := Complex.norm_le_abs_re_add_abs_im v
  have h4 : ‖(((SF.sgn v.re) * ‖v‖ : ℝ) : ℂ) - v‖ ^ 2 = (‖v‖ - |v.re|) ^ 2 + v.im ^ 2 := by
    rw [Complex.norm_eq_sqrt_sq_add_sq, sq_sqrt (by positivity)]
    rw [Complex.sub_re, Complex.sub_im, Complex.ofReal_re, Complex.ofReal_im]
    have := SF.sgn_sq v.re
    have k := SF.sgn_mul_self v.re
    rw [← k]
    linear_combination (‖v‖ ^ 2 - v.re ^ 2) * this
  refine abs_le_of_sq_le_sq' ?_ (by positivity) |>.2
  rw [h4, mul_pow, sq_abs]
  have h5 : (‖v‖ - |v.re|) ^ 2 ≤ |v.im| ^ 2 := by
    apply pow_le_pow_left₀ <;> linarith
  rw [sq_abs] at h5
  nlinarith [sq_nonneg v.im]

theorem straight_controls_end (q1 q2 : SF.Configuration) :
    (libAll ((SF.straight_controls q1 q2).map seg) (cfg q1)).theta = q1.theta ∧
    (libAll ((SF.straight_controls q1 q2).map seg) (cfg q1)).pos - (cfg q2).pos
      = cis q1.theta * ((((SF.sgn (cis (-q1.theta) * ((cfg q2).pos - (cfg q1).pos)).re)
        * ‖cis (-q1.theta) * ((cfg q2).pos - (cfg q1).pos)‖ : ℝ) : ℂ)
        - cis (-q1.theta) * ((cfg q2).pos - (cfg q1).pos)) := by
  unfold SF.straight_controls
  simp only [List.map_cons, List.map_nil, seg, libAll]
  obtain ⟨h1, h2⟩ := lib_line (len := SF.sgn (cos q1.theta * (q2.x - q1.x) + sin q1.theta * (q2.y - q1.y))
    * SF.point_distance q1.x q1.y q2.x q2.y) (cfg q1)
  refine ⟨h2, ?_⟩
  rw [h1, norm_cis_mul]
  have e1 : (cis (-q1.theta) * ((cfg q2).pos - (cfg q1).pos)).re
      = cos q1.theta * (q2.x - q1.x) + sin q1.theta * (q2.y - q1.y) := by
    simp [cis, cfg, Config.pos]
  have e2 : SF.point_distance q1.x q1.y q2.x q2.y = ‖(cfg q2).pos - (cfg q1).pos‖ := by
    unfold SF.point_distance; rw [sqrt_eq_norm]; rfl
  rw [e1, ← e2]
  have := cis_mul_neg q1.theta
  simp only [cfg]
  linear_combination (((⟨q2.x, q2.y, q2.theta⟩ : Config).pos - (⟨q1.x, q1.y, q1.theta⟩ : Config).pos)) * this

theorem accumulate_eq (cs : List SF.Control) : SF.accumulate_length cs = totalLength (cs.map seg) := by
  unfold SF.accumulate_length totalLength
  suffices h : ∀ a, cs.foldl (fun sum control => sum + |control.delta_s|) a
      = a + ((cs.map seg).map fun c => |c.len|).sum by rw [h, zero_add]
  induction cs with
  | nil => intro a; simp
  | cons c cs ih => intro a; simp only [List.foldl_cons, ih, List.map_cons, List.sum_cons, seg]; ring

/-- Shape of the elementary path of the code. -/
theorem elementary_data {c : SF.Circle} {q : SF.Configuration} {delta : ℝ} {order : Bool}
    {cs : List SF.Control} (hcs : SF.cc_elementary_controls c q delta order = some cs)
    (hD : SF.Circle.D1 (0.5 * delta) ≠ 0) :
    delta < 4.5948 ∧ SF.point_distance c.start.x c.start.y q.x q.y > SF.epsilon ∧
    ∃ s0 L, s0 = 4 * π * SF.Circle.D1 (0.5 * delta) ^ 2 / SF.point_distance c.start.x c.start.y q.x q.y ^ 2 ∧
      0 < s0 ∧ L = √(delta / s0) ∧
      cs = [⟨SF.direction c.forward order * L, 0, sg c.left * s0⟩,
        ⟨SF.direction c.forward order * L, sg c.left * s0 * L, -(sg c.left * s0)⟩] := by
  unfold SF.cc_elementary_controls SF.Circle.cc_elementary_sharpness at hcs
  by_cases hc : delta < 4.5948 ∧ SF.point_distance c.start.x c.start.y q.x q.y > SF.epsilon
  · simp only [if_pos hc, Option.some.injEq] at hcs
    obtain ⟨hc1, hc2⟩ := hc
    refine ⟨hc1, hc2, ?_⟩
    generalize SF.point_distance c.start.x c.start.y q.x q.y = D at *
    have hD0 : 0 < D := by unfold SF.epsilon at hc2; linarith
    obtain ⟨s0, hs0⟩ : ∃ s0, s0 = 4 * π * SF.Circle.D1 (0.5 * delta) ^ 2 / D ^ 2 := ⟨_, rfl⟩
    have hs0p : 0 < s0 := by rw [hs0]; have := pi_pos; positivity
    have e1 : (if c.left = true then s0 else -s0) = sg c.left * s0 := by
      unfold sg; split_ifs <;> ring
    rw [← hs0, e1, abs_pm_mul (sg_pm _) hs0p.le] at hcs
    exact ⟨s0, _, hs0, hs0p, rfl, hcs.symm⟩
  · simp only [if_neg hc, reduceCtorEq] at hcs

theorem elementary_range {c : SF.Circle} {q : SF.Configuration} {delta : ℝ} {order : Bool}
    {cs : List SF.Control} (hcs : SF.cc_elementary_controls c q delta order = some cs) :
    delta < 4.5948 := by
  unfold SF.cc_elementary_controls SF.Circle.cc_elementary_sharpness at hcs
  by_cases hc : delta < 4.5948 ∧ SF.point_distance c.start.x c.start.y q.x q.y > SF.epsilon
  · exact hc.1
  · simp only [if_neg hc, reduceCtorEq] at hcs

/-- The elementary path of the code. -/
theorem cc_elementary_end {c : SF.Circle} {k s : ℝ} (h : CircleOk c k s (ccA k s) (ccB k s))
    (hk : k > SF.epsilon) (hs : 0 < s) {q : SF.Configuration} {order : Bool} {cs : List SF.Control} {e : ℝ}
    (hdl : SF.epsilon ≤ c.deflection q) (hdm : c.deflection q < 2 * c.delta_min)
    (hcs : SF.cc_elementary_controls c q (c.deflection q) order = some cs)
    (he : ‖cen (-(SF.direction c.forward order * ccA k s)) (sg c.left * ccB k s) (tTo c q order)
      - cen (SF.direction c.forward order * ccA k s) (sg c.left * ccB k s) (tFrom c q order)‖ ≤ e) :
    Near (2 * e) (libAll (cs.map seg) (tFrom c q order)) (tTo c q order) := by
  have hd := direction_pm c.forward order
  have hl := sg_pm c.left
  have hta := turn_angle c q order
  have hdist := turn_distance c q order
  have hrange := elementary_range hcs
  rw [h.delta_min] at hdm
  generalize c.deflection q = delta at *
  obtain ⟨a, ha⟩ : ∃ a, a = delta / 2 := ⟨_, rfl⟩
  have ha2 : 2 * a = delta := by rw [ha]; ring
  have hd5 : 0.5 * delta = a := by rw [ha]; ring
  rw [← ha2] at hta
  obtain ⟨hD, hchord⟩ := chord_pos hk hs (a := a) (by linarith) (by linarith) (by linarith)
  obtain ⟨hc1, hc2, s0, L, hs0, hs0p, hLd, hcseq⟩ := elementary_data hcs (by rw [hd5]; exact hD.ne')
  generalize SF.direction c.forward order = d at *
  have hpos : 0 ≤ ccA k s * cos a + ccB k s * sin a := by
    refine le_trans ?_ hchord
    have := cScale_pos hs
    have : (0:ℝ) ≤ 1 - 5 / 10 ^ 9 := by norm_num
    positivity
  have hcd := chord_dist hd hl hta he hpos
  have hch := turn_chord (A := ccA k s) (B := ccB k s) hd hl hta
  generalize tTo c q order = r at *
  generalize tFrom c q order = p at *
  have hdelta : 0 < delta := by unfold SF.epsilon at hdl; linarith
  obtain ⟨D, hDd⟩ : ∃ D, D = ‖r.pos - p.pos‖ := ⟨_, rfl⟩
  rw [← hDd] at hcd hdist
  rw [hdist] at hc2 hs0
  have hD0 : 0 < D := by unfold SF.epsilon at hc2; linarith
  have hL : 0 < L := by rw [hLd]; exact sqrt_pos.2 (by positivity)
  have hsL : s0 * L ^ 2 = delta := by rw [hLd, sq_sqrt (by positivity)]; field_simp
  have hcs' : cs.map seg = [⟨d * L, 0, sg c.left * s0⟩, ⟨d * L, sg c.left * s0 * L, -(sg c.left * s0)⟩] := by
    rw [hcseq]; rfl
  rw [hcs']
  obtain ⟨f1, f2⟩ := elementary_end hd hl hs0p hL p
  rw [hsL, ← ha] at f1
  rw [hsL] at f2
  generalize libAll [⟨d * L, 0, sg c.left * s0⟩, ⟨d * L, sg c.left * s0 * L, -(sg c.left * s0)⟩] p = z at *
  refine ⟨?_, f2.trans (by rw [ha2] at hta; exact hta.symm)⟩
  have harg : cArg s0 L = √(2 * a / π) := by
    unfold cArg
    have g1 : 0 < √s0 := sqrt_pos.2 hs0p
    have g2 : 0 < √π := sqrt_pos.2 pi_pos
    rw [ha2, sqrt_div hdelta.le, ← hsL, sqrt_mul hs0p.le, sqrt_sq hL.le]
    field_simp
    nlinarith [sq_sqrt hs0p.le]
  have hsc : 2 * (cScale s0 * ((SF.fresnel (cArg s0 L)).2 * cos a + (SF.fresnel (cArg s0 L)).1 * sin a)) = D := by
    have e1 : (SF.fresnel (cArg s0 L)).2 * cos a + (SF.fresnel (cArg s0 L)).1 * sin a = SF.Circle.D1 a := by
      rw [harg]; unfold SF.Circle.D1; ring
    rw [e1]
    have e2 : (2 * (cScale s0 * SF.Circle.D1 a)) ^ 2 = D ^ 2 := by
      rw [mul_pow, mul_pow, cScale_sq hs0p, hs0, hd5]
      have := pi_pos
      field_simp
      norm_num
    have := cScale_pos hs0p
    exact (pow_left_inj₀ (by positivity) hD0.le two_ne_zero).1 e2
  rw [hsc] at f1
  rw [Config.dist_eq, f1, hch]
  have e3 : ((d * D : ℝ) : ℂ) = ((d * (2 * (ccA k s * cos a + ccB k s * sin a)) : ℝ) : ℂ)
      + ((d * (D - 2 * (ccA k s * cos a + ccB k s * sin a)) : ℝ) : ℂ) := by
    rw [← Complex.ofReal_add]; congr 1; ring
  rw [e3]
  generalize cen (-(d * ccA k s)) (sg c.left * ccB k s) r - cen (d * ccA k s) (sg c.left * ccB k s) p = E at *
  generalize ((d * (2 * (ccA k s * cos a + ccB k s * sin a)) : ℝ) : ℂ) = H at *
  have e4 : p.pos + cis (p.theta + d * sg c.left * a) * (H
      + ((d * (D - 2 * (ccA k s * cos a + ccB k s * sin a)) : ℝ) : ℂ))
      - (p.pos + cis (p.theta + d * sg c.left * a) * H + E)
      = cis (p.theta + d * sg c.left * a) * ((d * (D - 2 * (ccA k s * cos a + ccB k s * sin a)) : ℝ) : ℂ)
        - E := by ring
  rw [e4]
  refine (norm_sub_le _ _).trans ?_
  rw [norm_cis_mul, Complex.norm_real, Real.norm_eq_abs]
  have e5 : |d * (D - 2 * (ccA k s * cos a + ccB k s * sin a))|
      = |D - 2 * (ccA k s * cos a + ccB k s * sin a)| := by
    rw [abs_mul]; rcases hd with rfl | rfl <;> simp
  rw [e5]
  linarith

end Spec
