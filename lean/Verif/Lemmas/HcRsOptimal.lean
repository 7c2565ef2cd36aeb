import Verif.Lemmas.HcExists
import Verif.Lemmas.HcPlan
import Verif.Lemmas.CcRsOptimal
import Verif.Lemmas.PmOptimalAll
import Verif.Lemmas.DomainsRadius
import Verif.Spec.HcRsOptimal

/-!
# Hybrid-curvature Reeds-Shepp: turns and tangents of the competitors
-/

noncomputable section

namespace Spec

open Real Props
open CC00 (CircOk circOk_at)

theorem hc_circular_irregular {c : SF.Circle} (hr : c.regular = false) {delta : ℝ} (h0 : 0 ≤ delta)
    (h1 : delta < 2 * π) : |c.hc_circular_deflection delta| ≤ π := by
  have a := SF.twopify_nonneg c.delta_min
  have b := SF.twopify_lt c.delta_min
  unfold SF.Circle.hc_circular_deflection
  simp only [hr, Bool.false_eq_true, if_false]
  generalize SF.twopify c.delta_min = m at a b
  by_cases hm : delta < m
  · rw [if_pos hm, abs_of_neg (by linarith : delta - m < 0), abs_of_pos (by linarith : 0 < delta - m + 2 * π)]
    split_ifs
    · rw [abs_of_neg (by linarith)]; linarith
    · rw [abs_of_pos (by linarith)]; linarith
  · push Not at hm
    rw [if_neg (not_lt.2 hm), abs_of_nonneg (by linarith : 0 ≤ delta - m),
      abs_of_neg (by linarith : delta - m - 2 * π < 0)]
    split_ifs
    · rw [abs_of_nonneg (by linarith)]; linarith
    · rw [abs_of_neg (by linarith)]; linarith

/-- As `half_le`, for a circle whose arc may be driven backwards. -/
theorem half_le_irregular {c : SF.Circle} {k s : ℝ} (h : CircleOk c k s (ccA k s) (ccB k s)) (hk : 0 < k)
    (hs : 0 < s) (hr : c.regular = false) {q : SF.Configuration} {a : ℝ}
    (hd : AngleEq (c.deflection q) (k ^ 2 / (2 * s) + k * a)) :
    c.hc_turn_length q ≤ k / s + |a| := by
  obtain ⟨_, d0, d1⟩ := deflection_spec c q
  have w := hc_circular_irregular hr d0 d1
  have hw : AngleEq (c.hc_circular_deflection (c.deflection q)) (k * a) := by
    refine (hc_circular_spec c _).trans ((hd.sub (AngleEq.refl _)).trans (AngleEq.of_eq ?_))
    rw [h.delta_min]; ring
  have hle := abs_le_of_angleEq hw w
  unfold SF.Circle.hc_turn_length
  simp only
  rw [abs_kappa_sigma h hk hs, abs_mul, abs_kappa_inv h hk]
  have := mul_le_mul_of_nonneg_left hle (show 0 ≤ 1 / k by positivity)
  rw [abs_mul, abs_of_pos hk, show 1 / k * (k * |a|) = |a| by field_simp] at this
  linarith

theorem arc_le {c : SF.Circle} {k : ℝ} (h : RsOk c k) (hk : 0 < k) (hr : c.regular = true) {q : SF.Configuration}
    {a : ℝ} (ha : 0 ≤ a) (hd : AngleEq (c.deflection q) (k * a)) : c.rs_turn_length q ≤ a := by
  obtain ⟨_, d0, d1⟩ := deflection_spec c q
  have hle := le_of_angleEq hd d1 (by positivity)
  unfold SF.Circle.rs_turn_length SF.Circle.rs_circular_deflection
  simp only
  rw [if_pos hr, abs_mul, h.kappa_inv, abs_of_nonneg d0, abs_mul, abs_of_pos (show 0 < 1 / k by positivity),
    show |sg c.left| = 1 by cases c.left <;> simp [sg], one_mul]
  have := mul_le_mul_of_nonneg_left hle (show 0 ≤ 1 / k by positivity)
  rwa [show 1 / k * (k * a) = a by field_simp] at this

/-- `q` is the end of a circular arc from `p`. -/
structure Arced (k : ℝ) (l d : Bool) (p q : Config) (len : ℝ) : Prop where
  cen : cen 0 (1 / (sg l * k)) q = cen 0 (1 / (sg l * k)) p
  ahead : ∀ (c : SF.Circle) (r : SF.Configuration), RsOk c k → c.regular = true → c.left = l → c.forward = d →
    SameConfig (cfg c.start) p → SameConfig (cfg r) q → c.rs_turn_length r ≤ len
  back : ∀ (c : SF.Circle) (r : SF.Configuration), RsOk c k → c.regular = true → c.left = l → c.forward = (!d) →
    SameConfig (cfg c.start) q → SameConfig (cfg r) p → c.rs_turn_length r ≤ len

theorem arc_arced {k : ℝ} (hk : 0 < k) (l d : Bool) {a : ℝ} (ha : 0 ≤ a) (p : Config) :
    Arced k l d p (libAll [⟨sg d * a, sg l * k, 0⟩] p) (totalLength [⟨sg d * a, sg l * k, 0⟩]) := by
  have e : totalLength [⟨sg d * a, sg l * k, 0⟩] = a := by
    simp only [totalLength, List.map_cons, List.map_nil, List.sum_cons, List.sum_nil, add_zero]
    exact abs_pm_mul (sg_pm d) ha
  rw [e]
  simp only [libAll]
  obtain ⟨j1, j2⟩ := lib_arc (len := sg d * a) (sg_k_ne hk l) p
  generalize libArrive ⟨sg d * a, sg l * k, 0⟩ p = p1 at *
  refine ⟨j1, ?_, ?_⟩
  · rintro c r hc hr rfl rfl hp hq
    refine arc_le hc hk hr ha (deflection_to hp hq (AngleEq.of_eq ?_))
    rw [j2]; ring
  · rintro c r hc hr rfl hf hp hq
    refine arc_le hc hk hr ha (deflection_to hp hq (AngleEq.of_eq ?_))
    rw [j2, hf, sg_not]; ring

theorem Arced.congr {k : ℝ} {l d : Bool} {p q p' q' : Config} {len : ℝ} (h : Arced k l d p q len)
    (hp : SameConfig p p') (hq : SameConfig q q') : Arced k l d p' q' len :=
  ⟨by rw [← cen_congr hp, ← cen_congr hq]; exact h.cen,
    fun c r h1 h2 h3 h4 h5 h6 => h.ahead c r h1 h2 h3 h4 (h5.trans hp.symm) (h6.trans hq.symm),
    fun c r h1 h2 h3 h4 h5 h6 => h.back c r h1 h2 h3 h4 (h5.trans hq.symm) (h6.trans hp.symm)⟩

/-! ### Joints -/

/-- Offsets of the centre seen from a joint with or without cusp. -/
def jA (k s : ℝ) (cusp f : Bool) : ℝ := if cusp then 0 else -(sg f * ccA k s)

def jB (k s : ℝ) (cusp l : Bool) : ℝ := if cusp then 1 / (sg l * k) else sg l * ccB k s

/-- A circle with centre `z` is left or entered in `q`. -/
def AtJoint (k s : ℝ) (cusp f l : Bool) (z : ℂ) (q : Config) : Prop :=
  cen (jA k s cusp f) (jB k s cusp l) q = z

theorem AtTan.joint {k s : ℝ} {f l : Bool} {z : ℂ} {q : SF.Configuration} (h : AtTan k s f l z q 0) :
    AtJoint k s false f l z (cfg q) := CcRsOpt.atTan_eq h

theorem AtCusp.joint {k : ℝ} (s : ℝ) {l : Bool} (f : Bool) {z : ℂ} {q : SF.Configuration} (h : AtCusp k l z q 0) :
    AtJoint k s true f l z (cfg q) := sub_eq_zero.1 (norm_le_zero_iff.1 h)

/-- The centres seen from a line between two circles. -/
theorem joint_frame {a1 b1 a2 b2 w x : ℝ} (hw : w = 1 ∨ w = -1) {q1 q2 : Config} {z1 z2 : ℂ}
    (h1 : cen a1 b1 q1 = z1) (h2 : cen a2 b2 q2 = z2)
    (h3 : q2.pos = q1.pos + cis q1.theta * ((w * x : ℝ) : ℂ)) (h4 : AngleEq q2.theta q1.theta) :
    z2 - z1 = cis q1.theta * (⟨w * (x + w * (a2 - a1)), b2 - b1⟩ : ℂ) := by
  have hw2 : w * w = 1 := by rcases hw with rfl | rfl <;> norm_num
  rw [← h1, ← h2]
  unfold cen
  rw [h3, h4.cis_eq]
  have : (⟨w * (x + w * (a2 - a1)), b2 - b1⟩ : ℂ) = ((w * x : ℝ) : ℂ) + ⟨a2, b2⟩ - ⟨a1, b1⟩ := by
    apply Complex.ext
    · simp; linear_combination (a2 - a1) * hw2
    · simp
  rw [this]; ring

theorem joint_dist {a1 b1 a2 b2 w x : ℝ} (hw : w = 1 ∨ w = -1) {q1 q2 : Config} {z1 z2 : ℂ}
    (h1 : cen a1 b1 q1 = z1) (h2 : cen a2 b2 q2 = z2)
    (h3 : q2.pos = q1.pos + cis q1.theta * ((w * x : ℝ) : ℂ)) (h4 : AngleEq q2.theta q1.theta) :
    ‖z2 - z1‖ = √((x + w * (a2 - a1)) ^ 2 + (b2 - b1) ^ 2) := by
  rw [joint_frame hw h1 h2 h3 h4, norm_cis_mul, ← sqrt_eq_norm, mul_pow]
  rcases hw with rfl | rfl <;> norm_num

/-- Lines between two circles are unique. -/
theorem joint_unique {a1 b1 a2 b2 w x x' : ℝ} (hw : w = 1 ∨ w = -1)
    (hu : 0 ≤ x + w * (a2 - a1)) (hu' : 0 ≤ x' + w * (a2 - a1))
    (h0 : 0 < x + w * (a2 - a1) ∨ b2 - b1 ≠ 0) {q1 q2 r1 r2 : Config} {z1 z2 : ℂ}
    (hq1 : cen a1 b1 q1 = z1) (hq2 : cen a2 b2 q2 = z2)
    (hq : q2.pos = q1.pos + cis q1.theta * ((w * x : ℝ) : ℂ)) (hqt : AngleEq q2.theta q1.theta)
    (hr1 : cen a1 b1 r1 = z1) (hr2 : cen a2 b2 r2 = z2)
    (hr : r2.pos = r1.pos + cis r1.theta * ((w * x' : ℝ) : ℂ)) (hrt : AngleEq r2.theta r1.theta) :
    SameConfig r1 q1 ∧ SameConfig r2 q2 ∧ x = x' := by
  have k1 := joint_frame hw hq1 hq2 hq hqt
  have k2 := joint_frame hw hr1 hr2 hr hrt
  obtain ⟨e1, e2⟩ := CcRsOpt.frame_unique' hw hu hu' h0 (k1.symm.trans k2)
  refine ⟨same_of_cen (hr1.trans hq1.symm) e2.symm,
    same_of_cen (hr2.trans hq2.symm) (hrt.trans (e2.symm.trans hqt.symm)), by linarith⟩

theorem jB_not {k s : ℝ} (u l : Bool) : jB k s u (!l) = -jB k s u l := by
  unfold jB
  cases u
  · simp [sg_not]
  · simp only [if_true]
    rw [sg_not, neg_mul, div_neg]

/-- Two circles on opposite sides that touch in a joint: distance of the centres, and the joint is unique.
The second circle is left in direction `f` if there is no cusp. -/
theorem touch {k s : ℝ} (H : Rng k s) (u : Bool) {f f' l : Bool} (hf : u = false → f' = !f) {z1 z2 : ℂ} {q : Config}
    (h1 : AtJoint k s u f l z1 q) (h2 : AtJoint k s u f' (!l) z2 q) :
    ‖z2 - z1‖ = (if u then 2 * (1 / k) else 2 * ccR k s) ∧
    ∀ r : Config, AtJoint k s u f l z1 r → AtJoint k s u f' (!l) z2 r → SameConfig r q := by
  have hA := ccA_pos H.kappa H.sigma H.clothoid
  have hB := ccB_pos H.kappa H.sigma H.clothoid
  have hk := H.pos
  have ht : ∀ (l : Bool) (z : ℂ) (r : Config), AtJoint k s u f' l z r ↔ AtJoint k s u (!f) l z r := by
    intro l z r
    cases u
    · rw [hf rfl]
    · exact Iff.rfl
  simp only [ht] at h2 ⊢
  have hb : jB k s u (!l) - jB k s u l ≠ 0 := by
    rw [jB_not]
    have : jB k s u l ≠ 0 := by
      unfold jB
      cases u
      · cases l <;> simp [sg, hB.ne']
      · cases l <;> simp [sg, hk.ne']
    intro h; apply this; linarith
  have hu : 0 ≤ (0 : ℝ) + sg f * (jA k s u (!f) - jA k s u f) := by
    unfold jA; cases u <;> cases f <;> norm_num [sg] <;> linarith
  refine ⟨?_, fun r e1 e2 => (joint_unique (sg_pm f) hu hu (Or.inr hb) h1 h2 (by simp) (AngleEq.refl _) e1 e2
    (by simp) (AngleEq.refl _)).1⟩
  rw [joint_dist (x := 0) (sg_pm f) h1 h2 (by simp) (AngleEq.refl _)]
  cases u
  · have e : (0 + sg f * (jA k s false (!f) - jA k s false f)) ^ 2 + (jB k s false (!l) - jB k s false l) ^ 2
        = (2 * ccR k s) ^ 2 := by
      rw [mul_pow 2, ccR_sq]
      unfold jA jB
      cases f <;> cases l <;> norm_num [sg] <;> ring
    rw [e, sqrt_sq (mul_nonneg zero_le_two (ccR_nonneg _ _))]; simp
  · have e : (0 + sg f * (jA k s true (!f) - jA k s true f)) ^ 2 + (jB k s true (!l) - jB k s true l) ^ 2
        = (2 * (1 / k)) ^ 2 := by
      unfold jA jB
      cases f <;> cases l <;> norm_num [sg] <;> ring
    rw [e, sqrt_sq (by positivity)]; simp

/-! ### First and last turns -/

/-- Centre of the circle of a turn from or to `p`. -/
def endCen (pm : Bool) (k s : ℝ) (l f : Bool) (p : Config) : ℂ :=
  if pm then cen 0 (1 / (sg l * k)) p else cen (sg f * ccA k s) (sg l * ccB k s) p

theorem EndOk.cen {pm : Bool} {k s : ℝ} {c : SF.Circle} (h : EndOk pm k s c) :
    center c = endCen pm k s c.left c.forward (cfg c.start) := by
  cases pm
  · exact h.cc.cen
  · exact h.rs.cen

/-- First turn of a row. -/
def firstM (pm cusp : Bool) (P : SF.CircleParam) (c : SF.Circle) (q : SF.Configuration) : SF.Move :=
  if cusp then SF.HcRs.firstTc pm c q else SF.HcRs.firstT pm P c q

/-- Last turn of a row. -/
def lastM (pm cusp : Bool) (P : SF.CircleParam) (c : SF.Circle) (q : SF.Configuration) : SF.Move :=
  if cusp then SF.HcRs.lastcT pm c q else SF.HcRs.lastT pm P c q

/-- `q` is the end of a first turn from `p`. -/
structure First (pm cusp : Bool) (k s : ℝ) (l d : Bool) (p q : Config) (len : ℝ) : Prop where
  at_ : AtJoint k s cusp d l (endCen pm k s l d p) q
  le : ∀ (c : SF.Circle) (r : SF.Configuration), EndOk pm k s c → c.left = l → c.forward = d →
    SameConfig (cfg c.start) p → SameConfig (cfg r) q →
    (firstM pm cusp (SF.hc_cc_circle_param k s) c r).length ≤ len

/-- `q` is the start of a last turn to `g`; `f` is the opposite of its direction. -/
structure Last (pm cusp : Bool) (k s : ℝ) (l f : Bool) (q g : Config) (len : ℝ) : Prop where
  at_ : AtJoint k s cusp f l (endCen pm k s l f g) q
  le : ∀ (c : SF.Circle) (r : SF.Configuration), EndOk pm k s c → c.left = l → c.forward = f →
    SameConfig (cfg c.start) g → SameConfig (cfg r) q →
    (lastM pm cusp (SF.hc_cc_circle_param k s) c r).length ≤ len

theorem half_length' {k s : ℝ} (hk : 0 < k) (hs : 0 < s) (a : ℝ) (l d : Bool) :
    totalLength (openTurn k s (sg d) (sg l) a) = k / s + |a| ∧
    totalLength (closeTurn k s (sg d) (sg l) a) = k / s + |a| := by
  have hks : 0 < k / s := by positivity
  have hsd : |sg d| = 1 := by cases d <;> simp [sg]
  constructor <;>
    simp only [totalLength, openTurn, closeTurn, List.map_cons, List.map_nil, List.sum_cons, List.sum_nil] <;>
    rw [abs_pm_mul (sg_pm d) hks.le, abs_mul, hsd] <;> ring

/-- Ends of the turns with one clothoid. -/
theorem open_end {k s : ℝ} (hk : 0 < k) (hs : 0 < s) (l d : Bool) (a : ℝ) (p : Config) :
    cen 0 (1 / (sg l * k)) (libAll (openTurn k s (sg d) (sg l) a) p) = cen (sg d * ccA k s) (sg l * ccB k s) p ∧
    AngleEq (libAll (openTurn k s (sg d) (sg l) a) p).theta (p.theta + sg d * sg l * (k ^ 2 / (2 * s) + k * a)) := by
  unfold openTurn
  simp only [libAll]
  obtain ⟨i1, i2⟩ := full_in hk hs (sg_pm d) (sg_pm l) p
  generalize libArrive ⟨sg d * (k / s), 0, sg l * s⟩ p = p1 at *
  obtain ⟨j1, j2⟩ := lib_arc (len := sg d * a) (sg_k_ne hk l) p1
  generalize libArrive ⟨sg d * a, sg l * k, 0⟩ p1 = p2 at *
  refine ⟨by rw [j1, i1], ?_⟩
  rw [j2]
  exact (i2.add_right _).trans (AngleEq.of_eq (by ring))

theorem close_end {k s : ℝ} (hk : 0 < k) (hs : 0 < s) (l d : Bool) (a : ℝ) (p : Config) :
    cen (-(sg d * ccA k s)) (sg l * ccB k s) (libAll (closeTurn k s (sg d) (sg l) a) p) = cen 0 (1 / (sg l * k)) p ∧
    AngleEq (libAll (closeTurn k s (sg d) (sg l) a) p).theta (p.theta + sg d * sg l * (k ^ 2 / (2 * s) + k * a)) := by
  unfold closeTurn
  simp only [libAll]
  obtain ⟨j1, j2⟩ := lib_arc (len := sg d * a) (sg_k_ne hk l) p
  generalize libArrive ⟨sg d * a, sg l * k, 0⟩ p = p1 at *
  obtain ⟨m1, m2⟩ := full_out hk hs (sg_pm d) (sg_pm l) p1
  generalize libArrive ⟨sg d * (k / s), sg l * k, -(sg l * s)⟩ p1 = p2 at *
  refine ⟨by rw [m1, j1], m2.trans ?_⟩
  rw [j2]
  exact AngleEq.of_eq (by ring)

theorem hcFirst_first {k s : ℝ} (H : Rng k s) {pm cusp l d : Bool} {w : List Segment}
    (h : HcFirst k s (sg d) (sg l) pm cusp w) (p : Config) : First pm cusp k s l d p (libAll w p) (totalLength w) := by
  cases h with
  | cc h =>
    have t := CcRsOpt.rsTurn_turned H l d h p
    refine ⟨t.cen, ?_⟩
    rintro c r hc rfl rfl hp hq
    exact t.ahead _ r (circOk_at H.kappa H.sigma H.clothoid _ _ _ _).ok rfl rfl rfl hp hq
  | close a =>
    obtain ⟨e1, e2⟩ := close_end H.pos H.sigma l d a p
    rw [(half_length' H.pos H.sigma a l d).2]
    refine ⟨e1, ?_⟩
    rintro c r hc rfl rfl hp hq
    refine half_le_irregular (circOk_at H.kappa H.sigma H.clothoid _ _ _ _).ok H.pos H.sigma rfl
      (deflection_to hq ((same_outer c c.kappa).trans hp) (AngleEq.symm ((e2.add_right _).trans (AngleEq.of_eq ?_))))
    change _ + sg (!c.forward) * sg c.left * _ = _
    rw [sg_not]; ring
  | «open» a ha =>
    have t := open_opened H.pos H.sigma l d ha p
    refine ⟨t.cen, ?_⟩
    rintro c r hc rfl rfl hp hq
    exact t.turn c r hc.cc.ok hc.regular rfl rfl hp hq
  | arc a ha =>
    have t := arc_arced H.pos l d ha p
    refine ⟨t.cen, ?_⟩
    rintro c r hc rfl rfl hp hq
    exact t.ahead c r hc.rs hc.regular rfl rfl hp hq

theorem hcLast_last {k s : ℝ} (H : Rng k s) {pm cusp l d : Bool} {w : List Segment}
    (h : HcLast k s (sg d) (sg l) pm cusp w) (p g : Config) (hg : SameConfig (libAll w p) g) :
    Last pm cusp k s l (!d) p g (totalLength w) := by
  have nn : ∀ x : ℝ, -(sg (!d) * x) = sg d * x := by intro x; rw [sg_not]; ring
  cases h with
  | cc h =>
    have t := (CcRsOpt.rsTurn_turned H l d h p).congr (SameConfig.refl _) hg
    refine ⟨?_, ?_⟩
    · change cen (-(sg (!d) * _)) _ _ = cen (sg (!d) * _) _ _
      rw [nn, sg_not, neg_mul]; exact t.cen.symm
    · rintro c r hc rfl hf hp hq
      exact t.back _ r (circOk_at H.kappa H.sigma H.clothoid _ _ _ _).ok rfl rfl hf hp hq
  | «open» a =>
    obtain ⟨e1, e2⟩ := open_end H.pos H.sigma l d a p
    rw [(half_length' H.pos H.sigma a l d).1]
    rw [cen_congr hg] at e1
    refine ⟨?_, ?_⟩
    · change cen (-(sg (!d) * _)) _ _ = cen 0 _ _
      rw [nn]; exact e1.symm
    rintro c r hc rfl hf hp hq
    refine half_le_irregular (circOk_at H.kappa H.sigma H.clothoid _ _ _ _).ok H.pos H.sigma rfl
      (deflection_to hq ((same_outer c c.kappa).trans (hp.trans hg.symm)) (e2.trans (AngleEq.of_eq ?_)))
    change _ = _ + sg (!c.forward) * sg c.left * _
    rw [hf, Bool.not_not]
  | close a ha =>
    have t := (close_closed H.pos H.sigma l d ha p).congr (SameConfig.refl _) hg
    refine ⟨?_, ?_⟩
    · change cen 0 _ _ = cen (sg (!d) * _) _ _
      rw [sg_not, neg_mul]; exact t.cen.symm
    · rintro c r hc rfl hf hp hq
      exact t.turn c r hc.cc.ok hc.regular rfl hf hp hq
  | arc a ha =>
    have t := (arc_arced H.pos l d ha p).congr (SameConfig.refl _) hg
    refine ⟨t.cen.symm, ?_⟩
    rintro c r hc rfl hf hp hq
    exact t.back c r hc.rs hc.regular rfl hf hp hq

/-! ### Middle turns -/

/-- Length of the middle turn of a row. -/
def midLength (reg u1 u2 : Bool) (k s : ℝ) (l d : Bool) (ra rb : SF.Configuration) : ℝ :=
  if u1 then
    if u2 then (SF.circleAt ra l d true (SF.rs_circle_param k)).rs_turn_length rb
    else (SF.circleAt rb l (!d) true (SF.hc_cc_circle_param k s)).hc_turn_length ra
  else
    if u2 then (SF.circleAt ra l d true (SF.hc_cc_circle_param k s)).hc_turn_length rb
    else (SF.circleAt ra l d reg (SF.hc_cc_circle_param k s)).cc_turn_length rb

/-- A middle turn from `q1` to `q2`. -/
structure MidTurn (reg u1 u2 : Bool) (k s : ℝ) (l d : Bool) (q1 q2 : Config) (len : ℝ) : Prop where
  at_ : ∃ M, AtJoint k s u1 (!d) l M q1 ∧ AtJoint k s u2 d l M q2
  le : ∀ ra rb : SF.Configuration, SameConfig (cfg ra) q1 → SameConfig (cfg rb) q2 →
    midLength reg u1 u2 k s l d ra rb ≤ len

theorem hcMiddle_mid {k s : ℝ} (H : Rng k s) {pm1 pm2 u1 u2 l d : Bool} {w : List Segment}
    (h : HcMiddle (pm1 || pm2) k s (sg d) (sg l) u1 u2 w) (p : Config) :
    MidTurn (!pm1 && !pm2) u1 u2 k s l d p (libAll w p) (totalLength w) := by
  have nn : -(sg (!d) * ccA k s) = sg d * ccA k s := by rw [sg_not]; ring
  have tan : ∀ z q, cen (sg d * ccA k s) (sg l * ccB k s) q = z → AtJoint k s false (!d) l z q := by
    intro z q h
    change cen (-(sg (!d) * _)) _ _ = _
    rw [nn]; exact h
  have ok := fun q f r => (circOk_at H.kappa H.sigma H.clothoid q l f r).ok
  cases h with
  | cc h =>
    have t1 := ccTurn_turned H.kappa H.sigma H.clothoid l d h p
    have t2 : Turned false k s l d p (libAll w p) (totalLength w) := by
      cases h with
      | full a => exact full_turned H.kappa H.sigma H.clothoid false l d (by simp) p
      | elementary s0 L a hs0 hL h1 h2 h3 ends chord =>
        exact elementary_turned H.kappa H.sigma false l d hs0 hL h1 h2 h3 ends chord p
    refine ⟨⟨_, tan _ _ rfl, t1.cen⟩, fun ra rb ha hb => ?_⟩
    change (SF.circleAt ra l d (!pm1 && !pm2) _).cc_turn_length rb ≤ _
    cases (!pm1 && !pm2)
    · exact t2.ahead _ _ (ok _ _ _) rfl rfl rfl ha hb
    · exact t1.ahead _ _ (ok _ _ _) rfl rfl rfl ha hb
  | back hf h =>
    have t := CcRsOpt.rsTurn_turned H l d h p
    refine ⟨⟨_, tan _ _ rfl, t.cen⟩, fun ra rb ha hb => ?_⟩
    change (SF.circleAt ra l d (!pm1 && !pm2) _).cc_turn_length rb ≤ _
    rw [← Bool.not_or, hf]
    exact t.ahead _ _ (ok _ _ _) rfl rfl rfl ha hb
  | close a ha =>
    have t := close_closed H.pos H.sigma l d ha p
    exact ⟨⟨_, rfl, t.cen⟩, fun ra rb ha hb => t.turn _ _ (ok _ _ _) rfl rfl rfl hb ha⟩
  | «open» a ha =>
    have t := open_opened H.pos H.sigma l d ha p
    exact ⟨⟨_, tan _ _ rfl, t.cen⟩, fun ra rb ha hb => t.turn _ _ (ok _ _ _) rfl rfl rfl ha hb⟩
  | arc a ha =>
    have t := arc_arced H.pos l d ha p
    exact ⟨⟨_, rfl, t.cen⟩, fun ra rb ha hb => t.ahead _ _ (rsOk_at H.pos _ _ _ _) rfl rfl rfl ha hb⟩

end Spec
