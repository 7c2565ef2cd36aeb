import Verif.Lemmas.Cc00Core
import Verif.Spec.CcOptimal

/-!
# CC-Dubins words: the turns of the planner are not longer
-/

noncomputable section

namespace Spec

open Real Props

theorem cenX_upper {t : ℝ} (ht : 0 < t) : cenX t ≤ t / 2 := by
  have hpi := pi_pos
  have small : ∀ r, 0 < r → r ≤ 1 → cenX r ≤ r := by
    intro r hr hr1
    have h1 := (abs_le.1 (abs_fresnelC_le hr.le)).2
    have h2 : 0 ≤ sin (π / 2 * r ^ 2) := by
      apply sin_nonneg_of_nonneg_of_le_pi (by positivity)
      have : r ^ 2 ≤ 1 := by nlinarith
      nlinarith
    have h3 : 0 ≤ sin (π / 2 * r ^ 2) / (π * r) := by positivity
    unfold cenX; linarith
  by_contra hc
  push Not at hc
  obtain ⟨r, hr⟩ : ∃ r, r = min (min t 1) (cenX t - t / 2) := ⟨_, rfl⟩
  have hr0 : 0 < r := by rw [hr]; exact lt_min (lt_min ht one_pos) (by linarith)
  have hr1 : r ≤ 1 := by rw [hr]; exact (min_le_left _ _).trans (min_le_right _ _)
  have hrt : r ≤ t := by rw [hr]; exact (min_le_left _ _).trans (min_le_left _ _)
  have hr2 : r ≤ cenX t - t / 2 := by rw [hr]; exact min_le_right _ _
  have := Poly.le_of_deriv_nonneg (a := r) (b := t) (f := fun x => x / 2 - cenX x)
    (f' := fun x => 1 / 2 - sin (π / 2 * x ^ 2) / (π * x ^ 2)) hrt
    (fun x hx _ => ((hasDerivAt_id' x).div_const 2).sub (hasDerivAt_cenX (hr0.trans_le hx))) ?_
  · have := small r hr0 hr1
    linarith
  · intro x hx _
    have hx0 : 0 < x := hr0.trans_le hx
    rw [sub_nonneg, div_le_iff₀ (by positivity)]
    have := sin_le (show 0 ≤ π / 2 * x ^ 2 by positivity)
    nlinarith

/-- The straight line that replaces a turn of no deflection is not longer than two clothoids. -/
theorem ccA_le {k s : ℝ} (hk : k > SF.epsilon) (hs : 0 < s) (hl : k / s > SF.epsilon) :
    ccA k s ≤ k / s := by
  have hk0 : 0 < k := lt_trans (by norm_num [SF.epsilon]) hk
  have hlow := cArg_full_lower hk hs hl
  have hc := cScale_pos hs
  have hcA : cScale s * cArg s (k / s) = k / s := by
    unfold cScale cArg
    have h1 : √π ≠ 0 := (sqrt_pos.mpr pi_pos).ne'
    have h2 : √s ≠ 0 := (sqrt_pos.mpr hs).ne'
    have h3 : √s * √s = s := mul_self_sqrt hs.le
    field_simp
    rw [sq, h3]
  rw [ccA_eq hk0 hs]
  obtain ⟨t, ht'⟩ : ∃ t, t = cArg s (k / s) := ⟨_, rfl⟩
  rw [← ht'] at hlow hcA ⊢
  rw [← hcA]
  have h1 := cenX_upper (t := t) (lt_of_lt_of_le (by norm_num) hlow)
  have h2 := (abs_le.1 (Poly.fresnel_accurate t).2).2
  apply mul_le_mul_of_nonneg_left _ hc.le
  norm_num at h2 hlow ⊢
  linarith

/-- Representatives in `[0, 2π)` are the least non-negative ones. -/
theorem le_of_angleEq {w y : ℝ} (h : AngleEq w y) (hw : w < 2 * π) (hy : 0 ≤ y) : w ≤ y := by
  obtain ⟨n, hn⟩ := h
  rcases le_or_gt n 0 with h0 | h0
  · have : (n : ℝ) ≤ 0 := by exact_mod_cast h0
    nlinarith [pi_pos]
  · have : (1 : ℝ) ≤ n := by exact_mod_cast h0
    nlinarith [pi_pos]

theorem cc_circular_regular {c : SF.Circle} (hr : c.regular = true) {delta : ℝ} (h0 : 0 ≤ delta)
    (h1 : delta < 2 * π) :
    0 ≤ c.cc_circular_deflection delta ∧ c.cc_circular_deflection delta < 2 * π := by
  have a := SF.twopify_nonneg (2 * c.delta_min)
  have b := SF.twopify_lt (2 * c.delta_min)
  unfold SF.Circle.cc_circular_deflection
  simp only [hr, if_true]
  generalize SF.twopify (2 * c.delta_min) = m at a b
  split_ifs <;> constructor <;> linarith

theorem cc_circular_irregular {c : SF.Circle} (hr : c.regular = false) {delta : ℝ} (h0 : 0 ≤ delta)
    (h1 : delta < 2 * π) : |c.cc_circular_deflection delta| ≤ π := by
  have a := SF.twopify_nonneg (2 * c.delta_min)
  have b := SF.twopify_lt (2 * c.delta_min)
  unfold SF.Circle.cc_circular_deflection
  simp only [hr, Bool.false_eq_true, if_false]
  generalize SF.twopify (2 * c.delta_min) = m at a b
  by_cases hm : delta < m
  · rw [if_pos hm, abs_of_neg (by linarith : delta - m < 0), abs_of_pos (by linarith : 0 < delta - m + 2 * π)]
    split_ifs
    · rw [abs_of_neg (by linarith)]; linarith
    · rw [abs_of_pos (by linarith)]; linarith
  · push Not at hm
    rw [if_neg (not_lt.2 hm), abs_of_nonneg (by linarith : 0 ≤ delta - m),
      abs_of_neg (by linarith : delta - m - 2 * π < 0)]
    split_ifs
    · rw [abs_of_nonneg (by linarith)]; linarith
    · rw [abs_of_neg (by linarith)]; linarith

/-- Representatives in `[-π, π]` are the least ones. -/
theorem abs_le_of_angleEq {w y : ℝ} (h : AngleEq w y) (hw : |w| ≤ π) : |w| ≤ |y| := by
  obtain ⟨n, hn⟩ := h
  have hpi := pi_pos
  rcases eq_or_ne n 0 with h0 | h0
  · have : w = y := by rw [h0] at hn; simpa using hn
    rw [this]
  · have h1 : (1 : ℝ) ≤ |(n : ℝ)| := by exact_mod_cast Int.one_le_abs h0
    have h2 : |w - y| = |(n : ℝ)| * (2 * π) := by
      rw [hn, add_sub_cancel_left, abs_mul, abs_of_pos (by linarith : 0 < 2 * π)]
    have h3 := abs_sub w y
    nlinarith

/-- A turn with the heading change of a full turn is not longer; the arc of a circle without
`CC_REGULAR` may be driven backwards. -/
theorem full_le {c : SF.Circle} {k s : ℝ} (h : CircleOk c k s (ccA k s) (ccB k s)) (hk : k > SF.epsilon)
    (hs : 0 < s) (hl : k / s > SF.epsilon) {q : SF.Configuration} {a : ℝ}
    (ha : c.regular = true → 0 ≤ a) (hd : AngleEq (c.deflection q) (k ^ 2 / s + k * a)) :
    c.cc_turn_length q ≤ 2 * (k / s) + |a| := by
  have hk0 : 0 < k := lt_trans (by norm_num [SF.epsilon]) hk
  obtain ⟨_, d0, d1⟩ := deflection_spec c q
  have hw : AngleEq (c.cc_circular_deflection (c.deflection q)) (k * a) := by
    refine (cc_circular_spec c _).trans ((hd.sub (AngleEq.refl _)).trans (AngleEq.of_eq ?_))
    rw [h.delta_min]; field_simp; ring
  have hle : |c.cc_circular_deflection (c.deflection q)| ≤ |k * a| := by
    cases hr : c.regular
    · exact abs_le_of_angleEq hw (cc_circular_irregular hr d0 d1)
    · obtain ⟨w0, w1⟩ := cc_circular_regular hr d0 d1
      have ha0 := ha hr
      have hka : 0 ≤ k * a := by positivity
      rw [abs_of_nonneg w0, abs_of_nonneg hka]
      exact le_of_angleEq hw w1 hka
  have hdef : 2 * |c.kappa / c.sigma| + |c.kappa_inv * c.cc_circular_deflection (c.deflection q)|
      ≤ 2 * (k / s) + |a| := by
    rw [abs_kappa_sigma h hk0 hs, abs_mul, abs_kappa_inv h hk0]
    have := mul_le_mul_of_nonneg_left hle (show 0 ≤ 1 / k by positivity)
    rw [abs_mul k, abs_of_pos hk0, show 1 / k * (k * |a|) = |a| by field_simp] at this
    linarith
  unfold SF.Circle.cc_turn_length
  simp only
  split_ifs with h1 h2
  · rw [mul_assoc, h.sin_mu]
    linarith [ccA_le hk hs hl, abs_nonneg a]
  · split
    · split_ifs with h3
      · exact h3.le.trans hdef
      · exact hdef
    · exact hdef
  · exact hdef

/-- A turn with the ends of an elementary turn is not longer. -/
theorem elementary_le {c : SF.Circle} {k s : ℝ} (h : CircleOk c k s (ccA k s) (ccB k s))
    {q : SF.Configuration} {s0 L : ℝ} (hs0 : 0 < s0) (hL : 0 < L) (h1 : 1 / 10000 ≤ s0 * L ^ 2)
    (h2 : s0 * L ^ 2 < 4.5948) (h3 : s0 * L ^ 2 < k ^ 2 / s)
    (hd : AngleEq (c.deflection q) (s0 * L ^ 2))
    (hch : SF.epsilon < SF.point_distance c.start.x c.start.y q.x q.y)
    (hc : SF.point_distance c.start.x c.start.y q.x q.y = |2 * (cScale s0 * ((SF.fresnel (cArg s0 L)).2
      * cos (s0 * L ^ 2 / 2) + (SF.fresnel (cArg s0 L)).1 * sin (s0 * L ^ 2 / 2)))|) :
    c.cc_turn_length q ≤ 2 * L := by
  obtain ⟨_, d0, d1⟩ := deflection_spec c q
  have hpi := pi_gt_three
  have hde : c.deflection q = s0 * L ^ 2 :=
    SF.angleEq_eq_of_mem hd d0 d1 (by positivity) (by norm_num at h2 ⊢; linarith)
  have hD : SF.Circle.D1 (0.5 * (s0 * L ^ 2)) = (SF.fresnel (cArg s0 L)).2
      * cos (s0 * L ^ 2 / 2) + (SF.fresnel (cArg s0 L)).1 * sin (s0 * L ^ 2 / 2) := by
    unfold SF.Circle.D1
    have e : √(2 * (0.5 * (s0 * L ^ 2)) / π) = cArg s0 L := by
      have hp : 0 < √π := sqrt_pos.2 pi_pos
      have h0 : 0 < √s0 := sqrt_pos.2 hs0
      rw [sqrt_eq_iff_mul_self_eq (by positivity) (by unfold cArg; positivity)]
      unfold cArg
      have e1 : √π * √π = π := mul_self_sqrt pi_pos.le
      have e2 : √s0 * √s0 = s0 := mul_self_sqrt hs0.le
      field_simp
      nlinarith
    simp only [e]
    rw [show (0.5 : ℝ) * (s0 * L ^ 2) = s0 * L ^ 2 / 2 by ring]
    ring
  rw [← hD] at hc
  have hsh : ∃ s', c.cc_elementary_sharpness q (s0 * L ^ 2) = some s' ∧ |s'| = s0 := by
    unfold SF.Circle.cc_elementary_sharpness
    simp only
    rw [if_pos ⟨h2, hch⟩]
    refine ⟨_, rfl, ?_⟩
    generalize SF.point_distance c.start.x c.start.y q.x q.y = D at hch hc
    generalize SF.Circle.D1 (0.5 * (s0 * L ^ 2)) = D1 at hc
    have hD0 : 0 < D := lt_trans (by norm_num [SF.epsilon]) hch
    have hsq : D ^ 2 = 4 * (π / s0) * D1 ^ 2 := by
      rw [hc, sq_abs, ← cScale_sq hs0]; ring
    have hD1 : D1 ^ 2 ≠ 0 := by
      intro h0; rw [h0, mul_zero] at hsq; exact hD0.ne' (by simpa using hsq)
    have e : 4 * π * D1 ^ 2 / D ^ 2 = s0 := by
      have hD1' : D1 ≠ 0 := fun h0 => hD1 (by rw [h0]; ring)
      rw [hsq]; field_simp
    rw [e]
    split_ifs
    · exact abs_of_pos hs0
    · rw [abs_neg, abs_of_pos hs0]
  obtain ⟨s', hs', hs''⟩ := hsh
  unfold SF.Circle.cc_turn_length
  simp only [hde, hs', hs'']
  rw [if_neg (by rw [not_lt]; simpa [SF.epsilon] using h1), if_pos (by rw [h.delta_min]; rw [show 2 * (k ^ 2 / (2 * s)) = k ^ 2 / s by ring]; exact h3)]
  rw [show s0 * L ^ 2 / s0 = L ^ 2 by field_simp, sqrt_sq hL.le]
  split_ifs with h4
  · exact le_rfl
  · exact not_lt.1 h4

/-- `q` is the end of a turn from `p` with the length `len`; the planner's turns between these
configurations are not longer, from whichever end they are measured.  `reg` is the `CC_REGULAR` of the
circles. -/
structure Turned (reg : Bool) (k s : ℝ) (l d : Bool) (p q : Config) (len : ℝ) : Prop where
  cen : cen (-(sg d * ccA k s)) (sg l * ccB k s) q = cen (sg d * ccA k s) (sg l * ccB k s) p
  nonneg : 0 ≤ len
  ahead : ∀ (c : SF.Circle) (r : SF.Configuration), CircleOk c k s (ccA k s) (ccB k s) →
    c.regular = reg → c.left = l → c.forward = d → SameConfig (cfg c.start) p → SameConfig (cfg r) q →
    c.cc_turn_length r ≤ len
  back : ∀ (c : SF.Circle) (r : SF.Configuration), CircleOk c k s (ccA k s) (ccB k s) →
    c.regular = reg → c.left = l → c.forward = (!d) → SameConfig (cfg c.start) q →
    SameConfig (cfg r) p → c.cc_turn_length r ≤ len

theorem fullTurn_end {k s d l : ℝ} (hk : 0 < k) (hs : 0 < s) (hd : d = 1 ∨ d = -1) (hl : l = 1 ∨ l = -1)
    (a : ℝ) (p : Config) :
    cen (-(d * ccA k s)) (l * ccB k s) (libAll (fullTurn k s d l a) p)
      = cen (d * ccA k s) (l * ccB k s) p ∧
    AngleEq (libAll (fullTurn k s d l a) p).theta (p.theta + d * l * (k ^ 2 / s + k * a)) := by
  have hlk : l * k ≠ 0 := by rcases hl with rfl | rfl <;> simp [hk.ne']
  unfold fullTurn
  simp only [libAll]
  obtain ⟨i1, i2⟩ := full_in hk hs hd hl p
  generalize libArrive ⟨d * (k / s), 0, l * s⟩ p = p1 at *
  obtain ⟨j1, j2⟩ := lib_arc (len := d * a) hlk p1
  generalize libArrive ⟨d * a, l * k, 0⟩ p1 = p2 at *
  obtain ⟨m1, m2⟩ := full_out hk hs hd hl p2
  refine ⟨by rw [m1, j1, i1], m2.trans ?_⟩
  rw [j2]
  refine ((i2.add_right _).add_right _).trans (AngleEq.of_eq ?_)
  ring

/-- Deflection of a circle whose turn leads from `p` to `q`. -/
theorem deflection_to {c : SF.Circle} {r : SF.Configuration} {p q : Config} {w : ℝ}
    (hp : SameConfig (cfg c.start) p) (hq : SameConfig (cfg r) q)
    (h : AngleEq q.theta (p.theta + sg c.forward * sg c.left * w)) : AngleEq (c.deflection r) w := by
  have h1 := (deflection_spec c r).1
  have hq' : AngleEq r.theta q.theta := hq.2.2
  have hp' : AngleEq c.start.theta p.theta := hp.2.2
  have h2 : AngleEq (c.start.theta + sg c.forward * sg c.left * c.deflection r)
      (c.start.theta + sg c.forward * sg c.left * w) :=
    (h1.symm.trans (hq'.trans h)).trans (hp'.symm.add_right _)
  have h3 := h2.sub (AngleEq.refl c.start.theta)
  rw [add_sub_cancel_left, add_sub_cancel_left] at h3
  rcases pm_mul (sg_pm c.forward) (sg_pm c.left) with e | e <;> rw [e] at h3
  · simpa using h3
  · simpa using h3.neg

theorem full_turned {k s : ℝ} (hk : k > SF.epsilon) (hs : 0 < s) (hl : k / s > SF.epsilon)
    (reg l d : Bool) {a : ℝ} (ha : reg = true → 0 ≤ a) (p : Config) :
    Turned reg k s l d p (libAll (fullTurn k s (sg d) (sg l) a) p)
      (totalLength (fullTurn k s (sg d) (sg l) a)) := by
  have hk0 : 0 < k := lt_trans (by norm_num [SF.epsilon]) hk
  have hks : 0 < k / s := by positivity
  obtain ⟨e1, e2⟩ := fullTurn_end hk0 hs (sg_pm d) (sg_pm l) a p
  have hlen : totalLength (fullTurn k s (sg d) (sg l) a) = 2 * (k / s) + |a| := by
    simp only [totalLength, fullTurn, List.map_cons, List.map_nil, List.sum_cons, List.sum_nil]
    rw [abs_pm_mul (sg_pm d) hks.le, abs_mul, show |sg d| = 1 by cases d <;> simp [sg]]; ring
  rw [hlen]
  refine ⟨e1, by positivity, ?_, ?_⟩
  · rintro c r hc hr rfl rfl hp hq
    exact full_le hc hk hs hl (fun h => ha (hr.symm.trans h)) (deflection_to hp hq e2)
  · rintro c r hc hr rfl hf hp hq
    refine full_le hc hk hs hl (fun h => ha (hr.symm.trans h)) (deflection_to hp hq (AngleEq.symm ((e2.add_right _).trans
      (AngleEq.of_eq ?_))))
    rw [hf, sg_not]; ring

theorem elementary_turned {k s : ℝ} (hk : k > SF.epsilon) (hs : 0 < s)
    (reg l d : Bool) {s0 L a : ℝ} (hs0 : 0 < s0) (hL : 0 < L) (h1 : 1 / 10000 ≤ s0 * L ^ 2)
    (h2 : s0 * L ^ 2 < 4.5948) (h3 : s0 * L ^ 2 < k ^ 2 / s)
    (ends : ∀ p, SameConfig (libAll (elementaryTurn s0 L (sg d) (sg l)) p)
      (libAll (fullTurn k s (sg d) (sg l) a) p))
    (chord : ∀ p, 1 / 10000 < (libAll (elementaryTurn s0 L (sg d) (sg l)) p).dist p) (p : Config) :
    Turned reg k s l d p (libAll (elementaryTurn s0 L (sg d) (sg l)) p)
      (totalLength (elementaryTurn s0 L (sg d) (sg l))) := by
  have hk0 : 0 < k := lt_trans (by norm_num [SF.epsilon]) hk
  have hlen : totalLength (elementaryTurn s0 L (sg d) (sg l)) = 2 * L := by
    simp only [totalLength, elementaryTurn, List.map_cons, List.map_nil, List.sum_cons, List.sum_nil]
    rw [abs_pm_mul (sg_pm d) hL.le]; ring
  obtain ⟨e1, e2⟩ := elementary_end (sg_pm d) (sg_pm l) hs0 hL p
  have hc := chord p
  have hcen : cen (-(sg d * ccA k s)) (sg l * ccB k s) (libAll (elementaryTurn s0 L (sg d) (sg l)) p)
      = cen (sg d * ccA k s) (sg l * ccB k s) p := by
    rw [cen_congr (ends p)]
    exact (fullTurn_end hk0 hs (sg_pm d) (sg_pm l) a p).1
  rw [hlen]
  unfold elementaryTurn at hc hcen ⊢
  generalize libAll [⟨sg d * L, 0, sg l * s0⟩, ⟨sg d * L, sg l * s0 * L, -(sg l * s0)⟩] p = q at *
  have hdist : q.dist p = |2 * (cScale s0 * ((SF.fresnel (cArg s0 L)).2
      * cos (s0 * L ^ 2 / 2) + (SF.fresnel (cArg s0 L)).1 * sin (s0 * L ^ 2 / 2)))| := by
    rw [Config.dist_eq, e1, add_sub_cancel_left, norm_cis_mul, Complex.norm_real, Real.norm_eq_abs, abs_mul]
    rw [show |sg d| = 1 by cases d <;> simp [sg], one_mul]
  refine ⟨hcen, by positivity, ?_, ?_⟩
  · rintro c r hc' hr rfl rfl hp hq
    have hpd : SF.point_distance c.start.x c.start.y r.x r.y = q.dist p := by
      unfold SF.point_distance Config.dist
      rw [← hp.1, ← hp.2.1, ← hq.1, ← hq.2.1]; rfl
    exact elementary_le hc' hs0 hL h1 h2 h3 (deflection_to hp hq e2) (by rw [hpd]; exact hc)
      (by rw [hpd, hdist])
  · rintro c r hc' hr rfl hf hp hq
    have hpd : SF.point_distance c.start.x c.start.y r.x r.y = q.dist p := by
      rw [Config.dist_comm]
      unfold SF.point_distance Config.dist
      rw [← hp.1, ← hp.2.1, ← hq.1, ← hq.2.1]; rfl
    refine elementary_le hc' hs0 hL h1 h2 h3 (deflection_to hp hq (AngleEq.symm ((e2.add_right _).trans
      (AngleEq.of_eq ?_)))) (by rw [hpd]; exact hc) (by rw [hpd, hdist])
    rw [hf, sg_not]; ring

/-- Every turn of a word. -/
theorem ccTurn_turned {k s : ℝ} (hk : k > SF.epsilon) (hs : 0 < s) (hl : k / s > SF.epsilon)
    (l d : Bool) {w : List Segment} (h : CCTurn k s (sg d) (sg l) w) (p : Config) :
    Turned true k s l d p (libAll w p) (totalLength w) := by
  cases h with
  | full a ha => exact full_turned hk hs hl true l d (fun _ => ha) p
  | elementary s0 L a hs0 hL h1 h2 h3 ends chord =>
    exact elementary_turned hk hs true l d hs0 hL h1 h2 h3 ends chord p

theorem Turned.congr {k s : ℝ} {reg l d : Bool} {p q p' q' : Config} {len : ℝ} (h : Turned reg k s l d p q len)
    (hp : SameConfig p p') (hq : SameConfig q q') : Turned reg k s l d p' q' len :=
  ⟨by rw [← cen_congr hp, ← cen_congr hq]; exact h.cen, h.nonneg,
    fun c r h1 h2 h3 h4 h5 h6 => h.ahead c r h1 h2 h3 h4 (h5.trans hp.symm) (h6.trans hq.symm),
    fun c r h1 h2 h3 h4 h5 h6 => h.back c r h1 h2 h3 h4 (h5.trans hq.symm) (h6.trans hp.symm)⟩

end Spec
