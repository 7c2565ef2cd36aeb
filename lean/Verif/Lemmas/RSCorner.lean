import Verif.Lemmas.RSOptimal

/-!
# Reeds-Shepp words with a turn of exactly half a circle

The code normalises angles to `[-pi, pi]` with `pify`, which may return either end for a half turn, so a word
with a half turn may be rejected.  Here: such a word is never needed, another word is at most as long.
-/

noncomputable section

namespace SF

open Real Spec Props

/-! ### Words that the code tries in both directions -/

/-- An accepted word of the families CCC or CCSC of length at most `L`. -/
def RSMid (x y phi L : ℝ) : Prop :=
  (∃ w, (w = LpRmL x y phi ∨ w = LpRmL (rsXb x y phi) (rsYb x y phi) phi) ∧ w.ok ∧
    |w.t| + |w.u| + |w.v| ≤ L) ∨
  (∃ w, (w = LpRmSmLm x y phi ∨ w = LpRmSmLm (rsXb x y phi) (rsYb x y phi) phi ∨
      w = LpRmSmRm x y phi ∨ w = LpRmSmRm (rsXb x y phi) (rsYb x y phi) phi) ∧ w.ok ∧
      |w.t| + |w.u| + |w.v| + 0.5 * π ≤ L)

theorem RSMid.best {x y phi L : ℝ} (h : RSMid x y phi L) : RSBest x y phi L := by
  rcases h with ⟨w, a, b, c⟩ | h
  · left; exact ⟨w, by tauto, b, c⟩
  · right; right; left; exact h

theorem RSMid.mono {x y phi L L' : ℝ} (hL : L ≤ L') (h : RSMid x y phi L) : RSMid x y phi L' := by
  rcases h with ⟨w, a, b, c⟩ | ⟨w, a, b, c⟩
  · left; exact ⟨w, a, b, c.trans hL⟩
  · right; exact ⟨w, a, b, c.trans hL⟩

theorem RSMid.rev {x y phi L : ℝ} (h : RSMid (rsXb x y phi) (rsYb x y phi) phi L) : RSMid x y phi L := by
  unfold RSMid at *
  rw [rsXb_invol, rsYb_invol] at h
  rcases h with ⟨w, a, b⟩ | ⟨w, a, b⟩
  · left; exact ⟨w, by tauto, b⟩
  · right; exact ⟨w, by tauto, b⟩

/-- `RSMid` for one of the four symmetric goals. -/
def RSSym (x y phi L : ℝ) : Prop :=
  RSMid x y phi L ∨ RSMid (-x) y (-phi) L ∨ RSMid x (-y) (-phi) L ∨ RSMid (-x) (-y) phi L

theorem RSSym.any {x y phi L : ℝ} (h : RSSym x y phi L) : RSAny x y phi L :=
  h.imp RSMid.best (Or.imp RSMid.best (Or.imp RSMid.best RSMid.best))

theorem RSSym.mono {x y phi L L' : ℝ} (hL : L ≤ L') (h : RSSym x y phi L) : RSSym x y phi L' :=
  h.imp (RSMid.mono hL) (Or.imp (RSMid.mono hL) (Or.imp (RSMid.mono hL) (RSMid.mono hL)))

theorem RSSym.flip {x y phi L : ℝ} (h : RSSym (-x) y (-phi) L) : RSSym x y phi L := by
  unfold RSSym at *; simp only [neg_neg] at h; tauto

theorem RSSym.mirror {x y phi L : ℝ} (h : RSSym x (-y) (-phi) L) : RSSym x y phi L := by
  unfold RSSym at *; simp only [neg_neg] at h; tauto

theorem RSSym.both {x y phi L : ℝ} (h : RSSym (-x) (-y) phi L) : RSSym x y phi L := by
  unfold RSSym at *; simp only [neg_neg] at h; tauto

/-- A word for the reversed goal is a word for the goal. -/
theorem RSSym.rev {x y phi L : ℝ} (h : RSSym (rsXb x y phi) (rsYb x y phi) phi L) : RSSym x y phi L := by
  rcases h with h | h | h | h
  · exact Or.inl h.rev
  · right; left
    apply RSMid.rev
    rw [rsXb_flip, rsYb_flip]; exact h
  · right; right; left
    apply RSMid.rev
    rw [rsXb_mirror, rsYb_mirror]; exact h
  · right; right; right
    apply RSMid.rev
    rw [rsXb_both, rsYb_both]; exact h

theorem sym_LRL {x y phi t u v : ℝ} (ht : CTurn t) (hu : 0 < u) (hu2 : u ≤ π)
    (h : Hits [(1, t), (-1, -u), (1, v)] x y phi) : RSSym x y phi (|t| + u + |v|) := by
  obtain ⟨a, b⟩ := opt_LRL' ht hu hu2 h
  left; left; exact ⟨_, Or.inl rfl, a, b⟩

theorem sym_LRSL {x y phi t u v : ℝ} (ht : CTurn t) (hu : 0 ≤ u) (hv : RTurn v)
    (h : Hits [(1, t), (-1, -(π / 2)), (0, -u), (1, -v)] x y phi) :
    RSSym x y phi (|t| + π / 2 + u + |v|) := by
  obtain ⟨a, b⟩ := opt_LRSL' ht hu hv h
  left; right; exact ⟨_, Or.inl rfl, a, b⟩

theorem sym_LRSR {x y phi t u v : ℝ} (ht : -RS_ZERO ≤ t ∧ t ≤ π) (hu : 0 ≤ u) (hv : RTurn v)
    (h : Hits [(1, t), (-1, -(π / 2)), (0, -u), (-1, -v)] x y phi) :
    RSSym x y phi (|t| + π / 2 + u + |v|) := by
  obtain ⟨a, b⟩ := opt_LRSR' ht hu hv h
  left; right; exact ⟨_, Or.inr (Or.inr (Or.inl rfl)), a, b⟩

theorem sym_LRSRb {x y phi t u v : ℝ} (ht : -RS_ZERO ≤ t ∧ t ≤ π) (hu : 0 ≤ u) (hv : RTurn v)
    (h : Hits [(-1, -v), (0, -u), (-1, -(π / 2)), (1, t)] x y phi) :
    RSSym x y phi (|t| + π / 2 + u + |v|) := by
  have hw : UnitW [(-1, -v), (0, -u), (-1, -(π / 2)), (1, t)] := by
    intro w hw; simp only [List.mem_cons, List.not_mem_nil, or_false] at hw
    rcases hw with rfl | rfl | rfl | rfl <;> simp
  have := h.reverse' hw
  simp only [List.reverse_cons, List.reverse_nil, List.nil_append, List.cons_append] at this
  exact (sym_LRSR ht hu hv this).rev

/-! ### Going round -/

theorem polar_q {X Y : ℝ} (hX : 0 ≤ X) (hY : 0 < Y) : ∃ t, 0 ≤ t ∧ t < π / 2 ∧
    X = √(X ^ 2 + Y ^ 2) * sin t ∧ Y = √(X ^ 2 + Y ^ 2) * cos t := by
  refine ⟨arctan (X / Y), arctan_nonneg.2 (by positivity), arctan_lt_pi_div_two _, ?_⟩
  have h : √(X ^ 2 + Y ^ 2) = Y * √(1 + (X / Y) ^ 2) := by
    rw [← sqrt_sq hY.le, ← sqrt_mul (by positivity), sqrt_sq hY.le]
    congr 1; field_simp; ring
  have h0 : 0 < √(1 + (X / Y) ^ 2) := by positivity
  rw [sin_arctan, cos_arctan, h]
  constructor <;> field_simp

/-- Right, back to the left, straight back and left: to a goal whose heading is about opposite. -/
theorem around_near {x y phi v V1 V2 : ℝ} (h1 : x + sin phi = V1) (h2 : y - cos phi - 1 = V2)
    (h3 : AngleEq (π - v) phi) (hv : -RS_ZERO ≤ v) (hv2 : v < π / 2) (a0 : 0 ≤ V1 - 2 * sin v)
    (a1 : V1 ≤ 2) (a2 : 2 ≤ V2) :
    RSSym x y phi (π + (√((V1 - 2 * sin v) ^ 2 + (V2 + 2 - 2 * cos v) ^ 2) - 2) + v) := by
  have hs : sin phi = sin v := by rw [← h3.sin_eq, sin_pi_sub]
  have hc : cos phi = -cos v := by rw [← h3.cos_eq, cos_pi_sub]
  have hz := RS_ZERO_lt
  have hpi := pi_gt_three
  have hc1 := cos_le_one v
  have hY : 2 ≤ V2 + 2 - 2 * cos v := by linarith
  obtain ⟨t, t0, t1, e1, e2⟩ := polar_q a0 (show 0 < V2 + 2 - 2 * cos v by linarith)
  obtain ⟨r, hr⟩ : ∃ r, r = √((V1 - 2 * sin v) ^ 2 + (V2 + 2 - 2 * cos v) ^ 2) := ⟨_, rfl⟩
  rw [← hr] at e1 e2 ⊢
  have hr0 : 0 ≤ r := by rw [hr]; positivity
  have hr2 : 2 ≤ r := by nlinarith [cos_le_one t]
  -- the last turn is not negative
  have hlast : 0 ≤ π / 2 - t + v := by
    by_contra hneg
    have hneg : π / 2 - t < -v := by linarith
    have c1 : cos t = sin (π / 2 - t) := (sin_pi_div_two_sub t).symm
    have c2 : sin (π / 2 - t) ≤ π / 2 - t := sin_le (by linarith)
    have c3 : cos t < 1 / 1000 := by rw [c1]; linarith
    have c4 : |sin v| ≤ 1 := abs_sin_le_one v
    have c5 := abs_le.1 c4
    have c6 : r * sin t ≤ 4 := by linarith
    have c7 := sin_sq_add_cos_sq t
    have c8 : 0 ≤ sin t := sin_nonneg_of_nonneg_of_le_pi t0 (by linarith)
    have c9 : 0 ≤ cos t := cos_nonneg_of_neg_pi_div_two_le_of_le (by linarith) t1.le
    have c10 : 1 / 2 ≤ sin t := by nlinarith
    have c11 : r ≤ 8 := by nlinarith
    have : r * cos t ≤ 8 * (1 / 1000) := mul_le_mul c11 c3.le c9 (by norm_num)
    linarith
  have key : Hits [(1, t), (-1, -(π / 2)), (0, -(r - 2)), (-1, -(π / 2 - t + v))] x (-y) (-phi) := by
    rw [hits_LRSR, sin_neg, cos_neg]
    refine ⟨?_, ?_, ?_⟩
    · linarith
    · linarith
    · obtain ⟨n, hn⟩ := h3
      exact ⟨-n + 1, by push_cast; linarith⟩
  have := (sym_LRSR ⟨by linarith [RS_ZERO_pos], by linarith⟩ (by linarith) ⟨by linarith [RS_ZERO_pos], by linarith⟩ key).mirror
  rw [abs_of_nonneg t0, abs_of_nonneg hlast] at this
  exact this.mono (by linarith)

/-- A goal of about opposite heading to the left, in front. -/
theorem around {x y phi v V1 V2 : ℝ} (h1 : x + sin phi = V1) (h2 : y - cos phi - 1 = V2)
    (h3 : AngleEq (π - v) phi) (hv : -RS_ZERO ≤ v) (hv2 : v ≤ π) (a0 : 0 ≤ V1) (a1 : V1 ≤ 2) (a2 : 2 ≤ V2) :
    RSSym x y phi (π + (√(V1 ^ 2 + V2 ^ 2) - 2) + |v|) := by
  have hs : sin phi = sin v := by rw [← h3.sin_eq, sin_pi_sub]
  have hc : cos phi = -cos v := by rw [← h3.cos_eq, cos_pi_sub]
  have hz := RS_ZERO_lt
  have hpi := pi_gt_three
  obtain ⟨g, g0, g1, e1, e2⟩ := polar_q a0 (show 0 < V2 by linarith)
  obtain ⟨r, hr⟩ : ∃ r, r = √(V1 ^ 2 + V2 ^ 2) := ⟨_, rfl⟩
  have hrsq : r ^ 2 = V1 ^ 2 + V2 ^ 2 := by rw [hr, sq_sqrt (by positivity)]
  rw [← hr] at e1 e2 ⊢
  have hr0 : 0 ≤ r := by rw [hr]; positivity
  have hr2 : 2 ≤ r := by nlinarith [cos_le_one g]
  rcases le_total g v with hgv | hgv
  · -- left back, straight back, left back, right
    have key : Hits [(-1, -(π / 2 + g)), (0, -(r - 2)), (-1, -(π / 2)), (1, v - g)] x (-y) (-phi) := by
      have hh := hits_iff (ws := [(-1, -(π / 2 + g)), (0, -(r - 2)), (-1, -(π / 2)), (1, v - g)]) (A := r * sin g) (a := 1)
        (B := -(r * cos g) - 1) (b := -1) (H := π + v) (by
          simp only [uEnd, uStep]
          have q1 : 0 + -1 * -(π / 2 + g) = g + π / 2 := by ring
          have q2 : 0 + -1 * -(π / 2 + g) + 0 * -(r - 2) = g + π / 2 := by ring
          have q3 : 0 + -1 * -(π / 2 + g) + 0 * -(r - 2) + -1 * -(π / 2) = g + π := by ring
          have q4 : 0 + -1 * -(π / 2 + g) + 0 * -(r - 2) + -1 * -(π / 2) + 1 * (v - g) = π + v := by ring
          rw [q4, q3, q2, q1]
          ext <;> simp only [sin_add_pi_div_two, cos_add_pi_div_two, sin_add_pi, cos_add_pi] <;> simp <;> ring)
        (x := x) (y := -y) (phi := -phi)
      rw [hh, sin_neg, cos_neg]
      refine ⟨by linarith, by linarith, ?_⟩
      obtain ⟨n, hn⟩ := h3
      exact ⟨-n + 1, by push_cast; linarith⟩
    have := (sym_LRSRb ⟨by linarith [RS_ZERO_pos], by linarith⟩ (by linarith) ⟨by linarith [RS_ZERO_pos], by linarith⟩ key).mirror
    rw [abs_of_nonneg (by linarith : 0 ≤ v - g), abs_of_nonneg (by linarith : 0 ≤ π / 2 + g)] at this
    exact this.mono (by linarith [le_abs_self v])
  · have hsv : 2 * sin v ≤ V1 := by
      have : sin v ≤ sin g := sin_le_sin_of_le_of_le_pi_div_two (by linarith) g1.le hgv
      have hg0 : 0 ≤ sin g := sin_nonneg_of_nonneg_of_le_pi g0 (by linarith)
      nlinarith
    have := around_near h1 h2 h3 hv (by linarith) (by linarith) a1 a2
    apply this.mono
    have hle : √((V1 - 2 * sin v) ^ 2 + (V2 + 2 - 2 * cos v) ^ 2) ≤ r + (|v| - v) := by
      have hav : 0 ≤ |v| - v := by linarith [le_abs_self v]
      apply sqrt_le_iff.2 ⟨by linarith, ?_⟩
      have ex : (V1 - 2 * sin v) ^ 2 + (V2 + 2 - 2 * cos v) ^ 2
          = r ^ 2 + 8 * (1 - cos v) - 4 * r * (cos (g - v) - cos g) := by
        rw [cos_sub, hrsq]
        linear_combination 4 * sin_sq_add_cos_sq v - 4 * sin v * e1 + 4 * (1 - cos v) * e2
      rcases le_total 0 v with h0 | h0
      · rw [abs_of_nonneg h0, sub_self, add_zero, ex]
        have i1 : cos g ≤ cos (g - v) := cos_le_cos_of_nonneg_of_le_pi (by linarith) (by linarith) (by linarith)
        have i2 : 1 + cos g ≤ cos v + cos (g - v) := by
          have j1 : cos v + cos (g - v) = 2 * cos (g / 2) * cos (v - g / 2) := by
            rw [cos_add_cos, show (v + (g - v)) / 2 = g / 2 by ring, show (v - (g - v)) / 2 = v - g / 2 by ring]
          have j2 : 1 + cos g = 2 * cos (g / 2) * cos (g / 2) := by
            have := cos_two_mul (g / 2)
            rw [show 2 * (g / 2) = g by ring] at this
            linarith
          have j3 : 0 ≤ cos (g / 2) := cos_nonneg_of_neg_pi_div_two_le_of_le (by linarith) (by linarith)
          have j4 : cos (g / 2) ≤ cos (v - g / 2) := by
            rw [← cos_abs (v - g / 2)]
            apply cos_le_cos_of_nonneg_of_le_pi (abs_nonneg _) (by linarith)
            exact abs_le.2 ⟨by linarith, by linarith⟩
          rw [j1, j2]
          exact mul_le_mul_of_nonneg_left j4 (by linarith)
        nlinarith
      · rw [abs_of_nonpos h0, ex]
        have k1 : 1 - cos v ≤ v ^ 2 / 2 := by linarith [one_sub_sq_div_two_le_cos (x := v)]
        have k2 : cos g - cos (g - v) ≤ -v := by
          have l1 := cos_sub_cos g (g - v)
          have l2 : |sin ((g + (g - v)) / 2)| ≤ 1 := abs_sin_le_one _
          have l3 : |sin ((g - (g - v)) / 2)| ≤ |(g - (g - v)) / 2| := abs_sin_le_abs
          have l4 : |cos g - cos (g - v)| ≤ 2 * (1 * |(g - (g - v)) / 2|) := by
            rw [l1, abs_mul, abs_mul, abs_neg, abs_of_pos (by norm_num : (0:ℝ) < 2), mul_assoc]
            have := mul_le_mul l2 l3 (abs_nonneg _) zero_le_one
            linarith
          rw [show (g - (g - v)) / 2 = v / 2 by ring, abs_of_nonpos (by linarith : v / 2 ≤ 0)] at l4
          linarith [le_abs_self (cos g - cos (g - v))]
        nlinarith
    linarith

/-! ### Words that start with half a turn -/

/-- `LSL` with a half turn first. -/
theorem half_LSL {x y phi u v : ℝ} (hu : 0 ≤ u) (hv : -RS_ZERO ≤ v) (hv2 : v < π / 2)
    (h : Hits [(1, π), (0, u), (1, v)] x y phi) : RSSym x y phi (π + u + |v|) := by
  rw [hits_LSL, cos_pi, sin_pi] at h
  obtain ⟨h1, h2, h3⟩ := h
  have hz := RS_ZERO_lt
  have hpi := pi_gt_three
  obtain ⟨t, t0, t1, e1, e2⟩ := polar_q hu (show (0:ℝ) < 2 by norm_num)
  obtain ⟨r, hr⟩ : ∃ r, r = √(u ^ 2 + 2 ^ 2) := ⟨_, rfl⟩
  rw [← hr] at e1 e2
  have hr0 : 0 ≤ r := by rw [hr]; positivity
  have hr2 : 2 ≤ r := by nlinarith [cos_le_one t]
  have hru : r ≤ u + 2 := by rw [hr]; exact sqrt_le_iff.2 ⟨by linarith, by nlinarith⟩
  have key : Hits [(1, t), (-1, -(π / 2)), (0, -(r - 2)), (-1, -(π / 2 - t + v))] (-x) (-y) phi := by
    rw [hits_LRSR]
    refine ⟨by linarith, by linarith, ?_⟩
    obtain ⟨n, hn⟩ := h3
    exact ⟨n, by linarith⟩
  have := (sym_LRSR ⟨by linarith [RS_ZERO_pos], by linarith⟩ (by linarith) ⟨by linarith, by linarith⟩ key).both
  rw [abs_of_nonneg t0] at this
  apply this.mono
  have : |π / 2 - t + v| ≤ (π / 2 - t) + |v| := by
    have := abs_add_le (π / 2 - t) v
    rwa [abs_of_nonneg (by linarith : 0 ≤ π / 2 - t)] at this
  linarith

theorem lsr_left_num {u v : ℝ} (hu : 0 ≤ u) (hv : -RS_ZERO ≤ v) (hv3 : v ≤ π / 3) (hsv : 0 ≤ u + 2 * sin v) :
    √((u + 2 * sin v) ^ 2 + (4 - 2 * cos v) ^ 2) ≤ u + 2 + (|v| + v) := by
  have hz := RS_ZERO_lt
  have hpi := pi_gt_three
  have hpi2 := pi_lt
  have hc1 := cos_le_one v
  have hav : 0 ≤ |v| + v := by linarith [neg_abs_le v]
  apply sqrt_le_iff.2 ⟨by linarith, ?_⟩
  have d0 := sin_sq_add_cos_sq v
  have e1 : (u + 2 * sin v) ^ 2 + (4 - 2 * cos v) ^ 2 = u ^ 2 + 4 * (u * sin v) + 4 + 16 * (1 - cos v) := by
    linear_combination 4 * d0
  rw [e1]
  rcases le_total 0 v with h0 | h0
  · rw [abs_of_nonneg h0]
    have d1 : sin v ≤ v := sin_le h0
    have d2 : 1 - cos v ≤ v ^ 2 / 2 := by linarith [one_sub_sq_div_two_le_cos (x := v)]
    have d3 : u * sin v ≤ u * v := mul_le_mul_of_nonneg_left d1 hu
    have d4 : v ^ 2 ≤ 2 * v := by
      have := mul_le_mul_of_nonneg_right (by linarith : v ≤ 2) h0
      linarith [sq v]
    have e2 : (u + 2 + (v + v)) ^ 2 = u ^ 2 + 4 + 4 * v ^ 2 + 4 * u + 4 * (u * v) + 8 * v := by ring
    linarith
  · rw [abs_of_nonpos h0]
    have d4 : 0 ≤ sin (-v) := sin_nonneg_of_nonneg_of_le_pi (by linarith) (by linarith)
    rw [sin_neg] at d4
    have d5 : 0 ≤ cos v := cos_nonneg_of_neg_pi_div_two_le_of_le (by linarith) (by linarith)
    have d6 : 1 - cos v ≤ sin v ^ 2 := by
      have := mul_nonneg (sub_nonneg.2 hc1) d5
      have e : (1 - cos v) * cos v = cos v - cos v ^ 2 := by ring
      linarith
    have d7 : 0 ≤ (u + 2 * sin v) * -sin v := mul_nonneg hsv d4
    have d8 : -sin v ≤ 1 := by linarith [neg_one_le_sin v]
    have d9 : u * -sin v ≤ u := mul_le_of_le_one_right hu d8
    have e2 : (u + 2 + (-v + v)) ^ 2 = u ^ 2 + 4 + 4 * u := by ring
    have e3 : (u + 2 * sin v) * -sin v = -(u * sin v) - 2 * sin v ^ 2 := by ring
    have e4 : u * -sin v = -(u * sin v) := by ring
    linarith

theorem lsr_right_num {u r a b D : ℝ} (hu : 0 ≤ u) (hr : r = √(u ^ 2 + 12)) (a0 : 0 < a) (a1 : a ≤ π / 2) (hb6 : b ≤ π / 6)
    (hab : b < a) (ea : 4 = D * sin a) (ea' : u = D * cos a) : r - 2 - u ≤ 2 * (a - b) := by
  have hpi := pi_gt_three
  rcases le_total u (9 / 2) with hu5 | hu5
  · have i1 : r ≤ 7 / 2 + u / 2 := by
      rw [hr]
      refine sqrt_le_iff.2 ⟨by linarith, ?_⟩
      have e : (7 / 2 + u / 2) ^ 2 - (u ^ 2 + 12) = (9 / 2 - u) * (3 / 4 * u) + (u + 2) / 8 := by ring
      have := mul_nonneg (sub_nonneg.2 hu5) (by linarith : 0 ≤ 3 / 4 * u)
      linarith
    have i2 : π / 2 - a ≤ u / 4 := by
      have j1 : sin (π / 2 - a) = cos a := sin_pi_div_two_sub a
      have j2 : cos (π / 2 - a) = sin a := cos_pi_div_two_sub a
      have hsa : 0 < sin a := sin_pos_of_pos_of_lt_pi a0 (by linarith)
      have hD : D ≠ 0 := by rintro rfl; norm_num at ea
      have j3 : tan (π / 2 - a) = u / 4 := by
        rw [tan_eq_sin_div_cos, j1, j2, ea', ea]
        field_simp
      rw [← j3]
      exact le_tan (by linarith) (by linarith)
    linarith
  · have i1 : r ≤ u + 2 := by
      rw [hr]
      refine sqrt_le_iff.2 ⟨by linarith, ?_⟩
      have e : (u + 2) ^ 2 = u ^ 2 + 4 * u + 4 := by ring
      linarith
    linarith

theorem half_LSR_back {x y phi u v : ℝ} (hu : 0 ≤ u) (hv : -RS_ZERO ≤ v) (hv2 : v ≤ π) (c1 : v < 0) (c2 : u ≤ 2 * sin (-v))
    (h : Hits [(1, π), (0, u), (-1, v)] x y phi) : RSSym x y phi (π + u + |v|) := by
  rw [hits_LSR, cos_pi, sin_pi] at h
  obtain ⟨h1, h2, h3⟩ := h
  have hz := RS_ZERO_lt
  have hz0 := RS_ZERO_pos
  have hpi := pi_gt_three
  have hpi2 := pi_lt
  have hs : sin phi = sin v := by rw [← h3.sin_eq, sin_pi_sub]
  have hc : cos phi = -cos v := by rw [← h3.cos_eq, cos_pi_sub]
  have hc1 := cos_le_one v
  rw [sin_neg] at c2
  have := around_near (x := x) (y := y) (phi := phi) (v := v) (V1 := -u) (V2 := 2) (by linarith) (by linarith) h3 hv
    (by linarith) (by linarith) (by linarith) le_rfl
  apply this.mono
  rw [abs_of_neg c1]
  have : √((-u - 2 * sin v) ^ 2 + (2 + 2 - 2 * cos v) ^ 2) ≤ 2 + 2 * -v := by
    apply sqrt_le_iff.2 ⟨by linarith, ?_⟩
    have d1 : sin (-v) ≤ -v := sin_le (by linarith)
    rw [sin_neg] at d1
    have d2 : 1 - cos v ≤ v ^ 2 / 2 := by linarith [one_sub_sq_div_two_le_cos (x := v)]
    have d3 : 0 ≤ -u - 2 * sin v := by linarith
    have d4 : -u - 2 * sin v ≤ 2 * -v := by linarith
    have d5 : (-u - 2 * sin v) ^ 2 ≤ (2 * -v) ^ 2 := by gcongr
    have d6 : (2 + 2 - 2 * cos v) ^ 2 ≤ (2 + v ^ 2) ^ 2 := by
      have : 0 ≤ 2 + 2 - 2 * cos v := by linarith
      gcongr; linarith
    have d7 : v ^ 2 ≤ -v := by nlinarith
    have d8 : (v ^ 2) ^ 2 ≤ -v := by nlinarith
    have e1 : (2 * -v) ^ 2 = 4 * v ^ 2 := by ring
    have e2 : (2 + v ^ 2) ^ 2 = 4 + 4 * v ^ 2 + (v ^ 2) ^ 2 := by ring
    have e3 : (2 + 2 * -v) ^ 2 = 4 + 8 * -v + 4 * v ^ 2 := by ring
    linarith
  linarith

theorem half_LSR_left {x y phi u v : ℝ} (hu : 0 ≤ u) (hv : -RS_ZERO ≤ v) (hv2 : v ≤ π) (c1 : ¬ (v < 0 ∧ u ≤ 2 * sin (-v)))
    (c2 : 2 ≤ 4 * cos v - u * sin v)
    (h : Hits [(1, π), (0, u), (-1, v)] x y phi) : RSSym x y phi (π + u + |v|) := by
  rw [hits_LSR, cos_pi, sin_pi] at h
  obtain ⟨h1, h2, h3⟩ := h
  have hz := RS_ZERO_lt
  have hz0 := RS_ZERO_pos
  have hpi := pi_gt_three
  have hpi2 := pi_lt
  have hs : sin phi = sin v := by rw [← h3.sin_eq, sin_pi_sub]
  have hc : cos phi = -cos v := by rw [← h3.cos_eq, cos_pi_sub]
  have hc1 := cos_le_one v
  have hsv : 0 ≤ u + 2 * sin v := by
    by_cases h0 : 0 ≤ v
    · have := sin_nonneg_of_nonneg_of_le_pi h0 hv2; linarith
    · push Not at c1 h0
      have := c1 h0
      rw [sin_neg] at this; linarith
  have hv3 : v ≤ π / 3 := by
    by_contra hcon
    push Not at hcon
    have d1 : cos v < 1 / 2 := by
      rw [← cos_pi_div_three]; exact cos_lt_cos_of_nonneg_of_le_pi (by linarith) hv2 hcon
    have d2 := sin_nonneg_of_nonneg_of_le_pi (by linarith : 0 ≤ v) hv2
    have := mul_nonneg hu d2
    linarith
  obtain ⟨t, t0, t1, e1, e2⟩ := polar_q hsv (show 0 < 4 - 2 * cos v by linarith)
  obtain ⟨r, hr⟩ : ∃ r, r = √((u + 2 * sin v) ^ 2 + (4 - 2 * cos v) ^ 2) := ⟨_, rfl⟩
  rw [← hr] at e1 e2
  have hr0 : 0 ≤ r := by rw [hr]; positivity
  have hr2 : 2 ≤ r := by nlinarith [cos_le_one t]
  have hlast : 0 ≤ π / 2 - t - v := by
    by_contra hneg
    push Not at hneg
    have d1 : cos (t + v) < 0 := cos_neg_of_pi_div_two_lt_of_lt (by linarith) (by linarith)
    have d2 : r * cos (t + v) = 4 * cos v - u * sin v - 2 := by
      rw [cos_add]
      linear_combination -cos v * e2 + sin v * e1 - 2 * sin_sq_add_cos_sq v
    nlinarith
  have key : Hits [(1, t), (-1, -(π / 2)), (0, -(r - 2)), (-1, -(π / 2 - t - v))] (-x) (-y) phi := by
    rw [hits_LRSR]
    refine ⟨by linarith, by linarith, ?_⟩
    obtain ⟨n, hn⟩ := h3
    exact ⟨n, by linarith⟩
  have := (sym_LRSR ⟨by linarith, by linarith⟩ (by linarith) ⟨by linarith, by linarith⟩ key).both
  rw [abs_of_nonneg t0, abs_of_nonneg hlast] at this
  apply this.mono
  have hr' : r ≤ u + 2 + (|v| + v) := by rw [hr]; exact lsr_left_num hu hv hv3 hsv
  linarith

theorem half_LSR_right {x y phi u v : ℝ} (hu : 0 ≤ u) (hv : -RS_ZERO ≤ v) (hv2 : v ≤ π) (c2 : 4 * cos v - u * sin v < 2)
    (h : Hits [(1, π), (0, u), (-1, v)] x y phi) : RSSym x y phi (π + u + |v|) := by
  rw [hits_LSR, cos_pi, sin_pi] at h
  obtain ⟨h1, h2, h3⟩ := h
  have hz := RS_ZERO_lt
  have hz0 := RS_ZERO_pos
  have hpi := pi_gt_three
  have hpi2 := pi_lt
  have hs : sin phi = sin v := by rw [← h3.sin_eq, sin_pi_sub]
  have hc : cos phi = -cos v := by rw [← h3.cos_eq, cos_pi_sub]
  have hc1 := cos_le_one v
  have hv0 : 0 < v := by
    by_contra h0
    push Not at h0
    have d4 : 0 ≤ sin (-v) := sin_nonneg_of_nonneg_of_le_pi (by linarith) (by linarith)
    rw [sin_neg] at d4
    have d2 : 1 - cos v ≤ v ^ 2 / 2 := by linarith [one_sub_sq_div_two_le_cos (x := v)]
    have d3 : v ^ 2 ≤ 1 := by nlinarith
    nlinarith
  obtain ⟨D, hD⟩ : ∃ D, D = √(u ^ 2 + 16) := ⟨_, rfl⟩
  have hDsq : D ^ 2 = u ^ 2 + 16 := by rw [hD, sq_sqrt (by positivity)]
  have hD0 : 0 ≤ D := by rw [hD]; positivity
  have hD4 : 4 ≤ D := by nlinarith
  obtain ⟨r, hr⟩ : ∃ r, r = √(u ^ 2 + 12) := ⟨_, rfl⟩
  have hrsq : r ^ 2 = u ^ 2 + 12 := by rw [hr, sq_sqrt (by positivity)]
  have hr0 : 0 ≤ r := by rw [hr]; positivity
  have hr2 : 2 ≤ r := by nlinarith
  -- the angles with 4 = D sin a, 2 = D sin b
  obtain ⟨a, a0, a1, ea, ea'⟩ : ∃ a, 0 < a ∧ a ≤ π / 2 ∧ 4 = D * sin a ∧ u = D * cos a := by
    obtain ⟨g, g0, g1, e1, e2⟩ := polar_q hu (show (0:ℝ) < 4 by norm_num)
    have : √(u ^ 2 + 4 ^ 2) = D := by rw [hD]; norm_num
    rw [this] at e1 e2
    exact ⟨π / 2 - g, by linarith, by linarith, by rw [sin_pi_div_two_sub]; exact e2,
      by rw [cos_pi_div_two_sub]; exact e1⟩
  obtain ⟨b, b0, b1, eb, eb'⟩ : ∃ b, 0 < b ∧ b < π / 2 ∧ 2 = D * sin b ∧ r = D * cos b := by
    obtain ⟨g, g0, g1, e1, e2⟩ := polar_q (show (0:ℝ) ≤ 2 by norm_num) (show 0 < r by linarith)
    have : √(2 ^ 2 + r ^ 2) = D := by rw [hD, hrsq]; congr 1; ring
    rw [this] at e1 e2
    refine ⟨g, ?_, g1, e1, e2⟩
    rcases g0.lt_or_eq with h | h
    · exact h
    · rw [← h, sin_zero] at e1; linarith
  have hab : b < a := by
    by_contra hcon
    push Not at hcon
    have := sin_le_sin_of_le_of_le_pi_div_two (by linarith) b1.le hcon
    nlinarith
  have hb6 : b ≤ π / 6 := by
    by_contra hcon
    push Not at hcon
    have d1 : sin (π / 6) < sin b := sin_lt_sin_of_lt_of_le_pi_div_two (by linarith) b1.le hcon
    rw [sin_pi_div_six] at d1
    nlinarith
  have hlast : 0 ≤ b - a + v := by
    by_contra hneg
    push Not at hneg
    have d1 : sin b < sin (a - v) := sin_lt_sin_of_lt_of_le_pi_div_two (by linarith) (by linarith) (by linarith)
    have d2 : D * sin (a - v) = 4 * cos v - u * sin v := by
      rw [sin_sub]; linear_combination -cos v * ea + sin v * ea'
    nlinarith
  have key : Hits [(1, π / 2 + b - a), (-1, -(π / 2)), (0, -(r - 2)), (1, -(b - a + v))] (-x) (-y) phi := by
    rw [hits_LRSL]
    have f1 : sin (π / 2 + b - a) = cos (a - b) := by
      rw [show π / 2 + b - a = π / 2 - (a - b) by ring, sin_pi_div_two_sub]
    have f2 : cos (π / 2 + b - a) = sin (a - b) := by
      rw [show π / 2 + b - a = π / 2 - (a - b) by ring, cos_pi_div_two_sub]
    rw [f1, f2, cos_sub, sin_sub]
    have s1 := sin_sq_add_cos_sq b
    refine ⟨?_, ?_, ?_⟩
    · have g1 : r * (cos a * cos b + sin a * sin b) - 2 * (sin a * cos b - cos a * sin b) = u := by
        rw [ea']
        linear_combination (cos a * cos b + sin a * sin b) * eb' - (sin a * cos b - cos a * sin b) * eb + D * cos a * s1
      linarith
    · have g2 : r * (sin a * cos b - cos a * sin b) + 2 * (cos a * cos b + sin a * sin b) = 4 := by
        rw [ea]
        linear_combination (sin a * cos b - cos a * sin b) * eb' + (cos a * cos b + sin a * sin b) * eb + D * sin a * s1
      linarith
    · obtain ⟨n, hn⟩ := h3
      exact ⟨n, by linarith⟩
  have := (sym_LRSL ⟨by linarith, by linarith⟩ (by linarith) ⟨by linarith, by linarith⟩ key).both
  rw [abs_of_nonneg (by linarith : 0 ≤ π / 2 + b - a), abs_of_nonneg hlast] at this
  apply this.mono
  rw [abs_of_pos hv0]
  have fin := lsr_right_num hu hr a0 a1 hb6 hab ea ea'
  linarith

/-- `LSR` with a half turn first. -/
theorem half_LSR {x y phi u v : ℝ} (hu : 0 ≤ u) (hv : -RS_ZERO ≤ v) (hv2 : v ≤ π)
    (h : Hits [(1, π), (0, u), (-1, v)] x y phi) : RSSym x y phi (π + u + |v|) := by
  by_cases c1 : v < 0 ∧ u ≤ 2 * sin (-v)
  · exact half_LSR_back hu hv hv2 c1.1 c1.2 h
  by_cases c2 : 2 ≤ 4 * cos v - u * sin v
  · exact half_LSR_left hu hv hv2 c1 c2 h
  · exact half_LSR_right hu hv hv2 (not_le.1 c2) h

/-- `LRLRm` with a half turn first. -/
theorem half_LRLRm {x y phi u v : ℝ} (hu : 0 ≤ u) (hu2 : u ≤ π / 2) (hv : -RS_ZERO ≤ v) (hv2 : v ≤ π)
    (h : Hits [(1, π), (-1, -u), (1, -u), (-1, v)] x y phi) : RSSym x y phi (π + 2 * u + |v|) := by
  rw [hits_LRLRm, cos_pi, sin_pi, sub_neg_eq_add, add_comm π u, sin_add_pi, cos_add_pi] at h
  obtain ⟨h1, h2, h3⟩ := h
  have hpi2 := pi_lt
  have hs0 : 0 ≤ sin u := sin_nonneg_of_nonneg_of_le_pi hu (by linarith [pi_pos])
  have hs1 := sin_le_one u
  have hc1 := cos_le_one u
  have := around (x := x) (y := y) (phi := phi) (v := v) (V1 := 2 * sin u) (V2 := 4 - 2 * cos u) (by linarith) (by linarith) h3
    hv hv2 (by linarith) (by linarith) (by linarith)
  apply this.mono
  have : √((2 * sin u) ^ 2 + (4 - 2 * cos u) ^ 2) ≤ 2 + 2 * u := by
    apply sqrt_le_iff.2 ⟨by linarith, ?_⟩
    have d2 : 1 - cos u ≤ u ^ 2 / 2 := by linarith [one_sub_sq_div_two_le_cos (x := u)]
    have d0 := sin_sq_add_cos_sq u
    nlinarith
  linarith

/-- `LRSLR` with a half turn first. -/
theorem half_LRSLR {x y phi u v : ℝ} (hu : -RS_ZERO ≤ u) (hv : -RS_ZERO ≤ v) (hv2 : v ≤ π)
    (h : Hits [(1, π), (-1, -(π / 2)), (0, -u), (1, -(π / 2)), (-1, v)] x y phi) :
    RSSym x y phi (π + π + |u| + |v|) := by
  rw [hits_LRSLR, cos_pi, sin_pi] at h
  obtain ⟨h1, h2, h3⟩ := h
  have hz := RS_ZERO_lt
  have hpi := pi_gt_three
  have := around (x := x) (y := y) (phi := phi) (v := v) (V1 := 2) (V2 := 4 + u) (by linarith) (by linarith) h3
    hv hv2 (by linarith) (by linarith) (by linarith)
  apply this.mono
  have : √((2:ℝ) ^ 2 + (4 + u) ^ 2) ≤ 5 + u := sqrt_le_iff.2 ⟨by linarith, by nlinarith⟩
  linarith [le_abs_self u]

/-- `LRLRp` with a half turn first. -/
theorem half_LRLRp {x y phi u v : ℝ} (hu : 0 ≤ u) (hu2 : u ≤ π / 3)
    (h : Hits [(1, π), (-1, u), (1, -u), (-1, -v)] x y phi) : RSSym x y phi (π + 2 * u + |v|) := by
  rw [hits_LRLRp, cos_pi, sin_pi, sin_pi_sub, cos_pi_sub, sin_pi_sub, cos_pi_sub, sin_two_mul, cos_two_mul] at h
  obtain ⟨h1, h2, h3⟩ := h
  have hpi := pi_gt_three
  have hs0 : 0 ≤ sin u := sin_nonneg_of_nonneg_of_le_pi hu (by linarith)
  have hc1 := cos_le_one u
  have hc0 : 1 / 2 ≤ cos u := by
    rw [← cos_pi_div_three]; exact cos_le_cos_of_nonneg_of_le_pi hu (by linarith) hu2
  obtain ⟨X, hX⟩ : ∃ X, X = x + sin phi := ⟨_, rfl⟩
  obtain ⟨Y, hY⟩ : ∃ Y, Y = y - cos phi + 1 := ⟨_, rfl⟩
  have eX : X = 2 * sin u * (2 * cos u - 1) := by linarith
  have eY : Y = 2 - 2 * cos u + 4 * cos u ^ 2 := by linarith
  have hY1 : 1 ≤ Y := by nlinarith
  obtain ⟨g, g0, g1, e1, e2⟩ := polar_q (X := X) (Y := Y) (by rw [eX]; exact mul_nonneg (by linarith) (by linarith)) (by linarith)
  obtain ⟨r, hr⟩ : ∃ r, r = √(X ^ 2 + Y ^ 2) := ⟨_, rfl⟩
  have hrsq : r ^ 2 = X ^ 2 + Y ^ 2 := by rw [hr, sq_sqrt (by positivity)]
  rw [← hr] at e1 e2
  have hr0 : 0 ≤ r := by rw [hr]; positivity
  have hrY : r ^ 2 ≤ 4 * Y := by
    have hs := sin_sq_add_cos_sq u
    have : r ^ 2 - 4 * Y = 16 * (cos u - 1) * cos u := by
      rw [hrsq, eX, eY]
      linear_combination 4 * (2 * cos u - 1) ^ 2 * hs
    nlinarith
  have hcg : cos g ≤ 1 := cos_le_one g
  have hr1 : 1 ≤ r := by nlinarith
  have hr4 : r ≤ 4 * cos g := by
    have : r * r ≤ r * (4 * cos g) := by nlinarith
    exact le_of_mul_le_mul_left this (by linarith)
  -- the middle turn
  obtain ⟨k, hk⟩ : ∃ k, k = arcsin (r / 4) := ⟨_, rfl⟩
  have hk1 : sin k = r / 4 := by rw [hk, sin_arcsin (by linarith) (by linarith)]
  have hk0 : 0 < k := by rw [hk]; exact arcsin_pos.2 (by linarith)
  have hk2 : k ≤ π / 2 := by rw [hk]; exact arcsin_le_pi_div_two _
  have hkg : k ≤ π / 2 - g := by
    by_contra hcon
    push Not at hcon
    have := sin_lt_sin_of_lt_of_le_pi_div_two (by linarith) hk2 hcon
    rw [sin_pi_div_two_sub, hk1] at this
    linarith
  have key : Hits [(1, π / 2 - g - k), (-1, -(2 * k)), (1, π - 2 * u + v - (π / 2 - g) - k)] (-x) (-y) phi := by
    rw [hits_LRL]
    have f1 : sin (π / 2 - g - k) = cos (g + k) := by
      rw [show π / 2 - g - k = π / 2 - (g + k) by ring, sin_pi_div_two_sub]
    have f2 : cos (π / 2 - g - k) = sin (g + k) := by
      rw [show π / 2 - g - k = π / 2 - (g + k) by ring, cos_pi_div_two_sub]
    have f3 : sin (π / 2 - g - k - -(2 * k)) = cos (g - k) := by
      rw [show π / 2 - g - k - -(2 * k) = π / 2 - (g - k) by ring, sin_pi_div_two_sub]
    have f4 : cos (π / 2 - g - k - -(2 * k)) = sin (g - k) := by
      rw [show π / 2 - g - k - -(2 * k) = π / 2 - (g - k) by ring, cos_pi_div_two_sub]
    rw [f1, f2, f3, f4, cos_add, sin_add, cos_sub, sin_sub, hk1]
    refine ⟨by linarith, by linarith, ?_⟩
    obtain ⟨n, hn⟩ := h3
    exact ⟨n, by linarith⟩
  have := (sym_LRL ⟨by linarith [RS_ZERO_pos], by linarith⟩ (by linarith) (by linarith) key).both
  rw [abs_of_nonneg (by linarith : 0 ≤ π / 2 - g - k)] at this
  apply this.mono
  have : |π - 2 * u + v - (π / 2 - g) - k| ≤ |v| + (π / 2 + g - k + 2 * u) := by
    have h5 := neg_abs_le v
    have h6 := le_abs_self v
    exact abs_le.2 ⟨by linarith, by linarith⟩
  linarith

end SF
