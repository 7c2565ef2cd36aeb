import Verif.Lemmas.RSSpace

/-!
# Some Reeds-Shepp word is accepted for every goal
-/

noncomputable section

namespace SF

open Real Spec

theorem atan2_nonneg_iff {y x : ℝ} : 0 ≤ atan2 y x ↔ 0 ≤ y := by
  unfold atan2; rw [Complex.arg_nonneg_iff]

theorem atan2_abs_lt {y x : ℝ} (hx : 0 < x) : |atan2 y x| < π / 2 := by
  unfold atan2; exact Complex.abs_arg_lt_pi_div_two_iff.2 (Or.inl hx)

theorem RS_ZERO_pos : 0 < RS_ZERO := by unfold RS_ZERO; norm_num

theorem pify_of_mem' {a b : ℝ} (h : AngleEq a b) (h1 : -π < b) (h2 : b < π) : pify a = b :=
  pify_eq h h1 h2

/-- Some word used below is accepted. -/
def RSAcc (x y phi : ℝ) : Prop :=
  (LpSpLp x y phi).ok ∨ (LpSpRp x y phi).ok ∨ (LpRmL x y phi).ok ∨
  (LpRmL (rsXb x y phi) (rsYb x y phi) phi).ok ∨ (LpRmSmRm x y phi).ok ∨
  (LpRmSmRm (rsXb x y phi) (rsYb x y phi) phi).ok

/-- `RSAcc` for one of the four symmetric goals. -/
def RSFull (x y phi : ℝ) : Prop :=
  RSAcc x y phi ∨ RSAcc (-x) y (-phi) ∨ RSAcc x (-y) (-phi) ∨ RSAcc (-x) (-y) phi

theorem RSFull.flip {x y phi : ℝ} (h : RSFull (-x) y (-phi)) : RSFull x y phi := by
  unfold RSFull at *; simp only [neg_neg] at h; tauto

theorem RSFull.mirror {x y phi : ℝ} (h : RSFull x (-y) (-phi)) : RSFull x y phi := by
  unfold RSFull at *; simp only [neg_neg] at h; tauto

theorem rsXb_flip (x y phi : ℝ) : rsXb (-x) y (-phi) = -rsXb x y phi := by
  unfold rsXb; rw [cos_neg, sin_neg]; ring
theorem rsYb_flip (x y phi : ℝ) : rsYb (-x) y (-phi) = rsYb x y phi := by
  unfold rsYb; rw [cos_neg, sin_neg]; ring
theorem rsXb_mirror (x y phi : ℝ) : rsXb x (-y) (-phi) = rsXb x y phi := by
  unfold rsXb; rw [cos_neg, sin_neg]; ring
theorem rsYb_mirror (x y phi : ℝ) : rsYb x (-y) (-phi) = -rsYb x y phi := by
  unfold rsYb; rw [cos_neg, sin_neg]; ring

theorem RSAcc.back {x y phi : ℝ} (h : (LpRmSmRm (rsXb x y phi) (rsYb x y phi) phi).ok ∨
    (LpRmL (rsXb x y phi) (rsYb x y phi) phi).ok) : RSAcc x y phi := by
  unfold RSAcc; tauto

/-- `LpRmL` is accepted on this range of directions. -/
theorem LpRmL_ok {x y phi : ℝ} (h4 : (polar (x - sin phi) (y - 1 + cos phi)).1 ≤ 4)
    (h1 : arcsin (0.25 * (polar (x - sin phi) (y - 1 + cos phi)).1) - π
      ≤ (polar (x - sin phi) (y - 1 + cos phi)).2)
    (h2 : (polar (x - sin phi) (y - 1 + cos phi)).2
      ≤ arcsin (0.25 * (polar (x - sin phi) (y - 1 + cos phi)).1)) : (LpRmL x y phi).ok := by
  have h0 := polar_nonneg (x - sin phi) (y - 1 + cos phi)
  have ha : 0 ≤ arcsin (0.25 * (polar (x - sin phi) (y - 1 + cos phi)).1) :=
    arcsin_nonneg.2 (by positivity)
  refine ⟨h4, ?_, ?_⟩
  · rw [pify_of_mem (by linarith [pi_pos]) (by linarith)]
    linarith [RS_ZERO_pos]
  · linarith [RS_ZERO_pos]

theorem polar_fst (x y : ℝ) : (polar x y).1 = √(x ^ 2 + y ^ 2) := by
  unfold polar; simp only; rw [pow_two, pow_two]

/-- The same vector seen after a rotation or reflection. -/
theorem polar_angle {x y r t : ℝ} (hr : 0 < r) (hx : x = r * cos t) (hy : y = r * sin t) :
    (polar x y).1 = r ∧ AngleEq (polar x y).2 t := by
  constructor
  · rw [polar_fst, hx, hy]
    have : (r * cos t) ^ 2 + (r * sin t) ^ 2 = r ^ 2 := by
      linear_combination r ^ 2 * sin_sq_add_cos_sq t
    rw [this, sqrt_sq hr.le]
  · rw [hx, hy]; exact atan2_polar hr t

theorem polar_snd_mem (x y : ℝ) : -π < (polar x y).2 ∧ (polar x y).2 ≤ π := atan2_mem y x

/-- If the left circles are close, one of the words `LpRmL`, `LpSpLp` is accepted. -/
theorem rs_close {x y phi : ℝ} (h4 : (polar (x - sin phi) (y - 1 + cos phi)).1 ≤ 4) :
    RSFull x y phi := by
  set r := (polar (x - sin phi) (y - 1 + cos phi)).1 with hr
  set th := (polar (x - sin phi) (y - 1 + cos phi)).2 with hth
  have hr0 : 0 ≤ r := polar_nonneg _ _
  have hc : r * cos th = x - sin phi := polar_cos _ _
  have hs : r * sin th = y - 1 + cos phi := polar_sin _ _
  have hm : -π < th ∧ th ≤ π := polar_snd_mem _ _
  set a := arcsin (0.25 * r) with ha
  have ha0 : 0 ≤ a := arcsin_nonneg.2 (by positivity)
  have ha1 : a ≤ π / 2 := arcsin_le_pi_div_two _
  have hpi := pi_pos
  rcases hr0.lt_or_eq with hpos | h0
  swap
  · -- the circles coincide
    left; right; right; left
    have hth0 : th = 0 := by
      have e1 : x - sin phi = 0 := by rw [← hc, ← h0]; ring
      have e2 : y - 1 + cos phi = 0 := by rw [← hs, ← h0]; ring
      rw [hth, e1, e2]; simp [polar, atan2]
      exact Complex.arg_zero
    have ha' : a = 0 := by rw [ha, ← h0]; simp
    apply LpRmL_ok h4
    · rw [← hr, ← ha, ← hth, hth0, ha']; linarith
    · rw [← hr, ← ha, ← hth, hth0, ha']
  have hapos : 0 < a := arcsin_pos.2 (by positivity)
  -- the result for any goal with the same circle distance
  have key : ∀ X Y F : ℝ, (polar (X - sin F) (Y - 1 + cos F)).1 = r →
      (LpRmL X Y F).ok ∨ (LpRmL (-X) Y (-F)).ok ∨
        (a < (polar (X - sin F) (Y - 1 + cos F)).2 ∧ (polar (X - sin F) (Y - 1 + cos F)).2 < π - a) := by
    intro X Y F hrr
    set t := (polar (X - sin F) (Y - 1 + cos F)).2 with ht
    have hc' : r * cos t = X - sin F := by rw [← hrr]; exact polar_cos _ _
    have hs' : r * sin t = Y - 1 + cos F := by rw [← hrr]; exact polar_sin _ _
    have hm' : -π < t ∧ t ≤ π := polar_snd_mem _ _
    by_cases c1 : a - π ≤ t ∧ t ≤ a
    · left
      apply LpRmL_ok
      · rw [hrr]; exact h4
      · rw [hrr]; exact c1.1
      · rw [hrr]; exact c1.2
    by_cases c2 : π - a ≤ t ∨ t ≤ -a
    · right; left
      have hp := polar_angle (x := -X - sin (-F)) (y := Y - 1 + cos (-F)) (t := π - t) hpos
        (by rw [cos_pi_sub, sin_neg]; linarith) (by rw [sin_pi_sub, cos_neg]; linarith)
      have hm'' := polar_snd_mem (-X - sin (-F)) (Y - 1 + cos (-F))
      obtain ⟨hp1, n, hn⟩ := hp
      apply LpRmL_ok
      · rw [hp1]; exact h4
      · rw [hp1, hn]
        rcases c2 with c2 | c2
        · have : n = 0 := by
            have h1 : ((-1 : ℤ) : ℝ) < n := by push_cast; nlinarith
            have h2 : (n : ℝ) < (1 : ℤ) := by push_cast; nlinarith
            have h1' := Int.cast_lt.1 h1
            have h2' := Int.cast_lt.1 h2
            omega
          rw [this]; push_cast; linarith
        · have : n = -1 := by
            have h1 : ((-2 : ℤ) : ℝ) < n := by push_cast; nlinarith
            have h2 : (n : ℝ) < (0 : ℤ) := by push_cast; nlinarith
            have h1' := Int.cast_lt.1 h1
            have h2' := Int.cast_lt.1 h2
            omega
          rw [this]; push_cast; linarith
      · rw [hp1, hn]
        rcases c2 with c2 | c2
        · have : n = 0 := by
            have h1 : ((-1 : ℤ) : ℝ) < n := by push_cast; nlinarith
            have h2 : (n : ℝ) < (1 : ℤ) := by push_cast; nlinarith
            have h1' := Int.cast_lt.1 h1
            have h2' := Int.cast_lt.1 h2
            omega
          rw [this]; push_cast; linarith
        · have : n = -1 := by
            have h1 : ((-2 : ℤ) : ℝ) < n := by push_cast; nlinarith
            have h2 : (n : ℝ) < (0 : ℤ) := by push_cast; nlinarith
            have h1' := Int.cast_lt.1 h1
            have h2' := Int.cast_lt.1 h2
            omega
          rw [this]; push_cast; linarith
    · right; right
      push Not at c2
      refine ⟨?_, c2.1⟩
      by_contra h
      exact c1 ⟨by linarith, not_lt.1 h⟩
  rcases key x y phi hr.symm with h | h | ⟨g1, g2⟩
  · left; unfold RSAcc; tauto
  · right; left; unfold RSAcc; tauto
  have hb := polar_angle (x := rsXb x y phi - sin phi) (y := rsYb x y phi - 1 + cos phi)
    (t := phi - th) hpos
    (by
      rw [cos_sub]; unfold rsXb
      linear_combination -cos phi * hc - sin phi * hs)
    (by
      rw [sin_sub]; unfold rsYb
      linear_combination -sin phi * hc + cos phi * hs + sin_sq_add_cos_sq phi)
  rcases key (rsXb x y phi) (rsYb x y phi) phi hb.1 with h | h | ⟨g3, g4⟩
  · left; exact RSAcc.back (Or.inr h)
  · right; left; apply RSAcc.back; right; rw [rsXb_flip, rsYb_flip]; exact h
  · left; left
    set tb := (polar (rsXb x y phi - sin phi) (rsYb x y phi - 1 + cos phi)).2
    refine ⟨?_, ?_⟩
    · change th ≥ -RS_ZERO; linarith [RS_ZERO_pos]
    · change pify (phi - th) ≥ -RS_ZERO
      rw [pify_eq hb.2.symm (by linarith) (by linarith)]
      linarith [RS_ZERO_pos]

/-- `LpRmSmRm` (or its time flip) is accepted if the goal heads away. -/
theorem rs_away {x y phi : ℝ} (h2 : 4 ≤ (x + sin phi) ^ 2 + (y - 1 - cos phi) ^ 2)
    (h : rsYb x y phi < -(1 + cos phi)) : (LpRmSmRm x y phi).ok ∨ (LpRmSmRm (-x) y (-phi)).ok := by
  have hsc := sin_sq_add_cos_sq phi
  have gen : ∀ X F : ℝ, 4 ≤ (X + sin F) ^ 2 + (y - 1 - cos F) ^ 2 → 0 ≤ X + sin F →
      (X + sin F) * sin F - (y - 1 - cos F) * cos F < 0 → (LpRmSmRm X y F).ok := by
    intro X F g1 g2 g3
    set r := (polar (-(y - 1 - cos F)) (X + sin F)).1 with hr
    set t := (polar (-(y - 1 - cos F)) (X + sin F)).2 with ht
    have hc : r * cos t = -(y - 1 - cos F) := polar_cos _ _
    have hs : r * sin t = X + sin F := polar_sin _ _
    have hrr : r * r = (-(y - 1 - cos F)) ^ 2 + (X + sin F) ^ 2 := polar_sq _ _
    have hr0 : 0 ≤ r := polar_nonneg _ _
    have hr2 : 2 ≤ r := by nlinarith
    have hz := RS_ZERO_pos
    refine ⟨hr2, ?_, ?_, ?_⟩
    · have : 0 ≤ t := atan2_nonneg_iff.2 g2
      change t ≥ -RS_ZERO; linarith
    · change 2 - r ≤ RS_ZERO; linarith
    · change pify (t + 0.5 * π - F) ≤ RS_ZERO
      set v := pify (t + 0.5 * π - F) with hv
      by_contra hcon
      have hv0 : 0 ≤ v := by linarith [not_le.1 hcon]
      have hs1 : 0 ≤ sin v := sin_nonneg_of_nonneg_of_le_pi hv0 (pify_le_pi _)
      have e : sin v = cos (t - F) := by
        rw [hv, sin_pify, ← sin_add_pi_div_two]; congr 1; ring
      rw [e, cos_sub] at hs1
      have : 0 ≤ r * (cos t * cos F + sin t * sin F) := by positivity
      have e2 : r * (cos t * cos F + sin t * sin F)
          = -(y - 1 - cos F) * cos F + (X + sin F) * sin F := by
        linear_combination cos F * hc + sin F * hs
      linarith
  unfold rsYb at h
  by_cases hx : 0 ≤ x + sin phi
  · left
    apply gen x phi h2 hx
    nlinarith
  · right
    apply gen (-x) (-phi)
    · rw [sin_neg, cos_neg]; nlinarith
    · rw [sin_neg]; linarith
    · rw [sin_neg, cos_neg]; nlinarith

/-- `LpSpRp` is accepted. -/
theorem rs_LSR {x y phi : ℝ} (hx : 0 < x + sin phi) (hxb : 0 < rsXb x y phi - sin phi)
    (h2 : 4 ≤ (x + sin phi) ^ 2 + (y - 1 - cos phi) ^ 2)
    (hy : -(1 - cos phi) ≤ y) (hyb : rsYb x y phi ≤ 1 - cos phi) : (LpSpRp x y phi).ok := by
  have hsc := sin_sq_add_cos_sq phi
  set r := (polar (x + sin phi) (y - 1 - cos phi)).1 with hr
  set t := (polar (x + sin phi) (y - 1 - cos phi)).2 with ht
  have hc : r * cos t = x + sin phi := polar_cos _ _
  have hs : r * sin t = y - 1 - cos phi := polar_sin _ _
  have hrr : r * r = (x + sin phi) ^ 2 + (y - 1 - cos phi) ^ 2 := polar_sq _ _
  have hr0 : 0 ≤ r := polar_nonneg _ _
  have hr2 : 2 ≤ r := by nlinarith
  have hz := RS_ZERO_pos
  have hpi := pi_pos
  set u := √(r * r - 4) with hu
  have hu0 : 0 ≤ u := sqrt_nonneg _
  set th := atan2 2 u with hth
  have hth0 : 0 < th := by
    have h1 : 0 ≤ th := atan2_nonneg_iff.2 (by norm_num)
    rcases h1.lt_or_eq with h1 | h1
    · exact h1
    · have := sqrt_mul_sin_atan2 2 u
      rw [← hth, ← h1, sin_zero] at this; norm_num at this
  have hth1 : th ≤ π / 2 := by
    have := (Complex.abs_arg_le_pi_div_two_iff (z := ⟨u, 2⟩)).2 hu0
    exact (abs_le.1 this).2
  have hsth : r * sin th = 2 := by
    have := sqrt_mul_sin_atan2 2 u
    have e : u ^ 2 + 2 ^ 2 = r ^ 2 := by rw [hu, sq_sqrt (by nlinarith)]; ring
    rw [e, sqrt_sq hr0, ← hth] at this; exact this
  have ht1 := abs_lt.1 (atan2_abs_lt (y := y - 1 - cos phi) hx)
  change -(π / 2) < t ∧ t < π / 2 at ht1
  have hge : -th ≤ t := by
    by_contra hcon
    have h1 : sin t < sin (-th) := sin_lt_sin_of_lt_of_le_pi_div_two ht1.1.le (by linarith)
      (not_le.1 hcon)
    rw [sin_neg] at h1
    nlinarith
  have htt : pify (t + th) = t + th := pify_of_mem (by linarith) (by linarith)
  set D := (polar (rsXb x y phi - sin phi) (rsYb x y phi + 1 + cos phi)).2 with hD
  have hpol := polar_angle (x := rsXb x y phi - sin phi) (y := rsYb x y phi + 1 + cos phi)
    (t := phi - t) (r := r) (by linarith)
    (by rw [cos_sub]; unfold rsXb; linear_combination -cos phi * hc - sin phi * hs)
    (by rw [sin_sub]; unfold rsYb
        linear_combination -sin phi * hc + cos phi * hs - hsc)
  have hD1 := abs_lt.1 (atan2_abs_lt (y := rsYb x y phi + 1 + cos phi) hxb)
  change -(π / 2) < D ∧ D < π / 2 at hD1
  have hle : D ≤ th := by
    by_contra hcon
    have h1 : sin th < sin D := sin_lt_sin_of_lt_of_le_pi_div_two (by linarith) hD1.2.le
      (not_le.1 hcon)
    have e : r * sin D = rsYb x y phi + 1 + cos phi := by
      rw [← hpol.1]; exact polar_sin _ _
    nlinarith
  refine ⟨?_, ?_, ?_⟩
  · change r * r ≥ 4; nlinarith
  · change pify (t + th) ≥ -RS_ZERO; rw [htt]; linarith
  · change pify (pify (t + th) - phi) ≥ -RS_ZERO
    rw [htt, pify_eq (b := th - D) _ (by linarith) (by linarith)]
    · linarith
    · obtain ⟨n, hn⟩ := hpol.2
      exact ⟨n, by rw [← hD] at hn; linarith⟩

/-- `LpSpLp` is accepted. -/
theorem rs_LSL {x y phi : ℝ} (hx : 0 < x - sin phi) (hxb : 0 < rsXb x y phi - sin phi)
    (hy : 1 - cos phi ≤ y) (hyb : 1 - cos phi ≤ rsYb x y phi) : (LpSpLp x y phi).ok := by
  have hsc := sin_sq_add_cos_sq phi
  set r := (polar (x - sin phi) (y - 1 + cos phi)).1 with hr
  set t := (polar (x - sin phi) (y - 1 + cos phi)).2 with ht
  have hc : r * cos t = x - sin phi := polar_cos _ _
  have hs : r * sin t = y - 1 + cos phi := polar_sin _ _
  have hz := RS_ZERO_pos
  have hr0 : 0 < r := by
    rcases (polar_nonneg (x - sin phi) (y - 1 + cos phi)).lt_or_eq with h | h
    · exact h
    · rw [← hr] at h; rw [← h] at hc; linarith
  have hpol := polar_angle (x := rsXb x y phi - sin phi) (y := rsYb x y phi - 1 + cos phi)
    (t := phi - t) hr0
    (by rw [cos_sub]; unfold rsXb; linear_combination -cos phi * hc - sin phi * hs)
    (by rw [sin_sub]; unfold rsYb
        linear_combination -sin phi * hc + cos phi * hs + hsc)
  have hD1 := abs_lt.1 (atan2_abs_lt (y := rsYb x y phi - 1 + cos phi) hxb)
  have hD0 : 0 ≤ atan2 (rsYb x y phi - 1 + cos phi) (rsXb x y phi - sin phi) :=
    atan2_nonneg_iff.2 (by linarith)
  have hpi := pi_pos
  refine ⟨?_, ?_⟩
  · have : 0 ≤ t := atan2_nonneg_iff.2 (by linarith)
    change t ≥ -RS_ZERO; linarith
  · change pify (phi - t) ≥ -RS_ZERO
    rw [pify_eq (b := atan2 (rsYb x y phi - 1 + cos phi) (rsXb x y phi - sin phi)) hpol.2.symm
      (by linarith) (by linarith)]
    linarith

theorem RSFull.away {x y phi : ℝ} (h2 : 4 ≤ (x + sin phi) ^ 2 + (y - 1 - cos phi) ^ 2)
    (h : rsYb x y phi < -(1 + cos phi)) : RSFull x y phi := by
  rcases rs_away h2 h with h | h
  · left; unfold RSAcc; tauto
  · right; left; unfold RSAcc; tauto

theorem RSFull.awayb {x y phi : ℝ}
    (h2 : 4 ≤ (rsXb x y phi + sin phi) ^ 2 + (rsYb x y phi - 1 - cos phi) ^ 2)
    (h : y < -(1 + cos phi)) : RSFull x y phi := by
  rcases rs_away h2 (by rw [rsYb_invol]; exact h) with h | h
  · left; exact RSAcc.back (Or.inl h)
  · right; left; apply RSAcc.back; left; rw [rsXb_flip, rsYb_flip]; exact h

/-- Facing backwards on the axis. -/
theorem rs_behind {X F : ℝ} (hX : 0 < X) (hX2 : 12 < X ^ 2) (hF : AngleEq F π) :
    (LpRmSmRm X 0 F).ok := by
  have e1 : sin F = 0 := by rw [hF.sin_eq, sin_pi]
  have e2 : cos F = -1 := by rw [hF.cos_eq, cos_pi]
  have hp := polar_angle (x := -(0 - 1 - cos F)) (y := X + sin F) (r := X) (t := π / 2) hX
    (by rw [e2, cos_pi_div_two]; ring) (by rw [e1, sin_pi_div_two]; ring)
  have hm := polar_snd_mem (-(0 - 1 - cos F)) (X + sin F)
  have hpi := pi_pos
  have hz := RS_ZERO_pos
  have ht : (polar (-(0 - 1 - cos F)) (X + sin F)).2 = π / 2 := by
    obtain ⟨n, hn⟩ := hp.2
    rw [hn] at hm
    have : n = 0 := by
      have h1 : ((-1 : ℤ) : ℝ) < n := by push_cast; nlinarith
      have h2 : (n : ℝ) < (1 : ℤ) := by push_cast; nlinarith
      have h1' := Int.cast_lt.1 h1
      have h2' := Int.cast_lt.1 h2
      omega
    rw [hn, this]; simp
  refine ⟨?_, ?_, ?_, ?_⟩
  · rw [hp.1]; nlinarith
  · change (polar (-(0 - 1 - cos F)) (X + sin F)).2 ≥ -RS_ZERO; rw [ht]; linarith
  · rw [hp.1]; nlinarith
  · change pify ((polar (-(0 - 1 - cos F)) (X + sin F)).2 + 0.5 * π - F) ≤ RS_ZERO
    rw [ht, pify_eq (b := 0) _ (by linarith) hpi]
    · exact hz.le
    · exact ((AngleEq.refl _).sub hF).trans (AngleEq.of_eq (by ring))

/-- The goal is ahead, with similar heading. -/
theorem rs_ahead {X Y F c : ℝ} (hcF : cos F = c) (hX : 0 < X) (hX2 : 13 - c ^ 2 < X ^ 2)
    (hY : |Y| ≤ 1 + c) (hc6 : 0.64 ≤ c) : RSFull X Y F := by
  have hc1 : c ≤ 1 := hcF ▸ cos_le_one F
  have hcneg : 0 ≤ c := by linarith
  have hscF := sin_sq_add_cos_sq F
  set S := sin F with hS
  rw [hcF] at hscF
  have hS1 : |S| < 0.8 := by
    apply abs_lt_of_sq_lt_sq _ (by norm_num); nlinarith
  obtain ⟨hS2, hS3⟩ := abs_lt.1 hS1
  have hX3 : 3 < X := by nlinarith
  obtain ⟨hY1, hY2⟩ := abs_le.1 hY
  have hXb : S < rsXb X Y F ∧ -S < rsXb X Y F := by
    have e : rsXb X Y F = X * c + Y * S := by unfold rsXb; rw [hcF]
    have h1 : |Y * S| ≤ (1 + c) * |S| := by
      rw [abs_mul]; exact mul_le_mul_of_nonneg_right hY (abs_nonneg _)
    have h2 := abs_le.1 h1
    have hpoly : 1 + c - 4 * c ^ 2 - c ^ 3 < 0 := by
      have : 0 ≤ c ^ 3 := by positivity
      have : (0.64 : ℝ) ^ 2 ≤ c ^ 2 := pow_le_pow_left₀ (by norm_num) hc6 2
      nlinarith
    have h3 : (2 + c) * |S| < X * c := by
      apply lt_of_pow_lt_pow_left₀ 2 (by positivity)
      have e1 : ((2 + c) * |S|) ^ 2 = (2 + c) ^ 2 * (1 - c ^ 2) := by
        rw [mul_pow, sq_abs]; linear_combination (2 + c) ^ 2 * hscF
      have e2 : (13 - c ^ 2) * c ^ 2 ≤ (X * c) ^ 2 := by
        rw [mul_pow]; exact mul_le_mul_of_nonneg_right hX2.le (sq_nonneg _)
      rw [e1]; linarith
    rw [e]
    have h7 := neg_abs_le S
    have h8 := le_abs_self S
    constructor <;> linarith
  have hd1 : 4 ≤ (X + S) ^ 2 + (Y - 1 - c) ^ 2 := by nlinarith
  have hd2 : 4 ≤ (X - S) ^ 2 + (Y + 1 + c) ^ 2 := by nlinarith
  have LSR : -(1 - c) ≤ Y → rsYb X Y F ≤ 1 - c → RSFull X Y F := by
    intro g1 g2
    left; right; left
    apply rs_LSR
    · rw [← hS]; linarith
    · rw [← hS]; linarith [hXb.1]
    · rw [← hS, hcF]; exact hd1
    · rw [hcF]; exact g1
    · rw [hcF]; exact g2
  have RSL : Y ≤ 1 - c → -(1 - c) ≤ rsYb X Y F → RSFull X Y F := by
    intro g1 g2
    right; right; left; right; left
    apply rs_LSR
    · rw [sin_neg, ← hS]; linarith
    · rw [rsXb_mirror, sin_neg, ← hS]; linarith [hXb.2]
    · rw [sin_neg, cos_neg, ← hS, hcF]; nlinarith
    · rw [cos_neg, hcF]; linarith
    · rw [rsYb_mirror, cos_neg, hcF]; linarith
  have LSL : 1 - c ≤ Y → 1 - c ≤ rsYb X Y F → RSFull X Y F := by
    intro g1 g2
    left; left
    apply rs_LSL
    · rw [← hS]; linarith
    · rw [← hS]; linarith [hXb.1]
    · rw [hcF]; exact g1
    · rw [hcF]; exact g2
  have RSR : Y ≤ -(1 - c) → rsYb X Y F ≤ -(1 - c) → RSFull X Y F := by
    intro g1 g2
    right; right; left; left
    apply rs_LSL
    · rw [sin_neg, ← hS]; linarith
    · rw [rsXb_mirror, sin_neg, ← hS]; linarith [hXb.2]
    · rw [cos_neg, hcF]; linarith
    · rw [rsYb_mirror, cos_neg, hcF]; linarith
  have hm : 0 ≤ 1 - c := by linarith
  rcases le_total (1 - c) Y with a | a
  · rcases le_total (1 - c) (rsYb X Y F) with b | b
    · exact LSL a b
    · exact LSR (by linarith) b
  · rcases le_total Y (-(1 - c)) with a' | a'
    · rcases le_total (rsYb X Y F) (-(1 - c)) with b | b
      · exact RSR a' b
      · exact RSL a b
    · rcases le_total (rsYb X Y F) (1 - c) with b | b
      · exact LSR a' b
      · exact RSL a (by linarith)

/-- One of the words is accepted, for every goal. -/
theorem rs_full (x y phi : ℝ) : RSFull x y phi := by
  have hsc := sin_sq_add_cos_sq phi
  by_cases c1 : (polar (x - sin phi) (y - 1 + cos phi)).1 ≤ 4
  · exact rs_close c1
  by_cases c2 : (polar (x - sin (-phi)) (-y - 1 + cos (-phi))).1 ≤ 4
  · exact (rs_close c2).mirror
  have q1 := polar_sq (x - sin phi) (y - 1 + cos phi)
  have q2 := polar_sq (x - sin (-phi)) (-y - 1 + cos (-phi))
  push Not at c1 c2
  rw [sin_neg, cos_neg] at q2 c2
  have p1 : 16 < (x - sin phi) ^ 2 + (y - 1 + cos phi) ^ 2 := by rw [← q1]; nlinarith
  have p2 : 16 < (x + sin phi) ^ 2 + (y + 1 - cos phi) ^ 2 := by
    have : (x - -sin phi) ^ 2 + (-y - 1 + cos phi) ^ 2
      = (x + sin phi) ^ 2 + (y + 1 - cos phi) ^ 2 := by ring
    rw [← this, ← q2]; nlinarith
  clear q1 q2 c1 c2
  set s := sin phi with hs
  set c := cos phi with hc
  have hc1 : c ≤ 1 := cos_le_one _
  have hcm : -1 ≤ c := neg_one_le_cos _
  have hxb : rsXb x y phi = x * c + y * s := rfl
  have hyb : rsYb x y phi = x * s - y * c := rfl
  -- cross circle distances
  have tri : ∀ a b p q : ℝ, p ^ 2 + q ^ 2 = 4 → 16 < (a + p) ^ 2 + (b + q) ^ 2 → 4 ≤ a ^ 2 + b ^ 2 := by
    intro a b p q h1 h2
    by_contra h
    push Not at h
    nlinarith [sq_nonneg (a - p), sq_nonneg (b - q)]
  have d1 : 4 ≤ (x + s) ^ 2 + (y - 1 - c) ^ 2 := by
    apply tri _ _ (-2 * s) (2 * c) (by nlinarith)
    have : (x + s + -2 * s) ^ 2 + (y - 1 - c + 2 * c) ^ 2 = (x - s) ^ 2 + (y - 1 + c) ^ 2 := by ring
    rw [this]; exact p1
  have d2 : 4 ≤ (x - s) ^ 2 + (y + 1 + c) ^ 2 := by
    apply tri _ _ (2 * s) (-2 * c) (by nlinarith)
    have : (x - s + 2 * s) ^ 2 + (y + 1 + c + -2 * c) ^ 2 = (x + s) ^ 2 + (y + 1 - c) ^ 2 := by ring
    rw [this]; exact p2
  have d1b : 4 ≤ (rsXb x y phi + s) ^ 2 + (rsYb x y phi - 1 - c) ^ 2 := by
    have : (rsXb x y phi + s) ^ 2 + (rsYb x y phi - 1 - c) ^ 2 = (x - s) ^ 2 + (y + 1 + c) ^ 2 := by
      rw [hxb, hyb]
      linear_combination (x ^ 2 + y ^ 2 + 2 * y) * hsc
    rw [this]; exact d2
  have d2b : 4 ≤ (rsXb x y phi - s) ^ 2 + (rsYb x y phi + 1 + c) ^ 2 := by
    have : (rsXb x y phi - s) ^ 2 + (rsYb x y phi + 1 + c) ^ 2 = (x + s) ^ 2 + (y - 1 - c) ^ 2 := by
      rw [hxb, hyb]
      linear_combination (x ^ 2 + y ^ 2 - 2 * y) * hsc
    rw [this]; exact d1
  by_cases e1 : rsYb x y phi < -(1 + c)
  · exact RSFull.away d1 e1
  by_cases e2 : -rsYb x y phi < -(1 + c)
  · apply RSFull.mirror
    apply RSFull.away
    · rw [sin_neg, cos_neg]
      have : (x + -s) ^ 2 + (-y - 1 - c) ^ 2 = (x - s) ^ 2 + (y + 1 + c) ^ 2 := by ring
      rw [← hs, ← hc, this]; exact d2
    · rw [rsYb_mirror, cos_neg]; exact e2
  by_cases e3 : y < -(1 + c)
  · exact RSFull.awayb d1b e3
  by_cases e4 : -y < -(1 + c)
  · apply RSFull.mirror
    apply RSFull.awayb
    · rw [rsXb_mirror, rsYb_mirror, sin_neg, cos_neg]
      have : (rsXb x y phi + -s) ^ 2 + (-rsYb x y phi - 1 - c) ^ 2
        = (rsXb x y phi - s) ^ 2 + (rsYb x y phi + 1 + c) ^ 2 := by ring
      rw [← hs, ← hc, this]; exact d2b
    · rw [cos_neg]; exact e4
  push Not at e1 e2 e3 e4
  rw [hyb] at e1 e2
  have hy2 : y ^ 2 ≤ (1 + c) ^ 2 := sq_le_sq' (by linarith) (by linarith)
  have hx2 : 13 - c ^ 2 < x ^ 2 := by linarith
  have hc2 : c ^ 2 ≤ 1 := by linarith [sq_nonneg s]
  have hx12 : 12 < x ^ 2 := by linarith
  have hxs : |x * s| ≤ (1 + c) * (1 + |c|) := by
    have h1 : |y * c| ≤ (1 + c) * |c| := by
      rw [abs_mul]; exact mul_le_mul_of_nonneg_right (abs_le.2 ⟨by linarith, by linarith⟩) (abs_nonneg _)
    have h2 : |x * s - y * c| ≤ 1 + c := abs_le.2 ⟨by linarith, by linarith⟩
    have h3 : x * s = (x * s - y * c) + y * c := by ring
    calc |x * s| ≤ |x * s - y * c| + |y * c| := by rw [h3]; simpa using abs_add_le (x * s - y * c) (y * c)
      _ ≤ _ := by linarith
  by_cases hcneg : c < 0
  · -- heading backwards
    have hs0 : s = 0 := by
      by_contra hne
      have hspos : 0 < |s| := abs_pos.2 hne
      rw [abs_of_neg hcneg, abs_mul] at hxs
      have h1 : (1 + c) * (1 + -c) = |s| * |s| := by rw [abs_mul_abs_self]; linarith
      rw [h1] at hxs
      have h2 : |x| ≤ |s| := le_of_mul_le_mul_right hxs hspos
      have h3 : |s| ≤ 1 := abs_sin_le_one phi
      have h4 : x ^ 2 ≤ 1 := (sq_le_one_iff_abs_le_one x).2 (h2.trans h3)
      linarith
    have hcm1 : c = -1 := by
      have : (c - 1) * (c + 1) = 0 := by rw [hs0] at hsc; linarith
      rcases mul_eq_zero.1 this with h | h <;> linarith
    have hy0 : y = 0 := by rw [hcm1] at e3 e4; linarith
    have hphi : AngleEq phi π := AngleEq.of_cos_sin (by rw [← hc, hcm1, cos_pi])
      (by rw [← hs, hs0, sin_pi])
    rw [hy0]
    rcases lt_or_ge 0 x with hx | hx
    · left; have := rs_behind hx hx12 hphi; unfold RSAcc; tauto
    · right; left
      have hxn : 0 < -x := by
        rcases hx.lt_or_eq with h | h
        · linarith
        · rw [h] at hx12; norm_num at hx12
      have := rs_behind (X := -x) (F := -phi) hxn (by rw [neg_sq]; exact hx12)
        (hphi.neg.trans ⟨-1, by push_cast; ring⟩)
      unfold RSAcc; tauto
  · push Not at hcneg
    rw [abs_of_nonneg hcneg] at hxs
    have hquad : 3 ≤ c ^ 2 + 4 * c := by
      have h1 : (x * s) ^ 2 ≤ ((1 + c) * (1 + c)) ^ 2 := by
        rw [← sq_abs]; exact pow_le_pow_left₀ (abs_nonneg _) hxs 2
      have h2 : s ^ 2 = (1 - c) * (1 + c) := by linarith
      have h3 : (13 - c ^ 2) * s ^ 2 ≤ x ^ 2 * s ^ 2 := mul_le_mul_of_nonneg_right hx2.le (sq_nonneg _)
      have h4 : (1 + c) * ((13 - c ^ 2) * (1 - c)) ≤ (1 + c) * (1 + c) ^ 3 := by
        rw [h2] at h3; rw [mul_pow, h2] at h1; linarith
      have h5 := le_of_mul_le_mul_left h4 (by linarith)
      linarith
    have hc6 : 0.64 ≤ c := by
      by_contra hcon
      push Not at hcon
      have : c ^ 2 ≤ 0.64 ^ 2 := pow_le_pow_left₀ hcneg hcon.le 2
      linarith
    have hYabs : |y| ≤ 1 + c := abs_le.2 ⟨by linarith, by linarith⟩
    rcases lt_or_ge 0 x with hx | hx
    · exact rs_ahead hc.symm hx hx2 hYabs hc6
    · have hxn : 0 < -x := by
        rcases hx.lt_or_eq with h | h
        · linarith
        · rw [h] at hx12; norm_num at hx12
      exact (rs_ahead (X := -x) (F := -phi) (by rw [cos_neg]) hxn
        (by rw [neg_sq]; exact hx2) hYabs hc6).flip

end SF
