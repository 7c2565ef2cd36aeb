import Verif.Lemmas.DubinsWords

/-!
# Selection of the shortest Dubins word, optimality within the words
-/

noncomputable section

namespace SF

open Real Spec

theorem dubinsPick_cases (st : ℝ × DPath) (tmp : DPath) :
    dubinsPick st tmp = st ∨ dubinsPick st tmp = (tmp.length, tmp) := by
  unfold dubinsPick; split_ifs <;> simp

theorem dubinsPick_le (st : ℝ × DPath) (tmp : DPath) (h : st.1 = st.2.length) :
    (dubinsPick st tmp).1 = (dubinsPick st tmp).2.length ∧
    (dubinsPick st tmp).2.length ≤ st.2.length ∧ (dubinsPick st tmp).2.length ≤ tmp.length := by
  unfold dubinsPick
  split_ifs with h1
  · exact ⟨rfl, by simp only; linarith, le_rfl⟩
  · exact ⟨h, le_rfl, by linarith⟩

/-- `dubins` without the shortcut returns one of the six candidates, none of which is shorter. -/
theorem dubins_min {d al be : ℝ} (hs : ¬ (d < DUBINS_EPS ∧ |al - be| < DUBINS_EPS)) :
    let cand := [dubinsLSL d al be, dubinsRSR d al be, dubinsRSL d al be, dubinsLSR d al be,
      dubinsRLR d al be, dubinsLRL d al be]
    dubins d al be ∈ cand ∧ ∀ c ∈ cand, (dubins d al be).length ≤ c.length := by
  intro cand
  unfold dubins
  rw [if_neg hs]
  simp only
  set s0 : ℝ × DPath := ((dubinsLSL d al be).length, dubinsLSL d al be)
  set s1 := dubinsPick s0 (dubinsRSR d al be) with e1
  set s2 := dubinsPick s1 (dubinsRSL d al be) with e2
  set s3 := dubinsPick s2 (dubinsLSR d al be) with e3
  set s4 := dubinsPick s3 (dubinsRLR d al be) with e4
  set s5 := dubinsPick s4 (dubinsLRL d al be) with e5
  obtain ⟨a1, b1, c1⟩ := dubinsPick_le s0 (dubinsRSR d al be) rfl
  rw [← e1] at a1 b1 c1
  obtain ⟨a2, b2, c2⟩ := dubinsPick_le s1 (dubinsRSL d al be) a1
  rw [← e2] at a2 b2 c2
  obtain ⟨a3, b3, c3⟩ := dubinsPick_le s2 (dubinsLSR d al be) a2
  rw [← e3] at a3 b3 c3
  obtain ⟨a4, b4, c4⟩ := dubinsPick_le s3 (dubinsRLR d al be) a3
  rw [← e4] at a4 b4 c4
  obtain ⟨a5, b5, c5⟩ := dubinsPick_le s4 (dubinsLRL d al be) a4
  rw [← e5] at a5 b5 c5
  constructor
  · have m0 : s0.2 ∈ cand := by simp [cand, s0]
    have m1 : s1.2 ∈ cand := by
      rcases dubinsPick_cases s0 (dubinsRSR d al be) with h | h
      · rw [e1, h]; exact m0
      · rw [e1, h]; simp [cand]
    have m2 : s2.2 ∈ cand := by
      rcases dubinsPick_cases s1 (dubinsRSL d al be) with h | h
      · rw [e2, h]; exact m1
      · rw [e2, h]; simp [cand]
    have m3 : s3.2 ∈ cand := by
      rcases dubinsPick_cases s2 (dubinsLSR d al be) with h | h
      · rw [e3, h]; exact m2
      · rw [e3, h]; simp [cand]
    have m4 : s4.2 ∈ cand := by
      rcases dubinsPick_cases s3 (dubinsRLR d al be) with h | h
      · rw [e4, h]; exact m3
      · rw [e4, h]; simp [cand]
    rcases dubinsPick_cases s4 (dubinsLRL d al be) with h | h
    · rw [e5, h]; exact m4
    · rw [e5, h]; simp [cand]
  · intro c hc
    simp only [cand, List.mem_cons, List.not_mem_nil, or_false] at hc
    have f0 : s0.2 = dubinsLSL d al be := rfl
    rw [f0] at b1
    rcases hc with rfl | rfl | rfl | rfl | rfl | rfl <;> linarith

theorem tmpLSL_nonneg (d al be : ℝ) : 0 ≤ tmpLSL d al be := by
  rw [tmpLSL_eq, cscTmp]; norm_num; positivity

theorem tmpRSR_nonneg (d al be : ℝ) : 0 ≤ tmpRSR d al be := by
  rw [tmpRSR_eq, cscTmp]; norm_num; positivity

theorem DUBINS_ZERO_neg : DUBINS_ZERO < 0 := by unfold DUBINS_ZERO; norm_num

theorem dubinsLSL_accepted (d al be : ℝ) : dubinsLSL d al be = pathLSL d al be := by
  unfold dubinsLSL
  rw [if_pos (le_trans DUBINS_ZERO_neg.le (tmpLSL_nonneg d al be))]

theorem dubinsRSR_accepted (d al be : ℝ) : dubinsRSR d al be = pathRSR d al be := by
  unfold dubinsRSR
  rw [if_pos (le_trans DUBINS_ZERO_neg.le (tmpRSR_nonneg d al be))]

theorem pathLSL_length_lt {d : ℝ} (hd : 0 ≤ d) (al be : ℝ) :
    (pathLSL d al be).length < 4 * π + d + 2 := by
  rw [pathLSL_eq]
  unfold DPath.length
  have h1 : cscT 1 1 d al be < 2 * π := twopify_lt _
  have h2 : cscQ 1 1 d al be < 2 * π := twopify_lt _
  have h3 : cscP 1 1 d al be ≤ d + 2 := by
    unfold cscP
    apply sqrt_le_iff.2 ⟨by linarith, ?_⟩
    apply max_le _ (by positivity)
    rw [← tmpLSL_eq, tmpLSL]
    have c1 : cos al * cos be + sin al * sin be = cos (al - be) := (cos_sub al be).symm
    rw [c1]
    nlinarith [neg_one_le_cos (al - be), sin_le_one al, neg_one_le_sin be, neg_one_le_sin al,
      sin_le_one be]
  simp only
  linarith

theorem dblMax_large : (10:ℝ) ^ 201 < dblMax := by
  refine lt_of_le_of_lt (pow_le_pow_right₀ (by norm_num) (by norm_num : 201 ≤ 300)) ?_
  unfold dblMax
  have h1 : (10:ℝ) ^ 300 = (10 ^ 3) ^ 100 := by rw [← pow_mul]
  have h2 : (2:ℝ) ^ 1023 = (2 ^ 10) ^ 100 * 2 ^ 23 := by rw [← pow_mul, ← pow_add]
  have h3 : ((10:ℝ) ^ 3) ^ 100 ≤ (2 ^ 10) ^ 100 := pow_le_pow_left₀ (by norm_num) (by norm_num) _
  have h4 : (0:ℝ) < (2 ^ 10) ^ 100 := by positivity
  rw [h1, h2]
  have h5 : (2:ℝ) ^ 23 = 8388608 := by norm_num
  have h6 : (1:ℝ) ≤ 2 - 2⁻¹ ^ 52 := by norm_num
  rw [h5]
  nlinarith

/-- Unless the distance is astronomically large, `dubins` returns an accepted word. -/
theorem dubins_accepted {d al be : ℝ} (hd0 : 0 ≤ d) (hd : d ≤ 10 ^ 200)
    (hs : ¬ (d < DUBINS_EPS ∧ |al - be| < DUBINS_EPS)) :
    dubins d al be = pathLSL d al be ∨ dubins d al be = pathRSR d al be ∨
    (DUBINS_ZERO ≤ tmpRSL d al be ∧ dubins d al be = pathRSL d al be) ∨
    (DUBINS_ZERO ≤ tmpLSR d al be ∧ dubins d al be = pathLSR d al be) ∨
    (|tmpRLR d al be| < 1 ∧ dubins d al be = pathRLR d al be) ∨
    (|tmpLRL d al be| < 1 ∧ dubins d al be = pathLRL d al be) := by
  obtain ⟨hmem, hle⟩ := dubins_min hs
  have hlt : (dubins d al be).length < dblMax := by
    have h1 := hle (dubinsLSL d al be) (by simp)
    rw [dubinsLSL_accepted] at h1
    have h2 := pathLSL_length_lt hd0 al be
    have h3 := dblMax_large
    have h6 := pi_le_four
    norm_num at h3 hd
    linarith
  have hdef : DPath.default.length = dblMax := by simp [DPath.default, DPath.length]
  simp only [List.mem_cons, List.not_mem_nil, or_false] at hmem
  rcases hmem with h | h | h | h | h | h
  · left; rw [h, dubinsLSL_accepted]
  · right; left; rw [h, dubinsRSR_accepted]
  · right; right; left
    unfold dubinsRSL at h
    split_ifs at h with h1
    · exact ⟨h1, h⟩
    · rw [h, hdef] at hlt; exact absurd hlt (lt_irrefl _)
  · right; right; right; left
    unfold dubinsLSR at h
    split_ifs at h with h1
    · exact ⟨h1, h⟩
    · rw [h, hdef] at hlt; exact absurd hlt (lt_irrefl _)
  · right; right; right; right; left
    unfold dubinsRLR at h
    split_ifs at h with h1
    · exact ⟨h1, h⟩
    · rw [h, hdef] at hlt; exact absurd hlt (lt_irrefl _)
  · right; right; right; right; right
    unfold dubinsLRL at h
    split_ifs at h with h1
    · exact ⟨h1, h⟩
    · rw [h, hdef] at hlt; exact absurd hlt (lt_irrefl _)

/-- In the tolerance zone of RSL or LSR. -/
def TangentZone (d al be : ℝ) : Prop :=
  (DUBINS_ZERO ≤ tmpRSL d al be ∧ tmpRSL d al be < 0) ∨
  (DUBINS_ZERO ≤ tmpLSR d al be ∧ tmpLSR d al be < 0)

/-- Every accepted word hits its target. -/
theorem dubins_hits {d al be eps : ℝ} (hd0 : 0 ≤ d) (hd : d ≤ 10 ^ 200)
    (hs : ¬ (d < DUBINS_EPS ∧ |al - be| < DUBINS_EPS))
    (hz : ¬ TangentZone d al be ∨ 1 / 10 ^ 9 ≤ eps) :
    (dubins d al be).Hits eps 0 d al be := by
  have hrsl : DUBINS_ZERO ≤ tmpRSL d al be → (0 ≤ cscTmp (-1) 1 d al be) ∨
      (DUBINS_ZERO ≤ cscTmp (-1) 1 d al be ∧ 1 / 10 ^ 9 ≤ eps) := by
    intro h
    rw [tmpRSL_eq] at h
    rcases hz with hz | hz
    · left
      by_contra hc
      exact hz (Or.inl ⟨by rw [tmpRSL_eq]; exact h, by rw [tmpRSL_eq]; exact not_le.1 hc⟩)
    · exact Or.inr ⟨h, hz⟩
  have hlsr : DUBINS_ZERO ≤ tmpLSR d al be → (0 ≤ cscTmp 1 (-1) d al be) ∨
      (DUBINS_ZERO ≤ cscTmp 1 (-1) d al be ∧ 1 / 10 ^ 9 ≤ eps) := by
    intro h
    rw [tmpLSR_eq] at h
    rcases hz with hz | hz
    · left
      by_contra hc
      exact hz (Or.inr ⟨by rw [tmpLSR_eq]; exact h, by rw [tmpLSR_eq]; exact not_le.1 hc⟩)
    · exact Or.inr ⟨h, hz⟩
  rcases dubins_accepted hd0 hd hs with h | h | ⟨h0, h⟩ | ⟨h0, h⟩ | ⟨h0, h⟩ | ⟨h0, h⟩
  · rw [h, pathLSL_eq]
    exact csc_hits (Or.inl rfl) (Or.inl rfl) rfl rfl rfl
      (Or.inl (by rw [← tmpLSL_eq]; exact tmpLSL_nonneg _ _ _))
  · rw [h, pathRSR_eq]
    exact csc_hits (Or.inr rfl) (Or.inr rfl) rfl rfl rfl
      (Or.inl (by rw [← tmpRSR_eq]; exact tmpRSR_nonneg _ _ _))
  · rw [h, pathRSL_eq]
    exact csc_hits (Or.inr rfl) (Or.inl rfl) rfl rfl rfl (hrsl h0)
  · rw [h, pathLSR_eq]
    exact csc_hits (Or.inl rfl) (Or.inr rfl) rfl rfl rfl (hlsr h0)
  · rw [h, pathRLR_eq]
    exact ccc_hits (Or.inr rfl) rfl (by simp [dubins_path_type, SegT.sign]) rfl
      (by rw [← tmpRLR_eq]; exact h0)
  · rw [h, pathLRL_eq]
    exact ccc_hits (Or.inl rfl) rfl (by simp [dubins_path_type, SegT.sign]) rfl
      (by rw [← tmpLRL_eq]; exact h0)

/-- Length ranges of the returned path. -/
theorem dubins_ranges {d al be : ℝ} (hd0 : 0 ≤ d) (hd : d ≤ 10 ^ 200) :
    let a := dubins d al be
    0 ≤ a.t ∧ a.t < 2 * π ∧ 0 ≤ a.p ∧ 0 ≤ a.q ∧ a.q < 2 * π ∧
      (a.type.2.1 ≠ .straight → π < a.p ∧ a.p < 2 * π) ∧ a.type.1 ≠ .straight ∧
      a.type.2.2 ≠ .straight := by
  intro a
  by_cases hs : d < DUBINS_EPS ∧ |al - be| < DUBINS_EPS
  · have : a = ⟨dubins_path_type 0, 0, d, 0⟩ := by simp only [a, dubins, if_pos hs]
    rw [this]
    have := two_pi_pos
    refine ⟨le_rfl, this, hd0, le_rfl, this, fun h => absurd rfl h, ?_, ?_⟩ <;>
      simp [dubins_path_type]
  · rcases dubins_accepted hd0 hd hs with h | h | ⟨h0, h⟩ | ⟨h0, h⟩ | ⟨h0, h⟩ | ⟨h0, h⟩
    · have : a = _ := h.trans (pathLSL_eq _ _ _)
      rw [this]
      refine ⟨twopify_nonneg _, twopify_lt _, sqrt_nonneg _, twopify_nonneg _, twopify_lt _,
        fun h => absurd rfl h, ?_, ?_⟩ <;> simp [dubins_path_type]
    · have : a = _ := h.trans (pathRSR_eq _ _ _)
      rw [this]
      refine ⟨twopify_nonneg _, twopify_lt _, sqrt_nonneg _, twopify_nonneg _, twopify_lt _,
        fun h => absurd rfl h, ?_, ?_⟩ <;> simp [dubins_path_type]
    · have : a = _ := h.trans (pathRSL_eq _ _ _)
      rw [this]
      refine ⟨twopify_nonneg _, twopify_lt _, sqrt_nonneg _, twopify_nonneg _, twopify_lt _,
        fun h => absurd rfl h, ?_, ?_⟩ <;> simp [dubins_path_type]
    · have : a = _ := h.trans (pathLSR_eq _ _ _)
      rw [this]
      refine ⟨twopify_nonneg _, twopify_lt _, sqrt_nonneg _, twopify_nonneg _, twopify_lt _,
        fun h => absurd rfl h, ?_, ?_⟩ <;> simp [dubins_path_type]
    · have : a = _ := h.trans (pathRLR_eq _ _ _)
      rw [tmpRLR_eq] at h0
      have hp := cccP_range h0
      rw [this]
      refine ⟨twopify_nonneg _, twopify_lt _, le_trans pi_pos.le hp.1.le, twopify_nonneg _,
        twopify_lt _, fun _ => hp, ?_, ?_⟩ <;> simp [dubins_path_type]
    · have : a = _ := h.trans (pathLRL_eq _ _ _)
      rw [tmpLRL_eq] at h0
      have hp := cccP_range h0
      rw [this]
      refine ⟨twopify_nonneg _, twopify_lt _, le_trans pi_pos.le hp.1.le, twopify_nonneg _,
        twopify_lt _, fun _ => hp, ?_, ?_⟩ <;> simp [dubins_path_type]

/-- A non-negative number congruent to `a` is at least `twopify a`. -/
theorem twopify_le {a t : ℝ} (ht : 0 ≤ t) (h : AngleEq t a) : twopify a ≤ t := by
  have h1 : twopify t = twopify a := twopify_congr h
  rw [← h1]
  unfold twopify
  have : 0 ≤ (⌊t / (2 * π)⌋ : ℝ) := by
    exact_mod_cast Int.floor_nonneg.2 (by positivity)
  have := mul_nonneg two_pi_pos.le this
  linarith

theorem AngleEq.mul_sign {e a b : ℝ} (he : e = 1 ∨ e = -1) (h : AngleEq a b) :
    AngleEq (e * a) (e * b) := by
  rcases he with rfl | rfl
  · simpa using h
  · simpa using h.neg

/-- Optimality within a CSC word. -/
theorem csc_optimal {e1 e3 d al be t p q : ℝ} (h1 : e1 = 1 ∨ e1 = -1) (h3 : e3 = 1 ∨ e3 = -1)
    (hd : 0 ≤ d) (hal0 : 0 ≤ al) (hal : al < 2 * π) (hbe0 : 0 ≤ be) (hbe : be < 2 * π)
    (hns : ¬ (d = 0 ∧ al = be))
    (ht : 0 ≤ t) (hp : 0 ≤ p) (hq : 0 ≤ q) (hb : AngleEq (al + e1 * t + e3 * q) be)
    (hx : p * cos (al + e1 * t) + (e1 - e3) * sin (al + e1 * t) = cscU e1 e3 d al be)
    (hy : p * sin (al + e1 * t) - (e1 - e3) * cos (al + e1 * t) = cscV e1 e3 al be) :
    0 ≤ cscTmp e1 e3 d al be ∧
    cscT e1 e3 d al be + cscP e1 e3 d al be + cscQ e1 e3 d al be ≤ t + p + q := by
  have hsc := sin_sq_add_cos_sq (al + e1 * t)
  have htmp : cscTmp e1 e3 d al be = p ^ 2 := by
    rw [cscTmp, ← hx, ← hy]
    linear_combination (p ^ 2 + (e1 - e3) ^ 2) * hsc
  have h0 : 0 ≤ cscTmp e1 e3 d al be := by rw [htmp]; positivity
  refine ⟨h0, ?_⟩
  have hP : cscP e1 e3 d al be = p := by
    rw [cscP, max_eq_left h0, htmp, sqrt_sq hp]
  have ee1 : e1 * e1 = 1 := by rcases h1 with rfl | rfl <;> norm_num
  have ee3 : e3 * e3 = 1 := by rcases h3 with rfl | rfl <;> norm_num
  by_cases hdeg : 0 < p ^ 2 + (e1 - e3) ^ 2
  · obtain ⟨c1, c2⟩ := csc_exact (cscP_sq h0)
    rw [hP] at c1 c2
    have hphi : AngleEq (al + e1 * t) (cscTh e1 e3 d al be) := by
      have := csc_unique hdeg hx hy c1 c2
      unfold cscTh; rw [hP]; exact this
    have t1 : cscT e1 e3 d al be ≤ t := by
      apply twopify_le ht
      have := AngleEq.mul_sign h1 (hphi.add_left (-al))
      refine (AngleEq.of_eq ?_).trans (this.trans (AngleEq.of_eq ?_))
      · linear_combination (-t) * ee1
      · ring
    have q1 : cscQ e1 e3 d al be ≤ q := by
      apply twopify_le hq
      have := AngleEq.mul_sign h3 (hb.sub hphi)
      refine (AngleEq.of_eq ?_).trans this
      linear_combination (-q) * ee3
    rw [hP]; linarith
  · have hz : p ^ 2 + (e1 - e3) ^ 2 = 0 := le_antisymm (not_lt.1 hdeg) (by positivity)
    have hp0 : p = 0 := by nlinarith [sq_nonneg p, sq_nonneg (e1 - e3)]
    have he : e1 = e3 := by nlinarith [sq_nonneg p, sq_nonneg (e1 - e3)]
    subst he
    rw [hp0] at hx hy
    have hU : cscU e1 e1 d al be = 0 := by rw [← hx]; ring
    have hV : cscV e1 e1 al be = 0 := by rw [← hy]; ring
    have hcos : cos be = cos al := by
      unfold cscV at hV
      have : e1 * (e1 * cos be - e1 * cos al) = 0 := by rw [hV]; ring
      linear_combination this - (cos be - cos al) * ee1
    have hP0 : cscP e1 e1 d al be = 0 := hP.trans hp0
    have hTh : cscTh e1 e1 d al be = 0 := by
      unfold cscTh
      rw [hU, hV, hP0]
      simp [atan2_zero_nonneg le_rfl]
    -- headings are opposite
    have hopp : AngleEq be (-al) ∧ ¬ AngleEq be al := by
      have hnal : ¬ AngleEq be al := by
        intro h
        have e := angleEq_eq_of_mem h hbe0 hbe hal0 hal
        apply hns
        refine ⟨?_, e.symm⟩
        unfold cscU at hU
        rw [e] at hU; linarith
      refine ⟨?_, hnal⟩
      have hs2 : sin be ^ 2 = sin al ^ 2 := by
        have a := sin_sq_add_cos_sq al
        have b := sin_sq_add_cos_sq be
        rw [hcos] at b; linarith
      rcases sq_eq_sq_iff_eq_or_eq_neg.1 hs2 with h | h
      · exact absurd (AngleEq.of_cos_sin hcos h) hnal
      · exact AngleEq.of_cos_sin (by rw [cos_neg, hcos]) (by rw [sin_neg, h])
    have hsin : sin be = - sin al := by rw [hopp.1.sin_eq, sin_neg]
    have hd2 : d = -2 * (e1 * sin al) := by
      unfold cscU at hU; rw [hsin] at hU; linarith
    have hsum : AngleEq (t + q) (e1 * (be - al)) := by
      have := AngleEq.mul_sign h1 (hb.add_right (-al))
      refine (AngleEq.of_eq ?_).trans (this.trans (AngleEq.of_eq ?_))
      · linear_combination (-t - q) * ee1
      · ring
    have key : cscT e1 e1 d al be + cscQ e1 e1 d al be ≤ t + q := by
      unfold cscT cscQ
      rw [hTh]
      have hQT : twopify (e1 * (be - 0)) = twopify (e1 * (0 - al)) := by
        apply twopify_congr
        exact AngleEq.mul_sign h1 (by simpa using hopp.1)
      rw [hQT]
      have hlt : twopify (e1 * (0 - al)) < π := by
        by_contra hc
        have hc := not_lt.1 hc
        have s1 : sin (twopify (e1 * (0 - al))) = - (e1 * sin al) := by
          rw [sin_twopify]
          rcases h1 with rfl | rfl <;> simp
        have s2 : sin (twopify (e1 * (0 - al))) ≤ 0 := by
          have h2 := twopify_lt (e1 * (0 - al))
          have := sin_nonneg_of_nonneg_of_le_pi (x := twopify (e1 * (0 - al)) - π) (by linarith)
            (by linarith)
          rw [sin_sub_pi] at this; linarith
        have s3 : d ≤ 0 := by rw [hd2]; linarith
        have s4 : d = 0 := le_antisymm s3 hd
        have s5 : sin al = 0 := by
          rw [s4] at hd2
          have : e1 * (e1 * sin al) = 0 := by
            have : e1 * sin al = 0 := by linarith
            rw [this]; ring
          linear_combination this - sin al * ee1
        apply hopp.2
        exact AngleEq.of_cos_sin hcos (by rw [hsin, s5]; simp)
      set w := twopify (e1 * (0 - al)) with hw
      have hw0 : 0 ≤ w := twopify_nonneg _
      have hwa : AngleEq w (e1 * (0 - al)) := twopify_angleEq _
      have : AngleEq (t + q) (w + w) := by
        refine hsum.trans ?_
        have hbb : AngleEq (e1 * be) (e1 * (0 - al)) :=
          AngleEq.mul_sign h1 (by simpa using hopp.1)
        have := (hbb.trans hwa.symm).add hwa.symm
        exact (AngleEq.of_eq (by ring)).trans this
      have h5 := twopify_le (by linarith : 0 ≤ t + q) this
      have h6 : twopify (w + w) = w + w := twopify_of_mem (by linarith) (by linarith)
      linarith
    rw [hP0, hp0]; linarith

/-- Optimality within a CCC word. -/
theorem ccc_optimal {e d al be t p q : ℝ} (he : e = 1 ∨ e = -1)
    (ht : 0 ≤ t) (hp1 : π < p) (hp2 : p < 2 * π) (hq : 0 ≤ q)
    (hb : AngleEq (al + e * t - e * p + e * q) be)
    (hx : 2 * e * (sin (al + e * t) - sin (al + e * t - e * p)) = cscU e e d al be)
    (hy : 2 * e * (cos (al + e * t - e * p) - cos (al + e * t)) = cscV e e al be) :
    |cccTmp e d al be| < 1 ∧
    cccT e d al be + cccP e d al be + cccQ e d al be ≤ t + p + q := by
  obtain ⟨a1, a2⟩ := ccc_sub e (al + e * t) p he
  rw [a1] at hx
  rw [a2] at hy
  have hsp : 0 < sin (p / 2) := by apply sin_pos_of_pos_of_lt_pi <;> linarith [pi_pos]
  have hsp1 : sin (p / 2) < 1 := by
    have h := sin_sq_add_cos_sq (p / 2)
    have hc : cos (p / 2) < 0 := by
      apply cos_neg_of_pi_div_two_lt_of_lt <;> linarith
    nlinarith
  have hee : e * e = 1 := by rcases he with rfl | rfl <;> norm_num
  have hss := sin_sq_add_cos_sq (al + e * t - e * p / 2)
  have htmp : cccTmp e d al be = 1 - 2 * sin (p / 2) ^ 2 := by
    rw [cccTmp, ← hx, ← hy]
    linear_combination (-2 * sin (p / 2) ^ 2) * hss
  have habs : |cccTmp e d al be| < 1 := by
    rw [htmp, abs_lt]; constructor <;> nlinarith
  refine ⟨habs, ?_⟩
  have hcosp : cos p = cccTmp e d al be := by
    rw [htmp]
    have := cos_two_mul (p / 2)
    have e2 : 2 * (p / 2) = p := by ring
    rw [e2] at this
    have := sin_sq_add_cos_sq (p / 2)
    linarith
  have hP : cccP e d al be = p := by
    unfold cccP
    rw [← hcosp]
    have h1 : cos p = cos (2 * π - p) := by rw [cos_two_pi_sub]
    rw [h1, arccos_cos (by linarith) (by linarith)]; ring
  have hmid : AngleEq (al + e * t - e * p / 2) (cccTh e d al be) := by
    unfold cccTh
    have hr : √(cscU e e d al be ^ 2 + cscV e e al be ^ 2) = 4 * sin (p / 2) := by
      rw [sqrt_eq_iff_mul_self_eq (by positivity) (by positivity), ← hx, ← hy]
      linear_combination (16 * sin (p / 2) ^ 2) * hss
    have b1 := sqrt_mul_cos_atan2 (cscV e e al be) (cscU e e d al be)
    have b2 := sqrt_mul_sin_atan2 (cscV e e al be) (cscU e e d al be)
    rw [hr] at b1 b2
    have h4 : (4 * sin (p / 2)) ≠ 0 := by positivity
    exact AngleEq.of_cos_sin (mul_left_cancel₀ h4 (hx.trans b1.symm))
      (mul_left_cancel₀ h4 (hy.trans b2.symm))
  have t1 : cccT e d al be ≤ t := by
    apply twopify_le ht
    rw [hP]
    have := AngleEq.mul_sign he (hmid.add_right (-al + e * p / 2))
    refine (AngleEq.of_eq ?_).trans (this.trans (AngleEq.of_eq ?_))
    · linear_combination (-t) * hee
    · linear_combination (p / 2) * hee
  have teq : AngleEq t (cccT e d al be) := by
    have h1 := (ccc_heading (d := d) (al := al) (be := be) he).1
    rw [hP] at h1
    have := AngleEq.mul_sign he ((hmid.trans h1.symm).add_right (-al + e * p / 2))
    refine (AngleEq.of_eq ?_).trans (this.trans (AngleEq.of_eq ?_))
    · linear_combination (-t) * hee
    · linear_combination (cccT e d al be) * hee
  have q1 : cccQ e d al be ≤ q := by
    apply twopify_le hq
    rw [hP]
    have := AngleEq.mul_sign he (hb.add_right (-al + e * p))
    have h2 := this.sub teq
    refine (AngleEq.of_eq ?_).trans (h2.trans (AngleEq.of_eq ?_))
    · linear_combination (-t - q) * hee
    · linear_combination p * hee
  rw [hP]; linarith

end SF
