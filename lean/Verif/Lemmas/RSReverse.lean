import Verif.Lemmas.RSCorner

/-!
# Reeds-Shepp words with turns of at most half a circle, and the reversed problem

The words of the families CSC, CCCC and CCSCC with turns of up to and including half a circle; then: every accepted
statement has a counterpart, of at most the same length, in the problem with start and goal exchanged.
-/

noncomputable section

namespace SF

open Real Spec Props

theorem CTurn.of_abs {a : ℝ} (h1 : -RS_ZERO ≤ a) (h2 : |a| ≤ π) : CTurn a := ⟨h1, (abs_le.1 h2).2⟩

theorem RSSym.back {x y phi L : ℝ} (h : RSSym (rsXb x y phi) (rsYb x y phi) phi L) : RSAny x y phi L := h.rev.any

theorem closed_LSL {x y phi t u v : ℝ} (ht : CTurn t) (hu : 0 ≤ u) (hv : CTurn v)
    (h : Hits [(1, t), (0, u), (1, v)] x y phi) : RSAny x y phi (|t| + u + |v|) := by
  have hpi := pi_pos
  have hz := RS_ZERO_pos
  rcases ht.cases with ht' | rfl
  · rcases hv.cases with hv' | rfl
    · exact opt_LSL ht' hu hv' h
    · rcases lt_or_ge t (π / 2) with hlt | hge
      · have hw : UnitW [(1, t), (0, u), (1, π)] := by
          intro w hw; simp only [List.mem_cons, List.not_mem_nil, or_false] at hw
          rcases hw with rfl | rfl | rfl <;> simp
        have := h.reverse' hw
        simp only [List.reverse_cons, List.reverse_nil, List.nil_append, List.cons_append] at this
        have := (half_LSL hu ht.1 hlt this).back
        rw [abs_of_pos hpi]
        exact this.mono (by linarith)
      · apply RSAny.flip
        rw [hits_LSL] at h
        obtain ⟨h1, h2, n, h3⟩ := h
        have key : Hits [(1, π - t), (0, u), (1, 0)] (-x) y (-phi) := by
          rw [hits_LSL, cos_pi_sub, sin_pi_sub, sin_neg, cos_neg]
          exact ⟨by linarith, by linarith, -n + 1, by push_cast; linarith⟩
        have := opt_LSL ⟨by linarith [ht.2], by linarith⟩ hu ⟨by linarith, hpi⟩ key
        rw [abs_zero, abs_of_nonneg (by linarith [ht.2])] at this
        rw [abs_of_pos hpi, abs_of_nonneg (by linarith : 0 ≤ t)]
        exact this.mono (by linarith)
  · rcases lt_or_ge v (π / 2) with hlt | hge
    · have := (half_LSL hu hv.1 hlt h).any
      rwa [abs_of_pos hpi]
    · apply RSAny.flip
      rw [hits_LSL, cos_pi, sin_pi] at h
      obtain ⟨h1, h2, n, h3⟩ := h
      have key : Hits [(1, 0), (0, u), (1, π - v)] (-x) y (-phi) := by
        rw [hits_LSL, cos_zero, sin_zero, sin_neg, cos_neg]
        exact ⟨by linarith, by linarith, -n + 1, by push_cast; linarith⟩
      have := opt_LSL ⟨by linarith, hpi⟩ hu ⟨by linarith [hv.2], by linarith⟩ key
      rw [abs_zero, abs_of_nonneg (by linarith [hv.2])] at this
      rw [abs_of_pos hpi, abs_of_nonneg (by linarith : 0 ≤ v)]
      exact this.mono (by linarith)

theorem closed_LSR {x y phi t u v : ℝ} (ht : CTurn t) (hu : 0 ≤ u) (hv : CTurn v)
    (h : Hits [(1, t), (0, u), (-1, v)] x y phi) : RSAny x y phi (|t| + u + |v|) := by
  have hpi := pi_pos
  rcases ht.cases with ht' | rfl
  · rcases hv.cases with hv' | rfl
    · exact opt_LSR ht' hu hv' h
    · have hw : UnitW [(1, t), (0, u), (-1, π)] := by
        intro w hw; simp only [List.mem_cons, List.not_mem_nil, or_false] at hw
        rcases hw with rfl | rfl | rfl <;> simp
      have h2 := h.reverse' hw
      simp only [List.reverse_cons, List.reverse_nil, List.nil_append, List.cons_append] at h2
      have h3 := Hits.mirror (x := rsXb x y phi) (y := -rsYb x y phi) (phi := -phi) (by rwa [neg_neg, neg_neg])
      simp only [mirrorW, List.map_cons, List.map_nil, neg_neg, neg_zero] at h3
      have := (half_LSR hu ht.1 ht.2 h3).mirror.back
      rw [abs_of_pos hpi]
      exact this.mono (by linarith)
  · have := (half_LSR hu hv.1 hv.2 h).any
    rwa [abs_of_pos hpi]

theorem closed_LRLRm {x y phi t u v : ℝ} (ht : CTurn t) (hu : 0 ≤ u) (hu2 : u ≤ π / 2) (hv : CTurn v)
    (h : Hits [(1, t), (-1, -u), (1, -u), (-1, v)] x y phi) : RSAny x y phi (|t| + 2 * u + |v|) := by
  have hpi := pi_pos
  rcases ht.cases with ht' | rfl
  · rcases hv.cases with hv' | rfl
    · exact opt_LRLRm ht' hu hu2 hv' h
    · have hw : UnitW [(1, t), (-1, -u), (1, -u), (-1, π)] := by
        intro w hw; simp only [List.mem_cons, List.not_mem_nil, or_false] at hw
        rcases hw with rfl | rfl | rfl | rfl <;> simp
      have h2 := h.reverse' hw
      simp only [List.reverse_cons, List.reverse_nil, List.nil_append, List.cons_append] at h2
      have h3 := Hits.mirror (x := rsXb x y phi) (y := -rsYb x y phi) (phi := -phi) (by rwa [neg_neg, neg_neg])
      simp only [mirrorW, List.map_cons, List.map_nil, neg_neg] at h3
      have := (half_LRLRm hu hu2 ht.1 ht.2 h3).mirror.back
      rw [abs_of_pos hpi]
      exact this.mono (by linarith)
  · have := (half_LRLRm hu hu2 hv.1 hv.2 h).any
    rwa [abs_of_pos hpi]

theorem closed_LRSLR {x y phi t u v : ℝ} (ht : CTurn t) (hu : -RS_ZERO ≤ u) (hv : CTurn v)
    (h : Hits [(1, t), (-1, -(π / 2)), (0, -u), (1, -(π / 2)), (-1, v)] x y phi) :
    RSAny x y phi (|t| + π + |u| + |v|) := by
  have hpi := pi_pos
  rcases ht.cases with ht' | rfl
  · rcases hv.cases with hv' | rfl
    · exact opt_LRSLR ht' hu hv' h
    · have hw : UnitW [(1, t), (-1, -(π / 2)), (0, -u), (1, -(π / 2)), (-1, π)] := by
        intro w hw; simp only [List.mem_cons, List.not_mem_nil, or_false] at hw
        rcases hw with rfl | rfl | rfl | rfl | rfl <;> simp
      have h2 := h.reverse' hw
      simp only [List.reverse_cons, List.reverse_nil, List.nil_append, List.cons_append] at h2
      have h3 := Hits.mirror (x := rsXb x y phi) (y := -rsYb x y phi) (phi := -phi) (by rwa [neg_neg, neg_neg])
      simp only [mirrorW, List.map_cons, List.map_nil, neg_neg, neg_zero] at h3
      have := (half_LRSLR hu ht.1 ht.2 h3).mirror.back
      rw [abs_of_pos hpi]
      exact this.mono (by linarith)
  · have := (half_LRSLR hu hv.1 hv.2 h).any
    rwa [abs_of_pos hpi]

/-- With middle turns of a third of a half turn the outer turns are about the same centre. -/
theorem third_LRLRp {x y phi t v : ℝ} (h : Hits [(1, t), (-1, π / 3), (1, -(π / 3)), (-1, -v)] x y phi) :
    RSAny x y phi (|t| + 2 * (π / 3) + |v|) := by
  rw [hits_LRLRp] at h
  obtain ⟨h1, h2, n, h3⟩ := h
  have hpi := pi_pos
  have c2 : cos (2 * (π / 3)) = -(1 / 2) := by rw [cos_two_mul, cos_pi_div_three]; norm_num
  have s2 : sin (2 * (π / 3)) = sin (π / 3) := by rw [sin_two_mul, cos_pi_div_three]; ring
  rw [sin_sub, sin_sub, c2, s2, cos_pi_div_three] at h1
  rw [cos_sub, cos_sub, c2, s2, cos_pi_div_three] at h2
  apply RSAny.mirror
  have key : Hits [(1, π / 3), (-1, -(π / 3)), (1, -(t + v))] x (-y) (-phi) := by
    rw [hits_LRL, sub_neg_eq_add, ← two_mul, c2, s2, cos_pi_div_three, sin_neg, cos_neg]
    exact ⟨by linarith, by linarith, -n, by push_cast; linarith⟩
  have := opt_LRL (t := π / 3) ⟨by linarith [RS_ZERO_pos], by linarith⟩ (by positivity) (by linarith) key
  apply this.mono
  rw [abs_neg, abs_of_pos (by positivity : 0 < π / 3)]
  linarith [abs_add_le t v]

theorem closed_LRLRp {x y phi t u v : ℝ} (ht : CTurn t) (hu : 0 ≤ u) (hu3 : u ≤ π / 3) (hv : CTurn v)
    (h : Hits [(1, t), (-1, u), (1, -u), (-1, -v)] x y phi) : RSAny x y phi (|t| + 2 * u + |v|) := by
  have hpi := pi_pos
  rcases hu3.lt_or_eq with hu2 | rfl
  swap
  · exact third_LRLRp h
  rcases ht.cases with ht' | rfl
  · rcases hv.cases with hv' | rfl
    · exact opt_LRLRp ht' hu hu2 hv' h
    · have hw : UnitW [(1, t), (-1, u), (1, -u), (-1, -π)] := by
        intro w hw; simp only [List.mem_cons, List.not_mem_nil, or_false] at hw
        rcases hw with rfl | rfl | rfl | rfl <;> simp
      have h2 := h.reverse' hw
      simp only [List.reverse_cons, List.reverse_nil, List.nil_append, List.cons_append] at h2
      have h3 := Hits.flip_mirror (x := -rsXb x y phi) (y := -rsYb x y phi) (phi := phi) (by rwa [neg_neg, neg_neg])
      simp only [mirrorW, flipW, List.map_cons, List.map_nil, neg_neg] at h3
      have := (half_LRLRp hu hu2.le h3).both.back
      rw [abs_of_pos hpi]
      exact this.mono (by linarith)
  · have := (half_LRLRp hu hu2.le h).any
    rwa [abs_of_pos hpi]

/-! ### The problem with start and goal exchanged -/

/-- Every accepted word has a counterpart for the reversed goal. -/
theorem RSBest.reversed {x y phi L : ℝ} (h : RSBest x y phi L) : RSAny (rsXb x y phi) (rsYb x y phi) phi L := by
  have hpi := pi_pos
  have mid : RSMid x y phi L → RSAny (rsXb x y phi) (rsYb x y phi) phi L := fun h => by
    apply RSSym.back
    rw [rsXb_invol, rsYb_invol]
    exact Or.inl h
  rcases h with ⟨w, rfl | rfl | rfl | rfl, ok, hl⟩ | ⟨w, rfl | rfl, ok, hl⟩ | h | ⟨w, rfl, ok, hl⟩
  · have hw : UnitW [(1, (LpSpLp x y phi).t), (0, (LpSpLp x y phi).u), (1, (LpSpLp x y phi).v)] := by
      intro w hw; simp only [List.mem_cons, List.not_mem_nil, or_false] at hw
      rcases hw with rfl | rfl | rfl <;> simp
    have h2 := (LpSpLp_hits x y phi).reverse' hw
    simp only [List.reverse_cons, List.reverse_nil, List.nil_append, List.cons_append] at h2
    have hu : 0 ≤ (LpSpLp x y phi).u := polar_nonneg _ _
    rw [abs_of_nonneg hu] at hl
    have a1 : CTurn (LpSpLp x y phi).t := CTurn.of_abs ok.1 (abs_polar_snd_le _ _)
    have a2 : CTurn (LpSpLp x y phi).v := CTurn.of_abs ok.2 (abs_pify_le _)
    exact (closed_LSL a2 hu a1 h2).mono (by linarith)
  · have hw : UnitW [(1, (LpSpRp x y phi).t), (0, (LpSpRp x y phi).u), (-1, (LpSpRp x y phi).v)] := by
      intro w hw; simp only [List.mem_cons, List.not_mem_nil, or_false] at hw
      rcases hw with rfl | rfl | rfl <;> simp
    have h2 := (LpSpRp_hits ok.1).reverse' hw
    simp only [List.reverse_cons, List.reverse_nil, List.nil_append, List.cons_append] at h2
    have h3 := Hits.mirror (x := rsXb x y phi) (y := -rsYb x y phi) (phi := -phi) (by rwa [neg_neg, neg_neg])
    simp only [mirrorW, List.map_cons, List.map_nil, neg_neg, neg_zero] at h3
    have hu : 0 ≤ (LpSpRp x y phi).u := sqrt_nonneg _
    rw [abs_of_nonneg hu] at hl
    have a1 : CTurn (LpSpRp x y phi).t := CTurn.of_abs ok.2.1 (abs_pify_le _)
    have a2 : CTurn (LpSpRp x y phi).v := CTurn.of_abs ok.2.2 (abs_pify_le _)
    exact (closed_LSR a2 hu a1 h3).mirror.mono (by linarith)
  · exact mid (Or.inl ⟨_, Or.inl rfl, ok, hl⟩)
  · exact mid (Or.inl ⟨_, Or.inr rfl, ok, hl⟩)
  · obtain ⟨u, hu⟩ : ∃ u, u = (LpRupLumRm x y phi).u := ⟨_, rfl⟩
    obtain ⟨t, ht⟩ : ∃ t, t = (LpRupLumRm x y phi).t := ⟨_, rfl⟩
    obtain ⟨v, hv⟩ : ∃ v, v = (LpRupLumRm x y phi).v := ⟨_, rfl⟩
    have h1 := LpRupLumRm_hits ok.1
    simp only at h1
    have a1 : CTurn t := CTurn.of_abs (by rw [ht]; exact ok.2.1) (by rw [ht]; exact rsTau_abs _ _ _ _)
    have a2 : CTurn (-v) := CTurn.of_abs (by rw [hv]; exact neg_le_neg ok.2.2)
      (by rw [hv, abs_neg]; exact abs_pify_le _)
    have hu' : u = arccos (rhoLpRupLumRm x y phi) := hu
    have hu0 : 0 ≤ u := by rw [hu']; exact arccos_nonneg _
    have hr0 := sqrt_nonneg ((x + sin phi) * (x + sin phi) + (y - 1 - cos phi) * (y - 1 - cos phi))
    have hrho : 1 / 2 ≤ rhoLpRupLumRm x y phi := by unfold rhoLpRupLumRm; linarith
    rw [← ht, ← hu, ← hv] at h1 hl
    rw [abs_of_nonneg hu0] at hl
    rcases hrho.lt_or_eq with hlt | heq
    · have hu3 : u < π / 3 := by
        rw [hu', ← arccos_cos (x := π / 3) (by linarith) (by linarith), cos_pi_div_three]
        exact strictAntiOn_arccos ⟨by norm_num, by norm_num⟩ ⟨by linarith, ok.1⟩ hlt
      have hw : UnitW [(1, t), (-1, u), (1, -u), (-1, v)] := by
        intro w hw; simp only [List.mem_cons, List.not_mem_nil, or_false] at hw
        rcases hw with rfl | rfl | rfl | rfl <;> simp
      have h2 := h1.reverse' hw
      simp only [List.reverse_cons, List.reverse_nil, List.nil_append, List.cons_append] at h2
      have h3 := Hits.flip_mirror (x := -rsXb x y phi) (y := -rsYb x y phi) (phi := phi) (by rwa [neg_neg, neg_neg])
      simp only [mirrorW, flipW, List.map_cons, List.map_nil, neg_neg] at h3
      apply RSAny.flip
      apply RSAny.mirror
      rw [neg_neg]
      have := closed_LRLRp a2 hu0 hu3.le a1 h3
      rw [abs_neg] at this
      exact this.mono (by linarith)
    · -- the circles around start and goal coincide
      have hr : √((x + sin phi) * (x + sin phi) + (y - 1 - cos phi) * (y - 1 - cos phi)) = 0 := by
        unfold rhoLpRupLumRm at heq; linarith
      have hsum := (sqrt_eq_zero (add_nonneg (mul_self_nonneg _) (mul_self_nonneg _))).1 hr
      have e1 : x = -sin phi := by
        have : (x + sin phi) * (x + sin phi) = 0 := by
          nlinarith [mul_self_nonneg (x + sin phi), mul_self_nonneg (y - 1 - cos phi)]
        linarith [mul_self_eq_zero.1 this]
      have e2 : y = 1 + cos phi := by
        have : (y - 1 - cos phi) * (y - 1 - cos phi) = 0 := by
          nlinarith [mul_self_nonneg (x + sin phi), mul_self_nonneg (y - 1 - cos phi)]
        linarith [mul_self_eq_zero.1 this]
      have f1 : -rsXb x y phi = x := by unfold rsXb; rw [e1, e2]; ring
      have f2 : -rsYb x y phi = y := by
        unfold rsYb; rw [e1, e2]; linear_combination sin_sq_add_cos_sq phi
      apply RSAny.flip
      apply RSAny.mirror
      rw [neg_neg, f1, f2]
      left; right; left
      exact ⟨_, Or.inl rfl, ok, by rw [← ht, ← hu, ← hv, abs_of_nonneg hu0]; exact hl⟩
  · obtain ⟨u, hu⟩ : ∃ u, u = (LpRumLumRp x y phi).u := ⟨_, rfl⟩
    obtain ⟨t, ht⟩ : ∃ t, t = (LpRumLumRp x y phi).t := ⟨_, rfl⟩
    obtain ⟨v, hv⟩ : ∃ v, v = (LpRumLumRp x y phi).v := ⟨_, rfl⟩
    have h1 := LpRumLumRp_hits ok.1
    simp only at h1
    have a1 : CTurn t := CTurn.of_abs (by rw [ht]; exact ok.2.2.1) (by rw [ht]; exact rsTau_abs _ _ _ _)
    have a2 : CTurn v := CTurn.of_abs (by rw [hv]; exact ok.2.2.2) (by rw [hv]; exact abs_pify_le _)
    have hu0 : 0 ≤ -u := by
      have : u = -arccos (rhoLpRumLumRp x y phi) := hu
      rw [this, neg_neg]; exact arccos_nonneg _
    have hu2 : -u ≤ π / 2 := by
      have : (LpRumLumRp x y phi).u ≥ -0.5 * π := ok.2.1
      rw [hu]; linarith
    rw [← ht, ← hu, ← hv] at h1 hl
    rw [abs_of_nonpos (by linarith : u ≤ 0)] at hl
    have hw : UnitW [(1, t), (-1, u), (1, u), (-1, v)] := by
      intro w hw; simp only [List.mem_cons, List.not_mem_nil, or_false] at hw
      rcases hw with rfl | rfl | rfl | rfl <;> simp
    have h2 := h1.reverse' hw
    simp only [List.reverse_cons, List.reverse_nil, List.nil_append, List.cons_append] at h2
    have h3 := Hits.mirror (x := rsXb x y phi) (y := -rsYb x y phi) (phi := -phi) (by rwa [neg_neg, neg_neg])
    simp only [mirrorW, List.map_cons, List.map_nil, neg_neg] at h3
    have := (closed_LRLRm (x := rsXb x y phi) (y := -rsYb x y phi) (phi := -phi) a2 hu0 hu2 a1 (by rw [neg_neg u]; exact h3)).mirror
    exact this.mono (by linarith)
  · exact mid (Or.inr h)
  · obtain ⟨u, hu⟩ : ∃ u, u = (LpRmSLmRp x y phi).u := ⟨_, rfl⟩
    obtain ⟨t, ht⟩ : ∃ t, t = (LpRmSLmRp x y phi).t := ⟨_, rfl⟩
    obtain ⟨v, hv⟩ : ∃ v, v = (LpRmSLmRp x y phi).v := ⟨_, rfl⟩
    have h1 := LpRmSLmRp_hits ok.1
    simp only at h1
    have a0 : -RS_ZERO ≤ -u := by rw [hu]; exact neg_le_neg ok.2.1
    have a1 : CTurn t := CTurn.of_abs (by rw [ht]; exact ok.2.2.1) (by rw [ht]; exact abs_pify_le _)
    have a2 : CTurn v := CTurn.of_abs (by rw [hv]; exact ok.2.2.2) (by rw [hv]; exact abs_pify_le _)
    rw [← ht, ← hu, ← hv] at h1 hl
    have hw : UnitW [(1, t), (-1, -(π / 2)), (0, u), (1, -(π / 2)), (-1, v)] := by
      intro w hw; simp only [List.mem_cons, List.not_mem_nil, or_false] at hw
      rcases hw with rfl | rfl | rfl | rfl | rfl <;> simp
    have h2 := h1.reverse' hw
    simp only [List.reverse_cons, List.reverse_nil, List.nil_append, List.cons_append] at h2
    have h3 := Hits.mirror (x := rsXb x y phi) (y := -rsYb x y phi) (phi := -phi) (by rwa [neg_neg, neg_neg])
    simp only [mirrorW, List.map_cons, List.map_nil, neg_neg, neg_zero] at h3
    have := (closed_LRSLR (x := rsXb x y phi) (y := -rsYb x y phi) (phi := -phi) a2 a0 a1 (by rw [neg_neg u]; exact h3)).mirror
    rw [abs_neg] at this
    exact this.mono (by linarith)

theorem RSAny.reversed {x y phi L : ℝ} (h : RSAny x y phi L) : RSAny (-rsXb x y phi) (rsYb x y phi) (-phi) L := by
  rcases h with h | h | h | h
  · apply RSAny.flip; rw [neg_neg, neg_neg]; exact h.reversed
  · have := h.reversed
    rwa [rsXb_flip, rsYb_flip] at this
  · have := h.reversed
    rw [rsXb_mirror, rsYb_mirror] at this
    apply RSAny.flip; apply RSAny.mirror; rwa [neg_neg, neg_neg]
  · have := h.reversed
    rw [rsXb_both, rsYb_both] at this
    apply RSAny.mirror; rwa [neg_neg]

/-- An accepted statement is one of the words. -/
theorem RSAny.of_cand {x y phi : ℝ} {c : RSCand} (hc : c ∈ rsCands x y phi) (ok : c.ok) : RSAny x y phi c.path.length := by
  unfold rsCands at hc
  simp only [List.mem_append] at hc
  unfold RSAny RSBest
  rw [rsXb_flip, rsYb_flip, rsXb_mirror, rsYb_mirror, rsXb_both, rsYb_both]
  rcases hc with (((hc | hc) | hc) | hc) | hc
  · have hl := (candsCSC_sound c hc).2.1
    rw [hl, add_zero]
    simp only [candsCSC, List.mem_cons, List.not_mem_nil, or_false] at hc
    rcases hc with rfl | rfl | rfl | rfl | rfl | rfl | rfl | rfl
    · left; left; exact ⟨_, Or.inl rfl, ok, le_rfl⟩
    · right; left; left; exact ⟨_, Or.inl rfl, ok, le_rfl⟩
    · right; right; left; left; exact ⟨_, Or.inl rfl, ok, le_rfl⟩
    · right; right; right; left; exact ⟨_, Or.inl rfl, ok, le_rfl⟩
    · left; left; exact ⟨_, Or.inr (Or.inl rfl), ok, le_rfl⟩
    · right; left; left; exact ⟨_, Or.inr (Or.inl rfl), ok, le_rfl⟩
    · right; right; left; left; exact ⟨_, Or.inr (Or.inl rfl), ok, le_rfl⟩
    · right; right; right; left; exact ⟨_, Or.inr (Or.inl rfl), ok, le_rfl⟩
  · have hl := (candsCCC_sound c hc).2.1
    rw [hl, add_zero]
    simp only [candsCCC, List.mem_cons, List.not_mem_nil, or_false] at hc
    rcases hc with rfl | rfl | rfl | rfl | rfl | rfl | rfl | rfl
    · left; left; exact ⟨_, Or.inr (Or.inr (Or.inl rfl)), ok, le_rfl⟩
    · right; left; left; exact ⟨_, Or.inr (Or.inr (Or.inl rfl)), ok, le_rfl⟩
    · right; right; left; left; exact ⟨_, Or.inr (Or.inr (Or.inl rfl)), ok, le_rfl⟩
    · right; right; right; left; exact ⟨_, Or.inr (Or.inr (Or.inl rfl)), ok, le_rfl⟩
    · left; left; exact ⟨_, Or.inr (Or.inr (Or.inr rfl)), ok, le_rfl⟩
    · right; left; left; exact ⟨_, Or.inr (Or.inr (Or.inr rfl)), ok, le_rfl⟩
    · right; right; left; left; exact ⟨_, Or.inr (Or.inr (Or.inr rfl)), ok, le_rfl⟩
    · right; right; right; left; exact ⟨_, Or.inr (Or.inr (Or.inr rfl)), ok, le_rfl⟩
  · have hl := (candsCCCC_sound c hc).2.1
    rw [hl, add_zero]
    simp only [candsCCCC, List.mem_cons, List.not_mem_nil, or_false] at hc
    rcases hc with rfl | rfl | rfl | rfl | rfl | rfl | rfl | rfl
    · left; right; left; exact ⟨_, Or.inl rfl, ok, le_rfl⟩
    · right; left; right; left; exact ⟨_, Or.inl rfl, ok, le_rfl⟩
    · right; right; left; right; left; exact ⟨_, Or.inl rfl, ok, le_rfl⟩
    · right; right; right; right; left; exact ⟨_, Or.inl rfl, ok, le_rfl⟩
    · left; right; left; exact ⟨_, Or.inr rfl, ok, le_rfl⟩
    · right; left; right; left; exact ⟨_, Or.inr rfl, ok, le_rfl⟩
    · right; right; left; right; left; exact ⟨_, Or.inr rfl, ok, le_rfl⟩
    · right; right; right; right; left; exact ⟨_, Or.inr rfl, ok, le_rfl⟩
  · have hl := (candsCCSC_sound c hc).2.1
    rw [hl]
    simp only [candsCCSC, List.mem_cons, List.not_mem_nil, or_false] at hc
    rcases hc with rfl | rfl | rfl | rfl | rfl | rfl | rfl | rfl | rfl | rfl | rfl | rfl | rfl | rfl | rfl | rfl
    · left; right; right; left; exact ⟨_, Or.inl rfl, ok, le_rfl⟩
    · right; left; right; right; left; exact ⟨_, Or.inl rfl, ok, le_rfl⟩
    · right; right; left; right; right; left; exact ⟨_, Or.inl rfl, ok, le_rfl⟩
    · right; right; right; right; right; left; exact ⟨_, Or.inl rfl, ok, le_rfl⟩
    · left; right; right; left; exact ⟨_, Or.inr (Or.inr (Or.inl rfl)), ok, le_rfl⟩
    · right; left; right; right; left; exact ⟨_, Or.inr (Or.inr (Or.inl rfl)), ok, le_rfl⟩
    · right; right; left; right; right; left; exact ⟨_, Or.inr (Or.inr (Or.inl rfl)), ok, le_rfl⟩
    · right; right; right; right; right; left; exact ⟨_, Or.inr (Or.inr (Or.inl rfl)), ok, le_rfl⟩
    · left; right; right; left; exact ⟨_, Or.inr (Or.inl rfl), ok, le_rfl⟩
    · right; left; right; right; left; exact ⟨_, Or.inr (Or.inl rfl), ok, le_rfl⟩
    · right; right; left; right; right; left; exact ⟨_, Or.inr (Or.inl rfl), ok, le_rfl⟩
    · right; right; right; right; right; left; exact ⟨_, Or.inr (Or.inl rfl), ok, le_rfl⟩
    · left; right; right; left; exact ⟨_, Or.inr (Or.inr (Or.inr rfl)), ok, le_rfl⟩
    · right; left; right; right; left; exact ⟨_, Or.inr (Or.inr (Or.inr rfl)), ok, le_rfl⟩
    · right; right; left; right; right; left; exact ⟨_, Or.inr (Or.inr (Or.inr rfl)), ok, le_rfl⟩
    · right; right; right; right; right; left; exact ⟨_, Or.inr (Or.inr (Or.inr rfl)), ok, le_rfl⟩
  · have hl := (candsCCSCC_sound c hc).2.1
    rw [hl]
    simp only [candsCCSCC, List.mem_cons, List.not_mem_nil, or_false] at hc
    rcases hc with rfl | rfl | rfl | rfl
    · left; right; right; right; exact ⟨_, rfl, ok, le_rfl⟩
    · right; left; right; right; right; exact ⟨_, rfl, ok, le_rfl⟩
    · right; right; left; right; right; right; exact ⟨_, rfl, ok, le_rfl⟩
    · right; right; right; right; right; right; exact ⟨_, rfl, ok, le_rfl⟩

/-- If every word of one goal has a counterpart for another, the answer for the other goal is at most as long. -/
theorem reeds_shepp_le {x y phi x' y' phi' : ℝ} (h : ∀ L, RSAny x y phi L → RSAny x' y' phi' L) :
    (reeds_shepp x' y' phi').length ≤ (reeds_shepp x y phi).length := by
  obtain ⟨h1, -, -⟩ := reeds_shepp_result x y phi
  obtain ⟨-, h2, h3⟩ := reeds_shepp_result x' y' phi'
  rcases h1 with h1 | ⟨c, hc, ok, h1⟩
  · rw [h1]
    have hd : RSPath.default.length = dblMax := by
      have : (0:ℝ) ≤ dblMax := le_trans (by positivity) dblMax_large.le
      simp [RSPath.default, RSPath.length, abs_of_nonneg this]
    rw [hd]; exact h2
  · rw [h1]
    obtain ⟨c', hc', ok', hl⟩ := (h _ (RSAny.of_cand hc ok)).cand
    exact (h3 c' hc' ok').trans hl

theorem params_reversed (sp : RSSpace) (s1 s2 : State) :
    sp.params s2 s1 = (-rsXb (sp.params s1 s2).1 (sp.params s1 s2).2.1 (sp.params s1 s2).2.2,
      rsYb (sp.params s1 s2).1 (sp.params s1 s2).2.1 (sp.params s1 s2).2.2, -(sp.params s1 s2).2.2) := by
  have h := sin_sq_add_cos_sq s1.theta
  simp only [RSSpace.params, rsXb, rsYb, cos_sub, sin_sub]
  refine Prod.ext ?_ (Prod.ext ?_ ?_)
  · simp only
    linear_combination (cos s2.theta * (s2.x - s1.x) + sin s2.theta * (s2.y - s1.y)) * sp.kappa * h
  · simp only
    linear_combination -(sin s2.theta * (s2.x - s1.x) - cos s2.theta * (s2.y - s1.y)) * sp.kappa * h
  · simp only; ring

theorem rs_distance_le (sp : RSSpace) (hk : 0 < sp.kappa) (s1 s2 : State) : sp.get_distance s2 s1 ≤ sp.get_distance s1 s2 := by
  unfold RSSpace.get_distance RSSpace.kappa_inv
  refine mul_le_mul_of_nonneg_left ?_ (by positivity)
  unfold RSSpace.reeds_shepp
  rw [params_reversed]
  exact reeds_shepp_le fun L h => h.reversed

end SF
