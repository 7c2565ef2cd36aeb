import Verif.Lemmas.HcAll

/-!
# HC-Reeds-Shepp: paths between a pair of predicted states
-/

noncomputable section

namespace Spec

open Real Props

/-- What is guaranteed for the path of one pair of predicted states; `bad` is what has to be excluded. -/
structure HPairRes (sp : SF.HCSpace) (bad far : Prop) (s1 s2 : SF.State) (cs : List SF.Control) (len : ℝ) : Prop where
  ne : cs ≠ []
  length : |totalLength (cs.map seg) - len| ≤ SF.epsilon * (1 + 4 * radiusBound sp.kappa sp.sigma)
  bound : len ≤ dist2 s1 s2 + 50 * (sp.kappa / sp.sigma) + 60 / sp.kappa
  leads : ¬ bad → Leads (cs.map seg) (pose s1) (pose s2) len
    (SF.epsilon * (4 + 10 * radiusBound sp.kappa sp.sigma + (4 + sp.kappa) * totalLength (cs.map seg)))
    (SF.epsilon * (3 + 2 * sp.kappa)) (SF.epsilon * (1 + 4 * radiusBound sp.kappa sp.sigma))
  rep : ¬ bad → Sharp cs → far ∨ s1.kappa = 0 ∨ |s1.kappa| > SF.epsilon →
    ∃ k', Representable k' (cs.map seg) ∧ ∀ c ∈ cs.head?, c.kappa = k'
  prof : ¬ bad → far → |s1.kappa| ≤ sp.kappa → |s2.kappa| ≤ sp.kappa →
    ∃ k0 k1, HybridPath k0 (cs.map seg) k1 ∧ |k0 - s1.kappa| ≤ SF.epsilon * (1 + sp.sigma) ∧
      |k1 - s2.kappa| ≤ SF.epsilon * (1 + sp.sigma)
  limits : ¬ bad → far → |s1.kappa| ≤ sp.kappa → |s2.kappa| ≤ sp.kappa →
    CurvatureAtMost (sp.kappa * (1 + 1 / 10 ^ 8)) (cs.map seg) ∧ SharpnessAtMost (sp.sigma * (1 + 2 / 10 ^ 8)) (cs.map seg)

section
variable {sp : SF.HCSpace} {s s1 s2 : SF.State} {d da db : ℝ} {a b : SF.Predicted} {bad opp far far' : Prop}
  {fd : SF.SubPlanners ℝ} {fc : SF.SubPlanners (List SF.Control)}

theorem rounded_abs {K : ℝ} (hK : 0 < K) (x : ℝ) : |rounded K x| ≤ K := by
  rcases rounded_cases K x with h | h | h <;> rw [h]
  · simpa using hK.le
  · rw [abs_of_pos hK]
  · rw [abs_neg, abs_of_pos hK]

/-- Between two curvatures. -/
theorem between_abs {K k σ L t : ℝ} (h0 : |k| ≤ K) (h1 : |k + σ * L| ≤ K) (ht : 0 ≤ t) (htL : t ≤ L) : |k + σ * t| ≤ K := by
  obtain ⟨a1, a2⟩ := abs_le.1 h0
  obtain ⟨b1, b2⟩ := abs_le.1 h1
  rw [abs_le]
  rcases le_total 0 σ with hs | hs
  · have := mul_le_mul_of_nonneg_left htL hs
    have := mul_nonneg hs ht
    constructor <;> linarith
  · have := mul_le_mul_of_nonpos_left htL hs
    have := mul_nonpos_of_nonpos_of_nonneg hs ht
    constructor <;> linarith

/-- Limits of the control to a predicted state and of its reverse. -/
theorem PredFacts.limits (H : Rng sp.kappa sp.sigma) (h : PredFacts sp.kappa sp.sigma s d a) (hk : |s.kappa| ≤ sp.kappa)
    (hne : a.2.delta_s ≠ 0) :
    CurvatureAtMost sp.kappa ([a.2].map seg) ∧ CurvatureAtMost sp.kappa ([SF.reverse_control a.2].map seg) ∧
    SharpnessAtMost sp.sigma ([a.2].map seg) ∧ SharpnessAtMost sp.sigma ([SF.reverse_control a.2].map seg) := by
  have hr := (h.round.resolve_right fun h0 => hne h0.1).1
  have hs := h.sigma.resolve_left fun h0 => hne h0.2
  have h1 : abs (s.kappa + a.2.sigma * |a.2.delta_s|) ≤ sp.kappa := by
    rw [← h.kappa', ← hr]; exact rounded_abs H.pos _
  refine ⟨?_, ?_, ?_, ?_⟩
  · intro c hc t ht htL
    obtain rfl : c = seg a.2 := by simpa using hc
    show |a.2.kappa + a.2.sigma * t| ≤ _
    rw [h.kappa]
    exact between_abs hk h1 ht htL
  · intro c hc t ht htL
    obtain rfl : c = seg (SF.reverse_control a.2) := by simpa using hc
    show |(SF.reverse_control a.2).kappa + (-a.2.sigma) * t| ≤ _
    have e : |(seg (SF.reverse_control a.2)).len| = |a.2.delta_s| := abs_neg _
    rw [e] at htL
    rw [reverse_kappa, h.kappa]
    refine between_abs (L := |a.2.delta_s|) h1 ?_ ht htL
    rw [show s.kappa + a.2.sigma * |a.2.delta_s| + -a.2.sigma * |a.2.delta_s| = s.kappa by ring]
    exact hk
  · intro c hc
    obtain rfl : c = seg a.2 := by simpa using hc
    exact hs.le
  · intro c hc
    obtain rfl : c = seg (SF.reverse_control a.2) := by simpa using hc
    show |-a.2.sigma| ≤ _
    rw [abs_neg]; exact hs.le

theorem CurvatureAtMost.mono {K K' : ℝ} {xs : List Segment} (hx : CurvatureAtMost K xs) (h : K ≤ K') :
    CurvatureAtMost K' xs := fun c hc t h0 h1 => (hx c hc t h0 h1).trans h

theorem SharpnessAtMost.mono {S S' : ℝ} {xs : List Segment} (hx : SharpnessAtMost S xs) (h : S ≤ S') :
    SharpnessAtMost S' xs := fun c hc => (hx c hc).trans h

open Classical in
/-- Predicted states that are apart. -/
theorem hpair_apart (H : Rng sp.kappa sp.sigma) (ha : PredFacts sp.kappa sp.sigma s1 da a)
    (hb : PredFacts sp.kappa sp.sigma s2 db b) (hne : ¬ SF.state_equal a.1 b.1) {cs : List SF.Control} {len : ℝ}
    (hc : fc.call a.1 b.1 = some cs) (hl : fd.call a.1 b.1 = some len) (hm : HMid sp opp far' a.1 b.1 cs len)
    (ho : opp → bad) (hf : far → far') :
    ∃ cs' len', SF.pair_controls fc a b = some cs' ∧ SF.pair_distance fd a b = some len' ∧
      HPairRes sp bad far s1 s2 cs' len' := by
  have he : (0:ℝ) < SF.epsilon := by norm_num [SF.epsilon]
  have he' : SF.epsilon = 1 / 10000 := by norm_num [SF.epsilon]
  have hK := H.pos
  have hS := H.sigma
  have hR : 0 ≤ radiusBound sp.kappa sp.sigma := by rw [radiusBound]; positivity
  obtain ⟨pre, l0, k0, p0, pc, pl, pk⟩ := ha.start_part H
  obtain ⟨post, l1, k1, q0, qc, ql, qk⟩ := PredFacts.end_part (d := -db) H (by rw [neg_neg]; exact hb)
  have hpre : |a.2.delta_s| > SF.epsilon ∧ pre = [a.2] ∨ pre = [] := by
    have := pc []
    rw [List.append_nil] at this
    by_cases h : |a.2.delta_s| > SF.epsilon
    · rw [if_pos h] at this; exact .inl ⟨h, this.symm⟩
    · rw [if_neg h] at this; exact .inr this.symm
  have hpost : |b.2.delta_s| > SF.epsilon ∧ post = [SF.reverse_control b.2] ∨ post = [] := by
    have := qc []
    rw [List.nil_append] at this
    by_cases h : |b.2.delta_s| > SF.epsilon
    · rw [if_pos h] at this; exact .inl ⟨h, this.symm⟩
    · rw [if_neg h] at this; exact .inr this.symm
  have nz : ∀ {x : ℝ}, |x| > SF.epsilon → x ≠ 0 := by
    rintro x h rfl; rw [abs_zero] at h; linarith
  refine ⟨pre ++ cs ++ post, len + l0 + l1, ?_, ?_, ?_⟩
  · rw [SF.pair_controls, if_neg hne, hc]
    simp only [Option.map_some, pc, qc]
  · rw [SF.pair_distance, if_neg hne, hl]
    simp only [Option.map_some, pl, ql]
  · have tl : totalLength ((pre ++ cs ++ post).map seg)
        = totalLength (pre.map seg) + totalLength (cs.map seg) + totalLength (post.map seg) := by
      simp only [List.map_append, totalLength_append]
    have tp : totalLength (pre.map seg) = l0 := by
      have := abs_nonpos_iff.1 p0.leads.length; linarith
    have tq : totalLength (post.map seg) = l1 := by
      have := abs_nonpos_iff.1 q0.leads.length; linarith
    have hl0 := p0.len
    have hl1 := q0.len
    have hLm := totalLength_nonneg (cs.map seg)
    refine ⟨by simp [hm.ne], ?_, ?_, fun hbad => ?_, fun hbad hsh _ => ?_, fun hbad hfar h1 h2 => ?_, fun hbad hfar h1 h2 => ?_⟩
    · rw [tl, tp, tq]
      refine le_trans (le_of_eq ?_) hm.length
      congr 1; ring
    · have h1 := hm.bound
      have h2 := dist2_triangle a.1 s1 b.1
      have h3 := dist2_triangle s1 s2 b.1
      have h4 := ha.near
      have h5 := hb.near
      rw [dist2_comm a.1 s1] at h2
      have : 0 < sp.kappa / sp.sigma := by positivity
      linarith
    · have hm' := hm.leads fun h => hbad (ho h)
      have := (p0.leads.append hm').append q0.leads
      rw [← List.map_append, ← List.map_append] at this
      refine ⟨this.arrives.mono ?_ ?_, ?_⟩
      · rw [tl, tp, tq, add_le_add_iff_right]
        have e1 := mul_nonneg he.le hR
        have e2 := mul_nonneg he.le hLm
        have e3 := mul_nonneg he.le hl0.1
        have e4 := mul_nonneg he.le hl1.1
        have e5 := mul_nonneg (mul_nonneg he.le hK.le) hl0.1
        have e6 := mul_nonneg (mul_nonneg he.le hK.le) hLm
        have e7 := mul_nonneg (mul_nonneg he.le hK.le) hl1.1
        linarith
      · linarith
      · have h1 := this.length
        rw [show len + l0 + l1 = l0 + len + l1 by ring]
        linarith
    · obtain ⟨k', hk', hhead, hrep⟩ := hm.rep (fun h => hbad (ho h)) fun c hc => hsh c (by simp [hc])
      have hK' := H.kappa
      have hend : ∀ y, Level sp.kappa y → Representable y (post.map seg) := by
        intro y hy
        rcases hpost with ⟨hd, rfl⟩ | rfl
        · have hr := (hb.round.resolve_right fun h0 => nz hd h0.1).1
          refine ⟨.inl ?_, ?_, trivial⟩
          · exact (hsh (SF.reverse_control b.2) (by simp)).resolve_left (q0.flat _ (by simp))
          · show (SF.reverse_control b.2).kappa = y ∨ |(SF.reverse_control b.2).kappa - y| > _
            rw [reverse_kappa, hb.kappa, ← hb.kappa', ← hr]
            exact (rounded_level _ _).jump hK' hy
        · trivial
      rcases hpre with ⟨hd, rfl⟩ | rfl
      · have hr := (ha.round.resolve_right fun h0 => nz hd h0.1).1
        refine ⟨a.2.kappa, ?_, by simp⟩
        rw [List.append_assoc, List.map_append, List.map_append]
        refine ⟨.inl ?_, .inl rfl, ?_⟩
        · exact (hsh a.2 (by simp)).resolve_left (p0.flat _ (by simp))
        · show Representable (a.2.kappa + a.2.sigma * |a.2.delta_s|) _
          rw [ha.kappa, ← ha.kappa', ← hr]
          exact hrep _ _ (rounded_level _ _) hend
      · refine ⟨k', ?_, ?_⟩
        · rw [List.nil_append, List.map_append]
          exact hrep _ _ hk' hend
        · intro c hc
          apply hhead
          rw [List.nil_append, List.head?_append_of_ne_nil _ hm.ne] at hc
          exact hc
    · obtain ⟨m1, m2, m3⟩ := hm.prof (fun h => hbad (ho h)) (hf hfar)
      refine ⟨k0, k1, ⟨pre.map seg, cs.map seg, post.map seg, _, _, ?_, p0.cont, m1, m2, m3, q0.cont⟩, pk h1, qk h2⟩
      rw [List.map_append, List.map_append]
    · obtain ⟨m1, m2⟩ := hm.limits (fun h => hbad (ho h)) (hf hfar)
      have hKle : sp.kappa ≤ sp.kappa * (1 + 1 / 10 ^ 8) := by nlinarith
      have hSle : sp.sigma ≤ sp.sigma * (1 + 2 / 10 ^ 8) := by nlinarith
      rw [List.map_append, List.map_append]
      refine ⟨CurvatureAtMost.append (CurvatureAtMost.append ?_ m1) ?_, SharpnessAtMost.append (SharpnessAtMost.append ?_ m2) ?_⟩
      · rcases hpre with ⟨hd, rfl⟩ | rfl
        · exact (ha.limits H h1 (nz hd)).1.mono hKle
        · intro c hc; simp at hc
      · rcases hpost with ⟨hd, rfl⟩ | rfl
        · exact (hb.limits H h2 (nz hd)).2.1.mono hKle
        · intro c hc; simp at hc
      · rcases hpre with ⟨hd, rfl⟩ | rfl
        · exact (ha.limits H h1 (nz hd)).2.2.1.mono hSle
        · intro c hc; simp at hc
      · rcases hpost with ⟨hd, rfl⟩ | rfl
        · exact (hb.limits H h2 (nz hd)).2.2.2.mono hSle
        · intro c hc; simp at hc

/-- Predicted states that coincide, both reached in the same direction. -/
theorem join_same (H : Rng sp.kappa sp.sigma) (hd : d = 1 ∨ d = -1) (fa : PredFacts sp.kappa sp.sigma s1 d a)
    (fb : PredFacts sp.kappa sp.sigma s2 d b) {La Lb : ℝ} (hLa : 0 < La) (hLb : 0 < Lb) (hda : a.2.delta_s = d * La)
    (hdb : b.2.delta_s = d * Lb) (he : SF.state_equal a.1 b.1) (hass : SF.subtract_control_assert a.2 b.2)
    (hdir : 0 ≤ a.2.delta_s * (a.2.delta_s - b.2.delta_s)) :
    Leads ([SF.subtract_control a.2 b.2].map seg) (pose s1) (pose s2) |(SF.subtract_control a.2 b.2).delta_s|
      (SF.epsilon * (2 + 2 * radiusBound sp.kappa sp.sigma)) SF.epsilon 0 ∧
    |(SF.subtract_control a.2 b.2).kappa + (SF.subtract_control a.2 b.2).sigma * |(SF.subtract_control a.2 b.2).delta_s| - s2.kappa|
      ≤ SF.epsilon := by
  have he0 : (0:ℝ) < SF.epsilon := by norm_num [SF.epsilon]
  have hK := H.pos
  have hS := H.sigma
  have hKS : 0 < sp.kappa / sp.sigma := by positivity
  have hiK : 0 < 2 / sp.kappa := by positivity
  obtain ⟨hw, hk⟩ := state_equal_within he
  have hfull : ∀ {s : SF.State} {L : ℝ} {x : SF.Predicted}, 0 < L → x.2.delta_s = d * L →
      PredFacts sp.kappa sp.sigma s d x → |x.2.sigma| = sp.sigma ∧ rounded sp.kappa x.1.kappa = x.1.kappa ∧
        SF.sgn x.2.delta_s = d ∧ |x.2.delta_s| = L := by
    intro s L x hL hx hf
    have hne : x.2.delta_s ≠ 0 := by
      rw [hx]; rcases hd with rfl | rfl
      · simp [hL.ne']
      · simp [hL.ne']
    refine ⟨hf.sigma.resolve_left fun h0 => hne h0.2, (hf.round.resolve_right fun h0 => hne h0.1).1, ?_, ?_⟩
    · rw [hx, sgn_dir hd hL]
    · rw [hx, abs_pm hd, abs_of_pos hL]
  obtain ⟨a1, a2, a3, a4⟩ := hfull hLa hda fa
  obtain ⟨b1, b2, b3, b4⟩ := hfull hLb hdb fb
  have hsig : b.2.sigma = a.2.sigma := by
    unfold SF.subtract_control_assert at hass
    rw [a3, b3] at hass
    rcases hd with rfl | rfl <;> linarith
  have hle : Lb ≤ La := by
    have hdd : d * d = 1 := by rcases hd with rfl | rfl <;> norm_num
    rw [hda, hdb, show d * La * (d * La - d * Lb) = (d * d) * (La * (La - Lb)) by ring, hdd, one_mul] at hdir
    by_contra hc
    have := mul_neg_of_pos_of_neg hLa (show La - Lb < 0 by linarith)
    linarith
  have hkk : a.1.kappa = b.1.kappa := by
    rw [← a2, ← b2]
    refine rounded_near H.kappa ?_
    rw [a2, b2]; exact hk
  obtain ⟨c, hc⟩ : ∃ c, c = SF.subtract_control a.2 b.2 := ⟨_, rfl⟩
  have cd : c.delta_s = d * (La - Lb) := by
    rw [hc]; show a.2.delta_s - b.2.delta_s = _
    rw [hda, hdb]; ring
  have ck : c.kappa = s1.kappa := by rw [hc]; exact fa.kappa
  have cs : c.sigma = a.2.sigma := by rw [hc]; rfl
  have cl : |c.delta_s| = La - Lb := by rw [cd, abs_pm hd, abs_of_nonneg (by linarith)]
  rw [← hc]
  have ka := fa.kappa'
  have kb := fb.kappa'
  rw [a4] at ka
  rw [b4] at kb
  refine ⟨?_, ?_⟩
  · -- the rest of the first control
    obtain ⟨c', hc'⟩ : ∃ c' : SF.Control, c' = ⟨d * Lb, s1.kappa + a.2.sigma * (La - Lb), a.2.sigma⟩ := ⟨_, rfl⟩
    have hrev : SF.reverse_control b.2 = SF.reverse_control c' := by
      have e1 : (SF.reverse_control c').kappa = (SF.reverse_control b.2).kappa := by
        rw [reverse_kappa, reverse_kappa, b4, fb.kappa, ← kb, ← hkk, ka, hc']
        show s1.kappa + a.2.sigma * (La - Lb) + a.2.sigma * |d * Lb| = _
        rw [abs_pm hd, abs_of_pos hLb]; ring
      have e2 : (SF.reverse_control c').delta_s = (SF.reverse_control b.2).delta_s := by
        rw [hc']; show -(d * Lb) = -b.2.delta_s
        rw [hdb]
      have e3 : (SF.reverse_control c').sigma = (SF.reverse_control b.2).sigma := by
        rw [hc']; show -a.2.sigma = -b.2.sigma
        rw [hsig]
      cases hx : SF.reverse_control c' with | mk x1 x2 x3 =>
      cases hy : SF.reverse_control b.2 with | mk y1 y2 y3 =>
      rw [hx, hy] at e1 e2 e3
      simp only at e1 e2 e3
      rw [e1, e2, e3]
    have hback : ∀ p, arriveAll [seg (SF.reverse_control c')] (arriveAll [seg c'] p) = p := fun p =>
      (drivesAll_iff.1 (C32_reverse c' p (arriveAll [seg c'] p)
        (arriveAll [seg c', seg (SF.reverse_control c')] p) (drivesAll_iff.2 rfl) (drivesAll_iff.2 rfl)).2.1).symm
    have hsplit : arriveAll [seg a.2] (pose s1) = arriveAll [seg c'] (arriveAll [seg c] (pose s1)) := by
      show arrive (SF.sgn a.2.delta_s) a.2.kappa a.2.sigma |a.2.delta_s| (pose s1)
        = arrive (SF.sgn c'.delta_s) c'.kappa c'.sigma |c'.delta_s| (arrive (SF.sgn c.delta_s) c.kappa c.sigma |c.delta_s| (pose s1))
      have f1 : c'.delta_s = d * Lb := by rw [hc']
      have f2 : c'.kappa = s1.kappa + a.2.sigma * (La - Lb) := by rw [hc']
      have f3 : c'.sigma = a.2.sigma := by rw [hc']
      rw [f1, f2, f3, sgn_dir hd hLb, abs_pm hd, abs_of_pos hLb, a3, a4, fa.kappa]
      rcases hle.lt_or_eq with hlt | heq
      · rw [cl, cd, sgn_dir hd (by linarith), ck, cs, arrive_add, sub_add_cancel]
      · have hz : arrive (SF.sgn c.delta_s) c.kappa c.sigma |c.delta_s| (pose s1) = pose s1 := by
          have := drivesAll_iff.1 (drivesAll_zero [seg c] (pose s1) (by
            simp only [totalLength, List.map_cons, List.map_nil, List.sum_cons, List.sum_nil, add_zero]
            show |c.delta_s| = 0
            rw [cl, heq, sub_self]))
          exact this.symm
        rw [hz, heq]; simp
    have e : arriveAll ([c].map seg) (pose s1) = arriveAll ([a.2].map seg ++ ([SF.reverse_control b.2].map seg)) (pose s1) := by
      rw [hrev]
      show arriveAll [seg c] (pose s1) = arriveAll [seg (SF.reverse_control c')] (arriveAll [seg a.2] (pose s1))
      rw [hsplit, hback]
    have hl := (fa.start.append (nil_leads hw)).append fb.back
    rw [List.append_nil, a4, b4] at hl
    refine ⟨?_, by simp [totalLength, seg]⟩
    rw [e]
    have t1 := segTol_small H (c := seg a.2) a1
    have t2 := segTol_small H (c := seg (SF.reverse_control b.2)) (by
      show |-b.2.sigma| = _
      rw [abs_neg]; exact b1)
    have t3 : pathTol ([a.2].map seg ++ [SF.reverse_control b.2].map seg)
        = segTol (seg a.2) + segTol (seg (SF.reverse_control b.2)) := by simp [pathTol]
    have t4 : totalLength ([SF.reverse_control b.2].map seg) = Lb := by
      rw [← b4]
      simp [totalLength, seg, SF.reverse_control]
    have t5 : Lb ≤ sp.kappa / sp.sigma := by rw [← b4]; exact fb.len
    refine hl.arrives.mono ?_ (by linarith)
    rw [t3, t4, radiusBound]
    have h4 : sp.kappa / sp.sigma / 10 ^ 6 ≤ SF.epsilon / 4 * (sp.kappa / sp.sigma) := by
      rw [SF.epsilon, div_le_iff₀ (by norm_num)]; linarith
    have h5 := mul_pos he0 hKS
    have h6 := mul_pos he0 hiK
    have h7 := mul_le_mul_of_nonneg_left t5 he0.le
    have h8 := pathTol_nonneg ([c].map seg)
    linarith
  · rw [ck, cs, cl]
    have : s1.kappa + a.2.sigma * (La - Lb) - s2.kappa = 0 := by
      rw [hsig] at kb
      linear_combination hkk - ka + kb
    rw [this, abs_zero]; exact he0.le

/-- Predicted states that coincide. -/
theorem hjoin_leads (H : Rng sp.kappa sp.sigma) (hda : da = 1 ∨ da = -1) (hdb : db = 1 ∨ db = -1)
    (ha : PredOk sp.kappa sp.sigma s1 da a) (hb : PredOk sp.kappa sp.sigma s2 db b) (he : SF.state_equal a.1 b.1)
    (hj : Props.HC.Joinable a b) :
    Leads ([SF.subtract_control a.2 b.2].map seg) (pose s1) (pose s2) |(SF.subtract_control a.2 b.2).delta_s|
      (SF.epsilon * (2 + 2 * radiusBound sp.kappa sp.sigma + totalLength ([SF.subtract_control a.2 b.2].map seg))) SF.epsilon 0 ∧
    |(SF.subtract_control a.2 b.2).kappa + (SF.subtract_control a.2 b.2).sigma * |(SF.subtract_control a.2 b.2).delta_s| - s2.kappa|
      ≤ SF.epsilon := by
  have he0 : (0:ℝ) < SF.epsilon := by norm_num [SF.epsilon]
  have hR := H.radius_nonneg
  have hm := mul_nonneg he0.le hR
  have opposite : ∀ {d : ℝ}, (d = 1 ∨ d = -1) → PredOk sp.kappa sp.sigma s1 d a → PredOk sp.kappa sp.sigma s2 (-d) b → 
      Leads ([SF.subtract_control a.2 b.2].map seg) (pose s1) (pose s2) |(SF.subtract_control a.2 b.2).delta_s|
      (SF.epsilon * (2 + 2 * radiusBound sp.kappa sp.sigma + totalLength ([SF.subtract_control a.2 b.2].map seg))) SF.epsilon 0 ∧
      |(SF.subtract_control a.2 b.2).kappa + (SF.subtract_control a.2 b.2).sigma * |(SF.subtract_control a.2 b.2).delta_s| - s2.kappa|
      ≤ SF.epsilon := by
    intro d hd h1 h2
    obtain ⟨g1, _, g3⟩ := join_leads H hd h1 h2 he fun h => (hj h).1
    exact ⟨g1.mono (by linarith) le_rfl le_rfl, g3⟩
  by_cases hab : db = -da
  · subst hab; exact opposite hda ha hb
  · obtain rfl : db = da := by
      rcases hda with rfl | rfl <;> rcases hdb with rfl | rfl <;> simp at hab ⊢
    have hdn : -db = 1 ∨ -db = -1 := by rcases hda with h | h <;> rw [h] <;> simp
    have fa := ha.facts H hda
    have fb := hb.facts H hda
    cases hb with
    | stay h => exact opposite hda ha (.stay h)
    | drive junk up h1 h2 =>
      have ob : PredOk sp.kappa sp.sigma s2 db _ := .drive junk up h1 h2
      cases ha with
      | stay h => exact opposite hdn (.stay h) (by rw [neg_neg]; exact ob)
      | drive junk' up' h1' h2' =>
        obtain ⟨g1, g2⟩ := join_same H hda fa fb (by split_ifs <;> apply div_pos <;> linarith [H.sigma])
          (by split_ifs <;> apply div_pos <;> linarith [H.sigma]) rfl rfl he (hj he).1 (hj he).2
        refine ⟨g1.mono ?_ le_rfl le_rfl, g2⟩
        have := mul_nonneg he0.le (totalLength_nonneg ([SF.subtract_control
          (SF.predicted junk' s1 ⟨db * (if up' then (sp.kappa - |s1.kappa|) / sp.sigma else |s1.kappa| / sp.sigma), s1.kappa, sg up' * (SF.sgn s1.kappa * sp.sigma)⟩).2
          (SF.predicted junk s2 ⟨db * (if up then (sp.kappa - |s2.kappa|) / sp.sigma else |s2.kappa| / sp.sigma), s2.kappa, sg up * (SF.sgn s2.kappa * sp.sigma)⟩).2].map seg))
        linarith

/-- Predicted states that coincide. -/
theorem hpair_join (H : Rng sp.kappa sp.sigma) (hda : da = 1 ∨ da = -1) (hdb : db = 1 ∨ db = -1)
    (ha : PredOk sp.kappa sp.sigma s1 da a) (hb : PredOk sp.kappa sp.sigma s2 db b) (he : SF.state_equal a.1 b.1)
    (hbad : ¬ Props.HC.Joinable a b → bad) (hfar : ¬ far) :
    ∃ cs' len', SF.pair_controls fc a b = some cs' ∧ SF.pair_distance fd a b = some len' ∧
      HPairRes sp bad far s1 s2 cs' len' := by
  classical
  have he0 : (0:ℝ) < SF.epsilon := by norm_num [SF.epsilon]
  have he' : SF.epsilon = 1 / 10000 := by norm_num [SF.epsilon]
  have hK := H.pos
  have hS := H.sigma
  have hKS : 0 < sp.kappa / sp.sigma := by positivity
  have hiK : 0 < 60 / sp.kappa := by positivity
  have hR := H.radius_nonneg
  have fa := ha.facts H hda
  have fb := hb.facts H hdb
  have hsub : (SF.subtract_control a.2 b.2).delta_s = a.2.delta_s - b.2.delta_s := rfl
  have htl : totalLength ([SF.subtract_control a.2 b.2].map seg) = |(SF.subtract_control a.2 b.2).delta_s| := by
    simp [totalLength, seg]
  refine ⟨_, _, if_pos he, if_pos he, by simp, ?_, ?_, fun hnb => ?_, fun hnb hsh hz => ?_, fun _ h => absurd h hfar,
    fun _ h => absurd h hfar⟩
  · rw [htl, sub_self, abs_zero]
    have := mul_nonneg he0.le hR
    linarith
  · rw [hsub]
    have h1 := abs_sub a.2.delta_s b.2.delta_s
    have := fa.len
    have := fb.len
    have : 0 ≤ dist2 s1 s2 := sqrt_nonneg _
    linarith
  · have hA : Props.HC.Joinable a b := by by_contra h; exact hnb (hbad h)
    refine (hjoin_leads H hda hdb ha hb he hA).1.mono ?_ ?_ ?_
    · have := totalLength_nonneg ([SF.subtract_control a.2 b.2].map seg)
      have e1 := mul_nonneg he0.le hR
      have e2 := mul_nonneg he0.le this
      have e3 := mul_nonneg (mul_nonneg he0.le hK.le) this
      linarith
    · have := mul_pos he0 hK
      linarith
    · have := mul_nonneg he0.le hR
      linarith
  · refine ⟨_, ⟨?_, .inl rfl, trivial⟩, ?_⟩
    · rcases hsh (SF.subtract_control a.2 b.2) (by simp) with h | h
      · refine .inr ⟨h, ?_⟩
        show a.2.kappa = 0 ∨ |a.2.kappa| > _
        rw [fa.kappa, ← he']; exact hz.resolve_left hfar
      · exact .inl h
    · intro c hc
      obtain rfl : SF.subtract_control a.2 b.2 = c := by simpa using hc
      rfl

end

namespace HC

open SF.HC

variable {sp : SF.HCSpace}

theorem predict_ok (junk : ℝ) (s : SF.State) :
    predict_state sp junk s ≠ [] ∧ ∀ a ∈ predict_state sp junk s, ∃ d : ℝ, (d = 1 ∨ d = -1) ∧ PredOk sp.kappa sp.sigma s d a := by
  unfold predict_state
  by_cases h : |s.kappa| < SF.epsilon ∨ sp.kappa - |s.kappa| < SF.epsilon
  · rw [if_pos h]
    refine ⟨by simp, fun a ha => ⟨1, .inl rfl, ?_⟩⟩
    rw [List.mem_singleton.1 ha]
    exact .stay h
  · rw [if_neg h]
    push Not at h
    refine ⟨by simp, fun a ha => ?_⟩
    have hup := fun d => PredOk.drive (K := sp.kappa) (S := sp.sigma) (s := s) (d := d) junk true h.1 h.2
    have hdn := fun d => PredOk.drive (K := sp.kappa) (S := sp.sigma) (s := s) (d := d) junk false h.1 h.2
    simp only [if_true, Bool.false_eq_true, if_false] at hup hdn
    have hs := sgn_mul_self s.kappa
    simp only [List.map_cons, List.map_nil, List.mem_cons, List.not_mem_nil, or_false] at ha
    rcases ha with rfl | rfl | rfl | rfl
    · refine ⟨1, .inl rfl, ?_⟩
      convert hup 1 using 3
      · rw [hs, one_mul]
      · simp [sg]
    · refine ⟨-1, .inr rfl, ?_⟩
      convert hup (-1) using 3
      · rw [hs]; ring
      · simp [sg]
    · refine ⟨1, .inl rfl, ?_⟩
      convert hdn 1 using 3
      · rw [hs, one_mul]
      · simp [sg]
    · refine ⟨-1, .inr rfl, ?_⟩
      convert hdn (-1) using 3
      · rw [hs]; ring
      · simp [sg]

/-- States too far apart for the shortcuts of the planners. -/
def Far (sp : SF.HCSpace) (s1 s2 : SF.State) : Prop :=
  4 * radiusBound sp.kappa sp.sigma + 2 * SF.epsilon + 4 * (sp.kappa / sp.sigma) ≤ dist2 s1 s2

theorem far_pair (h : InRange sp.kappa sp.sigma) {junk : ℝ} {s1 s2 : SF.State} (hF : Far sp s1 s2)
    {a b : SF.Predicted} (ha : a ∈ predict_state sp junk s1) (hb : b ∈ predict_state sp junk s2) : HFarPair sp a.1 b.1 := by
  have H := h.rng
  obtain ⟨da, hda, oa⟩ := (predict_ok junk s1).2 a ha
  obtain ⟨db, hdb, ob⟩ := (predict_ok junk s2).2 b hb
  have n1 := (oa.facts H hda).near
  have n2 := (ob.facts H hdb).near
  have t3 := dist2_triangle s1 a.1 s2
  have t4 := dist2_triangle a.1 b.1 s2
  rw [dist2_comm b.1 s2] at t4
  unfold Far at hF
  unfold HFarPair
  linarith

theorem far_apart (h : InRange sp.kappa sp.sigma) {a b : SF.State} (hF : HFarPair sp a b) : ¬ SF.state_equal a b := by
  intro he
  have := (state_equal_within he).1.1
  rw [pose_dist] at this
  have := h.rng.radius_nonneg
  have he0 : (0:ℝ) < SF.epsilon := by norm_num [SF.epsilon]
  unfold HFarPair at hF
  linarith

/-- The pairs of predicted states. -/
theorem pair (h : InRange sp.kappa sp.sigma) (junk : ℝ) (s1 s2 : SF.State)
    (hfar : dist2 s1 s2 + 4 * (sp.kappa / sp.sigma) ≤ 10 ^ 100) :
    ∀ a ∈ predict_state sp junk s1, ∀ b ∈ predict_state sp junk s2, ∃ cs len,
      SF.pair_controls (controls_planners sp) a b = some cs ∧ SF.pair_distance (distance_planners sp) a b = some len ∧
      HPairRes sp (Props.HC.OpposedPair sp a.1 b.1 ∨ ¬ Props.HC.Joinable a b) (Far sp s1 s2) s1 s2 cs len := by
  have H := h.rng
  intro a ha b hb
  obtain ⟨da, hda, oa⟩ := (predict_ok junk s1).2 a ha
  obtain ⟨db, hdb, ob⟩ := (predict_ok junk s2).2 b hb
  have fa := oa.facts H hda
  have fb := ob.facts H hdb
  by_cases he : SF.state_equal a.1 b.1
  · exact hpair_join H hda hdb oa ob he .inr fun hF => far_apart h (far_pair h hF ha hb) he
  · have n1 := fa.near
    have n2 := fb.near
    have t1 := dist2_triangle a.1 s1 b.1
    have t2 := dist2_triangle s1 s2 b.1
    rw [dist2_comm a.1 s1] at t1
    obtain ⟨cs, len, m1, m2, m3⟩ := mid h a.1 b.1 (by linarith)
    exact hpair_apart H fa fb he m1 m2 m3 .inl fun hF => far_pair h hF ha hb

/-- Everything about `get_distance` and `get_controls`. -/
theorem plan (h : InRange sp.kappa sp.sigma) (junk : ℝ) (s1 s2 : SF.State)
    (hfar : dist2 s1 s2 + 4 * (sp.kappa / sp.sigma) ≤ 10 ^ 100) :
    (∃ m, get_distance sp junk s1 s2 = some m ∧
      m ≤ dist2 s1 s2 + 50 * (sp.kappa / sp.sigma) + 60 / sp.kappa ∧
      ∀ cs, IsControls sp junk s1 s2 cs →
        |totalLength (cs.map seg) - m| ≤ SF.epsilon * (1 + 4 * radiusBound sp.kappa sp.sigma)) ∧
    (∃ cs, IsControls sp junk s1 s2 cs) ∧
    ∀ cs, IsControls sp junk s1 s2 cs → ∃ len,
      HPairRes sp (Props.HC.Opposed sp junk s1 s2 ∨ ¬ Props.HC.AllJoinable sp junk s1 s2) (Far sp s1 s2) s1 s2 cs len := by
  have hp := pair h junk s1 s2 hfar
  obtain ⟨⟨m, h1, ⟨cs, h2⟩, h3⟩, h4, h5⟩ := min_spec (fc := controls_planners sp) (fd := distance_planners sp)
    (predict_ok junk s1).1 (predict_ok junk s2).1
    (P := fun cs len => HPairRes sp (Props.HC.Opposed sp junk s1 s2 ∨ ¬ Props.HC.AllJoinable sp junk s1 s2)
      (Far sp s1 s2) s1 s2 cs len) (by
      intro a ha b hb
      obtain ⟨cs, len, e1, e2, e3⟩ := hp a ha b hb
      have hmono : Props.HC.OpposedPair sp a.1 b.1 ∨ ¬ Props.HC.Joinable a b →
          Props.HC.Opposed sp junk s1 s2 ∨ ¬ Props.HC.AllJoinable sp junk s1 s2 := by
        rintro (ho | ho)
        · exact .inl ⟨a, ha, b, hb, ho⟩
        · exact .inr fun hA => ho (hA a ha b hb)
      exact ⟨cs, len, e1, e2, e3.ne, e3.length, e3.bound, fun hn => e3.leads fun hx => hn (hmono hx),
        fun hn => e3.rep fun hx => hn (hmono hx), fun hn => e3.prof fun hx => hn (hmono hx),
        fun hn => e3.limits fun hx => hn (hmono hx)⟩)
  exact ⟨⟨m, h1, h2.bound, fun cs hcs => h3 _ (fun _ _ hP => hP.length) cs hcs⟩, h4, h5⟩

/-- Far states have no opposed circles and no coinciding predictions. -/
theorem far_good (h : InRange sp.kappa sp.sigma) {junk : ℝ} {s1 s2 : SF.State} (hF : Far sp s1 s2) :
    ¬ Props.HC.Opposed sp junk s1 s2 ∧ Props.HC.AllJoinable sp junk s1 s2 := by
  have hR := h.rng.radius_nonneg
  have he : SF.epsilon = 1 / 10000 := by norm_num [SF.epsilon]
  constructor
  · rintro ⟨a, ha, b, hb, hop⟩
    have hfp := far_pair h hF ha hb
    unfold HFarPair at hfp
    rw [he] at hfp
    rcases hop with ⟨_, _, ho⟩ | ⟨_, _, ho⟩
    · have := Spec.HcRs.opposed_near h ho
      linarith
    · have := Spec.HcRs.opposed_near h ho
      linarith
  · intro a ha b hb he'
    exact absurd he' (far_apart h (far_pair h hF ha hb))

/-- States that need no prediction. -/
theorem predict_stay {junk : ℝ} {s : SF.State} (h : |s.kappa| < SF.epsilon ∨ sp.kappa - |s.kappa| < SF.epsilon) :
    predict_state sp junk s = [(s, ⟨0, s.kappa, 0⟩)] := by
  rw [predict_state, if_pos h]

/-- One pair only, apart, no prediction. -/
theorem single {junk : ℝ} {s1 s2 : SF.State} (h1 : |s1.kappa| < SF.epsilon ∨ sp.kappa - |s1.kappa| < SF.epsilon)
    (h2 : |s2.kappa| < SF.epsilon ∨ sp.kappa - |s2.kappa| < SF.epsilon) (hne : ¬ SF.state_equal s1 s2) {cs : List SF.Control}
    {len : ℝ} (hc : (controls_planners sp).call s1 s2 = some cs) (hl : (distance_planners sp).call s1 s2 = some len) :
    (∀ x, IsControls sp junk s1 s2 x ↔ x = cs) ∧ get_distance sp junk s1 s2 = some len := by
  have he : ¬ |(0:ℝ)| > SF.epsilon := by norm_num [SF.epsilon]
  have pc : SF.pair_controls (controls_planners sp) (s1, ⟨0, s1.kappa, 0⟩) (s2, ⟨0, s2.kappa, 0⟩) = some cs := by
    rw [SF.pair_controls, if_neg hne]
    simp only [hc, Option.map_some, if_neg he]
  have pd : SF.pair_distance (distance_planners sp) (s1, ⟨0, s1.kappa, 0⟩) (s2, ⟨0, s2.kappa, 0⟩) = some len := by
    rw [SF.pair_distance, if_neg hne]
    simp only [hl, Option.map_some, if_neg he]
  constructor
  · intro x
    unfold IsControls SF.IsMinControls
    simp only [predict_stay h1, predict_stay h2, SF.pairs, List.flatMap_cons, List.flatMap_nil,
      List.map_cons, List.map_nil, List.append_nil, List.mapM_cons, List.mapM_nil, pc]
    constructor
    · rintro ⟨l, hl, hx, _⟩
      simp at hl
      subst hl
      simpa using hx
    · rintro rfl
      exact ⟨[x], by simp, by simp, by simp⟩
  · rw [get_distance, SF.min_distance]
    simp only [predict_stay h1, predict_stay h2, SF.pairs, List.flatMap_cons, List.flatMap_nil,
      List.map_cons, List.map_nil, List.append_nil, List.mapM_cons, List.mapM_nil, pd]
    simp [List.min?]

end HC

/-- The end of a path from `get_path`. -/
theorem integrate_of_rep {cs : List SF.Control} (hne : cs ≠ [])
    (hr : ∃ k', Representable k' (cs.map seg) ∧ ∀ c ∈ cs.head?, c.kappa = k') {disc : ℝ} (hd : 0 < disc) {s1 s2 : SF.State} {a b : ℝ}
    (hl : LeadsTo cs s1 s2 a b) :
    ∃ l e, SF.hcIntegrate disc s1 cs = some l ∧ l.getLast? = some e ∧
      Within (a + 2 * pathTol (cs.map seg)) b (pose e) (pose s2) := by
  obtain ⟨k', hr, hh⟩ := hr
  obtain ⟨e, h1, h2⟩ := hl
  cases cs with
  | nil => exact absurd rfl hne
  | cons c cs =>
    have hk : c.kappa = k' := hh c rfl
    rw [← hk] at hr
    obtain ⟨l, e', q, g1, g2, g3, g4⟩ := C11_hc_integrate_end_near hd s1 c cs hr
    refine ⟨l, e', g1, g2, ?_⟩
    rw [drivesAll_iff.1 h1] at h2
    rw [drivesAll_iff.1 g3] at g4
    exact (g4.within.trans h2).mono (by linarith) (by linarith)

end Spec
