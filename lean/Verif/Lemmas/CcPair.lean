import Verif.Lemmas.Predict

/-!
# CC-Dubins: paths between a pair of predicted states
-/

noncomputable section

namespace Spec

open Real Props

/-- What is guaranteed for the path of one pair of predicted states; `bad` is what has to be excluded. -/
structure PairRes (sp : SF.HCSpace) (d : ℝ) (bad far : Prop) (s1 s2 : SF.State) (cs : List SF.Control) (len : ℝ) : Prop where
  ne : cs ≠ []
  length : |totalLength (cs.map seg) - len| ≤ SF.epsilon * (1 + 4 * radiusBound sp.kappa sp.sigma)
  way : SF.epsilon * (1 + radiusBound sp.kappa sp.sigma) ≤ ccA sp.kappa sp.sigma → OneWay d cs
  bound : len ≤ dist2 s1 s2 + 50 * (sp.kappa / sp.sigma) + 60 / sp.kappa
  leads : ¬ bad → Leads (cs.map seg) (pose s1) (pose s2) len
    (SF.epsilon * (4 + 9 * radiusBound sp.kappa sp.sigma + (4 + sp.kappa) * totalLength (cs.map seg)))
    (SF.epsilon * (3 + 2 * sp.kappa)) (SF.epsilon * (1 + 4 * radiusBound sp.kappa sp.sigma))
  flat : ¬ bad → far ∨ s1.kappa = 0 ∨ |s1.kappa| > SF.epsilon → ∀ c ∈ cs, c.sigma = 0 → c.kappa = 0 ∨ |c.kappa| > SF.epsilon
  cont : ¬ bad → far → |s1.kappa| ≤ sp.kappa → |s2.kappa| ≤ sp.kappa →
    ∃ k0 k1, CurvatureContinuous k0 (cs.map seg) k1 ∧ |k0 - s1.kappa| ≤ SF.epsilon * (1 + sp.sigma) ∧
      |k1 - s2.kappa| ≤ SF.epsilon * (1 + sp.sigma)

section
variable {sp : SF.HCSpace} {s1 s2 : SF.State} {d : ℝ} {a b : SF.Predicted} {bad opp far far' : Prop}
  {fd : SF.SubPlanners ℝ} {fc : SF.SubPlanners (List SF.Control)}

theorem dist2_comm (a b : SF.State) : dist2 a b = dist2 b a := by
  unfold dist2; congr 1; ring

theorem dist2_triangle (a b c : SF.State) : dist2 a c ≤ dist2 a b + dist2 b c := by
  rw [← pose_dist, ← pose_dist, ← pose_dist]
  exact Config.dist_triangle _ _ _

/-- Predicted states that are apart. -/
theorem pair_apart (H : Rng sp.kappa sp.sigma) (ha : PredFacts sp.kappa sp.sigma s1 d a)
    (hb : PredFacts sp.kappa sp.sigma s2 (-d) b) (hne : ¬ SF.state_equal a.1 b.1) {cs : List SF.Control} {len : ℝ}
    (hc : fc.call a.1 b.1 = some cs) (hl : fd.call a.1 b.1 = some len) (hm : Mid sp d opp far' a.1 b.1 cs len)
    (ho : opp → bad) (hf : far → far') :
    ∃ cs' len', SF.pair_controls fc a b = some cs' ∧ SF.pair_distance fd a b = some len' ∧
      PairRes sp d bad far s1 s2 cs' len' := by
  classical
  have he : (0:ℝ) < SF.epsilon := by norm_num [SF.epsilon]
  have hK := H.pos
  have hS := H.sigma
  have hR : 0 ≤ radiusBound sp.kappa sp.sigma := by rw [radiusBound]; positivity
  obtain ⟨pre, l0, k0, p0, pc, pl, pk⟩ := ha.start_part H
  obtain ⟨post, l1, k1, q0, qc, ql, qk⟩ := hb.end_part H
  refine ⟨pre ++ cs ++ post, len + l0 + l1, ?_, ?_, ?_⟩
  · rw [SF.pair_controls, if_neg hne, hc]
    simp only [Option.map_some, pc, qc]
  · rw [SF.pair_distance, if_neg hne, hl]
    simp only [Option.map_some, pl, ql]
  · have tl : totalLength ((pre ++ cs ++ post).map seg)
        = totalLength (pre.map seg) + totalLength (cs.map seg) + totalLength (post.map seg) := by
      simp only [List.map_append, totalLength_append]
    have tp : totalLength (pre.map seg) = l0 := by
      have := abs_nonpos_iff.1 p0.leads.length; linarith
    have tq : totalLength (post.map seg) = l1 := by
      have := abs_nonpos_iff.1 q0.leads.length; linarith
    have hl0 := p0.len
    have hl1 := q0.len
    have hLm := totalLength_nonneg (cs.map seg)
    refine ⟨by simp [hm.ne], ?_, fun hA => (p0.way.append (hm.way hA)).append q0.way, ?_, fun hbad => ?_, fun hbad _ => ?_,
      fun hbad hfar h1 h2 => ?_⟩
    · rw [tl, tp, tq]
      refine le_trans (le_of_eq ?_) hm.length
      congr 1; ring
    · have h1 := hm.bound
      have h2 := dist2_triangle a.1 s1 b.1
      have h3 := dist2_triangle s1 s2 b.1
      have h4 := ha.near
      have h5 := hb.near
      rw [dist2_comm a.1 s1] at h2
      linarith
    · have hm' := hm.leads fun h => hbad (ho h)
      have := (p0.leads.append hm').append q0.leads
      rw [← List.map_append, ← List.map_append] at this
      refine ⟨this.arrives.mono ?_ ?_, ?_⟩
      · rw [tl, tp, tq, add_le_add_iff_right]
        have e1 := mul_nonneg he.le hR
        have e2 := mul_nonneg he.le hLm
        have e3 := mul_nonneg he.le hl0.1
        have e4 := mul_nonneg he.le hl1.1
        have e5 := mul_nonneg (mul_nonneg he.le hK.le) hl0.1
        have e6 := mul_nonneg (mul_nonneg he.le hK.le) hLm
        have e7 := mul_nonneg (mul_nonneg he.le hK.le) hl1.1
        linarith
      · linarith
      · have h1 := this.length
        rw [show len + l0 + l1 = l0 + len + l1 by ring]
        linarith
    · intro c hc hc0
      rcases List.mem_append.1 hc with hc | hc
      · rcases List.mem_append.1 hc with hc | hc
        · exact absurd hc0 (p0.flat c hc)
        · exact hm.flat (fun h => hbad (ho h)) c hc hc0
      · exact absurd hc0 (q0.flat c hc)
    · refine ⟨k0, k1, ?_, pk h1, qk h2⟩
      rw [List.map_append, List.map_append]
      exact (p0.cont.append (hm.cont (fun h => hbad (ho h)) (hf hfar))).append q0.cont

theorem rounded_cases (K x : ℝ) : rounded K x = 0 ∨ rounded K x = K ∨ rounded K x = -K := by
  unfold rounded; split_ifs <;> simp

theorem rounded_near {K x y : ℝ} (hK : SF.epsilon < K) (h : |rounded K y - rounded K x| ≤ SF.epsilon) :
    rounded K x = rounded K y := by
  have he : (0:ℝ) < SF.epsilon := by norm_num [SF.epsilon]
  obtain ⟨h1, h2⟩ := abs_le.1 h
  rcases rounded_cases K x with hx | hx | hx <;> rcases rounded_cases K y with hy | hy | hy <;>
    rw [hx, hy] at h1 h2 ⊢ <;> linarith

theorem sgn_dir {d L : ℝ} (hd : d = 1 ∨ d = -1) (hL : 0 < L) : SF.sgn (d * L) = d := by
  rcases hd with rfl | rfl
  · rw [SF.sgn, if_neg (by linarith)]
  · rw [SF.sgn, if_pos (by linarith)]

/-- Predicted states that coincide, with the assertion of `subtract_control`. -/
theorem join_leads (H : Rng sp.kappa sp.sigma) (hd : d = 1 ∨ d = -1) (ha : PredOk sp.kappa sp.sigma s1 d a)
    (hb : PredOk sp.kappa sp.sigma s2 (-d) b) (he : SF.state_equal a.1 b.1) (hass : SF.PairAsserts a b) :
    Leads ([SF.subtract_control a.2 b.2].map seg) (pose s1) (pose s2) |(SF.subtract_control a.2 b.2).delta_s|
      (SF.epsilon * (1 + radiusBound sp.kappa sp.sigma + totalLength ([SF.subtract_control a.2 b.2].map seg))) SF.epsilon 0 ∧
    (SF.subtract_control a.2 b.2).kappa = s1.kappa ∧
    |(SF.subtract_control a.2 b.2).kappa + (SF.subtract_control a.2 b.2).sigma * |(SF.subtract_control a.2 b.2).delta_s| - s2.kappa|
      ≤ SF.epsilon := by
  have he0 : (0:ℝ) < SF.epsilon := by norm_num [SF.epsilon]
  have hK := H.pos
  have hS := H.sigma
  have hKS : 0 < sp.kappa / sp.sigma := by positivity
  have hiK : 0 < 2 / sp.kappa := by positivity
  have hd' : -d = 1 ∨ -d = -1 := by rcases hd with rfl | rfl <;> simp
  have hass := hass he
  obtain ⟨hw, hk⟩ := state_equal_within he
  have fa := ha.facts H hd
  have fb := hb.facts H hd'
  have hab : ∀ {s : SF.State} {e : ℝ} {x : SF.Predicted}, (e = 1 ∨ e = -1) → PredOk sp.kappa sp.sigma s e x →
      (x = (s, ⟨0, s.kappa, 0⟩) ∨ ∃ L, 0 < L ∧ x.2.delta_s = e * L) := by
    intro s e x he hx
    cases hx with
    | stay _ => exact .inl rfl
    | drive junk up h1 h2 =>
      refine .inr ⟨_, ?_, rfl⟩
      split_ifs <;> apply div_pos <;> linarith
  obtain ha' := hab hd ha
  obtain hb' := hab hd' hb
  have hfull : ∀ {s : SF.State} {e L : ℝ} {x : SF.Predicted}, (e = 1 ∨ e = -1) → 0 < L → x.2.delta_s = e * L →
      PredFacts sp.kappa sp.sigma s e x → |x.2.sigma| = sp.sigma ∧ rounded sp.kappa x.1.kappa = x.1.kappa ∧
        SF.sgn x.2.delta_s = e ∧ |x.2.delta_s| = L := by
    intro s e L x he hL hx hf
    have hne : x.2.delta_s ≠ 0 := by
      rw [hx]; rcases he with rfl | rfl
      · simp [hL.ne']
      · simp [hL.ne']
    refine ⟨hf.sigma.resolve_left fun h0 => hne h0.2, (hf.round.resolve_right fun h0 => hne h0.1).1, ?_, ?_⟩
    · rw [hx, sgn_dir he hL]
    · rw [hx, abs_pm he, abs_of_pos hL]
  unfold SF.subtract_control_assert at hass
  rcases ha' with rfl | ⟨La, hLa, hda⟩ <;> rcases hb' with rfl | ⟨Lb, hLb, hdb⟩
  · have e : SF.subtract_control (⟨0, s1.kappa, 0⟩ : SF.Control) ⟨0, s2.kappa, 0⟩ = ⟨0, s1.kappa, 0⟩ := by
      simp [SF.subtract_control]
    simp only [e]
    refine ⟨?_, trivial, ?_⟩
    · have := (stay_leads (pose s1) s1.kappa).append (nil_leads hw)
      simp only [List.append_nil, add_zero, zero_add, zero_mul, abs_zero] at this ⊢
      refine this.mono ?_ le_rfl le_rfl
      have h1 : totalLength ([(⟨0, s1.kappa, 0⟩ : SF.Control)].map seg) = 0 := by simp [totalLength, seg]
      rw [h1, radiusBound]
      have := mul_pos he0 hKS
      have := mul_pos he0 hiK
      linarith
    · simp only [abs_zero, mul_zero, add_zero]
      rw [abs_sub_comm]; exact hk
  · exfalso
    obtain ⟨h1, _, h3, _⟩ := hfull hd' hLb hdb fb
    rw [h3] at hass
    simp only [mul_zero] at hass
    rcases hd with rfl | rfl
    · have : b.2.sigma = 0 := by linarith
      rw [this, abs_zero] at h1; linarith
    · have : b.2.sigma = 0 := by linarith
      rw [this, abs_zero] at h1; linarith
  · exfalso
    obtain ⟨h1, _, h3, _⟩ := hfull hd hLa hda fa
    rw [h3] at hass
    simp only [mul_zero] at hass
    rcases hd with rfl | rfl
    · have : a.2.sigma = 0 := by linarith
      rw [this, abs_zero] at h1; linarith
    · have : a.2.sigma = 0 := by linarith
      rw [this, abs_zero] at h1; linarith
  · obtain ⟨a1, a2, a3, a4⟩ := hfull hd hLa hda fa
    obtain ⟨b1, b2, b3, b4⟩ := hfull hd' hLb hdb fb
    have hsig : b.2.sigma = -a.2.sigma := by
      rw [a3, b3] at hass
      rcases hd with rfl | rfl <;> linarith
    have hkk : a.1.kappa = b.1.kappa := by
      rw [← a2, ← b2]
      refine rounded_near H.kappa ?_
      rw [a2, b2]; exact hk
    obtain ⟨c, hc⟩ : ∃ c, c = SF.subtract_control a.2 b.2 := ⟨_, rfl⟩
    have cd : c.delta_s = d * (La + Lb) := by
      rw [hc]; show a.2.delta_s - b.2.delta_s = _
      rw [hda, hdb]; ring
    have ck : c.kappa = s1.kappa := by rw [hc]; exact fa.kappa
    have cs : c.sigma = a.2.sigma := by rw [hc]; rfl
    have cl : |c.delta_s| = La + Lb := by rw [cd, abs_pm hd, abs_of_pos (by linarith)]
    rw [← hc]
    have ka := fa.kappa'
    have kb := fb.kappa'
    rw [a4] at ka
    rw [b4] at kb
    refine ⟨?_, ck, ?_⟩
    · have e : arriveAll ([c].map seg) (pose s1) = arriveAll ([a.2].map seg ++ ([SF.reverse_control b.2].map seg)) (pose s1) := by
        show arrive (SF.sgn c.delta_s) c.kappa c.sigma |c.delta_s| (pose s1)
          = arrive (SF.sgn (SF.reverse_control b.2).delta_s) (SF.reverse_control b.2).kappa (SF.reverse_control b.2).sigma
              |(SF.reverse_control b.2).delta_s| (arrive (SF.sgn a.2.delta_s) a.2.kappa a.2.sigma |a.2.delta_s| (pose s1))
        have r1 : (SF.reverse_control b.2).delta_s = d * Lb := by
          show -b.2.delta_s = _
          rw [hdb]; ring
        have r2 : (SF.reverse_control b.2).sigma = a.2.sigma := by
          show -b.2.sigma = _
          rw [hsig]; ring
        have r3 : (SF.reverse_control b.2).kappa = s1.kappa + a.2.sigma * La := by
          rw [reverse_kappa, b4, fb.kappa, ← kb, ← hkk, ka]
        rw [cl, cd, sgn_dir hd (by linarith), ck, cs, r1, r2, r3, sgn_dir hd hLb, a3, a4, fa.kappa, abs_pm hd, abs_of_pos hLb]
        exact (arrive_add _ _ _ _ _ _).symm
      have hl := (fa.start.append (nil_leads hw)).append fb.back
      rw [List.append_nil, a4, b4] at hl
      refine ⟨?_, by simp [totalLength, seg]⟩
      rw [e]
      have t1 := segTol_small H (c := seg a.2) a1
      have t2 := segTol_small H (c := seg (SF.reverse_control b.2)) (by
        show |-b.2.sigma| = _
        rw [abs_neg]; exact b1)
      have t3 : pathTol ([a.2].map seg ++ [SF.reverse_control b.2].map seg)
          = segTol (seg a.2) + segTol (seg (SF.reverse_control b.2)) := by simp [pathTol]
      have t4 : totalLength ([SF.reverse_control b.2].map seg) = Lb := by
        rw [← b4]
        simp [totalLength, seg, SF.reverse_control]
      have t5 : totalLength ([c].map seg) = La + Lb := by
        rw [← cl]; simp [totalLength, seg]
      refine hl.arrives.mono ?_ (by linarith)
      rw [t3, t4, t5, radiusBound]
      have h4 : sp.kappa / sp.sigma / 10 ^ 6 ≤ SF.epsilon * (sp.kappa / sp.sigma) := by
        rw [SF.epsilon, div_le_iff₀ (by norm_num)]; linarith
      have h5 := mul_pos he0 hKS
      have h6 := mul_pos he0 hiK
      have h7 := mul_pos he0 hLa
      have h8 := pathTol_nonneg ([c].map seg)
      linarith
    · rw [ck, cs, cl]
      have : s1.kappa + a.2.sigma * (La + Lb) - s2.kappa = 0 := by
        rw [hsig] at kb
        linear_combination hkk - ka + kb
      rw [this, abs_zero]; exact he0.le

/-- Predicted states that coincide. -/
theorem pair_join (H : Rng sp.kappa sp.sigma) (hd : d = 1 ∨ d = -1) (ha : PredOk sp.kappa sp.sigma s1 d a)
    (hb : PredOk sp.kappa sp.sigma s2 (-d) b) (he : SF.state_equal a.1 b.1) (hbad : ¬ SF.PairAsserts a b → bad) (hfar : ¬ far) :
    ∃ cs' len', SF.pair_controls fc a b = some cs' ∧ SF.pair_distance fd a b = some len' ∧
      PairRes sp d bad far s1 s2 cs' len' := by
  classical
  have he0 : (0:ℝ) < SF.epsilon := by norm_num [SF.epsilon]
  have hK := H.pos
  have hS := H.sigma
  have hKS : 0 < sp.kappa / sp.sigma := by positivity
  have hiK : 0 < 60 / sp.kappa := by positivity
  have hR : 0 ≤ radiusBound sp.kappa sp.sigma := by rw [radiusBound]; positivity
  have hd' : -d = 1 ∨ -d = -1 := by rcases hd with rfl | rfl <;> simp
  have fa := ha.facts H hd
  have fb := hb.facts H hd'
  have hsub : (SF.subtract_control a.2 b.2).delta_s = a.2.delta_s - b.2.delta_s := rfl
  have htl : totalLength ([SF.subtract_control a.2 b.2].map seg) = |(SF.subtract_control a.2 b.2).delta_s| := by
    simp [totalLength, seg]
  refine ⟨_, _, if_pos he, if_pos he, by simp, ?_, fun _ => ?_, ?_, fun hnb => ?_, fun hnb hz => ?_, fun hnb _ _ _ => ?_⟩
  · rw [htl, sub_self, abs_zero]
    have := mul_nonneg he0.le hR
    linarith
  · intro c hc
    rw [List.mem_singleton.1 hc, hsub]
    have := fa.way
    have := fb.way
    linarith
  · rw [hsub]
    have h1 := abs_sub a.2.delta_s b.2.delta_s
    have := fa.len
    have := fb.len
    have : 0 ≤ dist2 s1 s2 := sqrt_nonneg _
    linarith
  · have hA : SF.PairAsserts a b := by by_contra h; exact hnb (hbad h)
    refine (join_leads H hd ha hb he hA).1.mono ?_ ?_ ?_
    · have := totalLength_nonneg ([SF.subtract_control a.2 b.2].map seg)
      have e1 := mul_nonneg he0.le hR
      have e2 := mul_nonneg he0.le this
      have e3 := mul_nonneg (mul_nonneg he0.le hK.le) this
      linarith
    · have := mul_pos he0 hK
      linarith
    · have := mul_nonneg he0.le hR
      linarith
  · intro c hc _
    rw [List.mem_singleton.1 hc]
    show a.2.kappa = 0 ∨ |a.2.kappa| > _
    rw [fa.kappa]; exact hz.resolve_left hfar
  · have hA : SF.PairAsserts a b := by by_contra h; exact hnb (hbad h)
    obtain ⟨_, h2, h3⟩ := join_leads H hd ha hb he hA
    refine ⟨_, _, ⟨rfl, rfl⟩, ?_, ?_⟩
    · show |(SF.subtract_control a.2 b.2).kappa - _| ≤ _
      rw [h2, sub_self, abs_zero]; positivity
    · refine h3.trans ?_
      have := mul_pos he0 hS
      linarith

/-! ### The shortest pair -/

theorem mapM_spec {α β : Type} (f : α → Option β) (ps : List α) (h : ∀ p ∈ ps, ∃ y, f p = some y) :
    ∃ l, ps.mapM f = some l ∧ (∀ y ∈ l, ∃ p ∈ ps, f p = some y) ∧ ∀ p ∈ ps, ∃ y ∈ l, f p = some y := by
  induction ps with
  | nil => exact ⟨[], rfl, by simp, by simp⟩
  | cons p ps ih =>
    obtain ⟨y, hy⟩ := h p (by simp)
    obtain ⟨l, h1, h2, h3⟩ := ih fun q hq => h q (by simp [hq])
    refine ⟨y :: l, by simp [List.mapM_cons, hy, h1], ?_, ?_⟩
    · intro z hz
      rcases List.mem_cons.1 hz with rfl | hz
      · exact ⟨p, by simp, hy⟩
      · obtain ⟨q, hq, e⟩ := h2 z hz
        exact ⟨q, by simp [hq], e⟩
    · intro q hq
      rcases List.mem_cons.1 hq with rfl | hq
      · exact ⟨y, by simp, hy⟩
      · obtain ⟨z, hz, e⟩ := h3 q hq
        exact ⟨z, by simp [hz], e⟩

theorem controls_length_eq (cs : List SF.Control) : SF.controls_length cs = totalLength (cs.map seg) := by
  have : ∀ (cs : List SF.Control) (x : ℝ), cs.foldl (fun distance c => distance + |c.delta_s|) x = x + totalLength (cs.map seg) := by
    intro cs
    induction cs with
    | nil => simp [totalLength]
    | cons c cs ih =>
      intro x
      rw [List.foldl_cons, ih]
      simp only [totalLength, List.map_cons, List.sum_cons]
      show x + |c.delta_s| + _ = x + (|c.delta_s| + _)
      ring
  rw [SF.controls_length, this, zero_add]

theorem mem_pairs {as bs : List SF.Predicted} {p : SF.Predicted × SF.Predicted} :
    p ∈ SF.pairs as bs ↔ p.1 ∈ as ∧ p.2 ∈ bs := by
  rcases p with ⟨a, b⟩
  simp [SF.pairs]

/-- From a bound for every pair to the results of `get_distance` and `get_controls`. -/
theorem min_spec {as bs : List SF.Predicted} (has : as ≠ []) (hbs : bs ≠ [])
    {P : List SF.Control → ℝ → Prop} (h : ∀ a ∈ as, ∀ b ∈ bs, ∃ cs len, SF.pair_controls fc a b = some cs ∧
      SF.pair_distance fd a b = some len ∧ P cs len) :
    (∃ m, SF.min_distance fd as bs = some m ∧ (∃ cs, P cs m) ∧
      ∀ tol, (∀ cs len, P cs len → |totalLength (cs.map seg) - len| ≤ tol) →
      ∀ cs, SF.IsMinControls fc as bs cs → |totalLength (cs.map seg) - m| ≤ tol) ∧
    (∃ cs, SF.IsMinControls fc as bs cs) ∧ ∀ cs, SF.IsMinControls fc as bs cs → ∃ len, P cs len := by
  obtain ⟨lc, c1, c2, c3⟩ := mapM_spec (fun p : SF.Predicted × SF.Predicted => SF.pair_controls fc p.1 p.2) (SF.pairs as bs)
    fun p hp => by
      obtain ⟨cs, len, h1, _⟩ := h p.1 (mem_pairs.1 hp).1 p.2 (mem_pairs.1 hp).2
      exact ⟨cs, h1⟩
  obtain ⟨ld, d1, d2, d3⟩ := mapM_spec (fun p : SF.Predicted × SF.Predicted => SF.pair_distance fd p.1 p.2) (SF.pairs as bs)
    fun p hp => by
      obtain ⟨cs, len, _, h1, _⟩ := h p.1 (mem_pairs.1 hp).1 p.2 (mem_pairs.1 hp).2
      exact ⟨len, h1⟩
  obtain ⟨a, ha⟩ := List.exists_mem_of_ne_nil as has
  obtain ⟨b, hb⟩ := List.exists_mem_of_ne_nil bs hbs
  have hab : (a, b) ∈ SF.pairs as bs := mem_pairs.2 ⟨ha, hb⟩
  have hldne : ld ≠ [] := by
    obtain ⟨y, hy, _⟩ := d3 _ hab
    rintro rfl; simp at hy
  have hlcne : lc ≠ [] := by
    obtain ⟨y, hy, _⟩ := c3 _ hab
    rintro rfl; simp at hy
  -- every entry belongs to a pair
  have hcP : ∀ cs ∈ lc, ∃ len ∈ ld, P cs len := by
    intro cs hcs
    obtain ⟨p, hp, e⟩ := c2 cs hcs
    obtain ⟨cs', len, h1, h2, h3⟩ := h p.1 (mem_pairs.1 hp).1 p.2 (mem_pairs.1 hp).2
    obtain ⟨y, hy, e'⟩ := d3 p hp
    have hcc : cs' = cs := Option.some_inj.1 (h1.symm.trans e)
    have hyy : y = len := Option.some_inj.1 (e'.symm.trans h2)
    exact ⟨y, hy, hyy ▸ hcc ▸ h3⟩
  have hdP : ∀ len ∈ ld, ∃ cs ∈ lc, P cs len := by
    intro len hlen
    obtain ⟨p, hp, e⟩ := d2 len hlen
    obtain ⟨cs', len', h1, h2, h3⟩ := h p.1 (mem_pairs.1 hp).1 p.2 (mem_pairs.1 hp).2
    obtain ⟨y, hy, e'⟩ := c3 p hp
    have hcc : y = cs' := Option.some_inj.1 (e'.symm.trans h1)
    have hll : len' = len := Option.some_inj.1 (h2.symm.trans e)
    exact ⟨y, hy, hcc ▸ hll ▸ h3⟩
  obtain ⟨m, hm⟩ : ∃ m, ld.min? = some m := by
    cases hmin : ld.min? with
    | none => exact absurd (List.min?_eq_none_iff.1 hmin) hldne
    | some m => exact ⟨m, rfl⟩
  obtain ⟨hm1, hm2⟩ := List.min?_eq_some_iff.1 hm
  refine ⟨⟨m, ?_, ?_, ?_⟩, ?_, ?_⟩
  · rw [SF.min_distance, d1]; exact hm
  · obtain ⟨cs, _, h3⟩ := hdP m hm1
    exact ⟨cs, h3⟩
  · rintro tol htol cs ⟨l, e, h1, h2⟩
    obtain rfl : lc = l := Option.some_inj.1 (c1.symm.trans e)
    obtain ⟨len, hl1, hl2⟩ := hcP cs h1
    obtain ⟨cs', hc1, hc2⟩ := hdP m hm1
    have e1 := abs_le.1 (htol _ _ hl2)
    have e2 := abs_le.1 (htol _ _ hc2)
    have e3 := h2 cs' hc1
    have e4 := hm2 len hl1
    rw [controls_length_eq, controls_length_eq] at e3
    rw [abs_le]; constructor <;> linarith
  · obtain ⟨cs, hcs, hmin⟩ : ∃ cs ∈ lc, ∀ c ∈ lc, SF.controls_length cs ≤ SF.controls_length c := by
      clear * - hlcne
      induction lc with
      | nil => exact absurd rfl hlcne
      | cons x l ih =>
        by_cases hl : l = []
        · subst hl; exact ⟨x, by simp, by simp⟩
        · obtain ⟨y, hy, hmin⟩ := ih hl
          rcases le_total (SF.controls_length x) (SF.controls_length y) with hxy | hxy
          · exact ⟨x, by simp, fun c hc => by
              rcases List.mem_cons.1 hc with rfl | hc
              · exact le_rfl
              · exact hxy.trans (hmin c hc)⟩
          · exact ⟨y, by simp [hy], fun c hc => by
              rcases List.mem_cons.1 hc with rfl | hc
              · exact hxy
              · exact hmin c hc⟩
    exact ⟨cs, lc, c1, hcs, hmin⟩
  · rintro cs ⟨l, e, h1, h2⟩
    obtain rfl : lc = l := Option.some_inj.1 (c1.symm.trans e)
    obtain ⟨len, _, h3⟩ := hcP cs h1
    exact ⟨len, h3⟩

end

namespace CC

open SF.CC

variable {sp : SF.HCSpace}

theorem predict_ok (junk : ℝ) (s : SF.State) (f : Bool) :
    predict_state sp junk s f ≠ [] ∧ ∀ a ∈ predict_state sp junk s f, PredOk sp.kappa sp.sigma s (sg f) a := by
  unfold predict_state
  by_cases h : |s.kappa| < SF.epsilon ∨ sp.kappa - |s.kappa| < SF.epsilon
  · rw [if_pos h]
    refine ⟨by simp, fun a ha => ?_⟩
    rw [List.mem_singleton.1 ha]
    exact .stay h
  · rw [if_neg h]
    push Not at h
    refine ⟨by cases f <;> simp, fun a ha => ?_⟩
    have hup := PredOk.drive (K := sp.kappa) (S := sp.sigma) (s := s) (d := sg f) junk true h.1 h.2
    have hdn := PredOk.drive (K := sp.kappa) (S := sp.sigma) (s := s) (d := sg f) junk false h.1 h.2
    simp only [if_true, Bool.false_eq_true, if_false] at hup hdn
    have hs := sgn_mul_self s.kappa
    cases f
    · simp only [Bool.false_eq_true, if_false, List.map_cons, List.map_nil, List.mem_cons, List.not_mem_nil, or_false] at ha
      rcases ha with rfl | rfl
      · convert hup using 3
        · simp only [sg, Bool.false_eq_true, if_false, hs]; ring
        · simp [sg]
      · convert hdn using 3
        · simp only [sg, Bool.false_eq_true, if_false, ← hs]; ring
        · simp [sg]
    · simp only [if_true, List.map_cons, List.map_nil, List.mem_cons, List.not_mem_nil, or_false] at ha
      rcases ha with rfl | rfl
      · convert hup using 3
        · simp only [sg, if_true, hs]; ring
        · simp [sg]
      · convert hdn using 3
        · simp only [sg, if_true, ← hs]; ring
        · simp [sg]

theorem sg_not (f : Bool) : sg (!f) = -sg f := by cases f <;> simp [sg]

/-- States too far apart for the shortcuts of the planners. -/
def Far (sp : SF.HCSpace) (s1 s2 : SF.State) : Prop :=
  2 * radiusBound sp.kappa sp.sigma + SF.epsilon + 4 * (sp.kappa / sp.sigma) ≤ dist2 s1 s2

/-- The pairs of predicted states. -/
theorem pair (h : InRange sp.kappa sp.sigma) (junk : ℝ) (s1 s2 : SF.State)
    (hfar : dist2 s1 s2 + 4 * (sp.kappa / sp.sigma) ≤ 10 ^ 100) :
    ∀ a ∈ start_states sp junk s1, ∀ b ∈ end_states sp junk s2, ∃ cs len,
      SF.pair_controls (controls_planners sp) a b = some cs ∧ SF.pair_distance (distance_planners sp) a b = some len ∧
      PairRes sp (sg sp.forwards) (Props.CC.OpposedPair sp a.1 b.1 ∨ ¬ SF.PairAsserts a b) (Far sp s1 s2) s1 s2 cs len := by
  have H := h.rng
  intro a ha b hb
  have oa := (predict_ok junk s1 sp.forwards).2 a ha
  have ob := (predict_ok junk s2 (!sp.forwards)).2 b hb
  rw [sg_not] at ob
  have hd := sg_pm sp.forwards
  have hd' : -sg sp.forwards = 1 ∨ -sg sp.forwards = -1 := by rw [← sg_not]; exact sg_pm _
  have fa := oa.facts H hd
  have fb := ob.facts H hd'
  by_cases he : SF.state_equal a.1 b.1
  · refine pair_join H hd oa ob he .inr fun hF => ?_
    have n1 := fa.near
    have n2 := fb.near
    have t3 := dist2_triangle s1 a.1 s2
    have t4 := dist2_triangle a.1 b.1 s2
    rw [dist2_comm b.1 s2] at t4
    have := (state_equal_within he).1.1
    rw [pose_dist] at this
    have hR : 2 * radiusBound sp.kappa sp.sigma > 0 := by
      have := H.pos
      have := H.sigma
      rw [radiusBound]; positivity
    unfold Far at hF
    linarith
  · have n1 := fa.near
    have n2 := fb.near
    have t1 := dist2_triangle a.1 s1 b.1
    have t2 := dist2_triangle s1 s2 b.1
    have t3 := dist2_triangle s1 a.1 s2
    have t4 := dist2_triangle a.1 b.1 s2
    rw [dist2_comm a.1 s1] at t1
    rw [dist2_comm b.1 s2] at t4
    obtain ⟨cs, len, m1, m2, m3⟩ := mid h a.1 b.1 (by linarith)
    refine pair_apart H fa fb he m1 m2 m3 .inl fun hF => ?_
    unfold Far at hF
    unfold FarPair
    linarith

/-- Everything about `get_distance` and `get_controls`. -/
theorem plan (h : InRange sp.kappa sp.sigma) (junk : ℝ) (s1 s2 : SF.State)
    (hfar : dist2 s1 s2 + 4 * (sp.kappa / sp.sigma) ≤ 10 ^ 100) :
    (∃ m, get_distance sp junk s1 s2 = some m ∧
      m ≤ dist2 s1 s2 + 50 * (sp.kappa / sp.sigma) + 60 / sp.kappa ∧
      ∀ cs, IsControls sp junk s1 s2 cs →
        |totalLength (cs.map seg) - m| ≤ SF.epsilon * (1 + 4 * radiusBound sp.kappa sp.sigma)) ∧
    (∃ cs, IsControls sp junk s1 s2 cs) ∧
    ∀ cs, IsControls sp junk s1 s2 cs → ∃ len,
      PairRes sp (sg sp.forwards) (Props.CC.Opposed sp junk s1 s2 ∨ ¬ Asserts sp junk s1 s2) (Far sp s1 s2) s1 s2 cs len := by
  have H := h.rng
  have hp := pair h junk s1 s2 hfar
  obtain ⟨⟨m, h1, ⟨cs, h2⟩, h3⟩, h4, h5⟩ := min_spec (fc := controls_planners sp) (fd := distance_planners sp)
    (predict_ok junk s1 sp.forwards).1 (predict_ok junk s2 (!sp.forwards)).1
    (P := fun cs len => PairRes sp (sg sp.forwards) (Props.CC.Opposed sp junk s1 s2 ∨ ¬ Asserts sp junk s1 s2)
      (Far sp s1 s2) s1 s2 cs len) (by
      intro a ha b hb
      obtain ⟨cs, len, e1, e2, e3⟩ := hp a ha b hb
      have hmono : Props.CC.OpposedPair sp a.1 b.1 ∨ ¬ SF.PairAsserts a b →
          Props.CC.Opposed sp junk s1 s2 ∨ ¬ Asserts sp junk s1 s2 := by
        rintro (ho | ho)
        · exact .inl ⟨a, ha, b, hb, ho⟩
        · exact .inr fun hA => ho (hA a ha b hb)
      exact ⟨cs, len, e1, e2, e3.ne, e3.length, e3.way, e3.bound, fun hn => e3.leads fun hx => hn (hmono hx),
        fun hn => e3.flat fun hx => hn (hmono hx), fun hn => e3.cont fun hx => hn (hmono hx)⟩)
  exact ⟨⟨m, h1, h2.bound, fun cs hcs => h3 _ (fun _ _ hP => hP.length) cs hcs⟩, h4, h5⟩

/-- Far states have no opposed circles and no coinciding predictions. -/
theorem far_good (h : InRange sp.kappa sp.sigma) {junk : ℝ} {s1 s2 : SF.State} (hF : Far sp s1 s2) :
    ¬ Props.CC.Opposed sp junk s1 s2 ∧ Asserts sp junk s1 s2 := by
  have H := h.rng
  have hK := H.pos
  have hS := H.sigma
  have hKS : 0 < sp.kappa / sp.sigma := by positivity
  have hR : 2 * radiusBound sp.kappa sp.sigma > 0 := by rw [radiusBound]; positivity
  have he : SF.epsilon = 1 / 10000 := by norm_num [SF.epsilon]
  have key : ∀ a ∈ start_states sp junk s1, ∀ b ∈ end_states sp junk s2,
      2 * radiusBound sp.kappa sp.sigma + 1 / 10000 ≤ dist2 a.1 b.1 := by
    intro a ha b hb
    have oa := (predict_ok junk s1 sp.forwards).2 a ha
    have ob := (predict_ok junk s2 (!sp.forwards)).2 b hb
    have n1 := (oa.facts H (sg_pm _)).near
    have n2 := (ob.facts H (sg_pm _)).near
    have t3 := dist2_triangle s1 a.1 s2
    have t4 := dist2_triangle a.1 b.1 s2
    rw [dist2_comm b.1 s2] at t4
    unfold Far at hF
    linarith
  constructor
  · rintro ⟨a, ha, b, hb, ⟨_, _, ho⟩ | ⟨_, _, ho⟩⟩
    · exact absurd (Spec.CC0pm.opposed_near h ho) (not_lt.2 (key a ha b hb))
    · exact absurd (Spec.CCpm0.opposed_near h ho) (not_lt.2 (key a ha b hb))
  · intro a ha b hb he'
    have := (state_equal_within he').1.1
    rw [pose_dist] at this
    have := key a ha b hb
    linarith

/-- States that need no prediction. -/
theorem predict_stay {junk : ℝ} {s : SF.State} {f : Bool} (h : |s.kappa| < SF.epsilon ∨ sp.kappa - |s.kappa| < SF.epsilon) :
    predict_state sp junk s f = [(s, ⟨0, s.kappa, 0⟩)] := by
  rw [predict_state, if_pos h]

/-- One pair only, apart, no prediction. -/
theorem single {junk : ℝ} {s1 s2 : SF.State} (h1 : |s1.kappa| < SF.epsilon ∨ sp.kappa - |s1.kappa| < SF.epsilon)
    (h2 : |s2.kappa| < SF.epsilon ∨ sp.kappa - |s2.kappa| < SF.epsilon) (hne : ¬ SF.state_equal s1 s2) {cs : List SF.Control}
    {len : ℝ} (hc : (controls_planners sp).call s1 s2 = some cs) (hl : (distance_planners sp).call s1 s2 = some len) :
    (∀ x, IsControls sp junk s1 s2 x ↔ x = cs) ∧ get_distance sp junk s1 s2 = some len := by
  have he : ¬ |(0:ℝ)| > SF.epsilon := by norm_num [SF.epsilon]
  have pc : SF.pair_controls (controls_planners sp) (s1, ⟨0, s1.kappa, 0⟩) (s2, ⟨0, s2.kappa, 0⟩) = some cs := by
    rw [SF.pair_controls, if_neg hne]
    simp only [hc, Option.map_some, if_neg he]
  have pd : SF.pair_distance (distance_planners sp) (s1, ⟨0, s1.kappa, 0⟩) (s2, ⟨0, s2.kappa, 0⟩) = some len := by
    rw [SF.pair_distance, if_neg hne]
    simp only [hl, Option.map_some, if_neg he]
  constructor
  · intro x
    unfold IsControls SF.IsMinControls
    simp only [start_states, end_states, predict_stay h1, predict_stay h2, SF.pairs, List.flatMap_cons, List.flatMap_nil,
      List.map_cons, List.map_nil, List.append_nil, List.mapM_cons, List.mapM_nil, pc]
    constructor
    · rintro ⟨l, hl, hx, _⟩
      simp at hl
      subst hl
      simpa using hx
    · rintro rfl
      exact ⟨[x], by simp, by simp, by simp⟩
  · rw [get_distance, SF.min_distance]
    simp only [start_states, end_states, predict_stay h1, predict_stay h2, SF.pairs, List.flatMap_cons, List.flatMap_nil,
      List.map_cons, List.map_nil, List.append_nil, List.mapM_cons, List.mapM_nil, pd]
    simp [List.min?]

end CC

end Spec
