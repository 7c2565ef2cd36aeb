import Verif.Spec.HcCompare
import Verif.Lemmas.HcCompare
import Verif.Lemmas.Entry

/-!
# HC-Reeds-Shepp against CC-Dubins
-/

noncomputable section

namespace Spec

open Real Props

variable {sp : SF.HCSpace} {junk : ℝ} {s s1 s2 : SF.State}

theorem mapM_inv {α β : Type} {f : α → Option β} {ps : List α} {l : List β} (h : ps.mapM f = some l) {y : β} (hy : y ∈ l) :
    ∃ p ∈ ps, f p = some y := by
  induction ps generalizing l with
  | nil => simp at h; subst h; simp at hy
  | cons q ps ih =>
    rw [List.mapM_cons] at h
    cases hq : f q with
    | none => simp [hq] at h
    | some z =>
      cases hr : ps.mapM f with
      | none => simp [hq, hr] at h
      | some l' =>
        simp [hq, hr] at h
        subst h
        rcases List.mem_cons.1 hy with rfl | hy
        · exact ⟨q, by simp, hq⟩
        · obtain ⟨p, h1, h2⟩ := ih hr hy
          exact ⟨p, by simp [h1], h2⟩

/-- The distance is that of a pair of predicted states. -/
theorem min_distance_pair {f : SF.SubPlanners ℝ} {as bs : List SF.Predicted} {m : ℝ} (hm : SF.min_distance f as bs = some m) :
    ∃ a ∈ as, ∃ b ∈ bs, SF.pair_distance f a b = some m := by
  unfold SF.min_distance at hm
  cases hl : (SF.pairs as bs).mapM (fun p => SF.pair_distance f p.1 p.2) with
  | none => simp [hl] at hm
  | some l =>
    simp only [hl, Option.bind_some] at hm
    obtain ⟨p, h1, h2⟩ := mapM_inv hl (List.min?_eq_some_iff.1 hm).1
    obtain ⟨h3, h4⟩ := mem_pairs.1 h1
    exact ⟨_, h3, _, h4, h2⟩

/-- Shorter paths between predicted states make the whole path shorter. -/
theorem pair_mono {f g : SF.SubPlanners ℝ} {a b : SF.Predicted} {z : ℝ} (hz : SF.pair_distance f a b = some z)
    (H : ∀ x, f.call a.1 b.1 = some x → x ≤ z → ∃ y, g.call a.1 b.1 = some y ∧ y ≤ x) :
    ∃ w, SF.pair_distance g a b = some w ∧ w ≤ z := by
  unfold SF.pair_distance at hz ⊢
  by_cases he : SF.state_equal a.1 b.1
  · rw [if_pos he] at hz ⊢
    exact ⟨_, rfl, (Option.some_inj.1 hz).le⟩
  · rw [if_neg he] at hz ⊢
    obtain ⟨x, hx, hx'⟩ := Option.map_eq_some_iff.1 hz
    have h1 := abs_nonneg a.2.delta_s
    have h2 := abs_nonneg b.2.delta_s
    obtain ⟨y, hy, hle⟩ := H x hx (by rw [← hx']; simp only; split_ifs <;> linarith)
    rw [hy]
    refine ⟨_, rfl, ?_⟩
    rw [← hx']
    simp only
    split_ifs <;> linarith

/-- CC-Dubins predicts some of the states that HC-Reeds-Shepp predicts. -/
theorem predict_sub {fw : Bool} {a : SF.Predicted} (ha : a ∈ SF.CC.predict_state sp junk s fw) : a ∈ SF.HC.predict_state sp junk s := by
  unfold SF.CC.predict_state at ha
  unfold SF.HC.predict_state
  split_ifs at ha ⊢ with h hf
  · exact ha
  · obtain ⟨c, hc, rfl⟩ := List.mem_map.1 ha
    refine List.mem_map.2 ⟨c, ?_, rfl⟩
    simp only [List.mem_cons, List.not_mem_nil, or_false] at hc ⊢
    rcases hc with rfl | rfl
    · exact .inl rfl
    · exact .inr (.inr (.inl rfl))
  · obtain ⟨c, hc, rfl⟩ := List.mem_map.1 ha
    refine List.mem_map.2 ⟨c, ?_, rfl⟩
    simp only [List.mem_cons, List.not_mem_nil, or_false, neg_div, neg_mul] at hc ⊢
    rcases hc with rfl | rfl
    · exact .inr (.inl rfl)
    · exact .inr (.inr (.inr rfl))

theorem sgn_sign (x : ℝ) : Sign (SF.sgn x) := by unfold SF.sgn; split_ifs <;> simp [Sign]

theorem sgn_abs (x : ℝ) : SF.sgn x * x = |x| := by
  unfold SF.sgn
  split_ifs with h
  · rw [abs_of_neg h]; ring
  · rw [abs_of_nonneg (not_lt.1 h)]; ring

/-- Predicted states with curvature zero. -/
theorem predict_straight (H : Rng sp.kappa sp.sigma) {fw : Bool} {a : SF.Predicted} (ha : a ∈ SF.CC.predict_state sp junk s fw)
    (hk : |a.1.kappa| < SF.epsilon) : Straightened sp.kappa sp.sigma (if fw then 1 else -1) s a.1 := by
  have hK := H.kappa
  have hpos := H.pos
  unfold SF.CC.predict_state at ha
  by_cases h : |s.kappa| < SF.epsilon ∨ sp.kappa - |s.kappa| < SF.epsilon
  · rw [if_pos h, List.mem_singleton] at ha
    subst ha
    exact .same (by rw [SF.epsilon] at hk; norm_num at hk ⊢; exact hk)
  · rw [if_neg h] at ha
    push Not at h
    obtain ⟨l, hl⟩ : ∃ l, l = SF.sgn s.kappa := ⟨_, rfl⟩
    have hL : Sign l := hl ▸ sgn_sign _
    have hA : l * s.kappa = |s.kappa| := hl ▸ sgn_abs _
    have h1 : 1 / 10000 ≤ l * s.kappa := by rw [hA]; have := h.1; rw [SF.epsilon] at this; linarith
    have h2 : l * s.kappa ≤ sp.kappa - 1 / 10000 := by rw [hA]; have := h.2; rw [SF.epsilon] at this; linarith
    have hd : Sign (if fw then (1:ℝ) else -1) := by cases fw <;> simp [Sign]
    obtain ⟨c, hc, rfl⟩ := List.mem_map.1 ha
    have hc' : c = ⟨(if fw then (1:ℝ) else -1) * ((sp.kappa - l * s.kappa) / sp.sigma), s.kappa, l * sp.sigma⟩ ∨
        c = ⟨(if fw then (1:ℝ) else -1) * (l * s.kappa / sp.sigma), s.kappa, -(l * sp.sigma)⟩ := by
      rw [← hl] at hc
      cases fw
      · simp only [Bool.false_eq_true, if_false, List.mem_cons, List.not_mem_nil, or_false] at hc ⊢
        rcases hc with rfl | rfl
        · left; congr 1; ring
        · right; congr 1 <;> ring
      · simp only [if_true, List.mem_cons, List.not_mem_nil, or_false] at hc ⊢
        rcases hc with rfl | rfl
        · left; congr 1; ring
        · right; congr 1 <;> ring
    rcases hc' with rfl | rfl
    · have := (tighten_candidate (junk := junk) H hd hL h2).kappa
      rw [this, abs_mul, abs_of_pos hpos] at hk
      have : |l| = 1 := by rcases hL with rfl | rfl <;> simp
      rw [this] at hk
      linarith
    · have hcand := straighten_candidate (junk := junk) H hd hL h1
      exact .drive hL h1 h2 hcand.at_.symm hcand.kappa

theorem cc_finite (h : InRange sp.kappa sp.sigma) (hr : dist2 s1 s2 + 4 * (sp.kappa / sp.sigma) ≤ 10 ^ 100) :
    dist2 s1 s2 + 50 * (sp.kappa / sp.sigma) + 60 / sp.kappa < SF.dblMax := by
  have hk0 : 0 < sp.kappa := lt_trans (by norm_num) h.kappa
  have hb := SF.dblMax_large
  have hki : 1 / sp.kappa ≤ 10 ^ 4 := by
    have := h.kappa
    rw [div_le_iff₀ hk0]; linarith
  have hd : 0 ≤ dist2 s1 s2 := sqrt_nonneg _
  have hs := h.sigma
  have hks : 0 < sp.kappa / sp.sigma := by positivity
  have : 60 / sp.kappa = 60 * (1 / sp.kappa) := by ring
  have : (100 : ℝ) * 10 ^ 100 + 60 * 10 ^ 4 < 10 ^ 201 := by norm_num
  linarith

/-- HC-Reeds-Shepp against CC-Dubins. -/
theorem hc_le_cc (h : InRange sp.kappa sp.sigma) (hr : InReach sp s1 s2)
    (hs : ∀ p1 p2, Straightened sp.kappa sp.sigma (if sp.forwards then 1 else -1) s1 p1 →
      Straightened sp.kappa sp.sigma (if sp.forwards then -1 else 1) s2 p2 → ¬ StraightAgainst sp p1 p2)
    (h4 : |s1.kappa| < 1 / 10000 ∨ |s2.kappa| < 1 / 10000 ∨
      8 * radiusBound sp.kappa sp.sigma + 4 * (sp.kappa / sp.sigma) < dist2 s1 s2) :
    ∃ x y, SF.CC.get_distance sp junk s1 s2 = some x ∧ SF.HC.get_distance sp junk s1 s2 = some y ∧ y ≤ x := by
  have H := h.rng
  obtain ⟨⟨x, hx, hxb⟩, _⟩ := C62_cc_always (junk := junk) h s1 s2 hr
  obtain ⟨⟨y, hy, _⟩, _⟩ := C78_hcrs_always (junk := junk) h s1 s2 hr
  refine ⟨x, y, hx, hy, ?_⟩
  obtain ⟨a, ha, b, hb, hp⟩ := min_distance_pair hx
  have hfin : x < SF.dblMax := hxb.trans_lt (cc_finite h hr)
  have he : SF.epsilon = 1 / 10000 := by norm_num [SF.epsilon]
  obtain ⟨w, hw, hle⟩ := pair_mono (g := SF.HC.distance_planners sp) hp (by
    intro z hz hzx
    have hzf : z < SF.dblMax := hzx.trans_lt hfin
    unfold SF.SubPlanners.call at hz ⊢
    by_cases g1 : |a.1.kappa| < SF.epsilon
    · rw [if_pos g1] at hz ⊢
      by_cases g2 : |b.1.kappa| < SF.epsilon
      · rw [if_pos g2] at hz ⊢
        have q1 := predict_straight H ha g1
        have q2 := predict_straight H hb g2
        have e2 : (if (!sp.forwards) then (1:ℝ) else -1) = if sp.forwards then -1 else 1 := by cases sp.forwards <;> rfl
        rw [e2] at q2
        obtain ⟨d, hd, hd'⟩ := hc00_le sp a.1 b.1 (hs _ _ q1 q2)
        exact ⟨d, hd, hd'.trans (Option.some_inj.1 hz).le⟩
      · rw [if_neg g2] at hz ⊢
        exact hc0pm_le hz hzf
    · rw [if_neg g1] at hz ⊢
      by_cases g2 : |b.1.kappa| < SF.epsilon
      · rw [if_pos g2] at hz ⊢
        exact hcpm0_le hz hzf
      · rw [if_neg g2] at hz ⊢
        obtain ⟨p, hp, rfl⟩ := Option.map_eq_some_iff.1 hz
        refine hcpmpm_le hp hzf fun hty => ?_
        have hn := four_near H hp hzf hty
        have oa := (CC.predict_ok junk s1 sp.forwards).2 a ha
        have ob := (CC.predict_ok junk s2 (!sp.forwards)).2 b hb
        rcases h4 with h4 | h4 | h4
        · rw [← he] at h4
          unfold SF.CC.start_states at ha
          rw [CC.predict_stay (.inl h4), List.mem_singleton] at ha
          subst ha
          exact g1 h4
        · rw [← he] at h4
          unfold SF.CC.end_states at hb
          rw [CC.predict_stay (.inl h4), List.mem_singleton] at hb
          subst hb
          exact g2 h4
        · have n1 := (oa.facts H (sg_pm _)).near
          have n2 := (ob.facts H (sg_pm _)).near
          have t3 := dist2_triangle s1 a.1 s2
          have t4 := dist2_triangle a.1 b.1 s2
          rw [dist2_comm b.1 s2] at t4
          linarith)
  exact (min_distance_le hy (predict_sub ha) (predict_sub hb) hw).trans hle

end Spec
