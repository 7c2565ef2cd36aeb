import Verif.Lemmas.Leads

/-!
# Shape of the controls of CC turns
-/

noncomputable section

namespace Spec

open Real Props

/-- The three forms of the controls of a CC turn with deflection `delta`, sense `l` and driving
direction `d`; `lim` says that the limits hold for an elementary path. -/
inductive TurnShape (k s d l delta : ℝ) (reg : Bool) (lim : ℝ → ℝ → Prop) : List SF.Control → Prop
  | line (x : ℝ) (h : delta < SF.epsilon) : TurnShape k s d l delta reg lim [⟨x, 0, 0⟩]
  | full (w : ℝ) (hw : reg = true → 0 ≤ w) (h : SF.epsilon ≤ delta) :
      TurnShape k s d l delta reg lim
        [⟨d * (k / s), 0, l * s⟩, ⟨d * w, l * k, 0⟩, ⟨d * (k / s), l * k, -(l * s)⟩]
  | elem (s0 L : ℝ) (h0 : 0 < s0) (hL : 0 < L) (h : SF.epsilon ≤ delta) (hlim : lim s0 L) :
      TurnShape k s d l delta reg lim [⟨d * L, 0, l * s0⟩, ⟨d * L, l * s0 * L, -(l * s0)⟩]

theorem cc_circular_nonneg {c : SF.Circle} {delta : ℝ} (hr : c.regular = true) (h0 : 0 ≤ delta) :
    0 ≤ c.cc_circular_deflection delta := by
  have b := SF.twopify_lt (2 * c.delta_min)
  unfold SF.Circle.cc_circular_deflection
  simp only [hr, if_true]
  split_ifs with h <;> linarith

theorem cc_turn_shape {c : SF.Circle} {k s : ℝ} (h : CircleOk c k s (ccA k s) (ccB k s))
    (hk : k > SF.epsilon) (hs : 0 < s) (q : SF.Configuration) (order : Bool) :
    TurnShape k s (SF.direction c.forward order) (sg c.left) (c.deflection q) c.regular
      (fun s0 L => ∀ E m, ‖cen (-(SF.direction c.forward order * ccA k s)) (sg c.left * ccB k s) (tTo c q order)
          - cen (SF.direction c.forward order * ccA k s) (sg c.left * ccB k s) (tFrom c q order)‖ ≤ E → Slack k s E m →
        s0 ≤ m ^ 2 * (s * (1 + 2 / 10 ^ 8)) ∧ s0 * L ≤ m * (k * (1 + 1 / 10 ^ 8)))
      (SF.cc_turn_controls c q order) := by
  have hk0 : 0 < k := lt_trans (by norm_num [SF.epsilon]) hk
  have hdef : SF.epsilon ≤ c.deflection q → TurnShape k s (SF.direction c.forward order) (sg c.left) (c.deflection q) c.regular
      (fun s0 L => ∀ E m, ‖cen (-(SF.direction c.forward order * ccA k s)) (sg c.left * ccB k s) (tTo c q order)
          - cen (SF.direction c.forward order * ccA k s) (sg c.left * ccB k s) (tFrom c q order)‖ ≤ E → Slack k s E m →
        s0 ≤ m ^ 2 * (s * (1 + 2 / 10 ^ 8)) ∧ s0 * L ≤ m * (k * (1 + 1 / 10 ^ 8)))
      (SF.cc_default_controls c (c.deflection q) order) := by
    intro hge
    unfold SF.cc_default_controls
    rw [abs_kappa_sigma h hk0 hs]
    simp only [h.kappa, h.sigma]
    exact .full _ (fun hr => mul_nonneg (abs_nonneg _) (cc_circular_nonneg hr (deflection_spec c q).2.1)) hge
  unfold SF.cc_turn_controls
  simp only
  split_ifs with h1 h2 h3
  · exact .line _ h1
  · exact .line _ h1
  · rcases hel : SF.cc_elementary_controls c q (c.deflection q) order with _ | el
    · exact hdef (not_lt.1 h1)
    · dsimp only
      split_ifs with h4
      · have ha := not_lt.1 h1
        have hm := h3
        rw [h.delta_min] at hm
        have hrange := elementary_range hel
        obtain ⟨hD, _⟩ := chord_pos hk hs (a := 0.5 * c.deflection q) (by linarith) (by linarith) (by linarith)
        obtain ⟨_, _, s0, L, hs0, hs0p, hLd, hcseq⟩ := elementary_data hel hD.ne'
        have hdelta : 0 < c.deflection q := by unfold SF.epsilon at ha; linarith
        have hL : 0 < L := by rw [hLd]; exact sqrt_pos.2 (by positivity)
        rw [hcseq]
        refine .elem s0 L hs0p hL ha fun E m he hm => ?_
        obtain ⟨s0', L', p1, p2, p3, p4, p5⟩ := elementary_limits_up h hk hs ha h3 hel he hm
        rw [hcseq] at p5
        simp only [List.cons.injEq, SF.Control.mk.injEq, true_and, and_true] at p5
        obtain ⟨⟨e1, e2⟩, _⟩ := p5
        have hd : SF.direction c.forward order ≠ 0 := by
          rcases direction_pm c.forward order with h | h <;> rw [h] <;> norm_num
        have hl : sg c.left ≠ 0 := by rcases sg_pm c.left with h | h <;> rw [h] <;> norm_num
        have e1 := mul_left_cancel₀ hd e1
        have e2 := mul_left_cancel₀ hl e2
        rw [e1, e2]; exact ⟨p3, p4⟩
      · exact hdef (not_lt.1 h1)
  · exact hdef (not_lt.1 h1)

section
variable {k s d l delta : ℝ} {reg : Bool} {lim : ℝ → ℝ → Prop} {cs : List SF.Control}

theorem TurnShape.continuous (h : TurnShape k s d l delta reg lim cs) (hk : 0 < k) (hs : 0 < s)
    (hd : d = 1 ∨ d = -1) : CurvatureContinuous 0 (cs.map seg) 0 := by
  cases h with
  | line x h => simp [seg, CurvatureContinuous]
  | full w hw h =>
    have hdl : |d * (k / s)| = k / s := abs_pm_mul hd (by positivity)
    have e1 : l * s * (k / s) = l * k := by field_simp
    simp only [List.map_cons, List.map_nil, seg, CurvatureContinuous, hdl, zero_mul, add_zero, zero_add, neg_mul,
      e1, add_neg_cancel, and_self]
  | elem s0 L h0 hL h hlim =>
    have hdl : |d * L| = L := abs_pm_mul hd hL.le
    simp only [List.map_cons, List.map_nil, seg, CurvatureContinuous, hdl, zero_add, neg_mul, add_neg_cancel,
      and_self]

theorem TurnShape.limits (h : TurnShape k s d l delta reg lim cs) (hk : 0 < k) (hs : 0 < s)
    (hd : d = 1 ∨ d = -1) (hl : l = 1 ∨ l = -1) {m : ℝ} (hm : 1 ≤ m)
    (hlim : ∀ s0 L, lim s0 L → s0 ≤ m ^ 2 * (s * (1 + 2 / 10 ^ 8)) ∧ s0 * L ≤ m * (k * (1 + 1 / 10 ^ 8))) :
    CurvatureAtMost (m * (k * (1 + 1 / 10 ^ 8))) (cs.map seg) ∧
      SharpnessAtMost (m ^ 2 * (s * (1 + 2 / 10 ^ 8))) (cs.map seg) := by
  have hkb : k ≤ m * (k * (1 + 1 / 10 ^ 8)) :=
    le_trans (by nlinarith) (le_mul_of_one_le_left (by positivity : 0 ≤ k * (1 + 1 / 10 ^ 8)) hm)
  have hsb : s ≤ m ^ 2 * (s * (1 + 2 / 10 ^ 8)) :=
    le_trans (by nlinarith) (le_mul_of_one_le_left (by positivity : 0 ≤ s * (1 + 2 / 10 ^ 8)) (one_le_pow₀ hm))
  have hK0 : 0 ≤ m * (k * (1 + 1 / 10 ^ 8)) := hk.le.trans hkb
  have hS0 : 0 ≤ m ^ 2 * (s * (1 + 2 / 10 ^ 8)) := hs.le.trans hsb
  cases h with
  | line x h =>
    refine ⟨?_, ?_⟩
    · intro c hc t _ _
      simp only [List.map_cons, List.map_nil, List.mem_singleton, seg] at hc
      subst hc; simp only [zero_mul, add_zero, abs_zero]; exact hK0
    · intro c hc
      simp only [List.map_cons, List.map_nil, List.mem_singleton, seg] at hc
      subst hc; simp only [abs_zero]; exact hS0
  | full w hw h =>
    have hdl : |d * (k / s)| = k / s := abs_pm_mul hd (by positivity)
    have e1 : l * s * (k / s) = l * k := by field_simp
    have hak : |l * k| = k := abs_pm_mul hl hk.le
    have has : |l * s| = s := abs_pm_mul hl hs.le
    refine ⟨?_, ?_⟩
    · intro c hc t ht0 ht1
      simp only [List.map_cons, List.map_nil, seg, List.mem_cons, List.not_mem_nil, or_false] at hc
      rcases hc with rfl | rfl | rfl
      · simp only [hdl] at ht1 ⊢
        refine linear_abs_le (L := k / s) (by rw [abs_zero]; exact hK0) ?_ ht0 ht1
        rw [e1, zero_add, hak]; exact hkb
      · simp only [zero_mul, add_zero, hak]; exact hkb
      · simp only [hdl] at ht1 ⊢
        refine linear_abs_le (L := k / s) (by rw [hak]; exact hkb) ?_ ht0 ht1
        rw [neg_mul, e1, add_neg_cancel, abs_zero]; exact hK0
    · intro c hc
      simp only [List.map_cons, List.map_nil, seg, List.mem_cons, List.not_mem_nil, or_false] at hc
      rcases hc with rfl | rfl | rfl
      · simp only [has]; exact hsb
      · simp only [abs_zero]; exact hS0
      · simp only [abs_neg, has]; exact hsb
  | elem s0 L h0 hL h hlm =>
    obtain ⟨p3, p4⟩ := hlim s0 L hlm
    have hdl : |d * L| = L := abs_pm_mul hd hL.le
    have hak : |l * s0 * L| = s0 * L := by
      rw [mul_assoc]; exact abs_pm_mul hl (by positivity)
    have has : |l * s0| = s0 := abs_pm_mul hl h0.le
    refine ⟨?_, ?_⟩
    · intro c hc t ht0 ht1
      simp only [List.map_cons, List.map_nil, seg, List.mem_cons, List.not_mem_nil, or_false] at hc
      rcases hc with rfl | rfl
      · simp only [hdl] at ht1 ⊢
        refine linear_abs_le (L := L) (by rw [abs_zero]; exact hK0) ?_ ht0 ht1
        rw [zero_add, hak]; exact p4
      · simp only [hdl] at ht1 ⊢
        refine linear_abs_le (L := L) (by rw [hak]; exact p4) ?_ ht0 ht1
        rw [neg_mul, add_neg_cancel, abs_zero]; exact hK0
    · intro c hc
      simp only [List.map_cons, List.map_nil, seg, List.mem_cons, List.not_mem_nil, or_false] at hc
      rcases hc with rfl | rfl
      · simp only [has]; exact p3
      · simp only [abs_neg, has]; exact p3

theorem TurnShape.flat (h : TurnShape k s d l delta reg lim cs) (hk : k > SF.epsilon)
    (hl : l = 1 ∨ l = -1) : ∀ c ∈ cs, c.sigma = 0 → c.kappa = 0 ∨ |c.kappa| > SF.epsilon := by
  have hk0 : 0 < k := lt_trans (by norm_num [SF.epsilon]) hk
  have hak : |l * k| = k := abs_pm_mul hl hk0.le
  have hl0 : l ≠ 0 := by rcases hl with rfl | rfl <;> norm_num
  cases h with
  | line x h => intro c hc _; rw [List.mem_singleton] at hc; rw [hc]; exact .inl rfl
  | full w hw h =>
    intro c hc _
    simp only [List.mem_cons, List.not_mem_nil, or_false] at hc
    rcases hc with rfl | rfl | rfl
    · exact .inl rfl
    · right; simp only [hak]; exact hk
    · right; simp only [hak]; exact hk
  | elem s0 L h0 hL h hlm =>
    intro c hc h
    simp only [List.mem_cons, List.not_mem_nil, or_false] at hc
    rcases hc with rfl | rfl
    · exact .inl rfl
    · exact absurd h (neg_ne_zero.2 (mul_ne_zero hl0 h0.ne'))

/-- Regular turns keep the driving direction (lines excepted). -/
theorem TurnShape.one_way (h : TurnShape k s d l delta reg lim cs) (hk : 0 < k) (hs : 0 < s)
    (hd : d = 1 ∨ d = -1) (hr : reg = true) (hdel : SF.epsilon ≤ delta) : ∀ c ∈ cs, 0 ≤ d * c.delta_s := by
  have hdd : d * d = 1 := by rcases hd with rfl | rfl <;> norm_num
  have hpos : ∀ x, 0 ≤ x → 0 ≤ d * (d * x) := fun x hx => by rw [← mul_assoc, hdd, one_mul]; exact hx
  cases h with
  | line x h => exact absurd h (not_lt.2 hdel)
  | full w hw h =>
    intro c hc
    simp only [List.mem_cons, List.not_mem_nil, or_false] at hc
    rcases hc with rfl | rfl | rfl
    · exact hpos _ (by positivity)
    · exact hpos _ (hw hr)
    · exact hpos _ (by positivity)
  | elem s0 L h0 hL h hlm =>
    intro c hc
    simp only [List.mem_cons, List.not_mem_nil, or_false] at hc
    rcases hc with rfl | rfl <;> exact hpos _ hL.le

end

theorem CurvatureContinuous.append {a b : List Segment} {k k' k'' : ℝ} (h : CurvatureContinuous k a k')
    (h' : CurvatureContinuous k' b k'') : CurvatureContinuous k (a ++ b) k'' := by
  induction a generalizing k with
  | nil => rw [CurvatureContinuous] at h; rw [h]; exact h'
  | cons c cs ih => exact ⟨h.1, ih h.2⟩

theorem CurvatureAtMost.append {a b : List Segment} {K : ℝ} (h : CurvatureAtMost K a)
    (h' : CurvatureAtMost K b) : CurvatureAtMost K (a ++ b) := by
  intro c hc
  rcases List.mem_append.1 hc with hc | hc
  · exact h c hc
  · exact h' c hc

theorem SharpnessAtMost.append {a b : List Segment} {K : ℝ} (h : SharpnessAtMost K a)
    (h' : SharpnessAtMost K b) : SharpnessAtMost K (a ++ b) := by
  intro c hc
  rcases List.mem_append.1 hc with hc | hc
  · exact h c hc
  · exact h' c hc

end Spec
