import Verif.Lemmas.LimitsWitnessRs
import Verif.Lemmas.CcRsMirror

/-!
# CC00-Reeds-Shepp: a cusp between two turns that is not a point
-/

noncomputable section

namespace Spec

open Real Props
open CC00 (CircOk circOk_at wideStart startOf)

namespace Cusp

/-! ### Numbers: kappa = 1/1000, sigma = 5 -/

theorem range : InRange (1 / 1000) 5 := by constructor <;> norm_num

theorem scale : cScale 5 * cArg 5 (1 / 1000 / 5) = 1 / 5000 ∧ cScale 5 ≤ 1 ∧ 1 / 2 ≤ cScale 5 := by
  have hp := pi_pos
  have hs : (0:ℝ) < 5 := by norm_num
  have hsq := cScale_sq hs
  have hc := cScale_pos hs
  refine ⟨?_, ?_, ?_⟩
  · unfold cScale cArg
    have h1 : √π ≠ 0 := (sqrt_pos.mpr pi_pos).ne'
    have h2 : √(5 : ℝ) ≠ 0 := (sqrt_pos.mpr hs).ne'
    have h3 : √(5 : ℝ) * √5 = 5 := mul_self_sqrt hs.le
    generalize √(5 : ℝ) = w at h2 h3
    field_simp
    rw [sq, h3]; norm_num
  · have := pi_lt_four
    nlinarith
  · have := pi_gt_three
    nlinarith

theorem bounds : 0 < ccA (1 / 1000) 5 ∧ ccA (1 / 1000) 5 ≤ 11 / 100000 ∧ 9999 / 10 ≤ ccB (1 / 1000) 5 ∧
    ccB (1 / 1000) 5 ≤ 10001 / 10 := by
  obtain ⟨e, h25, h15⟩ := scale
  refine ⟨ccA_pos range.kappa range.sigma range.clothoid, ?_, ?_⟩
  · rw [ccA_eq (by norm_num) (by norm_num)]
    obtain ⟨t, ht⟩ : ∃ t, t = cArg 5 (1 / 1000 / 5) := ⟨_, rfl⟩
    rw [← ht] at e ⊢
    generalize cScale 5 = c at *
    have ht0 : 0 < t := by
      by_contra hn
      push Not at hn
      nlinarith
    have hf := abs_le.1 (Poly.fresnel_accurate t).2
    have h2 := cenX_upper ht0
    have h6 : c * (t / 2) = 1 / 10000 := by linear_combination 1 / 2 * e
    generalize (SF.fresnel t).2 - fresnelC t = x at hf ⊢
    nlinarith
  · unfold ccB
    obtain ⟨t, ht⟩ : ∃ t, t = cArg 5 (1 / 1000 / 5) := ⟨_, rfl⟩
    rw [← ht] at e ⊢
    generalize cScale 5 = c at *
    have ht0 : 0 < t := by
      by_contra hn
      push Not at hn
      nlinarith
    have hf := abs_le.1 (Poly.fresnel_accurate t).1
    have h1 := abs_le.1 (abs_fresnelS_le ht0.le)
    have h2 := cos_le_one ((1 / 1000 : ℝ) ^ 2 / (2 * 5))
    have h3 : cos ((1 / 1000 : ℝ) ^ 2 / (2 * 5)) / (1 / 1000) ≤ 1000 := by linarith
    have h4 := one_sub_sq_div_two_le_cos (x := (1 / 1000 : ℝ) ^ 2 / (2 * 5))
    have h5 : 99995 / 100 ≤ cos ((1 / 1000 : ℝ) ^ 2 / (2 * 5)) / (1 / 1000) := by
      rw [le_div_iff₀ (by norm_num)]; norm_num at h4 ⊢; linarith
    constructor <;> nlinarith

abbrev A : ℝ := ccA (1 / 1000) 5
abbrev B : ℝ := ccB (1 / 1000) 5

/-! ### Lengths of turns -/

theorem turn {c : SF.Circle} (h : CircOk c (1 / 1000) 5) (q : SF.Configuration) :
    (c.deflection q < SF.epsilon ∧ c.cc_turn_length q = 2 * A) ∨ 4 / 10000 ≤ c.cc_turn_length q := by
  rcases turn_cases h.ok (by norm_num) (by norm_num) q with e | e | ⟨h1, h2, _⟩
  · exact .inl e
  · right; norm_num at e; linarith
  · norm_num [SF.epsilon] at h1 h2; linarith

theorem turn_ge {c : SF.Circle} (h : CircOk c (1 / 1000) 5) (q : SF.Configuration) : 2 * A ≤ c.cc_turn_length q := by
  have := bounds
  rcases turn h q with ⟨_, e⟩ | e
  · exact e.ge
  · linarith

theorem turn_tight {c : SF.Circle} (h : CircOk c (1 / 1000) 5) {q : SF.Configuration} (hl : c.cc_turn_length q ≤ 2 * A) :
    c.deflection q < SF.epsilon := by
  have := bounds
  rcases turn h q with ⟨e, _⟩ | e
  · exact e
  · linarith

/-- A turn by more than the tolerance has an arc. -/
theorem turn_arc {c : SF.Circle} (h : CircOk c (1 / 1000) 5) (q : SF.Configuration)
    (he : SF.epsilon ≤ c.deflection q) :
    1000 * (ang q.theta c.start.theta - 2 / 10000000) ≤ c.cc_turn_length q := by
  have hdm : 2 * c.delta_min = 2 / 10000000 := by rw [h.ok.delta_min]; norm_num
  have hki : |c.kappa_inv| = 1000 := by rw [h.ok.kappa_inv]; cases c.left <;> norm_num [sg]
  rw [ang_deflection]
  unfold SF.Circle.cc_turn_length
  have hs : ¬ c.deflection q < 2 * c.delta_min := by rw [hdm, not_lt]; norm_num [SF.epsilon] at he; linarith
  simp only [if_neg (not_lt.2 he), if_neg hs]
  rw [abs_mul, hki]
  have hc := cc_circular_spec c (c.deflection q)
  have a1 := ang_zero_le (c.cc_circular_deflection (c.deflection q))
  have a2 : ang (c.deflection q) (2 * c.delta_min) = ang (c.cc_circular_deflection (c.deflection q)) 0 := ang_congr hc.symm
  have a3 := ang_triangle (c.deflection q) (2 * c.delta_min) 0
  have a4 := ang_zero_le (2 * c.delta_min)
  rw [hdm] at a2 a3 a4
  have := abs_nonneg (c.kappa / c.sigma)
  rw [abs_of_pos (by norm_num)] at a4
  linarith

/-! ### Rows -/

/-- No row shorter than two turns; a row of this length has no slack. -/
theorem tight {x : ℝ} {ms : List SF.Move} (h : ∀ m ∈ ms, x * (turns m).length ≤ m.length) {m : SF.Move} (hm : m ∈ ms) :
    x * (ms.flatMap turns).length + (m.length - x * (turns m).length) ≤ (ms.map SF.Move.length).sum := by
  induction ms with
  | nil => simp at hm
  | cons a ms ih =>
    have h2 : ∀ m' ∈ ms, x * (turns m').length ≤ m'.length := fun m' hm' => h m' (by simp [hm'])
    simp only [List.flatMap_cons, List.length_append, List.map_cons, List.sum_cons]
    push_cast
    rcases List.mem_cons.1 hm with rfl | hm'
    · have := sum_ge h2
      linarith
    · have := ih h2 hm'
      have := h a (by simp)
      linarith

theorem apart {x1 y1 x2 y2 t a1 b1 a2 b2 : ℝ} {th1 th2 : ℝ}
    (h : (x2 - x1) ^ 2 + (y2 - y1) ^ 2 ≠ (a1 - a2) ^ 2 + (b1 - b2) ^ 2) :
    0 < SF.configuration_distance
      (SF.configuration (SF.global_frame_change x1 y1 t a1 b1).1 (SF.global_frame_change x1 y1 t a1 b1).2 th1 0)
      (SF.configuration (SF.global_frame_change x2 y2 t a2 b2).1 (SF.global_frame_change x2 y2 t a2 b2).2 th2 0) := by
  unfold SF.configuration_distance SF.point_distance SF.configuration SF.global_frame_change
  simp only
  apply sqrt_pos.2
  by_contra hn
  have hsq := sin_sq_add_cos_sq t
  generalize sin t = si at *
  generalize cos t = co at *
  obtain ⟨X, hX⟩ : ∃ X, X = (a2 * co - b2 * si + x2) - (a1 * co - b1 * si + x1) := ⟨_, rfl⟩
  obtain ⟨Y, hY⟩ : ∃ Y, Y = (a2 * si + b2 * co + y2) - (a1 * si + b1 * co + y1) := ⟨_, rfl⟩
  have h0 : X ^ 2 + Y ^ 2 ≤ 0 := by
    rw [hX, hY]
    refine le_trans (le_of_eq ?_) (not_lt.1 hn)
    ring
  have hX0 : X = 0 := by nlinarith [sq_nonneg X, sq_nonneg Y]
  have hY0 : Y = 0 := by nlinarith [sq_nonneg X, sq_nonneg Y]
  apply h
  have ex : x2 - x1 = (a1 - a2) * co - (b1 - b2) * si := by linear_combination hX0 - hX
  have ey : y2 - y1 = (a1 - a2) * si + (b1 - b2) * co := by linear_combination hY0 - hY
  rw [ex, ey]
  linear_combination ((a1 - a2) ^ 2 + (b1 - b2) ^ 2) * hsq

/-- The squared distance of the centres is none of the values for which a line between two turns has no length. -/
structure Apart (c1 c2 : SF.Circle) : Prop where
  zero : (c2.xc - c1.xc) ^ 2 + (c2.yc - c1.yc) ^ 2 ≠ 0
  x : (c2.xc - c1.xc) ^ 2 + (c2.yc - c1.yc) ^ 2 ≠ (2 * (c1.radius * c1.sin_mu)) ^ 2
  y : (c2.xc - c1.xc) ^ 2 + (c2.yc - c1.yc) ^ 2 ≠ (2 * (c1.radius * c1.cos_mu)) ^ 2
  r : (c2.xc - c1.xc) ^ 2 + (c2.yc - c1.yc) ^ 2 ≠ (2 * (c1.radius * c1.sin_mu)) ^ 2 + (2 * (c1.radius * c1.cos_mu)) ^ 2

open SF.CcRs in
theorem lines {c1 c2 : SF.Circle} (h : Apart c1 c2) (m : SF.Scratch) :
    (∀ q, q = TiST_tangent_circles c1 c2 ∨ q = TeST_tangent_circles c1 c2 ∨ q = TciST_tangents m c1 c2 ∨
      q = TceST_tangents m c1 c2 ∨ q = TiScT_tangents m c1 c2 ∨ q = TeScT_tangents m c1 c2 ∨
      q = TciScT_tangents m c1 c2 ∨ q = TceScT_tangents m c1 c2 → 0 < SF.configuration_distance q.1 q.2) := by
  have h0 := h.zero
  have h1 := h.x
  have h2 := h.y
  have h3 := h.r
  rintro q (rfl | rfl | rfl | rfl | rfl | rfl | rfl | rfl)
  · unfold TiST_tangent_circles SF.CC00.TiST_tangent_circles
    simp only
    split_ifs <;> exact apart fun e => h3 (by linear_combination e)
  · unfold TeST_tangent_circles SF.CC00.TeST_tangent_circles
    simp only
    split_ifs <;> exact apart fun e => h1 (by linear_combination e)
  · unfold TciST_tangents
    simp only
    split_ifs <;> exact apart fun e => h2 (by linear_combination e)
  · unfold TceST_tangents
    simp only
    split_ifs <;> exact apart fun e => h0 (by linear_combination e)
  · unfold TiScT_tangents
    simp only
    split_ifs <;> exact apart fun e => h2 (by linear_combination e)
  · unfold TeScT_tangents
    simp only
    split_ifs <;> exact apart fun e => h0 (by linear_combination e)
  · unfold TciScT_tangents
    simp only
    split_ifs <;> exact apart fun e => h3 (by linear_combination e)
  · unfold TceScT_tangents
    simp only
    split_ifs <;> exact apart fun e => h1 (by linear_combination e)

theorem three_shorter {a b : SF.RSRow} (ha : 3 ≤ (a.moves.flatMap turns).length) (hb : 3 ≤ (b.moves.flatMap turns).length) :
    3 ≤ ((a.shorter b).moves.flatMap turns).length := by
  unfold SF.RSRow.shorter; split_ifs; exacts [ha, hb]

open SF.CcRs in
/-- Rows with two turns. -/
theorem family_two {sp : SF.HCSpace} {c1 c2 : SF.Circle} (h : Apart c1 c2) (m : SF.Scratch) (i : ℕ) :
    family sp m c1 c2 i = {} ∨ i = SF.hc_cc_rs.TT ∨ i = SF.hc_cc_rs.TcT ∨
    3 ≤ ((family sp m c1 c2 i).moves.flatMap turns).length ∨
    ∃ q q', .line q q' ∈ (family sp m c1 c2 i).moves ∧ 0 < SF.configuration_distance q q' := by
  have hl := lines h m
  have line : ∀ q : SF.Configuration × SF.Configuration, 0 < SF.configuration_distance q.1 q.2 →
      ∃ q1 q2, .line q1 q2 ∈ (line_row c1 c2 q).moves ∧ 0 < SF.configuration_distance q1 q2 := fun q hq =>
    ⟨q.1, q.2, by simp [line_row], hq⟩
  unfold family
  split
  · exact .inr (.inl rfl)
  · exact .inr (.inr (.inl rfl))
  · split_ifs
    · exact .inr (.inr (.inr (.inl (three_shorter (by simp [TcTcT_side, turns]) (by simp [TcTcT_side, turns])))))
    · exact .inl rfl
  · split_ifs
    · unfold TcTT_path
      simp only
      split_ifs
      · exact .inl rfl
      · exact .inr (.inr (.inr (.inl (three_shorter (by simp [TcTT_side, turns]) (by simp [TcTT_side, turns])))))
    · exact .inl rfl
  · split_ifs
    · unfold TTcT_path
      simp only
      split_ifs
      · exact .inl rfl
      · exact .inr (.inr (.inr (.inl (three_shorter (by simp [TTcT_side, turns]) (by simp [TTcT_side, turns])))))
    · exact .inl rfl
  · unfold TST_path
    split_ifs
    · exact .inr (.inr (.inr (.inr (line _ (hl _ (by simp))))))
    · exact .inr (.inr (.inr (.inr (line _ (hl _ (by simp))))))
    · exact .inl rfl
  · unfold TSTcT_path
    split_ifs
    · exact .inr (.inr (.inr (.inl (by simp [TiSTcT_path, turns]))))
    · exact .inr (.inr (.inr (.inl (by simp [TeSTcT_path, turns]))))
    · exact .inl rfl
  · unfold TcTST_path
    split_ifs
    · exact .inr (.inr (.inr (.inl (by simp [TcTiST_path, turns]))))
    · exact .inr (.inr (.inr (.inl (by simp [TcTeST_path, turns]))))
    · exact .inl rfl
  · unfold TcTSTcT_path
    split_ifs
    · exact .inr (.inr (.inr (.inl (by simp [TcTiSTcT_path, turns]))))
    · exact .inr (.inr (.inr (.inl (by simp [TcTeSTcT_path, turns]))))
    · exact .inl rfl
  · split_ifs
    · unfold TTcTT_path
      simp only
      split_ifs <;> first
        | exact .inl rfl
        | exact .inr (.inr (.inr (.inl (three_shorter (by simp [TTcTT_side, turns]) (by simp [TTcTT_side, turns])))))
    · exact .inl rfl
  · split_ifs
    · unfold TcTTcT_path
      simp only
      split_ifs <;> first
        | exact .inl rfl
        | exact .inr (.inr (.inr (.inl (three_shorter (by simp [TcTTcT_side, turns]) (by simp [TcTTcT_side, turns])))))
    · exact .inl rfl
  · split_ifs
    · exact .inr (.inr (.inr (.inl (three_shorter (by simp [TTT_side, turns]) (by simp [TTT_side, turns])))))
    · exact .inl rfl
  · unfold TcST_path
    split_ifs
    · exact .inr (.inr (.inr (.inr (line _ (hl _ (by simp))))))
    · exact .inr (.inr (.inr (.inr (line _ (hl _ (by simp))))))
    · exact .inl rfl
  · unfold TScT_path
    split_ifs
    · exact .inr (.inr (.inr (.inr (line _ (hl _ (by simp))))))
    · exact .inr (.inr (.inr (.inr (line _ (hl _ (by simp))))))
    · exact .inl rfl
  · unfold TcScT_path
    split_ifs
    · exact .inr (.inr (.inr (.inr (line _ (hl _ (by simp))))))
    · exact .inr (.inr (.inr (.inr (line _ (hl _ (by simp))))))
    · exact .inl rfl
  · exact .inl rfl

open SF.CcRs in
/-- A row that is not longer than two straight lines in place of turns is `TT` or `TcT` with two such lines. -/
theorem short {sp : SF.HCSpace} (hsk : sp.kappa = 1 / 1000) (hss : sp.sigma = 5) {c1 c2 : SF.Circle}
    (h1 : CircOk c1 (1 / 1000) 5) (h2 : CircOk c2 (1 / 1000) 5) (ha : Apart c1 c2) {m : SF.Scratch} {i : ℕ}
    (hl : (family sp m c1 c2 i).length ≤ 4 * A) :
    (i = SF.hc_cc_rs.TT ∨ i = SF.hc_cc_rs.TcT) ∧
    ∀ c q o, SF.Move.cc c q o ∈ (family sp m c1 c2 i).moves → c.deflection q < SF.epsilon := by
  have hb := bounds
  have H : Rng sp.kappa sp.sigma := by rw [hsk, hss]; exact range.rng
  have hne : family sp m c1 c2 i ≠ {} := by
    intro e
    rw [e] at hl
    have : (10:ℝ) ^ 201 < 4 * A := SF.dblMax_large.trans_le hl
    have h3 : (1:ℝ) < 10 ^ 201 := one_lt_pow₀ (by norm_num) (by norm_num)
    linarith
  have h0 : CcShape (1 / 1000) 5 (family sp m c1 c2 i) := by
    have := family_shape H (by rw [hsk, hss]; exact h1) (by rw [hsk, hss]; exact h2) m i
    rw [hsk, hss] at this
    exact this.resolve_left hne
  have hall : ∀ m' ∈ (family sp m c1 c2 i).moves, 2 * A * ((turns m').length : ℝ) ≤ m'.length := by
    intro m' hm
    rcases h0.kinds m' hm with ⟨q, q', rfl⟩ | ⟨c, q, o, rfl, hc⟩
    · simp only [turns, List.length_nil, Nat.cast_zero, mul_zero, SF.Move.length]
      exact sqrt_nonneg _
    · simp only [turns, List.length_singleton, Nat.cast_one, mul_one, SF.Move.length]
      exact turn_ge hc q
  have hsum := sum_ge hall
  rw [← h0.len] at hsum
  have h2' : (2:ℝ) ≤ (((family sp m c1 c2 i).moves.flatMap turns).length : ℝ) := by exact_mod_cast h0.two
  have hx : ∀ m' ∈ (family sp m c1 c2 i).moves, m'.length ≤ 2 * A * ((turns m').length : ℝ) := by
    intro m' hm
    have h3 := tight hall hm
    rw [← h0.len] at h3
    have h4 := mul_le_mul_of_nonneg_left h2' (show 0 ≤ 2 * A by linarith)
    linarith
  refine ⟨?_, ?_⟩
  · rcases family_two ha m i with e | e | e | e | ⟨q, q', hq, hd⟩
    · exact absurd e hne
    · exact .inl e
    · exact .inr e
    · exfalso
      have h3 : (3:ℝ) ≤ (((family sp m c1 c2 i).moves.flatMap turns).length : ℝ) := by exact_mod_cast e
      have h4 := mul_le_mul_of_nonneg_left h3 (show 0 ≤ 2 * A by linarith)
      linarith
    · exfalso
      have := hx _ hq
      simp only [turns, List.length_nil, Nat.cast_zero, mul_zero, SF.Move.length] at this
      linarith
  · intro c q o hm
    have h3 := hx _ hm
    simp only [turns, List.length_singleton, Nat.cast_one, mul_one, SF.Move.length] at h3
    rcases h0.kinds _ hm with ⟨q1, q2, e⟩ | ⟨c', q1, o', e, hc⟩
    · simp at e
    · simp only [SF.Move.cc.injEq] at e
      obtain ⟨rfl, rfl, rfl⟩ := e
      exact turn_tight hc h3

/-! ### The states -/

/-- A goal 2 cm ahead with heading 1.5e-4. -/
def goal : SF.State := ⟨1 / 50, -97 / 1000000, 15 / 100000, 0, 0⟩

theorem goal_theta : (startOf goal).theta = 15 / 100000 :=
  SF.twopify_of_mem (show (0:ℝ) ≤ 15 / 100000 by norm_num)
    (show (15 / 100000 : ℝ) < 2 * π by linarith [pi_gt_three])

/-- Difference of the centres. -/
theorem centers {c1 c2 : SF.Circle} (h1 : CircOk c1 (1 / 1000) 5) (h2 : CircOk c2 (1 / 1000) 5)
    (s1 : c1.start = startOf wideStart) (s2 : c2.start = startOf goal) :
    c2.xc - c1.xc = 1 / 50 + (cos (15 / 100000) * (sg c2.forward * A) - sin (15 / 100000) * (sg c2.left * B)) - sg c1.forward * A ∧
    c2.yc - c1.yc = -97 / 1000000 + (cos (15 / 100000) * (sg c2.left * B) + sin (15 / 100000) * (sg c2.forward * A))
      - sg c1.left * B := by
  have e1 := h1.cen
  have e2 := h2.cen
  have t1 : cfg c1.start = ⟨0, 0, 0⟩ := by
    rw [s1]
    unfold cfg
    rw [CC00.wideStart_theta]; rfl
  have t2 : cfg c2.start = ⟨1 / 50, -97 / 1000000, 15 / 100000⟩ := by
    rw [s2]
    unfold cfg
    rw [goal_theta]; rfl
  rw [t1] at e1
  rw [t2] at e2
  unfold cen Config.pos center at e1 e2
  have r1 := congrArg Complex.re e1
  have i1 := congrArg Complex.im e1
  have r2 := congrArg Complex.re e2
  have i2 := congrArg Complex.im e2
  simp only [cis, Complex.add_re, Complex.add_im, Complex.mul_re, Complex.mul_im, cos_zero, sin_zero] at r1 i1 r2 i2
  rw [r1, i1, r2, i2]
  constructor <;> ring

/-- Bounds for the terms of the difference. -/
theorem terms : 1 - 1 / 10 ^ 7 ≤ cos (15 / 100000) ∧ cos (15 / 100000 : ℝ) ≤ 1 ∧
    B * (1 - cos (15 / 100000)) ≤ 113 / 10000000 ∧ 0 ≤ B * (1 - cos (15 / 100000)) ∧
    149 / 1000 ≤ sin (15 / 100000) * B ∧ sin (15 / 100000) * B ≤ 151 / 1000 ∧
    0 ≤ sin (15 / 100000) * A ∧ sin (15 / 100000) * A ≤ 1 / 10 ^ 7 ∧
    0 ≤ A * (1 - cos (15 / 100000)) ∧ A * (1 - cos (15 / 100000)) ≤ 1 / 10 ^ 7 := by
  obtain ⟨A0, A1, B0, B1⟩ := bounds
  have hc0 := one_sub_sq_div_two_le_cos (x := 15 / 100000)
  have hc1 := cos_le_one (15 / 100000)
  have hs1 := sin_le (show (0:ℝ) ≤ 15 / 100000 by norm_num)
  have hs0 := sin_gt_sub_cube (show (0:ℝ) < 15 / 100000 by norm_num)
  generalize cos (15 / 100000) = co at *
  generalize sin (15 / 100000) = si at *
  have hs0' : 1499 / 10000000 ≤ si := by norm_num at hs0 ⊢; linarith
  have hc0' : 1 - co ≤ 1125 / 10 ^ 11 := by norm_num at hc0 ⊢; linarith
  refine ⟨by norm_num at hc0 ⊢; linarith, hc1, ?_, mul_nonneg (by linarith) (by linarith), ?_, ?_, mul_nonneg (by linarith) A0.le,
    ?_, mul_nonneg A0.le (by linarith), ?_⟩
  · refine (mul_le_mul B1 hc0' (by linarith) (by norm_num)).trans (by norm_num)
  · refine le_trans (by norm_num) (mul_le_mul hs0' B0 (by norm_num) (by linarith))
  · refine (mul_le_mul hs1 B1 (by linarith) (by norm_num)).trans (by norm_num)
  · refine (mul_le_mul hs1 A1 A0.le (by norm_num)).trans (by norm_num)
  · refine (mul_le_mul A1 hc0' (by linarith) (by norm_num)).trans (by norm_num)

/-- Circles on opposite sides. -/
theorem opposite {c1 c2 : SF.Circle} (h1 : CircOk c1 (1 / 1000) 5) (h2 : CircOk c2 (1 / 1000) 5)
    (s1 : c1.start = startOf wideStart) (s2 : c2.start = startOf goal) (hl : c2.left = !c1.left) :
    (c1.left = true → 168 / 1000 ≤ c2.xc - c1.xc ∧ c2.xc - c1.xc ≤ 172 / 1000 ∧
      2 * B + 85 / 1000000 ≤ -(c2.yc - c1.yc) ∧ -(c2.yc - c1.yc) ≤ 2 * B + 98 / 1000000 - B * (1 - cos (15 / 100000))) ∧
    (c1.left = false → -(132 / 1000) ≤ c2.xc - c1.xc ∧ c2.xc - c1.xc ≤ -(128 / 1000) ∧
      0 ≤ c2.yc - c1.yc ∧ c2.yc - c1.yc ≤ 2 * B - 96 / 1000000 - B * (1 - cos (15 / 100000))) := by
  obtain ⟨e1, e2⟩ := centers h1 h2 s1 s2
  obtain ⟨A0, A1, B0, B1⟩ := bounds
  obtain ⟨p1, p2, p3, p4, p5, p6, p7, p8, p9, p10⟩ := terms
  generalize cos (15 / 100000) = co at *
  generalize sin (15 / 100000) = si at *
  rw [e1, e2, hl]
  constructor
  · intro h
    rw [h]
    rcases sg_pm c1.forward with hf | hf <;> rcases sg_pm c2.forward with hf' | hf' <;> rw [hf, hf'] <;>
      simp only [sg, Bool.not_true, Bool.false_eq_true, if_false, if_true] <;>
      refine ⟨?_, ?_, ?_, ?_⟩ <;> linarith
  · intro h
    rw [h]
    rcases sg_pm c1.forward with hf | hf <;> rcases sg_pm c2.forward with hf' | hf' <;> rw [hf, hf'] <;>
      simp only [sg, Bool.not_false, Bool.false_eq_true, if_false, if_true] <;>
      refine ⟨?_, ?_, ?_, ?_⟩ <;> linarith

theorem sin_part : 11 / 1000000 ≤ B * (1 - cos (15 / 100000)) := by
  obtain ⟨A0, A1, B0, B1⟩ := bounds
  obtain ⟨p1, p2, p3, p4, p5, p6, -⟩ := terms
  have hs0 := sin_gt_sub_cube (show (0:ℝ) < 15 / 100000 by norm_num)
  have hs0' : 1499 / 10000000 ≤ sin (15 / 100000) := by norm_num at hs0 ⊢; linarith
  have hsq := sin_sq_add_cos_sq (15 / 100000)
  generalize cos (15 / 100000) = co at *
  generalize sin (15 / 100000) = si at *
  have h1 : si ^ 2 / 2 ≤ 1 - co := by nlinarith
  have h2 : B * (si ^ 2 / 2) ≤ B * (1 - co) := mul_le_mul_of_nonneg_left h1 (by linarith)
  have h3 : 149 / 1000 * (1499 / 10000000) ≤ si * B * si := mul_le_mul p5 hs0' (by norm_num) (by linarith)
  linarith

/-- Distance of the centres of circles on opposite sides. -/
theorem opposite_dist {c1 c2 : SF.Circle} (h1 : CircOk c1 (1 / 1000) 5) (h2 : CircOk c2 (1 / 1000) 5)
    (s1 : c1.start = startOf wideStart) (s2 : c2.start = startOf goal) (hl : c2.left = !c1.left) :
    (c1.left = true → (2 * A) ^ 2 + (2 * B) ^ 2 < (c2.xc - c1.xc) ^ 2 + (c2.yc - c1.yc) ^ 2 ∧
      (c2.xc - c1.xc) ^ 2 + (c2.yc - c1.yc) ^ 2 < (2 * B + 1 / 10000) ^ 2) ∧
    (c1.left = false → (c2.xc - c1.xc) ^ 2 + (c2.yc - c1.yc) ^ 2 < (2 * B - 1 / 10000) ^ 2) ∧
    (1 / 10) ^ 2 < (c2.xc - c1.xc) ^ 2 + (c2.yc - c1.yc) ^ 2 := by
  obtain ⟨A0, A1, B0, B1⟩ := bounds
  have hz := sin_part
  obtain ⟨o1, o2⟩ := opposite h1 h2 s1 s2 hl
  generalize c2.xc - c1.xc = X at *
  generalize c2.yc - c1.yc = Y at *
  have n1 : c1.left = true → (2 * A) ^ 2 + (2 * B) ^ 2 < X ^ 2 + Y ^ 2 ∧ X ^ 2 + Y ^ 2 < (2 * B + 1 / 10000) ^ 2 := by
    intro h
    obtain ⟨x1, x2, y1, y2⟩ := o1 h
    have e1 : (2 * B + 85 / 1000000) ^ 2 ≤ (-Y) ^ 2 := pow_le_pow_left₀ (by linarith) y1 2
    have e2 : (-Y) ^ 2 ≤ (2 * B + 87 / 1000000) ^ 2 := pow_le_pow_left₀ (by linarith) (by linarith) 2
    have e3 : X ^ 2 ≤ (172 / 1000) ^ 2 := pow_le_pow_left₀ (by linarith) x2 2
    have e4 : (2 * A) ^ 2 ≤ (22 / 100000) ^ 2 := pow_le_pow_left₀ (by linarith) (by linarith) 2
    constructor
    · nlinarith [sq_nonneg X]
    · nlinarith
  have n2 : c1.left = false → X ^ 2 + Y ^ 2 < (2 * B - 1 / 10000) ^ 2 := by
    intro h
    obtain ⟨x1, x2, y1, y2⟩ := o2 h
    have e2 : Y ^ 2 ≤ (2 * B - 107 / 1000000) ^ 2 := pow_le_pow_left₀ y1 (by linarith) 2
    have e3 : (-X) ^ 2 ≤ (132 / 1000) ^ 2 := pow_le_pow_left₀ (by linarith) (by linarith) 2
    nlinarith
  refine ⟨n1, n2, ?_⟩
  rcases hcl : c1.left with _ | _
  · obtain ⟨x1, x2, y1, y2⟩ := o2 hcl
    nlinarith [sq_nonneg Y]
  · obtain ⟨x1, x2, y1, y2⟩ := o1 hcl
    nlinarith [sq_nonneg Y]

/-- Circles on the same side. -/
theorem same_dist {c1 c2 : SF.Circle} (h1 : CircOk c1 (1 / 1000) 5) (h2 : CircOk c2 (1 / 1000) 5)
    (s1 : c1.start = startOf wideStart) (s2 : c2.start = startOf goal) (hl : c2.left = c1.left) :
    (1 / 10) ^ 2 < (c2.xc - c1.xc) ^ 2 + (c2.yc - c1.yc) ^ 2 ∧ (c2.xc - c1.xc) ^ 2 + (c2.yc - c1.yc) ^ 2 < 1 := by
  obtain ⟨e1, e2⟩ := centers h1 h2 s1 s2
  obtain ⟨A0, A1, B0, B1⟩ := bounds
  obtain ⟨p1, p2, p3, p4, p5, p6, p7, p8, p9, p10⟩ := terms
  rw [hl] at e1 e2
  generalize c2.xc - c1.xc = X at *
  generalize c2.yc - c1.yc = Y at *
  generalize cos (15 / 100000) = co at *
  generalize sin (15 / 100000) = si at *
  have hX : (120 / 1000 ≤ X ∧ X ≤ 180 / 1000) ∨ (X ≤ -(120 / 1000) ∧ -(180 / 1000) ≤ X) := by
    rw [e1]
    rcases sg_pm c1.left with h | h <;> rw [h]
    · right
      rcases sg_pm c1.forward with hf | hf <;> rcases sg_pm c2.forward with hf' | hf' <;> rw [hf, hf'] <;> constructor <;> linarith
    · left
      rcases sg_pm c1.forward with hf | hf <;> rcases sg_pm c2.forward with hf' | hf' <;> rw [hf, hf'] <;> constructor <;> linarith
  have hY : |Y| ≤ 1 / 1000 := by
    rw [e2, abs_le]
    rcases sg_pm c1.left with h | h <;> rw [h] <;> rcases sg_pm c2.forward with hf' | hf' <;> rw [hf'] <;> constructor <;> linarith
  obtain ⟨y1, y2⟩ := abs_le.1 hY
  rcases hX with ⟨x1, x2⟩ | ⟨x1, x2⟩ <;> constructor <;> nlinarith [sq_nonneg Y]

theorem all_apart {c1 c2 : SF.Circle} (h1 : CircOk c1 (1 / 1000) 5) (h2 : CircOk c2 (1 / 1000) 5)
    (s1 : c1.start = startOf wideStart) (s2 : c2.start = startOf goal) : Apart c1 c2 := by
  obtain ⟨A0, A1, B0, B1⟩ := bounds
  have hA : (2 * A) ^ 2 ≤ (22 / 100000) ^ 2 := pow_le_pow_left₀ (by linarith) (by linarith) 2
  have key : (1 / 10) ^ 2 < (c2.xc - c1.xc) ^ 2 + (c2.yc - c1.yc) ^ 2 ∧
      ((c2.xc - c1.xc) ^ 2 + (c2.yc - c1.yc) ^ 2 < (2 * B) ^ 2 ∨
        (2 * A) ^ 2 + (2 * B) ^ 2 < (c2.xc - c1.xc) ^ 2 + (c2.yc - c1.yc) ^ 2) := by
    by_cases hl : c1.left = c2.left
    · obtain ⟨d1, d2⟩ := same_dist h1 h2 s1 s2 hl.symm
      exact ⟨d1, .inl (d2.trans (by nlinarith))⟩
    · obtain ⟨d1, d2, d3⟩ := opposite_dist h1 h2 s1 s2 (not_of_ne hl)
      refine ⟨d3, ?_⟩
      rcases hcl : c1.left with _ | _
      · exact .inl ((d2 hcl).trans (pow_lt_pow_left₀ (by linarith) (by linarith) (by norm_num)))
      · exact .inr (d1 hcl).1
  obtain ⟨k1, k2⟩ := key
  have hA0 : 0 ≤ (2 * A) ^ 2 := sq_nonneg _
  constructor
  · intro e; rw [e] at k1; norm_num at k1
  · rw [h1.ok.sin_mu]; intro e; rw [e] at k1; norm_num at k1; linarith
  · rw [h1.ok.cos_mu]; intro e; rw [e] at k2
    rcases k2 with k | k <;> linarith
  · rw [h1.ok.sin_mu, h1.ok.cos_mu]; intro e; rw [e] at k2
    rcases k2 with k | k <;> linarith

/-- Two deflections below the tolerance that lead to the heading of the goal. -/
theorem sides {c1 c2 : SF.Circle} (s1 : c1.start = startOf wideStart) (s2 : c2.start = startOf goal)
    {q1 q2 : SF.Configuration} (hq : q2.theta = q1.theta) (h0 : 0 ≤ q1.theta) (hp : q1.theta < 2 * π)
    (d1 : c1.deflection q1 < SF.epsilon) (d2 : c2.deflection q2 < SF.epsilon) :
    c1.left = c1.forward ∧ c2.left = !c2.forward := by
  have t1 : c1.start.theta = 0 := by rw [s1]; exact CC00.wideStart_theta
  have t2 : c2.start.theta = 15 / 100000 := by rw [s2]; exact goal_theta
  have hpi := pi_gt_three
  unfold SF.Circle.deflection at d1 d2
  simp only [t1, t2, hq, sub_zero, zero_sub, SF.epsilon] at d1 d2
  obtain ⟨p, hpp⟩ : ∃ p, p = q1.theta := ⟨_, rfl⟩
  rw [← hpp] at h0 hp d1 d2
  have a1 : SF.twopify p = p := SF.twopify_of_mem h0 hp
  have a2 : p ≠ 0 → SF.twopify (-p) = 2 * π - p := by
    intro hne
    rw [← SF.twopify_of_mem (a := 2 * π - p) (by linarith) (by have := lt_of_le_of_ne h0 hne.symm; linarith)]
    exact SF.twopify_congr ⟨-1, by push_cast; ring⟩
  have a3 : p < 15 / 100000 → SF.twopify (p - 15 / 100000) = 2 * π + (p - 15 / 100000) := by
    intro h
    rw [← SF.twopify_of_mem (a := 2 * π + (p - 15 / 100000)) (by linarith) (by linarith)]
    exact SF.twopify_congr ⟨-1, by push_cast; ring⟩
  have a4 : 15 / 100000 ≤ p → SF.twopify (p - 15 / 100000) = p - 15 / 100000 := fun h =>
    SF.twopify_of_mem (by linarith) (by linarith)
  have a5 : p ≤ 15 / 100000 → SF.twopify (15 / 100000 - p) = 15 / 100000 - p := fun h =>
    SF.twopify_of_mem (by linarith) (by linarith)
  have a6 : 15 / 100000 < p → SF.twopify (15 / 100000 - p) = 2 * π + (15 / 100000 - p) := by
    intro h
    rw [← SF.twopify_of_mem (a := 2 * π + (15 / 100000 - p)) (by linarith) (by linarith)]
    exact SF.twopify_congr ⟨-1, by push_cast; ring⟩
  have plus1 : SF.twopify p < 1 / 10000 → p < 1 / 10000 := by rw [a1]; exact id
  have minus1 : SF.twopify (-p) < 1 / 10000 → p = 0 ∨ 2 * π - 1 / 10000 < p := by
    intro h
    by_cases hne : p = 0
    · exact .inl hne
    · rw [a2 hne] at h; right; linarith
  have plus2 : SF.twopify (p - 15 / 100000) < 1 / 10000 → 15 / 100000 ≤ p ∧ p < 25 / 100000 := by
    intro h
    rcases lt_or_ge p (15 / 100000) with h' | h'
    · rw [a3 h'] at h; linarith
    · rw [a4 h'] at h; exact ⟨h', by linarith⟩
  have minus2 : SF.twopify (15 / 100000 - p) < 1 / 10000 → 5 / 100000 < p ∧ p ≤ 15 / 100000 ∨ 2 * π < p + 1 / 10000 - 15 / 100000 := by
    intro h
    rcases le_or_gt p (15 / 100000) with h' | h'
    · rw [a5 h'] at h; exact .inl ⟨by linarith, h'⟩
    · rw [a6 h'] at h; right; linarith
  rcases hl1 : c1.left with _ | _ <;> rcases hf1 : c1.forward with _ | _ <;>
    rcases hl2 : c2.left with _ | _ <;> rcases hf2 : c2.forward with _ | _ <;>
    simp only [hl1, hf1, hl2, hf2, Bool.and_false, Bool.and_true, Bool.not_false, Bool.not_true,
      Bool.or_false, Bool.or_true, Bool.and_self, Bool.or_self, Bool.false_eq_true, if_true,
      if_false] at d1 d2 ⊢ <;>
    first
      | exact ⟨trivial, trivial⟩
      | exact ⟨rfl, rfl⟩
      | (exfalso
         first
           | (have := plus1 d1; have := plus2 d2; linarith)
           | (have h2 := plus2 d2; rcases minus1 d1 with h | h <;> linarith)
           | (rcases minus1 d1 with h | h <;> rcases minus2 d2 with h2 | h2 <;> linarith))

/-! ### The planner -/

theorem goal_not : ¬ SF.configuration_equal (startOf wideStart) (startOf goal) ∧
    ¬ SF.configuration_aligned (startOf wideStart) (startOf goal) ∧
    ¬ SF.configuration_aligned (startOf goal) (startOf wideStart) := by
  unfold SF.configuration_equal SF.configuration_aligned
  rw [CC00.wideStart_theta, goal_theta, if_pos (by norm_num [SF.epsilon]), if_pos (by norm_num [SF.epsilon]),
    if_pos (by norm_num [SF.epsilon, abs_of_neg])]
  exact ⟨id, id, id⟩

/-- A single turn would be far longer. -/
theorem single {c : SF.Circle} (h : CircOk c (1 / 1000) 5) (s : c.start = startOf wideStart) :
    1 / 10 ≤ c.cc_turn_length (startOf goal) := by
  have hpi := pi_gt_three
  have ha : ang (startOf goal).theta c.start.theta = 15 / 100000 := by
    rw [s, CC00.wideStart_theta, goal_theta, ang, sub_zero]
    exact arccos_cos (by norm_num) (by linarith)
  have hd : SF.epsilon ≤ c.deflection (startOf goal) := by
    have h0 := ang_deflection c (startOf goal)
    have h1 := ang_zero_le (c.deflection (startOf goal))
    rw [abs_of_nonneg (deflection_spec c _).2.1, ← h0, ha] at h1
    norm_num [SF.epsilon]; linarith
  have := turn_arc h (startOf goal) hd
  rw [ha] at this
  linarith

theorem TcT_dist {c1 c2 : SF.Circle} : SF.center_distance c1 c2 ^ 2 = (c2.xc - c1.xc) ^ 2 + (c2.yc - c1.yc) ^ 2 := by
  unfold SF.center_distance
  rw [sq_sqrt (by positivity)]

/-- Of the pairs accepted as `TcT` those that start with a turn to the left remain; the cusp is no point. -/
theorem TcT_left {c1 c2 : SF.Circle} (h1 : CircOk c1 (1 / 1000) 5) (h2 : CircOk c2 (1 / 1000) 5)
    (s1 : c1.start = startOf wideStart) (s2 : c2.start = startOf goal)
    (he : SF.CcRs.TcT_exists (SF.scratch c1 c2) c1 c2) : SF.CcRs.TcT_negative c1 c2 := by
  obtain ⟨A0, A1, B0, B1⟩ := bounds
  unfold SF.CcRs.TcT_exists at he
  split_ifs at he with hl hf
  obtain ⟨d1, d2, -⟩ := opposite_dist h1 h2 s1 s2 (not_of_ne hl)
  rw [← TcT_dist] at d1 d2
  have hn : 0 ≤ SF.center_distance c1 c2 := sqrt_nonneg _
  have he' : |SF.center_distance c1 c2 - 2 * c1.radius * c1.cos_mu| < SF.epsilon := he
  rw [mul_assoc, h1.ok.cos_mu] at he'
  rcases hcl : c1.left with _ | _
  · exfalso
    have := d2 hcl
    have := (abs_lt.1 he').1
    norm_num [SF.epsilon] at this
    have h3 := pow_lt_pow_left₀ (show 2 * B - 1 / 10000 < SF.center_distance c1 c2 by linarith) (by linarith) (n := 2) (by norm_num)
    linarith
  · unfold SF.CcRs.TcT_negative
    have hr : c1.radius ^ 2 = A ^ 2 + B ^ 2 := by rw [h1.ok.radius, sq_sqrt (by positivity)]
    rw [hr]
    have := (d1 hcl).1
    linarith

theorem TcT_accepted {c1 c2 : SF.Circle} (h1 : CircOk c1 (1 / 1000) 5) (h2 : CircOk c2 (1 / 1000) 5)
    (s1 : c1.start = startOf wideStart) (s2 : c2.start = startOf goal) (l1 : c1.left = true) (l2 : c2.left = false)
    (f1 : c1.forward = true) (f2 : c2.forward = true) : SF.CcRs.TcT_exists (SF.scratch c1 c2) c1 c2 := by
  obtain ⟨A0, A1, B0, B1⟩ := bounds
  unfold SF.CcRs.TcT_exists
  rw [if_neg (by rw [l1, l2]; simp), if_neg (by rw [f1, f2]; simp)]
  obtain ⟨d1, -, -⟩ := opposite_dist h1 h2 s1 s2 (by rw [l1, l2]; rfl)
  rw [← TcT_dist] at d1
  have hn : 0 ≤ SF.center_distance c1 c2 := sqrt_nonneg _
  change |SF.center_distance c1 c2 - 2 * c1.radius * c1.cos_mu| < SF.epsilon
  rw [mul_assoc, h1.ok.cos_mu, abs_lt]
  obtain ⟨e1, e2⟩ := d1 l1
  have g1 : 2 * B < SF.center_distance c1 c2 := by
    apply lt_of_pow_lt_pow_left₀ 2 hn
    have := sq_nonneg (2 * A)
    linarith
  have g2 : SF.center_distance c1 c2 < 2 * B + 1 / 10000 := lt_of_pow_lt_pow_left₀ 2 (by linarith) e2
  norm_num [SF.epsilon]
  constructor <;> linarith

/-- Heading of a vector that points down, turned by a right angle. -/
theorem heading {X Y a b d e : ℝ} (ha : 0 < a) (x1 : a ≤ X) (x2 : X ≤ b) (hd : 0 < d) (y1 : d ≤ -Y) (y2 : -Y ≤ e - 1)
    (hb : b ≤ 1 / 5) (hbd : b / d ≤ 1 / 1000) : a / e ≤ SF.atan2 Y X + π / 2 ∧ SF.atan2 Y X + π / 2 ≤ 101 / 100 * (b / d) := by
  have hX : 0 < X := by linarith
  have hg1 := abs_lt.1 (SF.atan2_abs_lt (y := Y) hX)
  have hg2 : SF.atan2 Y X < 0 := by rw [← not_le, SF.atan2_nonneg_iff]; linarith
  have hcos : √(X ^ 2 + Y ^ 2) * cos (SF.atan2 Y X) = X := by
    unfold SF.atan2
    rw [sqrt_eq_norm]
    exact Complex.norm_mul_cos_arg _
  generalize SF.atan2 Y X = g at *
  have hc0 : 0 < cos g := cos_pos_of_mem_Ioo ⟨by linarith, by linarith⟩
  have hsin : sin (g + π / 2) = cos g := sin_add_pi_div_two g
  have dl : d ≤ √(X ^ 2 + Y ^ 2) := by
    apply le_sqrt_of_sq_le
    nlinarith [sq_nonneg X]
  have du : √(X ^ 2 + Y ^ 2) ≤ e := by
    apply sqrt_le_iff.2
    refine ⟨by linarith, ?_⟩
    nlinarith
  have b1 : cos g ≤ b / d := by
    rw [le_div_iff₀ hd]
    have := mul_le_mul_of_nonneg_right dl hc0.le
    linarith
  have b2 : a / e ≤ cos g := by
    rw [div_le_iff₀ (by linarith)]
    have := mul_le_mul_of_nonneg_right du hc0.le
    linarith
  have t0 : 0 < g + π / 2 := by linarith
  have tp : g + π / 2 < π / 2 := by linarith
  have hle := sin_le t0.le
  have hj := mul_le_sin t0.le tp.le
  refine ⟨by linarith, ?_⟩
  have h2 : 2 * (g + π / 2) ≤ π * sin (g + π / 2) := by
    rw [div_mul_eq_mul_div, div_le_iff₀ pi_pos] at hj; linarith
  rw [hsin] at h2
  have h3 := mul_le_mul_of_nonneg_left b1 pi_pos.le
  have h4 : π * (b / d) ≤ 4 * (b / d) := mul_le_mul_of_nonneg_right pi_lt_four.le (by linarith)
  have hgt := sin_gt_sub_cube t0
  rw [hsin] at hgt
  have h5 : g + π / 2 ≤ 1 / 500 := by linarith
  generalize g + π / 2 = t at *
  have h6 : t ^ 2 ≤ (1 / 500) ^ 2 := pow_le_pow_left₀ t0.le h5 2
  have h7 : t * t ^ 2 ≤ t * (1 / 500) ^ 2 := mul_le_mul_of_nonneg_left h6 t0.le
  nlinarith

theorem TcT_short {c1 c2 : SF.Circle} (h1 : CircOk c1 (1 / 1000) 5) (h2 : CircOk c2 (1 / 1000) 5)
    (s1 : c1.start = startOf wideStart) (s2 : c2.start = startOf goal) (l1 : c1.left = true) (l2 : c2.left = false)
    (f1 : c1.forward = true) (f2 : c2.forward = true) : (SF.CcRs.TcT_path c1 c2).length ≤ 4 * A := by
  obtain ⟨A0, A1, B0, B1⟩ := bounds
  have hpi := pi_gt_three
  have hn := TcT_left h1 h2 s1 s2 (TcT_accepted h1 h2 s1 s2 l1 l2 f1 f2)
  have t1 : c1.start.theta = 0 := by rw [s1]; exact CC00.wideStart_theta
  have t2 : c2.start.theta = 15 / 100000 := by rw [s2]; exact goal_theta
  obtain ⟨x1, x2, y1, y2⟩ := (opposite h1 h2 s1 s2 (by rw [l1, l2]; rfl)).1 l1
  obtain ⟨p1, p2, p3, p4, -⟩ := terms
  have hth : 51 / 1000000 < SF.CcRs.TcT_theta c1 c2 ∧ SF.CcRs.TcT_theta c1 c2 < 99 / 1000000 := by
    unfold SF.CcRs.TcT_theta
    simp only [l1, if_true]
    obtain ⟨u1, u2⟩ := heading (X := c2.xc - c1.xc) (Y := c2.yc - c1.yc) (a := 168 / 1000) (b := 172 / 1000) (d := 1999)
      (e := 2002) (by norm_num) x1 x2 (by norm_num) (by linarith) (by linarith) (by norm_num) (by norm_num)
    norm_num at u1 u2
    constructor <;> linarith
  obtain ⟨u1, u2⟩ := hth
  unfold SF.CcRs.TcT_path
  simp only [if_pos hn]
  have e1 : c1.deflection (SF.CcRs.blind c1 (SF.CcRs.TcT_theta c1 c2)) < SF.epsilon := by
    unfold SF.Circle.deflection SF.CcRs.blind SF.configuration
    simp only [l1, f1, t1, sub_zero, Bool.and_self, Bool.true_or, if_true]
    rw [SF.twopify_of_mem (a := SF.twopify _) (SF.twopify_nonneg _) (SF.twopify_lt _), SF.twopify_of_mem (by linarith) (by linarith)]
    norm_num [SF.epsilon]; linarith
  have e2 : c2.deflection (SF.CcRs.blind c2 (SF.CcRs.TcT_theta c1 c2)) < SF.epsilon := by
    unfold SF.Circle.deflection SF.CcRs.blind SF.configuration
    simp only [l2, f2, t2, Bool.false_and, Bool.not_true, Bool.and_false, Bool.or_self, Bool.false_eq_true, if_false]
    rw [SF.twopify_of_mem (a := SF.CcRs.TcT_theta c1 c2) (by linarith) (by linarith), SF.twopify_of_mem (by linarith) (by linarith)]
    norm_num [SF.epsilon]; linarith
  have w1 : c1.cc_turn_length (SF.CcRs.blind c1 (SF.CcRs.TcT_theta c1 c2)) = 2 * A := by
    rw [SF.Circle.cc_turn_length]; simp only [if_pos e1]; rw [mul_assoc, h1.ok.sin_mu]
  have w2 : c2.cc_turn_length (SF.CcRs.blind c2 (SF.CcRs.TcT_theta c1 c2)) = 2 * A := by
    rw [SF.Circle.cc_turn_length]; simp only [if_pos e2]; rw [mul_assoc, h2.ok.sin_mu]
  rw [w1, w2]
  linarith

/-- The goal is not on the circle of a turn to the left. -/
theorem off {c : SF.Circle} (h : CircOk c (1 / 1000) 5) (s : c.start = startOf wideStart) (hl : c.left = true)
    (hf : c.forward = true) : ¬ SF.configuration_on_hc_cc_circle c (startOf goal) := by
  obtain ⟨A0, A1, B0, B1⟩ := bounds
  have hpi := pi_gt_three
  have e1 := h.cen
  have t1 : cfg c.start = ⟨0, 0, 0⟩ := by
    rw [s]
    unfold cfg
    rw [CC00.wideStart_theta]; rfl
  rw [t1, hl, hf] at e1
  unfold cen Config.pos center at e1
  have r1 := congrArg Complex.re e1
  have i1 := congrArg Complex.im e1
  simp only [cis, Complex.add_re, Complex.add_im, Complex.mul_re, Complex.mul_im, cos_zero, sin_zero, sg, if_true] at r1 i1
  have hx : (startOf goal).x - c.xc = 1 / 50 - A := by rw [r1]; change 1 / 50 - _ = _; ring
  have hy : (startOf goal).y - c.yc = -97 / 1000000 - B := by rw [i1]; change -97 / 1000000 - _ = _; ring
  unfold SF.configuration_on_hc_cc_circle
  simp only [hl, hf, Bool.and_self, Bool.not_true, Bool.and_false, Bool.false_and, Bool.false_eq_true, if_true, if_false]
  split_ifs
  · exact id
  rw [hx, hy, goal_theta]
  obtain ⟨u1, u2⟩ := heading (X := 1 / 50 - A) (Y := -97 / 1000000 - B) (a := 19 / 1000) (b := 21 / 1000) (d := 999)
      (e := 1002) (by norm_num) (by linarith) (by linarith) (by norm_num) (by linarith) (by linarith) (by norm_num) (by norm_num)
  generalize SF.atan2 (-97 / 1000000 - B) (1 / 50 - A) = g at *
  norm_num at u1 u2
  have hm0 : 0 ≤ c.mu := by rw [h.ok.mu]; exact arctan_nonneg.2 (div_nonneg A0.le (by linarith))
  have hm1 : c.mu ≤ 1 / 1000000 := by
    rw [h.ok.mu]
    have h0 : 0 ≤ A / B := div_nonneg A0.le (by linarith)
    have h1 : A / B ≤ 1 / 1000000 := by rw [div_le_iff₀ (by linarith)]; linarith
    have h2 := le_tan (arctan_nonneg.2 h0) (arctan_lt_pi_div_two _)
    rw [tan_arctan] at h2
    exact h2.trans h1
  rw [SF.twopify_of_mem (by linarith) (by linarith), not_lt]
  refine le_trans ?_ (le_abs_self _)
  norm_num [SF.epsilon]
  linarith

end Cusp

namespace CcRs

open SF.CcRs

/-- The planner chooses a cusp that is no point. -/
theorem cusp_lost {sp : SF.HCSpace} (hsk : sp.kappa = 1 / 1000) (hss : sp.sigma = 5) :
    get_controls sp wideStart Cusp.goal = none := by
  have hb := Cusp.bounds
  have hr : InRange sp.kappa sp.sigma := by rw [hsk, hss]; exact Cusp.range
  have H := hr.rng
  have hok : ∀ s i, CircOk (end_circle sp s i) (1 / 1000) 5 := by
    intro s i
    have := end_ok H s i
    rw [hsk, hss] at this
    exact this
  have hd : get_distance sp wideStart Cusp.goal ≤ 4 * Cusp.A := by
    obtain ⟨n, _, hn, hmin⟩ := best_spec sp wideStart Cusp.goal
    rw [get_distance, hn]
    have o1 := hok wideStart 0
    have o2 := hok Cusp.goal 1
    have hon : ¬ SF.configuration_on_hc_cc_circle (end_circle sp wideStart 0) (startOf Cusp.goal) :=
      Cusp.off o1 rfl rfl rfl
    refine (hmin 1 (by norm_num)).trans ((entry_le sp _ _ (i := SF.hc_cc_rs.TcT) (by norm_num [SF.hc_cc_rs.TcT])).trans ?_)
    have hs : shortcut (end_circle sp wideStart 0) (end_circle sp Cusp.goal 1) = none := by
      unfold shortcut
      have e1 : (end_circle sp wideStart 0).start = startOf wideStart := rfl
      have e2 : (end_circle sp Cusp.goal 1).start = startOf Cusp.goal := rfl
      rw [e1, e2, if_neg Cusp.goal_not.1, if_neg Cusp.goal_not.2.1, if_neg Cusp.goal_not.2.2, if_neg hon]
    have he := Cusp.TcT_accepted o1 o2 rfl rfl rfl rfl rfl rfl
    change (table sp (SF.scratch (end_circle sp wideStart 0) (end_circle sp Cusp.goal 1)) (end_circle sp wideStart 0)
      (end_circle sp Cusp.goal 1) SF.hc_cc_rs.TcT).length ≤ _
    unfold table
    rw [hs]
    simp only [family, if_pos he]
    exact Cusp.TcT_short o1 o2 rfl rfl rfl rfl rfl rfl
  have hlt : get_distance sp wideStart Cusp.goal < SF.dblMax := by
    have h3 : (1:ℝ) < 10 ^ 201 := one_lt_pow₀ (by norm_num) (by norm_num)
    exact hd.trans_lt (lt_trans (by linarith) SF.dblMax_large)
  obtain ⟨n, hn16, hn, -⟩ := best_spec sp wideStart Cusp.goal
  unfold get_controls
  unfold get_distance at hd hlt
  rw [hn] at hd hlt ⊢
  unfold path at hd hlt ⊢
  have o1 := hok wideStart (n / 4)
  have o2 := hok Cusp.goal (n % 4)
  rcases chosen hlt with ⟨t, r, hs, ht, hp⟩ | ⟨_, i, hi, hp⟩
  · exfalso
    unfold shortcut at hs
    have e1 : (end_circle sp wideStart (n / 4)).start = startOf wideStart := rfl
    have e2 : (end_circle sp Cusp.goal (n % 4)).start = startOf Cusp.goal := rfl
    rw [e1, e2, if_neg Cusp.goal_not.1, if_neg Cusp.goal_not.2.1, if_neg Cusp.goal_not.2.2] at hs
    split_ifs at hs
    simp only [Option.some.injEq, Prod.mk.injEq] at hs
    obtain ⟨rfl, rfl⟩ := hs
    rw [hp] at hd
    change (end_circle sp wideStart (n / 4)).cc_turn_length (startOf Cusp.goal) ≤ _ at hd
    have := Cusp.single o1 rfl
    linarith
  · rw [hp] at hd hlt ⊢
    change (family sp (SF.scratch _ _) _ _ i).length ≤ _ at hd
    change (family sp (SF.scratch _ _) _ _ i).length < _ at hlt
    have ha := Cusp.all_apart o1 o2 rfl rfl
    obtain ⟨hi', hdef⟩ := Cusp.short hsk hss o1 o2 ha hd
    have q1 : (end_circle sp wideStart (n / 4)).start = startOf wideStart := rfl
    have q2 : (end_circle sp Cusp.goal (n % 4)).start = startOf Cusp.goal := rfl
    clear hp
    generalize end_circle sp wideStart (n / 4) = c1 at *
    generalize end_circle sp Cusp.goal (n % 4) = c2 at *
    rcases hi' with rfl | rfl
    · exfalso
      by_cases he : TT_exists (SF.scratch c1 c2) c1 c2
      · simp only [family, if_pos he, TT_path] at hdef
        obtain ⟨w1, w2⟩ := Cusp.sides q1 q2 rfl (SF.twopify_nonneg _) (SF.twopify_lt _)
          (hdef c1 (TT_tangent_circles c1 c2) true (by simp)) (hdef c2 (TT_tangent_circles c1 c2) false (by simp))
        unfold TT_exists SF.CC00.TT_exists at he
        split_ifs at he with hl hf
        have hl' := not_of_ne hl
        have hf' := not_of_ne hf
        rw [hl', hf', w1] at w2
        cases c1.forward <;> simp at w2
      · simp only [family, if_neg he] at hlt
        exact absurd hlt (lt_irrefl _)
    · have he : TcT_exists (SF.scratch c1 c2) c1 c2 := by
        by_contra he
        simp only [family, if_neg he] at hlt
        exact absurd hlt (lt_irrefl _)
      have hn := Cusp.TcT_left o1 o2 q1 q2 he
      unfold path_controls
      rw [if_pos]
      refine ⟨rfl, hn, .inl ?_⟩
      simp only [family, if_pos he, TcT_path, if_pos hn] at hdef
      exact hdef c1 _ true (by simp)

end CcRs

end Spec
