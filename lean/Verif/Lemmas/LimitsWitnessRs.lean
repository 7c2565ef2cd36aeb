import Verif.Lemmas.LimitsWitness
import Verif.Lemmas.CcRsPlan
import Verif.Lemmas.RSExists

/-!
# CC00-Reeds-Shepp: a single turn that exceeds the limits
-/

noncomputable section

namespace Spec

open Real Props
open CC00 (CircOk circOk_at wideStart wideGoal startOf)

/-! ### Rows with two or more turns -/

/-- Moves of a row of CC-Reeds-Shepp. -/
structure CcShape (k s : ℝ) (r : SF.RSRow) : Prop where
  len : r.length = (r.moves.map SF.Move.length).sum
  kinds : ∀ m ∈ r.moves, (∃ q q', m = .line q q') ∨ ∃ c q o, m = .cc c q o ∧ CircOk c k s
  two : 2 ≤ (r.moves.flatMap turns).length

theorem CcShape.shorter {k s : ℝ} {a b : SF.RSRow} (ha : CcShape k s a) (hb : CcShape k s b) : CcShape k s (a.shorter b) := by
  unfold SF.RSRow.shorter; split_ifs; exacts [ha, hb]

section
variable {k s : ℝ} (H : Rng k s) {c1 c2 c3 c4 : SF.Circle} {q1 q2 q3 q4 q5 : SF.Configuration} {o1 o2 o3 o4 : Bool}

theorem shape2 (h1 : CircOk c1 k s) (h2 : CircOk c2 k s) {x : ℝ} (hx : x = c1.cc_turn_length q1 + c2.cc_turn_length q2) :
    CcShape k s ⟨x, [.cc c1 q1 o1, .cc c2 q2 o2]⟩ := by
  refine ⟨?_, ?_, ?_⟩
  · simp [SF.Move.length, hx]
  · intro m hm
    simp only [List.mem_cons, List.not_mem_nil, or_false] at hm
    rcases hm with rfl | rfl
    exacts [.inr ⟨_, _, _, rfl, h1⟩, .inr ⟨_, _, _, rfl, h2⟩]
  · simp [turns]

theorem shape3 (h1 : CircOk c1 k s) (h2 : CircOk c2 k s) (h3 : CircOk c3 k s) {x : ℝ}
    (hx : x = c1.cc_turn_length q1 + c2.cc_turn_length q2 + c3.cc_turn_length q3) :
    CcShape k s ⟨x, [.cc c1 q1 o1, .cc c2 q2 o2, .cc c3 q3 o3]⟩ := by
  refine ⟨?_, ?_, ?_⟩
  · simp [SF.Move.length, hx]; ring
  · intro m hm
    simp only [List.mem_cons, List.not_mem_nil, or_false] at hm
    rcases hm with rfl | rfl | rfl
    exacts [.inr ⟨_, _, _, rfl, h1⟩, .inr ⟨_, _, _, rfl, h2⟩, .inr ⟨_, _, _, rfl, h3⟩]
  · simp [turns]

theorem shape4 (h1 : CircOk c1 k s) (h2 : CircOk c2 k s) (h3 : CircOk c3 k s) (h4 : CircOk c4 k s) {x : ℝ}
    (hx : x = c1.cc_turn_length q1 + c2.cc_turn_length q2 + c3.cc_turn_length q3 + c4.cc_turn_length q4) :
    CcShape k s ⟨x, [.cc c1 q1 o1, .cc c2 q2 o2, .cc c3 q3 o3, .cc c4 q4 o4]⟩ := by
  refine ⟨?_, ?_, ?_⟩
  · simp [SF.Move.length, hx]; ring
  · intro m hm
    simp only [List.mem_cons, List.not_mem_nil, or_false] at hm
    rcases hm with rfl | rfl | rfl | rfl
    exacts [.inr ⟨_, _, _, rfl, h1⟩, .inr ⟨_, _, _, rfl, h2⟩, .inr ⟨_, _, _, rfl, h3⟩, .inr ⟨_, _, _, rfl, h4⟩]
  · simp [turns]

theorem shapeL (h1 : CircOk c1 k s) (h2 : CircOk c2 k s) {x : ℝ}
    (hx : x = c1.cc_turn_length q1 + SF.configuration_distance q2 q3 + c2.cc_turn_length q4) :
    CcShape k s ⟨x, [.cc c1 q1 o1, .line q2 q3, .cc c2 q4 o2]⟩ := by
  refine ⟨?_, ?_, ?_⟩
  · simp [SF.Move.length, hx]; ring
  · intro m hm
    simp only [List.mem_cons, List.not_mem_nil, or_false] at hm
    rcases hm with rfl | rfl | rfl
    exacts [.inr ⟨_, _, _, rfl, h1⟩, .inl ⟨_, _, rfl⟩, .inr ⟨_, _, _, rfl, h2⟩]
  · simp [turns]

theorem shapeLT (h1 : CircOk c1 k s) (h2 : CircOk c2 k s) (h3 : CircOk c3 k s) {x : ℝ}
    (hx : x = c1.cc_turn_length q1 + SF.configuration_distance q2 q3 + c2.cc_turn_length q4 + c3.cc_turn_length q5) :
    CcShape k s ⟨x, [.cc c1 q1 o1, .line q2 q3, .cc c2 q4 o2, .cc c3 q5 o3]⟩ := by
  refine ⟨?_, ?_, ?_⟩
  · simp [SF.Move.length, hx]; ring
  · intro m hm
    simp only [List.mem_cons, List.not_mem_nil, or_false] at hm
    rcases hm with rfl | rfl | rfl | rfl
    exacts [.inr ⟨_, _, _, rfl, h1⟩, .inl ⟨_, _, rfl⟩, .inr ⟨_, _, _, rfl, h2⟩, .inr ⟨_, _, _, rfl, h3⟩]
  · simp [turns]

theorem shapeTL (h1 : CircOk c1 k s) (h2 : CircOk c2 k s) (h3 : CircOk c3 k s) {x : ℝ}
    (hx : x = c1.cc_turn_length q1 + c2.cc_turn_length q2 + SF.configuration_distance q3 q4 + c3.cc_turn_length q5) :
    CcShape k s ⟨x, [.cc c1 q1 o1, .cc c2 q2 o2, .line q3 q4, .cc c3 q5 o3]⟩ := by
  refine ⟨?_, ?_, ?_⟩
  · simp [SF.Move.length, hx]; ring
  · intro m hm
    simp only [List.mem_cons, List.not_mem_nil, or_false] at hm
    rcases hm with rfl | rfl | rfl | rfl
    exacts [.inr ⟨_, _, _, rfl, h1⟩, .inr ⟨_, _, _, rfl, h2⟩, .inl ⟨_, _, rfl⟩, .inr ⟨_, _, _, rfl, h3⟩]
  · simp [turns]

theorem shapeTLT {q6 : SF.Configuration} (h1 : CircOk c1 k s) (h2 : CircOk c2 k s) (h3 : CircOk c3 k s) (h4 : CircOk c4 k s) {x : ℝ}
    (hx : x = c1.cc_turn_length q1 + c2.cc_turn_length q2 + SF.configuration_distance q3 q4 + c3.cc_turn_length q5
      + c4.cc_turn_length q6) :
    CcShape k s ⟨x, [.cc c1 q1 o1, .cc c2 q2 o2, .line q3 q4, .cc c3 q5 o3, .cc c4 q6 o4]⟩ := by
  refine ⟨?_, ?_, ?_⟩
  · simp [SF.Move.length, hx]; ring
  · intro m hm
    simp only [List.mem_cons, List.not_mem_nil, or_false] at hm
    rcases hm with rfl | rfl | rfl | rfl | rfl
    exacts [.inr ⟨_, _, _, rfl, h1⟩, .inr ⟨_, _, _, rfl, h2⟩, .inl ⟨_, _, rfl⟩, .inr ⟨_, _, _, rfl, h3⟩,
      .inr ⟨_, _, _, rfl, h4⟩]
  · simp [turns]

end

open SF.CcRs in
/-- Every row that is not empty has at least two turns. -/
theorem family_shape {sp : SF.HCSpace} (H : Rng sp.kappa sp.sigma) {c1 c2 : SF.Circle}
    (h1 : CircOk c1 sp.kappa sp.sigma) (h2 : CircOk c2 sp.kappa sp.sigma) (m : SF.Scratch) (i : ℕ) :
    family sp m c1 c2 i = {} ∨ CcShape sp.kappa sp.sigma (family sp m c1 c2 i) := by
  have hm : ∀ q l f r, CircOk (SF.circleAt q l f r sp.param) sp.kappa sp.sigma := fun q l f r =>
    circOk_at H.kappa H.sigma H.clothoid q l f r
  unfold family
  split
  · split_ifs
    · right; exact shape2 h1 h2 rfl
    · left; rfl
  · split_ifs
    · right; exact shape2 h1 h2 rfl
    · left; rfl
  · split_ifs
    · right; exact (shape3 h1 (hm _ _ _ _) h2 rfl).shorter (shape3 h1 (hm _ _ _ _) h2 rfl)
    · left; rfl
  · split_ifs
    · unfold TcTT_path
      simp only
      split_ifs
      · left; rfl
      · right; exact (shape3 h1 (hm _ _ _ _) h2 rfl).shorter (shape3 h1 (hm _ _ _ _) h2 rfl)
    · left; rfl
  · split_ifs
    · unfold TTcT_path
      simp only
      split_ifs
      · left; rfl
      · right; exact (shape3 h1 (hm _ _ _ _) h2 rfl).shorter (shape3 h1 (hm _ _ _ _) h2 rfl)
    · left; rfl
  · unfold TST_path
    split_ifs
    · right; exact shapeL h1 h2 rfl
    · right; exact shapeL h1 h2 rfl
    · left; rfl
  · unfold TSTcT_path
    split_ifs
    · right; exact shapeLT h1 (hm _ _ _ _) h2 rfl
    · right; exact shapeLT h1 (hm _ _ _ _) h2 rfl
    · left; rfl
  · unfold TcTST_path
    split_ifs
    · right; exact shapeTL h1 (hm _ _ _ _) h2 rfl
    · right; exact shapeTL h1 (hm _ _ _ _) h2 rfl
    · left; rfl
  · unfold TcTSTcT_path
    split_ifs
    · right; exact shapeTLT h1 (hm _ _ _ _) (hm _ _ _ _) h2 rfl
    · right; exact shapeTLT h1 (hm _ _ _ _) (hm _ _ _ _) h2 rfl
    · left; rfl
  · split_ifs
    · unfold TTcTT_path
      simp only
      split_ifs <;> first
        | exact .inl rfl
        | exact .inr ((shape4 h1 (hm _ _ _ _) (hm _ _ _ _) h2 rfl).shorter (shape4 h1 (hm _ _ _ _) (hm _ _ _ _) h2 rfl))
    · left; rfl
  · split_ifs
    · unfold TcTTcT_path
      simp only
      split_ifs <;> first
        | exact .inl rfl
        | exact .inr ((shape4 h1 (hm _ _ _ _) (hm _ _ _ _) h2 rfl).shorter (shape4 h1 (hm _ _ _ _) (hm _ _ _ _) h2 rfl))
    · left; rfl
  · split_ifs
    · right; exact (shape3 h1 (hm _ _ _ _) h2 rfl).shorter (shape3 h1 (hm _ _ _ _) h2 rfl)
    · left; rfl
  · unfold TcST_path
    split_ifs
    · right; exact shapeL h1 h2 rfl
    · right; exact shapeL h1 h2 rfl
    · left; rfl
  · unfold TScT_path
    split_ifs
    · right; exact shapeL h1 h2 rfl
    · right; exact shapeL h1 h2 rfl
    · left; rfl
  · unfold TcScT_path
    split_ifs
    · right; exact shapeL h1 h2 rfl
    · right; exact shapeL h1 h2 rfl
    · left; rfl
  · left; rfl

theorem sum_ge {ms : List SF.Move} {x : ℝ} (h : ∀ m ∈ ms, x * (turns m).length ≤ m.length) :
    x * (ms.flatMap turns).length ≤ (ms.map SF.Move.length).sum := by
  induction ms with
  | nil => simp
  | cons m ms ih =>
    have h1 := h m (by simp)
    have h2 := ih fun m' hm' => h m' (by simp [hm'])
    simp only [List.flatMap_cons, List.length_append, List.map_cons, List.sum_cons]
    push_cast
    linarith

/-- A turn that respects the limit of the sharpness is at least 12 cm long. -/
theorem wide_gentle {c : SF.Circle} (h : CircOk c (1 / 1000) (1 / 125)) {q : SF.Configuration} {o : Bool}
    (hs : SharpnessAtMost (1 / 125 * (1 + 2 / 10 ^ 8)) ((SF.cc_turn_controls c q o).map seg)) :
    12 / 100 ≤ c.cc_turn_length q := by
  rcases turn_cases h.ok (by norm_num) (by norm_num) q with ⟨_, e⟩ | e | ⟨h1, h2, h3, h4, e⟩
  · rw [e]; linarith [wide_A]
  · norm_num at e; linarith
  · rw [← cc_turn_length_eq c q o h1]
    have hdm : 2 * c.delta_min = (1 / 1000) ^ 2 / (1 / 125) := by rw [h.ok.delta_min]; norm_num
    have hlm : |c.kappa / c.sigma| = 1 / 8 := by
      rw [abs_kappa_sigma h.ok (by norm_num) (by norm_num)]; norm_num
    have hdef : 12 / 100 ≤ totalLength ((SF.cc_default_controls c (c.deflection q) o).map seg) := by
      have e1 : ∀ x : ℝ, |SF.direction c.forward o * x| = |x| := by
        intro x; rcases direction_pm c.forward o with e | e <;> rw [e] <;> simp
      unfold SF.cc_default_controls
      simp only [totalLength, seg, List.map_cons, List.map_nil, List.sum_cons, List.sum_nil, e1, hlm]
      have := abs_nonneg (|c.kappa_inv| * c.cc_circular_deflection (c.deflection q))
      rw [abs_of_pos (show (0:ℝ) < 1 / 8 by norm_num)]
      linarith
    unfold SF.cc_turn_controls at hs ⊢
    simp only [if_neg (not_lt.2 h1), hdm, if_pos h2] at hs ⊢
    rcases hel : SF.cc_elementary_controls c q (c.deflection q) o with _ | cs
    · exact hdef
    · rw [hel] at hs
      simp only at hs ⊢
      split_ifs at hs ⊢ with hlt
      · have hD := D1_small (a := 0.5 * c.deflection q) (by norm_num [SF.epsilon] at h1 ⊢; linarith)
          (by norm_num at h2 ⊢; linarith)
        have hw : 0 < √(2 * (0.5 * c.deflection q) / π) := sqrt_pos.2 (by
          have := pi_pos
          have : 0 < c.deflection q := lt_of_lt_of_le (by norm_num [SF.epsilon]) h1
          positivity)
        obtain ⟨-, -, s0, L, hs0, hs1, hL, rfl⟩ := elementary_data hel (by nlinarith [hD.1])
        have := hs (seg ⟨SF.direction c.forward o * L, 0, sg c.left * s0⟩) (by simp)
        have e2 : |sg c.left * s0| = s0 := by
          rcases sg_pm c.left with e | e <;> rw [e] <;> simp [abs_of_pos hs1]
        simp only [seg, e2] at this
        have e1 : |SF.direction c.forward o * L| = |L| := by
          rcases direction_pm c.forward o with e | e <;> rw [e] <;> simp
        simp only [totalLength, seg, List.map_cons, List.map_nil, List.sum_cons, List.sum_nil, e1]
        have hL2 : L ^ 2 = c.deflection q / s0 := by rw [hL, sq_sqrt (by positivity [lt_of_lt_of_le (show (0:ℝ) < SF.epsilon by norm_num [SF.epsilon]) h1])]
        have hL3 : (6 / 100) ^ 2 ≤ L ^ 2 := by
          rw [hL2, le_div_iff₀ hs1]
          norm_num [SF.epsilon] at h1 this
          nlinarith
        have := sq_le_sq.1 hL3
        rw [abs_of_pos (show (0:ℝ) < 6 / 100 by norm_num)] at this
        linarith
      · exact hdef

theorem wide_family {sp : SF.HCSpace} (hsk : sp.kappa = 1 / 1000) (hss : sp.sigma = 1 / 125) {c1 c2 : SF.Circle}
    (h1 : CircOk c1 (1 / 1000) (1 / 125)) (h2 : CircOk c2 (1 / 1000) (1 / 125)) {i : ℕ} (hi : i ≠ SF.hc_cc_rs.TcT)
    (hlt : (SF.CcRs.family sp (SF.scratch c1 c2) c1 c2 i).length < SF.dblMax) :
    24 / 100 ≤ (SF.CcRs.family sp (SF.scratch c1 c2) c1 c2 i).length := by
  have hr : InRange sp.kappa sp.sigma := by rw [hsk, hss]; exact wide_range
  have H := hr.rng
  have h1' : CircOk c1 sp.kappa sp.sigma := by rw [hsk, hss]; exact h1
  have h2' : CircOk c2 sp.kappa sp.sigma := by rw [hsk, hss]; exact h2
  rcases family_shape H h1' h2' (SF.scratch c1 c2) i with h0 | h0
  · rw [h0] at hlt; exact absurd hlt (lt_irrefl _)
  by_cases h3 : i = SF.hc_cc_rs.TT
  · subst h3
    have e : SF.CcRs.TT_exists (SF.scratch c1 c2) c1 c2 := by
      by_contra hne
      simp only [SF.CcRs.family, if_neg hne] at hlt
      exact absurd hlt (lt_irrefl _)
    simp only [SF.CcRs.family, if_pos e]
    unfold SF.CcRs.TT_exists SF.CC00.TT_exists at e
    split_ifs at e with hl hf
    have hl' : c2.left = !c1.left := not_of_ne hl
    have hf' : c2.forward = !c1.forward := not_of_ne hf
    have hd : |‖center c2 - center c1‖ - 2 * ccR (1 / 1000) (1 / 125)| ≤ 2 * SF.epsilon := by
      rw [← scratch_distance, ← h1.ok.geom.ccR]
      refine le_trans (le_of_lt e) (by norm_num [SF.epsilon])
    obtain ⟨t1, t2⟩ := TT_geo c1 c2 h1.ok.geom hd
    rw [← hf', ← hl'] at t2
    have E1 := wide_turn h1 t1
    have E2 := wide_turn h2 t2
    change _ ≤ c1.cc_turn_length _ + c2.cc_turn_length _
    linarith
  · have hr := cc_family_ok H h1' h2' (fun h => hi h.1) hlt
    have hE : ccFamE sp.kappa sp.sigma i = 0 := by
      rw [ccFamE, if_neg h3, if_neg hi]
    have hs := ((hr.leg.track SF.epsilon (by norm_num [SF.epsilon]) fun x _ => tiny_le x.1 x.2).limits hE).2
    have hall : ∀ m ∈ (SF.CcRs.family sp (SF.scratch c1 c2) c1 c2 i).moves, 12 / 100 * ((turns m).length : ℝ) ≤ m.length := by
      intro m hm
      rcases h0.kinds m hm with ⟨q, q', rfl⟩ | ⟨c, q, o, rfl, hc⟩
      · simp only [turns, List.length_nil, Nat.cast_zero, mul_zero, SF.Move.length]
        exact sqrt_nonneg _
      · simp only [turns, List.length_singleton, Nat.cast_one, mul_one, SF.Move.length]
        rw [hsk, hss] at hc
        refine wide_gentle hc (o := o) fun x hx => ?_
        rw [← hss]
        refine hs x ?_
        rw [List.map_flatMap, List.mem_flatMap]
        exact ⟨_, hm, hx⟩
    have := sum_ge hall
    rw [h0.len]
    have h2 : (2:ℝ) ≤ (((SF.CcRs.family sp (SF.scratch c1 c2) c1 c2 i).moves.flatMap turns).length : ℝ) := by
      exact_mod_cast h0.two
    linarith

/-! ### A cusp between two turns -/

/-- A deflection beyond two clothoids. -/
theorem wide_default {c : SF.Circle} (h : CircOk c (1 / 1000) (1 / 125)) {q : SF.Configuration}
    (hd : 1 / 8000 ≤ c.deflection q) : 25 / 100 ≤ c.cc_turn_length q := by
  rcases turn_cases h.ok (by norm_num) (by norm_num) q with ⟨h1, _⟩ | e | ⟨h1, h2, _⟩
  · norm_num [SF.epsilon] at h1; linarith
  · norm_num at e; linarith
  · norm_num at h2; linarith

theorem wide_nonneg {c : SF.Circle} (h : CircOk c (1 / 1000) (1 / 125)) (q : SF.Configuration) : 0 ≤ c.cc_turn_length q := by
  rcases turn_cases h.ok (by norm_num) (by norm_num) q with ⟨h1, e⟩ | e | ⟨h1, h2, _, _, e⟩
  · rw [e]; linarith [wide_A]
  · norm_num at e; linarith
  · rw [e]; positivity

/-- A goal a little ahead with heading `t`. -/
structure AheadOf (g : SF.State) (t : ℝ) : Prop where
  theta : (startOf g).theta = t
  t1 : 1 / 10000 ≤ t
  t2 : t ≤ 12 / 100000
  x1 : 145 / 1000 ≤ g.x
  x2 : g.x ≤ 1 / 4
  y1 : 0 ≤ g.y
  y2 : g.y ≤ 2 / 100000

theorem ahead_wide : AheadOf wideGoal (12 / 100000) := by
  obtain ⟨g1, g2, g3, g4⟩ := CC00.wideGoal_pos
  exact ⟨CC00.wideGoal_theta, by norm_num, le_rfl, g1, by linarith, g3, by linarith⟩

/-- Centres of the circles at the two states. -/
theorem wide_centers {g : SF.State} {t : ℝ} (ht : (startOf g).theta = t) {c1 c2 : SF.Circle}
    (h1 : CircOk c1 (1 / 1000) (1 / 125)) (h2 : CircOk c2 (1 / 1000) (1 / 125))
    (s1 : c1.start = startOf wideStart) (s2 : c2.start = startOf g) :
    c1.xc = sg c1.forward * ccA (1 / 1000) (1 / 125) ∧ c1.yc = sg c1.left * ccB (1 / 1000) (1 / 125) ∧
    c2.xc = g.x + (cos t * (sg c2.forward * ccA (1 / 1000) (1 / 125))
      - sin t * (sg c2.left * ccB (1 / 1000) (1 / 125))) ∧
    c2.yc = g.y + (cos t * (sg c2.left * ccB (1 / 1000) (1 / 125))
      + sin t * (sg c2.forward * ccA (1 / 1000) (1 / 125))) := by
  have e1 := h1.cen
  have e2 := h2.cen
  have t1 : cfg c1.start = ⟨0, 0, 0⟩ := by
    rw [s1]
    unfold cfg
    rw [CC00.wideStart_theta]; rfl
  have t2 : cfg c2.start = ⟨g.x, g.y, t⟩ := by
    rw [s2]
    unfold cfg
    rw [ht]; rfl
  rw [t1] at e1
  rw [t2] at e2
  unfold cen Config.pos center at e1 e2
  have r1 := congrArg Complex.re e1
  have i1 := congrArg Complex.im e1
  have r2 := congrArg Complex.re e2
  have i2 := congrArg Complex.im e2
  simp only [cis, Complex.add_re, Complex.add_im, Complex.mul_re, Complex.mul_im, cos_zero, sin_zero] at r1 i1 r2 i2
  refine ⟨by rw [r1]; ring, by rw [i1]; ring, r2, by rw [i2]⟩

/-- The centres relative to each other. -/
theorem wide_num {A B co si gx gy f l X Y t : ℝ} (hA : 61 / 1000 ≤ A ∧ A ≤ 626 / 10000) (hB : B ≤ 1001) (hB' : 990 ≤ B)
    (ht1 : 1 / 10000 ≤ t) (ht2 : t ≤ 12 / 100000)
    (g1 : 145 / 1000 ≤ gx) (g2 : gx ≤ 1 / 4) (g3 : 0 ≤ gy) (g4 : gy ≤ 2 / 100000)
    (hc0 : 1 - t ^ 2 / 2 ≤ co) (hc1 : co ≤ 1) (hs1 : si ≤ t)
    (hs0 : t - t ^ 3 / 6 < si) (hf : f = 1 ∨ f = -1)
    (hX : X = gx + (co * (f * A) - si * (-l * B)) - f * A)
    (hY : Y = gy + (co * (-l * B) + si * (f * A)) - l * B) :
    (l = -1 → 0 < X ∧ 0 < Y) ∧ (l = 1 → 243 / 1000 ≤ X ∧ X ≤ 1 ∧ Y < 0 ∧ -2003 ≤ Y) := by
  have q2 : t ^ 2 ≤ (12 / 100000) ^ 2 := pow_le_pow_left₀ (by linarith) ht2 2
  have q3 : t ^ 3 ≤ (12 / 100000) ^ 3 := pow_le_pow_left₀ (by linarith) ht2 3
  have p1 : 0 ≤ A * (1 - co) := mul_nonneg (by linarith) (by linarith)
  have p2 : A * (1 - co) ≤ 1 * (1 / 10 ^ 8) := mul_le_mul (by linarith) (by linarith) (by linarith) (by norm_num)
  have p3 : si * B ≤ 12 / 100000 * 1001 := mul_le_mul (by linarith) hB (by linarith) (by norm_num)
  have p4 : (999 / 10000000) * 990 ≤ si * B := mul_le_mul (by linarith) hB' (by norm_num) (by linarith)
  have p5 : si * A ≤ 12 / 100000 * 1 := mul_le_mul (by linarith) (by linarith) (by linarith) (by norm_num)
  have p6 : 0 ≤ si * A := mul_nonneg (by linarith) (by linarith)
  have p7 : co * B ≤ 1 * 1001 := mul_le_mul (by linarith) hB (by linarith) (by norm_num)
  have p8 : (1 / 2) * 990 ≤ co * B := mul_le_mul (by linarith) hB' (by norm_num) (by linarith)
  constructor
  · rintro rfl
    rcases hf with rfl | rfl <;> constructor <;> linarith
  · rintro rfl
    rcases hf with rfl | rfl <;> refine ⟨?_, ?_, ?_, ?_⟩ <;> linarith

theorem wide_TcT {gl : SF.State} {th : ℝ} (ah : AheadOf gl th) {c1 c2 : SF.Circle} (h1 : CircOk c1 (1 / 1000) (1 / 125)) (h2 : CircOk c2 (1 / 1000) (1 / 125))
    (s1 : c1.start = startOf wideStart) (s2 : c2.start = startOf gl)
    (h : SF.CcRs.TcT_exists (SF.scratch c1 c2) c1 c2) : 24 / 100 ≤ (SF.CcRs.TcT_path c1 c2).length := by
  have hA := wide_A
  obtain ⟨hB, hB'⟩ := wide_B
  have hp := pi_gt_three
  unfold SF.CcRs.TcT_exists at h
  split_ifs at h with hl hf
  have hl' : c2.left = !c1.left := not_of_ne hl
  have hf' : c2.forward = c1.forward := (not_not.1 hf).symm
  obtain ⟨a1, a2, a3, a4⟩ := wide_centers ah.theta h1 h2 s1 s2
  have t1 : c1.start.theta = 0 := by rw [s1]; exact CC00.wideStart_theta
  have t2 : c2.start.theta = th := by rw [s2]; exact ah.theta
  obtain ⟨-, ht1, ht2, g1, g2, g3, g4⟩ := ah
  have hc0 := one_sub_sq_div_two_le_cos (x := th)
  have hc1 := cos_le_one th
  have hs1 := sin_le (show 0 ≤ th by linarith)
  have hs0 := sin_gt_sub_cube (show 0 < th by linarith)
  -- the two configurations have the same heading
  have key : ∀ t, t = SF.CcRs.TcT_theta c1 c2 → (∀ q : SF.Configuration, q.theta = SF.twopify t →
      1 / 8000 ≤ c1.deflection q ∨ 1 / 8000 ≤ c2.deflection q) := by
    rintro t ht q hq
    unfold SF.CcRs.TcT_theta at ht
    simp only at ht
    have hpol := center_polar c1 c2
    obtain ⟨X, hX⟩ : ∃ X, X = c2.xc - c1.xc := ⟨_, rfl⟩
    obtain ⟨Y, hY⟩ : ∃ Y, Y = c2.yc - c1.yc := ⟨_, rfl⟩
    have hD : SF.center_distance c1 c2 = √(X ^ 2 + Y ^ 2) := by rw [hX, hY]; rfl
    have hre := congrArg Complex.re hpol
    have him := congrArg Complex.im hpol
    rw [← hX, ← hY, hD] at hre him
    simp only [center, cis, Complex.add_re, Complex.add_im, Complex.mul_re, Complex.mul_im, Complex.ofReal_re,
      Complex.ofReal_im, zero_mul, sub_zero, add_zero] at hre him
    obtain ⟨g, hg⟩ : ∃ g, g = SF.atan2 Y X := ⟨_, rfl⟩
    rw [← hX, ← hY, ← hg] at ht
    rw [← hg] at hre him
    have hre : X = √(X ^ 2 + Y ^ 2) * cos g := by linarith
    have him : Y = √(X ^ 2 + Y ^ 2) * sin g := by linarith
    rw [a1, a3, hl', hf', sg_not] at hX
    rw [a2, a4, hl', hf', sg_not] at hY
    obtain ⟨n1, n2⟩ := wide_num hA hB hB' ht1 ht2 g1 g2 g3 g4 hc0 hc1 hs1 hs0 (sg_pm c1.forward) hX hY
    have hXp : 0 < X := by
      rcases sg_pm c1.left with hl | hl
      · linarith [n2 hl]
      · exact (n1 hl).1
    have hg1 := abs_lt.1 (SF.atan2_abs_lt (y := Y) hXp)
    rw [← hg] at hg1
    rcases hcl : c1.left with _ | _
    · have hYp : 0 < Y := (n1 (by rw [hcl]; rfl)).2
      have hgp : 0 ≤ g := by rw [hg]; exact SF.atan2_nonneg_iff.2 hYp.le
      rw [hcl] at ht
      simp only [Bool.false_eq_true, if_false] at ht
      have hq' : q.theta = t + 2 * π := by
        rw [hq, ← SF.twopify_of_mem (a := t + 2 * π) (by linarith) (by linarith)]
        exact SF.twopify_congr ⟨-1, by push_cast; ring⟩
      rcases hcf : c1.forward with _ | _
      · left
        unfold SF.Circle.deflection
        simp only [hcl, hcf, t1, hq', sub_zero]
        norm_num
        rw [SF.twopify_of_mem (by linarith) (by linarith)]; linarith
      · right
        unfold SF.Circle.deflection
        simp only [hl', hf', hcl, hcf, t2, hq']
        norm_num
        rw [SF.twopify_of_mem (by linarith) (by linarith)]; linarith
    · obtain ⟨hXb, hXc, hYn⟩ := n2 (by rw [hcl]; rfl)
      have hgn : g < 0 := by
        rw [hg, ← not_le, SF.atan2_nonneg_iff]; linarith [hYn.1]
      rw [hcl] at ht
      simp only [if_true] at ht
      have hD2 : √(X ^ 2 + Y ^ 2) ≤ 2004 := by
        apply sqrt_le_iff.2; constructor
        · norm_num
        · have e1 : X ^ 2 ≤ 1 ^ 2 := pow_le_pow_left₀ hXp.le hXc 2
          have e2 : Y ^ 2 ≤ 2003 ^ 2 := sq_le_sq' hYn.2 (by linarith [hYn.1])
          linarith
      have hsin : sin t = cos g := by rw [ht, sin_add_pi_div_two]
      have hcg : 243 / 1000 ≤ 2004 * cos g := by
        have h0 : 0 ≤ cos g := (cos_pos_of_mem_Ioo ⟨by linarith, by linarith⟩).le
        have := mul_le_mul_of_nonneg_right hD2 h0
        linarith
      have hst := sin_le (show 0 ≤ t by linarith)
      have htb : 121 / 1000000 ≤ t := by linarith
      have hq' : q.theta = t := by rw [hq]; exact SF.twopify_of_mem (by linarith) (by linarith)
      rcases hcf : c1.forward with _ | _
      · left
        unfold SF.Circle.deflection
        simp only [hcl, hcf, t1, hq', zero_sub]
        norm_num
        rw [← SF.twopify_congr (a := 2 * π - t) ⟨1, by push_cast; ring⟩, SF.twopify_of_mem (by linarith) (by linarith)]; linarith
      · right
        unfold SF.Circle.deflection
        simp only [hl', hf', hcl, hcf, t2, hq']
        norm_num
        rw [← SF.twopify_congr (a := 2 * π + th - t) ⟨1, by push_cast; ring⟩, SF.twopify_of_mem (by linarith) (by linarith)]
        linarith
  unfold SF.CcRs.TcT_path
  simp only
  split_ifs with hn
  · have n1 := wide_nonneg h1 (SF.CcRs.blind c1 (SF.CcRs.TcT_theta c1 c2))
    have n2 := wide_nonneg h2 (SF.CcRs.blind c2 (SF.CcRs.TcT_theta c1 c2))
    have e : c1.deflection (SF.CcRs.blind c1 (SF.CcRs.TcT_theta c1 c2)) = c1.deflection (SF.CcRs.blind c2 (SF.CcRs.TcT_theta c1 c2)) := rfl
    rcases key _ rfl (SF.CcRs.blind c2 (SF.CcRs.TcT_theta c1 c2)) rfl with hk | hk
    · rw [← e] at hk
      linarith [wide_default h1 hk]
    · linarith [wide_default h2 hk]
  · have n1 := wide_nonneg h1 (SF.CcRs.TcT_tangent_circles c1 c2)
    have n2 := wide_nonneg h2 (SF.CcRs.TcT_tangent_circles c1 c2)
    rcases key _ rfl (SF.CcRs.TcT_tangent_circles c1 c2) rfl with hk | hk
    · linarith [wide_default h1 hk]
    · linarith [wide_default h2 hk]

/-! ### A single turn -/

/-- Of the four circles only the left forward one gives a short turn. -/
theorem wide_T {c1 c2 : SF.Circle} (h1 : CircOk c1 (1 / 1000) (1 / 125)) (h2 : CircOk c2 (1 / 1000) (1 / 125))
    (s1 : c1.start = startOf wideStart) (s2 : c2.start = startOf wideGoal)
    (hon : SF.configuration_on_hc_cc_circle c1 (startOf wideGoal)) (hne : ¬(c1.left = true ∧ c1.forward = true)) :
    24 / 100 ≤ c1.cc_turn_length (startOf wideGoal) := by
  have hp := pi_gt_three
  rcases hl : c1.left with _ | _ <;> rcases hf : c1.forward with _ | _
  · exfalso
    have hA := wide_A
    obtain ⟨hB, hB'⟩ := wide_B
    obtain ⟨a1, a2, _, _⟩ := wide_centers CC00.wideGoal_theta h1 h2 s1 s2
    obtain ⟨g1, g2, g3, g4⟩ := CC00.wideGoal_pos
    unfold SF.configuration_on_hc_cc_circle at hon
    simp only [hl, hf, Bool.and_false, Bool.false_and, Bool.not_false, Bool.and_self, Bool.false_eq_true, if_false,
      if_true] at hon
    split_ifs at hon with h0
    rw [CC00.wideGoal_theta] at hon
    have hx : (0:ℝ) < (startOf wideGoal).x - c1.xc := by
      change 0 < wideGoal.x - c1.xc
      rw [a1, hf]; simp only [sg, Bool.false_eq_true, if_false]; linarith
    have hy : (0:ℝ) ≤ (startOf wideGoal).y - c1.yc := by
      change 0 ≤ wideGoal.y - c1.yc
      rw [a2, hl]; simp only [sg, Bool.false_eq_true, if_false]; linarith
    have b1 := abs_lt.1 (SF.atan2_abs_lt (y := (startOf wideGoal).y - c1.yc) hx)
    have b2 := SF.atan2_nonneg_iff (x := (startOf wideGoal).x - c1.xc) |>.2 hy
    have hmu : 0 ≤ c1.mu ∧ c1.mu < π / 2 := by
      rw [h1.ok.mu]
      exact ⟨arctan_nonneg.2 (div_nonneg (by linarith) (by linarith)), arctan_lt_pi_div_two _⟩
    generalize SF.atan2 ((startOf wideGoal).y - c1.yc) ((startOf wideGoal).x - c1.xc) = g at *
    norm_num at hon
    rw [← SF.twopify_congr (a := 2 * π + (g - π / 2 - c1.mu)) ⟨1, by push_cast; ring⟩,
      SF.twopify_of_mem (by linarith) (by linarith)] at hon
    have := (abs_lt.1 hon).1
    norm_num [SF.epsilon] at this
    linarith
  · exact CC00.wide_right h1 hl hf s1
  · refine le_trans (by norm_num) (wide_default h1 ?_)
    unfold SF.Circle.deflection
    simp only [hl, hf, s1, CC00.wideStart_theta, CC00.wideGoal_theta, zero_sub]
    norm_num
    rw [← SF.twopify_congr (a := 2 * π - 3 / 25000) ⟨1, by push_cast; ring⟩, SF.twopify_of_mem (by linarith) (by linarith)]
    linarith
  · exact absurd ⟨hl, hf⟩ hne

namespace CcRs

open SF.CcRs

theorem wide_found {sp : SF.HCSpace} (hsk : sp.kappa = 1 / 1000) (hss : sp.sigma = 1 / 125) :
    ∃ s0 L, get_controls sp wideStart wideGoal = some [⟨L, 0, s0⟩, ⟨L, s0 * L, -s0⟩] ∧
      2 * (1 / 125) < s0 ∧ 3 / 2 * (1 / 1000) < s0 * L := by
  have hr : InRange sp.kappa sp.sigma := by rw [hsk, hss]; exact wide_range
  have H := hr.rng
  have hok : ∀ s i, CircOk (end_circle sp s i) (1 / 1000) (1 / 125) := by
    intro s i
    have := end_ok H s i
    rw [hsk, hss] at this
    exact this
  have hw := CC00.wide_controls (hok wideStart 0) rfl rfl rfl
  have hsc : ∀ i j, SF.configuration_on_hc_cc_circle (end_circle sp wideStart i) (startOf wideGoal) →
      shortcut (end_circle sp wideStart i) (end_circle sp wideGoal j) = some (SF.hc_cc_rs.T,
        { length := (end_circle sp wideStart i).cc_turn_length (startOf wideGoal),
          moves := [.cc (end_circle sp wideStart i) (startOf wideGoal) true] }) := by
    intro i j h
    unfold shortcut
    have e1 : (end_circle sp wideStart i).start = startOf wideStart := rfl
    have e2 : (end_circle sp wideGoal j).start = startOf wideGoal := rfl
    rw [e1, e2, if_neg CC00.wide_not.1, if_neg CC00.wide_not.2.1, if_neg CC00.wide_not.2.2, if_pos h]
  have hd : get_distance sp wideStart wideGoal ≤ 16 / 100 := by
    obtain ⟨n, _, hn, hmin⟩ := best_spec sp wideStart wideGoal
    rw [get_distance, hn]
    refine (hmin 0 (by norm_num)).trans ((entry_le sp _ _ (i := 2) (by norm_num)).trans (le_trans (le_of_eq ?_) hw.1))
    unfold table
    rw [hsc _ _ (CC00.wide_on (hok wideStart 0) rfl rfl rfl)]
    rfl
  have hlt : get_distance sp wideStart wideGoal < SF.dblMax := hd.trans_lt (lt_of_le_of_lt (by norm_num) SF.dblMax_large)
  obtain ⟨n, hn16, hn, -⟩ := best_spec sp wideStart wideGoal
  unfold get_controls
  unfold get_distance at hd hlt
  rw [hn] at hd hlt ⊢
  unfold path at hd hlt ⊢
  have o1 := hok wideStart (n / 4)
  have o2 := hok wideGoal (n % 4)
  rcases chosen hlt with ⟨t, r, hs, ht, hp⟩ | ⟨_, i, hi, hp⟩
  · by_cases hon : SF.configuration_on_hc_cc_circle (end_circle sp wideStart (n / 4)) (startOf wideGoal)
    · rw [hsc _ _ hon] at hs
      simp only [Option.some.injEq, Prod.mk.injEq] at hs
      obtain ⟨rfl, rfl⟩ := hs
      rw [hp] at hd ⊢
      change (end_circle sp wideStart (n / 4)).cc_turn_length (startOf wideGoal) ≤ _ at hd
      have h0 : n / 4 = 0 := by
        by_contra hne
        have := wide_T o1 o2 rfl rfl hon (by
          rintro ⟨hl, hf⟩
          simp only [end_circle, SF.circleAt, decide_eq_true_eq] at hl hf
          omega)
        linarith
      rw [h0]
      obtain ⟨s0, L, hc, q1, q2⟩ := hw.2
      refine ⟨s0, L, ?_, q1, q2⟩
      unfold path_controls
      rw [if_neg (by simp [SF.hc_cc_rs.T, SF.hc_cc_rs.TcT]), if_neg (by simp [SF.hc_cc_rs.T, SF.hc_cc_rs.E])]
      simp only [List.flatMap_cons, List.flatMap_nil, List.append_nil, SF.Move.controls]
      rw [hc]
    · exfalso
      unfold shortcut at hs
      have e1 : (end_circle sp wideStart (n / 4)).start = startOf wideStart := rfl
      have e2 : (end_circle sp wideGoal (n % 4)).start = startOf wideGoal := rfl
      rw [e1, e2, if_neg CC00.wide_not.1, if_neg CC00.wide_not.2.1, if_neg CC00.wide_not.2.2, if_neg hon] at hs
      exact absurd hs (by simp)
  · exfalso
    rw [hp] at hd hlt
    change (family sp (SF.scratch _ _) _ _ i).length ≤ _ at hd
    change (family sp (SF.scratch _ _) _ _ i).length < _ at hlt
    by_cases h4 : i = SF.hc_cc_rs.TcT
    · subst h4
      by_cases he : TcT_exists (SF.scratch (end_circle sp wideStart (n / 4)) (end_circle sp wideGoal (n % 4)))
          (end_circle sp wideStart (n / 4)) (end_circle sp wideGoal (n % 4))
      · simp only [family, if_pos he] at hd
        have := wide_TcT ahead_wide o1 o2 rfl rfl he
        linarith
      · simp only [family, if_neg he] at hlt
        exact absurd hlt (lt_irrefl _)
    · have := wide_family hsk hss o1 o2 h4 hlt
      linarith

end CcRs

end Spec
