import Verif.Spec.Domains
import Verif.Lemmas.Calls
import Verif.Lemmas.HcPlan
import Verif.Lemmas.DomainsRadius

/-!
# Operations inside their domain
-/

noncomputable section

namespace Spec.Dom

open Real SF
open Spec.CC00 (CircOk circOk_at)

theorem nd_nil : NoDomainError [] := fun _ h => absurd h List.not_mem_nil

theorem nd_cons {a : Op} {l : List Op} : NoDomainError (a :: l) ↔ Defined a ∧ NoDomainError l := List.forall_mem_cons

theorem nd_append {a b : List Op} : NoDomainError (a ++ b) ↔ NoDomainError a ∧ NoDomainError b := List.forall_mem_append

theorem nd_if {p : Prop} {_ : Decidable p} {a : List Op} (h : p → NoDomainError a) : NoDomainError (if p then a else []) := by
  split_ifs with g
  exacts [h g, nd_nil]

theorem nd_ite {p : Prop} {_ : Decidable p} {a b : List Op} (h : p → NoDomainError a) (h' : NoDomainError b) :
    NoDomainError (if p then a else b) := by
  split_ifs with g
  exacts [h g, h']

theorem nd_one {a : Op} (h : Defined a) : NoDomainError [a] := nd_cons.2 ⟨h, nd_nil⟩

theorem nd_two {a b : Op} (h : Defined a) (h' : Defined b) : NoDomainError [a, b] := nd_cons.2 ⟨h, nd_one h'⟩

theorem nd_flatMap {α : Type} {l : List α} {f : α → List Op} (h : ∀ x ∈ l, NoDomainError (f x)) : NoDomainError (l.flatMap f) := by
  intro o ho
  obtain ⟨x, hx, h'⟩ := List.mem_flatMap.1 ho
  exact h x hx o h'

/-! ### Utilities -/

theorem fresnel_nd (s : ℝ) : NoDomainError (fresnel_ops s) := by
  have hp := pi_pos
  have h0 : 0 ≤ π / 2 * s * s := by rw [mul_assoc]; exact mul_nonneg (by positivity) (mul_self_nonneg s)
  unfold fresnel_ops
  dsimp only
  split_ifs with h
  · exact nd_one h0
  · have h1 : 0 < π / 2 * s * s := by linarith
    exact nd_cons.2 ⟨(mul_pos h1 h1).ne', nd_cons.2 ⟨h0, nd_two (mul_pos two_pos h1).ne' (sqrt_pos.2 h1).ne'⟩⟩

theorem clothoid_nd {sigma : ℝ} (h : sigma ≠ 0) (kappa length : ℝ) : NoDomainError (end_of_clothoid_ops kappa sigma length) := by
  unfold end_of_clothoid_ops
  refine nd_append.2 ⟨nd_append.2 ⟨?_, fresnel_nd _⟩, fresnel_nd _⟩
  exact nd_cons.2 ⟨abs_nonneg _, nd_two (sqrt_pos.2 (abs_pos.2 h)).ne' h⟩

theorem pos_of_gt_eps {x : ℝ} (h : |x| > epsilon) : x ≠ 0 := by
  rintro rfl
  rw [abs_zero] at h
  norm_num [epsilon] at h

theorem D1_nd {a : ℝ} (h : 0 ≤ a) : NoDomainError (D1_ops a) := by
  have hp := pi_pos
  exact nd_cons.2 ⟨by show 0 ≤ 2 * a / π; positivity, fresnel_nd _⟩

/-! ### Turns -/

/-- What the turn functions need to know of their circle. -/
def Sound (k s : ℝ) : Move → Prop
  | .cc c _ _ => |c.sigma| = s ∧ c.delta_min = k ^ 2 / (2 * s)
  | .hc c _ _ => |c.sigma| = s
  | .rs _ _ _ => True
  | .line _ _ => True

theorem move_nd {k s : ℝ} (hk : k > epsilon) (hs : 0 < s) {mv : Move} (h : Sound k s mv) : NoDomainError mv.ops := by
  have hp := pi_pos
  have e0 : (0:ℝ) < epsilon := by norm_num [epsilon]
  cases mv with
  | rs c q o => exact nd_nil
  | line p q => exact nd_nil
  | hc c q o =>
    have h : |c.sigma| = s := h
    exact nd_one (abs_pos.1 (by rw [h]; exact hs))
  | cc c q o =>
    obtain ⟨h1, h2⟩ := h
    show NoDomainError (cc_turn_ops c q)
    unfold cc_turn_ops
    dsimp only
    generalize c.deflection q = d
    split_ifs with g1 g2
    · exact nd_nil
    · refine nd_cons.2 ⟨abs_pos.1 (by rw [h1]; exact hs), ?_⟩
      unfold cc_elementary_ops
      dsimp only
      refine nd_if fun g => ?_
      obtain ⟨g3, g4⟩ := g
      rw [h2] at g2
      push Not at g1
      have hD : 0 < Circle.D1 (0.5 * d) :=
        (chord_pos hk hs (by norm_num; linarith) (by norm_num at g3 ⊢; linarith) (by norm_num; linarith)).1
      have hd : 0 < point_distance c.start.x c.start.y q.x q.y := lt_trans e0 g4
      have hsig : 0 < |4 * π * Circle.D1 (0.5 * d) ^ 2 / point_distance c.start.x c.start.y q.x q.y ^ 2| :=
        abs_pos.2 (by positivity)
      refine nd_append.2 ⟨D1_nd (by norm_num; linarith), nd_cons.2 ⟨(pow_pos hd 2).ne', nd_two hsig.ne' ?_⟩⟩
      exact div_nonneg (by linarith) hsig.le
    · exact nd_one (abs_pos.1 (by rw [h1]; exact hs))

/-- All moves have circles of the space. -/
def Snd (k s : ℝ) (l : List Move) : Prop := ∀ mv ∈ l, Sound k s mv

theorem snd_nd {k s : ℝ} (hk : k > epsilon) (hs : 0 < s) {l : List Move} (h : Snd k s l) : NoDomainError (l.flatMap Move.ops) :=
  nd_flatMap fun mv hmv => move_nd hk hs (h mv hmv)

section
variable {k s : ℝ}

theorem snd_nil : Snd k s [] := fun _ h => absurd h List.not_mem_nil

theorem snd_cons {a : Move} {l : List Move} : Snd k s (a :: l) ↔ Sound k s a ∧ Snd k s l := List.forall_mem_cons

theorem snd_append {a b : List Move} : Snd k s (a ++ b) ↔ Snd k s a ∧ Snd k s b := List.forall_mem_append

theorem snd_ite {p : Prop} {_ : Decidable p} {a b : List Move} (ha : Snd k s a) (hb : Snd k s b) : Snd k s (if p then a else b) := by
  split_ifs <;> assumption

theorem snd_if {p : Prop} {_ : Decidable p} {a : List Move} (ha : Snd k s a) : Snd k s (if p then a else []) := snd_ite ha snd_nil

theorem snd_row_ite {p : Prop} {_ : Decidable p} {a b : RSRow} (ha : Snd k s a.moves) (hb : Snd k s b.moves) :
    Snd k s (if p then a else b).moves := by
  split_ifs <;> assumption

theorem s1 {a : Move} (ha : Sound k s a) : Snd k s [a] := snd_cons.2 ⟨ha, snd_nil⟩
theorem s2 {a b : Move} (ha : Sound k s a) (hb : Sound k s b) : Snd k s [a, b] := snd_cons.2 ⟨ha, s1 hb⟩
theorem s3 {a b c : Move} (ha : Sound k s a) (hb : Sound k s b) (hc : Sound k s c) : Snd k s [a, b, c] := snd_cons.2 ⟨ha, s2 hb hc⟩
theorem s4 {a b c d : Move} (ha : Sound k s a) (hb : Sound k s b) (hc : Sound k s c) (hd : Sound k s d) : Snd k s [a, b, c, d] :=
  snd_cons.2 ⟨ha, s3 hb hc hd⟩
theorem s5 {a b c d e : Move} (ha : Sound k s a) (hb : Sound k s b) (hc : Sound k s c) (hd : Sound k s d) (he : Sound k s e) :
    Snd k s [a, b, c, d, e] := snd_cons.2 ⟨ha, s4 hb hc hd he⟩

theorem line_snd {p q : Configuration} : Sound k s (.line p q) := trivial

theorem rs_snd {c : Circle} {q : Configuration} {o : Bool} : Sound k s (.rs c q o) := trivial

theorem ok_cc {c : Circle} {A B : ℝ} (hs : 0 < s) (h : CircleOk c k s A B) {q : Configuration} {o : Bool} : Sound k s (.cc c q o) :=
  ⟨by rw [h.sigma]; exact abs_pm_mul (sg_pm _) hs.le, h.delta_min⟩

theorem ok_hc {c : Circle} {A B : ℝ} (hs : 0 < s) (h : CircleOk c k s A B) {q : Configuration} {o : Bool} : Sound k s (.hc c q o) := by
  show |c.sigma| = s
  rw [h.sigma]; exact abs_pm_mul (sg_pm _) hs.le

variable (H : Rng k s)

include H in
theorem at_cc {p q : Configuration} {l f r o : Bool} : Sound k s (.cc (circleAt p l f r (hc_cc_circle_param k s)) q o) :=
  ok_cc H.sigma (circOk_at H.kappa H.sigma H.clothoid p l f r).ok

include H in
theorem at_hc {p q : Configuration} {l f r o : Bool} : Sound k s (.hc (circleAt p l f r (hc_cc_circle_param k s)) q o) :=
  ok_hc H.sigma (circOk_at H.kappa H.sigma H.clothoid p l f r).ok

end

/-! ### Turns of the CC-Dubins planners -/

section
variable {sp : HCSpace} (H : Rng sp.kappa sp.sigma)

include H in
theorem cc00_snd {c1 c2 : Circle} (h1 : CircOk c1 sp.kappa sp.sigma) (h2 : CircOk c2 sp.kappa sp.sigma) :
    Snd sp.kappa sp.sigma (CC00.circles_calls sp c1 c2) := by
  have e1 : ∀ {q o}, Sound sp.kappa sp.sigma (.cc c1 q o) := ok_cc H.sigma h1.ok
  have e2 : ∀ {q o}, Sound sp.kappa sp.sigma (.cc c2 q o) := ok_cc H.sigma h2.ok
  unfold CC00.circles_calls
  refine snd_ite snd_nil (snd_ite snd_nil (snd_ite snd_nil (snd_ite (s1 e1) ?_)))
  refine snd_append.2 ⟨snd_append.2 ⟨snd_if (s2 e1 e2), ?_⟩, snd_if ?_⟩
  · exact snd_ite (s3 e1 line_snd e2) (snd_if (s3 e1 line_snd e2))
  · exact snd_cons.2 ⟨e1, s5 (at_cc H) e2 e1 (at_cc H) e2⟩

include H in
theorem cc0pm_snd {c1 c2 : Circle} : Snd sp.kappa sp.sigma (CC0pm.circles_calls sp c1 c2) := by
  unfold CC0pm.circles_calls
  refine snd_ite snd_nil (snd_ite (s1 (at_hc H)) ?_)
  refine snd_append.2 ⟨snd_append.2 ⟨snd_if (s2 (at_cc H) (at_hc H)), ?_⟩, snd_if ?_⟩
  · exact snd_ite (s3 (at_cc H) line_snd (at_hc H)) (snd_if (s3 (at_cc H) line_snd (at_hc H)))
  · exact snd_cons.2 ⟨at_cc H, s5 (at_cc H) (at_hc H) (at_cc H) (at_cc H) (at_hc H)⟩

include H in
theorem ccpm0_snd {c1 c2 : Circle} : Snd sp.kappa sp.sigma (CCpm0.circles_calls sp c1 c2) := by
  unfold CCpm0.circles_calls
  refine snd_ite snd_nil (snd_ite (s1 (at_hc H)) ?_)
  refine snd_append.2 ⟨snd_append.2 ⟨snd_if (s2 (at_hc H) (at_cc H)), ?_⟩, snd_if ?_⟩
  · exact snd_ite (s3 (at_hc H) line_snd (at_cc H)) (snd_if (s3 (at_hc H) line_snd (at_cc H)))
  · exact snd_cons.2 ⟨at_hc H, s5 (at_cc H) (at_cc H) (at_hc H) (at_cc H) (at_cc H)⟩

include H in
theorem ccpmpm_snd {c1 c2 : Circle} : Snd sp.kappa sp.sigma (CCpmpm.circles_calls sp c1 c2) := by
  unfold CCpmpm.circles_calls
  refine snd_ite snd_nil (snd_ite (s1 rs_snd) ?_)
  refine snd_append.2 ⟨snd_append.2 ⟨snd_append.2 ⟨snd_if (s2 (at_hc H) (at_hc H)), ?_⟩, snd_if ?_⟩, snd_if ?_⟩
  · exact snd_ite (s3 (at_hc H) line_snd (at_hc H)) (snd_if (s3 (at_hc H) line_snd (at_hc H)))
  · exact snd_cons.2 ⟨at_hc H, s5 (at_cc H) (at_hc H) (at_hc H) (at_cc H) (at_hc H)⟩
  · exact snd_append.2 ⟨s4 (at_hc H) (at_cc H) (at_cc H) (at_hc H), s4 (at_hc H) (at_cc H) (at_cc H) (at_hc H)⟩

end

/-! ### Turns of the HC planners -/

section
variable {pm1 pm2 : Bool} {sp : HCSpace} {c1 c2 : Circle} {q : Configuration} (H : Rng sp.kappa sp.sigma)

include H in
theorem firstT_snd : Sound sp.kappa sp.sigma (HcRs.firstT pm1 sp.param c1 q) := by
  unfold HcRs.firstT
  split_ifs
  exacts [at_hc H, at_cc H]

include H in
theorem lastT_snd : Sound sp.kappa sp.sigma (HcRs.lastT pm2 sp.param c2 q) := by
  unfold HcRs.lastT
  split_ifs
  exacts [at_hc H, at_cc H]

include H in
theorem firstTc_snd (h : EndOk pm1 sp.kappa sp.sigma c1) : Sound sp.kappa sp.sigma (HcRs.firstTc pm1 c1 q) := by
  cases pm1
  · exact ok_hc H.sigma h.cc.ok
  · exact rs_snd

include H in
theorem lastcT_snd (h : EndOk pm2 sp.kappa sp.sigma c2) : Sound sp.kappa sp.sigma (HcRs.lastcT pm2 c2 q) := by
  cases pm2
  · exact ok_hc H.sigma h.cc.ok
  · exact rs_snd

variable (h1 : EndOk pm1 sp.kappa sp.sigma c1) (h2 : EndOk pm2 sp.kappa sp.sigma c2)

include H h1 h2 in
theorem hc_family_snd (m : Scratch) (i : ℕ) : Snd sp.kappa sp.sigma (HcRs.family_calls pm1 pm2 sp m c1 c2 i) := by
  have a1 : ∀ {q}, Sound sp.kappa sp.sigma (HcRs.firstT pm1 sp.param c1 q) := firstT_snd H
  have a2 : ∀ {q}, Sound sp.kappa sp.sigma (HcRs.lastT pm2 sp.param c2 q) := lastT_snd H
  have a3 : ∀ {q}, Sound sp.kappa sp.sigma (HcRs.firstTc pm1 c1 q) := firstTc_snd H h1
  have a4 : ∀ {q}, Sound sp.kappa sp.sigma (HcRs.lastcT pm2 c2 q) := lastcT_snd H h2
  have b := @at_hc sp.kappa sp.sigma H
  have n : Snd sp.kappa sp.sigma ({} : RSRow).moves := snd_nil
  unfold HcRs.family_calls
  dsimp only
  split
  · exact snd_if (s2 a1 a2)
  · exact snd_if (s2 a3 a4)
  · refine snd_if (snd_append.2 ⟨?_, ?_⟩) <;> exact s3 a3 rs_snd a4
  · refine snd_if (snd_append.2 ⟨?_, ?_⟩) <;> exact s3 a3 b a2
  · refine snd_if (snd_append.2 ⟨?_, ?_⟩) <;> exact s3 a1 b a4
  · exact snd_row_ite (s3 a1 line_snd a2) (snd_row_ite (s3 a1 line_snd a2) n)
  · exact snd_row_ite (s4 a1 line_snd b a4) (snd_row_ite (s4 a1 line_snd b a4) n)
  · exact snd_row_ite (s4 a3 b line_snd a2) (snd_row_ite (s4 a3 b line_snd a2) n)
  · exact snd_row_ite (s5 a3 b line_snd b a4) (snd_row_ite (s5 a3 b line_snd b a4) n)
  · refine snd_if (snd_append.2 ⟨?_, ?_⟩) <;> exact s4 a1 b b a2
  · refine snd_if (snd_append.2 ⟨?_, ?_⟩) <;> exact s4 a3 b b a4
  · refine snd_if (snd_append.2 ⟨?_, ?_⟩) <;> exact s3 a1 (at_cc H) a2
  · exact snd_row_ite (s3 a3 line_snd a2) (snd_row_ite (s3 a3 line_snd a2) n)
  · exact snd_row_ite (s3 a1 line_snd a4) (snd_row_ite (s3 a1 line_snd a4) n)
  · exact snd_row_ite (s3 a3 line_snd a4) (snd_row_ite (s3 a3 line_snd a4) n)
  · exact snd_nil

include H h1 h2 in
theorem hc_circles_snd : Snd sp.kappa sp.sigma (HcRs.circles_calls pm1 pm2 sp c1 c2) := by
  unfold HcRs.circles_calls
  dsimp only
  rcases e : HcRs.shortcut pm1 pm2 sp (scratch c1 c2) c1 c2 with _ | ⟨t, r⟩
  · intro mv hmv
    obtain ⟨i, _, hi⟩ := List.mem_flatMap.1 hmv
    exact hc_family_snd H h1 h2 _ _ mv hi
  · dsimp only
    unfold HcRs.shortcut at e
    cases pm1 <;> cases pm2 <;> dsimp only at e <;> split_ifs at e <;>
      (injection e with e; injection e with _ e; rw [← e]) <;>
      first
        | exact snd_nil
        | exact s1 line_snd
        | exact s1 (at_cc H)
        | exact s1 (at_hc H)
        | exact s1 rs_snd

end

/-! ### Tangents -/

theorem ratio_asin {a D : ℝ} (hD : 0 < D) (h : |a| ≤ D) : Defined (.asin (a / D)) := by
  obtain ⟨h1, h2⟩ := abs_le.1 h
  constructor
  · rw [le_div_iff₀ hD]; linarith
  · rw [div_le_iff₀ hD]; linarith

section
variable {k s : ℝ}

theorem ccB_le (k s : ℝ) : ccB k s ≤ ccR k s := le_sqrt_of_sq_le (by nlinarith [sq_nonneg (ccA k s)])

variable (H : Rng k s)

include H in
theorem b_pos : 0 < ccB k s := ccB_pos H.kappa H.sigma H.clothoid

include H in
theorem r_pos : 0 < ccR k s := lt_of_lt_of_le (b_pos H) (ccB_le k s)

include H in
theorem cross_nd {R C D : ℝ} (hC : R * C = ccB k s) (h : 2 * ccR k s ≤ D) : NoDomainError [.div D, .asin (2 * R * C / D)] := by
  have hB := b_pos H
  have hR := ccB_le k s
  have hD : 0 < D := by linarith [r_pos H]
  refine nd_two hD.ne' (ratio_asin hD ?_)
  rw [mul_assoc, hC, abs_of_pos (by positivity)]
  linarith

end

theorem legs_nd {R D : ℝ} (h0 : 0 ≤ D) (h : D ≤ 4 * R) : NoDomainError [.sqrt ((2 * R) ^ 2 - (0.5 * D) ^ 2)] :=
  nd_one (by show 0 ≤ (2 * R) ^ 2 - (0.5 * D) ^ 2; norm_num; nlinarith)

theorem distance_nonneg (c1 c2 : Circle) : 0 ≤ (scratch c1 c2).distance := by rw [scratch_distance]; exact norm_nonneg _

theorem scratch_center (c1 c2 : Circle) : (scratch c1 c2).distance = center_distance c1 c2 := rfl

/-! ### CC-Dubins -/

section
variable {sp : HCSpace} (H : Rng sp.kappa sp.sigma) {c1 c2 : Circle}

theorem TiST_guard {c1 : Circle} {m : Scratch} {r : ℝ} (hr : c1.radius = r) (h : CC00.TiST_exists m c1 c2) : 2 * r ≤ m.distance := by
  unfold CC00.TiST_exists at h
  split_ifs at h
  rw [← hr]; exact h

theorem TTT_guard {c1 : Circle} {m : Scratch} {r : ℝ} (hr : c1.radius = r) (h : CC00.TTT_exists m c1 c2) : m.distance ≤ 4 * r := by
  unfold CC00.TTT_exists at h
  split_ifs at h
  rw [← hr]; exact h

include H in
theorem cc00_nd (h1 : CircOk c1 sp.kappa sp.sigma) : NoDomainError (CC00.circles_ops sp c1 c2) := by
  have hr : c1.radius = ccR sp.kappa sp.sigma := h1.ok.radius
  unfold CC00.circles_ops
  dsimp only
  refine nd_ite (fun _ => nd_nil) (nd_ite (fun _ => nd_nil) (nd_ite (fun _ => nd_nil) (nd_ite (fun _ => nd_nil) ?_)))
  refine nd_append.2 ⟨nd_if fun h => cross_nd H h1.ok.cos_mu (TiST_guard hr h), nd_if fun h => ?_⟩
  have := TTT_guard hr h
  rw [← hr] at this
  exact legs_nd (distance_nonneg _ _) this

include H in
theorem cc0pm_nd (h1 : CircOk c1 sp.kappa sp.sigma) : NoDomainError (CC0pm.circles_ops c1 c2) := by
  have hr : c1.radius = ccR sp.kappa sp.sigma := h1.ok.radius
  unfold CC0pm.circles_ops
  dsimp only
  refine nd_ite (fun _ => nd_nil) (nd_ite (fun _ => nd_nil) ?_)
  refine nd_append.2 ⟨nd_if fun h => cross_nd H h1.ok.cos_mu (TiST_guard hr h), nd_if fun h => ?_⟩
  have := TTT_guard hr h
  rw [← hr] at this
  exact legs_nd (distance_nonneg _ _) this

include H in
theorem ccpm0_nd (h2 : CircOk c2 sp.kappa sp.sigma) : NoDomainError (CCpm0.circles_ops c1 c2) := by
  have hr : (c1.reparam c2.toCircleParam).radius = ccR sp.kappa sp.sigma := h2.ok.radius
  have hr' : c2.radius = ccR sp.kappa sp.sigma := h2.ok.radius
  unfold CCpm0.circles_ops
  dsimp only
  refine nd_ite (fun _ => nd_nil) (nd_ite (fun _ => nd_nil) ?_)
  refine nd_append.2 ⟨nd_if fun h => cross_nd H h2.ok.cos_mu (TiST_guard hr h), nd_if fun h => ?_⟩
  have := TTT_guard hr h
  rw [← hr'] at this
  exact legs_nd (distance_nonneg _ _) this

include H in
theorem ccpmpm_nd : NoDomainError (CCpmpm.circles_ops sp c1 c2) := by
  have hr : sp.param.radius = ccR sp.kappa sp.sigma := radius_param H
  have hR := r_pos H
  unfold CCpmpm.circles_ops
  dsimp only
  refine nd_ite (fun _ => nd_nil) (nd_ite (fun _ => nd_nil) ?_)
  refine nd_append.2 ⟨nd_append.2 ⟨nd_if fun h => cross_nd H (cos_param H) (TiST_guard hr h), nd_if fun h => ?_⟩, nd_if fun h => ?_⟩
  · have := TTT_guard (c1 := c1.reparam sp.param) hr h
    rw [← hr] at this
    exact legs_nd (distance_nonneg _ _) this
  · have h0 := distance_nonneg c1 c2
    unfold CCpmpm.TTTT_exists at h
    split_ifs at h
    refine nd_one ?_
    show 0 ≤ (2 * sp.param.radius) ^ 2 - CCpmpm.TTTT_delta_x sp.param (scratch c1 c2) ^ 2
    unfold CCpmpm.TTTT_delta_x
    dsimp only
    rw [hr] at h ⊢
    split_ifs with g
    · nlinarith
    · push Not at g
      nlinarith

end

/-! ### HC-Reeds-Shepp -/

/-- The third vertex of a triangle with sides `r1`, `r2`, `D`. -/
theorem triangle_nd {m : Scratch} {r1 r2 : ℝ} (h1 : 0 ≤ r1) (h2 : 0 ≤ r2) (hD : 0 < m.distance) (h : m.distance ≤ r1 + r2)
    (h' : |r1 - r2| ≤ m.distance) : NoDomainError (HcRs.triangle_ops m r1 r2) := by
  obtain ⟨a, b⟩ := abs_le.1 h'
  refine nd_two (mul_pos two_pos hD).ne' ?_
  show 0 ≤ r1 ^ 2 - ((r1 ^ 2 + m.distance ^ 2 - r2 ^ 2) / (2 * m.distance)) ^ 2
  generalize m.distance = D at *
  have hle : |(r1 ^ 2 + D ^ 2 - r2 ^ 2) / (2 * D)| ≤ r1 := by
    rw [abs_le]
    constructor
    · rw [le_div_iff₀ (by positivity)]; nlinarith
    · rw [div_le_iff₀ (by positivity)]; nlinarith
  have := sq_abs ((r1 ^ 2 + D ^ 2 - r2 ^ 2) / (2 * D))
  have := pow_le_pow_left₀ (abs_nonneg _) hle 2
  linarith

section
variable {k s : ℝ} (H : Rng k s) {pm1 pm2 : Bool} {c1 c2 : Circle} (h1 : EndOk pm1 k s c1) (h2 : EndOk pm2 k s c2)

local notation "P" => hc_cc_circle_param k s
local notation "m" => scratch c1 c2

include H in
theorem tist_nd {D : ℝ} (h : 2 * ccR k s ≤ D) : NoDomainError (HcRs.TiST_ops P D) := cross_nd H (cos_param H) h

include H h1 h2 in
theorem TiSTcT_nd (h : HcRs.TiSTcT_exists P m c1 c2) : NoDomainError (HcRs.TiSTcT_ops P m c1 c2) := by
  have hk := H.pos
  have hA := ccA_pos H.kappa H.sigma H.clothoid
  have hB := ccB_pos H.kappa H.sigma H.clothoid
  have hi : 0 < 1 / k := by positivity
  unfold HcRs.TiSTcT_exists at h
  split_ifs at h with hl hf
  rw [mul_assoc 2, mul_assoc 2, sin_param H, cos_param H, h1.abs_inv hk] at h
  obtain ⟨D0, hD⟩ := sqrt_le_dist (by positivity) h
  unfold HcRs.TiSTcT_ops
  rw [mul_assoc 4, cos_param H, h2.abs_kappa hk]
  obtain ⟨dy, hdy⟩ : ∃ dy, dy = 4 * ccB k s / (k * (m).distance) := ⟨_, rfl⟩
  obtain ⟨dx, hdx⟩ : ∃ dx, dx = √((2 * c2.kappa_inv) ^ 2 - dy ^ 2) := ⟨_, rfl⟩
  have e2 : (2 * c2.kappa_inv) ^ 2 = (2 * (1 / k)) ^ 2 := by
    rw [mul_pow, mul_pow, ← sq_abs c2.kappa_inv, h2.abs_inv hk]
  simp only [← hdy]
  rw [← hdx]
  rw [e2] at hdx
  have hB2 : (2 * ccB k s) ^ 2 ≤ (m).distance ^ 2 := by nlinarith [sq_nonneg (2 * ccA k s + 2 * (1 / k))]
  obtain ⟨o1, o2⟩ := cross_offsets hk D0 hB2 hdy hdx
  have hc := cross_dist (n := 1) hk hA (by rw [one_mul]; exact hD) o2
  have hn : 0 ≤ ((m).distance + -dx) ^ 2 + dy ^ 2 := by positivity
  have D1 := frame_dist_from c1 c2 (dx := -dx) (dy := dy) (sq_sqrt hn).symm (sqrt_nonneg _)
  have hR : 2 * ccR k s ≤ √(((m).distance + -dx) ^ 2 + dy ^ 2) := by
    refine two_ccR_le (sqrt_nonneg _) ?_
    rw [sq_sqrt hn]
    nlinarith
  rw [← D1] at hR
  generalize global_frame_change c2.xc c2.yc (m).angle (-dx) dy = p at *
  refine nd_append.2 ⟨nd_two (mul_pos hk D0).ne' ?_, tist_nd H ?_⟩
  · show 0 ≤ (2 * c2.kappa_inv) ^ 2 - dy ^ 2
    rw [e2, ← o1]; nlinarith [sq_nonneg dx]
  · rw [center_distance_eq]; exact hR

include H h1 h2 in
theorem TcTiST_nd (h : HcRs.TcTiST_exists P m c1 c2) : NoDomainError (HcRs.TcTiST_ops P m c1 c2) := by
  have hk := H.pos
  have hA := ccA_pos H.kappa H.sigma H.clothoid
  have hB := ccB_pos H.kappa H.sigma H.clothoid
  have hi : 0 < 1 / k := by positivity
  unfold HcRs.TcTiST_exists at h
  split_ifs at h with hl hf
  rw [mul_assoc 2, mul_assoc 2, sin_param H, cos_param H, h1.abs_inv hk] at h
  obtain ⟨D0, hD⟩ := sqrt_le_dist (by positivity) h
  unfold HcRs.TcTiST_ops
  rw [mul_assoc 4, cos_param H, h2.abs_kappa hk]
  obtain ⟨dy, hdy⟩ : ∃ dy, dy = 4 * ccB k s / (k * (m).distance) := ⟨_, rfl⟩
  obtain ⟨dx, hdx⟩ : ∃ dx, dx = √((2 * c2.kappa_inv) ^ 2 - dy ^ 2) := ⟨_, rfl⟩
  have e2 : (2 * c2.kappa_inv) ^ 2 = (2 * (1 / k)) ^ 2 := by
    rw [mul_pow, mul_pow, ← sq_abs c2.kappa_inv, h2.abs_inv hk]
  simp only [← hdy]
  rw [← hdx]
  rw [e2] at hdx
  have hB2 : (2 * ccB k s) ^ 2 ≤ (m).distance ^ 2 := by nlinarith [sq_nonneg (2 * ccA k s + 2 * (1 / k))]
  obtain ⟨o1, o2⟩ := cross_offsets hk D0 hB2 hdy hdx
  have hc := cross_dist (n := 1) hk hA (by rw [one_mul]; exact hD) o2
  have hn : 0 ≤ ((m).distance - dx) ^ 2 + (-dy) ^ 2 := by positivity
  have D1 := frame_dist_to c1 c2 (dx := dx) (dy := -dy) (sq_sqrt hn).symm (sqrt_nonneg _)
  have hR : 2 * ccR k s ≤ √(((m).distance - dx) ^ 2 + (-dy) ^ 2) := by
    refine two_ccR_le (sqrt_nonneg _) ?_
    rw [sq_sqrt hn]
    nlinarith
  rw [← D1] at hR
  generalize global_frame_change c1.xc c1.yc (m).angle dx (-dy) = p at *
  refine nd_append.2 ⟨nd_two (mul_pos hk D0).ne' ?_, tist_nd H ?_⟩
  · show 0 ≤ (2 * c2.kappa_inv) ^ 2 - dy ^ 2
    rw [e2, ← o1]; nlinarith [sq_nonneg dx]
  · rw [center_distance_eq]; exact hR

include H h1 in
theorem TcTiSTcT_guard : (2 * (P).radius) ^ 2 + 16 * (P).radius * (P).sin_mu * |c1.kappa_inv| + (4 * c1.kappa_inv) ^ 2
    = (2 * ccA k s + 2 * (2 * (1 / k))) ^ 2 + (2 * ccB k s) ^ 2 := by
  have hk := H.pos
  have e4 : (4 * c1.kappa_inv) ^ 2 = (4 * (1 / k)) ^ 2 := by
    rw [mul_pow, mul_pow, ← sq_abs c1.kappa_inv, h1.abs_inv hk]
  rw [mul_assoc 16, sin_param H, radius_param H, h1.abs_inv hk, e4, mul_pow 2 (ccR k s), ccR_sq]; ring

include H h1 in
theorem TcTiSTcT_nd (h : HcRs.TcTiSTcT_exists P m c1 c2) : NoDomainError (HcRs.TcTiSTcT_ops P m c1 c2) := by
  have hk := H.pos
  have hA := ccA_pos H.kappa H.sigma H.clothoid
  have hB := ccB_pos H.kappa H.sigma H.clothoid
  have hi : 0 < 1 / k := by positivity
  unfold HcRs.TcTiSTcT_exists at h
  split_ifs at h with hl hf
  have e1 : (2 * c1.kappa_inv) ^ 2 = (2 * (1 / k)) ^ 2 := by
    rw [mul_pow, mul_pow, ← sq_abs c1.kappa_inv, h1.abs_inv hk]
  rw [TcTiSTcT_guard H h1] at h
  obtain ⟨D0, hD⟩ := sqrt_le_dist (by positivity) h
  unfold HcRs.TcTiSTcT_ops
  rw [mul_assoc 4, cos_param H, h1.abs_kappa hk, mul_comm _ k]
  obtain ⟨dy, hdy⟩ : ∃ dy, dy = 4 * ccB k s / (k * (m).distance) := ⟨_, rfl⟩
  obtain ⟨dx, hdx⟩ : ∃ dx, dx = √((2 * c1.kappa_inv) ^ 2 - dy ^ 2) := ⟨_, rfl⟩
  simp only [← hdy]
  rw [← hdx]
  rw [e1] at hdx
  have hB2 : (2 * ccB k s) ^ 2 ≤ (m).distance ^ 2 := by nlinarith [sq_nonneg (2 * ccA k s + 2 * (2 * (1 / k)))]
  obtain ⟨o1, o2⟩ := cross_offsets hk D0 hB2 hdy hdx
  have hc := cross_dist hk hA hD o2
  have hn : 0 ≤ ((m).distance + -dx - dx) ^ 2 + (-dy - dy) ^ 2 := by positivity
  have D3 := frame_dist_both c1 c2 (dx := dx) (dy := dy) (ex := -dx) (ey := -dy) (sq_sqrt hn).symm (sqrt_nonneg _)
  have hR : 2 * ccR k s ≤ √(((m).distance + -dx - dx) ^ 2 + (-dy - dy) ^ 2) := by
    refine two_ccR_le (sqrt_nonneg _) ?_
    rw [sq_sqrt hn]
    nlinarith
  rw [← D3] at hR
  generalize global_frame_change c1.xc c1.yc (m).angle dx dy = p1 at *
  generalize global_frame_change c2.xc c2.yc (m).angle (-dx) (-dy) = p2 at *
  refine nd_append.2 ⟨nd_two (mul_pos hk D0).ne' ?_, tist_nd H ?_⟩
  · show 0 ≤ (2 * c1.kappa_inv) ^ 2 - dy ^ 2
    rw [e1, ← o1]; nlinarith [sq_nonneg dx]
  · rw [center_distance_eq]; exact hR

include H in
theorem cusp_line_nd {b : ℝ} (h : √(((P).radius * (P).sin_mu) ^ 2 + ((P).radius * (P).cos_mu + b) ^ 2) ≤ (m).distance) :
    NoDomainError (HcRs.cusp_line_ops P m b) := by
  rw [sin_param H] at h
  obtain ⟨hD, hb, _⟩ := sqrt_guard (ccA_pos H.kappa H.sigma H.clothoid) h
  exact nd_two hD.ne' (ratio_asin hD hb)

end

section
variable {sp : HCSpace} (H : Rng sp.kappa sp.sigma) {pm1 pm2 : Bool} {c1 c2 : Circle} (h1 : EndOk pm1 sp.kappa sp.sigma c1)
  (h2 : EndOk pm2 sp.kappa sp.sigma c2)

include H h1 h2 in
/-- All families but `TcTTcT`; that one needs circles that are not too wide. -/
theorem family_nd (i : ℕ) (hi : i = hc_cc_rs.TcTTcT → ccR sp.kappa sp.sigma < 2 / sp.kappa) :
    NoDomainError (HcRs.family_ops sp (scratch c1 c2) c1 c2 i) := by
  have hk := H.pos
  have hr : sp.param.radius = ccR sp.kappa sp.sigma := radius_param H
  have hR := r_pos H
  have hRk := inv_lt_ccR H
  have hi0 : 0 < 1 / sp.kappa := by positivity
  have ha := h1.abs_inv hk
  have h0 := distance_nonneg c1 c2
  have hA := ccA_pos H.kappa H.sigma H.clothoid
  unfold HcRs.family_ops
  dsimp only
  rw [ha]
  split
  · refine nd_if fun h => ?_
    unfold HcRs.TcTcT_exists at h
    split_ifs at h
    exact legs_nd h0 h
  · refine nd_if fun h => ?_
    unfold HcRs.TcTT_exists at h
    split_ifs at h
    rw [ha] at h
    rw [hr] at h ⊢
    exact triangle_nd (by positivity) (by positivity) (by linarith) (by linarith) (abs_le.2 ⟨by linarith, by linarith⟩)
  · refine nd_if fun h => ?_
    unfold HcRs.TTcT_exists at h
    split_ifs at h
    rw [ha] at h
    rw [hr] at h ⊢
    exact triangle_nd (by positivity) (by positivity) (by linarith) (by linarith) (abs_le.2 ⟨by linarith, by linarith⟩)
  · exact nd_if fun h => tist_nd H (TiST_guard (c1 := c1.reparam sp.param) hr h)
  · exact nd_if fun h => TiSTcT_nd H h1 h2 h
  · exact nd_if fun h => TcTiST_nd H h1 h2 h
  · refine nd_cons.2 ⟨?_, nd_if fun h => TcTiSTcT_nd H h1 h⟩
    have := TcTiSTcT_guard H h1
    rw [ha] at this
    show 0 ≤ (2 * sp.param.radius) ^ 2 + 16 * sp.param.radius * sp.param.sin_mu * (1 / sp.kappa) + (4 * c1.kappa_inv) ^ 2
    rw [show sp.param = hc_cc_circle_param sp.kappa sp.sigma from rfl, this]
    positivity
  · refine nd_if fun h => ?_
    unfold HcRs.TTcTT_exists at h
    split_ifs at h
    rw [ha, hr] at h
    unfold HcRs.TTcTT_ops
    dsimp only
    rw [ha, hr]
    refine nd_one ?_
    split_ifs with g
    · show 0 ≤ (2 * ccR sp.kappa sp.sigma) ^ 2 - (((scratch c1 c2).distance + 2 * (1 / sp.kappa)) / 2) ^ 2
      nlinarith
    · push Not at g
      show 0 ≤ (2 * ccR sp.kappa sp.sigma) ^ 2 - (((scratch c1 c2).distance - 2 * (1 / sp.kappa)) / 2) ^ 2
      nlinarith
  · refine nd_if fun h => ?_
    have hw := hi rfl
    unfold HcRs.TcTTcT_exists at h
    split_ifs at h
    rw [ha, hr] at h
    rw [show 2 / sp.kappa = 2 * (1 / sp.kappa) by ring] at hw
    obtain ⟨g1, g2⟩ := h
    have hD : 0 < (scratch c1 c2).distance := by linarith
    unfold HcRs.TcTTcT_ops
    dsimp only
    rw [ha, hr]
    refine nd_two hD.ne' ?_
    show 0 ≤ (2 * (1 / sp.kappa)) ^ 2 -
      (((2 * (1 / sp.kappa)) ^ 2 + ((scratch c1 c2).distance / 2) ^ 2 - ccR sp.kappa sp.sigma ^ 2) / (scratch c1 c2).distance) ^ 2
    generalize (scratch c1 c2).distance = D at *
    generalize ccR sp.kappa sp.sigma = R at *
    generalize 1 / sp.kappa = K at *
    have hle : |((2 * K) ^ 2 + (D / 2) ^ 2 - R ^ 2) / D| ≤ 2 * K := by
      rw [abs_le]
      constructor
      · rw [le_div_iff₀ hD]; nlinarith
      · rw [div_le_iff₀ hD]; nlinarith
    have := sq_abs (((2 * K) ^ 2 + (D / 2) ^ 2 - R ^ 2) / D)
    have := pow_le_pow_left₀ (abs_nonneg _) hle 2
    linarith
  · refine nd_if fun h => ?_
    have := TTT_guard (c1 := c1.reparam sp.param) hr h
    rw [← hr] at this
    exact legs_nd h0 this
  · refine nd_ite (fun h => ?_) (nd_if fun h => ?_)
    · unfold HcRs.TciST_exists at h
      split_ifs at h
      rw [ha] at h
      exact cusp_line_nd H h
    · unfold HcRs.TceST_exists at h
      split_ifs at h
      rw [ha, sub_eq_add_neg] at h
      exact cusp_line_nd H h
  · refine nd_ite (fun h => ?_) (nd_if fun h => ?_)
    · unfold HcRs.TiScT_exists at h
      split_ifs at h
      rw [ha] at h
      exact cusp_line_nd H h
    · unfold HcRs.TeScT_exists at h
      split_ifs at h
      rw [ha, sub_eq_add_neg] at h
      exact cusp_line_nd H h
  · refine nd_if fun h => ?_
    unfold HcRs.TciScT_exists at h
    split_ifs at h
    rw [ha] at h
    unfold HcRs.TciScT_ops
    rw [h1.abs_kappa hk]
    have hD : 2 < sp.kappa * (scratch c1 c2).distance := by
      have : sp.kappa * (2 * (1 / sp.kappa)) < sp.kappa * (scratch c1 c2).distance := by gcongr
      rwa [show sp.kappa * (2 * (1 / sp.kappa)) = 2 by field_simp] at this
    exact nd_two (lt_trans two_pos hD).ne' (ratio_asin (lt_trans two_pos hD) (by rw [abs_of_pos two_pos]; exact hD.le))
  · exact nd_nil

end

/-! ### The planners -/

section
variable {sp : HCSpace} (H : Rng sp.kappa sp.sigma) (t1 t2 : State)

include H in
theorem cc00_distance : NoDomainError (CC00.distance_ops sp t1 t2) := by
  have o : ∀ q l f, CircOk (circleAt q l f true sp.param) sp.kappa sp.sigma := fun _ _ _ => circOk_at H.kappa H.sigma H.clothoid _ _ _ _
  refine nd_append.2 ⟨nd_flatMap fun n _ => cc00_nd H (o _ _ _), snd_nd H.kappa H.sigma fun mv hmv => ?_⟩
  obtain ⟨n, _, hn⟩ := List.mem_flatMap.1 hmv
  exact cc00_snd H (o _ _ _) (o _ _ _) mv hn

include H in
theorem cc0pm_distance : NoDomainError (CC0pm.distance_ops sp t1 t2) := by
  refine nd_append.2 ⟨nd_flatMap fun n _ => ?_, snd_nd H.kappa H.sigma fun mv hmv => ?_⟩
  · exact nd_ite (fun _ => nd_nil) (nd_ite (fun _ => nd_nil) (cc0pm_nd H (circOk_at H.kappa H.sigma H.clothoid _ _ _ _)))
  · obtain ⟨n, _, hn⟩ := List.mem_flatMap.1 hmv
    split_ifs at hn
    · exact absurd hn List.not_mem_nil
    · exact absurd hn List.not_mem_nil
    · exact cc0pm_snd H mv hn

include H in
theorem ccpm0_distance : NoDomainError (CCpm0.distance_ops sp t1 t2) := by
  refine nd_append.2 ⟨nd_flatMap fun n _ => ?_, snd_nd H.kappa H.sigma fun mv hmv => ?_⟩
  · exact nd_ite (fun _ => nd_nil) (nd_ite (fun _ => nd_nil) (ccpm0_nd H (circOk_at H.kappa H.sigma H.clothoid _ _ _ _)))
  · obtain ⟨n, _, hn⟩ := List.mem_flatMap.1 hmv
    split_ifs at hn
    · exact absurd hn List.not_mem_nil
    · exact absurd hn List.not_mem_nil
    · exact ccpm0_snd H mv hn

include H in
theorem ccpmpm_distance : NoDomainError (CCpmpm.distance_ops sp t1 t2) := by
  refine nd_append.2 ⟨nd_flatMap fun n _ => ?_, snd_nd H.kappa H.sigma fun mv hmv => ?_⟩
  · exact nd_ite (fun _ => nd_nil) (nd_ite (fun _ => nd_nil) (nd_ite (fun _ => nd_nil) (nd_ite (fun _ => nd_nil) (ccpmpm_nd H))))
  · obtain ⟨n, _, hn⟩ := List.mem_flatMap.1 hmv
    split_ifs at hn
    · exact absurd hn List.not_mem_nil
    · exact absurd hn List.not_mem_nil
    · exact absurd hn List.not_mem_nil
    · exact absurd hn List.not_mem_nil
    · exact ccpmpm_snd H mv hn

open Classical in
include H in
/-- An undefined operation of an HC planner belongs to `TcTTcT`. -/
theorem hc_distance (pm1 pm2 : Bool) {o : Op} (ho : o ∈ HcRs.distance_ops pm1 pm2 sp t1 t2) :
    Defined o ∨ ¬ ccR sp.kappa sp.sigma < 2 / sp.kappa ∧ ∃ i j, HcRs.TcTTcT_exists sp.param
      (scratch (HcRs.end_circle pm1 sp t1 i) (HcRs.end_circle pm2 sp t2 j)) (HcRs.end_circle pm1 sp t1 i) (HcRs.end_circle pm2 sp t2 j) ∧
      o ∈ HcRs.TcTTcT_ops sp.param (scratch (HcRs.end_circle pm1 sp t1 i) (HcRs.end_circle pm2 sp t2 j)) (HcRs.end_circle pm1 sp t1 i) := by
  rcases List.mem_append.1 ho with h | h
  · obtain ⟨n, _, hn⟩ := List.mem_flatMap.1 h
    have h1 := HcRs.end_ok H pm1 t1 (n / 4)
    have h2 := HcRs.end_ok H pm2 t2 (n % 4)
    split_ifs at hn
    · exact absurd hn List.not_mem_nil
    unfold HcRs.circles_ops at hn
    dsimp only at hn
    rcases e : HcRs.shortcut pm1 pm2 sp (scratch (HcRs.end_circle pm1 sp t1 (n / 4)) (HcRs.end_circle pm2 sp t2 (n % 4)))
        (HcRs.end_circle pm1 sp t1 (n / 4)) (HcRs.end_circle pm2 sp t2 (n % 4)) with _ | ⟨t, r⟩ <;> rw [e] at hn
    · obtain ⟨i, _, hi⟩ := List.mem_flatMap.1 hn
      by_cases hw : ccR sp.kappa sp.sigma < 2 / sp.kappa
      · exact Or.inl (family_nd H h1 h2 i (fun _ => hw) o hi)
      · by_cases hT : i = hc_cc_rs.TcTTcT
        · subst hT
          have hi' : o ∈ if HcRs.TcTTcT_exists sp.param
              (scratch (HcRs.end_circle pm1 sp t1 (n / 4)) (HcRs.end_circle pm2 sp t2 (n % 4)))
              (HcRs.end_circle pm1 sp t1 (n / 4)) (HcRs.end_circle pm2 sp t2 (n % 4)) then HcRs.TcTTcT_ops sp.param
                (scratch (HcRs.end_circle pm1 sp t1 (n / 4)) (HcRs.end_circle pm2 sp t2 (n % 4)))
                (HcRs.end_circle pm1 sp t1 (n / 4)) else [] := hi
          split_ifs at hi' with g
          · exact Or.inr ⟨hw, _, _, g, hi'⟩
          · exact absurd hi' List.not_mem_nil
        · exact Or.inl (family_nd H h1 h2 i (fun h => absurd h hT) o hi)
    · exact absurd hn List.not_mem_nil
  · refine Or.inl (snd_nd H.kappa H.sigma (fun mv hmv => ?_) o h)
    obtain ⟨n, _, hn⟩ := List.mem_flatMap.1 hmv
    split_ifs at hn
    · exact absurd hn List.not_mem_nil
    · exact hc_circles_snd H (HcRs.end_ok H _ _ _) (HcRs.end_ok H _ _ _) mv hn

end

/-! ### Reeds-Shepp words, constructor -/

theorem polar_nonneg (x y : ℝ) : 0 ≤ (polar x y).1 := sqrt_nonneg _

theorem yc_eq {k s : ℝ} (hs : 0 < s) (hl : k / s > epsilon) :
    (first_clothoid k s).y + cos (first_clothoid k s).theta / k = ccB k s := by
  have hsg : sgn s = 1 := by unfold sgn; rw [if_neg (not_lt.2 hs.le)]
  unfold first_clothoid
  simp only [if_pos hl]
  unfold end_of_clothoid ccB cScale cArg
  simp only [cos_pify, hsg, abs_of_pos hs, mul_zero, zero_div, sub_zero, add_zero, SF.fresnel_zero, cos_zero, sin_zero, zero_mul]
  have e : 0 + 0.5 * s * 1 * (k / s) * (k / s) = k ^ 2 / (2 * s) := by field_simp; norm_num; ring
  rw [e]
  ring

theorem space_nd {k s : ℝ} (H : Rng k s) : NoDomainError (space_ops k s) := by
  have hk := H.pos
  unfold space_ops
  dsimp only
  refine nd_append.2 ⟨nd_append.2 ⟨nd_one H.sigma.ne', nd_if fun _ => clothoid_nd H.sigma.ne' _ _⟩, nd_cons.2 ⟨hk.ne', nd_two ?_ hk.ne'⟩⟩
  show _ ≠ 0
  rw [yc_eq H.sigma H.clothoid]
  exact (b_pos H).ne'

theorem words_nd (x y phi : ℝ) : NoDomainError (word_ops x y phi) := by
  have h1 := polar_nonneg (x + sin phi) (y - 1 - cos phi)
  have h2 := polar_nonneg (x - sin phi) (y - 1 + cos phi)
  have h3 : 0 ≤ rhoLpRupLumRm x y phi := mul_nonneg (by norm_num) (add_nonneg (by norm_num) (sqrt_nonneg _))
  unfold word_ops
  dsimp only
  generalize (polar (x + sin phi) (y - 1 - cos phi)).1 = u at *
  generalize (polar (x - sin phi) (y - 1 + cos phi)).1 = w at *
  generalize rhoLpRupLumRm x y phi = r at *
  generalize rhoLpRumLumRp x y phi = r' at *
  refine nd_append.2 ⟨nd_append.2 ⟨nd_append.2 ⟨nd_append.2 ⟨nd_append.2 ⟨nd_if fun g => nd_one ?_, nd_if fun g => nd_one ?_⟩,
    nd_if fun g => nd_one ?_⟩, nd_if fun g => nd_one ?_⟩, nd_if fun g => nd_one ?_⟩, nd_if fun g => nd_one ?_⟩
  · show 0 ≤ _; linarith
  · exact ⟨by norm_num; linarith, by norm_num; linarith⟩
  · exact ⟨by linarith, g⟩
  · exact ⟨by linarith [g.1], g.2⟩
  · show 0 ≤ _; nlinarith
  · show 0 ≤ _; nlinarith

end Spec.Dom
