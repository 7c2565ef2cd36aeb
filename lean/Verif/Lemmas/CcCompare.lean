import Verif.Lemmas.CcRsPlan

/-!
# The Reeds-Shepp planners against CC00-Dubins
-/

noncomputable section

namespace Spec

open Real Props

/-- The circle with the option to turn backwards (`CC_REGULAR` false). -/
def irr (c : SF.Circle) : SF.Circle := { c with regular := false }

theorem irr_circular {c : SF.Circle} (h : c.regular = true) (d : ℝ) :
    |(irr c).cc_circular_deflection d| ≤ |c.cc_circular_deflection d| := by
  obtain ⟨m, hm⟩ : ∃ m, m = SF.twopify (2 * c.delta_min) := ⟨_, rfl⟩
  have e1 : (irr c).cc_circular_deflection d = if |d - m| < abs (if d < m then d - m + 2 * π else d - m - 2 * π) then d - m
      else (if d < m then d - m + 2 * π else d - m - 2 * π) := by rw [hm]; rfl
  have e2 : c.cc_circular_deflection d = if d < m then 2 * π + d - m else d - m := by
    unfold SF.Circle.cc_circular_deflection
    rw [h, hm]; rfl
  rw [e1, e2]
  by_cases hlt : d < m
  · rw [if_pos hlt, if_pos hlt]
    have e : 2 * π + d - m = d - m + 2 * π := by ring
    rw [e]
    split_ifs with h1
    · exact h1.le
    · exact le_rfl
  · rw [if_neg hlt, if_neg hlt]
    split_ifs with h1
    · exact le_rfl
    · exact not_lt.1 h1

/-- A turn with the option to go backwards is not longer. -/
theorem irr_turn {c : SF.Circle} (h : c.regular = true) (q : SF.Configuration) :
    (irr c).cc_turn_length q ≤ c.cc_turn_length q := by
  have hc := irr_circular h (c.deflection q)
  have e1 : (irr c).deflection q = c.deflection q := rfl
  have e2 : (irr c).cc_elementary_sharpness q (c.deflection q) = c.cc_elementary_sharpness q (c.deflection q) := rfl
  unfold SF.Circle.cc_turn_length
  simp only [e1, e2]
  have e3 : (irr c).radius = c.radius := rfl
  have e4 : (irr c).sin_mu = c.sin_mu := rfl
  have e5 : (irr c).kappa = c.kappa := rfl
  have e6 : (irr c).sigma = c.sigma := rfl
  have e7 : (irr c).kappa_inv = c.kappa_inv := rfl
  have e8 : (irr c).delta_min = c.delta_min := rfl
  rw [e3, e4, e5, e6, e7, e8]
  have hk : |c.kappa_inv * (irr c).cc_circular_deflection (c.deflection q)|
      ≤ |c.kappa_inv * c.cc_circular_deflection (c.deflection q)| := by
    rw [abs_mul, abs_mul]; exact mul_le_mul_of_nonneg_left hc (abs_nonneg _)
  generalize |c.kappa_inv * (irr c).cc_circular_deflection (c.deflection q)| = x at hk
  generalize |c.kappa_inv * c.cc_circular_deflection (c.deflection q)| = y at hk
  generalize c.deflection q = d
  by_cases h1 : d < SF.epsilon
  · rw [if_pos h1, if_pos h1]
  · rw [if_neg h1, if_neg h1]
    by_cases h2 : d < 2 * c.delta_min
    · rw [if_pos h2, if_pos h2]
      rcases c.cc_elementary_sharpness q d with _ | s0
      · simp only; linarith
      · simp only
        split_ifs <;> linarith
    · rw [if_neg h2, if_neg h2]; linarith

section
variable {sp : SF.HCSpace} {c1 c2 : SF.Circle}

/-- One of the `TTT` connections with options to turn backwards at the ends. -/
def tttLength (P : SF.CircleParam) (mid : Bool) (m : SF.Scratch) (c1 c2 : SF.Circle) (dy : ℝ) : ℝ :=
  let p := SF.global_frame_change c1.xc c1.yc m.angle (0.5 * m.distance) dy
  let tgt := SF.circleCentered p.1 p.2 (!c1.left) c1.forward true P
  let qa := SF.CC00.TT_tangent_circles c1 tgt
  let qb := SF.CC00.TT_tangent_circles tgt c2
  (irr c1).cc_turn_length qa + (SF.circleAt qa (!c1.left) c1.forward mid P).cc_turn_length qb + (irr c2).cc_turn_length qb

open Classical in
/-- A length `R` that is not longer than the Reeds-Shepp connections of two circles is not longer than the entries of the CC00-Dubins
table. -/
theorem compare (h1 : c1.regular = true) (h2 : c2.regular = true) {R : ℝ} {mid : Bool} {m : SF.Scratch}
    (hmax : R ≤ SF.dblMax)
    (hE : SF.configuration_equal c1.start c2.start → R ≤ 0)
    (hS : SF.configuration_aligned c1.start c2.start → R ≤ SF.configuration_distance c1.start c2.start)
    (hSb : SF.configuration_aligned c2.start c1.start → R ≤ SF.configuration_distance c1.start c2.start)
    (hopp : ¬ (if sp.forwards then SF.configuration_aligned c2.start c1.start
      else SF.configuration_aligned c1.start c2.start))
    (hT : ¬ SF.configuration_equal c1.start c2.start → ¬ SF.configuration_aligned c1.start c2.start →
      ¬ SF.configuration_aligned c2.start c1.start → SF.configuration_on_hc_cc_circle c1 c2.start →
      R ≤ (irr c1).cc_turn_length c2.start)
    (hTT : ¬ SF.configuration_equal c1.start c2.start → ¬ SF.configuration_aligned c1.start c2.start →
      ¬ SF.configuration_aligned c2.start c1.start → ¬ SF.configuration_on_hc_cc_circle c1 c2.start →
      (SF.CC00.TT_exists m c1 c2 → R ≤ (irr c1).cc_turn_length (SF.CC00.TT_tangent_circles c1 c2)
        + (irr c2).cc_turn_length (SF.CC00.TT_tangent_circles c1 c2)) ∧
      (SF.CC00.TiST_exists m c1 c2 → R ≤ (irr c1).cc_turn_length (SF.CC00.TiST_tangent_circles c1 c2).1
        + SF.configuration_distance (SF.CC00.TiST_tangent_circles c1 c2).1 (SF.CC00.TiST_tangent_circles c1 c2).2
        + (irr c2).cc_turn_length (SF.CC00.TiST_tangent_circles c1 c2).2) ∧
      (¬ SF.CC00.TiST_exists m c1 c2 → SF.CC00.TeST_exists m c1 c2 →
        R ≤ (irr c1).cc_turn_length (SF.CC00.TeST_tangent_circles c1 c2).1
        + SF.configuration_distance (SF.CC00.TeST_tangent_circles c1 c2).1 (SF.CC00.TeST_tangent_circles c1 c2).2
        + (irr c2).cc_turn_length (SF.CC00.TeST_tangent_circles c1 c2).2) ∧
      (SF.CC00.TTT_exists m c1 c2 →
        R ≤ tttLength sp.param mid m c1 c2 (√((2 * c1.radius) ^ 2 - (0.5 * m.distance) ^ 2)) ∧
        R ≤ tttLength sp.param mid m c1 c2 (-√((2 * c1.radius) ^ 2 - (0.5 * m.distance) ^ 2)))) (i : ℕ) :
    R ≤ (SF.CC00.table sp m c1 c2 i).length := by
  have hinit : ∀ j, R ≤ (SF.Table.init j).length := fun _ => hmax
  have hset : ∀ {t : SF.Table} {j : ℕ} {r : SF.Row}, (∀ j, R ≤ (t j).length) → R ≤ r.length →
      ∀ i, R ≤ (t.set j r i).length := by
    intro t j r ht hr i
    unfold SF.Table.set
    split_ifs
    · exact hr
    · exact ht i
  have hsym : SF.configuration_distance c2.start c1.start = SF.configuration_distance c1.start c2.start := by
    rw [configuration_distance_eq, configuration_distance_eq, norm_sub_rev]
  have hmid : ∀ qa qb, (SF.circleAt qa (!c1.left) c1.forward mid sp.param).cc_turn_length qb
      ≤ (SF.circleAt qa (!c1.left) c1.forward true sp.param).cc_turn_length qb := by
    intro qa qb
    cases mid
    · exact irr_turn (c := SF.circleAt qa (!c1.left) c1.forward true sp.param) rfl qb
    · exact le_rfl
  have hside : ∀ dy, tttLength sp.param mid m c1 c2 dy ≤
      (let p := SF.global_frame_change c1.xc c1.yc m.angle (0.5 * m.distance) dy
       let tgt := SF.circleCentered p.1 p.2 (!c1.left) c1.forward true sp.param
       let qa := SF.CC00.TT_tangent_circles c1 tgt
       let qb := SF.CC00.TT_tangent_circles tgt c2
       c1.cc_turn_length qa + (SF.circleAt qa (!c1.left) c1.forward true sp.param).cc_turn_length qb
        + c2.cc_turn_length qb) :=
    fun dy => add_le_add (add_le_add (irr_turn h1 _) (hmid _ _)) (irr_turn h2 _)
  unfold SF.CC00.table
  by_cases g1 : SF.configuration_equal c1.start c2.start
  · rw [if_pos g1]; exact hset hinit (hE g1) i
  rw [if_neg g1]
  by_cases g2 : (sp.forwards ∧ SF.configuration_aligned c1.start c2.start)
  · rw [if_pos g2]; exact hset hinit (hS g2.2) i
  rw [if_neg g2]
  by_cases g3 : (¬ sp.forwards ∧ SF.configuration_aligned c2.start c1.start)
  · rw [if_pos g3]; exact hset hinit ((hSb g3.2).trans_eq hsym.symm) i
  rw [if_neg g3]
  have n1 : ¬ SF.configuration_aligned c1.start c2.start := by
    intro hh
    cases hf : sp.forwards
    · rw [hf] at hopp; exact hopp (by simpa using hh)
    · exact g2 ⟨hf, hh⟩
  have n2 : ¬ SF.configuration_aligned c2.start c1.start := by
    intro hh
    cases hf : sp.forwards
    · exact g3 ⟨by simp [hf], hh⟩
    · rw [hf] at hopp; exact hopp (by simpa using hh)
  by_cases g4 : SF.configuration_on_hc_cc_circle c1 c2.start
  · rw [if_pos g4]
    exact hset hinit ((hT g1 n1 n2 g4).trans (irr_turn h1 _)) i
  rw [if_neg g4]
  obtain ⟨k1, k2, k3, k4⟩ := hTT g1 n1 n2 g4
  dsimp only
  have s1 : ∀ i, R ≤ ((if SF.CC00.TT_exists m c1 c2 then
      SF.Table.init.set SF.cc_dubins.TT { length := (SF.CC00.TT_path c1 c2).1, qi1 := some (SF.CC00.TT_path c1 c2).2, cstart := some c1, cend := some c2 }
      else SF.Table.init) i).length := by
    intro i
    split_ifs with hx
    · exact hset hinit ((k1 hx).trans (add_le_add (irr_turn h1 _) (irr_turn h2 _))) i
    · exact hinit i
  generalize (if SF.CC00.TT_exists m c1 c2 then
      SF.Table.init.set SF.cc_dubins.TT { length := (SF.CC00.TT_path c1 c2).1, qi1 := some (SF.CC00.TT_path c1 c2).2, cstart := some c1, cend := some c2 }
      else SF.Table.init) = t1 at s1 ⊢
  have s2 : ∀ i, R ≤ ((if SF.CC00.TST_exists m c1 c2 then t1.set SF.cc_dubins.TST (SF.CC00.TST_path m c1 c2)
      else t1) i).length := by
    intro i
    by_cases hx : SF.CC00.TST_exists m c1 c2
    · rw [if_pos hx]
      refine hset s1 ?_ i
      unfold SF.CC00.TST_path
      by_cases hi : SF.CC00.TiST_exists m c1 c2
      · rw [if_pos hi]
        exact (k2 hi).trans (add_le_add (add_le_add (irr_turn h1 _) le_rfl) (irr_turn h2 _))
      · rw [if_neg hi]
        have he : SF.CC00.TeST_exists m c1 c2 := hx.resolve_left hi
        rw [if_pos he]
        exact (k3 hi he).trans (add_le_add (add_le_add (irr_turn h1 _) le_rfl) (irr_turn h2 _))
    · rw [if_neg hx]; exact s1 i
  generalize (if SF.CC00.TST_exists m c1 c2 then t1.set SF.cc_dubins.TST (SF.CC00.TST_path m c1 c2)
      else t1) = t2 at s2 ⊢
  by_cases hx : SF.CC00.TTT_exists m c1 c2
  · rw [if_pos hx]
    refine hset s2 ?_ i
    have a := (k4 hx).1.trans (hside _)
    have b := (k4 hx).2.trans (hside _)
    unfold SF.CC00.TTT_path SF.CC00.TTT_tangent_circles
    simp only [h1] at a b ⊢
    split_ifs
    · exact a
    · exact b
  · rw [if_neg hx]; exact s2 i

end

/-! ### CC00-Reeds-Shepp -/

namespace CcRs

open SF.CcRs

theorem shorter_le {a b : SF.RSRow} : (a.shorter b).length ≤ a.length ∧ (a.shorter b).length ≤ b.length := by
  unfold SF.RSRow.shorter
  split_ifs with h
  · exact ⟨le_rfl, h.le⟩
  · exact ⟨not_lt.1 h, le_rfl⟩

variable {sp : SF.HCSpace} {c1 c2 : SF.Circle}

theorem path_le_max (sp : SF.HCSpace) (c1 c2 : SF.Circle) : (circles_rs_path sp c1 c2).length ≤ SF.dblMax := by
  have h0 := entry_le sp c1 c2 (i := 0) (by norm_num)
  have h1 := entry_le sp c1 c2 (i := 1) (by norm_num)
  unfold table at h0 h1
  rcases hs : shortcut c1 c2 with _ | ⟨t, r⟩
  · rw [hs] at h0; exact h0
  · rw [hs] at h0 h1
    simp only at h0 h1
    by_cases ht : 0 = t
    · rw [if_neg (by omega)] at h1; exact h1
    · rw [if_neg ht] at h0; exact h0

theorem le_shortcut {t : ℕ} {r : SF.RSRow} (h : shortcut c1 c2 = some (t, r)) (ht : t < 18) :
    (circles_rs_path sp c1 c2).length ≤ r.length := by
  have := entry_le sp c1 c2 ht
  unfold table at this
  rw [h] at this
  simpa using this

theorem le_family (h : shortcut c1 c2 = none) {i : ℕ} (hi : i < 18) :
    (circles_rs_path sp c1 c2).length ≤ (family sp (SF.scratch c1 c2) c1 c2 i).length := by
  have := entry_le sp c1 c2 hi
  unfold table at this
  rw [h] at this
  exact this

theorem le_zero (h : SF.configuration_equal c1.start c2.start) : (circles_rs_path sp c1 c2).length ≤ 0 :=
  le_shortcut (t := SF.hc_cc_rs.E) (r := { length := 0 }) (by unfold shortcut; exact if_pos h) (by norm_num)

theorem le_straight (h : SF.configuration_aligned c1.start c2.start ∨ SF.configuration_aligned c2.start c1.start) :
    (circles_rs_path sp c1 c2).length ≤ SF.configuration_distance c1.start c2.start := by
  have hsym : SF.configuration_distance c2.start c1.start = SF.configuration_distance c1.start c2.start := by
    rw [configuration_distance_eq, configuration_distance_eq, norm_sub_rev]
  have hd : 0 ≤ SF.configuration_distance c1.start c2.start := sqrt_nonneg _
  by_cases g1 : SF.configuration_equal c1.start c2.start
  · exact (le_zero g1).trans hd
  by_cases g2 : SF.configuration_aligned c1.start c2.start
  · exact le_shortcut (t := SF.hc_cc_rs.S)
      (r := { length := SF.configuration_distance c1.start c2.start, moves := [.line c1.start c2.start] }) (by unfold shortcut; exact (if_neg g1).trans (if_pos g2)) (by norm_num)
  · refine (le_shortcut (t := SF.hc_cc_rs.S)
      (r := { length := SF.configuration_distance c2.start c1.start, moves := [.line c1.start c2.start] }) (by
      unfold shortcut; exact (if_neg g1).trans ((if_neg g2).trans (if_pos (h.resolve_left g2)))) (by norm_num)).trans_eq hsym

/-- The path of a pair of circles is not longer than the CC00-Dubins path. -/
theorem le_dubins (h1 : c1.regular = true) (h2 : c2.regular = true)
    (hopp : ¬ (if sp.forwards then SF.configuration_aligned c2.start c1.start
      else SF.configuration_aligned c1.start c2.start)) :
    (circles_rs_path sp (irr c1) (irr c2)).length ≤ (SF.CC00.circles_dubins_path sp c1 c2).length := by
  have hm : SF.scratch (irr c1) (irr c2) = SF.scratch c1 c2 := rfl
  have hE := le_zero (sp := sp) (c1 := irr c1) (c2 := irr c2)
  have hS := le_straight (sp := sp) (c1 := irr c1) (c2 := irr c2)
  have i1 : (irr c1).start = c1.start := rfl
  have i2 : (irr c2).start = c2.start := rfl
  rw [i1, i2] at hE hS
  refine (compare (sp := sp) (mid := false) (m := SF.scratch c1 c2) h1 h2 (path_le_max _ _ _)
    hE (fun h => hS (.inl h)) (fun h => hS (.inr h))
    hopp ?_ ?_ _)
  · intro g1 g2 g3 g4
    exact le_shortcut (t := SF.hc_cc_rs.T)
      (r := { length := (irr c1).cc_turn_length c2.start, moves := [.cc (irr c1) c2.start true] }) (by
      unfold shortcut; exact (if_neg g1).trans ((if_neg g2).trans ((if_neg g3).trans (if_pos g4)))) (by norm_num)
  · intro g1 g2 g3 g4
    have hno : shortcut (irr c1) (irr c2) = none := by
      unfold shortcut; exact (if_neg g1).trans ((if_neg g2).trans ((if_neg g3).trans (if_neg g4)))
    refine ⟨fun hx => ?_, fun hx => ?_, fun hn hx => ?_, fun hx => ?_⟩
    · have hx' : TT_exists (SF.scratch c1 c2) (irr c1) (irr c2) := hx
      have := le_family (sp := sp) hno (i := SF.hc_cc_rs.TT) (by norm_num)
      rw [hm] at this
      unfold family at this
      simp only at this
      rw [if_pos hx'] at this
      exact this
    · have hx' : TiST_exists (SF.scratch c1 c2) (irr c1) (irr c2) := hx
      have := le_family (sp := sp) hno (i := SF.hc_cc_rs.TST) (by norm_num)
      rw [hm] at this
      unfold family TST_path at this
      simp only at this
      rw [if_pos hx'] at this
      exact this
    · have hx' : TeST_exists (SF.scratch c1 c2) (irr c1) (irr c2) := hx
      have hn' : ¬ TiST_exists (SF.scratch c1 c2) (irr c1) (irr c2) := hn
      have := le_family (sp := sp) hno (i := SF.hc_cc_rs.TST) (by norm_num)
      rw [hm] at this
      unfold family TST_path at this
      simp only at this
      rw [if_neg hn', if_pos hx'] at this
      exact this
    · have hx' : TTT_exists (SF.scratch c1 c2) (irr c1) (irr c2) := hx
      have := le_family (sp := sp) hno (i := SF.hc_cc_rs.TTT) (by norm_num)
      rw [hm] at this
      unfold family at this
      simp only at this
      rw [if_pos hx'] at this
      exact ⟨this.trans shorter_le.1, this.trans shorter_le.2⟩

end CcRs

/-! ### HC00-Reeds-Shepp -/

namespace HcRs

open SF.HcRs

variable {sp : SF.HCSpace} {c1 c2 : SF.Circle}

theorem path_le_max (pm1 pm2 : Bool) (sp : SF.HCSpace) (c1 c2 : SF.Circle) :
    (circles_rs_path pm1 pm2 sp c1 c2).length ≤ SF.dblMax := by
  have h0 := entry_le pm1 pm2 sp c1 c2 (i := 0) (by norm_num)
  have h1 := entry_le pm1 pm2 sp c1 c2 (i := 1) (by norm_num)
  unfold table at h0 h1
  rcases hs : shortcut pm1 pm2 sp (SF.scratch c1 c2) c1 c2 with _ | ⟨t, r⟩
  · rw [hs] at h0; exact h0
  · rw [hs] at h0 h1
    simp only at h0 h1
    by_cases ht : 0 = t
    · rw [if_neg (by omega)] at h1; exact h1
    · rw [if_neg ht] at h0; exact h0

theorem le_shortcut {t : ℕ} {r : SF.RSRow} (h : shortcut false false sp (SF.scratch c1 c2) c1 c2 = some (t, r)) (ht : t < 18) :
    (circles_rs_path false false sp c1 c2).length ≤ r.length := by
  have := entry_le false false sp c1 c2 ht
  unfold table at this
  rw [h] at this
  simpa using this

theorem le_family (h : shortcut false false sp (SF.scratch c1 c2) c1 c2 = none) {i : ℕ} (hi : i < 18) :
    (circles_rs_path false false sp c1 c2).length ≤ (family false false sp (SF.scratch c1 c2) c1 c2 i).length := by
  have := entry_le false false sp c1 c2 hi
  unfold table at this
  rw [h] at this
  exact this

theorem le_zero (h : SF.configuration_equal c1.start c2.start) : (circles_rs_path false false sp c1 c2).length ≤ 0 :=
  le_shortcut (t := SF.hc_cc_rs.E) (r := { length := 0 }) (by unfold shortcut; exact if_pos h) (by norm_num)

theorem le_straight (h : SF.configuration_aligned c1.start c2.start ∨ SF.configuration_aligned c2.start c1.start) :
    (circles_rs_path false false sp c1 c2).length ≤ SF.configuration_distance c1.start c2.start := by
  have hsym : SF.configuration_distance c2.start c1.start = SF.configuration_distance c1.start c2.start := by
    rw [configuration_distance_eq, configuration_distance_eq, norm_sub_rev]
  have hd : 0 ≤ SF.configuration_distance c1.start c2.start := sqrt_nonneg _
  by_cases g1 : SF.configuration_equal c1.start c2.start
  · exact (le_zero g1).trans hd
  by_cases g2 : SF.configuration_aligned c1.start c2.start
  · exact le_shortcut (t := SF.hc_cc_rs.S)
      (r := { length := SF.configuration_distance c1.start c2.start, moves := [.line c1.start c2.start] }) (by unfold shortcut; rw [if_neg g1]; exact if_pos g2) (by norm_num)
  · refine (le_shortcut (t := SF.hc_cc_rs.S)
      (r := { length := SF.configuration_distance c2.start c1.start, moves := [.line c1.start c2.start] }) (by
      unfold shortcut; rw [if_neg g1]; dsimp only; rw [if_neg g2]; exact if_pos (h.resolve_left g2)) (by norm_num)).trans_eq hsym

/-- The path of a pair of circles is not longer than the CC00-Dubins path. -/
theorem le_dubins (h1 : ∃ q l f, c1 = SF.circleAt q l f true sp.param) (h2 : ∃ q l f, c2 = SF.circleAt q l f true sp.param)
    (hopp : ¬ (if sp.forwards then SF.configuration_aligned c2.start c1.start
      else SF.configuration_aligned c1.start c2.start)) :
    (circles_rs_path false false sp c1 c2).length ≤ (SF.CC00.circles_dubins_path sp c1 c2).length := by
  have r1 : c1.regular = true := by obtain ⟨q, l, f, rfl⟩ := h1; rfl
  have r2 : c2.regular = true := by obtain ⟨q, l, f, rfl⟩ := h2; rfl
  have i1 : SF.circleAt c1.start c1.left c1.forward false sp.param = irr c1 := by obtain ⟨q, l, f, rfl⟩ := h1; rfl
  have i2 : SF.circleAt c2.start c2.left c2.forward false sp.param = irr c2 := by obtain ⟨q, l, f, rfl⟩ := h2; rfl
  have p1 : ∀ m, SF.CC00.TT_exists m (c1.reparam sp.param) c2 = SF.CC00.TT_exists m c1 c2 := by
    obtain ⟨q, l, f, rfl⟩ := h1; exact fun _ => rfl
  have p2 : ∀ c2, SF.CC00.TT_tangent_circles (c1.reparam sp.param) c2 = SF.CC00.TT_tangent_circles c1 c2 := by
    obtain ⟨q, l, f, rfl⟩ := h1; exact fun _ => rfl
  have p3 : ∀ m, SF.CC00.TiST_exists m (c1.reparam sp.param) c2 = SF.CC00.TiST_exists m c1 c2 := by
    obtain ⟨q, l, f, rfl⟩ := h1; exact fun _ => rfl
  have p4 : ∀ m, SF.CC00.TeST_exists m (c1.reparam sp.param) c2 = SF.CC00.TeST_exists m c1 c2 := by
    obtain ⟨q, l, f, rfl⟩ := h1; exact fun _ => rfl
  have p5 : SF.CC00.TiST_tangent_circles (c1.reparam sp.param) c2 = SF.CC00.TiST_tangent_circles c1 c2 := by
    obtain ⟨q, l, f, rfl⟩ := h1; rfl
  have p6 : SF.CC00.TeST_tangent_circles (c1.reparam sp.param) c2 = SF.CC00.TeST_tangent_circles c1 c2 := by
    obtain ⟨q, l, f, rfl⟩ := h1; rfl
  have p7 : ∀ m, SF.CC00.TTT_exists m (c1.reparam sp.param) c2 = SF.CC00.TTT_exists m c1 c2 := by
    obtain ⟨q, l, f, rfl⟩ := h1; exact fun _ => rfl
  refine (compare (sp := sp) (mid := true) (m := SF.scratch c1 c2) r1 r2 (path_le_max _ _ _ _ _)
    (fun h => le_zero h) (fun h => le_straight (.inl h)) (fun h => le_straight (.inr h))
    hopp ?_ ?_ _)
  · intro g1 g2 g3 g4
    rw [← i1]
    exact le_shortcut (t := SF.hc_cc_rs.T)
      (r := { length := (SF.circleAt c1.start c1.left c1.forward false sp.param).cc_turn_length c2.start,
              moves := [.cc (SF.circleAt c1.start c1.left c1.forward false sp.param) c2.start true] }) (by
      unfold shortcut; rw [if_neg g1]; dsimp only; rw [if_neg g2, if_neg g3]; exact if_pos g4) (by norm_num)
  · intro g1 g2 g3 g4
    have hno : shortcut false false sp (SF.scratch c1 c2) c1 c2 = none := by
      unfold shortcut; rw [if_neg g1]; dsimp only; rw [if_neg g2, if_neg g3]; exact if_neg g4
    have f1 : ∀ q, (firstT false sp.param c1 q).length = (irr c1).cc_turn_length q := by
      intro q; rw [← i1]; rfl
    have f2 : ∀ q, (lastT false sp.param c2 q).length = (irr c2).cc_turn_length q := by
      intro q; rw [← i2]; rfl
    refine ⟨fun hx => ?_, fun hx => ?_, fun hn hx => ?_, fun hx => ?_⟩
    · have := le_family (sp := sp) hno (i := SF.hc_cc_rs.TT) (by norm_num)
      unfold family TT_exists TT_path TT_tangent_circles at this
      simp only at this
      rw [if_pos (show SF.CC00.TT_exists (SF.scratch c1 c2) (c1.reparam sp.param) c2 by rw [p1]; exact hx)] at this
      simp only [p2, f1, f2] at this
      exact this
    · have := le_family (sp := sp) hno (i := SF.hc_cc_rs.TST) (by norm_num)
      unfold family TST_path TST_line TiST_exists TeST_exists TiST_tangent_circles TeST_tangent_circles at this
      simp only at this
      rw [if_pos (show SF.CC00.TiST_exists (SF.scratch c1 c2) (c1.reparam sp.param) c2 by rw [p3]; exact hx)] at this
      simp only [p5, f1, f2] at this
      exact this
    · have := le_family (sp := sp) hno (i := SF.hc_cc_rs.TST) (by norm_num)
      unfold family TST_path TST_line TiST_exists TeST_exists TiST_tangent_circles TeST_tangent_circles at this
      simp only at this
      rw [if_neg (show ¬ SF.CC00.TiST_exists (SF.scratch c1 c2) (c1.reparam sp.param) c2 by rw [p3]; exact hn),
        if_pos (show SF.CC00.TeST_exists (SF.scratch c1 c2) (c1.reparam sp.param) c2 by rw [p4]; exact hx)] at this
      simp only [p6, f1, f2] at this
      exact this
    · have := le_family (sp := sp) hno (i := SF.hc_cc_rs.TTT) (by norm_num)
      unfold family TTT_exists at this
      simp only at this
      rw [if_pos (show SF.CC00.TTT_exists (SF.scratch c1 c2) (c1.reparam sp.param) c2 by rw [p7]; exact hx)] at this
      have hr : c1.radius = sp.param.radius := by obtain ⟨q, l, f, rfl⟩ := h1; rfl
      have hs : ∀ dy, (TTT_side false false sp.param (SF.scratch c1 c2) c1 c2 (0.5 * (SF.scratch c1 c2).distance) dy).length
          = tttLength sp.param true (SF.scratch c1 c2) c1 c2 dy := by
        intro dy
        unfold TTT_side tttLength TT_tangent_circles
        simp only [p2, f1, f2, r1]
        rfl
      rw [hr, ← hs, ← hs]
      exact ⟨this.trans CcRs.shorter_le.1, this.trans CcRs.shorter_le.2⟩

end HcRs

/-! ### The planners -/

theorem aligned_iff (s1 s2 : SF.State) :
    SF.configuration_aligned (SF.configuration s1.x s1.y s1.theta 0) (SF.configuration s2.x s2.y s2.theta 0)
      ↔ StraightAhead s1 s2 := by
  have e : ∀ a, SF.twopify a = wrapped a := fun a => rfl
  unfold SF.configuration_aligned StraightAhead
  simp only [SF.configuration, e, SF.epsilon, SF.atan2]
  split_ifs with h
  · simp only [false_iff, not_and]
    intro h'; exact absurd h (not_lt.2 h')
  · exact ⟨fun g => ⟨not_lt.1 h, g⟩, fun g => g.2⟩

theorem against_iff (sp : SF.HCSpace) (s1 s2 : SF.State) :
    (if sp.forwards then SF.configuration_aligned (SF.configuration s2.x s2.y s2.theta 0) (SF.configuration s1.x s1.y s1.theta 0)
      else SF.configuration_aligned (SF.configuration s1.x s1.y s1.theta 0) (SF.configuration s2.x s2.y s2.theta 0))
      ↔ StraightAgainst sp s1 s2 := by
  unfold StraightAgainst
  split_ifs <;> exact aligned_iff _ _

/-- The pair of circles of a CC00-Dubins path among those of the Reeds-Shepp planners. -/
def pairOf (sp : SF.HCSpace) (k : ℕ) : ℕ := if sp.forwards then 4 * (k / 2) + (k % 2 + 2) else 4 * (k / 2 + 2) + k % 2

theorem dubins_path (sp : SF.HCSpace) (s1 s2 : SF.State) :
    ∃ k < 4, SF.CC00.get_distance sp s1 s2 = (SF.CC00.path sp s1 s2 k).length := by
  have h := C04_array_index_min (fun n => (SF.CC00.path sp s1 s2 n).length) 4 (by norm_num)
  exact ⟨_, h.1, rfl⟩

theorem pairOf_lt (sp : SF.HCSpace) {k : ℕ} (hk : k < 4) : pairOf sp k < 16 := by
  unfold pairOf; split_ifs <;> omega

theorem cc_rs_le (sp : SF.HCSpace) (s1 s2 : SF.State) (h : ¬ StraightAgainst sp s1 s2) :
    SF.CcRs.get_distance sp s1 s2 ≤ SF.CC00.get_distance sp s1 s2 := by
  rw [← against_iff] at h
  obtain ⟨k, hk, e⟩ := dubins_path sp s1 s2
  obtain ⟨n, _, hn, hmin⟩ := CcRs.best_spec sp s1 s2
  rw [e, SF.CcRs.get_distance, hn]
  refine (hmin _ (pairOf_lt sp hk)).trans ?_
  have key : SF.CcRs.path sp s1 s2 (pairOf sp k) = SF.CcRs.circles_rs_path sp
      (irr (SF.CC00.start_circle sp (SF.configuration s1.x s1.y s1.theta 0) (k / 2)))
      (irr (SF.CC00.end_circle sp (SF.configuration s2.x s2.y s2.theta 0) (k % 2))) := by
    have e : ∀ s i, SF.CcRs.end_circle sp s i = irr (SF.circleAt (SF.configuration s.x s.y s.theta 0) (i % 2 = 0) (i < 2) true
      sp.param) := fun _ _ => rfl
    unfold SF.CcRs.path SF.CC00.start_circle SF.CC00.end_circle pairOf
    rw [e, e]
    interval_cases k <;> cases sp.forwards <;> norm_num
  rw [key]
  exact CcRs.le_dubins rfl rfl h

theorem hc00_le (sp : SF.HCSpace) (s1 s2 : SF.State) (h : ¬ StraightAgainst sp s1 s2) :
    ∃ d, SF.HcRs.get_distance false false sp s1 s2 = some d ∧ d ≤ SF.CC00.get_distance sp s1 s2 := by
  rw [← against_iff] at h
  obtain ⟨k, hk, e⟩ := dubins_path sp s1 s2
  have hp : ∀ n, SF.HcRs.path false false sp s1 s2 n = some (SF.HcRs.circles_rs_path false false sp
      (SF.HcRs.end_circle false sp s1 (n / 4)) (SF.HcRs.end_circle false sp s2 (n % 4))) := by
    intro n
    unfold SF.HcRs.path
    rw [if_neg (by simp [SF.HcRs.skip])]
  have hm := C04_array_index_min (fun n => ((SF.HcRs.path false false sp s1 s2 n).map SF.HcRs.RSPath.length).getD SF.dblMax) 16
    (by norm_num)
  have hle := hm.2.1 _ (pairOf_lt sp hk)
  refine ⟨_, by rw [SF.HcRs.get_distance, SF.HcRs.reeds_shepp, hp]; rfl, ?_⟩
  rw [e]
  simp only [hp, Option.map_some, Option.getD_some] at hle ⊢
  refine hle.trans ?_
  have key : SF.HcRs.circles_rs_path false false sp (SF.HcRs.end_circle false sp s1 (pairOf sp k / 4))
        (SF.HcRs.end_circle false sp s2 (pairOf sp k % 4))
      = SF.HcRs.circles_rs_path false false sp
      (SF.CC00.start_circle sp (SF.configuration s1.x s1.y s1.theta 0) (k / 2))
      (SF.CC00.end_circle sp (SF.configuration s2.x s2.y s2.theta 0) (k % 2)) := by
    have e : ∀ s i, SF.HcRs.end_circle false sp s i = SF.circleAt (SF.configuration s.x s.y s.theta 0) (i % 2 = 0) (i < 2) true
      sp.param := fun _ _ => rfl
    unfold SF.CC00.start_circle SF.CC00.end_circle pairOf
    rw [e, e]
    interval_cases k <;> cases sp.forwards <;> norm_num
  rw [key]
  exact HcRs.le_dubins ⟨_, _, _, rfl⟩ ⟨_, _, _, rfl⟩ h

/-- Straight paths. -/
theorem cc_rs_straight (sp : SF.HCSpace) {s1 s2 : SF.State} (h : StraightAgainst sp s1 s2) :
    SF.CcRs.get_distance sp s1 s2 ≤ dist2 s1 s2 := by
  obtain ⟨n, _, hn, hmin⟩ := CcRs.best_spec sp s1 s2
  rw [SF.CcRs.get_distance, hn]
  refine (hmin 0 (by norm_num)).trans ?_
  refine CcRs.le_straight (c1 := SF.CcRs.end_circle sp s1 0) (c2 := SF.CcRs.end_circle sp s2 0) ?_
  unfold StraightAgainst at h
  split_ifs at h
  · exact .inr ((aligned_iff _ _).2 h)
  · exact .inl ((aligned_iff _ _).2 h)

theorem hc00_straight (sp : SF.HCSpace) {s1 s2 : SF.State} (h : StraightAgainst sp s1 s2) :
    ∃ d, SF.HcRs.get_distance false false sp s1 s2 = some d ∧ d ≤ dist2 s1 s2 := by
  have hp : ∀ n, SF.HcRs.path false false sp s1 s2 n = some (SF.HcRs.circles_rs_path false false sp
      (SF.HcRs.end_circle false sp s1 (n / 4)) (SF.HcRs.end_circle false sp s2 (n % 4))) := by
    intro n
    unfold SF.HcRs.path
    rw [if_neg (by simp [SF.HcRs.skip])]
  have hm := C04_array_index_min (fun n => ((SF.HcRs.path false false sp s1 s2 n).map SF.HcRs.RSPath.length).getD SF.dblMax) 16
    (by norm_num)
  have hle := hm.2.1 0 (by norm_num)
  refine ⟨_, by rw [SF.HcRs.get_distance, SF.HcRs.reeds_shepp, hp]; rfl, ?_⟩
  simp only [hp, Option.map_some, Option.getD_some] at hle ⊢
  refine hle.trans ?_
  refine HcRs.le_straight (c1 := SF.HcRs.end_circle false sp s1 0) (c2 := SF.HcRs.end_circle false sp s2 0) ?_
  unfold StraightAgainst at h
  split_ifs at h
  · exact .inr ((aligned_iff _ _).2 h)
  · exact .inl ((aligned_iff _ _).2 h)

end Spec
