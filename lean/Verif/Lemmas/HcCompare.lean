import Verif.Lemmas.CcCompare
import Verif.Lemmas.HcRsOptimalPlan
import Verif.Lemmas.HcRsOptimalFar
import Verif.Lemmas.PmLimits

/-!
# The HC-Reeds-Shepp planners with curvature at the ends against the CC-Dubins planners
-/

noncomputable section

namespace Spec

open Real Props

theorem irr_hc_circular {c : SF.Circle} (h : c.regular = true) (d : ℝ) :
    |(irr c).hc_circular_deflection d| ≤ |c.hc_circular_deflection d| := by
  obtain ⟨m, hm⟩ : ∃ m, m = SF.twopify c.delta_min := ⟨_, rfl⟩
  have e1 : (irr c).hc_circular_deflection d = if |d - m| < abs (if d < m then d - m + 2 * π else d - m - 2 * π) then d - m
      else (if d < m then d - m + 2 * π else d - m - 2 * π) := by rw [hm]; rfl
  have e2 : c.hc_circular_deflection d = if d < m then 2 * π + d - m else d - m := by
    unfold SF.Circle.hc_circular_deflection
    rw [h, hm]; rfl
  rw [e1, e2]
  by_cases hlt : d < m
  · rw [if_pos hlt, if_pos hlt]
    have e : 2 * π + d - m = d - m + 2 * π := by ring
    rw [e]
    split_ifs with h1
    · exact h1.le
    · exact le_rfl
  · rw [if_neg hlt, if_neg hlt]
    split_ifs with h1
    · exact le_rfl
    · exact not_lt.1 h1

/-- A turn from or to the maximum curvature with the option to go backwards is not longer. -/
theorem irr_hc_turn {c : SF.Circle} (h : c.regular = true) (q : SF.Configuration) :
    (irr c).hc_turn_length q ≤ c.hc_turn_length q := by
  have hc := irr_hc_circular h (c.deflection q)
  have e : (irr c).hc_turn_length q = |c.kappa / c.sigma| + |c.kappa_inv * (irr c).hc_circular_deflection (c.deflection q)| := rfl
  rw [e]
  unfold SF.Circle.hc_turn_length
  simp only [abs_mul]
  have := mul_le_mul_of_nonneg_left hc (abs_nonneg c.kappa_inv)
  linarith

/-- The circle of a turn with the option to go backwards. -/
theorem free_cc (q q' : SF.Configuration) (l f b : Bool) (P : SF.CircleParam) :
    (SF.circleAt q l f b P).cc_turn_length q' ≤ (SF.circleAt q l f true P).cc_turn_length q' := by
  cases b
  · exact irr_turn (c := SF.circleAt q l f true P) rfl q'
  · exact le_rfl

theorem free_hc (q q' : SF.Configuration) (l f b : Bool) (P : SF.CircleParam) :
    (SF.circleAt q l f b P).hc_turn_length q' ≤ (SF.circleAt q l f true P).hc_turn_length q' := by
  cases b
  · exact irr_hc_turn (c := SF.circleAt q l f true P) rfl q'
  · exact le_rfl

namespace HcRs

open SF.HcRs

variable {pm1 pm2 : Bool} {sp : SF.HCSpace} {c1 c2 : SF.Circle}

/-- Length of the first turn of a CC-Dubins path. -/
def firstLen (pm1 : Bool) (P : SF.CircleParam) (c1 : SF.Circle) (q : SF.Configuration) : ℝ :=
  if pm1 then (SF.circleAt q c1.left (!c1.forward) true P).hc_turn_length
    (SF.configuration c1.start.x c1.start.y c1.start.theta c1.kappa)
  else (SF.circleAt c1.start c1.left c1.forward true P).cc_turn_length q

theorem first_le (q : SF.Configuration) : (firstT pm1 sp.param c1 q).length ≤ firstLen pm1 sp.param c1 q := by
  cases pm1
  · exact free_cc _ _ _ _ _ _
  · exact free_hc _ _ _ _ _ _

theorem last_le (q : SF.Configuration) : (lastT pm2 sp.param c2 q).length ≤ firstLen pm2 sp.param c2 q := by
  cases pm2
  · exact free_cc _ _ _ _ _ _
  · exact free_hc _ _ _ _ _ _

/-- Length of one of the `TTT` connections of a CC-Dubins path. -/
def threeLen (pm1 pm2 : Bool) (P : SF.CircleParam) (m : SF.Scratch) (c1 c2 : SF.Circle) (dy : ℝ) : ℝ :=
  let p := SF.global_frame_change c1.xc c1.yc m.angle (0.5 * m.distance) dy
  let tgt := SF.circleCentered p.1 p.2 (!c1.left) c1.forward c1.regular P
  let qa := TT_tangent_circles P c1 tgt
  let qb := TT_tangent_circles P tgt c2
  firstLen pm1 P c1 qa + (SF.circleAt qa (!c1.left) c1.forward true P).cc_turn_length qb + firstLen pm2 P c2 qb

theorem three_le (m : SF.Scratch) (dy : ℝ) :
    (TTT_side pm1 pm2 sp.param m c1 c2 (0.5 * m.distance) dy).length ≤ threeLen pm1 pm2 sp.param m c1 c2 dy :=
  add_le_add (add_le_add (first_le _) (free_cc _ _ _ _ _ _)) (last_le _)

/-- The path of a pair of circles is not longer than the Dubins families of the pair. -/
theorem le_rows (hno : shortcut pm1 pm2 sp (SF.scratch c1 c2) c1 c2 = none) :
    (TT_exists sp.param (SF.scratch c1 c2) c1 c2 → (circles_rs_path pm1 pm2 sp c1 c2).length ≤
      firstLen pm1 sp.param c1 (TT_tangent_circles sp.param c1 c2)
        + firstLen pm2 sp.param c2 (TT_tangent_circles sp.param c1 c2)) ∧
    (TiST_exists sp.param (SF.scratch c1 c2) c1 c2 → (circles_rs_path pm1 pm2 sp c1 c2).length ≤
      firstLen pm1 sp.param c1 (TiST_tangent_circles sp.param c1 c2).1
        + SF.configuration_distance (TiST_tangent_circles sp.param c1 c2).1 (TiST_tangent_circles sp.param c1 c2).2
        + firstLen pm2 sp.param c2 (TiST_tangent_circles sp.param c1 c2).2) ∧
    (¬ TiST_exists sp.param (SF.scratch c1 c2) c1 c2 → TeST_exists sp.param (SF.scratch c1 c2) c1 c2 →
      (circles_rs_path pm1 pm2 sp c1 c2).length ≤
      firstLen pm1 sp.param c1 (TeST_tangent_circles sp.param c1 c2).1
        + SF.configuration_distance (TeST_tangent_circles sp.param c1 c2).1 (TeST_tangent_circles sp.param c1 c2).2
        + firstLen pm2 sp.param c2 (TeST_tangent_circles sp.param c1 c2).2) ∧
    (TTT_exists sp.param (SF.scratch c1 c2) c1 c2 → (circles_rs_path pm1 pm2 sp c1 c2).length ≤
      threeLen pm1 pm2 sp.param (SF.scratch c1 c2) c1 c2 (√((2 * sp.param.radius) ^ 2 - (0.5 * (SF.scratch c1 c2).distance) ^ 2)) ∧
      (circles_rs_path pm1 pm2 sp c1 c2).length ≤
      threeLen pm1 pm2 sp.param (SF.scratch c1 c2) c1 c2
        (-√((2 * sp.param.radius) ^ 2 - (0.5 * (SF.scratch c1 c2).distance) ^ 2))) := by
  have key : ∀ {i}, i < 18 → (circles_rs_path pm1 pm2 sp c1 c2).length ≤ (family pm1 pm2 sp (SF.scratch c1 c2) c1 c2 i).length := by
    intro i hi
    have := entry_le pm1 pm2 sp c1 c2 hi
    unfold table at this
    rw [hno] at this
    exact this
  refine ⟨fun hx => ?_, fun hx => ?_, fun hn hx => ?_, fun hx => ?_⟩
  · have := key (i := SF.hc_cc_rs.TT) (by norm_num)
    unfold family at this
    simp only at this
    rw [if_pos hx] at this
    exact this.trans (add_le_add (first_le _) (last_le _))
  · have := key (i := SF.hc_cc_rs.TST) (by norm_num)
    unfold family TST_path at this
    simp only at this
    rw [if_pos hx] at this
    exact this.trans (add_le_add (add_le_add (first_le _) le_rfl) (last_le _))
  · have := key (i := SF.hc_cc_rs.TST) (by norm_num)
    unfold family TST_path at this
    simp only at this
    rw [if_neg hn, if_pos hx] at this
    exact this.trans (add_le_add (add_le_add (first_le _) le_rfl) (last_le _))
  · have := key (i := SF.hc_cc_rs.TTT) (by norm_num)
    unfold family at this
    simp only at this
    rw [if_pos hx] at this
    exact ⟨(this.trans CcRs.shorter_le.1).trans (three_le _ _), (this.trans CcRs.shorter_le.2).trans (three_le _ _)⟩

theorem le_short {t : ℕ} {r : SF.RSRow} (h : shortcut pm1 pm2 sp (SF.scratch c1 c2) c1 c2 = some (t, r)) (ht : t < 18) :
    (circles_rs_path pm1 pm2 sp c1 c2).length ≤ r.length := by
  have := entry_le pm1 pm2 sp c1 c2 ht
  unfold table at this
  rw [h] at this
  simpa using this

theorem set_le {R : ℝ} {t : SF.Table} {j : ℕ} {r : SF.Row} (ht : ∀ j, R ≤ (t j).length) (hr : R ≤ r.length) (i : ℕ) :
    R ≤ (t.set j r i).length := by
  unfold SF.Table.set
  split_ifs
  · exact hr
  · exact ht i

open Classical in
theorem set_if_le {R : ℝ} {t : SF.Table} {j : ℕ} {r : SF.Row} {p : Prop} (ht : ∀ j, R ≤ (t j).length) (hr : p → R ≤ r.length)
    (i : ℕ) : R ≤ ((if p then t.set j r else t) i).length := by
  split_ifs with h
  · exact set_le ht (hr h) i
  · exact ht i

open Classical in
theorem set_if_ne {R : ℝ} {t : SF.Table} {i j : ℕ} {r : SF.Row} {p : Prop} (hi : i ≠ j) (ht : ∀ j, R ≤ (t j).length) :
    R ≤ ((if p then t.set j r else t) i).length := by
  split_ifs
  · unfold SF.Table.set; rw [if_neg hi]; exact ht i
  · exact ht i

section
variable {x : SF.CircleParam}

/-- Parameters up to the sides of curvature and sharpness. -/
def SameParam (x P : SF.CircleParam) : Prop := ∃ q l f, x = (SF.circleAt q l f true P).toCircleParam

theorem SameParam.tt {P} (h : SameParam x P) (c1 c2 : SF.Circle) :
    SF.CC00.TT_tangent_circles (c1.reparam x) c2 = SF.CC00.TT_tangent_circles (c1.reparam P) c2 := by
  obtain ⟨q, l, f, rfl⟩ := h; rfl

theorem SameParam.tt_exists {P} (h : SameParam x P) (m : SF.Scratch) (c1 c2 : SF.Circle) :
    SF.CC00.TT_exists m (c1.reparam x) c2 = SF.CC00.TT_exists m (c1.reparam P) c2 := by
  obtain ⟨q, l, f, rfl⟩ := h; rfl

theorem SameParam.ttt_exists {P} (h : SameParam x P) (m : SF.Scratch) (c1 c2 : SF.Circle) :
    SF.CC00.TTT_exists m (c1.reparam x) c2 = SF.CC00.TTT_exists m (c1.reparam P) c2 := by
  obtain ⟨q, l, f, rfl⟩ := h; rfl

theorem SameParam.ti_exists {P} (h : SameParam x P) (m : SF.Scratch) (c1 c2 : SF.Circle) :
    SF.CC00.TiST_exists m (c1.reparam x) c2 = SF.CC00.TiST_exists m (c1.reparam P) c2 := by
  obtain ⟨q, l, f, rfl⟩ := h; rfl

theorem SameParam.te_exists {P} (h : SameParam x P) (m : SF.Scratch) (c1 c2 : SF.Circle) :
    SF.CC00.TeST_exists m (c1.reparam x) c2 = SF.CC00.TeST_exists m (c1.reparam P) c2 := by
  obtain ⟨q, l, f, rfl⟩ := h; rfl

theorem SameParam.ti {P} (h : SameParam x P) (c1 c2 : SF.Circle) :
    SF.CC00.TiST_tangent_circles (c1.reparam x) c2 = SF.CC00.TiST_tangent_circles (c1.reparam P) c2 := by
  obtain ⟨q, l, f, rfl⟩ := h; rfl

theorem SameParam.te {P} (h : SameParam x P) (c1 c2 : SF.Circle) :
    SF.CC00.TeST_tangent_circles (c1.reparam x) c2 = SF.CC00.TeST_tangent_circles (c1.reparam P) c2 := by
  obtain ⟨q, l, f, rfl⟩ := h; rfl

theorem SameParam.radius {P} (h : SameParam x P) : x.radius = P.radius := by
  obtain ⟨q, l, f, rfl⟩ := h; rfl

end

/-- HC0pm against CC0pm for a pair of circles. -/
theorem le_0pm (hp : SameParam c1.toCircleParam sp.param) :
    (circles_rs_path false true sp c1 c2).length ≤ (SF.CC0pm.circles_dubins_path sp c1 c2).length := by
  have hinit : ∀ j, (circles_rs_path false true sp c1 c2).length ≤ (SF.Table.init j).length := fun _ => path_le_max _ _ _ _ _
  suffices h : ∀ i, (circles_rs_path false true sp c1 c2).length ≤ (SF.CC0pm.table sp (SF.scratch c1 c2) c1 c2 i).length from h _
  intro i
  unfold SF.CC0pm.table
  by_cases g1 : SF.configuration_equal c1.start c2.start
  · rw [if_pos g1]
    exact set_le hinit (le_short (t := SF.hc_cc_rs.E) (r := { length := 0 }) (by unfold shortcut; exact if_pos g1) (by norm_num)) i
  rw [if_neg g1]
  by_cases g2 : (SF.scratch c1 c2).distance < SF.epsilon
  · rw [if_pos g2]
    refine set_le hinit ?_ i
    refine (le_short (t := SF.hc_cc_rs.T) (r := ⟨_, _⟩) (by unfold shortcut; rw [if_neg g1]; exact if_pos g2) (by norm_num)).trans ?_
    exact free_hc _ _ _ _ _ _
  rw [if_neg g2]
  have hno : shortcut false true sp (SF.scratch c1 c2) c1 c2 = none := by
    unfold shortcut; rw [if_neg g1]; exact if_neg g2
  obtain ⟨k1, k2, k3, k4⟩ := le_rows hno
  unfold TT_exists TT_tangent_circles at k1
  unfold TiST_exists TiST_tangent_circles at k2
  unfold TiST_exists TeST_exists TeST_tangent_circles at k3
  unfold TTT_exists threeLen TT_tangent_circles at k4
  have hrad : c1.radius = sp.param.radius := hp.radius
  have hr : c1.reparam c1.toCircleParam = c1 := rfl
  simp only [← hp.tt_exists, ← hp.ttt_exists, ← hp.ti_exists, ← hp.te_exists, ← hp.ti, ← hp.te, hr] at k1 k2 k3 k4
  rw [← hp.tt, hr] at k1
  simp only [← hp.tt c1, hr] at k4
  refine set_if_le (set_if_le (set_if_le hinit ?_) ?_) ?_ i
  · exact k1
  · intro hx
    unfold SF.CC0pm.TST_path
    by_cases hi : SF.CC0pm.TiST_exists (SF.scratch c1 c2) c1 c2
    · rw [if_pos hi]; exact k2 hi
    · rw [if_neg hi, if_pos (hx.resolve_left hi)]; exact k3 hi (hx.resolve_left hi)
  · intro hx
    obtain ⟨a, b⟩ := k4 hx
    rw [← hrad] at a b
    unfold SF.CC0pm.TTT_path SF.CC0pm.TTT_tangent_circles SF.CC00.TTT_tangent_circles
    simp only
    split_ifs
    · exact a
    · exact b

/-- HCpm0 against CCpm0 for a pair of circles. -/
theorem le_pm0 (hp : SameParam c2.toCircleParam sp.param) :
    (circles_rs_path true false sp c1 c2).length ≤ (SF.CCpm0.circles_dubins_path sp c1 c2).length := by
  have hinit : ∀ j, (circles_rs_path true false sp c1 c2).length ≤ (SF.Table.init j).length := fun _ => path_le_max _ _ _ _ _
  suffices h : ∀ i, (circles_rs_path true false sp c1 c2).length ≤ (SF.CCpm0.table sp (SF.scratch c1 c2) c1 c2 i).length from h _
  intro i
  unfold SF.CCpm0.table
  by_cases g1 : SF.configuration_equal c1.start c2.start
  · rw [if_pos g1]
    exact set_le hinit (le_short (t := SF.hc_cc_rs.E) (r := { length := 0 }) (by unfold shortcut; exact if_pos g1) (by norm_num)) i
  rw [if_neg g1]
  by_cases g2 : (SF.scratch c1 c2).distance < SF.epsilon
  · rw [if_pos g2]
    refine set_le hinit ?_ i
    refine (le_short (t := SF.hc_cc_rs.T) (r := ⟨_, _⟩) (by unfold shortcut; rw [if_neg g1]; exact if_pos g2) (by norm_num)).trans ?_
    exact free_hc _ _ _ _ _ _
  rw [if_neg g2]
  have hno : shortcut true false sp (SF.scratch c1 c2) c1 c2 = none := by
    unfold shortcut; rw [if_neg g1]; exact if_neg g2
  obtain ⟨k1, k2, k3, k4⟩ := le_rows hno
  unfold TT_exists TT_tangent_circles at k1
  unfold TiST_exists TiST_tangent_circles at k2
  unfold TiST_exists TeST_exists TeST_tangent_circles at k3
  unfold TTT_exists threeLen TT_tangent_circles at k4
  refine set_if_le (set_if_le (set_if_le hinit ?_) ?_) ?_ i
  · intro hx
    unfold SF.CCpm0.TT_exists at hx
    unfold SF.CCpm0.TT_path SF.CCpm0.TT_tangent_circles
    rw [hp.tt_exists] at hx
    rw [hp.tt]
    have hlf : (!c2.left) = c1.left ∧ c2.forward = !c1.forward := by
      have hx' := hx
      have e1 : (c1.reparam sp.param).left = c1.left := rfl
      have e2 : (c1.reparam sp.param).forward = c1.forward := rfl
      unfold SF.CC00.TT_exists at hx'
      rw [e1, e2] at hx'
      revert hx'
      cases c1.left <;> cases c2.left <;> cases c1.forward <;> cases c2.forward <;> simp
    obtain ⟨hl, hf⟩ := hlf
    simp only
    rw [hl, hf]
    exact k1 hx
  · intro hx
    unfold SF.CCpm0.TST_exists at hx
    unfold SF.CCpm0.TST_path
    unfold SF.CCpm0.TiST_exists SF.CCpm0.TeST_exists SF.CCpm0.TiST_tangent_circles SF.CCpm0.TeST_tangent_circles at *
    rw [hp.ti_exists, hp.te_exists] at hx ⊢
    rw [hp.ti, hp.te]
    by_cases hi : SF.CC00.TiST_exists (SF.scratch c1 c2) (c1.reparam sp.param) c2
    · rw [if_pos hi]; exact k2 hi
    · rw [if_neg hi, if_pos (hx.resolve_left hi)]; exact k3 hi (hx.resolve_left hi)
  · intro hx
    unfold SF.CCpm0.TTT_exists at hx
    rw [hp.ttt_exists] at hx
    obtain ⟨a, b⟩ := k4 hx
    have hrad : c2.radius = sp.param.radius := hp.radius
    unfold SF.CCpm0.TTT_path SF.CCpm0.TTT_tangent_circles SF.CCpm0.TT_tangent_circles
    simp only [hrad, hp.tt]
    split_ifs
    · exact a
    · exact b

/-- HCpmpm against CCpmpm for a pair of circles, unless the latter path has four turns. -/
theorem le_pmpm (h4 : (SF.CCpmpm.circles_dubins_path sp c1 c2).type ≠ SF.cc_dubins.TTTT) :
    (circles_rs_path true true sp c1 c2).length ≤ (SF.CCpmpm.circles_dubins_path sp c1 c2).length := by
  have hinit : ∀ j, (circles_rs_path true true sp c1 c2).length ≤ (SF.Table.init j).length := fun _ => path_le_max _ _ _ _ _
  suffices h : ∀ i, i ≠ SF.cc_dubins.TTTT →
      (circles_rs_path true true sp c1 c2).length ≤ (SF.CCpmpm.table sp (SF.scratch c1 c2) c1 c2 i).length from h _ h4
  intro i hi
  unfold SF.CCpmpm.table
  by_cases g1 : SF.configuration_equal c1.start c2.start
  · rw [if_pos g1]
    exact set_le hinit (le_short (t := SF.hc_cc_rs.E) (r := { length := 0 }) (by unfold shortcut; exact if_pos g1) (by norm_num)) i
  rw [if_neg g1]
  by_cases g2 : SF.configuration_on_hc_cc_circle c1 c2.start
  · rw [if_pos g2]
    refine set_le hinit ?_ i
    exact le_short (t := SF.hc_cc_rs.T) (r := ⟨_, _⟩) (by unfold shortcut; rw [if_neg g1]; exact if_pos g2) (by norm_num)
  rw [if_neg g2]
  have hno : shortcut true true sp (SF.scratch c1 c2) c1 c2 = none := by
    unfold shortcut; rw [if_neg g1]; exact if_neg g2
  obtain ⟨k1, k2, k3, k4⟩ := le_rows hno
  refine set_if_ne hi (set_if_le (set_if_le (set_if_le hinit ?_) ?_) ?_)
  · exact k1
  · intro hx
    unfold SF.CCpmpm.TST_path
    by_cases hi : SF.CCpmpm.TiST_exists sp.param (SF.scratch c1 c2) c1 c2
    · rw [if_pos hi]; exact k2 hi
    · rw [if_neg hi, if_pos (hx.resolve_left hi)]; exact k3 hi (hx.resolve_left hi)
  · intro hx
    obtain ⟨a, b⟩ := k4 hx
    unfold SF.CCpmpm.TTT_path SF.CCpmpm.TTT_tangent_circles
    simp only
    split_ifs
    · exact a
    · exact b

/-- A path of four turns needs circles that are close to each other. -/
theorem four_exists (hlt : (SF.CCpmpm.circles_dubins_path sp c1 c2).length < SF.dblMax)
    (h4 : (SF.CCpmpm.circles_dubins_path sp c1 c2).type = SF.cc_dubins.TTTT) :
    SF.CCpmpm.TTTT_exists sp.param (SF.scratch c1 c2) c1 c2 := by
  by_contra hno
  have key : (SF.CCpmpm.table sp (SF.scratch c1 c2) c1 c2 SF.cc_dubins.TTTT).length = SF.dblMax := by
    unfold SF.CCpmpm.table
    rw [if_neg hno]
    split_ifs <;> rfl
  have e : (SF.CCpmpm.circles_dubins_path sp c1 c2).length
      = (SF.CCpmpm.table sp (SF.scratch c1 c2) c1 c2 (SF.CCpmpm.circles_dubins_path sp c1 c2).type).length := rfl
  rw [e, h4, key] at hlt
  exact lt_irrefl _ hlt

end HcRs

/-! ### The planners -/

open CcRsOpt (idx)

theorem idx_circle (pm : Bool) (sp : SF.HCSpace) (s : SF.State) (f l : Bool) : SF.HcRs.end_circle pm sp s (idx f l)
    = SF.circleAt (SF.configuration s.x s.y s.theta (if pm then (if l then sp.kappa else -sp.kappa) else 0)) l f true
      (if pm then sp.rs_param else sp.param) := by
  cases f <;> cases l <;> simp [idx, SF.HcRs.end_circle]

theorem curved_circle (sp : SF.HCSpace) (s : SF.State) (f : Bool) {i : ℕ} (hi : i < 2) :
    SF.circleAt (if i = 0 then SF.configuration s.x s.y s.theta sp.kappa else SF.configuration s.x s.y s.theta (-sp.kappa))
      (i = 0) f true sp.rs_param = SF.HcRs.end_circle true sp s (idx f (i = 0)) := by
  rw [idx_circle]
  interval_cases i <;> rfl

theorem zero_circle (sp : SF.HCSpace) (s : SF.State) (f : Bool) (i : ℕ) :
    SF.circleAt (SF.configuration s.x s.y s.theta 0) (i = 0) f true sp.param = SF.HcRs.end_circle false sp s (idx f (i = 0)) := by
  rw [idx_circle]; rfl

variable {sp : SF.HCSpace} {s1 s2 : SF.State} {d : ℝ}

theorem hc0pm_le (hd : SF.CC0pm.get_distance sp s1 s2 = some d) (hfin : d < SF.dblMax) :
    ∃ y, SF.HcRs.get_distance false true sp s1 s2 = some y ∧ y ≤ d := by
  obtain ⟨p, hp, rfl⟩ := Option.map_eq_some_iff.1 hd
  obtain ⟨n, hn, hpn⟩ := best_of_some hp
  obtain ⟨ht, e⟩ := CC0pm.path_some.1 hpn
  have h1 : SF.CC0pm.start_circle sp (CC00.startOf s1) (n / 2) = SF.HcRs.end_circle false sp s1 (idx sp.forwards (n / 2 = 0)) :=
    zero_circle _ _ _ _
  have h2 : SF.CC0pm.end_circle sp s2 (n % 2) = SF.HcRs.end_circle true sp s2 (idx (!sp.forwards) (n % 2 = 0)) :=
    curved_circle _ _ _ (by omega)
  rw [h1, h2] at e
  subst e
  exact HcOpt.best_le (by simp) (fun _ => ht) (HcRs.le_0pm ⟨_, _, _, rfl⟩) hfin

theorem hcpm0_le (hd : SF.CCpm0.get_distance sp s1 s2 = some d) (hfin : d < SF.dblMax) :
    ∃ y, SF.HcRs.get_distance true false sp s1 s2 = some y ∧ y ≤ d := by
  obtain ⟨p, hp, rfl⟩ := Option.map_eq_some_iff.1 hd
  obtain ⟨n, hn, hpn⟩ := best_of_some hp
  obtain ⟨ht, e⟩ := (CCpm0.path_some hn).1 hpn
  have h1 : SF.CCpm0.start_circle sp s1 (n / 2) = SF.HcRs.end_circle true sp s1 (idx sp.forwards (n / 2 = 0)) :=
    curved_circle _ _ _ (by omega)
  have h2 : SF.CCpm0.end_circle sp (CC00.startOf s2) (n % 2) = SF.HcRs.end_circle false sp s2 (idx (!sp.forwards) (n % 2 = 0)) :=
    zero_circle _ _ _ _
  rw [h1, h2] at e
  subst e
  exact HcOpt.best_le (fun _ => ht) (by simp) (HcRs.le_pm0 ⟨_, _, _, rfl⟩) hfin

theorem hcpmpm_le {p : SF.CCPath} (hp : SF.CCpmpm.ccpmpm_dubins sp s1 s2 = some p) (hfin : p.length < SF.dblMax)
    (h4 : p.type ≠ SF.cc_dubins.TTTT) : ∃ y, SF.HcRs.get_distance true true sp s1 s2 = some y ∧ y ≤ p.length := by
  obtain ⟨n, hn, hpn⟩ := best_of_some hp
  obtain ⟨ht1, ht2, e⟩ := (CCpmpm.path_some hn).1 hpn
  have h1 : SF.CCpmpm.start_circle sp s1 (n / 2) = SF.HcRs.end_circle true sp s1 (idx sp.forwards (n / 2 = 0)) :=
    curved_circle _ _ _ (by omega)
  have h2 : SF.CCpmpm.end_circle sp s2 (n % 2) = SF.HcRs.end_circle true sp s2 (idx (!sp.forwards) (n % 2 = 0)) :=
    curved_circle _ _ _ (by omega)
  rw [h1, h2] at e
  subst e
  exact HcOpt.best_le (fun _ => ht1) (fun _ => ht2) (HcRs.le_pmpm h4) hfin

/-- Far states are not joined by four turns. -/
theorem four_near (H : Rng sp.kappa sp.sigma) {p : SF.CCPath} (hp : SF.CCpmpm.ccpmpm_dubins sp s1 s2 = some p)
    (hfin : p.length < SF.dblMax) (h4 : p.type = SF.cc_dubins.TTTT) :
    dist2 s1 s2 ≤ 8 * radiusBound sp.kappa sp.sigma := by
  obtain ⟨n, hn, hpn⟩ := best_of_some hp
  obtain ⟨ht1, ht2, e⟩ := (CCpmpm.path_some hn).1 hpn
  have h1 : SF.CCpmpm.start_circle sp s1 (n / 2) = SF.HcRs.end_circle true sp s1 (idx sp.forwards (n / 2 = 0)) :=
    curved_circle _ _ _ (by omega)
  have h2 : SF.CCpmpm.end_circle sp s2 (n % 2) = SF.HcRs.end_circle true sp s2 (idx (!sp.forwards) (n % 2 = 0)) :=
    curved_circle _ _ _ (by omega)
  rw [h1, h2] at e
  subst e
  have hx := HcRs.four_exists hfin h4
  unfold SF.CCpmpm.TTTT_exists at hx
  split_ifs at hx
  have hR : sp.param.radius ≤ radiusBound sp.kappa sp.sigma := by
    have := radius_le H.kappa H.sigma H.clothoid
    rwa [← (hc_param_ok H.kappa H.sigma H.clothoid).radius] at this
  have r1 := (HcOpt.end_radius H (HcRs.end_ok H true s1 (idx sp.forwards (n / 2 = 0)))).2
  have r2 := (HcOpt.end_radius H (HcRs.end_ok H true s2 (idx (!sp.forwards) (n % 2 = 0)))).2
  have hc : (SF.scratch (SF.HcRs.end_circle true sp s1 (idx sp.forwards (n / 2 = 0)))
      (SF.HcRs.end_circle true sp s2 (idx (!sp.forwards) (n % 2 = 0)))).distance = SF.center_distance _ _ := rfl
  rw [hc, center_distance_eq] at hx
  have hd : dist2 s1 s2 = ‖(cfg (SF.HcRs.end_circle true sp s2 (idx (!sp.forwards) (n % 2 = 0))).start).pos
      - (cfg (SF.HcRs.end_circle true sp s1 (idx sp.forwards (n / 2 = 0))).start).pos‖ := by
    rw [dist2, sqrt_eq_norm]; rfl
  rw [hd]
  unfold radiusBound at *
  generalize (cfg (SF.HcRs.end_circle true sp s2 (idx (!sp.forwards) (n % 2 = 0))).start).pos = a at *
  generalize (cfg (SF.HcRs.end_circle true sp s1 (idx sp.forwards (n / 2 = 0))).start).pos = b at *
  generalize center (SF.HcRs.end_circle true sp s2 (idx (!sp.forwards) (n % 2 = 0))) = A at *
  generalize center (SF.HcRs.end_circle true sp s1 (idx sp.forwards (n / 2 = 0))) = B at *
  have := norm_add₃_le (a := a - A) (b := A - B) (c := B - b)
  rw [show a - A + (A - B) + (B - b) = a - b by ring, norm_sub_rev a A] at this
  linarith

end Spec
