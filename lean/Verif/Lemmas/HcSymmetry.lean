import Verif.Lemmas.HcReverse
import Verif.Lemmas.HcPlan
import Verif.Lemmas.HcAll
import Verif.Lemmas.MotionPlan

/-!
# The reversed problem: hybrid-curvature planners
-/

noncomputable section

namespace Spec.Rev

open Real Props

/-- The smallest entry does not depend on the order of the table. -/
theorem min_perm {a b : ℕ → ℝ} {n : ℕ} (hn : 1 ≤ n) {e : ℕ → ℕ} (he : ∀ i < n, e i < n) (hee : ∀ i < n, e (e i) = i)
    (hab : ∀ i < n, b (e i) = a i) : b (SF.array_index_min b n) = a (SF.array_index_min a n) := by
  obtain ⟨ha1, ha2, -⟩ := C04_array_index_min a n hn
  obtain ⟨hb1, hb2, -⟩ := C04_array_index_min b n hn
  refine le_antisymm ?_ ?_
  · rw [← hab _ ha1]; exact hb2 _ (he _ ha1)
  · have := hab _ (he _ hb1)
    rw [hee _ hb1] at this
    rw [this]; exact ha2 _ (he _ hb1)

theorem equal_comm (q1 q2 : SF.Configuration) : SF.configuration_equal q2 q1 ↔ SF.configuration_equal q1 q2 := by
  unfold SF.configuration_equal
  rw [abs_sub_comm, dist_comm]

variable {pm1 pm2 : Bool} {sp : SF.HCSpace} {c1 c2 : SF.Circle} {s1 s2 : SF.State}

/-- How the first cases of the two problems correspond. -/
inductive Shortcuts (pm1 pm2 : Bool) (sp : SF.HCSpace) (c1 c2 : SF.Circle) : Prop
  | same (t : ℕ) (r r' : SF.RSRow) (h : SF.HcRs.shortcut pm1 pm2 sp (SF.scratch c1 c2) c1 c2 = some (t, r))
      (h' : SF.HcRs.shortcut pm2 pm1 sp (SF.scratch c2 c1) c2 c1 = some (t, r')) (hl : r'.length = r.length)
  | none (h : SF.HcRs.shortcut pm1 pm2 sp (SF.scratch c1 c2) c1 c2 = none)
      (h' : SF.HcRs.shortcut pm2 pm1 sp (SF.scratch c2 c1) c2 c1 = none)
      (hp : HcPair sp.param (SF.scratch c1 c2) (SF.scratch c2 c1) c1 c2)

theorem revFamily_lt : ∀ i < 18, revFamily i < 18 := by decide

theorem revFamily_rev : ∀ i < 18, revFamily (revFamily i) = i := by decide

theorem Shortcuts.length (h : Shortcuts pm1 pm2 sp c1 c2) :
    (SF.HcRs.circles_rs_path pm2 pm1 sp c2 c1).length = (SF.HcRs.circles_rs_path pm1 pm2 sp c1 c2).length := by
  unfold SF.HcRs.circles_rs_path SF.HcRs.RSPath.length
  dsimp only
  rcases h with ⟨t, r, r', h, h', hl⟩ | ⟨h, h', hp⟩
  · have e : ∀ i, (SF.HcRs.table pm2 pm1 sp (SF.scratch c2 c1) c2 c1 i).length = (SF.HcRs.table pm1 pm2 sp (SF.scratch c1 c2) c1 c2 i).length := by
      intro i
      unfold SF.HcRs.table
      rw [h, h']
      dsimp only
      by_cases g : i = t
      · rw [if_pos g, if_pos g, hl]
      · rw [if_neg g, if_neg g]
    rw [e, funext e]
  · refine min_perm (a := fun i => (SF.HcRs.table pm1 pm2 sp (SF.scratch c1 c2) c1 c2 i).length)
      (b := fun i => (SF.HcRs.table pm2 pm1 sp (SF.scratch c2 c1) c2 c1 i).length) (by decide) revFamily_lt revFamily_rev fun i _ => ?_
    unfold SF.HcRs.table
    rw [h, h']
    exact hp.family i

/-! ### The planners -/

variable (H : Rng sp.kappa sp.sigma)

include H in
theorem hcPair (i j : ℕ) (hd : Diff (SF.HcRs.end_circle pm1 sp s1 i) (SF.HcRs.end_circle pm2 sp s2 j)) :
    HcPair sp.param (SF.scratch (SF.HcRs.end_circle pm1 sp s1 i) (SF.HcRs.end_circle pm2 sp s2 j))
      (SF.scratch (SF.HcRs.end_circle pm2 sp s2 j) (SF.HcRs.end_circle pm1 sp s1 i))
      (SF.HcRs.end_circle pm1 sp s1 i) (SF.HcRs.end_circle pm2 sp s2 j) := by
  have h1 := HcRs.end_ok H pm1 s1 i
  have h2 := HcRs.end_ok H pm2 s2 j
  have hk := H.pos
  have P := pos_at H (confOf s1) (confOf s1) (l1 := true) (f1 := true) (r1 := true) (l2 := true) (f2 := true) (r2 := true)
  have sg1 : ∀ b, |sg b| = 1 := by intro b; cases b <;> simp [sg]
  have hki : 0 < |1 / sp.kappa| := by positivity
  have hk' : 0 < |sp.kappa| := by positivity
  refine ⟨rfl, rfl, hd, ?_, ?_, ?_, ?_, P.radius, P.sin_mu, P.cos_mu⟩
  · rw [h1.kappa_inv, h2.kappa_inv, abs_mul, abs_mul, sg1, sg1]
  · rw [h1.kappa, h2.kappa, abs_mul, abs_mul, sg1, sg1]
  · rw [h1.kappa_inv, abs_mul, sg1, one_mul]; exact hki
  · rw [h1.kappa, abs_mul, sg1, one_mul]; exact hk'

/-- Exchanges start and goal in the number of a path. -/
def revIdx (n : ℕ) : ℕ := 4 * (n % 4) + n / 4

theorem get_distance_rev (h : InRange sp.kappa sp.sigma) (hfar : dist2 s1 s2 ≤ 10 ^ 100)
    (hs : ∀ i < 4, ∀ j < 4, Shortcuts pm1 pm2 sp (SF.HcRs.end_circle pm1 sp s1 i) (SF.HcRs.end_circle pm2 sp s2 j)) :
    SF.HcRs.get_distance pm2 pm1 sp s2 s1 = SF.HcRs.get_distance pm1 pm2 sp s1 s2 := by
  obtain ⟨p, l1, l2, hp, hpl, -⟩ := HcRs.plan (pm1 := pm1) (pm2 := pm2) h s1 s2 hfar
  have hsym : dist2 s2 s1 = dist2 s1 s2 := by unfold dist2; congr 1; ring
  obtain ⟨p', l1', l2', hp', hpl', -⟩ := HcRs.plan (pm1 := pm2) (pm2 := pm1) h s2 s1 (hsym ▸ hfar)
  obtain ⟨a, ha⟩ : ∃ a : ℕ → ℝ, a = fun n => ((SF.HcRs.path pm1 pm2 sp s1 s2 n).map SF.HcRs.RSPath.length).getD SF.dblMax := ⟨_, rfl⟩
  obtain ⟨b, hb⟩ : ∃ b : ℕ → ℝ, b = fun n => ((SF.HcRs.path pm2 pm1 sp s2 s1 n).map SF.HcRs.RSPath.length).getD SF.dblMax := ⟨_, rfl⟩
  have hab : ∀ n < 16, b (revIdx n) = a n := by
    intro n hn
    have e1 : revIdx n / 4 = n % 4 := by unfold revIdx; omega
    have e2 : revIdx n % 4 = n / 4 := by unfold revIdx; omega
    rw [ha, hb]
    dsimp only
    unfold SF.HcRs.path
    rw [e1, e2]
    by_cases g : SF.HcRs.skip pm1 s1 (n / 4) ∨ SF.HcRs.skip pm2 s2 (n % 4)
    · rw [if_pos g, if_pos (Or.symm g)]
    · rw [if_neg g, if_neg (fun g' => g (Or.symm g'))]
      exact (hs (n / 4) (by omega) (n % 4) (by omega)).length
  have hmin := min_perm (a := a) (b := b) (n := 16) (e := revIdx) (by norm_num) (by unfold revIdx; omega) (by unfold revIdx; omega) hab
  unfold SF.HcRs.get_distance
  unfold SF.HcRs.reeds_shepp at hp hp' ⊢
  rw [← ha] at hp ⊢
  rw [← hb] at hp' ⊢
  have e1 : a (SF.array_index_min a 16) = p.length := by
    rw [show a (SF.array_index_min a 16) = ((SF.HcRs.path pm1 pm2 sp s1 s2 (SF.array_index_min a 16)).map SF.HcRs.RSPath.length).getD SF.dblMax from
      congrFun ha _, hp]; rfl
  have e2 : b (SF.array_index_min b 16) = p'.length := by
    rw [show b (SF.array_index_min b 16) = ((SF.HcRs.path pm2 pm1 sp s2 s1 (SF.array_index_min b 16)).map SF.HcRs.RSPath.length).getD SF.dblMax from
      congrFun hb _, hp']; rfl
  rw [hp, hp', Option.map_some, Option.map_some, ← e1, ← e2, hmin]

/-! ### Curvature zero at one end -/

theorem scratch_comm : (SF.scratch c2 c1).distance = (SF.scratch c1 c2).distance :=
  center_distance_rev (Cen.refl c1) (Cen.refl c2)

include H in
theorem mixed (i j : ℕ) :
    Shortcuts false true sp (SF.HcRs.end_circle false sp s1 i) (SF.HcRs.end_circle true sp s2 j) := by
  obtain ⟨c1, e1⟩ : ∃ c, c = SF.HcRs.end_circle false sp s1 i := ⟨_, rfl⟩
  obtain ⟨c2, e2⟩ : ∃ c, c = SF.HcRs.end_circle true sp s2 j := ⟨_, rfl⟩
  have P := hcPair H (pm1 := false) (pm2 := true) (s1 := s1) (s2 := s2) i j
  rw [← e1, ← e2] at P ⊢
  by_cases hE : SF.configuration_equal c1.start c2.start
  · refine .same 0 { length := 0 } { length := 0 } ?_ ?_ rfl
    · unfold SF.HcRs.shortcut; exact if_pos hE
    · unfold SF.HcRs.shortcut; exact if_pos ((equal_comm _ _).2 hE)
  have hE' := fun g => hE ((equal_comm _ _).1 g)
  by_cases hD : (SF.scratch c1 c2).distance < SF.epsilon
  · have hD' : (SF.scratch c2 c1).distance < SF.epsilon := scratch_comm.trans_lt hD
    obtain ⟨T, hT⟩ : ∃ T : ℝ × SF.Circle, T = ((SF.circleAt c1.start c1.left c1.forward false sp.param).hc_turn_length c2.start,
      SF.circleAt c1.start c1.left c1.forward false sp.param) := ⟨_, rfl⟩
    refine .same 2 { length := T.1, moves := [.hc T.2 c2.start true] } { length := T.1, moves := [.hc T.2 c2.start false] } ?_ ?_ rfl
    · unfold SF.HcRs.shortcut; rw [if_neg hE, hT]; exact if_pos hD
    · unfold SF.HcRs.shortcut; rw [if_neg hE', hT]; exact if_pos hD'
  · have hD' : ¬ (SF.scratch c2 c1).distance < SF.epsilon := fun g => hD (scratch_comm.symm.trans_lt g)
    refine .none ?_ ?_ (P ?_)
    · unfold SF.HcRs.shortcut; rw [if_neg hE]; exact if_neg hD
    · unfold SF.HcRs.shortcut; rw [if_neg hE']; exact if_neg hD'
    · by_contra hc
      unfold Diff at hc
      push Not at hc
      apply hD
      show SF.center_distance c1 c2 < _
      unfold SF.center_distance
      rw [hc.1, hc.2]
      norm_num [SF.epsilon]

/-! ### Same kind of curvature at both ends -/

/-- The goal is on none of the circles of the start and the start on none of the goal, within the tolerance, and
the centres of the circles are different. -/
def ClearOf (pm : Bool) (sp : SF.HCSpace) (s1 s2 : SF.State) : Prop :=
  ∀ i < 4, ∀ j < 4, ¬ SF.configuration_on_hc_cc_circle (SF.HcRs.end_circle pm sp s1 i) (SF.HcRs.end_circle pm sp s2 j).start ∧
    ¬ SF.configuration_on_hc_cc_circle (SF.HcRs.end_circle pm sp s2 j) (SF.HcRs.end_circle pm sp s1 i).start ∧
    Diff (SF.HcRs.end_circle pm sp s1 i) (SF.HcRs.end_circle pm sp s2 j)

include H in
theorem equal_ends {pm : Bool} (i j : ℕ) (hc : ¬ SF.configuration_on_hc_cc_circle (SF.HcRs.end_circle pm sp s1 i) (SF.HcRs.end_circle pm sp s2 j).start ∧
    ¬ SF.configuration_on_hc_cc_circle (SF.HcRs.end_circle pm sp s2 j) (SF.HcRs.end_circle pm sp s1 i).start ∧
    Diff (SF.HcRs.end_circle pm sp s1 i) (SF.HcRs.end_circle pm sp s2 j)) :
    Shortcuts pm pm sp (SF.HcRs.end_circle pm sp s1 i) (SF.HcRs.end_circle pm sp s2 j) := by
  obtain ⟨c1, e1⟩ : ∃ c, c = SF.HcRs.end_circle pm sp s1 i := ⟨_, rfl⟩
  obtain ⟨c2, e2⟩ : ∃ c, c = SF.HcRs.end_circle pm sp s2 j := ⟨_, rfl⟩
  have P := hcPair H (pm1 := pm) (pm2 := pm) (s1 := s1) (s2 := s2) i j hc.2.2
  rw [← e1, ← e2] at P hc ⊢
  by_cases hE : SF.configuration_equal c1.start c2.start
  · refine .same 0 { length := 0 } { length := 0 } ?_ ?_ rfl
    · unfold SF.HcRs.shortcut; exact if_pos hE
    · unfold SF.HcRs.shortcut; exact if_pos ((equal_comm _ _).2 hE)
  have hE' := fun g => hE ((equal_comm _ _).1 g)
  cases pm
  · by_cases hA : SF.configuration_aligned c1.start c2.start
    · by_cases hB : SF.configuration_aligned c2.start c1.start
      · refine .same 1 ⟨SF.configuration_distance c1.start c2.start, [.line c1.start c2.start]⟩
          ⟨SF.configuration_distance c2.start c1.start, [.line c2.start c1.start]⟩ ?_ ?_ (dist_comm _ _)
        · unfold SF.HcRs.shortcut; rw [if_neg hE]; exact if_pos hA
        · unfold SF.HcRs.shortcut; rw [if_neg hE']; exact if_pos hB
      · refine .same 1 ⟨SF.configuration_distance c1.start c2.start, [.line c1.start c2.start]⟩
          ⟨SF.configuration_distance c1.start c2.start, [.line c2.start c1.start]⟩ ?_ ?_ rfl
        · unfold SF.HcRs.shortcut; rw [if_neg hE]; exact if_pos hA
        · unfold SF.HcRs.shortcut; rw [if_neg hE']; exact (if_neg hB).trans (if_pos hA)
    · by_cases hB : SF.configuration_aligned c2.start c1.start
      · refine .same 1 ⟨SF.configuration_distance c2.start c1.start, [.line c1.start c2.start]⟩
          ⟨SF.configuration_distance c2.start c1.start, [.line c2.start c1.start]⟩ ?_ ?_ rfl
        · unfold SF.HcRs.shortcut; rw [if_neg hE]; exact (if_neg hA).trans (if_pos hB)
        · unfold SF.HcRs.shortcut; rw [if_neg hE']; exact if_pos hB
      · refine .none ?_ ?_ P
        · unfold SF.HcRs.shortcut; rw [if_neg hE]; exact (if_neg hA).trans ((if_neg hB).trans (if_neg hc.1))
        · unfold SF.HcRs.shortcut; rw [if_neg hE']; exact (if_neg hB).trans ((if_neg hA).trans (if_neg hc.2.1))
  · refine .none ?_ ?_ P
    · unfold SF.HcRs.shortcut; rw [if_neg hE]; exact if_neg hc.1
    · unfold SF.HcRs.shortcut; rw [if_neg hE']; exact if_neg hc.2.1

/-! ### Far apart -/

include H in
theorem end_radius (pm : Bool) (s : SF.State) (i : ℕ) : (SF.HcRs.end_circle pm sp s i).radius ≤ radiusBound sp.kappa sp.sigma ∧
    ‖center (SF.HcRs.end_circle pm sp s i) - (cfg (SF.HcRs.end_circle pm sp s i).start).pos‖ ≤ radiusBound sp.kappa sp.sigma := by
  have h := HcRs.end_ok H pm s i
  have e := HcRs.end_dist H pm s i
  have hi := H.inv_le
  have hp : 0 < 1 / sp.kappa := by have := H.pos; positivity
  cases pm
  · rw [if_neg (by simp)] at e
    rw [e, h.cc.ok.geom.ccR]
    exact ⟨H.ccR_le, H.ccR_le⟩
  · rw [if_pos rfl] at e
    rw [e, h.rs.radius]
    exact ⟨by linarith, by linarith⟩

include H in
theorem not_on (pm : Bool) (i j : ℕ) (hfar : 2 * radiusBound sp.kappa sp.sigma + 1 / 10000 < dist2 s1 s2) :
    ¬ SF.configuration_on_hc_cc_circle (SF.HcRs.end_circle pm sp s1 i) (SF.HcRs.end_circle pm sp s2 j).start := by
  intro g
  have h1 := HcRs.on_circle_dist g
  obtain ⟨h2, h3⟩ := end_radius H pm s1 i
  have hd : SF.configuration_distance (SF.HcRs.end_circle pm sp s1 i).start (SF.HcRs.end_circle pm sp s2 j).start = dist2 s1 s2 := rfl
  obtain ⟨c1, e1⟩ : ∃ c, c = SF.HcRs.end_circle pm sp s1 i := ⟨_, rfl⟩
  obtain ⟨c2, e2⟩ : ∃ c, c = SF.HcRs.end_circle pm sp s2 j := ⟨_, rfl⟩
  rw [← e1, ← e2] at hd h1
  rw [← e1] at h2 h3
  have h4 : SF.point_distance c1.xc c1.yc c2.start.x c2.start.y = ‖(cfg c2.start).pos - center c1‖ := by
    rw [SF.point_distance, Complex.norm_eq_sqrt_sq_add_sq]; rfl
  have h5 := norm_add_le ((cfg c2.start).pos - center c1) (center c1 - (cfg c1.start).pos)
  rw [sub_add_sub_cancel, ← configuration_distance_eq, hd, ← h4] at h5
  norm_num [SF.epsilon] at h1
  linarith

include H in
theorem diff_of_far (pm : Bool) (i j : ℕ) (hfar : 2 * radiusBound sp.kappa sp.sigma + 1 / 10000 < dist2 s1 s2) :
    Diff (SF.HcRs.end_circle pm sp s1 i) (SF.HcRs.end_circle pm sp s2 j) := by
  obtain ⟨-, h2⟩ := end_radius H pm s1 i
  obtain ⟨-, h3⟩ := end_radius H pm s2 j
  have hd : SF.configuration_distance (SF.HcRs.end_circle pm sp s1 i).start (SF.HcRs.end_circle pm sp s2 j).start = dist2 s1 s2 := rfl
  obtain ⟨c1, e1⟩ : ∃ c, c = SF.HcRs.end_circle pm sp s1 i := ⟨_, rfl⟩
  obtain ⟨c2, e2⟩ : ∃ c, c = SF.HcRs.end_circle pm sp s2 j := ⟨_, rfl⟩
  rw [← e1, ← e2] at hd ⊢
  rw [← e1] at h2
  rw [← e2] at h3
  by_contra hc
  unfold Diff at hc
  push Not at hc
  have e : center c2 = center c1 := by unfold center; rw [hc.1, hc.2]
  have h5 := norm_sub_le (center c1 - (cfg c1.start).pos) (center c2 - (cfg c2.start).pos)
  rw [e, sub_sub_sub_cancel_left, ← configuration_distance_eq, hd] at h5
  rw [e] at h3
  linarith

include H in
theorem clear_of_far (pm : Bool) (hfar : 2 * radiusBound sp.kappa sp.sigma + 1 / 10000 < dist2 s1 s2) : ClearOf pm sp s1 s2 := by
  have hsym : dist2 s2 s1 = dist2 s1 s2 := by unfold dist2; congr 1; ring
  exact fun i _ j _ => ⟨not_on H pm i j hfar, not_on H pm j i (hsym ▸ hfar), diff_of_far H pm i j hfar⟩

end Spec.Rev
