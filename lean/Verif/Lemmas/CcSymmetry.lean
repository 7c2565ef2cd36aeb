import Verif.Lemmas.CcReverse
import Verif.Lemmas.HcSymmetry

/-!
# The reversed problem: continuous-curvature planners
-/

noncomputable section

namespace Spec.Rev

open Real Props
open CC00 (CircOk circOk_at)

variable {sp : SF.HCSpace} {c1 c2 : SF.Circle} {s1 s2 : SF.State} {m m' : SF.Scratch}

/-- The goal is on none of the circles of the start and the start on none of the goal, within the tolerance, and
the centres of the circles are different. -/
def ClearOfCc (sp : SF.HCSpace) (s1 s2 : SF.State) : Prop :=
  ∀ l f r l' f' r', ¬ SF.configuration_on_hc_cc_circle (SF.circleAt (confOf s1) l f r sp.param) (confOf s2) ∧
    ¬ SF.configuration_on_hc_cc_circle (SF.circleAt (confOf s2) l' f' r' sp.param) (confOf s1) ∧
    Diff (SF.circleAt (confOf s1) l f r sp.param) (SF.circleAt (confOf s2) l' f' r' sp.param)

theorem ClearOfCc.symm (h : ClearOfCc sp s1 s2) : ClearOfCc sp s2 s1 :=
  fun l f r l' f' r' => ⟨(h l' f' r' l f r).2.1, (h l' f' r' l f r).1, Diff.symm (h l' f' r' l f r).2.2⟩

variable (H : Rng sp.kappa sp.sigma)

include H in
theorem clearCc_of_far (hfar : 2 * radiusBound sp.kappa sp.sigma + 1 / 10000 < dist2 s1 s2) : ClearOfCc sp s1 s2 := by
  have hsym : dist2 s2 s1 = dist2 s1 s2 := by unfold dist2; congr 1; ring
  have on : ∀ {a b : SF.State}, 2 * radiusBound sp.kappa sp.sigma + 1 / 10000 < dist2 a b → ∀ l f r,
      ¬ SF.configuration_on_hc_cc_circle (SF.circleAt (confOf a) l f r sp.param) (confOf b) := by
    intro a b hd l f r g
    have h1 : dist2 a b ≤ 2 * (SF.circleAt (confOf a) l f r sp.param).radius + SF.epsilon :=
      CC00.on_circle_dist (circOk_at H.kappa H.sigma H.clothoid _ _ _ _) g
    have h2 := circleAt_radius_le H (confOf a) l f r
    norm_num [SF.epsilon] at h1
    linarith
  intro l f r l' f' r'
  refine ⟨on hfar _ _ _, on (hsym ▸ hfar) _ _ _, ?_⟩
  by_contra hc
  unfold Diff at hc
  push Not at hc
  have e : SF.center_distance (SF.circleAt (confOf s1) l f r sp.param) (SF.circleAt (confOf s2) l' f' r' sp.param) = 0 := by
    unfold SF.center_distance
    rw [hc.1, hc.2]; simp
  have h1 : dist2 s1 s2 ≤ (SF.circleAt (confOf s1) l f r sp.param).radius + (SF.circleAt (confOf s2) l' f' r' sp.param).radius
      + SF.center_distance (SF.circleAt (confOf s1) l f r sp.param) (SF.circleAt (confOf s2) l' f' r' sp.param) := CC00.start_dist_le (circOk_at H.kappa H.sigma H.clothoid (confOf s1) l f r)
    (circOk_at H.kappa H.sigma H.clothoid (confOf s2) l' f' r')
  rw [e] at h1
  have h2 := circleAt_radius_le H (confOf s1) l f r
  have h3 := circleAt_radius_le H (confOf s2) l' f' r'
  linarith

include H in
theorem ccPair {q1 q2 : SF.Configuration} {l f l' f' r : Bool} (hd : Diff (SF.circleAt q1 l f r sp.param) (SF.circleAt q2 l' f' r sp.param)) :
    CcPair sp.param (SF.scratch (SF.circleAt q1 l f r sp.param) (SF.circleAt q2 l' f' r sp.param))
      (SF.scratch (SF.circleAt q2 l' f' r sp.param) (SF.circleAt q1 l f r sp.param))
      (SF.circleAt q1 l f r sp.param) (SF.circleAt q2 l' f' r sp.param) := by
  have P := pos_at H q1 q1 (l1 := true) (f1 := true) (r1 := true) (l2 := true) (f2 := true) (r2 := true)
  exact ⟨rfl, rfl, hd, std_at, std_at, rfl, P.radius, P.sin_mu, P.cos_mu⟩

/-! ### CC00-Reeds-Shepp -/

theorem CcPair.rs_length (h : CcPair sp.param (SF.scratch c1 c2) (SF.scratch c2 c1) c1 c2)
    (h1 : ¬ SF.configuration_on_hc_cc_circle c1 c2.start) (h2 : ¬ SF.configuration_on_hc_cc_circle c2 c1.start) :
    (SF.CcRs.circles_rs_path sp c2 c1).length = (SF.CcRs.circles_rs_path sp c1 c2).length := by
  have same : ∀ (t : ℕ) (r r' : SF.RSRow), SF.CcRs.shortcut c1 c2 = some (t, r) → SF.CcRs.shortcut c2 c1 = some (t, r') →
      r'.length = r.length → (SF.CcRs.circles_rs_path sp c2 c1).length = (SF.CcRs.circles_rs_path sp c1 c2).length := by
    intro t r r' g g' hl
    unfold SF.CcRs.circles_rs_path SF.CcRs.Path.length
    dsimp only
    have e : ∀ i, (SF.CcRs.table sp (SF.scratch c2 c1) c2 c1 i).length = (SF.CcRs.table sp (SF.scratch c1 c2) c1 c2 i).length := by
      intro i
      unfold SF.CcRs.table
      rw [g, g']
      dsimp only
      by_cases k : i = t
      · rw [if_pos k, if_pos k, hl]
      · rw [if_neg k, if_neg k]
    rw [e, funext e]
  by_cases hE : SF.configuration_equal c1.start c2.start
  · refine same 0 { length := 0 } { length := 0 } ?_ ?_ rfl
    · unfold SF.CcRs.shortcut; exact if_pos hE
    · unfold SF.CcRs.shortcut; exact if_pos ((equal_comm _ _).2 hE)
  have hE' := fun g => hE ((equal_comm _ _).1 g)
  by_cases hA : SF.configuration_aligned c1.start c2.start
  · by_cases hB : SF.configuration_aligned c2.start c1.start
    · refine same 1 ⟨SF.configuration_distance c1.start c2.start, [.line c1.start c2.start]⟩
        ⟨SF.configuration_distance c2.start c1.start, [.line c2.start c1.start]⟩ ?_ ?_ (dist_comm _ _)
      · unfold SF.CcRs.shortcut; rw [if_neg hE]; exact if_pos hA
      · unfold SF.CcRs.shortcut; rw [if_neg hE']; exact if_pos hB
    · refine same 1 ⟨SF.configuration_distance c1.start c2.start, [.line c1.start c2.start]⟩
        ⟨SF.configuration_distance c1.start c2.start, [.line c2.start c1.start]⟩ ?_ ?_ rfl
      · unfold SF.CcRs.shortcut; rw [if_neg hE]; exact if_pos hA
      · unfold SF.CcRs.shortcut; rw [if_neg hE']; exact (if_neg hB).trans (if_pos hA)
  by_cases hB : SF.configuration_aligned c2.start c1.start
  · refine same 1 ⟨SF.configuration_distance c2.start c1.start, [.line c1.start c2.start]⟩
      ⟨SF.configuration_distance c2.start c1.start, [.line c2.start c1.start]⟩ ?_ ?_ rfl
    · unfold SF.CcRs.shortcut; rw [if_neg hE]; exact (if_neg hA).trans (if_pos hB)
    · unfold SF.CcRs.shortcut; rw [if_neg hE']; exact if_pos hB
  have g : SF.CcRs.shortcut c1 c2 = none := by
    unfold SF.CcRs.shortcut; rw [if_neg hE]; exact (if_neg hA).trans ((if_neg hB).trans (if_neg h1))
  have g' : SF.CcRs.shortcut c2 c1 = none := by
    unfold SF.CcRs.shortcut; rw [if_neg hE']; exact (if_neg hB).trans ((if_neg hA).trans (if_neg h2))
  unfold SF.CcRs.circles_rs_path SF.CcRs.Path.length
  dsimp only
  refine min_perm (a := fun i => (SF.CcRs.table sp (SF.scratch c1 c2) c1 c2 i).length)
    (b := fun i => (SF.CcRs.table sp (SF.scratch c2 c1) c2 c1 i).length) (by decide) revFamily_lt revFamily_rev fun i _ => ?_
  unfold SF.CcRs.table
  rw [g, g']
  exact h.family i

include H in
theorem cc_rs_rev (hc : ClearOfCc sp s1 s2) : SF.CcRs.get_distance sp s2 s1 = SF.CcRs.get_distance sp s1 s2 := by
  unfold SF.CcRs.get_distance SF.CcRs.reeds_shepp
  refine min_perm (a := fun n => (SF.CcRs.path sp s1 s2 n).length) (b := fun n => (SF.CcRs.path sp s2 s1 n).length) (n := 16) (e := revIdx)
    (by norm_num) (by unfold revIdx; omega) (by unfold revIdx; omega) fun n hn => ?_
  have e1 : revIdx n / 4 = n % 4 := by unfold revIdx; omega
  have e2 : revIdx n % 4 = n / 4 := by unfold revIdx; omega
  unfold SF.CcRs.path
  rw [e1, e2]
  exact (ccPair H (hc _ _ _ _ _ _).2.2).rs_length (hc _ _ _ true true true).1 (hc true true true _ _ _).2.1

/-! ### CC00-Dubins -/

open Classical in
theorem cc00_table' (h1 : ¬ SF.configuration_equal c1.start c2.start)
    (h2 : ¬ (sp.forwards ∧ SF.configuration_aligned c1.start c2.start)) (h3 : ¬ (¬ sp.forwards ∧ SF.configuration_aligned c2.start c1.start))
    (h4 : ¬ SF.configuration_on_hc_cc_circle c1 c2.start) (i : ℕ) :
    (SF.CC00.table sp m c1 c2 i).length =
      if i = 5 ∧ SF.CcRs.TTT_exists m c1 c2 then (SF.CcRs.TTT_path sp.param m c1 c2).length
      else if i = 4 ∧ (SF.CcRs.TiST_exists m c1 c2 ∨ SF.CcRs.TeST_exists m c1 c2) then (SF.CcRs.TST_path m c1 c2).length
      else if i = 3 ∧ SF.CcRs.TT_exists m c1 c2 then (SF.CcRs.TT_path c1 c2).length
      else SF.dblMax := by
  unfold SF.CC00.table
  rw [if_neg h1, if_neg h2, if_neg h3, if_neg h4, ← cc00_TTT_eq, ← cc00_TST_eq]
  unfold SF.CcRs.TTT_exists SF.CcRs.TiST_exists SF.CcRs.TeST_exists SF.CcRs.TT_exists SF.CC00.TST_exists
  dsimp only
  by_cases g1 : SF.CC00.TTT_exists m c1 c2 <;> by_cases g2 : SF.CC00.TiST_exists m c1 c2 ∨ SF.CC00.TeST_exists m c1 c2 <;>
    by_cases g3 : SF.CC00.TT_exists m c1 c2 <;> simp only [g1, g2, g3, if_true, if_false, and_true, and_false, SF.Table.set] <;>
    first | rfl | (split_ifs <;> first | rfl | omega)

/-- The state space for the other driving direction. -/
def flipped (sp : SF.HCSpace) : SF.HCSpace := { sp with forwards := !sp.forwards }

open Classical in
theorem CcPair.dubins_length (h : CcPair sp.param (SF.scratch c1 c2) (SF.scratch c2 c1) c1 c2)
    (h1 : ¬ SF.configuration_on_hc_cc_circle c1 c2.start) (h2 : ¬ SF.configuration_on_hc_cc_circle c2 c1.start) :
    (SF.CC00.circles_dubins_path (flipped sp) c2 c1).length = (SF.CC00.circles_dubins_path sp c1 c2).length := by
  have e : ∀ i, (SF.CC00.table (flipped sp) (SF.scratch c2 c1) c2 c1 i).length = (SF.CC00.table sp (SF.scratch c1 c2) c1 c2 i).length := by
    intro i
    by_cases hE : SF.configuration_equal c1.start c2.start
    · unfold SF.CC00.table
      rw [if_pos hE, if_pos ((equal_comm _ _).2 hE)]
    have hE' := fun g => hE ((equal_comm _ _).1 g)
    have f1 : ((flipped sp).forwards = true ∧ SF.configuration_aligned c2.start c1.start) ↔
        (¬ sp.forwards = true ∧ SF.configuration_aligned c2.start c1.start) := by
      unfold flipped; cases sp.forwards <;> simp
    have f2 : (¬ (flipped sp).forwards = true ∧ SF.configuration_aligned c1.start c2.start) ↔
        (sp.forwards = true ∧ SF.configuration_aligned c1.start c2.start) := by
      unfold flipped; cases sp.forwards <;> simp
    by_cases hA : sp.forwards = true ∧ SF.configuration_aligned c1.start c2.start
    · have hB : ¬ ((flipped sp).forwards = true ∧ SF.configuration_aligned c2.start c1.start) := fun g => (f1.1 g).1 hA.1
      unfold SF.CC00.table
      rw [if_neg hE, if_neg hE', if_pos hA, if_neg hB, if_pos (f2.2 hA)]
    by_cases hB : ¬ sp.forwards = true ∧ SF.configuration_aligned c2.start c1.start
    · unfold SF.CC00.table
      rw [if_neg hE, if_neg hE', if_neg hA, if_pos hB, if_pos (f1.2 hB)]
    rw [cc00_table' hE hA hB h1, cc00_table' hE' (fun g => hB (f1.1 g)) (fun g => hA (f2.1 g)) h2, h.TTT_exists, h.TiST_exists, h.TeST_exists,
      h.TT_exists, h.TST_path]
    by_cases g1 : SF.CcRs.TTT_exists (SF.scratch c1 c2) c1 c2
    · rw [show (SF.CcRs.TTT_path (flipped sp).param (SF.scratch c2 c1) c2 c1).length = (SF.CcRs.TTT_path sp.param (SF.scratch c1 c2) c1 c2).length from
        h.TTT_path g1]
      by_cases g2 : SF.CcRs.TT_exists (SF.scratch c1 c2) c1 c2
      · rw [h.TT_path g2]
      · simp only [g2, and_false, if_false]
    · simp only [g1, and_false, if_false]
      by_cases g2 : SF.CcRs.TT_exists (SF.scratch c1 c2) c1 c2
      · rw [h.TT_path g2]
      · simp only [g2, and_false, if_false]
  unfold SF.CC00.circles_dubins_path SF.CC00.body SF.Table.best SF.CCPath.length
  dsimp only
  rw [e, funext e]

include H in
theorem cc00_rev (hc : ClearOfCc sp s1 s2) : SF.CC00.get_distance (flipped sp) s2 s1 = SF.CC00.get_distance sp s1 s2 := by
  unfold SF.CC00.get_distance SF.CC00.cc00_dubins
  dsimp only
  refine min_perm (a := fun n => (SF.CC00.path sp s1 s2 n).length) (b := fun n => (SF.CC00.path (flipped sp) s2 s1 n).length) (n := 4)
    (e := fun n => 2 * (n % 2) + n / 2) (by norm_num) (by intro i hi; omega) (by intro i hi; omega) fun n hn => ?_
  have e1 : (2 * (n % 2) + n / 2) / 2 = n % 2 := by omega
  have e2 : (2 * (n % 2) + n / 2) % 2 = n / 2 := by omega
  unfold SF.CC00.path
  dsimp only
  rw [e1, e2]
  unfold SF.CC00.start_circle SF.CC00.end_circle
  rw [show (!(flipped sp).forwards) = sp.forwards from Bool.not_not _]
  exact (ccPair H (hc _ _ _ _ _ _).2.2).dubins_length (hc _ _ _ true true true).1 (hc true true true _ _ _).2.1

end Spec.Rev
