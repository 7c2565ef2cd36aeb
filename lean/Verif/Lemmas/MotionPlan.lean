import Verif.Lemmas.MotionRows
import Verif.Lemmas.CcCompare
import Verif.Lemmas.Cc00Far

/-!
# Motions of the plane: the CC planners
-/

noncomputable section

namespace Spec

open Real Props
open CC00 (CircOk circOk_at)

variable {T : Motion}

/-! ### Angles -/

theorem NearAngle.of_twopify {a b : ℝ} (h : |SF.twopify a - SF.twopify b| ≤ SF.epsilon) : NearAngle a b := by
  obtain ⟨n, hn⟩ := SF.twopify_angleEq a
  obtain ⟨k, hk⟩ := SF.twopify_angleEq b
  refine ⟨n - k, ?_⟩
  rw [hn, hk, SF.epsilon] at h
  push_cast
  rwa [show a - b + ((n : ℝ) - k) * (2 * π) = a + n * (2 * π) - (b + k * (2 * π)) by ring]

theorem NearAngle.symm {a b : ℝ} (h : NearAngle a b) : NearAngle b a := by
  obtain ⟨n, hn⟩ := h
  refine ⟨-n, ?_⟩
  rw [← abs_neg]
  push_cast
  rwa [show -(b - a + -(n : ℝ) * (2 * π)) = a - b + n * (2 * π) by ring]

theorem NearAngle.of_rel {a b a' b' : ℝ} (ha : ARel T a a') (hb : ARel T b b') (h : NearAngle a' b') : NearAngle a b := by
  obtain ⟨n, hn⟩ := h
  obtain ⟨k, hk⟩ := ha
  obtain ⟨l, hl⟩ := hb
  rw [hk, hl] at hn
  rcases T.sign_cases with ⟨_, e⟩ | ⟨_, e⟩ <;> rw [e] at hn
  · refine ⟨l - n - k, ?_⟩
    rw [← abs_neg]
    push_cast
    rwa [show -(a - b + ((l : ℝ) - n - k) * (2 * π))
      = -1 * a + T.angle + k * (2 * π) - (-1 * b + T.angle + l * (2 * π)) + n * (2 * π) by ring]
  · refine ⟨n + k - l, ?_⟩
    push_cast
    rwa [show a - b + ((n : ℝ) + k - l) * (2 * π)
      = 1 * a + T.angle + k * (2 * π) - (1 * b + T.angle + l * (2 * π)) + n * (2 * π) by ring]

/-! ### States -/

/-- The configuration of a state with curvature zero. -/
abbrev confOf (s : SF.State) : SF.Configuration := SF.configuration s.x s.y s.theta 0

theorem PRel.move (T : Motion) (s : SF.State) : PRel T s.x s.y (T.move s).x (T.move s).y := ⟨rfl, rfl⟩

theorem ARel.move (T : Motion) (s : SF.State) : ARel T s.theta (T.move s).theta := AngleEq.refl _

theorem CfgRel.move (T : Motion) (s : SF.State) : CfgRel T (confOf s) (confOf (T.move s)) :=
  CfgRel.of (PRel.move T s) (ARel.move T s)

theorem dist2_move (T : Motion) (s1 s2 : SF.State) : dist2 (T.move s1) (T.move s2) = dist2 s1 s2 := by
  unfold dist2; rw [(PRel.move T s1).sq (PRel.move T s2)]

theorem OnLine.of_move {s1 s2 : SF.State} (hd : 0 < dist2 s1 s2) (h : OnLine (T.move s1) (T.move s2)) : OnLine s1 s2 := by
  have hne : s2.x ≠ s1.x ∨ s2.y ≠ s1.y := by
    by_contra hc
    push Not at hc
    rw [dist2, hc.1, hc.2] at hd
    simp at hd
  have hne' : s1.x ≠ s2.x ∨ s1.y ≠ s2.y := hne.imp Ne.symm Ne.symm
  refine ⟨NearAngle.of_rel (ARel.move T s1) (ARel.move T s2) h.1, h.2.imp ?_ ?_⟩
  · exact NearAngle.of_rel ((PRel.move T s1).angle (PRel.move T s2) hne) (ARel.move T s1)
  · exact NearAngle.of_rel ((PRel.move T s2).angle (PRel.move T s1) hne') (ARel.move T s2)

theorem onLine_of_aligned {s1 s2 : SF.State} (h : SF.configuration_aligned (confOf s1) (confOf s2)) : OnLine s1 s2 := by
  unfold SF.configuration_aligned at h
  split_ifs at h with g
  push Not at g
  exact ⟨(NearAngle.of_twopify g).symm, Or.inl (NearAngle.of_twopify h)⟩

theorem onLine_of_aligned' {s1 s2 : SF.State} (h : SF.configuration_aligned (confOf s2) (confOf s1)) : OnLine s1 s2 := by
  unfold SF.configuration_aligned at h
  split_ifs at h with g
  push Not at g
  exact ⟨NearAngle.of_twopify g, Or.inr (NearAngle.of_twopify h)⟩

/-- More than two radii apart, not on a line: none of the shortcuts `E`, `S`, `T` applies. -/
structure Open (sp : SF.HCSpace) (s1 s2 : SF.State) : Prop where
  far : 2 * radiusBound sp.kappa sp.sigma + 1 / 10000 < dist2 s1 s2
  line : ¬ OnLine s1 s2

theorem Open.move {sp : SF.HCSpace} (H : Rng sp.kappa sp.sigma) {s1 s2 : SF.State} (h : Open sp s1 s2) (T : Motion) :
    Open sp (T.move s1) (T.move s2) := by
  have hk := H.pos
  have hs := H.sigma
  have hR : 0 ≤ radiusBound sp.kappa sp.sigma := by rw [radiusBound]; positivity
  refine ⟨by rw [dist2_move]; exact h.far, fun g => h.line (g.of_move ?_)⟩
  have := h.far
  linarith

section
variable {sp : SF.HCSpace} (H : Rng sp.kappa sp.sigma) {s1 s2 : SF.State} (h : Open sp s1 s2) {l1 f1 r1 l2 f2 r2 : Bool}

include H in
theorem circleAt_radius_le (q : SF.Configuration) (l f r : Bool) :
    (SF.circleAt q l f r sp.param).radius ≤ radiusBound sp.kappa sp.sigma := by
  refine le_of_eq_of_le (circOk_at H.kappa H.sigma H.clothoid q l f r).ok.radius ?_
  exact radius_le H.kappa H.sigma H.clothoid

include H h in
theorem Open.not_equal : ¬ SF.configuration_equal (confOf s1) (confOf s2) := by
  intro g
  have hk := H.pos
  have hs := H.sigma
  have hR : 0 ≤ radiusBound sp.kappa sp.sigma := by rw [radiusBound]; positivity
  unfold SF.configuration_equal at g
  split_ifs at g with g1 g2
  have : SF.configuration_distance (confOf s1) (confOf s2) = dist2 s1 s2 := rfl
  have hf := h.far
  norm_num [SF.epsilon] at g2
  rw [this] at g2
  linarith

include H h in
theorem Open.not_on : ¬ SF.configuration_on_hc_cc_circle (SF.circleAt (confOf s1) l1 f1 r1 sp.param) (confOf s2) := by
  intro g
  have h1 := CC00.on_circle_dist (circOk_at H.kappa H.sigma H.clothoid _ _ _ _) g
  have h2 := circleAt_radius_le H (confOf s1) l1 f1 r1
  have : SF.configuration_distance (confOf s1) (confOf s2) = dist2 s1 s2 := rfl
  have hf := h.far
  have h3 : SF.configuration_distance (confOf s1) (confOf s2)
    ≤ 2 * (SF.circleAt (confOf s1) l1 f1 r1 sp.param).radius + SF.epsilon := h1
  rw [this] at h3
  norm_num [SF.epsilon] at h3
  linarith

include H in
theorem pos_at (q1 q2 : SF.Configuration) : Pos (SF.circleAt q1 l1 f1 r1 sp.param) (SF.circleAt q2 l2 f2 r2 sp.param) := by
  have o := (circOk_at H.kappa H.sigma H.clothoid q1 l1 f1 r1).ok
  have hA := ccA_pos H.kappa H.sigma H.clothoid
  have hB := ccB_pos H.kappa H.sigma H.clothoid
  have hR : 0 < (SF.circleAt q1 l1 f1 r1 sp.param).radius := by
    have := o.radius
    exact lt_of_lt_of_eq (by positivity) this.symm
  have e1 : (SF.circleAt q1 l1 f1 r1 sp.param).radius * (SF.circleAt q1 l1 f1 r1 sp.param).sin_mu = ccA sp.kappa sp.sigma := o.sin_mu
  have e2 : (SF.circleAt q1 l1 f1 r1 sp.param).radius * (SF.circleAt q1 l1 f1 r1 sp.param).cos_mu = ccB sp.kappa sp.sigma := o.cos_mu
  refine ⟨hR, ?_, ?_, rfl, rfl⟩
  · exact pos_of_mul_pos_right (e1 ▸ hA) hR.le
  · exact pos_of_mul_pos_right (e2 ▸ hB) hR.le

include H h in
theorem Open.diff : Diff (SF.circleAt (confOf s1) l1 f1 r1 sp.param) (SF.circleAt (confOf s2) l2 f2 r2 sp.param) := by
  by_contra hc
  unfold Diff at hc
  push Not at hc
  have e : SF.center_distance (SF.circleAt (confOf s1) l1 f1 r1 sp.param) (SF.circleAt (confOf s2) l2 f2 r2 sp.param) = 0 := by
    unfold SF.center_distance
    rw [hc.1, hc.2]; simp
  have h1 := CC00.start_dist_le (circOk_at H.kappa H.sigma H.clothoid (confOf s1) l1 f1 r1)
    (circOk_at H.kappa H.sigma H.clothoid (confOf s2) l2 f2 r2)
  have h2 := circleAt_radius_le H (confOf s1) l1 f1 r1
  have h3 := circleAt_radius_le H (confOf s2) l2 f2 r2
  have hf := h.far
  have h4 : dist2 s1 s2 ≤ (SF.circleAt (confOf s1) l1 f1 r1 sp.param).radius + (SF.circleAt (confOf s2) l2 f2 r2 sp.param).radius
    + SF.center_distance (SF.circleAt (confOf s1) l1 f1 r1 sp.param) (SF.circleAt (confOf s2) l2 f2 r2 sp.param) := h1
  rw [e] at h4
  linarith

include H h in
theorem Open.pair {l1' l2' : Bool} (e1 : l1' = (l1 ^^ T.mirrored)) (e2 : l2' = (l2 ^^ T.mirrored)) :
    PairRel T (SF.scratch (SF.circleAt (confOf s1) l1 f1 r1 sp.param) (SF.circleAt (confOf s2) l2 f2 r2 sp.param))
      (SF.scratch (SF.circleAt (confOf (T.move s1)) l1' f1 r1 sp.param) (SF.circleAt (confOf (T.move s2)) l2' f2 r2 sp.param))
      (SF.circleAt (confOf s1) l1 f1 r1 sp.param) (SF.circleAt (confOf s2) l2 f2 r2 sp.param)
      (SF.circleAt (confOf (T.move s1)) l1' f1 r1 sp.param) (SF.circleAt (confOf (T.move s2)) l2' f2 r2 sp.param) :=
  PairRel.of (CircRel.at (CfgRel.move T s1) e1 rfl rfl _) (CircRel.at (CfgRel.move T s2) e2 rfl rfl _) (h.diff H) (pos_at H _ _)

end

/-! ### CC-Reeds-Shepp -/

section
variable {sp : SF.HCSpace} (H : Rng sp.kappa sp.sigma) {s1 s2 : SF.State} (h : Open sp s1 s2)

include H h in
theorem Open.cc_shortcut (i j : ℕ) : SF.CcRs.shortcut (SF.CcRs.end_circle sp s1 i) (SF.CcRs.end_circle sp s2 j) = none := by
  unfold SF.CcRs.shortcut
  exact (if_neg (h.not_equal H)).trans ((if_neg (fun g => h.line (onLine_of_aligned g))).trans
    ((if_neg (fun g => h.line (onLine_of_aligned' g))).trans (if_neg (h.not_on H))))

include H h in
theorem Open.cc_path (hT : T.mirrored = false) (n : ℕ) :
    (SF.CcRs.path sp (T.move s1) (T.move s2) n).length = (SF.CcRs.path sp s1 s2 n).length := by
  unfold SF.CcRs.path SF.CcRs.circles_rs_path SF.CcRs.Path.length
  dsimp only
  have e : ∀ i, (SF.CcRs.table sp (SF.scratch (SF.CcRs.end_circle sp (T.move s1) (n / 4)) (SF.CcRs.end_circle sp (T.move s2) (n % 4)))
      (SF.CcRs.end_circle sp (T.move s1) (n / 4)) (SF.CcRs.end_circle sp (T.move s2) (n % 4)) i).length
      = (SF.CcRs.table sp (SF.scratch (SF.CcRs.end_circle sp s1 (n / 4)) (SF.CcRs.end_circle sp s2 (n % 4)))
      (SF.CcRs.end_circle sp s1 (n / 4)) (SF.CcRs.end_circle sp s2 (n % 4)) i).length := by
    intro i
    unfold SF.CcRs.table
    rw [(h.move H T).cc_shortcut H, h.cc_shortcut H]
    exact PairRel.family (h.pair H (by rw [hT, Bool.xor_false]) (by rw [hT, Bool.xor_false])) hT i
  rw [e, funext e]

include H h in
theorem Open.cc_rs (hT : T.mirrored = false) :
    SF.CcRs.get_distance sp (T.move s1) (T.move s2) = SF.CcRs.get_distance sp s1 s2 := by
  unfold SF.CcRs.get_distance SF.CcRs.reeds_shepp
  rw [h.cc_path H hT, funext (h.cc_path H hT)]

end

/-! ### CC-Dubins -/

section
variable {m m' : SF.Scratch} {c1 c1' c2 c2' : SF.Circle} {P : SF.CircleParam}

theorem fst_ite {α : Type} {a b : ℝ} {x y : α} {r s : SF.RSRow} (hr : r.length = a) (hs : s.length = b) :
    (if a < b then (a, x) else (b, y)).1 = (r.shorter s).length := by
  rw [shorter_length, hr, hs]
  split_ifs with h
  · exact (min_eq_left h.le).symm
  · exact (min_eq_right (not_lt.1 h)).symm

theorem cc00_TTT_eq : (SF.CC00.TTT_path P m c1 c2).1 = (SF.CcRs.TTT_path P m c1 c2).length := by
  unfold SF.CC00.TTT_path SF.CcRs.TTT_path
  exact fst_ite rfl rfl

open Classical in
theorem cc00_TST_eq : (SF.CC00.TST_path m c1 c2).length = (SF.CcRs.TST_path m c1 c2).length := by
  unfold SF.CC00.TST_path SF.CcRs.TST_path SF.CcRs.TiST_exists SF.CcRs.TeST_exists
  split_ifs <;> rfl

open Classical in
theorem cc00_table {sp : SF.HCSpace} (h1 : ¬ SF.configuration_equal c1.start c2.start)
    (h2 : ¬ SF.configuration_aligned c1.start c2.start) (h3 : ¬ SF.configuration_aligned c2.start c1.start)
    (h4 : ¬ SF.configuration_on_hc_cc_circle c1 c2.start) (i : ℕ) :
    (SF.CC00.table sp m c1 c2 i).length =
      if i = 5 ∧ SF.CcRs.TTT_exists m c1 c2 then (SF.CcRs.TTT_path sp.param m c1 c2).length
      else if i = 4 ∧ (SF.CcRs.TiST_exists m c1 c2 ∨ SF.CcRs.TeST_exists m c1 c2) then (SF.CcRs.TST_path m c1 c2).length
      else if i = 3 ∧ SF.CcRs.TT_exists m c1 c2 then (SF.CcRs.TT_path c1 c2).length
      else SF.dblMax := by
  unfold SF.CC00.table
  rw [if_neg h1, if_neg (fun g => h2 g.2), if_neg (fun g => h3 g.2), if_neg h4, ← cc00_TTT_eq, ← cc00_TST_eq]
  unfold SF.CcRs.TTT_exists SF.CcRs.TiST_exists SF.CcRs.TeST_exists SF.CcRs.TT_exists SF.CC00.TST_exists
  dsimp only
  by_cases g1 : SF.CC00.TTT_exists m c1 c2 <;> by_cases g2 : SF.CC00.TiST_exists m c1 c2 ∨ SF.CC00.TeST_exists m c1 c2 <;>
    by_cases g3 : SF.CC00.TT_exists m c1 c2 <;> simp only [g1, g2, g3, if_true, if_false, and_true, and_false, SF.Table.set] <;>
    first | rfl | (split_ifs <;> first | rfl | omega)

open Classical in
theorem PairRel.cc00_length {sp : SF.HCSpace} (h : PairRel T m m' c1 c2 c1' c2')
    (h1 : ¬ SF.configuration_equal c1.start c2.start)
    (h2 : ¬ SF.configuration_aligned c1.start c2.start) (h3 : ¬ SF.configuration_aligned c2.start c1.start)
    (h4 : ¬ SF.configuration_on_hc_cc_circle c1 c2.start)
    (h1' : ¬ SF.configuration_equal c1'.start c2'.start)
    (h2' : ¬ SF.configuration_aligned c1'.start c2'.start) (h3' : ¬ SF.configuration_aligned c2'.start c1'.start)
    (h4' : ¬ SF.configuration_on_hc_cc_circle c1' c2'.start) (i : ℕ) :
    (SF.CC00.table sp m' c1' c2' i).length = (SF.CC00.table sp m c1 c2 i).length := by
  rw [cc00_table h1 h2 h3 h4, cc00_table h1' h2' h3' h4', h.TTT_exists, h.TiST_exists, h.TeST_exists, h.TT_exists,
    h.TTT_path, h.TST_path, h.TT_path]

end

section
variable {sp : SF.HCSpace} (H : Rng sp.kappa sp.sigma) {s1 s2 : SF.State} (h : Open sp s1 s2)

include H h in
theorem Open.cc00_pair {l1 l2 l1' l2' f1 f2 r1 r2 : Bool} (e1 : l1' = (l1 ^^ T.mirrored)) (e2 : l2' = (l2 ^^ T.mirrored)) :
    (SF.CC00.circles_dubins_path sp (SF.circleAt (confOf (T.move s1)) l1' f1 r1 sp.param)
      (SF.circleAt (confOf (T.move s2)) l2' f2 r2 sp.param)).length
    = (SF.CC00.circles_dubins_path sp (SF.circleAt (confOf s1) l1 f1 r1 sp.param) (SF.circleAt (confOf s2) l2 f2 r2 sp.param)).length := by
  have h' := h.move H T
  have e := PairRel.cc00_length (sp := sp) (h.pair (T := T) H (f1 := f1) (f2 := f2) (r1 := r1) (r2 := r2) e1 e2) (h.not_equal H)
    (fun g => h.line (onLine_of_aligned g)) (fun g => h.line (onLine_of_aligned' g)) (h.not_on H)
    (h'.not_equal H) (fun g => h'.line (onLine_of_aligned g)) (fun g => h'.line (onLine_of_aligned' g)) (h'.not_on H)
  unfold SF.CC00.circles_dubins_path SF.CC00.body SF.Table.best SF.CCPath.length
  dsimp only
  rw [e, funext e]

include H h in
theorem Open.cc00 (T : Motion) : SF.CC00.get_distance sp (T.move s1) (T.move s2) = SF.CC00.get_distance sp s1 s2 := by
  have key : ∀ n < 4, ∃ n' < 4, (SF.CC00.path sp (T.move s1) (T.move s2) n').length = (SF.CC00.path sp s1 s2 n).length ∧
      ∃ n'' < 4, (SF.CC00.path sp (T.move s1) (T.move s2) n).length = (SF.CC00.path sp s1 s2 n'').length := by
    intro n hn
    cases hT : T.mirrored
    · have : (SF.CC00.path sp (T.move s1) (T.move s2) n).length = (SF.CC00.path sp s1 s2 n).length :=
        h.cc00_pair H (by rw [hT, Bool.xor_false]) (by rw [hT, Bool.xor_false])
      exact ⟨n, hn, this, n, hn, this⟩
    · refine ⟨3 - n, by omega, h.cc00_pair H ?_ ?_, 3 - n, by omega, h.cc00_pair H ?_ ?_⟩ <;> rw [hT] <;>
        interval_cases n <;> rfl
  have a := C04_array_index_min (fun n => (SF.CC00.path sp s1 s2 n).length) 4 (by norm_num)
  have b := C04_array_index_min (fun n => (SF.CC00.path sp (T.move s1) (T.move s2) n).length) 4 (by norm_num)
  unfold SF.CC00.get_distance SF.CC00.cc00_dubins
  dsimp only
  apply le_antisymm
  · obtain ⟨n', hn', e, _⟩ := key _ a.1
    rw [← e]
    exact b.2.1 n' hn'
  · obtain ⟨_, _, _, n', hn', e⟩ := key _ b.1
    rw [e]
    exact a.2.1 n' hn'

end

end Spec
