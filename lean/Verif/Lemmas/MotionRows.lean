import Verif.Lemmas.MotionFamilies

/-!
# Motions of the plane: rows of the tables of CC-Reeds-Shepp
-/

noncomputable section

namespace Spec

open Real

variable {T : Motion} {m m' : SF.Scratch} {c1 c1' c2 c2' : SF.Circle} {P : SF.CircleParam}

/-- Two pairs of circles related by `T`, with different centres. -/
structure PairRel (T : Motion) (m m' : SF.Scratch) (c1 c2 c1' c2' : SF.Circle) : Prop where
  h1 : CircRel T c1 c1'
  h2 : CircRel T c2 c2'
  hm : SRel T m m'
  loc : Loc c1 m.angle c2 m.distance 0
  dist : 0 < m.distance
  diff : Diff c1 c2
  pos : Pos c1 c2

theorem PairRel.of (h1 : CircRel T c1 c1') (h2 : CircRel T c2 c2') (hd : Diff c1 c2) (hp : Pos c1 c2) :
    PairRel T (SF.scratch c1 c2) (SF.scratch c1' c2') c1 c2 c1' c2' :=
  ⟨h1, h2, h1.toDiscRel.scratch h2.toDiscRel hd, Loc.other c1 c2, hd.distance, hd, hp⟩

theorem PairRel.lefts (h : PairRel T m m' c1 c2 c1' c2') : (c1'.left = c2'.left) = (c1.left = c2.left) := by
  rw [h.h1.left, h.h2.left]
  cases c1.left <;> cases c2.left <;> cases T.mirrored <;> simp

theorem PairRel.fwds (h : PairRel T m m' c1 c2 c1' c2') : (c1'.forward = c2'.forward) = (c1.forward = c2.forward) := by
  rw [h.h1.forward, h.h2.forward]

theorem sq_sum_ne {u v u' v' r : ℝ} (h : (u' - u) ^ 2 + (v' - v) ^ 2 = r ^ 2) (hr : r ≠ 0) : (u' - u) ^ 2 + (v' - v) ^ 2 ≠ 0 := by
  rw [h]; exact pow_ne_zero 2 hr

theorem sq_sum_ne_left {u v u' v' : ℝ} (h : u' - u ≠ 0) : (u' - u) ^ 2 + (v' - v) ^ 2 ≠ 0 := by positivity

theorem sq_sum_ne_right {u v u' v' : ℝ} (h : v' - v ≠ 0) : (u' - u) ^ 2 + (v' - v) ^ 2 ≠ 0 := by positivity

theorem sq_of_abs_sqrt {z a : ℝ} (h : |z| = |√a|) (ha : 0 ≤ a) : z ^ 2 = a := by
  rw [← sq_abs, h, sq_abs, sq_sqrt ha]

/-! ### Existence -/

set_option linter.unusedSimpArgs false

theorem PairRel.TT_exists (h : PairRel T m m' c1 c2 c1' c2') : SF.CcRs.TT_exists m' c1' c2' = SF.CcRs.TT_exists m c1 c2 := by
  simp only [SF.CcRs.TT_exists, SF.CC00.TT_exists, ne_eq, h.lefts, h.fwds, h.hm.distance, h.h1.radius, h.h1.sin_mu, h.h1.cos_mu]

theorem PairRel.TcT_exists (h : PairRel T m m' c1 c2 c1' c2') : SF.CcRs.TcT_exists m' c1' c2' = SF.CcRs.TcT_exists m c1 c2 := by
  simp only [SF.CcRs.TcT_exists, ne_eq, h.lefts, h.fwds, h.hm.distance, h.h1.radius, h.h1.sin_mu, h.h1.cos_mu]

theorem PairRel.TcTcT_exists (h : PairRel T m m' c1 c2 c1' c2') : SF.CcRs.TcTcT_exists m' c1' c2' = SF.CcRs.TcTcT_exists m c1 c2 := by
  simp only [SF.CcRs.TcTcT_exists, ne_eq, h.lefts, h.fwds, h.hm.distance, h.h1.radius, h.h1.sin_mu, h.h1.cos_mu]

theorem PairRel.TcTT_exists (h : PairRel T m m' c1 c2 c1' c2') : SF.CcRs.TcTT_exists m' c1' c2' = SF.CcRs.TcTT_exists m c1 c2 := by
  simp only [SF.CcRs.TcTT_exists, ne_eq, h.lefts, h.fwds, h.hm.distance, h.h1.radius, h.h1.sin_mu, h.h1.cos_mu]

theorem PairRel.TTcT_exists (h : PairRel T m m' c1 c2 c1' c2') : SF.CcRs.TTcT_exists m' c1' c2' = SF.CcRs.TTcT_exists m c1 c2 := by
  simp only [SF.CcRs.TTcT_exists, ne_eq, h.lefts, h.fwds, h.hm.distance, h.h1.radius, h.h1.sin_mu, h.h1.cos_mu]

theorem PairRel.TiST_exists (h : PairRel T m m' c1 c2 c1' c2') : SF.CcRs.TiST_exists m' c1' c2' = SF.CcRs.TiST_exists m c1 c2 := by
  simp only [SF.CcRs.TiST_exists, SF.CC00.TiST_exists, ne_eq, h.lefts, h.fwds, h.hm.distance, h.h1.radius, h.h1.sin_mu, h.h1.cos_mu]

theorem PairRel.TeST_exists (h : PairRel T m m' c1 c2 c1' c2') : SF.CcRs.TeST_exists m' c1' c2' = SF.CcRs.TeST_exists m c1 c2 := by
  simp only [SF.CcRs.TeST_exists, SF.CC00.TeST_exists, ne_eq, h.lefts, h.fwds, h.hm.distance, h.h1.radius, h.h1.sin_mu, h.h1.cos_mu]

theorem PairRel.TiSTcT_exists (h : PairRel T m m' c1 c2 c1' c2') : SF.CcRs.TiSTcT_exists m' c1' c2' = SF.CcRs.TiSTcT_exists m c1 c2 := by
  simp only [SF.CcRs.TiSTcT_exists, ne_eq, h.lefts, h.fwds, h.hm.distance, h.h1.radius, h.h1.sin_mu, h.h1.cos_mu]

theorem PairRel.TeSTcT_exists (h : PairRel T m m' c1 c2 c1' c2') : SF.CcRs.TeSTcT_exists m' c1' c2' = SF.CcRs.TeSTcT_exists m c1 c2 := by
  simp only [SF.CcRs.TeSTcT_exists, ne_eq, h.lefts, h.fwds, h.hm.distance, h.h1.radius, h.h1.sin_mu, h.h1.cos_mu]

theorem PairRel.TcTiST_exists (h : PairRel T m m' c1 c2 c1' c2') : SF.CcRs.TcTiST_exists m' c1' c2' = SF.CcRs.TcTiST_exists m c1 c2 := by
  simp only [SF.CcRs.TcTiST_exists, ne_eq, h.lefts, h.fwds, h.hm.distance, h.h1.radius, h.h1.sin_mu, h.h1.cos_mu]

theorem PairRel.TcTeST_exists (h : PairRel T m m' c1 c2 c1' c2') : SF.CcRs.TcTeST_exists m' c1' c2' = SF.CcRs.TcTeST_exists m c1 c2 := by
  simp only [SF.CcRs.TcTeST_exists, ne_eq, h.lefts, h.fwds, h.hm.distance, h.h1.radius, h.h1.sin_mu, h.h1.cos_mu]

theorem PairRel.TcTiSTcT_exists (h : PairRel T m m' c1 c2 c1' c2') : SF.CcRs.TcTiSTcT_exists m' c1' c2' = SF.CcRs.TcTiSTcT_exists m c1 c2 := by
  simp only [SF.CcRs.TcTiSTcT_exists, ne_eq, h.lefts, h.fwds, h.hm.distance, h.h1.radius, h.h1.sin_mu, h.h1.cos_mu]

theorem PairRel.TcTeSTcT_exists (h : PairRel T m m' c1 c2 c1' c2') : SF.CcRs.TcTeSTcT_exists m' c1' c2' = SF.CcRs.TcTeSTcT_exists m c1 c2 := by
  simp only [SF.CcRs.TcTeSTcT_exists, ne_eq, h.lefts, h.fwds, h.hm.distance, h.h1.radius, h.h1.sin_mu, h.h1.cos_mu]

theorem PairRel.TTcTT_exists (h : PairRel T m m' c1 c2 c1' c2') : SF.CcRs.TTcTT_exists m' c1' c2' = SF.CcRs.TTcTT_exists m c1 c2 := by
  simp only [SF.CcRs.TTcTT_exists, ne_eq, h.lefts, h.fwds, h.hm.distance, h.h1.radius, h.h1.sin_mu, h.h1.cos_mu]

theorem PairRel.TcTTcT_exists (h : PairRel T m m' c1 c2 c1' c2') : SF.CcRs.TcTTcT_exists m' c1' c2' = SF.CcRs.TcTTcT_exists m c1 c2 := by
  simp only [SF.CcRs.TcTTcT_exists, ne_eq, h.lefts, h.fwds, h.hm.distance, h.h1.radius, h.h1.sin_mu, h.h1.cos_mu]

theorem PairRel.TTT_exists (h : PairRel T m m' c1 c2 c1' c2') : SF.CcRs.TTT_exists m' c1' c2' = SF.CcRs.TTT_exists m c1 c2 := by
  simp only [SF.CcRs.TTT_exists, SF.CC00.TTT_exists, ne_eq, h.lefts, h.fwds, h.hm.distance, h.h1.radius, h.h1.sin_mu, h.h1.cos_mu]

theorem PairRel.TciST_exists (h : PairRel T m m' c1 c2 c1' c2') : SF.CcRs.TciST_exists m' c1' c2' = SF.CcRs.TciST_exists m c1 c2 := by
  simp only [SF.CcRs.TciST_exists, ne_eq, h.lefts, h.fwds, h.hm.distance, h.h1.radius, h.h1.sin_mu, h.h1.cos_mu]

theorem PairRel.TceST_exists (h : PairRel T m m' c1 c2 c1' c2') : SF.CcRs.TceST_exists m' c1' c2' = SF.CcRs.TceST_exists m c1 c2 := by
  simp only [SF.CcRs.TceST_exists, ne_eq, h.lefts, h.fwds, h.hm.distance, h.h1.radius, h.h1.sin_mu, h.h1.cos_mu]

theorem PairRel.TiScT_exists (h : PairRel T m m' c1 c2 c1' c2') : SF.CcRs.TiScT_exists m' c1' c2' = SF.CcRs.TiScT_exists m c1 c2 := by
  simp only [SF.CcRs.TiScT_exists, ne_eq, h.lefts, h.fwds, h.hm.distance, h.h1.radius, h.h1.sin_mu, h.h1.cos_mu]

theorem PairRel.TeScT_exists (h : PairRel T m m' c1 c2 c1' c2') : SF.CcRs.TeScT_exists m' c1' c2' = SF.CcRs.TeScT_exists m c1 c2 := by
  simp only [SF.CcRs.TeScT_exists, ne_eq, h.lefts, h.fwds, h.hm.distance, h.h1.radius, h.h1.sin_mu, h.h1.cos_mu]

theorem PairRel.TciScT_exists (h : PairRel T m m' c1 c2 c1' c2') : SF.CcRs.TciScT_exists m' c1' c2' = SF.CcRs.TciScT_exists m c1 c2 := by
  simp only [SF.CcRs.TciScT_exists, ne_eq, h.lefts, h.fwds, h.hm.distance, h.h1.radius, h.h1.sin_mu, h.h1.cos_mu]

theorem PairRel.TceScT_exists (h : PairRel T m m' c1 c2 c1' c2') : SF.CcRs.TceScT_exists m' c1' c2' = SF.CcRs.TceScT_exists m c1 c2 := by
  simp only [SF.CcRs.TceScT_exists, ne_eq, h.lefts, h.fwds, h.hm.distance, h.h1.radius, h.h1.sin_mu, h.h1.cos_mu]

/-! ### Families with two sides -/

theorem PairRel.TcTcT_path (h : PairRel T m m' c1 c2 c1' c2') :
    (SF.CcRs.TcTcT_path P m' c1' c2').length = (SF.CcRs.TcTcT_path P m c1 c2).length := by
  unfold SF.CcRs.TcTcT_path
  dsimp only
  rw [h.h1.radius, h.h1.cos_mu, h.hm.distance]
  have hD := h.dist
  refine shorter_rel T (f := SF.CcRs.TcTcT_side P m c1 c2 _) (g := SF.CcRs.TcTcT_side P m' c1' c2' _) fun z _ => ?_
  refine TcTcT_side_rel h.h1 h.h2 h.hm ((Loc.self _ _).diff Loc.frame (sq_sum_ne_left ?_)) (Loc.frame.diff h.loc (sq_sum_ne_left ?_))
  · norm_num; exact hD.ne'
  · refine ne_of_gt ?_; norm_num; linarith

theorem PairRel.TTT_path (h : PairRel T m m' c1 c2 c1' c2') :
    (SF.CcRs.TTT_path P m' c1' c2').length = (SF.CcRs.TTT_path P m c1 c2).length := by
  unfold SF.CcRs.TTT_path
  dsimp only
  rw [h.h1.radius, h.hm.distance]
  have hD := h.dist
  refine shorter_rel T (f := SF.CcRs.TTT_side P m c1 c2 _) (g := SF.CcRs.TTT_side P m' c1' c2' _) fun z _ => ?_
  refine TTT_side_rel h.h1 h.h2 h.hm ((Loc.self _ _).diff Loc.frame (sq_sum_ne_left ?_)) (Loc.frame.diff h.loc (sq_sum_ne_left ?_))
  · norm_num; exact hD.ne'
  · refine ne_of_gt ?_; norm_num; linarith

open Classical in
theorem PairRel.TcTT_path (h : PairRel T m m' c1 c2 c1' c2') :
    (SF.CcRs.TcTT_path P m' c1' c2').length = (SF.CcRs.TcTT_path P m c1 c2).length := by
  unfold SF.CcRs.TcTT_path
  dsimp only
  rw [h.h1.radius, h.h1.cos_mu, h.hm.distance]
  have hD := h.dist
  have hR := h.pos.radius
  have hC := h.pos.cos_mu
  obtain ⟨x, hx⟩ : ∃ x, x = ((2 * c1.radius * c1.cos_mu) ^ 2 + m.distance ^ 2 - (2 * c1.radius) ^ 2) / (2 * m.distance) := ⟨_, rfl⟩
  rw [← hx]
  by_cases hc : m.distance = 0 ∨ (2 * c1.radius * c1.cos_mu) ^ 2 - x ^ 2 < 0
  · rw [if_pos hc, if_pos hc]
  rw [if_neg hc, if_neg hc]
  push Not at hc
  refine shorter_rel T (f := SF.CcRs.TcTT_side P m c1 c2 _) (g := SF.CcRs.TcTT_side P m' c1' c2' _) fun z hz => ?_
  have hz2 := sq_of_abs_sqrt hz hc.2
  have hx' : x * (2 * m.distance) = (2 * c1.radius * c1.cos_mu) ^ 2 + m.distance ^ 2 - (2 * c1.radius) ^ 2 := by
    rw [hx]; field_simp
  refine TcTT_side_rel h.h1 h.h2 h.hm ((Loc.self _ _).diff Loc.frame (sq_sum_ne (r := 2 * c1.radius * c1.cos_mu) ?_ ?_))
    (Loc.frame.diff h.loc (sq_sum_ne (r := 2 * c1.radius) ?_ ?_))
  · rw [sub_zero, sub_zero, hz2]; ring
  · positivity
  · linear_combination hz2 - hx'
  · positivity

open Classical in
theorem PairRel.TTcT_path (h : PairRel T m m' c1 c2 c1' c2') :
    (SF.CcRs.TTcT_path P m' c1' c2').length = (SF.CcRs.TTcT_path P m c1 c2).length := by
  unfold SF.CcRs.TTcT_path
  dsimp only
  rw [h.h1.radius, h.h1.cos_mu, h.hm.distance]
  have hD := h.dist
  have hR := h.pos.radius
  have hC := h.pos.cos_mu
  obtain ⟨x, hx⟩ : ∃ x, x = ((2 * c1.radius) ^ 2 + m.distance ^ 2 - (2 * c1.radius * c1.cos_mu) ^ 2) / (2 * m.distance) := ⟨_, rfl⟩
  rw [← hx]
  by_cases hc : m.distance = 0 ∨ (2 * c1.radius) ^ 2 - x ^ 2 < 0
  · rw [if_pos hc, if_pos hc]
  rw [if_neg hc, if_neg hc]
  push Not at hc
  refine shorter_rel T (f := SF.CcRs.TTcT_side P m c1 c2 _) (g := SF.CcRs.TTcT_side P m' c1' c2' _) fun z hz => ?_
  have hz2 := sq_of_abs_sqrt hz hc.2
  have hx' : x * (2 * m.distance) = (2 * c1.radius) ^ 2 + m.distance ^ 2 - (2 * c1.radius * c1.cos_mu) ^ 2 := by
    rw [hx]; field_simp
  refine TTcT_side_rel h.h1 h.h2 h.hm ((Loc.self _ _).diff Loc.frame (sq_sum_ne (r := 2 * c1.radius) ?_ ?_))
    (Loc.frame.diff h.loc (sq_sum_ne (r := 2 * c1.radius * c1.cos_mu) ?_ ?_))
  · rw [sub_zero, sub_zero, hz2]; ring
  · positivity
  · linear_combination hz2 - hx'
  · positivity

open Classical in
theorem PairRel.TTcTT_path (h : PairRel T m m' c1 c2 c1' c2') :
    (SF.CcRs.TTcTT_path P m' c1' c2').length = (SF.CcRs.TTcTT_path P m c1 c2).length := by
  unfold SF.CcRs.TTcTT_path
  dsimp only
  rw [h.h1.radius, h.h1.cos_mu, h.hm.distance]
  have hD := h.dist
  have hR := h.pos.radius
  have hC := h.pos.cos_mu
  obtain ⟨x, hx⟩ : ∃ x, x = (if m.distance < 2 * c1.radius * (-c1.cos_mu + 2) then (m.distance + 2 * c1.radius * c1.cos_mu) / 2
    else (m.distance - 2 * c1.radius * c1.cos_mu) / 2) := ⟨_, rfl⟩
  rw [← hx]
  by_cases hc : (2 * c1.radius) ^ 2 - x ^ 2 < 0
  · rw [if_pos hc, if_pos hc]
  rw [if_neg hc, if_neg hc]
  push Not at hc
  refine shorter_rel T (f := SF.CcRs.TTcTT_side P m c1 c2 _) (g := SF.CcRs.TTcTT_side P m' c1' c2' _) fun z hz => ?_
  have hz2 := sq_of_abs_sqrt hz hc
  refine TTcTT_side_rel h.h1 h.h2 h.hm ((Loc.self _ _).diff Loc.frame (sq_sum_ne (r := 2 * c1.radius) ?_ ?_))
    (Loc.frame.diff (Loc.frame2 h.loc) (sq_sum_ne_left ?_)) ((Loc.frame2 h.loc).diff h.loc (sq_sum_ne (r := 2 * c1.radius) ?_ ?_))
  · rw [sub_zero, sub_zero, hz2]; ring
  · positivity
  · have : 0 < c1.radius * c1.cos_mu := by positivity
    split_ifs at hx <;> rw [hx]
    · refine ne_of_lt ?_; linarith
    · refine ne_of_gt ?_; linarith
  · linear_combination hz2
  · positivity

open Classical in
theorem PairRel.TcTTcT_path (h : PairRel T m m' c1 c2 c1' c2') :
    (SF.CcRs.TcTTcT_path P m' c1' c2').length = (SF.CcRs.TcTTcT_path P m c1 c2).length := by
  unfold SF.CcRs.TcTTcT_path
  dsimp only
  rw [h.h1.radius, h.h1.cos_mu, h.hm.distance]
  have hD := h.dist
  have hR := h.pos.radius
  have hC := h.pos.cos_mu
  obtain ⟨x, hx⟩ : ∃ x, x = ((2 * c1.radius * c1.cos_mu) ^ 2 + (m.distance / 2) ^ 2 - c1.radius ^ 2) / m.distance := ⟨_, rfl⟩
  rw [← hx]
  by_cases hc : m.distance = 0 ∨ (2 * c1.radius * c1.cos_mu) ^ 2 - x ^ 2 < 0
  · rw [if_pos hc, if_pos hc]
  rw [if_neg hc, if_neg hc]
  push Not at hc
  refine shorter_rel T (f := SF.CcRs.TcTTcT_side P m c1 c2 _) (g := SF.CcRs.TcTTcT_side P m' c1' c2' _) fun z hz => ?_
  have hz2 := sq_of_abs_sqrt hz hc.2
  have hx' : x * m.distance = (2 * c1.radius * c1.cos_mu) ^ 2 + (m.distance / 2) ^ 2 - c1.radius ^ 2 := by
    rw [hx]; field_simp
  refine TcTTcT_side_rel h.h1 h.h2 h.hm ((Loc.self _ _).diff Loc.frame (sq_sum_ne (r := 2 * c1.radius * c1.cos_mu) ?_ ?_))
    (Loc.frame.diff (Loc.frame2 h.loc) (sq_sum_ne (r := 2 * c1.radius) ?_ ?_))
    ((Loc.frame2 h.loc).diff h.loc (sq_sum_ne (r := 2 * c1.radius * c1.cos_mu) ?_ ?_))
  · rw [sub_zero, sub_zero, hz2]; ring
  · positivity
  · linear_combination 4 * hz2 - 4 * hx'
  · positivity
  · linear_combination hz2
  · positivity

/-! ### Families with a line -/

open Classical in
theorem PairRel.TST_path (h : PairRel T m m' c1 c2 c1' c2') :
    (SF.CcRs.TST_path m' c1' c2').length = (SF.CcRs.TST_path m c1 c2).length := by
  unfold SF.CcRs.TST_path
  rw [h.TiST_exists, h.TeST_exists]
  by_cases g1 : SF.CcRs.TiST_exists m c1 c2
  · rw [if_pos g1, if_pos g1]
    exact line_row_rel h.h1 h.h2 (TiST_rel h.h1.toDiscRel h.h2.toDiscRel h.diff)
  rw [if_neg g1, if_neg g1]
  by_cases g2 : SF.CcRs.TeST_exists m c1 c2
  · rw [if_pos g2, if_pos g2]
    exact line_row_rel h.h1 h.h2 (TeST_rel h.h1.toDiscRel h.h2.toDiscRel h.diff)
  rw [if_neg g2, if_neg g2]

open Classical in
theorem PairRel.TcST_path (h : PairRel T m m' c1 c2 c1' c2') :
    (SF.CcRs.TcST_path m' c1' c2').length = (SF.CcRs.TcST_path m c1 c2).length := by
  unfold SF.CcRs.TcST_path
  rw [h.TciST_exists, h.TceST_exists]
  by_cases g1 : SF.CcRs.TciST_exists m c1 c2
  · rw [if_pos g1, if_pos g1]
    exact line_row_rel h.h1 h.h2 (TciST_rel h.h1.toDiscRel h.h2.toDiscRel h.hm)
  rw [if_neg g1, if_neg g1]
  by_cases g2 : SF.CcRs.TceST_exists m c1 c2
  · rw [if_pos g2, if_pos g2]
    exact line_row_rel h.h1 h.h2 (TceST_rel h.h1.toDiscRel h.h2.toDiscRel h.hm)
  rw [if_neg g2, if_neg g2]

open Classical in
theorem PairRel.TScT_path (h : PairRel T m m' c1 c2 c1' c2') :
    (SF.CcRs.TScT_path m' c1' c2').length = (SF.CcRs.TScT_path m c1 c2).length := by
  unfold SF.CcRs.TScT_path
  rw [h.TiScT_exists, h.TeScT_exists]
  by_cases g1 : SF.CcRs.TiScT_exists m c1 c2
  · rw [if_pos g1, if_pos g1]
    exact line_row_rel h.h1 h.h2 (TiScT_rel h.h1.toDiscRel h.h2.toDiscRel h.hm)
  rw [if_neg g1, if_neg g1]
  by_cases g2 : SF.CcRs.TeScT_exists m c1 c2
  · rw [if_pos g2, if_pos g2]
    exact line_row_rel h.h1 h.h2 (TeScT_rel h.h1.toDiscRel h.h2.toDiscRel h.hm)
  rw [if_neg g2, if_neg g2]

open Classical in
theorem PairRel.TcScT_path (h : PairRel T m m' c1 c2 c1' c2') :
    (SF.CcRs.TcScT_path m' c1' c2').length = (SF.CcRs.TcScT_path m c1 c2).length := by
  unfold SF.CcRs.TcScT_path
  rw [h.TciScT_exists, h.TceScT_exists]
  by_cases g1 : SF.CcRs.TciScT_exists m c1 c2
  · rw [if_pos g1, if_pos g1]
    exact line_row_rel h.h1 h.h2 (TciScT_rel h.h1.toDiscRel h.h2.toDiscRel h.hm)
  rw [if_neg g1, if_neg g1]
  by_cases g2 : SF.CcRs.TceScT_exists m c1 c2
  · rw [if_pos g2, if_pos g2]
    exact line_row_rel h.h1 h.h2 (TceScT_rel h.h1.toDiscRel h.h2.toDiscRel h.hm)
  rw [if_neg g2, if_neg g2]

/-! ### Two turns -/

theorem PairRel.TT_path (h : PairRel T m m' c1 c2 c1' c2') :
    (SF.CcRs.TT_path c1' c2').length = (SF.CcRs.TT_path c1 c2).length := by
  have e := TT_rel h.h1.toDiscRel h.h2.toDiscRel h.diff
  unfold SF.CcRs.TT_path SF.CcRs.TT_tangent_circles
  dsimp only
  rw [h.h1.cc e, h.h2.cc e]

open Classical in
theorem PairRel.TcT_path (h : PairRel T m m' c1 c2 c1' c2') :
    (SF.CcRs.TcT_path c1' c2').length = (SF.CcRs.TcT_path c1 c2).length := by
  have e := TcT_rel h.h1.toDiscRel h.h2.toDiscRel h.diff
  have t := TcT_theta_rel h.h1.toDiscRel h.h2.toDiscRel h.diff
  have e1 : CfgRel T (SF.CcRs.blind c1 (SF.CcRs.TcT_theta c1 c2)) (SF.CcRs.blind c1' (SF.CcRs.TcT_theta c1' c2')) :=
    CfgRel.of h.h1.start.pos t
  have e2 : CfgRel T (SF.CcRs.blind c2 (SF.CcRs.TcT_theta c1 c2)) (SF.CcRs.blind c2' (SF.CcRs.TcT_theta c1' c2')) :=
    CfgRel.of h.h2.start.pos t
  have en : SF.CcRs.TcT_negative c1' c2' = SF.CcRs.TcT_negative c1 c2 := by
    simp only [SF.CcRs.TcT_negative, h.h1.radius, h.h1.toDiscRel.dist h.h2.toDiscRel]
  unfold SF.CcRs.TcT_path
  dsimp only
  rw [en]
  by_cases g : SF.CcRs.TcT_negative c1 c2
  · simp only [if_pos g]; rw [h.h1.cc e1, h.h2.cc e2]
  · simp only [if_neg g]; rw [h.h1.cc e, h.h2.cc e]

/-! ### A cusp and a line -/

theorem PairRel.TiSTcT_path (h : PairRel T m m' c1 c2 c1' c2') (hT : T.mirrored = false) :
    (SF.CcRs.TiSTcT_path P m' c1' c2').length = (SF.CcRs.TiSTcT_path P m c1 c2).length := by
  have hD := h.dist
  have hR := h.pos.radius
  have hC := h.pos.cos_mu
  have hS := h.pos.sin_mu
  have hR2 := h.pos.radius2
  have hC2 := h.pos.cos2
  unfold SF.CcRs.TiSTcT_path SF.CcRs.TiST_tangent_circles
  dsimp only
  rw [h.hm.distance, h.h2.radius, h.h2.cos_mu]
  have hS1 : T.sign = 1 := by rw [Motion.sign, hT]; rfl
  have hyne : (2 * (c2.radius * c2.cos_mu)) ^ 2 / m.distance ≠ 0 := by rw [hR2, hC2]; positivity
  generalize (2 * (c2.radius * c2.cos_mu)) ^ 2 / m.distance = y at *
  generalize 2 * (c2.radius * c2.cos_mu) * √(1 - y / m.distance) = x at *
  have gt := DiscRel.centered (P := P) (h.h2.pos.frame h.hm.angle (a := -x) (a' := -x) (b := y) (b' := y) rfl (by rw [hS1, one_mul]))
    (l := (!c2.left)) (l' := (!c2'.left)) (f := c2.forward) (f' := c2'.forward) (r := c2.regular) (r' := c2'.regular)
    (by rw [h.h2.left]; cases c2.left <;> cases T.mirrored <;> rfl) (by rw [h.h2.forward]) (by rw [h.h2.regular])
  have eq := TiST_rel h.h1.toDiscRel gt ((Loc.self _ _).diff (Loc.frame2 h.loc) (sq_sum_ne_right (by rwa [sub_zero])))
  have e3 := TcT_rel gt h.h2.toDiscRel ((Loc.frame2 h.loc).diff h.loc (sq_sum_ne_right (by rwa [zero_sub, neg_ne_zero])))
  have em := CircRel.at (P := P) eq.2 (l := (!c1.left)) (l' := (!c1'.left)) (f := c1.forward) (f' := c1'.forward) (r := c1.regular) (r' := c1'.regular)
    (by rw [h.h1.left]; cases c1.left <;> cases T.mirrored <;> rfl) (by rw [h.h1.forward]) (by rw [h.h1.regular])
  rw [h.h1.cc eq.1, eq.1.dist eq.2, em.cc e3, h.h2.cc e3]

theorem PairRel.TcTiST_path (h : PairRel T m m' c1 c2 c1' c2') (hT : T.mirrored = false) :
    (SF.CcRs.TcTiST_path P m' c1' c2').length = (SF.CcRs.TcTiST_path P m c1 c2).length := by
  have hD := h.dist
  have hR := h.pos.radius
  have hC := h.pos.cos_mu
  have hS := h.pos.sin_mu
  have hR2 := h.pos.radius2
  have hC2 := h.pos.cos2
  unfold SF.CcRs.TcTiST_path SF.CcRs.TiST_tangent_circles
  dsimp only
  rw [h.hm.distance, h.h1.radius, h.h1.cos_mu]
  have hS1 : T.sign = 1 := by rw [Motion.sign, hT]; rfl
  have hyne : (2 * (c1.radius * c1.cos_mu)) ^ 2 / m.distance ≠ 0 := by positivity
  generalize (2 * (c1.radius * c1.cos_mu)) ^ 2 / m.distance = y at *
  generalize 2 * (c1.radius * c1.cos_mu) * √(1 - y / m.distance) = x at *
  have gt := DiscRel.centered (P := P) (h.h1.pos.frame h.hm.angle (a := x) (a' := x) (b := -y) (b' := -y) rfl (by rw [hS1, one_mul]))
    (l := (!c2.left)) (l' := (!c2'.left)) (f := (!c2.forward)) (f' := (!c2'.forward)) (r := c2.regular) (r' := c2'.regular)
    (by rw [h.h2.left]; cases c2.left <;> cases T.mirrored <;> rfl) (by rw [h.h2.forward]) (by rw [h.h2.regular])
  have e1 := TcT_rel h.h1.toDiscRel gt ((Loc.self _ _).diff Loc.frame (sq_sum_ne_right (by rwa [sub_zero, neg_ne_zero])))
  have eq := TiST_rel gt h.h2.toDiscRel (Loc.frame.diff h.loc (sq_sum_ne_right (by rwa [sub_neg_eq_add, zero_add])))
  have em := CircRel.at (P := P) e1 (l := (!c1.left)) (l' := (!c1'.left)) (f := (!c1.forward)) (f' := (!c1'.forward)) (r := c1.regular) (r' := c1'.regular)
    (by rw [h.h1.left]; cases c1.left <;> cases T.mirrored <;> rfl) (by rw [h.h1.forward]) (by rw [h.h1.regular])
  rw [h.h1.cc e1, em.cc eq.1, eq.1.dist eq.2, h.h2.cc eq.2]

theorem PairRel.TcTiSTcT_path (h : PairRel T m m' c1 c2 c1' c2') (hT : T.mirrored = false) :
    (SF.CcRs.TcTiSTcT_path P m' c1' c2').length = (SF.CcRs.TcTiSTcT_path P m c1 c2).length := by
  have hD := h.dist
  have hR := h.pos.radius
  have hC := h.pos.cos_mu
  have hS := h.pos.sin_mu
  have hR2 := h.pos.radius2
  have hC2 := h.pos.cos2
  unfold SF.CcRs.TcTiSTcT_path SF.CcRs.TiST_tangent_circles
  dsimp only
  rw [h.hm.distance, h.h1.radius, h.h1.cos_mu]
  have hS1 : T.sign = 1 := by rw [Motion.sign, hT]; rfl
  have hyne : (2 * (c1.radius * c1.cos_mu)) ^ 2 / m.distance ≠ 0 := by positivity
  generalize (2 * (c1.radius * c1.cos_mu)) ^ 2 / m.distance = y at *
  generalize 2 * (c1.radius * c1.cos_mu) * √(1 - y / m.distance) = x at *
  have g1 := DiscRel.centered (P := P) (h.h1.pos.frame h.hm.angle (a := x) (a' := x) (b := y) (b' := y) rfl (by rw [hS1, one_mul]))
    (l := (!c1.left)) (l' := (!c1'.left)) (f := (!c1.forward)) (f' := (!c1'.forward)) (r := c1.regular) (r' := c1'.regular)
    (by rw [h.h1.left]; cases c1.left <;> cases T.mirrored <;> rfl) (by rw [h.h1.forward]) (by rw [h.h1.regular])
  have g2 := DiscRel.centered (P := P) (h.h2.pos.frame h.hm.angle (a := -x) (a' := -x) (b := -y) (b' := -y) rfl (by rw [hS1, one_mul]))
    (l := (!c2.left)) (l' := (!c2'.left)) (f := c2.forward) (f' := c2'.forward) (r := c2.regular) (r' := c2'.regular)
    (by rw [h.h2.left]; cases c2.left <;> cases T.mirrored <;> rfl) (by rw [h.h2.forward]) (by rw [h.h2.regular])
  have e1 := TcT_rel h.h1.toDiscRel g1 ((Loc.self _ _).diff Loc.frame (sq_sum_ne_right (by rwa [sub_zero])))
  have eq := TiST_rel g1 g2 (Loc.frame.diff (Loc.frame2 h.loc) (sq_sum_ne_right (by
    rw [show -y - y = -(2 * y) by ring, neg_ne_zero]; positivity)))
  have e4 := TcT_rel g2 h.h2.toDiscRel ((Loc.frame2 h.loc).diff h.loc (sq_sum_ne_right (by rwa [sub_neg_eq_add, zero_add])))
  have em1 := CircRel.at (P := P) e1 (l := (!c1.left)) (l' := (!c1'.left)) (f := (!c1.forward)) (f' := (!c1'.forward)) (r := c1.regular) (r' := c1'.regular)
    (by rw [h.h1.left]; cases c1.left <;> cases T.mirrored <;> rfl) (by rw [h.h1.forward]) (by rw [h.h1.regular])
  have em2 := CircRel.at (P := P) eq.2 (l := (!c2.left)) (l' := (!c2'.left)) (f := c2.forward) (f' := c2'.forward) (r := c2.regular) (r' := c2'.regular)
    (by rw [h.h2.left]; cases c2.left <;> cases T.mirrored <;> rfl) (by rw [h.h2.forward]) (by rw [h.h2.regular])
  rw [h.h1.cc e1, em1.cc eq.1, eq.1.dist eq.2, em2.cc e4, h.h2.cc e4]

theorem PairRel.TeSTcT_path (h : PairRel T m m' c1 c2 c1' c2') (he : SF.CcRs.TeSTcT_exists m c1 c2) :
    (SF.CcRs.TeSTcT_path P m' c1' c2').length = (SF.CcRs.TeSTcT_path P m c1 c2).length := by
  have hD := h.dist
  have hR := h.pos.radius
  have hC := h.pos.cos_mu
  have hS := h.pos.sin_mu
  have hR2 := h.pos.radius2
  have hC2 := h.pos.cos2
  unfold SF.CcRs.TeSTcT_path SF.CcRs.TeST_tangent_circles
  dsimp only
  rw [h.h2.radius, h.h2.cos_mu]
  have hx : 0 < 2 * c2.radius * c2.cos_mu := by rw [hR2, hC2]; positivity
  have hxe : 2 * c2.radius * c2.cos_mu = 2 * c1.radius * c1.cos_mu := by rw [hR2, hC2]
  have hs : 0 < 2 * c1.radius * c1.sin_mu := by positivity
  have hge : 2 * c1.radius * (c1.cos_mu + c1.sin_mu) ≤ m.distance := by
    unfold SF.CcRs.TeSTcT_exists at he
    split_ifs at he
    exact he
  rw [mul_add] at hge
  generalize 2 * c2.radius * c2.cos_mu = x at *
  have gt := DiscRel.centered (P := P) (h.h2.pos.frame h.hm.angle (a := -x) (a' := -x) (b := 0) (b' := 0) rfl (by rw [mul_zero]))
    (l := (!c2.left)) (l' := (!c2'.left)) (f := c2.forward) (f' := c2'.forward) (r := c2.regular) (r' := c2'.regular)
    (by rw [h.h2.left]; cases c2.left <;> cases T.mirrored <;> rfl) (by rw [h.h2.forward]) (by rw [h.h2.regular])
  have eq := TeST_rel h.h1.toDiscRel gt ((Loc.self _ _).diff (Loc.frame2 h.loc) (sq_sum_ne_left (by refine ne_of_gt ?_; linarith)))
  have e3 := TcT_rel gt h.h2.toDiscRel ((Loc.frame2 h.loc).diff h.loc (sq_sum_ne_left (by refine ne_of_gt ?_; linarith)))
  have em := CircRel.at (P := P) eq.2 (l := c1.left) (l' := c1'.left) (f := c1.forward) (f' := c1'.forward) (r := c1.regular) (r' := c1'.regular)
    h.h1.left (by rw [h.h1.forward]) (by rw [h.h1.regular])
  rw [h.h1.cc eq.1, eq.1.dist eq.2, em.cc e3, h.h2.cc e3]

theorem PairRel.TcTeST_path (h : PairRel T m m' c1 c2 c1' c2') (he : SF.CcRs.TcTeST_exists m c1 c2) :
    (SF.CcRs.TcTeST_path P m' c1' c2').length = (SF.CcRs.TcTeST_path P m c1 c2).length := by
  have hD := h.dist
  have hR := h.pos.radius
  have hC := h.pos.cos_mu
  have hS := h.pos.sin_mu
  have hR2 := h.pos.radius2
  have hC2 := h.pos.cos2
  unfold SF.CcRs.TcTeST_path SF.CcRs.TeST_tangent_circles
  dsimp only
  rw [h.h2.radius, h.h2.cos_mu]
  have hx : 0 < 2 * c2.radius * c2.cos_mu := by rw [hR2, hC2]; positivity
  have hxe : 2 * c2.radius * c2.cos_mu = 2 * c1.radius * c1.cos_mu := by rw [hR2, hC2]
  have hs : 0 < 2 * c1.radius * c1.sin_mu := by positivity
  have hge : 2 * c1.radius * (c1.cos_mu + c1.sin_mu) ≤ m.distance := by
    unfold SF.CcRs.TcTeST_exists at he
    split_ifs at he
    exact he
  rw [mul_add] at hge
  generalize 2 * c2.radius * c2.cos_mu = x at *
  have gt := DiscRel.centered (P := P) (h.h1.pos.frame h.hm.angle (a := x) (a' := x) (b := 0) (b' := 0) rfl (by rw [mul_zero]))
    (l := c2.left) (l' := c2'.left) (f := (!c2.forward)) (f' := (!c2'.forward)) (r := c2.regular) (r' := c2'.regular)
    h.h2.left (by rw [h.h2.forward]) (by rw [h.h2.regular])
  have e1 := TcT_rel h.h1.toDiscRel gt ((Loc.self _ _).diff Loc.frame (sq_sum_ne_left (by refine ne_of_gt ?_; linarith)))
  have eq := TeST_rel gt h.h2.toDiscRel (Loc.frame.diff h.loc (sq_sum_ne_left (by refine ne_of_gt ?_; linarith)))
  have em := CircRel.at (P := P) e1 (l := (!c1.left)) (l' := (!c1'.left)) (f := (!c1.forward)) (f' := (!c1'.forward)) (r := c1.regular) (r' := c1'.regular)
    (by rw [h.h1.left]; cases c1.left <;> cases T.mirrored <;> rfl) (by rw [h.h1.forward]) (by rw [h.h1.regular])
  rw [h.h1.cc e1, em.cc eq.1, eq.1.dist eq.2, h.h2.cc eq.2]

theorem PairRel.TcTeSTcT_path (h : PairRel T m m' c1 c2 c1' c2') (he : SF.CcRs.TcTeSTcT_exists m c1 c2) :
    (SF.CcRs.TcTeSTcT_path P m' c1' c2').length = (SF.CcRs.TcTeSTcT_path P m c1 c2).length := by
  have hD := h.dist
  have hR := h.pos.radius
  have hC := h.pos.cos_mu
  have hS := h.pos.sin_mu
  have hR2 := h.pos.radius2
  have hC2 := h.pos.cos2
  unfold SF.CcRs.TcTeSTcT_path SF.CcRs.TeST_tangent_circles
  dsimp only
  rw [h.h1.radius, h.h1.cos_mu]
  have hx : 0 < 2 * c1.radius * c1.cos_mu := by positivity
  have hxe : 2 * c1.radius * c1.cos_mu = 2 * c1.radius * c1.cos_mu := by rfl
  have hs : 0 < 2 * c1.radius * c1.sin_mu := by positivity
  have hge : 2 * c1.radius * (2 * c1.cos_mu + c1.sin_mu) ≤ m.distance := by
    unfold SF.CcRs.TcTeSTcT_exists at he
    split_ifs at he
    exact he
  rw [mul_add, show 2 * c1.radius * (2 * c1.cos_mu) = 2 * (2 * c1.radius * c1.cos_mu) by ring] at hge
  generalize 2 * c1.radius * c1.cos_mu = x at *
  have g1 := DiscRel.centered (P := P) (h.h1.pos.frame h.hm.angle (a := x) (a' := x) (b := 0) (b' := 0) rfl (by rw [mul_zero]))
    (l := (!c1.left)) (l' := (!c1'.left)) (f := (!c1.forward)) (f' := (!c1'.forward)) (r := c1.regular) (r' := c1'.regular)
    (by rw [h.h1.left]; cases c1.left <;> cases T.mirrored <;> rfl) (by rw [h.h1.forward]) (by rw [h.h1.regular])
  have g2 := DiscRel.centered (P := P) (h.h2.pos.frame h.hm.angle (a := -x) (a' := -x) (b := 0) (b' := 0) rfl (by rw [mul_zero]))
    (l := (!c2.left)) (l' := (!c2'.left)) (f := c2.forward) (f' := c2'.forward) (r := c2.regular) (r' := c2'.regular)
    (by rw [h.h2.left]; cases c2.left <;> cases T.mirrored <;> rfl) (by rw [h.h2.forward]) (by rw [h.h2.regular])
  have e1 := TcT_rel h.h1.toDiscRel g1 ((Loc.self _ _).diff Loc.frame (sq_sum_ne_left (by refine ne_of_gt ?_; linarith)))
  have eq := TeST_rel g1 g2 (Loc.frame.diff (Loc.frame2 h.loc) (sq_sum_ne_left (by refine ne_of_gt ?_; linarith)))
  have e4 := TcT_rel g2 h.h2.toDiscRel ((Loc.frame2 h.loc).diff h.loc (sq_sum_ne_left (by refine ne_of_gt ?_; linarith)))
  have em1 := CircRel.at (P := P) e1 (l := (!c1.left)) (l' := (!c1'.left)) (f := (!c1.forward)) (f' := (!c1'.forward)) (r := c1.regular) (r' := c1'.regular)
    (by rw [h.h1.left]; cases c1.left <;> cases T.mirrored <;> rfl) (by rw [h.h1.forward]) (by rw [h.h1.regular])
  have em2 := CircRel.at (P := P) eq.2 (l := (!c2.left)) (l' := (!c2'.left)) (f := c2.forward) (f' := c2'.forward) (r := c2.regular) (r' := c2'.regular)
    (by rw [h.h2.left]; cases c2.left <;> cases T.mirrored <;> rfl) (by rw [h.h2.forward]) (by rw [h.h2.regular])
  rw [h.h1.cc e1, em1.cc eq.1, eq.1.dist eq.2, em2.cc e4, h.h2.cc e4]

open Classical in
theorem PairRel.TSTcT_path (h : PairRel T m m' c1 c2 c1' c2') (hT : T.mirrored = false) :
    (SF.CcRs.TSTcT_path P m' c1' c2').length = (SF.CcRs.TSTcT_path P m c1 c2).length := by
  unfold SF.CcRs.TSTcT_path
  rw [h.TiSTcT_exists, h.TeSTcT_exists]
  by_cases g1 : SF.CcRs.TiSTcT_exists m c1 c2
  · rw [if_pos g1, if_pos g1]
    exact h.TiSTcT_path hT
  rw [if_neg g1, if_neg g1]
  by_cases g2 : SF.CcRs.TeSTcT_exists m c1 c2
  · rw [if_pos g2, if_pos g2]
    exact h.TeSTcT_path g2
  rw [if_neg g2, if_neg g2]

open Classical in
theorem PairRel.TcTST_path (h : PairRel T m m' c1 c2 c1' c2') (hT : T.mirrored = false) :
    (SF.CcRs.TcTST_path P m' c1' c2').length = (SF.CcRs.TcTST_path P m c1 c2).length := by
  unfold SF.CcRs.TcTST_path
  rw [h.TcTiST_exists, h.TcTeST_exists]
  by_cases g1 : SF.CcRs.TcTiST_exists m c1 c2
  · rw [if_pos g1, if_pos g1]
    exact h.TcTiST_path hT
  rw [if_neg g1, if_neg g1]
  by_cases g2 : SF.CcRs.TcTeST_exists m c1 c2
  · rw [if_pos g2, if_pos g2]
    exact h.TcTeST_path g2
  rw [if_neg g2, if_neg g2]

open Classical in
theorem PairRel.TcTSTcT_path (h : PairRel T m m' c1 c2 c1' c2') (hT : T.mirrored = false) :
    (SF.CcRs.TcTSTcT_path P m' c1' c2').length = (SF.CcRs.TcTSTcT_path P m c1 c2).length := by
  unfold SF.CcRs.TcTSTcT_path
  rw [h.TcTiSTcT_exists, h.TcTeSTcT_exists]
  by_cases g1 : SF.CcRs.TcTiSTcT_exists m c1 c2
  · rw [if_pos g1, if_pos g1]
    exact h.TcTiSTcT_path hT
  rw [if_neg g1, if_neg g1]
  by_cases g2 : SF.CcRs.TcTeSTcT_exists m c1 c2
  · rw [if_pos g2, if_pos g2]
    exact h.TcTeSTcT_path g2
  rw [if_neg g2, if_neg g2]

open Classical in
theorem PairRel.family {sp : SF.HCSpace} (h : PairRel T m m' c1 c2 c1' c2') (hT : T.mirrored = false) (i : ℕ) :
    (SF.CcRs.family sp m' c1' c2' i).length = (SF.CcRs.family sp m c1 c2 i).length := by
  unfold SF.CcRs.family
  split
  · rw [h.TT_exists]
    split_ifs
    exacts [h.TT_path, rfl]
  · rw [h.TcT_exists]
    split_ifs
    exacts [h.TcT_path, rfl]
  · rw [h.TcTcT_exists]
    split_ifs
    exacts [h.TcTcT_path, rfl]
  · rw [h.TcTT_exists]
    split_ifs
    exacts [h.TcTT_path, rfl]
  · rw [h.TTcT_exists]
    split_ifs
    exacts [h.TTcT_path, rfl]
  · exact h.TST_path
  · exact h.TSTcT_path hT
  · exact h.TcTST_path hT
  · exact h.TcTSTcT_path hT
  · rw [h.TTcTT_exists]
    split_ifs
    exacts [h.TTcTT_path, rfl]
  · rw [h.TcTTcT_exists]
    split_ifs
    exacts [h.TcTTcT_path, rfl]
  · rw [h.TTT_exists]
    split_ifs
    exacts [h.TTT_path, rfl]
  · exact h.TcST_path
  · exact h.TScT_path
  · exact h.TcScT_path
  · rfl

end Spec
