import Verif.Lemmas.HcReverse

/-!
# The reversed problem: families of the CC00-Reeds-Shepp planner
-/

noncomputable section

namespace Spec.Rev

open Real

variable {P : SF.CircleParam} {m m' : SF.Scratch} {c1 c2 a b a' b' : SF.Circle} {q q' qa qb qa' qb' : SF.Configuration}

/-- Parameters of the state space. -/
structure Std (P : SF.CircleParam) (c : SF.Circle) : Prop where
  radius : c.radius = P.radius
  mu : c.mu = P.mu
  sin_mu : c.sin_mu = P.sin_mu
  cos_mu : c.cos_mu = P.cos_mu

theorem Std.centered {x y : ℝ} {l f r : Bool} : Std P (SF.circleCentered x y l f r P) := ⟨rfl, rfl, rfl, rfl⟩

theorem std_at {l f r : Bool} : Std P (SF.circleAt q l f r P) := ⟨rfl, rfl, rfl, rfl⟩

theorem st_TT_rev (sa : Std P a) (sb : Std P b') (ha : Cen a a') (hb : Cen b b') (hl : b'.left = !a.left) (hf : b'.forward = !a.forward)
    (hd : Diff a b) : Same (SF.CcRs.TT_tangent_circles a b) (SF.CcRs.TT_tangent_circles b' a') :=
  TT_rev ha hb hl hf (sb.mu.trans sa.mu.symm) hd

theorem st_TcT_rev (sa : Std P a) (sb : Std P b') (ha : Cen a a') (hb : Cen b b') (hl : b'.left = !a.left) (hf : b'.forward = a.forward)
    (hd : Diff a b) : Same (SF.CcRs.TcT_tangent_circles a b) (SF.CcRs.TcT_tangent_circles b' a') :=
  cc_TcT_rev ha hb hl hf (sb.radius.trans sa.radius.symm) hd

theorem st_TiST_rev (sa : Std P a) (sb : Std P b') (ha : Cen a a') (hb : Cen b b') (hl : b'.left = !a.left) (hf : b'.forward = !a.forward)
    (hd : Diff a b) : Swap (SF.CcRs.TiST_tangent_circles a b) (SF.CcRs.TiST_tangent_circles b' a') :=
  TiST_rev ha hb hl hf (sb.radius.trans sa.radius.symm) (sb.sin_mu.trans sa.sin_mu.symm) (sb.cos_mu.trans sa.cos_mu.symm) hd

theorem st_TeST_rev (sa : Std P a) (sb : Std P b') (ha : Cen a a') (hb : Cen b b') (hl : b'.left = a.left) (hf : b'.forward = !a.forward)
    (hd : Diff a b) : Swap (SF.CcRs.TeST_tangent_circles a b) (SF.CcRs.TeST_tangent_circles b' a') :=
  TeST_rev ha hb hl hf (sb.radius.trans sa.radius.symm) (sb.sin_mu.trans sa.sin_mu.symm) (sb.cos_mu.trans sa.cos_mu.symm) hd

/-- A turn in the middle. -/
theorem mid {l f r l' f' r' : Bool} (ha : Same qa qa') (hb : Same qb qb') (hl : l' = l) (hf : f' = !f) (hr : r' = r) :
    (SF.circleAt qb' l' f' r' P).cc_turn_length qa' = (SF.circleAt qa l f r P).cc_turn_length qb := by
  subst hl hf hr
  rw [hb.cc_at _ _ _ _ ha]
  exact cc_rev _ _ _ _ _ _

/-- Two circles of the planner with different centres. -/
structure CcPair (P : SF.CircleParam) (m m' : SF.Scratch) (c1 c2 : SF.Circle) : Prop where
  hm : m = SF.scratch c1 c2
  hm' : m' = SF.scratch c2 c1
  diff : Diff c1 c2
  s1 : Std P c1
  s2 : Std P c2
  regular : c2.regular = c1.regular
  radius : 0 < P.radius
  sin_mu : 0 < P.sin_mu
  cos_mu : 0 < P.cos_mu

namespace CcPair

theorem symm (h : CcPair P m m' c1 c2) : CcPair P m' m c2 c1 :=
  ⟨h.hm', h.hm, Diff.symm h.diff, h.s2, h.s1, h.regular.symm, h.radius, h.sin_mu, h.cos_mu⟩

theorem mrev (h : CcPair P m m' c1 c2) : MRev m m' := by
  rw [h.hm, h.hm']; exact mRev h.diff

theorem loc (h : CcPair P m m' c1 c2) : Loc c1 m.angle c2 m.distance 0 := by rw [h.hm]; exact Loc.other c1 c2

theorem dist (h : CcPair P m m' c1 c2) : 0 < m.distance := by rw [h.hm]; exact h.diff.distance

theorem frame (h : CcPair P m m' c1 c2) (a b : ℝ) :
    SF.global_frame_change c2.xc c2.yc m'.angle (m.distance - a) (-b) = SF.global_frame_change c1.xc c1.yc m.angle a b := by
  have e := h.loc
  rw [gfc_opp h.mrev.angle, e.1, e.2]
  unfold SF.global_frame_change
  ext <;> dsimp only <;> ring

theorem frame_half (h : CcPair P m m' c1 c2) (b : ℝ) :
    SF.global_frame_change c2.xc c2.yc m'.angle (0.5 * m.distance) (-b) = SF.global_frame_change c1.xc c1.yc m.angle (0.5 * m.distance) b := by
  rw [← h.frame]; congr 1; ring

theorem at1 (h : CcPair P m m' c1 c2) (a b : ℝ) :
    SF.global_frame_change c1.xc c1.yc m'.angle (-a) (-b) = SF.global_frame_change c1.xc c1.yc m.angle a b := by
  rw [gfc_opp h.mrev.angle, neg_neg, neg_neg]

theorem at2 (h : CcPair P m m' c1 c2) (a b : ℝ) :
    SF.global_frame_change c2.xc c2.yc m'.angle a b = SF.global_frame_change c2.xc c2.yc m.angle (-a) (-b) := gfc_opp h.mrev.angle _ _ _ _

theorem rr (h : CcPair P m m' c1 c2) : c2.radius = c1.radius := h.s2.radius.trans h.s1.radius.symm

theorem ss (h : CcPair P m m' c1 c2) : c2.sin_mu = c1.sin_mu := h.s2.sin_mu.trans h.s1.sin_mu.symm

theorem cc (h : CcPair P m m' c1 c2) : c2.cos_mu = c1.cos_mu := h.s2.cos_mu.trans h.s1.cos_mu.symm

end CcPair

/-! ### Existence -/

namespace CcPair
variable (h : CcPair P m m' c1 c2)
include h

theorem TT_exists : SF.CcRs.TT_exists m' c2 c1 = SF.CcRs.TT_exists m c1 c2 := by
  simp only [SF.CcRs.TT_exists, SF.CC00.TT_exists, h.rr, h.mrev.distance, eq_comm (a := c2.left), eq_comm (a := c2.forward)]

theorem TcT_exists : SF.CcRs.TcT_exists m' c2 c1 = SF.CcRs.TcT_exists m c1 c2 := by
  simp only [SF.CcRs.TcT_exists, ne_eq, h.rr, h.cc, h.mrev.distance, eq_comm (a := c2.left), eq_comm (a := c2.forward)]

theorem TcTcT_exists : SF.CcRs.TcTcT_exists m' c2 c1 = SF.CcRs.TcTcT_exists m c1 c2 := by
  simp only [SF.CcRs.TcTcT_exists, ne_eq, h.rr, h.cc, h.mrev.distance, eq_comm (a := c2.left), eq_comm (a := c2.forward)]

theorem TcTT_exists : SF.CcRs.TTcT_exists m' c2 c1 = SF.CcRs.TcTT_exists m c1 c2 := by
  simp only [SF.CcRs.TcTT_exists, SF.CcRs.TTcT_exists, ne_eq, h.rr, h.cc, h.mrev.distance, eq_comm (a := c2.left), eq_comm (a := c2.forward)]

theorem TTT_exists : SF.CcRs.TTT_exists m' c2 c1 = SF.CcRs.TTT_exists m c1 c2 := by
  simp only [SF.CcRs.TTT_exists, SF.CC00.TTT_exists, ne_eq, h.rr, h.mrev.distance, eq_comm (a := c2.left), eq_comm (a := c2.forward)]

theorem TiST_exists : SF.CcRs.TiST_exists m' c2 c1 = SF.CcRs.TiST_exists m c1 c2 := by
  simp only [SF.CcRs.TiST_exists, SF.CC00.TiST_exists, h.rr, h.mrev.distance, eq_comm (a := c2.left), eq_comm (a := c2.forward)]

theorem TeST_exists : SF.CcRs.TeST_exists m' c2 c1 = SF.CcRs.TeST_exists m c1 c2 := by
  simp only [SF.CcRs.TeST_exists, SF.CC00.TeST_exists, ne_eq, h.rr, h.ss, h.mrev.distance, eq_comm (a := c2.left), eq_comm (a := c2.forward)]

theorem TiSTcT_exists : SF.CcRs.TcTiST_exists m' c2 c1 = SF.CcRs.TiSTcT_exists m c1 c2 := by
  simp only [SF.CcRs.TcTiST_exists, SF.CcRs.TiSTcT_exists, ne_eq, h.rr, h.ss, h.cc, h.mrev.distance, eq_comm (a := c2.left), eq_comm (a := c2.forward)]

theorem TeSTcT_exists : SF.CcRs.TcTeST_exists m' c2 c1 = SF.CcRs.TeSTcT_exists m c1 c2 := by
  simp only [SF.CcRs.TcTeST_exists, SF.CcRs.TeSTcT_exists, ne_eq, h.rr, h.ss, h.cc, h.mrev.distance, eq_comm (a := c2.left), eq_comm (a := c2.forward)]

theorem TcTiSTcT_exists : SF.CcRs.TcTiSTcT_exists m' c2 c1 = SF.CcRs.TcTiSTcT_exists m c1 c2 := by
  simp only [SF.CcRs.TcTiSTcT_exists, h.rr, h.ss, h.cc, h.mrev.distance, eq_comm (a := c2.left), eq_comm (a := c2.forward)]

theorem TcTeSTcT_exists : SF.CcRs.TcTeSTcT_exists m' c2 c1 = SF.CcRs.TcTeSTcT_exists m c1 c2 := by
  simp only [SF.CcRs.TcTeSTcT_exists, ne_eq, h.rr, h.ss, h.cc, h.mrev.distance, eq_comm (a := c2.left), eq_comm (a := c2.forward)]

theorem TTcTT_exists : SF.CcRs.TTcTT_exists m' c2 c1 = SF.CcRs.TTcTT_exists m c1 c2 := by
  simp only [SF.CcRs.TTcTT_exists, ne_eq, h.rr, h.cc, h.mrev.distance, eq_comm (a := c2.left), eq_comm (a := c2.forward)]

theorem TcTTcT_exists : SF.CcRs.TcTTcT_exists m' c2 c1 = SF.CcRs.TcTTcT_exists m c1 c2 := by
  simp only [SF.CcRs.TcTTcT_exists, h.rr, h.cc, h.mrev.distance, eq_comm (a := c2.left), eq_comm (a := c2.forward)]

theorem TciST_exists : SF.CcRs.TiScT_exists m' c2 c1 = SF.CcRs.TciST_exists m c1 c2 := by
  simp only [SF.CcRs.TiScT_exists, SF.CcRs.TciST_exists, ne_eq, h.rr, h.cc, h.mrev.distance, eq_comm (a := c2.left), eq_comm (a := c2.forward)]

theorem TceST_exists : SF.CcRs.TeScT_exists m' c2 c1 = SF.CcRs.TceST_exists m c1 c2 := by
  simp only [SF.CcRs.TeScT_exists, SF.CcRs.TceST_exists, ne_eq, h.mrev.distance, eq_comm (a := c2.left), eq_comm (a := c2.forward)]

theorem TciScT_exists : SF.CcRs.TciScT_exists m' c2 c1 = SF.CcRs.TciScT_exists m c1 c2 := by
  simp only [SF.CcRs.TciScT_exists, h.rr, h.cc, h.mrev.distance, eq_comm (a := c2.left), eq_comm (a := c2.forward)]

theorem TceScT_exists : SF.CcRs.TceScT_exists m' c2 c1 = SF.CcRs.TceScT_exists m c1 c2 := by
  simp only [SF.CcRs.TceScT_exists, ne_eq, h.mrev.distance, eq_comm (a := c2.left), eq_comm (a := c2.forward)]

end CcPair

/-! ### Families -/

namespace CcPair
variable (h : CcPair P m m' c1 c2)
include h

theorem TT_path (he : SF.CcRs.TT_exists m c1 c2) :
    (SF.CcRs.TT_path c2 c1).length = (SF.CcRs.TT_path c1 c2).length := by
  obtain ⟨⟨hl, hf⟩, -⟩ := ne_ne he
  have e := st_TT_rev h.s1 h.s2 (Cen.refl c1) (Cen.refl c2) hl hf h.diff
  unfold SF.CcRs.TT_path
  dsimp only
  rw [e.cc, e.cc, add_comm]

open Classical in
theorem TcT_path (he : SF.CcRs.TcT_exists m c1 c2) :
    (SF.CcRs.TcT_path c2 c1).length = (SF.CcRs.TcT_path c1 c2).length := by
  obtain ⟨⟨hl, hf⟩, -⟩ := ne_eq' he
  have e := st_TcT_rev h.s1 h.s2 (Cen.refl c1) (Cen.refl c2) hl hf h.diff
  have et := cc_TcT_theta_rev (Cen.refl c1) (Cen.refl c2) hl h.diff
  have en : SF.CcRs.TcT_negative c2 c1 = SF.CcRs.TcT_negative c1 c2 := by
    unfold SF.CcRs.TcT_negative
    rw [h.rr, center_distance_rev (Cen.refl c1) (Cen.refl c2)]
  unfold SF.CcRs.TcT_path
  dsimp only
  by_cases g : SF.CcRs.TcT_negative c1 c2
  · have g' : SF.CcRs.TcT_negative c2 c1 := en ▸ g
    rw [if_pos g, if_pos g, if_pos g', if_pos g']
    have b1 : Same (SF.CcRs.blind c1 (SF.CcRs.TcT_theta c1 c2)) (SF.CcRs.blind c1 (SF.CcRs.TcT_theta c2 c1)) :=
      Same.of (p := (c1.start.x, c1.start.y)) (p' := (c1.start.x, c1.start.y)) rfl et
    have b2 : Same (SF.CcRs.blind c2 (SF.CcRs.TcT_theta c1 c2)) (SF.CcRs.blind c2 (SF.CcRs.TcT_theta c2 c1)) :=
      Same.of (p := (c2.start.x, c2.start.y)) (p' := (c2.start.x, c2.start.y)) rfl et
    rw [b1.cc, b2.cc, add_comm]
  · have g' : ¬ SF.CcRs.TcT_negative c2 c1 := en ▸ g
    rw [if_neg g, if_neg g, if_neg g', if_neg g', e.cc, e.cc, add_comm]

theorem TcTcT_path (he : SF.CcRs.TcTcT_exists m c1 c2) :
    (SF.CcRs.TcTcT_path P m' c2 c1).length = (SF.CcRs.TcTcT_path P m c1 c2).length := by
  obtain ⟨⟨hl, hf⟩, -⟩ := eq_ne he
  have hD := h.dist
  unfold SF.CcRs.TcTcT_path
  dsimp only
  rw [h.rr, h.cc, h.mrev.distance]
  refine shorter_swap (f := SF.CcRs.TcTcT_side P m c1 c2 _) (g := SF.CcRs.TcTcT_side P m' c2 c1 _) fun z _ => ?_
  unfold SF.CcRs.TcTcT_side
  dsimp only
  have ec := cen_centered (l := !c1.left) (f := !c1.forward) (r := c1.regular) (l' := !c2.left) (f' := !c2.forward) (r' := c2.regular)
    (P := P) (P' := P) (h.frame_half z)
  have da : Diff c1 _ := (Loc.self c1 m.angle).diff (Loc.frame (P := P) (u := 0.5 * m.distance) (v := z) (l := !c1.left) (f := !c1.forward) (r := c1.regular))
    (sq_sum_ne_left (by norm_num; exact hD.ne'))
  have db : Diff _ c2 := (Loc.frame (P := P) (u := 0.5 * m.distance) (v := z) (l := !c1.left) (f := !c1.forward) (r := c1.regular)).diff h.loc
    (sq_sum_ne_left (ne_of_gt (by norm_num; linarith)))
  have qb := st_TcT_rev Std.centered h.s2 ec (Cen.refl c2) (by dir [hl, hf]) (by dir [hl, hf]) db
  have qa := st_TcT_rev h.s1 Std.centered (Cen.refl c1) ec (by dir [hl, hf]) (by dir [hl, hf]) da
  rw [mid qa qb (l := !c1.left) (f := !c1.forward) (by rw [hl]) (by rw [hf]) h.regular, qb.cc, qa.cc]
  ring

theorem TTT_path (he : SF.CcRs.TTT_exists m c1 c2) :
    (SF.CcRs.TTT_path P m' c2 c1).length = (SF.CcRs.TTT_path P m c1 c2).length := by
  obtain ⟨⟨hl, hf⟩, -⟩ := eq_ne he
  have hD := h.dist
  unfold SF.CcRs.TTT_path
  dsimp only
  rw [h.rr, h.mrev.distance]
  refine shorter_swap (f := SF.CcRs.TTT_side P m c1 c2 _) (g := SF.CcRs.TTT_side P m' c2 c1 _) fun z _ => ?_
  unfold SF.CcRs.TTT_side
  dsimp only
  have ec := cen_centered (l := !c1.left) (f := c1.forward) (r := c1.regular) (l' := !c2.left) (f' := c2.forward) (r' := c2.regular)
    (P := P) (P' := P) (h.frame_half z)
  have da : Diff c1 _ := (Loc.self c1 m.angle).diff (Loc.frame (P := P) (u := 0.5 * m.distance) (v := z) (l := !c1.left) (f := c1.forward) (r := c1.regular))
    (sq_sum_ne_left (by norm_num; exact hD.ne'))
  have db : Diff _ c2 := (Loc.frame (P := P) (u := 0.5 * m.distance) (v := z) (l := !c1.left) (f := c1.forward) (r := c1.regular)).diff h.loc
    (sq_sum_ne_left (ne_of_gt (by norm_num; linarith)))
  have qb := st_TT_rev Std.centered h.s2 ec (Cen.refl c2) (by dir [hl, hf]) (by dir [hl, hf]) db
  have qa := st_TT_rev h.s1 Std.centered (Cen.refl c1) ec (by dir [hl, hf]) (by dir [hl, hf]) da
  rw [mid qa qb (l := !c1.left) (f := c1.forward) (by rw [hl]) hf h.regular, qb.cc, qa.cc]
  ring

open Classical in
theorem TcTT_path (he : SF.CcRs.TcTT_exists m c1 c2) :
    (SF.CcRs.TTcT_path P m' c2 c1).length = (SF.CcRs.TcTT_path P m c1 c2).length := by
  obtain ⟨⟨hl, hf⟩, -⟩ := eq_eq he
  have hD := h.dist
  have hR : 0 < c1.radius := h.s1.radius ▸ h.radius
  have hC : 0 < c1.cos_mu := h.s1.cos_mu ▸ h.cos_mu
  unfold SF.CcRs.TcTT_path SF.CcRs.TTcT_path
  dsimp only
  rw [h.rr, h.cc, h.mrev.distance]
  obtain ⟨x, hx⟩ : ∃ x, x = ((2 * c1.radius * c1.cos_mu) ^ 2 + m.distance ^ 2 - (2 * c1.radius) ^ 2) / (2 * m.distance) := ⟨_, rfl⟩
  have ex : ((2 * c1.radius) ^ 2 + m.distance ^ 2 - (2 * c1.radius * c1.cos_mu) ^ 2) / (2 * m.distance) = m.distance - x := by
    rw [hx]; field_simp; ring
  have hx' : x * (2 * m.distance) = (2 * c1.radius * c1.cos_mu) ^ 2 + m.distance ^ 2 - (2 * c1.radius) ^ 2 := by
    rw [hx]; field_simp
  have ey : (2 * c1.radius) ^ 2 - (m.distance - x) ^ 2 = (2 * c1.radius * c1.cos_mu) ^ 2 - x ^ 2 := by linear_combination hx'
  rw [← hx, ex, ey]
  by_cases hc : m.distance = 0 ∨ (2 * c1.radius * c1.cos_mu) ^ 2 - x ^ 2 < 0
  · rw [if_pos hc, if_pos hc]
  rw [if_neg hc, if_neg hc]
  push Not at hc
  refine shorter_swap (f := SF.CcRs.TcTT_side P m c1 c2 _) (g := SF.CcRs.TTcT_side P m' c2 c1 _) fun z hz => ?_
  have hz2 := sq_of_abs_sqrt hz hc.2
  unfold SF.CcRs.TcTT_side SF.CcRs.TTcT_side
  dsimp only
  have ec := cen_centered (l := !c1.left) (f := !c1.forward) (r := c1.regular) (l' := !c2.left) (f' := c2.forward) (r' := c2.regular)
    (P := P) (P' := P) (h.frame x z)
  have da : Diff c1 _ := (Loc.self c1 m.angle).diff (Loc.frame (P := P) (u := x) (v := z) (l := !c1.left) (f := !c1.forward) (r := c1.regular))
    (sq_sum_ne (r := 2 * c1.radius * c1.cos_mu) (by rw [sub_zero, sub_zero, hz2]; ring) (by positivity))
  have db : Diff _ c2 := (Loc.frame (P := P) (u := x) (v := z) (l := !c1.left) (f := !c1.forward) (r := c1.regular)).diff h.loc
    (sq_sum_ne (r := 2 * c1.radius) (by linear_combination hz2 - hx') (by positivity))
  have qb := st_TT_rev Std.centered h.s2 ec (Cen.refl c2) (by dir [hl, hf]) (by dir [hl, hf]) db
  have qa := st_TcT_rev h.s1 Std.centered (Cen.refl c1) ec (by dir [hl, hf]) (by dir [hl, hf]) da
  rw [mid qa qb (l := !c1.left) (f := !c1.forward) (by rw [hl]) (by rw [hf, Bool.not_not]) h.regular, qb.cc, qa.cc]
  ring

open Classical in
theorem TTcTT_path (he : SF.CcRs.TTcTT_exists m c1 c2) :
    (SF.CcRs.TTcTT_path P m' c2 c1).length = (SF.CcRs.TTcTT_path P m c1 c2).length := by
  obtain ⟨⟨hl, hf⟩, -⟩ := ne_eq' he
  have hD := h.dist
  have hR : 0 < c1.radius := h.s1.radius ▸ h.radius
  have hC : 0 < c1.cos_mu := h.s1.cos_mu ▸ h.cos_mu
  have hK : 0 < 2 * c1.radius * c1.cos_mu := by positivity
  unfold SF.CcRs.TTcTT_path
  dsimp only
  rw [h.rr, h.cc, h.mrev.distance]
  obtain ⟨x, hx⟩ : ∃ x, x = (if m.distance < 2 * c1.radius * (-c1.cos_mu + 2) then (m.distance + 2 * c1.radius * c1.cos_mu) / 2
    else (m.distance - 2 * c1.radius * c1.cos_mu) / 2) := ⟨_, rfl⟩
  rw [← hx]
  by_cases hc : (2 * c1.radius) ^ 2 - x ^ 2 < 0
  · rw [if_pos hc, if_pos hc]
  rw [if_neg hc, if_neg hc]
  push Not at hc
  refine shorter_swap (f := SF.CcRs.TTcTT_side P m c1 c2 _) (g := SF.CcRs.TTcTT_side P m' c2 c1 _) fun z hz => ?_
  have hz2 := sq_of_abs_sqrt hz hc
  unfold SF.CcRs.TTcTT_side
  dsimp only
  have e1 := cen_centered (l := !c1.left) (f := c1.forward) (r := c1.regular) (l' := !c1.left) (f' := !c1.forward) (r' := c1.regular)
    (P := P) (P' := P) (h.at1 x z)
  have e2 := cen_centered (l := !c2.left) (f := !c2.forward) (r := c2.regular) (l' := !c2.left) (f' := c2.forward) (r' := c2.regular)
    (P := P) (P' := P) ((h.at2 x (-z)).trans (by rw [neg_neg]))
  have L1 := Loc.frame (c1 := c1) (a := m.angle) (P := P) (u := x) (v := z) (l := !c1.left) (f := c1.forward) (r := c1.regular)
  have L2 := Loc.frame2 (P := P) (u := -x) (v := z) (l := !c2.left) (f := !c2.forward) (r := c2.regular) h.loc
  have da := (Loc.self c1 m.angle).diff L1 (sq_sum_ne (r := 2 * c1.radius) (by rw [sub_zero, sub_zero, hz2]; ring) (by positivity))
  have db := L1.diff L2 (sq_sum_ne_left (by
    split_ifs at hx <;> rw [hx]
    · refine ne_of_lt ?_; linarith
    · refine ne_of_gt ?_; linarith))
  have dc := L2.diff h.loc (sq_sum_ne (r := 2 * c1.radius) (by linear_combination hz2) (by positivity))
  have qa := st_TT_rev h.s1 Std.centered (Cen.refl c1) e1 (by dir [hl, hf]) (by dir [hl, hf]) da
  have qb := st_TcT_rev Std.centered Std.centered e1 e2 (by dir [hl, hf]) (by dir [hl, hf]) db
  have qc := st_TT_rev Std.centered h.s2 e2 (Cen.refl c2) (by dir [hl, hf]) (by dir [hl, hf]) dc
  rw [mid qb qc (l := !c2.left) (f := !c2.forward) rfl (Bool.not_not _).symm rfl,
    mid qa qb (l := !c1.left) (f := c1.forward) rfl rfl rfl, qc.cc, qa.cc]
  ring

open Classical in
theorem TcTTcT_path (he : SF.CcRs.TcTTcT_exists m c1 c2) :
    (SF.CcRs.TcTTcT_path P m' c2 c1).length = (SF.CcRs.TcTTcT_path P m c1 c2).length := by
  obtain ⟨⟨hl, hf⟩, -⟩ := ne_ne he
  have hD := h.dist
  have hR : 0 < c1.radius := h.s1.radius ▸ h.radius
  have hC : 0 < c1.cos_mu := h.s1.cos_mu ▸ h.cos_mu
  unfold SF.CcRs.TcTTcT_path
  dsimp only
  rw [h.rr, h.cc, h.mrev.distance]
  obtain ⟨x, hx⟩ : ∃ x, x = ((2 * c1.radius * c1.cos_mu) ^ 2 + (m.distance / 2) ^ 2 - c1.radius ^ 2) / m.distance := ⟨_, rfl⟩
  rw [← hx]
  have hx' : x * m.distance = (2 * c1.radius * c1.cos_mu) ^ 2 + (m.distance / 2) ^ 2 - c1.radius ^ 2 := by
    rw [hx]; field_simp
  by_cases hc : m.distance = 0 ∨ (2 * c1.radius * c1.cos_mu) ^ 2 - x ^ 2 < 0
  · rw [if_pos hc, if_pos hc]
  rw [if_neg hc, if_neg hc]
  push Not at hc
  refine shorter_same (f := SF.CcRs.TcTTcT_side P m c1 c2 _) (g := SF.CcRs.TcTTcT_side P m' c2 c1 _) fun z hz => ?_
  have hz2 := sq_of_abs_sqrt hz hc.2
  unfold SF.CcRs.TcTTcT_side
  dsimp only
  have e1 := cen_centered (l := !c1.left) (f := !c1.forward) (r := c1.regular) (l' := !c1.left) (f' := c1.forward) (r' := c1.regular)
    (P := P) (P' := P) (h.at1 x z)
  have e2 := cen_centered (l := !c2.left) (f := c2.forward) (r := c2.regular) (l' := !c2.left) (f' := !c2.forward) (r' := c2.regular)
    (P := P) (P' := P) (h.at2 x z)
  have L1 := Loc.frame (c1 := c1) (a := m.angle) (P := P) (u := x) (v := z) (l := !c1.left) (f := !c1.forward) (r := c1.regular)
  have L2 := Loc.frame2 (P := P) (u := -x) (v := -z) (l := !c2.left) (f := c2.forward) (r := c2.regular) h.loc
  have da := (Loc.self c1 m.angle).diff L1 (sq_sum_ne (r := 2 * c1.radius * c1.cos_mu) (by rw [sub_zero, sub_zero, hz2]; ring) (by positivity))
  have db := L1.diff L2 (sq_sum_ne (r := 2 * c1.radius) (by linear_combination 4 * hz2 - 4 * hx') (by positivity))
  have dc := L2.diff h.loc (sq_sum_ne (r := 2 * c1.radius * c1.cos_mu) (by linear_combination hz2) (by positivity))
  have qa := st_TcT_rev h.s1 Std.centered (Cen.refl c1) e1 (by dir [hl, hf]) (by dir [hl, hf]) da
  have qb := st_TT_rev Std.centered Std.centered e1 e2 (by dir [hl, hf]) (by dir [hl, hf]) db
  have qc := st_TcT_rev Std.centered h.s2 e2 (Cen.refl c2) (by dir [hl, hf]) (by dir [hl, hf]) dc
  rw [mid qb qc (l := c1.left) (f := !c1.forward) (r := c1.regular) (by rw [hl, Bool.not_not]) (by rw [hf]) h.regular,
    mid qa qb (l := !c1.left) (f := !c1.forward) (r := c1.regular) hl (by rw [hf]) h.regular, qc.cc, qa.cc]
  ring

theorem TiSTcT_path (he : SF.CcRs.TiSTcT_exists m c1 c2) :
    (SF.CcRs.TcTiST_path P m' c2 c1).length = (SF.CcRs.TiSTcT_path P m c1 c2).length := by
  obtain ⟨⟨hl, hf⟩, -⟩ := eq_eq he
  have hD := h.dist
  have hR : 0 < c1.radius := h.s1.radius ▸ h.radius
  have hC : 0 < c1.cos_mu := h.s1.cos_mu ▸ h.cos_mu
  unfold SF.CcRs.TcTiST_path SF.CcRs.TiSTcT_path
  dsimp only
  rw [h.rr, h.cc, h.mrev.distance]
  have hy : (2 * (c1.radius * c1.cos_mu)) ^ 2 / m.distance ≠ 0 := by positivity
  generalize (2 * (c1.radius * c1.cos_mu)) ^ 2 / m.distance = y at *
  generalize 2 * (c1.radius * c1.cos_mu) * √(1 - y / m.distance) = x at *
  have ec := cen_centered (l := !c2.left) (f := c2.forward) (r := c2.regular) (l' := !c1.left) (f' := !c1.forward) (r' := c1.regular)
    (P := P) (P' := P) ((h.at2 x (-y)).trans (by rw [neg_neg]))
  have L := Loc.frame2 (P := P) (u := -x) (v := y) (l := !c2.left) (f := c2.forward) (r := c2.regular) h.loc
  have da := (Loc.self c1 m.angle).diff L (sq_sum_ne_right (by rwa [sub_zero]))
  have db := L.diff h.loc (sq_sum_ne_right (by rwa [zero_sub, neg_ne_zero]))
  have qa := st_TiST_rev h.s1 Std.centered (Cen.refl c1) ec (by dir [hl, hf]) (by dir [hl, hf]) da
  have qb := st_TcT_rev Std.centered h.s2 ec (Cen.refl c2) (by dir [hl, hf]) (by dir [hl, hf]) db
  rw [mid qa.2 qb (l := !c1.left) (f := c1.forward) (by rw [hl]) (by rw [hf]) h.regular, qa.dist, qb.cc, qa.1.cc]
  ring

theorem TeSTcT_path (he : SF.CcRs.TeSTcT_exists m c1 c2) :
    (SF.CcRs.TcTeST_path P m' c2 c1).length = (SF.CcRs.TeSTcT_path P m c1 c2).length := by
  obtain ⟨⟨hl, hf⟩, hge⟩ := ne_eq' he
  have hD := h.dist
  have hR : 0 < c1.radius := h.s1.radius ▸ h.radius
  have hC : 0 < c1.cos_mu := h.s1.cos_mu ▸ h.cos_mu
  have hS : 0 < c1.sin_mu := h.s1.sin_mu ▸ h.sin_mu
  have hK : 0 < 2 * c1.radius * c1.cos_mu := by positivity
  have hs : 0 < c1.radius * c1.sin_mu := by positivity
  unfold SF.CcRs.TcTeST_path SF.CcRs.TeSTcT_path
  dsimp only
  rw [h.rr, h.cc]
  have ec := cen_centered (l := !c2.left) (f := c2.forward) (r := c2.regular) (l' := c1.left) (f' := !c1.forward) (r' := c1.regular)
    (P := P) (P' := P) ((h.at2 (2 * c1.radius * c1.cos_mu) 0).trans (by rw [neg_zero]))
  have L := Loc.frame2 (P := P) (u := -(2 * c1.radius * c1.cos_mu)) (v := 0) (l := !c2.left) (f := c2.forward) (r := c2.regular) h.loc
  have da := (Loc.self c1 m.angle).diff L (sq_sum_ne_left (by refine ne_of_gt ?_; linarith))
  have db := L.diff h.loc (sq_sum_ne_left (by refine ne_of_gt ?_; linarith))
  have qa := st_TeST_rev h.s1 Std.centered (Cen.refl c1) ec rfl (by dir [hl, hf]) da
  have qb := st_TcT_rev Std.centered h.s2 ec (Cen.refl c2) (by dir [hl, hf]) (by dir [hl, hf]) db
  rw [mid qa.2 qb (l := c1.left) (f := c1.forward) (by rw [hl, Bool.not_not]) (by rw [hf]) h.regular, qa.dist, qb.cc, qa.1.cc]
  ring

theorem TcTiSTcT_path (he : SF.CcRs.TcTiSTcT_exists m c1 c2) :
    (SF.CcRs.TcTiSTcT_path P m' c2 c1).length = (SF.CcRs.TcTiSTcT_path P m c1 c2).length := by
  obtain ⟨⟨hl, hf⟩, -⟩ := ne_ne he
  have hD := h.dist
  have hR : 0 < c1.radius := h.s1.radius ▸ h.radius
  have hC : 0 < c1.cos_mu := h.s1.cos_mu ▸ h.cos_mu
  unfold SF.CcRs.TcTiSTcT_path
  dsimp only
  rw [h.rr, h.cc, h.mrev.distance]
  have hy : (2 * (c1.radius * c1.cos_mu)) ^ 2 / m.distance ≠ 0 := by positivity
  generalize (2 * (c1.radius * c1.cos_mu)) ^ 2 / m.distance = y at *
  generalize 2 * (c1.radius * c1.cos_mu) * √(1 - y / m.distance) = x at *
  have e1 := cen_centered (l := !c1.left) (f := !c1.forward) (r := c1.regular) (l' := !c1.left) (f' := c1.forward) (r' := c1.regular)
    (P := P) (P' := P) (h.at1 x y)
  have e2 := cen_centered (l := !c2.left) (f := c2.forward) (r := c2.regular) (l' := !c2.left) (f' := !c2.forward) (r' := c2.regular)
    (P := P) (P' := P) (h.at2 x y)
  have L1 := Loc.frame (c1 := c1) (a := m.angle) (P := P) (u := x) (v := y) (l := !c1.left) (f := !c1.forward) (r := c1.regular)
  have L2 := Loc.frame2 (P := P) (u := -x) (v := -y) (l := !c2.left) (f := c2.forward) (r := c2.regular) h.loc
  have da := (Loc.self c1 m.angle).diff L1 (sq_sum_ne_right (by rwa [sub_zero]))
  have db := L1.diff L2 (sq_sum_ne_right (by intro e; apply hy; linarith))
  have dc := L2.diff h.loc (sq_sum_ne_right (by rwa [zero_sub, neg_neg]))
  have qa := st_TcT_rev h.s1 Std.centered (Cen.refl c1) e1 (by dir [hl, hf]) (by dir [hl, hf]) da
  have qb := st_TiST_rev Std.centered Std.centered e1 e2 (by dir [hl, hf]) (by dir [hl, hf]) db
  have qc := st_TcT_rev Std.centered h.s2 e2 (Cen.refl c2) (by dir [hl, hf]) (by dir [hl, hf]) dc
  rw [mid qb.2 qc (l := !c2.left) (f := c2.forward) rfl rfl rfl, mid qa qb.1 (l := !c1.left) (f := !c1.forward) rfl
    (Bool.not_not _).symm rfl, qb.dist, qc.cc, qa.cc]
  ring

theorem TcTeSTcT_path (he : SF.CcRs.TcTeSTcT_exists m c1 c2) :
    (SF.CcRs.TcTeSTcT_path P m' c2 c1).length = (SF.CcRs.TcTeSTcT_path P m c1 c2).length := by
  obtain ⟨⟨hl, hf⟩, hge⟩ := eq_ne he
  have hD := h.dist
  have hR : 0 < c1.radius := h.s1.radius ▸ h.radius
  have hC : 0 < c1.cos_mu := h.s1.cos_mu ▸ h.cos_mu
  have hS : 0 < c1.sin_mu := h.s1.sin_mu ▸ h.sin_mu
  have hK : 0 < 2 * c1.radius * c1.cos_mu := by positivity
  have hs : 0 < c1.radius * c1.sin_mu := by positivity
  unfold SF.CcRs.TcTeSTcT_path
  dsimp only
  rw [h.rr, h.cc]
  have e1 := cen_centered (l := !c1.left) (f := !c1.forward) (r := c1.regular) (l' := !c1.left) (f' := c1.forward) (r' := c1.regular)
    (P := P) (P' := P) ((congrArg _ neg_zero.symm).trans (h.at1 (2 * c1.radius * c1.cos_mu) 0))
  have e2 := cen_centered (l := !c2.left) (f := c2.forward) (r := c2.regular) (l' := !c2.left) (f' := !c2.forward) (r' := c2.regular)
    (P := P) (P' := P) ((h.at2 (2 * c1.radius * c1.cos_mu) 0).trans (by rw [neg_zero]))
  have L1 := Loc.frame (c1 := c1) (a := m.angle) (P := P) (u := 2 * c1.radius * c1.cos_mu) (v := 0) (l := !c1.left) (f := !c1.forward) (r := c1.regular)
  have L2 := Loc.frame2 (P := P) (u := -(2 * c1.radius * c1.cos_mu)) (v := 0) (l := !c2.left) (f := c2.forward) (r := c2.regular) h.loc
  have da := (Loc.self c1 m.angle).diff L1 (sq_sum_ne_left (by refine ne_of_gt ?_; linarith))
  have db := L1.diff L2 (sq_sum_ne_left (by refine ne_of_gt ?_; linarith))
  have dc := L2.diff h.loc (sq_sum_ne_left (by refine ne_of_gt ?_; linarith))
  have qa := st_TcT_rev h.s1 Std.centered (Cen.refl c1) e1 (by dir [hl, hf]) (by dir [hl, hf]) da
  have qb := st_TeST_rev Std.centered Std.centered e1 e2 (by dir [hl, hf]) (by dir [hl, hf]) db
  have qc := st_TcT_rev Std.centered h.s2 e2 (Cen.refl c2) (by dir [hl, hf]) (by dir [hl, hf]) dc
  rw [mid qb.2 qc (l := !c2.left) (f := c2.forward) rfl rfl rfl, mid qa qb.1 (l := !c1.left) (f := !c1.forward) rfl
    (Bool.not_not _).symm rfl, qb.dist, qc.cc, qa.cc]
  ring

/-! ### Families with alternatives -/

omit h in
theorem line_rev {q q' : SF.Configuration × SF.Configuration} (e : Swap q q') :
    (SF.CcRs.line_row c2 c1 q').length = (SF.CcRs.line_row c1 c2 q).length := by
  unfold SF.CcRs.line_row
  dsimp only
  rw [e.2.cc, e.1.cc, e.dist]; ring

open Classical in
theorem TST_path : (SF.CcRs.TST_path m' c2 c1).length = (SF.CcRs.TST_path m c1 c2).length := by
  unfold SF.CcRs.TST_path
  rw [h.TiST_exists, h.TeST_exists]
  by_cases g1 : SF.CcRs.TiST_exists m c1 c2
  · rw [if_pos g1, if_pos g1]
    obtain ⟨⟨hl, hf⟩, -⟩ := ne_ne g1
    exact line_rev (st_TiST_rev h.s1 h.s2 (Cen.refl c1) (Cen.refl c2) hl hf h.diff)
  rw [if_neg g1, if_neg g1]
  by_cases g2 : SF.CcRs.TeST_exists m c1 c2
  · rw [if_pos g2, if_pos g2]
    obtain ⟨⟨hl, hf⟩, -⟩ := eq_ne g2
    exact line_rev (st_TeST_rev h.s1 h.s2 (Cen.refl c1) (Cen.refl c2) hl hf h.diff)
  rw [if_neg g2, if_neg g2]

open Classical in
theorem TcST_path : (SF.CcRs.TScT_path m' c2 c1).length = (SF.CcRs.TcST_path m c1 c2).length := by
  unfold SF.CcRs.TScT_path SF.CcRs.TcST_path
  rw [h.TciST_exists, h.TceST_exists]
  by_cases g1 : SF.CcRs.TciST_exists m c1 c2
  · rw [if_pos g1, if_pos g1]
    obtain ⟨⟨hl, hf⟩, -⟩ := ne_eq' g1
    exact line_rev (cc_TciST_rev h.mrev hl hf h.rr h.ss h.cc)
  rw [if_neg g1, if_neg g1]
  by_cases g2 : SF.CcRs.TceST_exists m c1 c2
  · rw [if_pos g2, if_pos g2]
    obtain ⟨⟨hl, hf⟩, -⟩ := eq_eq g2
    exact line_rev (cc_TceST_rev h.mrev hl hf h.rr h.ss h.cc)
  rw [if_neg g2, if_neg g2]

open Classical in
theorem TcScT_path : (SF.CcRs.TcScT_path m' c2 c1).length = (SF.CcRs.TcScT_path m c1 c2).length := by
  unfold SF.CcRs.TcScT_path
  rw [h.TciScT_exists, h.TceScT_exists]
  by_cases g1 : SF.CcRs.TciScT_exists m c1 c2
  · rw [if_pos g1, if_pos g1]
    obtain ⟨⟨hl, hf⟩, -⟩ := ne_ne g1
    exact line_rev (cc_TciScT_rev h.mrev hl hf h.rr h.ss h.cc)
  rw [if_neg g1, if_neg g1]
  by_cases g2 : SF.CcRs.TceScT_exists m c1 c2
  · rw [if_pos g2, if_pos g2]
    obtain ⟨⟨hl, hf⟩, -⟩ := eq_ne g2
    exact line_rev (cc_TceScT_rev h.mrev hl hf h.rr h.ss h.cc)
  rw [if_neg g2, if_neg g2]

open Classical in
theorem TSTcT_path : (SF.CcRs.TcTST_path P m' c2 c1).length = (SF.CcRs.TSTcT_path P m c1 c2).length := by
  unfold SF.CcRs.TcTST_path SF.CcRs.TSTcT_path
  rw [h.TiSTcT_exists, h.TeSTcT_exists]
  by_cases g1 : SF.CcRs.TiSTcT_exists m c1 c2
  · rw [if_pos g1, if_pos g1, h.TiSTcT_path g1]
  rw [if_neg g1, if_neg g1]
  by_cases g2 : SF.CcRs.TeSTcT_exists m c1 c2
  · rw [if_pos g2, if_pos g2, h.TeSTcT_path g2]
  rw [if_neg g2, if_neg g2]

open Classical in
theorem TcTSTcT_path : (SF.CcRs.TcTSTcT_path P m' c2 c1).length = (SF.CcRs.TcTSTcT_path P m c1 c2).length := by
  unfold SF.CcRs.TcTSTcT_path
  rw [h.TcTiSTcT_exists, h.TcTeSTcT_exists]
  by_cases g1 : SF.CcRs.TcTiSTcT_exists m c1 c2
  · rw [if_pos g1, if_pos g1, h.TcTiSTcT_path g1]
  rw [if_neg g1, if_neg g1]
  by_cases g2 : SF.CcRs.TcTeSTcT_exists m c1 c2
  · rw [if_pos g2, if_pos g2, h.TcTeSTcT_path g2]
  rw [if_neg g2, if_neg g2]

end CcPair

open Classical in
theorem CcPair.family {sp : SF.HCSpace} (h : CcPair sp.param m m' c1 c2) (i : ℕ) :
    (SF.CcRs.family sp m' c2 c1 (revFamily i)).length = (SF.CcRs.family sp m c1 c2 i).length := by
  match i with
  | 0 | 1 | 2 => rfl
  | 3 => exact ite_len h.TT_exists h.TT_path
  | 4 => exact ite_len h.TcT_exists h.TcT_path
  | 5 => exact ite_len h.TcTcT_exists h.TcTcT_path
  | 6 => exact ite_len h.TcTT_exists h.TcTT_path
  | 7 => exact (ite_len h.symm.TcTT_exists h.symm.TcTT_path).symm
  | 8 => exact h.TST_path
  | 9 => exact h.TSTcT_path
  | 10 => exact h.symm.TSTcT_path.symm
  | 11 => exact h.TcTSTcT_path
  | 12 => exact ite_len h.TTcTT_exists h.TTcTT_path
  | 13 => exact ite_len h.TcTTcT_exists h.TcTTcT_path
  | 14 => exact ite_len h.TTT_exists h.TTT_path
  | 15 => exact h.TcST_path
  | 16 => exact h.symm.TcST_path.symm
  | 17 => exact h.TcScT_path
  | n + 18 => rfl

end Spec.Rev
