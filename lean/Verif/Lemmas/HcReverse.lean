import Verif.Lemmas.RevTangent
import Verif.Lemmas.MotionRows

/-!
# The reversed problem: families of the hybrid-curvature planners
-/

noncomputable section

namespace Spec.Rev

open Real

variable {pm1 pm2 : Bool} {P Prs : SF.CircleParam} {m m' : SF.Scratch} {c1 c2 : SF.Circle} {q q' : SF.Configuration}

/-- Lengths of the two sides change places. -/
theorem shorter_swap {f g : ℝ → SF.RSRow} {y : ℝ} (h : ∀ z, |z| = |y| → (g (-z)).length = (f z).length) :
    ((g y).shorter (g (-y))).length = ((f y).shorter (f (-y))).length := by
  have h1 := h y rfl
  have h2 := h (-y) (abs_neg y)
  rw [neg_neg] at h2
  rw [shorter_length, shorter_length, h1, h2, min_comm]

theorem shorter_same {f g : ℝ → SF.RSRow} {y : ℝ} (h : ∀ z, |z| = |y| → (g z).length = (f z).length) :
    ((g y).shorter (g (-y))).length = ((f y).shorter (f (-y))).length := by
  rw [shorter_length, shorter_length, h y rfl, h (-y) (abs_neg y)]

theorem cen_centered {p p' : ℝ × ℝ} {l l' f f' r r' : Bool} {P P' : SF.CircleParam} (h : p' = p) :
    Cen (SF.circleCentered p.1 p.2 l f r P) (SF.circleCentered p'.1 p'.2 l' f' r' P') := by
  subst h; exact ⟨rfl, rfl⟩

/-! ### First and last turns -/

theorem firstT_rev (pm : Bool) (c : SF.Circle) (h : Same q q') : (SF.HcRs.lastT pm P c q').length = (SF.HcRs.firstT pm P c q).length := by
  cases pm
  · exact h.cc _
  · exact h.hc_at _ _ _ _ (Same.refl _)

theorem lastT_rev (pm : Bool) (c : SF.Circle) (h : Same q q') : (SF.HcRs.firstT pm P c q').length = (SF.HcRs.lastT pm P c q).length := by
  cases pm
  · exact h.cc _
  · exact h.hc_at _ _ _ _ (Same.refl _)

theorem firstTc_rev (pm : Bool) (c : SF.Circle) (h : Same q q') : (SF.HcRs.lastcT pm c q').length = (SF.HcRs.firstTc pm c q).length := by
  cases pm
  · exact h.hc _
  · exact h.rs _

theorem lastcT_rev (pm : Bool) (c : SF.Circle) (h : Same q q') : (SF.HcRs.firstTc pm c q').length = (SF.HcRs.lastcT pm c q).length := by
  cases pm
  · exact h.hc _
  · exact h.rs _

/-! ### Pairs of circles -/

/-- Two circles of the planners with different centres. -/
structure HcPair (P : SF.CircleParam) (m m' : SF.Scratch) (c1 c2 : SF.Circle) : Prop where
  hm : m = SF.scratch c1 c2
  hm' : m' = SF.scratch c2 c1
  diff : Diff c1 c2
  kinv : |c2.kappa_inv| = |c1.kappa_inv|
  kap : |c2.kappa| = |c1.kappa|
  kpos : 0 < |c1.kappa_inv|
  kapos : 0 < |c1.kappa|
  radius : 0 < P.radius
  sin_mu : 0 < P.sin_mu
  cos_mu : 0 < P.cos_mu

namespace HcPair

theorem symm (h : HcPair P m m' c1 c2) : HcPair P m' m c2 c1 :=
  ⟨h.hm', h.hm, Diff.symm h.diff, h.kinv.symm, h.kap.symm, h.kinv ▸ h.kpos, h.kap ▸ h.kapos, h.radius, h.sin_mu, h.cos_mu⟩

theorem mrev (h : HcPair P m m' c1 c2) : MRev m m' := by
  rw [h.hm, h.hm']; exact mRev h.diff

theorem loc (h : HcPair P m m' c1 c2) : Loc c1 m.angle c2 m.distance 0 := by rw [h.hm]; exact Loc.other c1 c2

theorem dist (h : HcPair P m m' c1 c2) : 0 < m.distance := by rw [h.hm]; exact h.diff.distance

theorem kinv2 (h : HcPair P m m' c1 c2) : (2 * c2.kappa_inv) ^ 2 = (2 * c1.kappa_inv) ^ 2 := by
  rw [mul_pow, mul_pow, ← sq_abs c2.kappa_inv, h.kinv, sq_abs]

theorem frame (h : HcPair P m m' c1 c2) (a b : ℝ) :
    SF.global_frame_change c2.xc c2.yc m'.angle (m.distance - a) (-b) = SF.global_frame_change c1.xc c1.yc m.angle a b := by
  have e := h.loc
  rw [gfc_opp h.mrev.angle, e.1, e.2]
  unfold SF.global_frame_change
  ext <;> dsimp only <;> ring

/-- The middle of the reversed problem. -/
theorem frame_half (h : HcPair P m m' c1 c2) (b : ℝ) :
    SF.global_frame_change c2.xc c2.yc m'.angle (0.5 * m.distance) (-b) = SF.global_frame_change c1.xc c1.yc m.angle (0.5 * m.distance) b := by
  rw [← h.frame]; congr 1; ring

theorem at1 (h : HcPair P m m' c1 c2) (a b : ℝ) :
    SF.global_frame_change c1.xc c1.yc m'.angle (-a) (-b) = SF.global_frame_change c1.xc c1.yc m.angle a b := by
  rw [gfc_opp h.mrev.angle, neg_neg, neg_neg]

theorem at2 (h : HcPair P m m' c1 c2) (a b : ℝ) :
    SF.global_frame_change c2.xc c2.yc m'.angle a b = SF.global_frame_change c2.xc c2.yc m.angle (-a) (-b) := gfc_opp h.mrev.angle _ _ _ _

end HcPair

/-! ### Existence -/

namespace HcPair
variable (h : HcPair P m m' c1 c2)
include h

theorem TT_exists : SF.HcRs.TT_exists P m' c2 c1 = SF.HcRs.TT_exists P m c1 c2 := by
  simp only [SF.HcRs.TT_exists, SF.CC00.TT_exists, SF.Circle.reparam, h.mrev.distance, eq_comm (a := c2.left), eq_comm (a := c2.forward)]
  rfl

theorem TcT_exists : SF.HcRs.TcT_exists m' c2 c1 = SF.HcRs.TcT_exists m c1 c2 := by
  simp only [SF.HcRs.TcT_exists, ne_eq, h.kinv, h.mrev.distance, eq_comm (a := c2.left), eq_comm (a := c2.forward)]

theorem TcTcT_exists : SF.HcRs.TcTcT_exists m' c2 c1 = SF.HcRs.TcTcT_exists m c1 c2 := by
  simp only [SF.HcRs.TcTcT_exists, ne_eq, h.kinv, h.mrev.distance, eq_comm (a := c2.left), eq_comm (a := c2.forward)]

theorem TcTT_exists : SF.HcRs.TTcT_exists P m' c2 c1 = SF.HcRs.TcTT_exists P m c1 c2 := by
  simp only [SF.HcRs.TcTT_exists, SF.HcRs.TTcT_exists, ne_eq, h.kinv, h.mrev.distance, eq_comm (a := c2.left), eq_comm (a := c2.forward)]

theorem TTT_exists : SF.HcRs.TTT_exists P m' c2 c1 = SF.HcRs.TTT_exists P m c1 c2 := by
  simp only [SF.HcRs.TTT_exists, SF.CC00.TTT_exists, SF.Circle.reparam, ne_eq, h.mrev.distance, eq_comm (a := c2.left), eq_comm (a := c2.forward)]
  rfl

theorem TiST_exists : SF.HcRs.TiST_exists P m' c2 c1 = SF.HcRs.TiST_exists P m c1 c2 := by
  simp only [SF.HcRs.TiST_exists, SF.CC00.TiST_exists, SF.Circle.reparam, h.mrev.distance, eq_comm (a := c2.left), eq_comm (a := c2.forward)]
  rfl

theorem TeST_exists : SF.HcRs.TeST_exists P m' c2 c1 = SF.HcRs.TeST_exists P m c1 c2 := by
  simp only [SF.HcRs.TeST_exists, SF.CC00.TeST_exists, SF.Circle.reparam, ne_eq, h.mrev.distance, eq_comm (a := c2.left), eq_comm (a := c2.forward)]
  rfl

theorem TiSTcT_exists : SF.HcRs.TcTiST_exists P m' c2 c1 = SF.HcRs.TiSTcT_exists P m c1 c2 := by
  simp only [SF.HcRs.TcTiST_exists, SF.HcRs.TiSTcT_exists, ne_eq, h.kinv, h.mrev.distance, eq_comm (a := c2.left), eq_comm (a := c2.forward)]

theorem TeSTcT_exists : SF.HcRs.TcTeST_exists P m' c2 c1 = SF.HcRs.TeSTcT_exists P m c1 c2 := by
  simp only [SF.HcRs.TcTeST_exists, SF.HcRs.TeSTcT_exists, ne_eq, h.kinv, h.mrev.distance, eq_comm (a := c2.left), eq_comm (a := c2.forward)]

theorem TcTiSTcT_exists : SF.HcRs.TcTiSTcT_exists P m' c2 c1 = SF.HcRs.TcTiSTcT_exists P m c1 c2 := by
  have e : (4 * c2.kappa_inv) ^ 2 = (4 * c1.kappa_inv) ^ 2 := by linear_combination 4 * h.kinv2
  simp only [SF.HcRs.TcTiSTcT_exists, h.kinv, e, h.mrev.distance, eq_comm (a := c2.left), eq_comm (a := c2.forward)]

theorem TcTeSTcT_exists : SF.HcRs.TcTeSTcT_exists P m' c2 c1 = SF.HcRs.TcTeSTcT_exists P m c1 c2 := by
  simp only [SF.HcRs.TcTeSTcT_exists, ne_eq, h.kinv, h.mrev.distance, eq_comm (a := c2.left), eq_comm (a := c2.forward)]

theorem TTcTT_exists : SF.HcRs.TTcTT_exists P m' c2 c1 = SF.HcRs.TTcTT_exists P m c1 c2 := by
  simp only [SF.HcRs.TTcTT_exists, ne_eq, h.kinv, h.mrev.distance, eq_comm (a := c2.left), eq_comm (a := c2.forward)]

theorem TcTTcT_exists : SF.HcRs.TcTTcT_exists P m' c2 c1 = SF.HcRs.TcTTcT_exists P m c1 c2 := by
  simp only [SF.HcRs.TcTTcT_exists, h.kinv, h.mrev.distance, eq_comm (a := c2.left), eq_comm (a := c2.forward)]

theorem TciST_exists : SF.HcRs.TiScT_exists P m' c2 c1 = SF.HcRs.TciST_exists P m c1 c2 := by
  simp only [SF.HcRs.TiScT_exists, SF.HcRs.TciST_exists, ne_eq, h.kinv, h.mrev.distance, eq_comm (a := c2.left), eq_comm (a := c2.forward)]

theorem TceST_exists : SF.HcRs.TeScT_exists P m' c2 c1 = SF.HcRs.TceST_exists P m c1 c2 := by
  simp only [SF.HcRs.TeScT_exists, SF.HcRs.TceST_exists, ne_eq, h.kinv, h.mrev.distance, eq_comm (a := c2.left), eq_comm (a := c2.forward)]

theorem TciScT_exists : SF.HcRs.TciScT_exists m' c2 c1 = SF.HcRs.TciScT_exists m c1 c2 := by
  simp only [SF.HcRs.TciScT_exists, h.kinv, h.mrev.distance, eq_comm (a := c2.left), eq_comm (a := c2.forward)]

theorem TceScT_exists : SF.HcRs.TceScT_exists m' c2 c1 = SF.HcRs.TceScT_exists m c1 c2 := by
  simp only [SF.HcRs.TceScT_exists, ne_eq, h.mrev.distance, eq_comm (a := c2.left), eq_comm (a := c2.forward)]

end HcPair

/-! ### Sides and directions of the two circles -/

section
variable {l1 l2 : Bool} {p : Prop}

theorem flip_of_ne (h : l1 ≠ l2) : l2 = !l1 := by cases l1 <;> cases l2 <;> simp_all

theorem ne_ne (h : if c1.left = c2.left then False else if c1.forward = c2.forward then False else p) :
    (c2.left = !c1.left ∧ c2.forward = !c1.forward) ∧ p := by
  by_cases a : c1.left = c2.left
  · rw [if_pos a] at h; exact h.elim
  by_cases b : c1.forward = c2.forward
  · rw [if_neg a, if_pos b] at h; exact h.elim
  rw [if_neg a, if_neg b] at h
  exact ⟨⟨flip_of_ne a, flip_of_ne b⟩, h⟩

theorem ne_eq' (h : if c1.left = c2.left then False else if c1.forward ≠ c2.forward then False else p) :
    (c2.left = !c1.left ∧ c2.forward = c1.forward) ∧ p := by
  by_cases a : c1.left = c2.left
  · rw [if_pos a] at h; exact h.elim
  by_cases b : c1.forward = c2.forward
  · rw [if_neg a, if_neg (not_not.2 b)] at h
    exact ⟨⟨flip_of_ne a, b.symm⟩, h⟩
  · rw [if_neg a, if_pos b] at h; exact h.elim

theorem eq_ne (h : if c1.left ≠ c2.left then False else if c1.forward = c2.forward then False else p) :
    (c2.left = c1.left ∧ c2.forward = !c1.forward) ∧ p := by
  by_cases a : c1.left = c2.left
  · rw [if_neg (not_not.2 a)] at h
    by_cases b : c1.forward = c2.forward
    · rw [if_pos b] at h; exact h.elim
    rw [if_neg b] at h
    exact ⟨⟨a.symm, flip_of_ne b⟩, h⟩
  · rw [if_pos a] at h; exact h.elim

theorem eq_eq (h : if c1.left ≠ c2.left then False else if c1.forward ≠ c2.forward then False else p) :
    (c2.left = c1.left ∧ c2.forward = c1.forward) ∧ p := by
  by_cases a : c1.left = c2.left
  · rw [if_neg (not_not.2 a)] at h
    by_cases b : c1.forward = c2.forward
    · rw [if_neg (not_not.2 b)] at h
      exact ⟨⟨a.symm, b.symm⟩, h⟩
    rw [if_pos b] at h; exact h.elim
  · rw [if_pos a] at h; exact h.elim

end

/-! ### Tangents with the parameters of the state space -/

section
variable {a b a' b' : SF.Circle}

theorem hc_TT_rev (ha : Cen a a') (hb : Cen b b') (hl : b'.left = !a.left) (hf : b'.forward = !a.forward) (hd : Diff a b) :
    Same (SF.HcRs.TT_tangent_circles P a b) (SF.HcRs.TT_tangent_circles P b' a') :=
  TT_rev (a := a.reparam P) (b' := b'.reparam P) ⟨ha.x, ha.y⟩ ⟨hb.x, hb.y⟩ hl hf rfl hd

theorem hc_TiST_rev (ha : Cen a a') (hb : Cen b b') (hl : b'.left = !a.left) (hf : b'.forward = !a.forward) (hd : Diff a b) :
    Swap (SF.HcRs.TiST_tangent_circles P a b) (SF.HcRs.TiST_tangent_circles P b' a') :=
  TiST_rev (a := a.reparam P) (b' := b'.reparam P) ⟨ha.x, ha.y⟩ ⟨hb.x, hb.y⟩ hl hf rfl rfl rfl hd

theorem hc_TeST_rev (ha : Cen a a') (hb : Cen b b') (hl : b'.left = a.left) (hf : b'.forward = !a.forward) (hd : Diff a b) :
    Swap (SF.HcRs.TeST_tangent_circles P a b) (SF.HcRs.TeST_tangent_circles P b' a') :=
  TeST_rev (a := a.reparam P) (b' := b'.reparam P) ⟨ha.x, ha.y⟩ ⟨hb.x, hb.y⟩ hl hf rfl rfl rfl hd

end

/-- Sides and directions of circles at known centres. -/
macro "dir" "[" hl:ident "," hf:ident "]" : tactic => `(tactic| simp only [SF.circleCentered, $hl:ident, $hf:ident, Bool.not_not])

/-! ### Families -/

namespace HcPair
variable (h : HcPair P m m' c1 c2)
include h

theorem TT_path (he : SF.HcRs.TT_exists P m c1 c2) :
    (SF.HcRs.TT_path pm2 pm1 P c2 c1).length = (SF.HcRs.TT_path pm1 pm2 P c1 c2).length := by
  obtain ⟨⟨hl, hf⟩, -⟩ := ne_ne (c1 := c1.reparam P) he
  have e : Same (SF.HcRs.TT_tangent_circles P c1 c2) (SF.HcRs.TT_tangent_circles P c2 c1) :=
    TT_rev (a := c1.reparam P) (b' := c2.reparam P) ⟨rfl, rfl⟩ ⟨rfl, rfl⟩ hl hf rfl h.diff
  unfold SF.HcRs.TT_path
  dsimp only
  rw [lastT_rev pm2 c2 e, firstT_rev pm1 c1 e, add_comm]

theorem TcT_path (he : SF.HcRs.TcT_exists m c1 c2) :
    (SF.HcRs.TcT_path pm2 pm1 c2 c1).length = (SF.HcRs.TcT_path pm1 pm2 c1 c2).length := by
  obtain ⟨⟨hl, hf⟩, -⟩ := ne_eq' he
  have e := hc_TcT_rev (Cen.refl c1) (Cen.refl c2) hl h.diff
  unfold SF.HcRs.TcT_path
  dsimp only
  rw [lastcT_rev pm2 c2 e, firstTc_rev pm1 c1 e, add_comm]

theorem TcTcT_path (he : SF.HcRs.TcTcT_exists m c1 c2) :
    (SF.HcRs.TcTcT_path pm2 pm1 P Prs m' c2 c1).length = (SF.HcRs.TcTcT_path pm1 pm2 P Prs m c1 c2).length := by
  obtain ⟨⟨hl, hf⟩, -⟩ := eq_ne he
  have hD := h.dist
  unfold SF.HcRs.TcTcT_path
  dsimp only
  rw [h.kinv, h.mrev.distance]
  refine shorter_swap (f := SF.HcRs.TcTcT_side pm1 pm2 P Prs m c1 c2 _) (g := SF.HcRs.TcTcT_side pm2 pm1 P Prs m' c2 c1 _) fun z _ => ?_
  unfold SF.HcRs.TcTcT_side
  dsimp only
  have ec := cen_centered (l := !c1.left) (f := !c1.forward) (r := c1.regular) (l' := !c2.left) (f' := !c2.forward) (r' := c2.regular)
    (P := P) (P' := P) (h.frame_half z)
  have da : Diff c1 _ := (Loc.self c1 m.angle).diff (Loc.frame (P := P) (u := 0.5 * m.distance) (v := z) (l := !c1.left) (f := !c1.forward) (r := c1.regular))
    (sq_sum_ne_left (by norm_num; exact hD.ne'))
  have db : Diff _ c2 := (Loc.frame (P := P) (u := 0.5 * m.distance) (v := z) (l := !c1.left) (f := !c1.forward) (r := c1.regular)).diff h.loc
    (sq_sum_ne_left (ne_of_gt (by norm_num; linarith)))
  have qb := hc_TcT_rev (b' := c2) ec (Cen.refl c2) (by rw [hl]; exact (Bool.not_not _).symm) db
  have qa := hc_TcT_rev (a' := c1) (Cen.refl c1) ec (by rw [hl]; rfl) da
  rw [lastcT_rev pm2 c2 qb, firstTc_rev pm1 c1 qa, qb.rs_at _ _ _ _ qa, ← rs_rev, hl, hf]
  simp only [Bool.not_not]
  ring

theorem TTT_path (he : SF.HcRs.TTT_exists P m c1 c2) :
    (SF.HcRs.TTT_path pm2 pm1 P m' c2 c1).length = (SF.HcRs.TTT_path pm1 pm2 P m c1 c2).length := by
  obtain ⟨⟨hl, hf⟩, -⟩ := eq_ne (c1 := c1.reparam P) he
  replace hl : c2.left = c1.left := hl
  replace hf : c2.forward = !c1.forward := hf
  have hD := h.dist
  unfold SF.HcRs.TTT_path
  dsimp only
  rw [h.mrev.distance]
  refine shorter_swap (f := SF.HcRs.TTT_side pm1 pm2 P m c1 c2 _) (g := SF.HcRs.TTT_side pm2 pm1 P m' c2 c1 _) fun z _ => ?_
  unfold SF.HcRs.TTT_side
  dsimp only
  have ec := cen_centered (l := !c1.left) (f := c1.forward) (r := c1.regular) (l' := !c2.left) (f' := c2.forward) (r' := c2.regular)
    (P := P) (P' := P) (h.frame_half z)
  have da : Diff c1 _ := (Loc.self c1 m.angle).diff (Loc.frame (P := P) (u := 0.5 * m.distance) (v := z) (l := !c1.left) (f := c1.forward) (r := c1.regular))
    (sq_sum_ne_left (by norm_num; exact hD.ne'))
  have db : Diff _ c2 := (Loc.frame (P := P) (u := 0.5 * m.distance) (v := z) (l := !c1.left) (f := c1.forward) (r := c1.regular)).diff h.loc
    (sq_sum_ne_left (ne_of_gt (by norm_num; linarith)))
  have qb := hc_TT_rev (P := P) (b' := c2) ec (Cen.refl c2) (by dir [hl, hf]) (by dir [hl, hf]) db
  have qa := hc_TT_rev (P := P) (a' := c1) (Cen.refl c1) ec (by dir [hl, hf]) (by dir [hl, hf]) da
  rw [lastT_rev pm2 c2 qb, firstT_rev pm1 c1 qa, qb.cc_at _ _ _ _ qa, ← cc_rev, hl, hf]
  simp only [Bool.not_not, Bool.and_comm (!pm2)]
  ring

open Classical in
theorem TcTT_path (he : SF.HcRs.TcTT_exists P m c1 c2) :
    (SF.HcRs.TTcT_path pm2 pm1 P m' c2 c1).length = (SF.HcRs.TcTT_path pm1 pm2 P m c1 c2).length := by
  obtain ⟨⟨hl, hf⟩, -⟩ := eq_eq he
  have hD := h.dist
  have hR := h.radius
  have hK := h.kpos
  unfold SF.HcRs.TcTT_path SF.HcRs.TTcT_path
  dsimp only
  rw [h.kinv, h.mrev.distance]
  obtain ⟨x, hx⟩ : ∃ x, x = ((2 * |c1.kappa_inv|) ^ 2 + m.distance ^ 2 - (2 * P.radius) ^ 2) / (2 * m.distance) := ⟨_, rfl⟩
  have ex : ((2 * P.radius) ^ 2 + m.distance ^ 2 - (2 * |c1.kappa_inv|) ^ 2) / (2 * m.distance) = m.distance - x := by
    rw [hx]; field_simp; ring
  have hx' : x * (2 * m.distance) = (2 * |c1.kappa_inv|) ^ 2 + m.distance ^ 2 - (2 * P.radius) ^ 2 := by
    rw [hx]; field_simp
  have ey : (2 * P.radius) ^ 2 - (m.distance - x) ^ 2 = (2 * |c1.kappa_inv|) ^ 2 - x ^ 2 := by linear_combination hx'
  rw [← hx, ex, ey]
  by_cases hc : m.distance = 0 ∨ (2 * |c1.kappa_inv|) ^ 2 - x ^ 2 < 0
  · rw [if_pos hc, if_pos hc]
  rw [if_neg hc, if_neg hc]
  push Not at hc
  refine shorter_swap (f := SF.HcRs.TcTT_side pm1 pm2 P m c1 c2 _) (g := SF.HcRs.TTcT_side pm2 pm1 P m' c2 c1 _) fun z hz => ?_
  have hz2 := sq_of_abs_sqrt hz hc.2
  unfold SF.HcRs.TcTT_side SF.HcRs.TTcT_side
  dsimp only
  have ec := cen_centered (l := !c1.left) (f := !c1.forward) (r := c1.regular) (l' := !c2.left) (f' := c2.forward) (r' := c2.regular)
    (P := P) (P' := P) (h.frame x z)
  have da : Diff c1 _ := (Loc.self c1 m.angle).diff (Loc.frame (P := P) (u := x) (v := z) (l := !c1.left) (f := !c1.forward) (r := c1.regular))
    (sq_sum_ne (r := 2 * |c1.kappa_inv|) (by rw [sub_zero, sub_zero, hz2]; ring) (by positivity))
  have db : Diff _ c2 := (Loc.frame (P := P) (u := x) (v := z) (l := !c1.left) (f := !c1.forward) (r := c1.regular)).diff h.loc
    (sq_sum_ne (r := 2 * P.radius) (by linear_combination hz2 - hx') (by positivity))
  have qb := hc_TT_rev (P := P) (b' := c2) ec (Cen.refl c2) (by dir [hl, hf]) (by dir [hl, hf]) db
  have qa := hc_TcT_rev (a' := c1) (Cen.refl c1) ec (by dir [hl, hf]) da
  rw [lastT_rev pm2 c2 qb, firstTc_rev pm1 c1 qa, qb.hc_at _ _ _ _ qa, hl, hf]
  ring

open Classical in
theorem TTcTT_path (he : SF.HcRs.TTcTT_exists P m c1 c2) :
    (SF.HcRs.TTcTT_path pm2 pm1 P m' c2 c1).length = (SF.HcRs.TTcTT_path pm1 pm2 P m c1 c2).length := by
  obtain ⟨⟨hl, hf⟩, -⟩ := ne_eq' he
  have hD := h.dist
  have hR := h.radius
  have hK := h.kpos
  unfold SF.HcRs.TTcTT_path
  dsimp only
  rw [h.kinv, h.mrev.distance]
  obtain ⟨x, hx⟩ : ∃ x, x = (if m.distance < 4 * P.radius - 2 * |c1.kappa_inv| then (m.distance + 2 * |c1.kappa_inv|) / 2
    else (m.distance - 2 * |c1.kappa_inv|) / 2) := ⟨_, rfl⟩
  rw [← hx]
  by_cases hc : (2 * P.radius) ^ 2 - x ^ 2 < 0
  · rw [if_pos hc, if_pos hc]
  rw [if_neg hc, if_neg hc]
  push Not at hc
  refine shorter_swap (f := SF.HcRs.TTcTT_side pm1 pm2 P m c1 c2 _) (g := SF.HcRs.TTcTT_side pm2 pm1 P m' c2 c1 _) fun z hz => ?_
  have hz2 := sq_of_abs_sqrt hz hc
  unfold SF.HcRs.TTcTT_side
  dsimp only
  have e1 := cen_centered (l := !c1.left) (f := c1.forward) (r := c1.regular) (l' := !c1.left) (f' := !c1.forward) (r' := c1.regular)
    (P := P) (P' := P) (h.at1 x z)
  have e2 := cen_centered (l := !c2.left) (f := !c2.forward) (r := c2.regular) (l' := !c2.left) (f' := c2.forward) (r' := c2.regular)
    (P := P) (P' := P) ((h.at2 x (-z)).trans (by rw [neg_neg]))
  have L1 := Loc.frame (c1 := c1) (a := m.angle) (P := P) (u := x) (v := z) (l := !c1.left) (f := c1.forward) (r := c1.regular)
  have L2 := Loc.frame2 (P := P) (u := -x) (v := z) (l := !c2.left) (f := !c2.forward) (r := c2.regular) h.loc
  have da := (Loc.self c1 m.angle).diff L1 (sq_sum_ne (r := 2 * P.radius) (by rw [sub_zero, sub_zero, hz2]; ring) (by positivity))
  have db := L1.diff L2 (sq_sum_ne_left (by
    split_ifs at hx <;> rw [hx]
    · refine ne_of_lt ?_; linarith
    · refine ne_of_gt ?_; linarith))
  have dc := L2.diff h.loc (sq_sum_ne (r := 2 * P.radius) (by linear_combination hz2) (by positivity))
  have qa := hc_TT_rev (P := P) (a' := c1) (Cen.refl c1) e1 (by dir [hl, hf]) (by dir [hl, hf]) da
  have qb := hc_TcT_rev e1 e2 (by dir [hl, hf]) db
  have qc := hc_TT_rev (P := P) (b' := c2) e2 (Cen.refl c2) (by dir [hl, hf]) (by dir [hl, hf]) dc
  rw [lastT_rev pm2 c2 qc, firstT_rev pm1 c1 qa, qc.hc_at _ _ _ _ qb, qa.hc_at _ _ _ _ qb]
  ring

open Classical in
theorem TcTTcT_path (he : SF.HcRs.TcTTcT_exists P m c1 c2) :
    (SF.HcRs.TcTTcT_path pm2 pm1 P m' c2 c1).length = (SF.HcRs.TcTTcT_path pm1 pm2 P m c1 c2).length := by
  obtain ⟨⟨hl, hf⟩, -⟩ := ne_ne he
  have hD := h.dist
  have hR := h.radius
  have hK := h.kpos
  unfold SF.HcRs.TcTTcT_path
  dsimp only
  rw [h.kinv, h.mrev.distance]
  obtain ⟨x, hx⟩ : ∃ x, x = ((2 * |c1.kappa_inv|) ^ 2 + (m.distance / 2) ^ 2 - P.radius ^ 2) / m.distance := ⟨_, rfl⟩
  rw [← hx]
  have hx' : x * m.distance = (2 * |c1.kappa_inv|) ^ 2 + (m.distance / 2) ^ 2 - P.radius ^ 2 := by
    rw [hx]; field_simp
  by_cases hc : m.distance = 0 ∨ (2 * |c1.kappa_inv|) ^ 2 - x ^ 2 < 0
  · rw [if_pos hc, if_pos hc]
  rw [if_neg hc, if_neg hc]
  push Not at hc
  refine shorter_same (f := SF.HcRs.TcTTcT_side pm1 pm2 P m c1 c2 _) (g := SF.HcRs.TcTTcT_side pm2 pm1 P m' c2 c1 _) fun z hz => ?_
  have hz2 := sq_of_abs_sqrt hz hc.2
  unfold SF.HcRs.TcTTcT_side
  dsimp only
  have e1 := cen_centered (l := !c1.left) (f := !c1.forward) (r := c1.regular) (l' := !c1.left) (f' := c1.forward) (r' := c1.regular)
    (P := P) (P' := P) (h.at1 x z)
  have e2 := cen_centered (l := !c2.left) (f := c2.forward) (r := c2.regular) (l' := !c2.left) (f' := !c2.forward) (r' := c2.regular)
    (P := P) (P' := P) (h.at2 x z)
  have L1 := Loc.frame (c1 := c1) (a := m.angle) (P := P) (u := x) (v := z) (l := !c1.left) (f := !c1.forward) (r := c1.regular)
  have L2 := Loc.frame2 (P := P) (u := -x) (v := -z) (l := !c2.left) (f := c2.forward) (r := c2.regular) h.loc
  have da := (Loc.self c1 m.angle).diff L1 (sq_sum_ne (r := 2 * |c1.kappa_inv|) (by rw [sub_zero, sub_zero, hz2]; ring) (by positivity))
  have db := L1.diff L2 (sq_sum_ne (r := 2 * P.radius) (by linear_combination 4 * hz2 - 4 * hx') (by positivity))
  have dc := L2.diff h.loc (sq_sum_ne (r := 2 * |c1.kappa_inv|) (by linear_combination hz2) (by positivity))
  have qa := hc_TcT_rev (a' := c1) (Cen.refl c1) e1 (by dir [hl, hf]) da
  have qb := hc_TT_rev (P := P) e1 e2 (by dir [hl, hf]) (by dir [hl, hf]) db
  have qc := hc_TcT_rev (b' := c2) e2 (Cen.refl c2) (by dir [hl, hf]) dc
  rw [lastcT_rev pm2 c2 qc, firstTc_rev pm1 c1 qa, qb.hc_at _ _ _ _ qa, qb.hc_at _ _ _ _ qc, hl, hf]
  simp only [Bool.not_not]
  ring

theorem TiSTcT_path (he : SF.HcRs.TiSTcT_exists P m c1 c2) :
    (SF.HcRs.TcTiST_path pm2 pm1 P m' c2 c1).length = (SF.HcRs.TiSTcT_path pm1 pm2 P m c1 c2).length := by
  obtain ⟨⟨hl, hf⟩, -⟩ := eq_eq he
  have hD := h.dist
  have hR := h.radius
  have hC := h.cos_mu
  have hK := h.kapos
  unfold SF.HcRs.TcTiST_path SF.HcRs.TiSTcT_path
  dsimp only
  rw [h.kap, h.kinv2, h.mrev.distance]
  have hy : 4 * P.radius * P.cos_mu / (|c1.kappa| * m.distance) ≠ 0 := by positivity
  generalize 4 * P.radius * P.cos_mu / (|c1.kappa| * m.distance) = y at *
  generalize √((2 * c1.kappa_inv) ^ 2 - y ^ 2) = x at *
  have ec := cen_centered (l := !c2.left) (f := c2.forward) (r := c2.regular) (l' := !c1.left) (f' := !c1.forward) (r' := c1.regular)
    (P := P) (P' := P) ((h.at2 x (-y)).trans (by rw [neg_neg]))
  have L := Loc.frame2 (P := P) (u := -x) (v := y) (l := !c2.left) (f := c2.forward) (r := c2.regular) h.loc
  have da := (Loc.self c1 m.angle).diff L (sq_sum_ne_right (by rwa [sub_zero]))
  have db := L.diff h.loc (sq_sum_ne_right (by rwa [zero_sub, neg_ne_zero]))
  have qa := hc_TiST_rev (P := P) (a' := c1) (Cen.refl c1) ec (by dir [hl, hf]) (by dir [hl, hf]) da
  have qb := hc_TcT_rev (b' := c2) ec (Cen.refl c2) (by dir [hl, hf]) db
  rw [lastcT_rev pm2 c2 qb, firstT_rev pm1 c1 qa.1, qa.2.hc_at _ _ _ _ qb, qa.dist, hl, hf]
  ring

theorem TeSTcT_path (he : SF.HcRs.TeSTcT_exists P m c1 c2) :
    (SF.HcRs.TcTeST_path pm2 pm1 P m' c2 c1).length = (SF.HcRs.TeSTcT_path pm1 pm2 P m c1 c2).length := by
  obtain ⟨⟨hl, hf⟩, hge⟩ := ne_eq' he
  have hD := h.dist
  have hK := h.kpos
  have hs : 0 < P.radius * P.sin_mu := mul_pos h.radius h.sin_mu
  unfold SF.HcRs.TcTeST_path SF.HcRs.TeSTcT_path
  dsimp only
  rw [h.kinv]
  have ec := cen_centered (l := !c2.left) (f := c2.forward) (r := c2.regular) (l' := c1.left) (f' := !c1.forward) (r' := c1.regular)
    (P := P) (P' := P) ((h.at2 (2 * |c1.kappa_inv|) 0).trans (by rw [neg_zero]))
  have L := Loc.frame2 (P := P) (u := -(2 * |c1.kappa_inv|)) (v := 0) (l := !c2.left) (f := c2.forward) (r := c2.regular) h.loc
  have da := (Loc.self c1 m.angle).diff L (sq_sum_ne_left (by refine ne_of_gt ?_; linarith))
  have db := L.diff h.loc (sq_sum_ne_left (by refine ne_of_gt ?_; linarith))
  have qa := hc_TeST_rev (P := P) (a' := c1) (Cen.refl c1) ec rfl (by dir [hl, hf]) da
  have qb := hc_TcT_rev (b' := c2) ec (Cen.refl c2) (by dir [hl, hf]) db
  rw [lastcT_rev pm2 c2 qb, firstT_rev pm1 c1 qa.1, qa.2.hc_at _ _ _ _ qb, qa.dist, hl, hf]
  simp only [Bool.not_not]
  ring

theorem TcTiSTcT_path (he : SF.HcRs.TcTiSTcT_exists P m c1 c2) :
    (SF.HcRs.TcTiSTcT_path pm2 pm1 P m' c2 c1).length = (SF.HcRs.TcTiSTcT_path pm1 pm2 P m c1 c2).length := by
  obtain ⟨⟨hl, hf⟩, -⟩ := ne_ne he
  have hD := h.dist
  have hR := h.radius
  have hC := h.cos_mu
  have hK := h.kapos
  unfold SF.HcRs.TcTiSTcT_path
  dsimp only
  rw [h.kap, h.kinv2, h.mrev.distance]
  have hy : 4 * P.radius * P.cos_mu / (m.distance * |c1.kappa|) ≠ 0 := by positivity
  generalize 4 * P.radius * P.cos_mu / (m.distance * |c1.kappa|) = y at *
  generalize √((2 * c1.kappa_inv) ^ 2 - y ^ 2) = x at *
  have e1 := cen_centered (l := !c1.left) (f := !c1.forward) (r := c1.regular) (l' := !c1.left) (f' := c1.forward) (r' := c1.regular)
    (P := P) (P' := P) (h.at1 x y)
  have e2 := cen_centered (l := !c2.left) (f := c2.forward) (r := c2.regular) (l' := !c2.left) (f' := !c2.forward) (r' := c2.regular)
    (P := P) (P' := P) (h.at2 x y)
  have L1 := Loc.frame (c1 := c1) (a := m.angle) (P := P) (u := x) (v := y) (l := !c1.left) (f := !c1.forward) (r := c1.regular)
  have L2 := Loc.frame2 (P := P) (u := -x) (v := -y) (l := !c2.left) (f := c2.forward) (r := c2.regular) h.loc
  have da := (Loc.self c1 m.angle).diff L1 (sq_sum_ne_right (by rwa [sub_zero]))
  have db := L1.diff L2 (sq_sum_ne_right (by intro e; apply hy; linarith))
  have dc := L2.diff h.loc (sq_sum_ne_right (by rwa [zero_sub, neg_neg]))
  have qa := hc_TcT_rev (a' := c1) (Cen.refl c1) e1 (by dir [hl, hf]) da
  have qb := hc_TiST_rev (P := P) e1 e2 (by dir [hl, hf]) (by dir [hl, hf]) db
  have qc := hc_TcT_rev (b' := c2) e2 (Cen.refl c2) (by dir [hl, hf]) dc
  rw [lastcT_rev pm2 c2 qc, firstTc_rev pm1 c1 qa, qb.1.hc_at _ _ _ _ qa, qb.2.hc_at _ _ _ _ qc, qb.dist]
  ring

theorem TcTeSTcT_path (he : SF.HcRs.TcTeSTcT_exists P m c1 c2) :
    (SF.HcRs.TcTeSTcT_path pm2 pm1 P m' c2 c1).length = (SF.HcRs.TcTeSTcT_path pm1 pm2 P m c1 c2).length := by
  obtain ⟨⟨hl, hf⟩, hge⟩ := eq_ne he
  have hD := h.dist
  have hK := h.kpos
  have hs : 0 < P.radius * P.sin_mu := mul_pos h.radius h.sin_mu
  unfold SF.HcRs.TcTeSTcT_path
  dsimp only
  rw [h.kinv]
  have e1 := cen_centered (l := !c1.left) (f := !c1.forward) (r := c1.regular) (l' := !c1.left) (f' := c1.forward) (r' := c1.regular)
    (P := P) (P' := P) ((congrArg _ neg_zero.symm).trans (h.at1 (2 * |c1.kappa_inv|) 0))
  have e2 := cen_centered (l := !c2.left) (f := c2.forward) (r := c2.regular) (l' := !c2.left) (f' := !c2.forward) (r' := c2.regular)
    (P := P) (P' := P) ((h.at2 (2 * |c1.kappa_inv|) 0).trans (by rw [neg_zero]))
  have L1 := Loc.frame (c1 := c1) (a := m.angle) (P := P) (u := 2 * |c1.kappa_inv|) (v := 0) (l := !c1.left) (f := !c1.forward) (r := c1.regular)
  have L2 := Loc.frame2 (P := P) (u := -(2 * |c1.kappa_inv|)) (v := 0) (l := !c2.left) (f := c2.forward) (r := c2.regular) h.loc
  have da := (Loc.self c1 m.angle).diff L1 (sq_sum_ne_left (by refine ne_of_gt ?_; linarith))
  have db := L1.diff L2 (sq_sum_ne_left (by refine ne_of_gt ?_; linarith))
  have dc := L2.diff h.loc (sq_sum_ne_left (by refine ne_of_gt ?_; linarith))
  have qa := hc_TcT_rev (a' := c1) (Cen.refl c1) e1 (by dir [hl, hf]) da
  have qb := hc_TeST_rev (P := P) e1 e2 (by dir [hl, hf]) (by dir [hl, hf]) db
  have qc := hc_TcT_rev (b' := c2) e2 (Cen.refl c2) (by dir [hl, hf]) dc
  rw [lastcT_rev pm2 c2 qc, firstTc_rev pm1 c1 qa, qb.1.hc_at _ _ _ _ qa, qb.2.hc_at _ _ _ _ qc, qb.dist]
  ring

/-! ### Families with alternatives -/

open Classical in
theorem TST_path : (SF.HcRs.TST_path pm2 pm1 P m' c2 c1).length = (SF.HcRs.TST_path pm1 pm2 P m c1 c2).length := by
  have line : ∀ {q q'}, Swap q q' → (SF.HcRs.TST_line pm2 pm1 P c2 c1 q').length = (SF.HcRs.TST_line pm1 pm2 P c1 c2 q).length := by
    intro q q' e
    unfold SF.HcRs.TST_line
    dsimp only
    rw [lastT_rev pm2 c2 e.2, firstT_rev pm1 c1 e.1, e.dist]; ring
  unfold SF.HcRs.TST_path
  rw [h.TiST_exists, h.TeST_exists]
  by_cases g1 : SF.HcRs.TiST_exists P m c1 c2
  · rw [if_pos g1, if_pos g1]
    obtain ⟨⟨hl, hf⟩, -⟩ := ne_ne (c1 := c1.reparam P) g1
    exact line (hc_TiST_rev (Cen.refl c1) (Cen.refl c2) hl hf h.diff)
  rw [if_neg g1, if_neg g1]
  by_cases g2 : SF.HcRs.TeST_exists P m c1 c2
  · rw [if_pos g2, if_pos g2]
    obtain ⟨⟨hl, hf⟩, -⟩ := eq_ne (c1 := c1.reparam P) g2
    exact line (hc_TeST_rev (Cen.refl c1) (Cen.refl c2) hl hf h.diff)
  rw [if_neg g2, if_neg g2]

open Classical in
theorem TcST_path : (SF.HcRs.TScT_path pm2 pm1 P m' c2 c1).length = (SF.HcRs.TcST_path pm1 pm2 P m c1 c2).length := by
  have line : ∀ {q q'}, Swap q q' → (SF.HcRs.TScT_line pm2 pm1 P c2 c1 q').length = (SF.HcRs.TcST_line pm1 pm2 P c1 c2 q).length := by
    intro q q' e
    unfold SF.HcRs.TScT_line SF.HcRs.TcST_line
    dsimp only
    rw [lastT_rev pm2 c2 e.2, firstTc_rev pm1 c1 e.1, e.dist]; ring
  unfold SF.HcRs.TScT_path SF.HcRs.TcST_path
  rw [h.TciST_exists, h.TceST_exists]
  by_cases g1 : SF.HcRs.TciST_exists P m c1 c2
  · rw [if_pos g1, if_pos g1]
    obtain ⟨⟨hl, hf⟩, -⟩ := ne_eq' g1
    exact line (hc_TciST_rev h.mrev hl hf h.kinv)
  rw [if_neg g1, if_neg g1]
  by_cases g2 : SF.HcRs.TceST_exists P m c1 c2
  · rw [if_pos g2, if_pos g2]
    obtain ⟨⟨hl, hf⟩, -⟩ := eq_eq g2
    exact line (hc_TceST_rev h.mrev hl hf h.kinv)
  rw [if_neg g2, if_neg g2]

open Classical in
theorem TcScT_path : (SF.HcRs.TcScT_path pm2 pm1 m' c2 c1).length = (SF.HcRs.TcScT_path pm1 pm2 m c1 c2).length := by
  have line : ∀ {q q'}, Swap q q' → (SF.HcRs.TcScT_line pm2 pm1 c2 c1 q').length = (SF.HcRs.TcScT_line pm1 pm2 c1 c2 q).length := by
    intro q q' e
    unfold SF.HcRs.TcScT_line
    dsimp only
    rw [lastcT_rev pm2 c2 e.2, firstTc_rev pm1 c1 e.1, e.dist]; ring
  unfold SF.HcRs.TcScT_path
  rw [h.TciScT_exists, h.TceScT_exists]
  by_cases g1 : SF.HcRs.TciScT_exists m c1 c2
  · rw [if_pos g1, if_pos g1]
    obtain ⟨⟨hl, hf⟩, -⟩ := ne_ne g1
    exact line (hc_TciScT_rev h.mrev hl hf h.kinv h.kap)
  rw [if_neg g1, if_neg g1]
  by_cases g2 : SF.HcRs.TceScT_exists m c1 c2
  · rw [if_pos g2, if_pos g2]
    obtain ⟨⟨hl, hf⟩, -⟩ := eq_ne g2
    exact line (hc_TceScT_rev h.mrev hl hf h.kinv)
  rw [if_neg g2, if_neg g2]

open Classical in
theorem TSTcT_path : (SF.HcRs.TcTST_path pm2 pm1 P m' c2 c1).length = (SF.HcRs.TSTcT_path pm1 pm2 P m c1 c2).length := by
  unfold SF.HcRs.TcTST_path SF.HcRs.TSTcT_path
  rw [h.TiSTcT_exists, h.TeSTcT_exists]
  by_cases g1 : SF.HcRs.TiSTcT_exists P m c1 c2
  · rw [if_pos g1, if_pos g1, h.TiSTcT_path g1]
  rw [if_neg g1, if_neg g1]
  by_cases g2 : SF.HcRs.TeSTcT_exists P m c1 c2
  · rw [if_pos g2, if_pos g2, h.TeSTcT_path g2]
  rw [if_neg g2, if_neg g2]

open Classical in
theorem TcTSTcT_path : (SF.HcRs.TcTSTcT_path pm2 pm1 P m' c2 c1).length = (SF.HcRs.TcTSTcT_path pm1 pm2 P m c1 c2).length := by
  unfold SF.HcRs.TcTSTcT_path
  rw [h.TcTiSTcT_exists, h.TcTeSTcT_exists]
  by_cases g1 : SF.HcRs.TcTiSTcT_exists P m c1 c2
  · rw [if_pos g1, if_pos g1, h.TcTiSTcT_path g1]
  rw [if_neg g1, if_neg g1]
  by_cases g2 : SF.HcRs.TcTeSTcT_exists P m c1 c2
  · rw [if_pos g2, if_pos g2, h.TcTeSTcT_path g2]
  rw [if_neg g2, if_neg g2]

end HcPair

theorem ite_len {p p' : Prop} {_ : Decidable p} {_ : Decidable p'} (hp : p' = p) {r r' : SF.RSRow} (h : p → r'.length = r.length) :
    (if p' then r' else {}).length = (if p then r else {}).length := by
  subst hp
  by_cases g : p'
  · rw [if_pos g, if_pos g, h g]
  · rw [if_neg g, if_neg g]

/-- The family of the reversed path. -/
def revFamily : ℕ → ℕ
  | 6 => 7
  | 7 => 6
  | 9 => 10
  | 10 => 9
  | 15 => 16
  | 16 => 15
  | i => i

open Classical in
theorem HcPair.family {sp : SF.HCSpace} (h : HcPair sp.param m m' c1 c2) (i : ℕ) :
    (SF.HcRs.family pm2 pm1 sp m' c2 c1 (revFamily i)).length = (SF.HcRs.family pm1 pm2 sp m c1 c2 i).length := by
  match i with
  | 0 | 1 | 2 => rfl
  | 3 => exact ite_len h.TT_exists h.TT_path
  | 4 => exact ite_len h.TcT_exists h.TcT_path
  | 5 => exact ite_len h.TcTcT_exists h.TcTcT_path
  | 6 => exact ite_len h.TcTT_exists h.TcTT_path
  | 7 => exact (ite_len h.symm.TcTT_exists h.symm.TcTT_path).symm
  | 8 => exact h.TST_path
  | 9 => exact h.TSTcT_path
  | 10 => exact h.symm.TSTcT_path.symm
  | 11 => exact h.TcTSTcT_path
  | 12 => exact ite_len h.TTcTT_exists h.TTcTT_path
  | 13 => exact ite_len h.TcTTcT_exists h.TcTTcT_path
  | 14 => exact ite_len h.TTT_exists h.TTT_path
  | 15 => exact h.TcST_path
  | 16 => exact h.symm.TcST_path.symm
  | 17 => exact h.TcScT_path
  | n + 18 => rfl

end Spec.Rev
