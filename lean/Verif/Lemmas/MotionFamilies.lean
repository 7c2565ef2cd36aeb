import Verif.Lemmas.MotionRel

/-!
# Motions of the plane: families of paths between two circles
-/

noncomputable section

namespace Spec

open Real

variable {T : Motion} {m m' : SF.Scratch} {c1 c1' c2 c2' : SF.Circle} {P : SF.CircleParam}

theorem shorter_length (a b : SF.RSRow) : (a.shorter b).length = min a.length b.length := by
  unfold SF.RSRow.shorter
  split_ifs with h
  · rw [min_eq_left h.le]
  · rw [min_eq_right (not_lt.1 h)]

/-- Both sides of a connection change places under a reflection. -/
theorem shorter_rel (T : Motion) {f g : ℝ → SF.RSRow} {y : ℝ} (h : ∀ z, |z| = |y| → (g (T.sign * z)).length = (f z).length) :
    ((g y).shorter (g (-y))).length = ((f y).shorter (f (-y))).length := by
  rw [shorter_length, shorter_length]
  have h1 := h y rfl
  have h2 := h (-y) (abs_neg y)
  rcases T.sign_cases with ⟨_, e⟩ | ⟨_, e⟩ <;> rw [e] at h1 h2
  · rw [neg_one_mul] at h1
    rw [neg_one_mul, neg_neg] at h2
    rw [h1, h2, min_comm]
  · rw [one_mul] at h1 h2
    rw [h1, h2]

theorem line_row_rel (h1 : CircRel T c1 c1') (h2 : CircRel T c2 c2') {q q' : SF.Configuration × SF.Configuration}
    (h : CfgRel2 T q q') : (SF.CcRs.line_row c1' c2' q').length = (SF.CcRs.line_row c1 c2 q).length := by
  unfold SF.CcRs.line_row
  dsimp only
  rw [h1.cc h.1, h2.cc h.2, h.1.dist h.2]

/-! ### Positions of the centres -/

/-- The centre of `c` has the coordinates `u`, `v` in the frame at the centre of `c1` with direction `a`. -/
def Loc (c1 : SF.Circle) (a : ℝ) (c : SF.Circle) (u v : ℝ) : Prop :=
  c.xc = (SF.global_frame_change c1.xc c1.yc a u v).1 ∧ c.yc = (SF.global_frame_change c1.xc c1.yc a u v).2

theorem Loc.diff {a u v u' v' : ℝ} {c c' : SF.Circle} (h : Loc c1 a c u v) (h' : Loc c1 a c' u' v')
    (hne : (u' - u) ^ 2 + (v' - v) ^ 2 ≠ 0) : Diff c c' := by
  by_contra hd
  unfold Diff at hd
  push Not at hd
  obtain ⟨e1, e2⟩ := hd
  rw [h.1, h'.1] at e1
  rw [h.2, h'.2] at e2
  unfold SF.global_frame_change at e1 e2
  dsimp only at e1 e2
  have f := sin_sq_add_cos_sq a
  apply hne
  have g1 : (u' - u) * cos a - (v' - v) * sin a = 0 := by linarith
  have g2 : (u' - u) * sin a + (v' - v) * cos a = 0 := by linarith
  have : (u' - u) ^ 2 + (v' - v) ^ 2 = ((u' - u) * cos a - (v' - v) * sin a) ^ 2 + ((u' - u) * sin a + (v' - v) * cos a) ^ 2 := by
    linear_combination (-((u' - u) ^ 2 + (v' - v) ^ 2)) * f
  rw [this, g1, g2]; ring

theorem Loc.self (c1 : SF.Circle) (a : ℝ) : Loc c1 a c1 0 0 := by
  constructor <;> simp [SF.global_frame_change]

theorem Loc.other (c1 c2 : SF.Circle) : Loc c1 (SF.scratch c1 c2).angle c2 (SF.scratch c1 c2).distance 0 := by
  have h1 := SF.sqrt_mul_cos_atan2 (c2.yc - c1.yc) (c2.xc - c1.xc)
  have h2 := SF.sqrt_mul_sin_atan2 (c2.yc - c1.yc) (c2.xc - c1.xc)
  unfold SF.scratch SF.center_distance
  constructor <;> simp only [SF.global_frame_change] <;> linarith

theorem Loc.frame {a u v : ℝ} {l f r : Bool} :
    Loc c1 a (SF.circleCentered (SF.global_frame_change c1.xc c1.yc a u v).1 (SF.global_frame_change c1.xc c1.yc a u v).2 l f r P) u v :=
  ⟨rfl, rfl⟩

theorem Loc.frame2 {a d u v : ℝ} {l f r : Bool} (h : Loc c1 a c2 d 0) :
    Loc c1 a (SF.circleCentered (SF.global_frame_change c2.xc c2.yc a u v).1 (SF.global_frame_change c2.xc c2.yc a u v).2 l f r P)
      (d + u) v := by
  constructor <;> simp only [SF.circleCentered, SF.global_frame_change, h.1, h.2] <;> ring

theorem Diff.distance (h : Diff c1 c2) : 0 < (SF.scratch c1 c2).distance := by
  unfold SF.scratch SF.center_distance
  refine sqrt_pos.2 ?_
  rcases h with h | h
  · have := sub_ne_zero.2 h; positivity
  · have := sub_ne_zero.2 h; positivity

/-- Parameters of the circles used by the planners. -/
structure Pos (c1 c2 : SF.Circle) : Prop where
  radius : 0 < c1.radius
  sin_mu : 0 < c1.sin_mu
  cos_mu : 0 < c1.cos_mu
  radius2 : c2.radius = c1.radius
  cos2 : c2.cos_mu = c1.cos_mu

/-! ### Families with two sides -/

theorem TcTcT_side_rel (h1 : CircRel T c1 c1') (h2 : CircRel T c2 c2') (hm : SRel T m m') {dx dy : ℝ}
    (d0 : Diff c1 (SF.circleCentered (SF.global_frame_change c1.xc c1.yc m.angle dx dy).1 (SF.global_frame_change c1.xc c1.yc m.angle dx dy).2 (!c1.left) (!c1.forward) c1.regular P))
    (d1 : Diff (SF.circleCentered (SF.global_frame_change c1.xc c1.yc m.angle dx dy).1 (SF.global_frame_change c1.xc c1.yc m.angle dx dy).2 (!c1.left) (!c1.forward) c1.regular P) c2) :
    (SF.CcRs.TcTcT_side P m' c1' c2' dx (T.sign * dy)).length = (SF.CcRs.TcTcT_side P m c1 c2 dx dy).length := by
  have gt := DiscRel.centered (P := P) (h1.pos.frame hm.angle (a := dx) (a' := dx) (b := dy) (b' := T.sign * dy) rfl rfl)
    (l := (!c1.left)) (l' := (!c1'.left)) (f := (!c1.forward)) (f' := (!c1'.forward)) (r := c1.regular) (r' := c1'.regular)
    (by rw [h1.left]; cases c1.left <;> cases T.mirrored <;> rfl) (by rw [h1.forward]) (by rw [h1.regular])
  have eqa := TcT_rel h1.toDiscRel gt d0
  have eqb := TcT_rel gt h2.toDiscRel d1
  have ema := CircRel.at (P := P) eqa (l := (!c1.left)) (l' := (!c1'.left)) (f := (!c1.forward)) (f' := (!c1'.forward)) (r := c1.regular) (r' := c1'.regular)
    (by rw [h1.left]; cases c1.left <;> cases T.mirrored <;> rfl) (by rw [h1.forward]) (by rw [h1.regular])
  unfold SF.CcRs.TcTcT_side
  dsimp only
  rw [h1.cc eqa, ema.cc eqb, h2.cc eqb]

theorem TcTT_side_rel (h1 : CircRel T c1 c1') (h2 : CircRel T c2 c2') (hm : SRel T m m') {dx dy : ℝ}
    (d0 : Diff c1 (SF.circleCentered (SF.global_frame_change c1.xc c1.yc m.angle dx dy).1 (SF.global_frame_change c1.xc c1.yc m.angle dx dy).2 (!c1.left) (!c1.forward) c1.regular P))
    (d1 : Diff (SF.circleCentered (SF.global_frame_change c1.xc c1.yc m.angle dx dy).1 (SF.global_frame_change c1.xc c1.yc m.angle dx dy).2 (!c1.left) (!c1.forward) c1.regular P) c2) :
    (SF.CcRs.TcTT_side P m' c1' c2' dx (T.sign * dy)).length = (SF.CcRs.TcTT_side P m c1 c2 dx dy).length := by
  have gt := DiscRel.centered (P := P) (h1.pos.frame hm.angle (a := dx) (a' := dx) (b := dy) (b' := T.sign * dy) rfl rfl)
    (l := (!c1.left)) (l' := (!c1'.left)) (f := (!c1.forward)) (f' := (!c1'.forward)) (r := c1.regular) (r' := c1'.regular)
    (by rw [h1.left]; cases c1.left <;> cases T.mirrored <;> rfl) (by rw [h1.forward]) (by rw [h1.regular])
  have eqa := TcT_rel h1.toDiscRel gt d0
  have eqb := TT_rel gt h2.toDiscRel d1
  have ema := CircRel.at (P := P) eqa (l := (!c1.left)) (l' := (!c1'.left)) (f := (!c1.forward)) (f' := (!c1'.forward)) (r := c1.regular) (r' := c1'.regular)
    (by rw [h1.left]; cases c1.left <;> cases T.mirrored <;> rfl) (by rw [h1.forward]) (by rw [h1.regular])
  unfold SF.CcRs.TcTT_side SF.CcRs.TT_tangent_circles
  dsimp only
  rw [h1.cc eqa, ema.cc eqb, h2.cc eqb]

theorem TTcT_side_rel (h1 : CircRel T c1 c1') (h2 : CircRel T c2 c2') (hm : SRel T m m') {dx dy : ℝ}
    (d0 : Diff c1 (SF.circleCentered (SF.global_frame_change c1.xc c1.yc m.angle dx dy).1 (SF.global_frame_change c1.xc c1.yc m.angle dx dy).2 (!c1.left) c1.forward c1.regular P))
    (d1 : Diff (SF.circleCentered (SF.global_frame_change c1.xc c1.yc m.angle dx dy).1 (SF.global_frame_change c1.xc c1.yc m.angle dx dy).2 (!c1.left) c1.forward c1.regular P) c2) :
    (SF.CcRs.TTcT_side P m' c1' c2' dx (T.sign * dy)).length = (SF.CcRs.TTcT_side P m c1 c2 dx dy).length := by
  have gt := DiscRel.centered (P := P) (h1.pos.frame hm.angle (a := dx) (a' := dx) (b := dy) (b' := T.sign * dy) rfl rfl)
    (l := (!c1.left)) (l' := (!c1'.left)) (f := c1.forward) (f' := c1'.forward) (r := c1.regular) (r' := c1'.regular)
    (by rw [h1.left]; cases c1.left <;> cases T.mirrored <;> rfl) (by rw [h1.forward]) (by rw [h1.regular])
  have eqa := TT_rel h1.toDiscRel gt d0
  have eqb := TcT_rel gt h2.toDiscRel d1
  have ema := CircRel.at (P := P) eqa (l := (!c1.left)) (l' := (!c1'.left)) (f := c1.forward) (f' := c1'.forward) (r := c1.regular) (r' := c1'.regular)
    (by rw [h1.left]; cases c1.left <;> cases T.mirrored <;> rfl) (by rw [h1.forward]) (by rw [h1.regular])
  unfold SF.CcRs.TTcT_side SF.CcRs.TT_tangent_circles
  dsimp only
  rw [h1.cc eqa, ema.cc eqb, h2.cc eqb]

theorem TTT_side_rel (h1 : CircRel T c1 c1') (h2 : CircRel T c2 c2') (hm : SRel T m m') {dx dy : ℝ}
    (d0 : Diff c1 (SF.circleCentered (SF.global_frame_change c1.xc c1.yc m.angle dx dy).1 (SF.global_frame_change c1.xc c1.yc m.angle dx dy).2 (!c1.left) c1.forward c1.regular P))
    (d1 : Diff (SF.circleCentered (SF.global_frame_change c1.xc c1.yc m.angle dx dy).1 (SF.global_frame_change c1.xc c1.yc m.angle dx dy).2 (!c1.left) c1.forward c1.regular P) c2) :
    (SF.CcRs.TTT_side P m' c1' c2' dx (T.sign * dy)).length = (SF.CcRs.TTT_side P m c1 c2 dx dy).length := by
  have gt := DiscRel.centered (P := P) (h1.pos.frame hm.angle (a := dx) (a' := dx) (b := dy) (b' := T.sign * dy) rfl rfl)
    (l := (!c1.left)) (l' := (!c1'.left)) (f := c1.forward) (f' := c1'.forward) (r := c1.regular) (r' := c1'.regular)
    (by rw [h1.left]; cases c1.left <;> cases T.mirrored <;> rfl) (by rw [h1.forward]) (by rw [h1.regular])
  have eqa := TT_rel h1.toDiscRel gt d0
  have eqb := TT_rel gt h2.toDiscRel d1
  have ema := CircRel.at (P := P) eqa (l := (!c1.left)) (l' := (!c1'.left)) (f := c1.forward) (f' := c1'.forward) (r := c1.regular) (r' := c1'.regular)
    (by rw [h1.left]; cases c1.left <;> cases T.mirrored <;> rfl) (by rw [h1.forward]) (by rw [h1.regular])
  unfold SF.CcRs.TTT_side SF.CcRs.TT_tangent_circles
  dsimp only
  rw [h1.cc eqa, ema.cc eqb, h2.cc eqb]

theorem TTcTT_side_rel (h1 : CircRel T c1 c1') (h2 : CircRel T c2 c2') (hm : SRel T m m') {dx dy : ℝ}
    (d0 : Diff c1 (SF.circleCentered (SF.global_frame_change c1.xc c1.yc m.angle dx dy).1 (SF.global_frame_change c1.xc c1.yc m.angle dx dy).2 (!c1.left) c1.forward c1.regular P))
    (d1 : Diff (SF.circleCentered (SF.global_frame_change c1.xc c1.yc m.angle dx dy).1 (SF.global_frame_change c1.xc c1.yc m.angle dx dy).2 (!c1.left) c1.forward c1.regular P) (SF.circleCentered (SF.global_frame_change c2.xc c2.yc m.angle (-dx) dy).1 (SF.global_frame_change c2.xc c2.yc m.angle (-dx) dy).2 (!c2.left) (!c2.forward) c2.regular P))
    (d2 : Diff (SF.circleCentered (SF.global_frame_change c2.xc c2.yc m.angle (-dx) dy).1 (SF.global_frame_change c2.xc c2.yc m.angle (-dx) dy).2 (!c2.left) (!c2.forward) c2.regular P) c2) :
    (SF.CcRs.TTcTT_side P m' c1' c2' dx (T.sign * dy)).length = (SF.CcRs.TTcTT_side P m c1 c2 dx dy).length := by
  have gt1 := DiscRel.centered (P := P) (h1.pos.frame hm.angle (a := dx) (a' := dx) (b := dy) (b' := T.sign * dy) rfl rfl)
    (l := (!c1.left)) (l' := (!c1'.left)) (f := c1.forward) (f' := c1'.forward) (r := c1.regular) (r' := c1'.regular)
    (by rw [h1.left]; cases c1.left <;> cases T.mirrored <;> rfl) (by rw [h1.forward]) (by rw [h1.regular])
  have gt2 := DiscRel.centered (P := P) (h2.pos.frame hm.angle (a := (-dx)) (a' := (-dx)) (b := dy) (b' := T.sign * dy) rfl rfl)
    (l := (!c2.left)) (l' := (!c2'.left)) (f := (!c2.forward)) (f' := (!c2'.forward)) (r := c2.regular) (r' := c2'.regular)
    (by rw [h2.left]; cases c2.left <;> cases T.mirrored <;> rfl) (by rw [h2.forward]) (by rw [h2.regular])
  have eqa := TT_rel h1.toDiscRel gt1 d0
  have eqb := TcT_rel gt1 gt2 d1
  have eqc := TT_rel gt2 h2.toDiscRel d2
  have ema := CircRel.at (P := P) eqa (l := (!c1.left)) (l' := (!c1'.left)) (f := c1.forward) (f' := c1'.forward) (r := c1.regular) (r' := c1'.regular)
    (by rw [h1.left]; cases c1.left <;> cases T.mirrored <;> rfl) (by rw [h1.forward]) (by rw [h1.regular])
  have emb := CircRel.at (P := P) eqb (l := (!c2.left)) (l' := (!c2'.left)) (f := (!c2.forward)) (f' := (!c2'.forward)) (r := c2.regular) (r' := c2'.regular)
    (by rw [h2.left]; cases c2.left <;> cases T.mirrored <;> rfl) (by rw [h2.forward]) (by rw [h2.regular])
  unfold SF.CcRs.TTcTT_side SF.CcRs.TT_tangent_circles
  dsimp only
  rw [h1.cc eqa, ema.cc eqb, emb.cc eqc, h2.cc eqc]

theorem TcTTcT_side_rel (h1 : CircRel T c1 c1') (h2 : CircRel T c2 c2') (hm : SRel T m m') {dx dy : ℝ}
    (d0 : Diff c1 (SF.circleCentered (SF.global_frame_change c1.xc c1.yc m.angle dx dy).1 (SF.global_frame_change c1.xc c1.yc m.angle dx dy).2 (!c1.left) (!c1.forward) c1.regular P))
    (d1 : Diff (SF.circleCentered (SF.global_frame_change c1.xc c1.yc m.angle dx dy).1 (SF.global_frame_change c1.xc c1.yc m.angle dx dy).2 (!c1.left) (!c1.forward) c1.regular P) (SF.circleCentered (SF.global_frame_change c2.xc c2.yc m.angle (-dx) (-dy)).1 (SF.global_frame_change c2.xc c2.yc m.angle (-dx) (-dy)).2 (!c2.left) c2.forward c2.regular P))
    (d2 : Diff (SF.circleCentered (SF.global_frame_change c2.xc c2.yc m.angle (-dx) (-dy)).1 (SF.global_frame_change c2.xc c2.yc m.angle (-dx) (-dy)).2 (!c2.left) c2.forward c2.regular P) c2) :
    (SF.CcRs.TcTTcT_side P m' c1' c2' dx (T.sign * dy)).length = (SF.CcRs.TcTTcT_side P m c1 c2 dx dy).length := by
  have gt1 := DiscRel.centered (P := P) (h1.pos.frame hm.angle (a := dx) (a' := dx) (b := dy) (b' := T.sign * dy) rfl rfl)
    (l := (!c1.left)) (l' := (!c1'.left)) (f := (!c1.forward)) (f' := (!c1'.forward)) (r := c1.regular) (r' := c1'.regular)
    (by rw [h1.left]; cases c1.left <;> cases T.mirrored <;> rfl) (by rw [h1.forward]) (by rw [h1.regular])
  have gt2 := DiscRel.centered (P := P) (h2.pos.frame hm.angle (a := (-dx)) (a' := (-dx)) (b := -dy) (b' := -(T.sign * dy)) rfl (by ring))
    (l := (!c2.left)) (l' := (!c2'.left)) (f := c2.forward) (f' := c2'.forward) (r := c2.regular) (r' := c2'.regular)
    (by rw [h2.left]; cases c2.left <;> cases T.mirrored <;> rfl) (by rw [h2.forward]) (by rw [h2.regular])
  have eqa := TcT_rel h1.toDiscRel gt1 d0
  have eqb := TT_rel gt1 gt2 d1
  have eqc := TcT_rel gt2 h2.toDiscRel d2
  have ema := CircRel.at (P := P) eqa (l := (!c1.left)) (l' := (!c1'.left)) (f := (!c1.forward)) (f' := (!c1'.forward)) (r := c1.regular) (r' := c1'.regular)
    (by rw [h1.left]; cases c1.left <;> cases T.mirrored <;> rfl) (by rw [h1.forward]) (by rw [h1.regular])
  have emb := CircRel.at (P := P) eqb (l := c1.left) (l' := c1'.left) (f := (!c1.forward)) (f' := (!c1'.forward)) (r := c1.regular) (r' := c1'.regular)
    h1.left (by rw [h1.forward]) (by rw [h1.regular])
  unfold SF.CcRs.TcTTcT_side SF.CcRs.TT_tangent_circles
  dsimp only
  rw [h1.cc eqa, ema.cc eqb, emb.cc eqc, h2.cc eqc]

end Spec
