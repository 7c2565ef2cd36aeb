import Verif.Lemmas.HcMove

/-!
# The families of hybrid-curvature Reeds-Shepp paths
-/

noncomputable section

namespace Spec

open Real Props
open CC00 (CircOk cc_turn_ne_nil circOk_at)

/-! ### Rows -/

/-- A move. -/
abbrev Piece (k s : ℝ) (m : SF.Move) (D : PD) (k0 k1 E F : ℝ) (p q : Config) : Prop :=
  Chain k s [D] k0 k1 (turns m) E F m.controls p q m.length

/-- A row of the tables leads from circle to circle. -/
structure RowOk (pm1 pm2 : Bool) (k s : ℝ) (c1 c2 : SF.Circle) (E F : ℝ) (r : SF.RSRow) : Prop where
  chain : ∃ Ds, Chain k s Ds (kEnd pm1 k c1) (kEnd pm2 k c2) (r.moves.flatMap turns) E F
    (r.moves.flatMap SF.Move.controls) (cfg c1.start) (cfg c2.start) r.length ∧ HybD none Ds
  turns_le : (r.moves.flatMap turns).length ≤ 3

section
variable {k s k0 k1 k2 k3 k4 k5 k6 k7 k8 k9 E1 E2 E3 E4 E5 F1 F2 F3 F4 F5 : ℝ} {m1 m2 m3 m4 m5 : SF.Move}
  {D1 D2 D3 D4 D5 : PD} {p0 p1 p2 p3 p4 p5 : Config}

theorem row2 (h1 : Piece k s m1 D1 k0 k1 E1 F1 p0 p1) (h2 : Piece k s m2 D2 k2 k3 E2 F2 p1 p2) :
    Chain k s [D1, D2] k0 k3 ([m1, m2].flatMap turns) (E1 + E2) (F1 + F2) ([m1, m2].flatMap SF.Move.controls) p0 p2
      (m1.length + m2.length) := by
  simpa using h1.append h2

theorem row3 (h1 : Piece k s m1 D1 k0 k1 E1 F1 p0 p1) (h2 : Piece k s m2 D2 k2 k3 E2 F2 p1 p2)
    (h3 : Piece k s m3 D3 k4 k5 E3 F3 p2 p3) :
    Chain k s [D1, D2, D3] k0 k5 ([m1, m2, m3].flatMap turns) (E1 + E2 + E3) (F1 + F2 + F3)
      ([m1, m2, m3].flatMap SF.Move.controls) p0 p3 (m1.length + m2.length + m3.length) := by
  simpa using (h1.append h2).append h3

theorem row4 (h1 : Piece k s m1 D1 k0 k1 E1 F1 p0 p1) (h2 : Piece k s m2 D2 k2 k3 E2 F2 p1 p2)
    (h3 : Piece k s m3 D3 k4 k5 E3 F3 p2 p3) (h4 : Piece k s m4 D4 k6 k7 E4 F4 p3 p4) :
    Chain k s [D1, D2, D3, D4] k0 k7 ([m1, m2, m3, m4].flatMap turns) (E1 + E2 + E3 + E4) (F1 + F2 + F3 + F4)
      ([m1, m2, m3, m4].flatMap SF.Move.controls) p0 p4 (m1.length + m2.length + m3.length + m4.length) := by
  simpa using ((h1.append h2).append h3).append h4

theorem row5 (h1 : Piece k s m1 D1 k0 k1 E1 F1 p0 p1) (h2 : Piece k s m2 D2 k2 k3 E2 F2 p1 p2)
    (h3 : Piece k s m3 D3 k4 k5 E3 F3 p2 p3) (h4 : Piece k s m4 D4 k6 k7 E4 F4 p3 p4)
    (h5 : Piece k s m5 D5 k8 k9 E5 F5 p4 p5) :
    Chain k s [D1, D2, D3, D4, D5] k0 k9 ([m1, m2, m3, m4, m5].flatMap turns) (E1 + E2 + E3 + E4 + E5)
      (F1 + F2 + F3 + F4 + F5) ([m1, m2, m3, m4, m5].flatMap SF.Move.controls) p0 p5
      (m1.length + m2.length + m3.length + m4.length + m5.length) := by
  simpa using (((h1.append h2).append h3).append h4).append h5

end

theorem count2 (m1 m2 : SF.Move) : ([m1, m2].flatMap turns).length ≤ 3 := by
  have := turns_le m1
  have := turns_le m2
  simp; omega

theorem count3 (m1 m2 m3 : SF.Move) : ([m1, m2, m3].flatMap turns).length ≤ 3 := by
  have := turns_le m1
  have := turns_le m2
  have := turns_le m3
  simp; omega

theorem count4 {m1 m2 m3 m4 : SF.Move} (h2 : turns m2 = []) (h3 : turns m3 = []) :
    ([m1, m2, m3, m4].flatMap turns).length ≤ 3 := by
  have := turns_le m1
  have := turns_le m4
  simp [h2, h3]; omega

theorem count5 {m1 m2 m3 m4 m5 : SF.Move} (h2 : turns m2 = []) (h3 : turns m3 = []) (h4 : turns m4 = []) :
    ([m1, m2, m3, m4, m5].flatMap turns).length ≤ 3 := by
  have := turns_le m1
  have := turns_le m5
  simp [h2, h3, h4]; omega

theorem rowOk {pm1 pm2 : Bool} {k s : ℝ} {c1 c2 : SF.Circle} {E F E' F' len : ℝ} {moves : List SF.Move} {Ds : List PD}
    (h : Chain k s Ds (kEnd pm1 k c1) (kEnd pm2 k c2) (moves.flatMap turns) E' F' (moves.flatMap SF.Move.controls)
      (cfg c1.start) (cfg c2.start) len) (hd : HybD none Ds) (ht : (moves.flatMap turns).length ≤ 3)
    (hE : E' ≤ E) (hF : F' ≤ F) : RowOk pm1 pm2 k s c1 c2 E F ⟨len, moves⟩ :=
  ⟨⟨Ds, h.mono hE hF, hd⟩, ht⟩

theorem RowOk.shorter {pm1 pm2 : Bool} {k s : ℝ} {c1 c2 : SF.Circle} {E F : ℝ} {a b : SF.RSRow}
    (ha : RowOk pm1 pm2 k s c1 c2 E F a) (hb : RowOk pm1 pm2 k s c1 c2 E F b) :
    RowOk pm1 pm2 k s c1 c2 E F (a.shorter b) := by
  unfold SF.RSRow.shorter
  split_ifs
  exacts [ha, hb]

/-! ### Frames -/

theorem frame_dist (c : SF.Circle) {g dx dy r : ℝ} (h : dx ^ 2 + dy ^ 2 = r ^ 2) (hr : 0 ≤ r) :
    ‖(⟨(SF.global_frame_change c.xc c.yc g dx dy).1, (SF.global_frame_change c.xc c.yc g dx dy).2⟩ : ℂ) - center c‖ = r := by
  rw [frame_cis, show (⟨c.xc, c.yc⟩ : ℂ) = center c from rfl, add_sub_cancel_left, norm_cis_mul, ← sqrt_eq_norm, h, sqrt_sq hr]

section
variable (c1 c2 : SF.Circle)

theorem frame_dist_to {dx dy r : ℝ} (h : ((SF.scratch c1 c2).distance - dx) ^ 2 + dy ^ 2 = r ^ 2) (hr : 0 ≤ r) :
    ‖center c2 - ⟨(SF.global_frame_change c1.xc c1.yc (SF.scratch c1 c2).angle dx dy).1,
      (SF.global_frame_change c1.xc c1.yc (SF.scratch c1 c2).angle dx dy).2⟩‖ = r := by
  rw [frame_cis, show (⟨c1.xc, c1.yc⟩ : ℂ) = center c1 from rfl, scratch_polar c1 c2, add_sub_add_left_eq_sub,
    mul_comm, ← mul_sub, norm_cis_mul]
  rw [show (((SF.scratch c1 c2).distance : ℂ) - ⟨dx, dy⟩) = ⟨(SF.scratch c1 c2).distance - dx, -dy⟩ by
    apply Complex.ext <;> simp]
  rw [← sqrt_eq_norm, neg_sq, h, sqrt_sq hr]

theorem frame_dist_from {dx dy r : ℝ} (h : ((SF.scratch c1 c2).distance + dx) ^ 2 + dy ^ 2 = r ^ 2) (hr : 0 ≤ r) :
    ‖(⟨(SF.global_frame_change c2.xc c2.yc (SF.scratch c1 c2).angle dx dy).1,
      (SF.global_frame_change c2.xc c2.yc (SF.scratch c1 c2).angle dx dy).2⟩ : ℂ) - center c1‖ = r := by
  rw [frame_cis, show (⟨c2.xc, c2.yc⟩ : ℂ) = center c2 from rfl, scratch_polar c1 c2, add_assoc, add_sub_cancel_left,
    mul_comm, ← mul_add, norm_cis_mul]
  rw [show (((SF.scratch c1 c2).distance : ℂ) + ⟨dx, dy⟩) = ⟨(SF.scratch c1 c2).distance + dx, dy⟩ by
    apply Complex.ext <;> simp]
  rw [← sqrt_eq_norm, h, sqrt_sq hr]

theorem frame_dist_both {dx dy ex ey r : ℝ} (h : ((SF.scratch c1 c2).distance + ex - dx) ^ 2 + (ey - dy) ^ 2 = r ^ 2)
    (hr : 0 ≤ r) :
    ‖(⟨(SF.global_frame_change c2.xc c2.yc (SF.scratch c1 c2).angle ex ey).1,
      (SF.global_frame_change c2.xc c2.yc (SF.scratch c1 c2).angle ex ey).2⟩ : ℂ) -
      ⟨(SF.global_frame_change c1.xc c1.yc (SF.scratch c1 c2).angle dx dy).1,
      (SF.global_frame_change c1.xc c1.yc (SF.scratch c1 c2).angle dx dy).2⟩‖ = r := by
  rw [frame_cis, frame_cis, show (⟨c1.xc, c1.yc⟩ : ℂ) = center c1 from rfl,
    show (⟨c2.xc, c2.yc⟩ : ℂ) = center c2 from rfl, scratch_polar c1 c2]
  rw [show center c1 + ((SF.scratch c1 c2).distance : ℂ) * cis (SF.scratch c1 c2).angle
      + cis (SF.scratch c1 c2).angle * ⟨ex, ey⟩ - (center c1 + cis (SF.scratch c1 c2).angle * ⟨dx, dy⟩)
      = cis (SF.scratch c1 c2).angle * ⟨(SF.scratch c1 c2).distance + ex - dx, ey - dy⟩ by
    rw [show (⟨(SF.scratch c1 c2).distance + ex - dx, ey - dy⟩ : ℂ)
      = ((SF.scratch c1 c2).distance : ℂ) + ⟨ex, ey⟩ - ⟨dx, dy⟩ by apply Complex.ext <;> simp]
    ring]
  rw [norm_cis_mul, ← sqrt_eq_norm, h, sqrt_sq hr]

end

theorem AtCusp.side {k e : ℝ} {l l' : Bool} {z : ℂ} {q : SF.Configuration} (h : AtCusp k l z q e) (hl : l' = l) :
    AtCusp k l' z q e := hl ▸ h

theorem AtTan.side {k s e : ℝ} {f f' l l' : Bool} {z : ℂ} {q : SF.Configuration} (h : AtTan k s f l z q e) (hf : f' = f)
    (hl : l' = l) : AtTan k s f' l' z q e := hf ▸ hl ▸ h

/-- Sides and centres given separately. -/
theorem TcT_at' {k : ℝ} (c1 c2 : SF.Circle) {l : Bool} {z1 z2 : ℂ} (hl : c1.left = l) (h1 : center c1 = z1)
    (h2 : center c2 = z2) (hd : ‖z2 - z1‖ = 2 * (1 / k)) :
    AtCusp k l z1 (SF.HcRs.TcT_tangent_circles c1 c2) 0 ∧ AtCusp k (!l) z2 (SF.HcRs.TcT_tangent_circles c1 c2) 0 := by
  subst hl h1 h2
  exact TcT_at c1 c2 (by rw [hd]; simp)

section
variable {k s : ℝ} (H : Rng k s)

local notation "P" => SF.hc_cc_circle_param k s

include H in
theorem TT_at' (c1 c2 : SF.Circle) {f l : Bool} {z1 z2 : ℂ} (hf : c1.forward = f) (hl : c1.left = l) (h1 : center c1 = z1)
    (h2 : center c2 = z2) (hd : ‖z2 - z1‖ = 2 * ccR k s) :
    AtTan k s f l z1 (SF.HcRs.TT_tangent_circles P c1 c2) 0 ∧
    AtTan k s (!f) (!l) z2 (SF.HcRs.TT_tangent_circles P c1 c2) 0 := by
  subst hf hl h1 h2
  exact TT_at H c1 c2 (by rw [hd]; simp)

include H in
/-- A line of positive length. -/
theorem chain_line_pos {d x : ℝ} {q1 q2 : SF.Configuration} (hd : d = 1 ∨ d = -1) (hx : 0 < x) (h : Ahead d q1 q2 x) :
    Piece k s (.line q1 q2) ⟨0, d, 0, d, false⟩ 0 0 0 0 (cfg q1) (cfg q2) := by
  have L := leg_straight H hd hx.le h.2 h.1
  have T := L.track 0 le_rfl (by simp)
  refine L.toLeg.chain (level_zero _) (level_zero _) le_rfl T.limitsUp fun hE => ?_
  obtain ⟨w1, w2⟩ := (L.way hE).ways hd
  refine ⟨w1, w2, fun _ hn => ?_⟩
  have h0 := h.length hd hx.le
  have he := L.toLeg.exact (by simp)
  rw [h0] at he
  have : totalLength ((SF.straight_controls q1 q2).map seg) = 0 := by
    have hz : ∀ c ∈ (SF.straight_controls q1 q2).map seg, c.len = 0 := by
      intro c hc
      by_contra hne
      have : c ∈ driven ((SF.straight_controls q1 q2).map seg) := by simp [driven, hne]; simpa using hc
      rw [hn] at this; simp at this
    simp only [totalLength]
    refine List.sum_eq_zero fun y hy => ?_
    obtain ⟨c, hc, rfl⟩ := List.mem_map.1 hy
    simp [hz c hc]
  linarith

end

section families
variable {k s : ℝ} (H : Rng k s) {pm1 pm2 : Bool} {c1 c2 : SF.Circle} (h1 : EndOk pm1 k s c1) (h2 : EndOk pm2 k s c2)

local notation "P" => SF.hc_cc_circle_param k s
local notation "m" => SF.scratch c1 c2

include H h1 h2 in
theorem TT_row (h : SF.HcRs.TT_exists P m c1 c2) :
    RowOk pm1 pm2 k s c1 c2 SF.epsilon ((if pm1 then 0 else SF.epsilon / 2) + (if pm2 then 0 else SF.epsilon / 2))
      (SF.HcRs.TT_path pm1 pm2 P c1 c2) := by
  unfold SF.HcRs.TT_exists SF.CC00.TT_exists at h
  split_ifs at h with hl hf
  have hl' : c2.left = !c1.left := not_of_ne hl
  have hf' : c2.forward = !c1.forward := not_of_ne hf
  have hd : |‖center c2 - center c1‖ - 2 * ccR k s| ≤ 2 * (SF.epsilon / 2) := by
    rw [← scratch_distance, ← radius_param H]
    refine le_trans (le_of_lt h) (by linarith)
  obtain ⟨t1, t2⟩ := TT_at H c1 c2 hd
  rw [← hf', ← hl'] at t2
  obtain ⟨a, A⟩ := chain_firstT H h1 t1
  obtain ⟨b, B⟩ := chain_lastT H h2 t2
  exact rowOk (row2 A B) (by simp [HybD]) (count2 _ _) (by linarith) le_rfl

include H h1 h2 in
theorem TcT_row (h : SF.HcRs.TcT_exists m c1 c2) :
    RowOk pm1 pm2 k s c1 c2 SF.epsilon 0 (SF.HcRs.TcT_path pm1 pm2 c1 c2) := by
  unfold SF.HcRs.TcT_exists at h
  split_ifs at h with hl hf
  have hl' : c2.left = !c1.left := not_of_ne hl
  have hf' : c2.forward = c1.forward := (not_not.1 hf).symm
  have hd : |‖center c2 - center c1‖ - 2 * (1 / k)| ≤ 2 * (SF.epsilon / 2) := by
    rw [← scratch_distance, ← h1.abs_inv H.pos]
    refine le_trans (le_of_lt h) (by linarith)
  obtain ⟨t1, t2⟩ := TcT_at c1 c2 hd
  rw [← hl'] at t2
  have A := chain_firstTc H h1 t1
  have B := chain_lastcT H h2 t2
  rw [hf'] at B
  refine rowOk (row2 A B) ?_ (count2 _ _) (by linarith) (by linarith)
  rcases sg_pm c1.forward with e | e <;> simp [HybD, e]

include H h1 h2 in
theorem TcTcT_side_row (hl : c2.left = c1.left) (hf : c2.forward = !c1.forward) {dx dy : ℝ}
    (d1 : dx ^ 2 + dy ^ 2 = (2 * (1 / k)) ^ 2) (d2 : ((m).distance - dx) ^ 2 + dy ^ 2 = (2 * (1 / k)) ^ 2) :
    RowOk pm1 pm2 k s c1 c2 0 0 (SF.HcRs.TcTcT_side pm1 pm2 P (SF.rs_circle_param k) m c1 c2 dx dy) := by
  have hk : 0 ≤ 2 * (1 / k) := by have := H.pos; positivity
  obtain ⟨t1, t2⟩ := TcT_at' (k := k) c1 (SF.circleCentered (SF.global_frame_change c1.xc c1.yc (m).angle dx dy).1
    (SF.global_frame_change c1.xc c1.yc (m).angle dx dy).2 (!c1.left) (!c1.forward) c1.regular P)
    rfl rfl rfl (frame_dist c1 d1 hk)
  obtain ⟨t3, t4⟩ := TcT_at' (k := k) (l := !c1.left) (SF.circleCentered (SF.global_frame_change c1.xc c1.yc (m).angle dx dy).1
    (SF.global_frame_change c1.xc c1.yc (m).angle dx dy).2 (!c1.left) (!c1.forward) c1.regular P) c2
    rfl rfl rfl (frame_dist_to c1 c2 d2 hk)
  have t4 := t4.side (hl.trans (Bool.not_not _).symm)
  have A := chain_firstTc H h1 t1
  have B := chain_mid_rs H (f := !c1.forward) t2 t3
  have C := chain_lastcT H h2 t4
  refine rowOk (row3 A B C) ?_ (count3 _ _ _) (by simp) (by simp)
  rw [hf, hl]
  rcases sg_pm c1.forward with e | e <;> simp [HybD, e, sg_not]

include H h1 h2 in
theorem TcTcT_row (h : SF.HcRs.TcTcT_exists m c1 c2) :
    RowOk pm1 pm2 k s c1 c2 0 0 (SF.HcRs.TcTcT_path pm1 pm2 P (SF.rs_circle_param k) m c1 c2) := by
  unfold SF.HcRs.TcTcT_exists at h
  split_ifs at h with hl hf
  have hl' : c2.left = c1.left := (not_not.1 hl).symm
  have hf' : c2.forward = !c1.forward := not_of_ne hf
  have h0 : 0 ≤ (m).distance := by rw [scratch_distance]; exact norm_nonneg _
  rw [h1.abs_inv H.pos] at h
  unfold SF.HcRs.TcTcT_path
  rw [h1.abs_inv H.pos]
  have hsq : 0 ≤ (2 * (1 / k)) ^ 2 - (0.5 * (m).distance) ^ 2 := by nlinarith
  have hs := sq_sqrt hsq
  refine (TcTcT_side_row H h1 h2 hl' hf' ?_ ?_).shorter (TcTcT_side_row H h1 h2 hl' hf' ?_ ?_)
  · rw [hs]; ring
  · rw [hs]; ring
  · rw [neg_sq, hs]; ring
  · rw [neg_sq, hs]; ring

include H h1 h2 in
theorem TcTT_side_row (hl : c2.left = c1.left) (hf : c2.forward = c1.forward) {dx dy : ℝ}
    (d1 : dx ^ 2 + dy ^ 2 = (2 * (1 / k)) ^ 2) (d2 : ((m).distance - dx) ^ 2 + dy ^ 2 = (2 * ccR k s) ^ 2) :
    RowOk pm1 pm2 k s c1 c2 0 0 (SF.HcRs.TcTT_side pm1 pm2 P m c1 c2 dx dy) := by
  have hk : 0 ≤ 2 * (1 / k) := by have := H.pos; positivity
  have hR : 0 ≤ 2 * ccR k s := mul_nonneg zero_le_two (ccR_nonneg k s)
  obtain ⟨t1, t2⟩ := TcT_at' (k := k) c1 (SF.circleCentered (SF.global_frame_change c1.xc c1.yc (m).angle dx dy).1
    (SF.global_frame_change c1.xc c1.yc (m).angle dx dy).2 (!c1.left) (!c1.forward) c1.regular P)
    rfl rfl rfl (frame_dist c1 d1 hk)
  obtain ⟨t3, t4⟩ := TT_at' (f := !c1.forward) (l := !c1.left) H (SF.circleCentered (SF.global_frame_change c1.xc c1.yc (m).angle dx dy).1
    (SF.global_frame_change c1.xc c1.yc (m).angle dx dy).2 (!c1.left) (!c1.forward) c1.regular P) c2
    rfl rfl rfl rfl (frame_dist_to c1 c2 d2 hR)
  have t4 := t4.side (hf.trans (Bool.not_not _).symm) (hl.trans (Bool.not_not _).symm)
  have A := chain_firstTc H h1 t1
  have B := chain_mid_from H t2 t3
  obtain ⟨b, C⟩ := chain_lastT H h2 t4
  refine rowOk (row3 A B C) ?_ (count3 _ _ _) (by simp) (by simp)
  rcases sg_pm c1.forward with e | e <;> simp [HybD, e, sg_not]

theorem two_circles {r1 r2 D : ℝ} (hD : D ≠ 0) {dx dy : ℝ}
    (hx : dx = (r1 ^ 2 + D ^ 2 - r2 ^ 2) / (2 * D)) (hy : dy ^ 2 = r1 ^ 2 - ((r1 ^ 2 + D ^ 2 - r2 ^ 2) / (2 * D)) ^ 2) :
    dx ^ 2 + dy ^ 2 = r1 ^ 2 ∧ (D - dx) ^ 2 + dy ^ 2 = r2 ^ 2 := by
  rw [hy, hx]
  constructor
  · ring
  · field_simp; ring

include H h1 h2 in
theorem TcTT_row (h : SF.HcRs.TcTT_exists P m c1 c2) (hlt : (SF.HcRs.TcTT_path pm1 pm2 P m c1 c2).length < SF.dblMax) :
    RowOk pm1 pm2 k s c1 c2 0 0 (SF.HcRs.TcTT_path pm1 pm2 P m c1 c2) := by
  unfold SF.HcRs.TcTT_exists at h
  split_ifs at h with hl hf
  have hl' : c2.left = c1.left := (not_not.1 hl).symm
  have hf' : c2.forward = c1.forward := (not_not.1 hf).symm
  unfold SF.HcRs.TcTT_path at hlt ⊢
  rw [h1.abs_inv H.pos, radius_param H] at hlt ⊢
  simp only at hlt ⊢
  split_ifs at hlt ⊢ with hg
  · exact absurd hlt (lt_irrefl _)
  · push Not at hg
    have hs := sq_sqrt hg.2
    have T := two_circles hg.1 rfl hs
    have T' := two_circles hg.1 rfl ((neg_sq _).trans hs)
    exact (TcTT_side_row H h1 h2 hl' hf' T.1 T.2).shorter (TcTT_side_row H h1 h2 hl' hf' T'.1 T'.2)

include H h1 h2 in
theorem TTcT_side_row (hl : c2.left = c1.left) (hf : c2.forward = c1.forward) {dx dy : ℝ}
    (d1 : dx ^ 2 + dy ^ 2 = (2 * ccR k s) ^ 2) (d2 : ((m).distance - dx) ^ 2 + dy ^ 2 = (2 * (1 / k)) ^ 2) :
    RowOk pm1 pm2 k s c1 c2 0 0 (SF.HcRs.TTcT_side pm1 pm2 P m c1 c2 dx dy) := by
  have hk : 0 ≤ 2 * (1 / k) := by have := H.pos; positivity
  have hR : 0 ≤ 2 * ccR k s := mul_nonneg zero_le_two (ccR_nonneg k s)
  obtain ⟨t1, t2⟩ := TT_at' H c1 (SF.circleCentered (SF.global_frame_change c1.xc c1.yc (m).angle dx dy).1
    (SF.global_frame_change c1.xc c1.yc (m).angle dx dy).2 (!c1.left) c1.forward c1.regular P)
    rfl rfl rfl rfl (frame_dist c1 d1 hR)
  obtain ⟨t3, t4⟩ := TcT_at' (k := k) (l := !c1.left) (SF.circleCentered (SF.global_frame_change c1.xc c1.yc (m).angle dx dy).1
    (SF.global_frame_change c1.xc c1.yc (m).angle dx dy).2 (!c1.left) c1.forward c1.regular P) c2
    rfl rfl rfl (frame_dist_to c1 c2 d2 hk)
  have t4 := t4.side (hl.trans (Bool.not_not _).symm)
  obtain ⟨a, A⟩ := chain_firstT H h1 t1
  have B := chain_mid_to H t2 t3
  have C := chain_lastcT H h2 t4
  refine rowOk (row3 A B C) ?_ (count3 _ _ _) (by simp) (by simp)
  rw [hf]
  rcases sg_pm c1.forward with e | e <;> simp [HybD, e, sg_not]

include H h1 h2 in
theorem TTcT_row (h : SF.HcRs.TTcT_exists P m c1 c2) (hlt : (SF.HcRs.TTcT_path pm1 pm2 P m c1 c2).length < SF.dblMax) :
    RowOk pm1 pm2 k s c1 c2 0 0 (SF.HcRs.TTcT_path pm1 pm2 P m c1 c2) := by
  unfold SF.HcRs.TTcT_exists at h
  split_ifs at h with hl hf
  have hl' : c2.left = c1.left := (not_not.1 hl).symm
  have hf' : c2.forward = c1.forward := (not_not.1 hf).symm
  unfold SF.HcRs.TTcT_path at hlt ⊢
  rw [h1.abs_inv H.pos, radius_param H] at hlt ⊢
  simp only at hlt ⊢
  split_ifs at hlt ⊢ with hg
  · exact absurd hlt (lt_irrefl _)
  · push Not at hg
    have hs := sq_sqrt hg.2
    have T := two_circles hg.1 rfl hs
    have T' := two_circles hg.1 rfl ((neg_sq _).trans hs)
    exact (TTcT_side_row H h1 h2 hl' hf' T.1 T.2).shorter (TTcT_side_row H h1 h2 hl' hf' T'.1 T'.2)

/-! #### Lines between CC turns -/

include H h1 h2 in
theorem TST_line_row {q : SF.Configuration × SF.Configuration} {x : ℝ} (hf : c2.forward = !c1.forward)
    (t1 : AtTan k s c1.forward c1.left (center c1) q.1 0) (t2 : AtTan k s (!c1.forward) c2.left (center c2) q.2 0)
    (hx : 0 ≤ x) (ha : Ahead (sg c1.forward) q.1 q.2 x) :
    RowOk pm1 pm2 k s c1 c2 0 0 (SF.HcRs.TST_line pm1 pm2 P c1 c2 q) := by
  rw [← hf] at t2
  obtain ⟨a, A⟩ := chain_firstT H h1 t1
  have B := chain_line H (sg_pm _) hx ha
  obtain ⟨b, C⟩ := chain_lastT H h2 t2
  exact rowOk (row3 A B C) (by simp [HybD]) (count3 _ _ _) (by simp) (by simp)

include H h1 h2 in
theorem TST_row (hlt : (SF.HcRs.TST_path pm1 pm2 P m c1 c2).length < SF.dblMax) :
    RowOk pm1 pm2 k s c1 c2 0 0 (SF.HcRs.TST_path pm1 pm2 P m c1 c2) := by
  unfold SF.HcRs.TST_path at hlt ⊢
  split_ifs at hlt ⊢ with hi he
  · unfold SF.HcRs.TiST_exists SF.CC00.TiST_exists at hi
    split_ifs at hi with hl hf
    have hl' : c2.left = !c1.left := not_of_ne hl
    have hf' : c2.forward = !c1.forward := not_of_ne hf
    have hd : 2 * ccR k s ≤ ‖center c2 - center c1‖ := by rw [← scratch_distance, ← radius_param H]; exact hi
    obtain ⟨t1, t2, x, hx, _, ha⟩ := TiST_at H c1 c2 hd
    exact TST_line_row H h1 h2 hf' t1 (by rw [hl']; exact t2) hx ha
  · unfold SF.HcRs.TeST_exists SF.CC00.TeST_exists at he
    split_ifs at he with hl hf
    have hl' : c2.left = c1.left := (not_not.1 hl).symm
    have hf' : c2.forward = !c1.forward := not_of_ne hf
    have hd : 2 * ccA k s ≤ ‖center c2 - center c1‖ := by
      rw [← scratch_distance, ← sin_param H, ← mul_assoc]; exact he
    obtain ⟨t1, t2, x, hx, _, ha⟩ := TeST_at H c1 c2 hd
    exact TST_line_row H h1 h2 hf' t1 (by rw [hl']; exact t2) hx ha
  · exact absurd hlt (lt_irrefl _)

/-! #### Lines to a cusp -/

include H h1 h2 in
theorem TcST_line_row {q : SF.Configuration × SF.Configuration} {x : ℝ} (hf : c2.forward = c1.forward)
    (t1 : AtCusp k c1.left (center c1) q.1 0) (t2 : AtTan k s c1.forward c2.left (center c2) q.2 0)
    (hx : 0 ≤ x) (ha : Ahead (-sg c1.forward) q.1 q.2 x) :
    RowOk pm1 pm2 k s c1 c2 0 0 (SF.HcRs.TcST_line pm1 pm2 P c1 c2 q) := by
  rw [← hf] at t2
  have A := chain_firstTc H h1 t1
  have B := chain_line H (by rw [← sg_not]; exact sg_pm _) hx ha
  obtain ⟨b, C⟩ := chain_lastT H h2 t2
  refine rowOk (row3 A B C) ?_ (count3 _ _ _) (by simp) (by simp)
  rw [hf]
  rcases sg_pm c1.forward with e | e <;> simp [HybD, e]

include H h1 h2 in
theorem TcST_row (hlt : (SF.HcRs.TcST_path pm1 pm2 P m c1 c2).length < SF.dblMax) :
    RowOk pm1 pm2 k s c1 c2 0 0 (SF.HcRs.TcST_path pm1 pm2 P m c1 c2) := by
  unfold SF.HcRs.TcST_path at hlt ⊢
  have hi := h1.abs_inv H.pos
  split_ifs at hlt ⊢ with hg he
  · unfold SF.HcRs.TciST_exists at hg
    split_ifs at hg with hl hf
    have hl' : c2.left = !c1.left := not_of_ne hl
    have hf' : c2.forward = c1.forward := (not_not.1 hf).symm
    rw [sin_param H, cos_param H, hi, scratch_distance] at hg
    obtain ⟨t1, t2, x, hx, _, ha⟩ := TciST_at H c1 c2 hi hg
    exact TcST_line_row H h1 h2 hf' t1 (by rw [hl']; exact t2) hx ha
  · unfold SF.HcRs.TceST_exists at he
    split_ifs at he with hl hf
    have hl' : c2.left = c1.left := (not_not.1 hl).symm
    have hf' : c2.forward = c1.forward := (not_not.1 hf).symm
    rw [sin_param H, cos_param H, hi, scratch_distance] at he
    obtain ⟨t1, t2, x, hx, _, ha⟩ := TceST_at H c1 c2 hi he
    exact TcST_line_row H h1 h2 hf' t1 (by rw [hl']; exact t2) hx ha
  · exact absurd hlt (lt_irrefl _)

include H h1 h2 in
theorem TScT_line_row {q : SF.Configuration × SF.Configuration} {x : ℝ} (hf : c2.forward = c1.forward)
    (t1 : AtTan k s c1.forward c1.left (center c1) q.1 0) (t2 : AtCusp k c2.left (center c2) q.2 0)
    (hx : 0 ≤ x) (ha : Ahead (sg c1.forward) q.1 q.2 x) :
    RowOk pm1 pm2 k s c1 c2 0 0 (SF.HcRs.TScT_line pm1 pm2 P c1 c2 q) := by
  obtain ⟨a, A⟩ := chain_firstT H h1 t1
  have B := chain_line H (sg_pm _) hx ha
  have C := chain_lastcT H h2 t2
  refine rowOk (row3 A B C) ?_ (count3 _ _ _) (by simp) (by simp)
  rw [hf]
  rcases sg_pm c1.forward with e | e <;> simp [HybD, e]

include H h1 h2 in
theorem TScT_row (hlt : (SF.HcRs.TScT_path pm1 pm2 P m c1 c2).length < SF.dblMax) :
    RowOk pm1 pm2 k s c1 c2 0 0 (SF.HcRs.TScT_path pm1 pm2 P m c1 c2) := by
  unfold SF.HcRs.TScT_path at hlt ⊢
  have hi := h1.abs_inv H.pos
  split_ifs at hlt ⊢ with hg he
  · unfold SF.HcRs.TiScT_exists at hg
    split_ifs at hg with hl hf
    have hl' : c2.left = !c1.left := not_of_ne hl
    have hf' : c2.forward = c1.forward := (not_not.1 hf).symm
    rw [sin_param H, cos_param H, hi, scratch_distance] at hg
    obtain ⟨t1, t2, x, hx, _, ha⟩ := TiScT_at H c1 c2 hi hg
    exact TScT_line_row H h1 h2 hf' t1 (by rw [hl']; exact t2) hx ha
  · unfold SF.HcRs.TeScT_exists at he
    split_ifs at he with hl hf
    have hl' : c2.left = c1.left := (not_not.1 hl).symm
    have hf' : c2.forward = c1.forward := (not_not.1 hf).symm
    rw [sin_param H, cos_param H, hi, scratch_distance] at he
    obtain ⟨t1, t2, x, hx, _, ha⟩ := TeScT_at H c1 c2 hi he
    exact TScT_line_row H h1 h2 hf' t1 (by rw [hl']; exact t2) hx ha
  · exact absurd hlt (lt_irrefl _)

include H h1 h2 in
theorem TcScT_row (hlt : (SF.HcRs.TcScT_path pm1 pm2 m c1 c2).length < SF.dblMax) :
    RowOk pm1 pm2 k s c1 c2 0 0 (SF.HcRs.TcScT_path pm1 pm2 m c1 c2) := by
  unfold SF.HcRs.TcScT_path at hlt ⊢
  have hi := h1.abs_inv H.pos
  have hpm : -sg c1.forward = 1 ∨ -sg c1.forward = -1 := by rw [← sg_not]; exact sg_pm _
  split_ifs at hlt ⊢ with hg he
  · unfold SF.HcRs.TciScT_exists at hg
    split_ifs at hg with hl hf
    have hl' : c2.left = !c1.left := not_of_ne hl
    have hf' : c2.forward = !c1.forward := not_of_ne hf
    rw [hi, scratch_distance] at hg
    obtain ⟨t1, t2, x, hx, _, ha⟩ := TciScT_at H c1 c2 hi (h1.abs_kappa H.pos) hg
    rw [← hl'] at t2
    have A := chain_firstTc H h1 t1
    have B := chain_line_pos H hpm hx ha
    have C := chain_lastcT H h2 t2
    rw [hf'] at C
    refine rowOk (row3 A B C) ?_ (count3 _ _ _) (by simp) (by simp)
    rcases sg_pm c1.forward with e | e <;> simp [HybD, e, sg_not]
  · unfold SF.HcRs.TceScT_exists at he
    split_ifs at he with hl hf
    have hl' : c2.left = c1.left := (not_not.1 hl).symm
    have hf' : c2.forward = !c1.forward := not_of_ne hf
    obtain ⟨t1, t2, ha⟩ := TceScT_at c1 c2 hi
    rw [← hl'] at t2
    have A := chain_firstTc H h1 t1
    have B := chain_line H hpm (norm_nonneg _) ha
    have C := chain_lastcT H h2 t2
    rw [hf', hl'] at C
    refine rowOk (row3 A B C) ?_ (count3 _ _ _) (by simp) (by simp)
    rcases sg_pm c1.forward with e | e <;> simp [HybD, e, sg_not]
  · exact absurd hlt (lt_irrefl _)

/-! #### Four circles -/

include H h1 h2 in
theorem TTcTT_side_row (hl : c2.left = !c1.left) (hf : c2.forward = c1.forward) {dx dy : ℝ}
    (d1 : dx ^ 2 + dy ^ 2 = (2 * ccR k s) ^ 2) (d2 : ((m).distance - dx - dx) ^ 2 = (2 * (1 / k)) ^ 2) :
    RowOk pm1 pm2 k s c1 c2 0 0 (SF.HcRs.TTcTT_side pm1 pm2 P m c1 c2 dx dy) := by
  have hk : 0 ≤ 2 * (1 / k) := by have := H.pos; positivity
  have hR : 0 ≤ 2 * ccR k s := mul_nonneg zero_le_two (ccR_nonneg k s)
  obtain ⟨x1, y1, e1⟩ : ∃ x y, (x, y) = SF.global_frame_change c1.xc c1.yc (m).angle dx dy := ⟨_, _, rfl⟩
  obtain ⟨x2, y2, e2⟩ : ∃ x y, (x, y) = SF.global_frame_change c2.xc c2.yc (m).angle (-dx) dy := ⟨_, _, rfl⟩
  have D1 := frame_dist (g := (m).angle) c1 d1 hR
  have D2 := frame_dist (g := (m).angle) c2 ((congrArg (· + dy ^ 2) (neg_sq dx)).trans d1) hR
  have D3 := frame_dist_both c1 c2 (dx := dx) (dy := dy) (ex := -dx) (ey := dy) (r := 2 * (1 / k))
    (by rw [← d2]; ring) hk
  rw [norm_sub_rev] at D2
  rw [← e1] at D1 D3
  rw [← e2] at D2 D3
  unfold SF.HcRs.TTcTT_side
  simp only [← e1, ← e2]
  obtain ⟨t1, t2⟩ := TT_at' H c1 (SF.circleCentered x1 y1 (!c1.left) c1.forward c1.regular P) rfl rfl rfl rfl D1
  obtain ⟨t3, t4⟩ := TcT_at' (k := k) (l := !c1.left) (SF.circleCentered x1 y1 (!c1.left) c1.forward c1.regular P)
    (SF.circleCentered x2 y2 (!c2.left) (!c2.forward) c2.regular P) rfl rfl rfl D3
  obtain ⟨t5, t6⟩ := TT_at' (f := !c2.forward) (l := !c2.left) H (SF.circleCentered x2 y2 (!c2.left) (!c2.forward) c2.regular P) c2 rfl rfl rfl rfl D2
  have t6 := t6.side (Bool.not_not _).symm (Bool.not_not _).symm
  have t4' : AtCusp k (!c2.left) _ _ 0 := t4.side (by rw [hl])
  obtain ⟨a, A⟩ := chain_firstT H h1 t1
  have B := chain_mid_to H t2 t3
  have C := chain_mid_from H t4' t5
  obtain ⟨b, E⟩ := chain_lastT H h2 t6
  refine rowOk (row4 A B C E) ?_ (count4 rfl rfl) (by simp) (by simp)
  rw [hf]
  rcases sg_pm c1.forward with e | e <;> simp [HybD, e, sg_not]

include H h1 h2 in
theorem TTcTT_row (h : SF.HcRs.TTcTT_exists P m c1 c2) (hlt : (SF.HcRs.TTcTT_path pm1 pm2 P m c1 c2).length < SF.dblMax) :
    RowOk pm1 pm2 k s c1 c2 0 0 (SF.HcRs.TTcTT_path pm1 pm2 P m c1 c2) := by
  unfold SF.HcRs.TTcTT_exists at h
  split_ifs at h with hl hf
  have hl' : c2.left = !c1.left := not_of_ne hl
  have hf' : c2.forward = c1.forward := (not_not.1 hf).symm
  unfold SF.HcRs.TTcTT_path at hlt ⊢
  rw [h1.abs_inv H.pos, radius_param H] at hlt ⊢
  simp only at hlt ⊢
  obtain ⟨dx, hdx⟩ : ∃ dx, dx = (if (m).distance < 4 * ccR k s - 2 * (1 / k) then ((m).distance + 2 * (1 / k)) / 2
    else ((m).distance - 2 * (1 / k)) / 2) := ⟨_, rfl⟩
  rw [← hdx] at hlt ⊢
  have d2 : ((m).distance - dx - dx) ^ 2 = (2 * (1 / k)) ^ 2 := by
    rw [hdx]; split_ifs <;> ring
  split_ifs at hlt ⊢ with hg
  · exact absurd hlt (lt_irrefl _)
  · have hs := sq_sqrt (not_lt.1 hg)
    refine (TTcTT_side_row H h1 h2 hl' hf' ?_ d2).shorter (TTcTT_side_row H h1 h2 hl' hf' ?_ d2)
    · rw [hs]; ring
    · rw [neg_sq, hs]; ring

include H h1 h2 in
theorem TcTTcT_side_row (hl : c2.left = !c1.left) (hf : c2.forward = !c1.forward) {dx dy : ℝ}
    (d1 : dx ^ 2 + dy ^ 2 = (2 * (1 / k)) ^ 2)
    (d2 : ((m).distance - dx - dx) ^ 2 + (-dy - dy) ^ 2 = (2 * ccR k s) ^ 2) :
    RowOk pm1 pm2 k s c1 c2 0 0 (SF.HcRs.TcTTcT_side pm1 pm2 P m c1 c2 dx dy) := by
  have hk : 0 ≤ 2 * (1 / k) := by have := H.pos; positivity
  have hR : 0 ≤ 2 * ccR k s := mul_nonneg zero_le_two (ccR_nonneg k s)
  obtain ⟨x1, y1, e1⟩ : ∃ x y, (x, y) = SF.global_frame_change c1.xc c1.yc (m).angle dx dy := ⟨_, _, rfl⟩
  obtain ⟨x2, y2, e2⟩ : ∃ x y, (x, y) = SF.global_frame_change c2.xc c2.yc (m).angle (-dx) (-dy) := ⟨_, _, rfl⟩
  have D1 := frame_dist (g := (m).angle) c1 d1 hk
  have D2 := frame_dist (g := (m).angle) (dx := -dx) (dy := -dy) c2 (by rw [neg_sq, neg_sq]; exact d1) hk
  have D3 := frame_dist_both c1 c2 (dx := dx) (dy := dy) (ex := -dx) (ey := -dy) (r := 2 * ccR k s)
    (by rw [← d2]; ring) hR
  rw [norm_sub_rev] at D2
  rw [← e1] at D1 D3
  rw [← e2] at D2 D3
  unfold SF.HcRs.TcTTcT_side
  simp only [← e1, ← e2]
  obtain ⟨t1, t2⟩ := TcT_at' (k := k) c1 (SF.circleCentered x1 y1 (!c1.left) (!c1.forward) c1.regular P) rfl rfl rfl D1
  obtain ⟨t3, t4⟩ := TT_at' (f := !c1.forward) (l := !c1.left) H (SF.circleCentered x1 y1 (!c1.left) (!c1.forward) c1.regular P)
    (SF.circleCentered x2 y2 (!c2.left) c2.forward c2.regular P) rfl rfl rfl rfl D3
  obtain ⟨t5, t6⟩ := TcT_at' (k := k) (l := !c2.left) (SF.circleCentered x2 y2 (!c2.left) c2.forward c2.regular P) c2 rfl rfl rfl D2
  have t6 := t6.side (Bool.not_not _).symm
  have t4' : AtTan k s (!!c1.forward) c1.left _ _ 0 := t4.side rfl (Bool.not_not _).symm
  have t5' : AtCusp k c1.left _ _ 0 := t5.side (by rw [hl, Bool.not_not])
  have A := chain_firstTc H h1 t1
  have B := chain_mid_from H t2 t3
  have C := chain_mid_to H t4' t5'
  have E := chain_lastcT H h2 t6
  refine rowOk (row4 A B C E) ?_ (count4 rfl rfl) (by simp) (by simp)
  rw [hf]
  rcases sg_pm c1.forward with e | e <;> simp [HybD, e, sg_not]

theorem four_circles {r1 r2 D dx dy : ℝ} (hD : D ≠ 0) (hx : dx = (r1 ^ 2 + (D / 2) ^ 2 - r2 ^ 2) / D)
    (hy : dy ^ 2 = r1 ^ 2 - ((r1 ^ 2 + (D / 2) ^ 2 - r2 ^ 2) / D) ^ 2) :
    dx ^ 2 + dy ^ 2 = r1 ^ 2 ∧ (D - dx - dx) ^ 2 + (-dy - dy) ^ 2 = (2 * r2) ^ 2 := by
  constructor
  · rw [hy, hx]; ring
  · have : (-dy - dy) ^ 2 = 4 * dy ^ 2 := by ring
    rw [this, hy, hx]
    field_simp; ring

include H h1 h2 in
theorem TcTTcT_row (h : SF.HcRs.TcTTcT_exists P m c1 c2)
    (hlt : (SF.HcRs.TcTTcT_path pm1 pm2 P m c1 c2).length < SF.dblMax) :
    RowOk pm1 pm2 k s c1 c2 0 0 (SF.HcRs.TcTTcT_path pm1 pm2 P m c1 c2) := by
  unfold SF.HcRs.TcTTcT_exists at h
  split_ifs at h with hl hf
  have hl' : c2.left = !c1.left := not_of_ne hl
  have hf' : c2.forward = !c1.forward := not_of_ne hf
  unfold SF.HcRs.TcTTcT_path at hlt ⊢
  rw [h1.abs_inv H.pos, radius_param H] at hlt ⊢
  simp only at hlt ⊢
  split_ifs at hlt ⊢ with hg
  · exact absurd hlt (lt_irrefl _)
  · push Not at hg
    have hs := sq_sqrt hg.2
    have T := four_circles hg.1 rfl hs
    have T' := four_circles hg.1 rfl ((neg_sq _).trans hs)
    exact (TcTTcT_side_row H h1 h2 hl' hf' T.1 T.2).shorter (TcTTcT_side_row H h1 h2 hl' hf' T'.1 T'.2)

/-! #### Three CC turns -/

include H h1 h2 in
theorem TTT_side_row (hl : c2.left = c1.left) (hf : c2.forward = !c1.forward) {dx dy : ℝ}
    (d1 : dx ^ 2 + dy ^ 2 = (2 * ccR k s) ^ 2) (d2 : ((m).distance - dx) ^ 2 + dy ^ 2 = (2 * ccR k s) ^ 2) :
    RowOk pm1 pm2 k s c1 c2 0 0 (SF.HcRs.TTT_side pm1 pm2 P m c1 c2 dx dy) := by
  have hR : 0 ≤ 2 * ccR k s := mul_nonneg zero_le_two (ccR_nonneg k s)
  obtain ⟨t1, t2⟩ := TT_at' H c1 (SF.circleCentered (SF.global_frame_change c1.xc c1.yc (m).angle dx dy).1
    (SF.global_frame_change c1.xc c1.yc (m).angle dx dy).2 (!c1.left) c1.forward c1.regular P)
    rfl rfl rfl rfl (frame_dist c1 d1 hR)
  obtain ⟨t3, t4⟩ := TT_at' (f := c1.forward) (l := !c1.left) H (SF.circleCentered (SF.global_frame_change c1.xc c1.yc (m).angle dx dy).1
    (SF.global_frame_change c1.xc c1.yc (m).angle dx dy).2 (!c1.left) c1.forward c1.regular P) c2
    rfl rfl rfl rfl (frame_dist_to c1 c2 d2 hR)
  have t4 := t4.side hf (hl.trans (Bool.not_not _).symm)
  obtain ⟨a, A⟩ := chain_firstT H h1 t1
  have B := chain_mid_cc H (r := !pm1 && !pm2) t2 t3
  obtain ⟨b, C⟩ := chain_lastT H h2 t4
  exact rowOk (row3 A B C) (by simp [HybD]) (count3 _ _ _) (by simp) (by simp)

include H h1 h2 in
theorem TTT_row (h : SF.HcRs.TTT_exists P m c1 c2) :
    RowOk pm1 pm2 k s c1 c2 0 0 (SF.HcRs.TTT_path pm1 pm2 P m c1 c2) := by
  unfold SF.HcRs.TTT_exists SF.CC00.TTT_exists at h
  split_ifs at h with hl hf
  have hl' : c2.left = c1.left := (not_not.1 hl).symm
  have hf' : c2.forward = !c1.forward := not_of_ne hf
  have h0 : 0 ≤ (m).distance := by rw [scratch_distance]; exact norm_nonneg _
  have h' : (m).distance ≤ 4 * ccR k s := by rw [← radius_param H]; exact h
  unfold SF.HcRs.TTT_path
  rw [radius_param H]
  have hsq : 0 ≤ (2 * ccR k s) ^ 2 - (0.5 * (m).distance) ^ 2 := by nlinarith
  have hs := sq_sqrt hsq
  refine (TTT_side_row H h1 h2 hl' hf' ?_ ?_).shorter (TTT_side_row H h1 h2 hl' hf' ?_ ?_)
  · rw [hs]; ring
  · rw [hs]; ring
  · rw [neg_sq, hs]; ring
  · rw [neg_sq, hs]; ring

/-! #### Lines between a cusp and a CC turn, or between two cusps, with an HC turn in between -/

include H h1 h2 in
theorem TSTcT_core {q : SF.Configuration × SF.Configuration} {q3 : SF.Configuration} {x : ℝ} {l : Bool} {z : ℂ}
    (hf : c2.forward = c1.forward)
    (t1 : AtTan k s c1.forward c1.left (center c1) q.1 0) (t2 : AtTan k s (!c1.forward) l z q.2 0)
    (hx : 0 ≤ x) (ha : Ahead (sg c1.forward) q.1 q.2 x) (t3 : AtCusp k l z q3 0)
    (t4 : AtCusp k c2.left (center c2) q3 0) :
    RowOk pm1 pm2 k s c1 c2 0 0
      { length := (SF.HcRs.firstT pm1 P c1 q.1).length + SF.configuration_distance q.1 q.2
          + (SF.circleAt q.2 l c1.forward true P).hc_turn_length q3 + (SF.HcRs.lastcT pm2 c2 q3).length
        moves := [SF.HcRs.firstT pm1 P c1 q.1, .line q.1 q.2, .hc (SF.circleAt q.2 l c1.forward true P) q3 true,
          SF.HcRs.lastcT pm2 c2 q3] } := by
  obtain ⟨a, A⟩ := chain_firstT H h1 t1
  have B := chain_line H (sg_pm _) hx ha
  have C := chain_mid_to H t2 t3
  have E := chain_lastcT H h2 t4
  refine rowOk (row4 A B C E) ?_ (count4 rfl rfl) (by simp) (by simp)
  rw [hf]
  rcases sg_pm c1.forward with e | e <;> simp [HybD, e]

include H h1 h2 in
theorem TcTST_core {q : SF.Configuration × SF.Configuration} {q1 : SF.Configuration} {x : ℝ} {z : ℂ}
    (hf : c2.forward = c1.forward)
    (t1 : AtCusp k c1.left (center c1) q1 0) (t2 : AtCusp k (!c1.left) z q1 0)
    (t3 : AtTan k s (!c1.forward) (!c1.left) z q.1 0)
    (hx : 0 ≤ x) (ha : Ahead (sg (!c1.forward)) q.1 q.2 x)
    (t4 : AtTan k s c1.forward c2.left (center c2) q.2 0) :
    RowOk pm1 pm2 k s c1 c2 0 0
      { length := (SF.HcRs.firstTc pm1 c1 q1).length + (SF.circleAt q.1 (!c1.left) c1.forward true P).hc_turn_length q1
          + SF.configuration_distance q.1 q.2 + (SF.HcRs.lastT pm2 P c2 q.2).length
        moves := [SF.HcRs.firstTc pm1 c1 q1, .hc (SF.circleAt q.1 (!c1.left) c1.forward true P) q1 false, .line q.1 q.2,
          SF.HcRs.lastT pm2 P c2 q.2] } := by
  rw [← hf] at t4
  have A := chain_firstTc H h1 t1
  have B := chain_mid_from H t2 t3
  have C := chain_line H (sg_pm _) hx ha
  obtain ⟨b, E⟩ := chain_lastT H h2 t4
  refine rowOk (row4 A B C E) ?_ (count4 rfl rfl) (by simp) (by simp)
  rw [hf]
  rcases sg_pm c1.forward with e | e <;> simp [HybD, e]

include H h1 h2 in
theorem TcTSTcT_core {q : SF.Configuration × SF.Configuration} {q1 q4 : SF.Configuration} {x : ℝ} {z1 z2 : ℂ}
    (hf : c2.forward = !c1.forward)
    (t1 : AtCusp k c1.left (center c1) q1 0) (t2 : AtCusp k (!c1.left) z1 q1 0)
    (t3 : AtTan k s (!c1.forward) (!c1.left) z1 q.1 0)
    (hx : 0 ≤ x) (ha : Ahead (sg (!c1.forward)) q.1 q.2 x)
    (t4 : AtTan k s c1.forward (!c2.left) z2 q.2 0)
    (t5 : AtCusp k (!c2.left) z2 q4 0) (t6 : AtCusp k c2.left (center c2) q4 0) :
    RowOk pm1 pm2 k s c1 c2 0 0
      { length := (SF.HcRs.firstTc pm1 c1 q1).length + (SF.circleAt q.1 (!c1.left) c1.forward true P).hc_turn_length q1
          + SF.configuration_distance q.1 q.2 + (SF.circleAt q.2 (!c2.left) c2.forward true P).hc_turn_length q4
          + (SF.HcRs.lastcT pm2 c2 q4).length
        moves := [SF.HcRs.firstTc pm1 c1 q1, .hc (SF.circleAt q.1 (!c1.left) c1.forward true P) q1 false, .line q.1 q.2,
          .hc (SF.circleAt q.2 (!c2.left) c2.forward true P) q4 true, SF.HcRs.lastcT pm2 c2 q4] } := by
  have t4' : AtTan k s (!c2.forward) (!c2.left) z2 q.2 0 := by rw [hf, Bool.not_not]; exact t4
  have A := chain_firstTc H h1 t1
  have B := chain_mid_from H t2 t3
  have C := chain_line H (sg_pm _) hx ha
  have D := chain_mid_to H t4' t5
  have E := chain_lastcT H h2 t6
  refine rowOk (row5 A B C D E) ?_ (count5 rfl rfl rfl) (by simp) (by simp)
  rw [hf]
  rcases sg_pm c1.forward with e | e <;> simp [HybD, e, sg_not]

/-- The offsets of the middle circles for crossing lines. -/
theorem cross_offsets {k B D dx dy : ℝ} (hk : 0 < k) (hD0 : 0 < D) (hD : (2 * B) ^ 2 ≤ D ^ 2)
    (hy : dy = 4 * B / (k * D)) (hx : dx = √((2 * (1 / k)) ^ 2 - dy ^ 2)) :
    dx ^ 2 + dy ^ 2 = (2 * (1 / k)) ^ 2 ∧ D * dx = 2 * (1 / k) * √(D ^ 2 - (2 * B) ^ 2) := by
  have e : D ^ 2 * ((2 * (1 / k)) ^ 2 - dy ^ 2) = (2 * (1 / k)) ^ 2 * (D ^ 2 - (2 * B) ^ 2) := by
    rw [hy]; field_simp; ring
  have hn : 0 ≤ (2 * (1 / k)) ^ 2 - dy ^ 2 := by
    have h2 : 0 ≤ (2 * (1 / k)) ^ 2 * (D ^ 2 - (2 * B) ^ 2) := mul_nonneg (sq_nonneg _) (by linarith)
    rw [← e] at h2
    exact nonneg_of_mul_nonneg_right h2 (by positivity)
  constructor
  · rw [hx, sq_sqrt hn]; ring
  · rw [hx, ← sqrt_sq hD0.le, ← sqrt_mul (sq_nonneg D), sqrt_sq hD0.le, e, sqrt_mul (sq_nonneg _),
      sqrt_sq (by positivity)]

theorem ccR_sq (k s : ℝ) : ccR k s ^ 2 = ccA k s ^ 2 + ccB k s ^ 2 := sq_sqrt (by positivity)

/-- Distance of the centres for crossing lines: one offset (`n = 1`) or two (`n = 2`). -/
theorem cross_dist {k A B D n dx : ℝ} (hk : 0 < k) (hA : 0 < A)
    (hD : (2 * A + n * (2 * (1 / k))) ^ 2 + (2 * B) ^ 2 ≤ D ^ 2)
    (hx : D * dx = 2 * (1 / k) * √(D ^ 2 - (2 * B) ^ 2)) :
    (2 * A) ^ 2 + (2 * B) ^ 2 ≤ D ^ 2 - 2 * n * (D * dx) + n ^ 2 * (2 * (1 / k)) ^ 2 := by
  have hi : 0 < 1 / k := by positivity
  have hw : 0 ≤ D ^ 2 - (2 * B) ^ 2 := by nlinarith [sq_nonneg (2 * A + n * (2 * (1 / k)))]
  have hs := sq_sqrt hw
  have hl : 2 * A + n * (2 * (1 / k)) ≤ √(D ^ 2 - (2 * B) ^ 2) := le_sqrt_of_sq_le (by linarith)
  rw [hx]
  generalize √(D ^ 2 - (2 * B) ^ 2) = w at hs hl
  have : 2 * A ≤ w - n * (2 * (1 / k)) := by linarith
  have h2 : (2 * A) ^ 2 ≤ (w - n * (2 * (1 / k))) ^ 2 := pow_le_pow_left₀ (by linarith) this 2
  nlinarith

theorem sqrt_le_dist {a D : ℝ} (ha : 0 < a) (h : √a ≤ D) : 0 < D ∧ a ≤ D ^ 2 := by
  have h1 := sqrt_pos.2 ha
  have h2 := sq_sqrt ha.le
  exact ⟨by linarith, by nlinarith⟩

theorem two_ccR_le {d : ℝ} (hd : 0 ≤ d) (h : (2 * ccA k s) ^ 2 + (2 * ccB k s) ^ 2 ≤ d ^ 2) : 2 * ccR k s ≤ d := by
  have := ccR_sq k s
  have h0 := ccR_nonneg k s
  exact abs_le_of_sq_le_sq' (by nlinarith) hd |>.2

include H h1 h2 in
theorem TiSTcT_row (h : SF.HcRs.TiSTcT_exists P m c1 c2) :
    RowOk pm1 pm2 k s c1 c2 0 0 (SF.HcRs.TiSTcT_path pm1 pm2 P m c1 c2) := by
  have hk := H.pos
  have hA := ccA_pos H.kappa H.sigma H.clothoid
  have hB := ccB_pos H.kappa H.sigma H.clothoid
  have hi : 0 < 1 / k := by positivity
  unfold SF.HcRs.TiSTcT_exists at h
  split_ifs at h with hl hf
  have hl' : c2.left = c1.left := (not_not.1 hl).symm
  have hf' : c2.forward = c1.forward := (not_not.1 hf).symm
  rw [mul_assoc 2, mul_assoc 2, sin_param H, cos_param H, h1.abs_inv hk] at h
  obtain ⟨D0, hD⟩ := sqrt_le_dist (by positivity) h
  unfold SF.HcRs.TiSTcT_path
  rw [mul_assoc 4, cos_param H, h2.abs_kappa hk]
  obtain ⟨dy, hdy⟩ : ∃ dy, dy = 4 * ccB k s / (k * (m).distance) := ⟨_, rfl⟩
  obtain ⟨dx, hdx⟩ : ∃ dx, dx = √((2 * c2.kappa_inv) ^ 2 - dy ^ 2) := ⟨_, rfl⟩
  have e2 : (2 * c2.kappa_inv) ^ 2 = (2 * (1 / k)) ^ 2 := by
    rw [mul_pow, mul_pow, ← sq_abs c2.kappa_inv, h2.abs_inv hk]
  simp only [← hdy]
  rw [← hdx]
  rw [e2] at hdx
  obtain ⟨o1, o2⟩ := cross_offsets hk D0 (by nlinarith [sq_nonneg (2 * ccA k s + 2 * (1 / k))]) hdy hdx
  have hc := cross_dist (n := 1) hk hA (by rw [one_mul]; exact hD) o2
  have D2 := frame_dist (g := (m).angle) (dx := -dx) (dy := dy) (r := 2 * (1 / k)) c2
    (by rw [neg_sq]; exact o1) (by positivity)
  have hn : 0 ≤ ((m).distance + -dx) ^ 2 + dy ^ 2 := by positivity
  have D1 := frame_dist_from c1 c2 (dx := -dx) (dy := dy) (sq_sqrt hn).symm (sqrt_nonneg _)
  rw [norm_sub_rev] at D2
  have hR : 2 * ccR k s ≤ √(((m).distance + -dx) ^ 2 + dy ^ 2) := by
    refine two_ccR_le (sqrt_nonneg _) ?_
    rw [sq_sqrt hn]
    nlinarith
  rw [← D1] at hR
  generalize SF.global_frame_change c2.xc c2.yc (m).angle (-dx) dy = p at *
  obtain ⟨t1, t2, x, hx, _, ha⟩ := TiST_at H c1 (SF.circleCentered p.1 p.2 (!c2.left) c2.forward c2.regular P) hR
  obtain ⟨t3, t4⟩ := TcT_at' (k := k) (l := !c2.left) (SF.circleCentered p.1 p.2 (!c2.left) c2.forward c2.regular P) c2
    rfl rfl rfl D2
  exact TSTcT_core H h1 h2 hf' t1 t2 hx ha (t3.side (by rw [hl'])) (t4.side (Bool.not_not _).symm)

include H h1 h2 in
theorem TeSTcT_row (h : SF.HcRs.TeSTcT_exists P m c1 c2) :
    RowOk pm1 pm2 k s c1 c2 0 0 (SF.HcRs.TeSTcT_path pm1 pm2 P m c1 c2) := by
  have hk := H.pos
  have hA := ccA_pos H.kappa H.sigma H.clothoid
  have hi : 0 < 1 / k := by positivity
  unfold SF.HcRs.TeSTcT_exists at h
  split_ifs at h with hl hf
  have hl' : c2.left = !c1.left := not_of_ne hl
  have hf' : c2.forward = c1.forward := (not_not.1 hf).symm
  rw [sin_param H, h1.abs_inv hk] at h
  unfold SF.HcRs.TeSTcT_path
  rw [h2.abs_inv hk]
  dsimp only
  have D2 := frame_dist (g := (m).angle) (dx := -(2 * (1 / k))) (dy := 0) (r := 2 * (1 / k)) c2 (by ring) (by positivity)
  have D1 := frame_dist_from c1 c2 (dx := -(2 * (1 / k))) (dy := 0) (r := (m).distance - 2 * (1 / k)) (by ring) (by linarith)
  rw [norm_sub_rev] at D2
  have hR : 2 * ccA k s ≤ (m).distance - 2 * (1 / k) := by linarith
  rw [← D1] at hR
  generalize SF.global_frame_change c2.xc c2.yc (m).angle (-(2 * (1 / k))) 0 = p at *
  obtain ⟨t1, t2, x, hx, _, ha⟩ := TeST_at H c1 (SF.circleCentered p.1 p.2 (!c2.left) c2.forward c2.regular P) hR
  obtain ⟨t3, t4⟩ := TcT_at' (k := k) (l := !c2.left) (SF.circleCentered p.1 p.2 (!c2.left) c2.forward c2.regular P) c2
    rfl rfl rfl D2
  exact TSTcT_core H h1 h2 hf' t1 t2 hx ha (t3.side (by rw [hl', Bool.not_not])) (t4.side (Bool.not_not _).symm)

include H h1 h2 in
theorem TSTcT_row (hlt : (SF.HcRs.TSTcT_path pm1 pm2 P m c1 c2).length < SF.dblMax) :
    RowOk pm1 pm2 k s c1 c2 0 0 (SF.HcRs.TSTcT_path pm1 pm2 P m c1 c2) := by
  unfold SF.HcRs.TSTcT_path at hlt ⊢
  split_ifs at hlt ⊢ with hi he
  · exact TiSTcT_row H h1 h2 hi
  · exact TeSTcT_row H h1 h2 he
  · exact absurd hlt (lt_irrefl _)

include H h1 h2 in
theorem TcTiST_row (h : SF.HcRs.TcTiST_exists P m c1 c2) :
    RowOk pm1 pm2 k s c1 c2 0 0 (SF.HcRs.TcTiST_path pm1 pm2 P m c1 c2) := by
  have hk := H.pos
  have hA := ccA_pos H.kappa H.sigma H.clothoid
  have hB := ccB_pos H.kappa H.sigma H.clothoid
  have hi : 0 < 1 / k := by positivity
  unfold SF.HcRs.TcTiST_exists at h
  split_ifs at h with hl hf
  have hl' : c2.left = c1.left := (not_not.1 hl).symm
  have hf' : c2.forward = c1.forward := (not_not.1 hf).symm
  rw [mul_assoc 2, mul_assoc 2, sin_param H, cos_param H, h1.abs_inv hk] at h
  obtain ⟨D0, hD⟩ := sqrt_le_dist (by positivity) h
  unfold SF.HcRs.TcTiST_path
  rw [mul_assoc 4, cos_param H, h2.abs_kappa hk]
  obtain ⟨dy, hdy⟩ : ∃ dy, dy = 4 * ccB k s / (k * (m).distance) := ⟨_, rfl⟩
  obtain ⟨dx, hdx⟩ : ∃ dx, dx = √((2 * c2.kappa_inv) ^ 2 - dy ^ 2) := ⟨_, rfl⟩
  have e2 : (2 * c2.kappa_inv) ^ 2 = (2 * (1 / k)) ^ 2 := by
    rw [mul_pow, mul_pow, ← sq_abs c2.kappa_inv, h2.abs_inv hk]
  simp only [← hdy]
  rw [← hdx]
  rw [e2] at hdx
  obtain ⟨o1, o2⟩ := cross_offsets hk D0 (by nlinarith [sq_nonneg (2 * ccA k s + 2 * (1 / k))]) hdy hdx
  have hc := cross_dist (n := 1) hk hA (by rw [one_mul]; exact hD) o2
  have D2 := frame_dist (g := (m).angle) (dx := dx) (dy := -dy) (r := 2 * (1 / k)) c1
    (by rw [neg_sq]; exact o1) (by positivity)
  have hn : 0 ≤ ((m).distance - dx) ^ 2 + (-dy) ^ 2 := by positivity
  have D1 := frame_dist_to c1 c2 (dx := dx) (dy := -dy) (sq_sqrt hn).symm (sqrt_nonneg _)
  have hR : 2 * ccR k s ≤ √(((m).distance - dx) ^ 2 + (-dy) ^ 2) := by
    refine two_ccR_le (sqrt_nonneg _) ?_
    rw [sq_sqrt hn]
    nlinarith
  rw [← D1] at hR
  generalize SF.global_frame_change c1.xc c1.yc (m).angle dx (-dy) = p at *
  obtain ⟨t1, t2⟩ := TcT_at' (k := k) c1 (SF.circleCentered p.1 p.2 (!c2.left) (!c2.forward) c2.regular P) rfl rfl rfl D2
  obtain ⟨t3, t4, x, hx, _, ha⟩ := TiST_at H (SF.circleCentered p.1 p.2 (!c2.left) (!c2.forward) c2.regular P) c2 hR
  have t3' : AtTan k s (!c1.forward) (!c1.left) _ _ 0 := AtTan.side (f := !c2.forward) (l := !c2.left) t3 (by rw [hf']) (by rw [hl'])
  have t4' : AtTan k s c1.forward c2.left _ _ 0 := AtTan.side (f := !!c2.forward) (l := !!c2.left) t4
    (by rw [hf', Bool.not_not]) (Bool.not_not _).symm
  refine TcTST_core H h1 h2 hf' t1 t2 t3' hx ?_ t4'
  have ha' : Ahead (sg (!c2.forward)) _ _ x := ha
  have e : sg (!c2.forward) = sg (!c1.forward) := by rw [hf']
  rw [← e]
  exact ha'

include H h1 h2 in
theorem TcTeST_row (h : SF.HcRs.TcTeST_exists P m c1 c2) :
    RowOk pm1 pm2 k s c1 c2 0 0 (SF.HcRs.TcTeST_path pm1 pm2 P m c1 c2) := by
  have hk := H.pos
  have hA := ccA_pos H.kappa H.sigma H.clothoid
  have hi : 0 < 1 / k := by positivity
  unfold SF.HcRs.TcTeST_exists at h
  split_ifs at h with hl hf
  have hl' : c2.left = !c1.left := not_of_ne hl
  have hf' : c2.forward = c1.forward := (not_not.1 hf).symm
  rw [sin_param H, h1.abs_inv hk] at h
  unfold SF.HcRs.TcTeST_path
  rw [h2.abs_inv hk]
  dsimp only
  have D2 := frame_dist (g := (m).angle) (dx := 2 * (1 / k)) (dy := 0) (r := 2 * (1 / k)) c1 (by ring) (by positivity)
  have D1 := frame_dist_to c1 c2 (dx := 2 * (1 / k)) (dy := 0) (r := (m).distance - 2 * (1 / k)) (by ring) (by linarith)
  have hR : 2 * ccA k s ≤ (m).distance - 2 * (1 / k) := by linarith
  rw [← D1] at hR
  generalize SF.global_frame_change c1.xc c1.yc (m).angle (2 * (1 / k)) 0 = p at *
  obtain ⟨t1, t2⟩ := TcT_at' (k := k) c1 (SF.circleCentered p.1 p.2 c2.left (!c2.forward) c2.regular P) rfl rfl rfl D2
  obtain ⟨t3, t4, x, hx, _, ha⟩ := TeST_at H (SF.circleCentered p.1 p.2 c2.left (!c2.forward) c2.regular P) c2 hR
  have t3' : AtTan k s (!c1.forward) (!c1.left) _ _ 0 := AtTan.side (f := !c2.forward) (l := c2.left) t3 (by rw [hf']) (by rw [hl'])
  have t4' : AtTan k s c1.forward c2.left _ _ 0 := AtTan.side (f := !!c2.forward) (l := c2.left) t4
    (by rw [hf', Bool.not_not]) rfl
  refine TcTST_core H h1 h2 hf' t1 t2 t3' hx ?_ t4'
  have ha' : Ahead (sg (!c2.forward)) _ _ x := ha
  have e : sg (!c2.forward) = sg (!c1.forward) := by rw [hf']
  rw [← e]
  exact ha'

include H h1 h2 in
theorem TcTST_row (hlt : (SF.HcRs.TcTST_path pm1 pm2 P m c1 c2).length < SF.dblMax) :
    RowOk pm1 pm2 k s c1 c2 0 0 (SF.HcRs.TcTST_path pm1 pm2 P m c1 c2) := by
  unfold SF.HcRs.TcTST_path at hlt ⊢
  split_ifs at hlt ⊢ with hi he
  · exact TcTiST_row H h1 h2 hi
  · exact TcTeST_row H h1 h2 he
  · exact absurd hlt (lt_irrefl _)

include H h1 h2 in
theorem TcTiSTcT_row (h : SF.HcRs.TcTiSTcT_exists P m c1 c2) :
    RowOk pm1 pm2 k s c1 c2 0 0 (SF.HcRs.TcTiSTcT_path pm1 pm2 P m c1 c2) := by
  have hk := H.pos
  have hA := ccA_pos H.kappa H.sigma H.clothoid
  have hB := ccB_pos H.kappa H.sigma H.clothoid
  have hi : 0 < 1 / k := by positivity
  unfold SF.HcRs.TcTiSTcT_exists at h
  split_ifs at h with hl hf
  have hl' : c2.left = !c1.left := not_of_ne hl
  have hf' : c2.forward = !c1.forward := not_of_ne hf
  have e1 : (2 * c1.kappa_inv) ^ 2 = (2 * (1 / k)) ^ 2 := by
    rw [mul_pow, mul_pow, ← sq_abs c1.kappa_inv, h1.abs_inv hk]
  have e4 : (4 * c1.kappa_inv) ^ 2 = (4 * (1 / k)) ^ 2 := by
    rw [mul_pow, mul_pow, ← sq_abs c1.kappa_inv, h1.abs_inv hk]
  rw [mul_assoc 16, sin_param H, radius_param H, h1.abs_inv hk, e4,
    show (2 * ccR k s) ^ 2 + 16 * ccA k s * (1 / k) + (4 * (1 / k)) ^ 2
      = (2 * ccA k s + 2 * (2 * (1 / k))) ^ 2 + (2 * ccB k s) ^ 2 by rw [mul_pow 2 (ccR k s), ccR_sq]; ring] at h
  obtain ⟨D0, hD⟩ := sqrt_le_dist (by positivity) h
  unfold SF.HcRs.TcTiSTcT_path
  rw [mul_assoc 4, cos_param H, h1.abs_kappa hk, mul_comm _ k]
  obtain ⟨dy, hdy⟩ : ∃ dy, dy = 4 * ccB k s / (k * (m).distance) := ⟨_, rfl⟩
  obtain ⟨dx, hdx⟩ : ∃ dx, dx = √((2 * c1.kappa_inv) ^ 2 - dy ^ 2) := ⟨_, rfl⟩
  simp only [← hdy]
  rw [← hdx]
  rw [e1] at hdx
  obtain ⟨o1, o2⟩ := cross_offsets hk D0 (by nlinarith [sq_nonneg (2 * ccA k s + 2 * (2 * (1 / k)))]) hdy hdx
  have hc := cross_dist hk hA hD o2
  have D1 := frame_dist (g := (m).angle) (dx := dx) (dy := dy) c1 o1 (by positivity)
  have D2 := frame_dist (g := (m).angle) (dx := -dx) (dy := -dy) (r := 2 * (1 / k)) c2
    (by rw [neg_sq, neg_sq]; exact o1) (by positivity)
  have hn : 0 ≤ ((m).distance + -dx - dx) ^ 2 + (-dy - dy) ^ 2 := by positivity
  have D3 := frame_dist_both c1 c2 (dx := dx) (dy := dy) (ex := -dx) (ey := -dy) (sq_sqrt hn).symm (sqrt_nonneg _)
  rw [norm_sub_rev] at D2
  have hR : 2 * ccR k s ≤ √(((m).distance + -dx - dx) ^ 2 + (-dy - dy) ^ 2) := by
    refine two_ccR_le (sqrt_nonneg _) ?_
    rw [sq_sqrt hn]
    nlinarith
  rw [← D3] at hR
  generalize SF.global_frame_change c1.xc c1.yc (m).angle dx dy = p1 at *
  generalize SF.global_frame_change c2.xc c2.yc (m).angle (-dx) (-dy) = p2 at *
  obtain ⟨t1, t2⟩ := TcT_at' (k := k) c1 (SF.circleCentered p1.1 p1.2 (!c1.left) (!c1.forward) c1.regular P) rfl rfl rfl D1
  obtain ⟨t3, t4, x, hx, _, ha⟩ := TiST_at H (SF.circleCentered p1.1 p1.2 (!c1.left) (!c1.forward) c1.regular P)
    (SF.circleCentered p2.1 p2.2 (!c2.left) c2.forward c2.regular P) hR
  obtain ⟨t5, t6⟩ := TcT_at' (k := k) (l := !c2.left) (SF.circleCentered p2.1 p2.2 (!c2.left) c2.forward c2.regular P) c2
    rfl rfl rfl D2
  refine TcTSTcT_core H h1 h2 hf' t1 t2 t3 hx ha ?_ t5 (t6.side (Bool.not_not _).symm)
  exact AtTan.side (f := !!c1.forward) (l := !!c1.left) t4 (Bool.not_not _).symm (by rw [hl'])

include H h1 h2 in
theorem TcTeSTcT_row (h : SF.HcRs.TcTeSTcT_exists P m c1 c2) :
    RowOk pm1 pm2 k s c1 c2 0 0 (SF.HcRs.TcTeSTcT_path pm1 pm2 P m c1 c2) := by
  have hk := H.pos
  have hA := ccA_pos H.kappa H.sigma H.clothoid
  have hi : 0 < 1 / k := by positivity
  unfold SF.HcRs.TcTeSTcT_exists at h
  split_ifs at h with hl hf
  have hl' : c2.left = c1.left := (not_not.1 hl).symm
  have hf' : c2.forward = !c1.forward := not_of_ne hf
  rw [mul_assoc 2, sin_param H, h1.abs_inv hk] at h
  unfold SF.HcRs.TcTeSTcT_path
  rw [h1.abs_inv hk]
  dsimp only
  have D1 := frame_dist (g := (m).angle) (dx := 2 * (1 / k)) (dy := 0) (r := 2 * (1 / k)) c1 (by ring) (by positivity)
  have D2 := frame_dist (g := (m).angle) (dx := -(2 * (1 / k))) (dy := 0) (r := 2 * (1 / k)) c2 (by ring) (by positivity)
  have D3 := frame_dist_both c1 c2 (dx := 2 * (1 / k)) (dy := 0) (ex := -(2 * (1 / k))) (ey := 0)
    (r := (m).distance - 4 * (1 / k)) (by ring) (by linarith)
  rw [norm_sub_rev] at D2
  have hR : 2 * ccA k s ≤ (m).distance - 4 * (1 / k) := by linarith
  rw [← D3] at hR
  generalize SF.global_frame_change c1.xc c1.yc (m).angle (2 * (1 / k)) 0 = p1 at *
  generalize SF.global_frame_change c2.xc c2.yc (m).angle (-(2 * (1 / k))) 0 = p2 at *
  obtain ⟨t1, t2⟩ := TcT_at' (k := k) c1 (SF.circleCentered p1.1 p1.2 (!c1.left) (!c1.forward) c1.regular P) rfl rfl rfl D1
  obtain ⟨t3, t4, x, hx, _, ha⟩ := TeST_at H (SF.circleCentered p1.1 p1.2 (!c1.left) (!c1.forward) c1.regular P)
    (SF.circleCentered p2.1 p2.2 (!c2.left) c2.forward c2.regular P) hR
  obtain ⟨t5, t6⟩ := TcT_at' (k := k) (l := !c2.left) (SF.circleCentered p2.1 p2.2 (!c2.left) c2.forward c2.regular P) c2
    rfl rfl rfl D2
  refine TcTSTcT_core H h1 h2 hf' t1 t2 t3 hx ha ?_ t5 (t6.side (Bool.not_not _).symm)
  exact AtTan.side (f := !!c1.forward) (l := !c1.left) t4 (Bool.not_not _).symm (by rw [hl'])

include H h1 h2 in
theorem TcTSTcT_row (hlt : (SF.HcRs.TcTSTcT_path pm1 pm2 P m c1 c2).length < SF.dblMax) :
    RowOk pm1 pm2 k s c1 c2 0 0 (SF.HcRs.TcTSTcT_path pm1 pm2 P m c1 c2) := by
  unfold SF.HcRs.TcTSTcT_path at hlt ⊢
  split_ifs at hlt ⊢ with hi he
  · exact TcTiSTcT_row H h1 h2 hi
  · exact TcTeSTcT_row H h1 h2 he
  · exact absurd hlt (lt_irrefl _)

end families

/-! ### All families -/

/-- Sum of the errors of the centres by path type. -/
def famE (i : ℕ) : ℝ := if i = 3 ∨ i = 4 then SF.epsilon else 0

/-- The part of it in CC turns. -/
def famF (pm1 pm2 : Bool) (i : ℕ) : ℝ :=
  if i = 3 then (if pm1 then 0 else SF.epsilon / 2) + (if pm2 then 0 else SF.epsilon / 2) else 0

theorem family_ok {sp : SF.HCSpace} (H : Rng sp.kappa sp.sigma) {pm1 pm2 : Bool} {c1 c2 : SF.Circle}
    (h1 : EndOk pm1 sp.kappa sp.sigma c1) (h2 : EndOk pm2 sp.kappa sp.sigma c2) {i : ℕ}
    (hlt : (SF.HcRs.family pm1 pm2 sp (SF.scratch c1 c2) c1 c2 i).length < SF.dblMax) :
    RowOk pm1 pm2 sp.kappa sp.sigma c1 c2 (famE i) (famF pm1 pm2 i)
      (SF.HcRs.family pm1 pm2 sp (SF.scratch c1 c2) c1 c2 i) := by
  have hno : ¬ ({} : SF.RSRow).length < SF.dblMax := lt_irrefl _
  unfold SF.HcRs.family at hlt ⊢
  split at hlt
  · rw [famE, famF, if_pos (by decide), if_pos rfl]
    by_cases h : SF.HcRs.TT_exists sp.param (SF.scratch c1 c2) c1 c2
    · simp only [if_pos h]
      exact TT_row H h1 h2 h
    · rw [if_neg h] at hlt
      exact absurd hlt hno
  · rw [famE, famF, if_pos (by decide), if_neg (by decide)]
    split_ifs at hlt ⊢ with h
    · exact TcT_row H h1 h2 h
    · exact absurd hlt hno
  iterate 3
    · rw [famE, famF, if_neg (by decide), if_neg (by decide)]
      split_ifs at hlt ⊢ with h
      · first
          | exact TcTcT_row H h1 h2 h
          | exact TcTT_row H h1 h2 h hlt
          | exact TTcT_row H h1 h2 h hlt
      · exact absurd hlt hno
  iterate 4
    · rw [famE, famF, if_neg (by decide), if_neg (by decide)]
      first
        | exact TST_row H h1 h2 hlt
        | exact TSTcT_row H h1 h2 hlt
        | exact TcTST_row H h1 h2 hlt
        | exact TcTSTcT_row H h1 h2 hlt
  iterate 3
    · rw [famE, famF, if_neg (by decide), if_neg (by decide)]
      split_ifs at hlt ⊢ with h
      · first
          | exact TTcTT_row H h1 h2 h hlt
          | exact TcTTcT_row H h1 h2 h hlt
          | exact TTT_row H h1 h2 h
      · exact absurd hlt hno
  iterate 3
    · rw [famE, famF, if_neg (by decide), if_neg (by decide)]
      first
        | exact TcST_row H h1 h2 hlt
        | exact TScT_row H h1 h2 hlt
        | exact TcScT_row H h1 h2 hlt
  · exact absurd hlt hno

end Spec
