import Verif.Model.ReedsShepp
import Verif.Lemmas.DubinsSpace

/-!
# The Reeds-Shepp words solve their equations
-/

noncomputable section

namespace Spec

open Real

/-- One unit-curvature segment: curvature `e` in `{-1, 0, 1}`, signed length `l`. -/
def uStep (e l : ℝ) (p : Config) : Config :=
  ⟨p.x + e * (sin (p.theta + e * l) - sin p.theta) + (1 - e ^ 2) * l * cos p.theta,
   p.y + e * (cos p.theta - cos (p.theta + e * l)) + (1 - e ^ 2) * l * sin p.theta,
   p.theta + e * l⟩

/-- End of a unit-curvature path. -/
def uEnd : List (ℝ × ℝ) → Config → Config
  | [], p => p
  | w :: ws, p => uEnd ws (uStep w.1 w.2 p)

/-- The path leads from the origin to `(x, y, phi)`. -/
def Hits (ws : List (ℝ × ℝ)) (x y phi : ℝ) : Prop :=
  (uEnd ws ⟨0, 0, 0⟩).x = x ∧ (uEnd ws ⟨0, 0, 0⟩).y = y ∧ AngleEq (uEnd ws ⟨0, 0, 0⟩).theta phi

theorem uEnd_append (a b : List (ℝ × ℝ)) (p : Config) : uEnd (a ++ b) p = uEnd b (uEnd a p) := by
  induction a generalizing p with
  | nil => rfl
  | cons w ws ih => exact ih _

/-- Motions act from the left: the path from `p` is the moved path from the origin. -/
theorem uEnd_rigid (ws : List (ℝ × ℝ)) (p : Config) (X Y T : ℝ) :
    uEnd ws ⟨p.x + cos p.theta * X - sin p.theta * Y, p.y + sin p.theta * X + cos p.theta * Y,
      p.theta + T⟩ =
    ⟨p.x + cos p.theta * (uEnd ws ⟨X, Y, T⟩).x - sin p.theta * (uEnd ws ⟨X, Y, T⟩).y,
     p.y + sin p.theta * (uEnd ws ⟨X, Y, T⟩).x + cos p.theta * (uEnd ws ⟨X, Y, T⟩).y,
     p.theta + (uEnd ws ⟨X, Y, T⟩).theta⟩ := by
  induction ws generalizing X Y T with
  | nil => rfl
  | cons w ws ih =>
    obtain ⟨e, l⟩ := w
    simp only [uEnd]
    have h := ih (uStep e l ⟨X, Y, T⟩).x (uStep e l ⟨X, Y, T⟩).y (uStep e l ⟨X, Y, T⟩).theta
    have e1 : uStep e l ⟨p.x + cos p.theta * X - sin p.theta * Y,
        p.y + sin p.theta * X + cos p.theta * Y, p.theta + T⟩ =
        ⟨p.x + cos p.theta * (uStep e l ⟨X, Y, T⟩).x - sin p.theta * (uStep e l ⟨X, Y, T⟩).y,
         p.y + sin p.theta * (uStep e l ⟨X, Y, T⟩).x + cos p.theta * (uStep e l ⟨X, Y, T⟩).y,
         p.theta + (uStep e l ⟨X, Y, T⟩).theta⟩ := by
      simp only [uStep]
      rw [add_assoc p.theta T]
      ext
      · simp only [sin_add p.theta, cos_add p.theta]; ring
      · simp only [sin_add p.theta, cos_add p.theta]; ring
      · rfl
    rw [e1, h]

theorem uEnd_from (ws : List (ℝ × ℝ)) (p : Config) :
    uEnd ws p =
    ⟨p.x + cos p.theta * (uEnd ws ⟨0, 0, 0⟩).x - sin p.theta * (uEnd ws ⟨0, 0, 0⟩).y,
     p.y + sin p.theta * (uEnd ws ⟨0, 0, 0⟩).x + cos p.theta * (uEnd ws ⟨0, 0, 0⟩).y,
     p.theta + (uEnd ws ⟨0, 0, 0⟩).theta⟩ := by
  have := uEnd_rigid ws p 0 0 0
  simpa using this

/-- Reversing the driving direction. -/
def flipW (ws : List (ℝ × ℝ)) : List (ℝ × ℝ) := ws.map fun w => (w.1, -w.2)

/-- Swapping left and right. -/
def mirrorW (ws : List (ℝ × ℝ)) : List (ℝ × ℝ) := ws.map fun w => (-w.1, w.2)

theorem uEnd_flip (ws : List (ℝ × ℝ)) (p : Config) :
    uEnd (flipW ws) ⟨-p.x, p.y, -p.theta⟩ =
      ⟨-(uEnd ws p).x, (uEnd ws p).y, -(uEnd ws p).theta⟩ := by
  induction ws generalizing p with
  | nil => rfl
  | cons w ws ih =>
    simp only [flipW, List.map_cons, uEnd]
    have := ih (uStep w.1 w.2 p)
    rw [flipW] at this
    rw [← this]
    congr 1
    simp only [uStep]
    have : -p.theta + w.1 * -w.2 = -(p.theta + w.1 * w.2) := by ring
    rw [this]
    simp only [sin_neg, cos_neg]
    ext <;> simp only <;> ring

theorem uEnd_mirror (ws : List (ℝ × ℝ)) (p : Config) :
    uEnd (mirrorW ws) ⟨p.x, -p.y, -p.theta⟩ =
      ⟨(uEnd ws p).x, -(uEnd ws p).y, -(uEnd ws p).theta⟩ := by
  induction ws generalizing p with
  | nil => rfl
  | cons w ws ih =>
    simp only [mirrorW, List.map_cons, uEnd]
    have := ih (uStep w.1 w.2 p)
    rw [mirrorW] at this
    rw [← this]
    congr 1
    simp only [uStep]
    have : -p.theta + -w.1 * w.2 = -(p.theta + w.1 * w.2) := by ring
    rw [this]
    simp only [sin_neg, cos_neg]
    ext <;> simp only <;> ring

theorem uStep_back (e l : ℝ) (p : Config) : uStep e (-l) (uStep e l p) = p ∨ ¬ (e = 0 ∨ e = 1 ∨ e = -1) := by
  by_cases h : e = 0 ∨ e = 1 ∨ e = -1
  · left
    rcases h with rfl | rfl | rfl <;> simp only [uStep] <;> ext <;> simp <;> ring
  · exact Or.inr h

/-- All curvatures are `0`, `1` or `-1`. -/
def UnitW (ws : List (ℝ × ℝ)) : Prop := ∀ w ∈ ws, w.1 = 0 ∨ w.1 = 1 ∨ w.1 = -1

theorem uEnd_back {ws : List (ℝ × ℝ)} (h : UnitW ws) (p : Config) :
    uEnd (flipW ws.reverse) (uEnd ws p) = p := by
  induction ws generalizing p with
  | nil => rfl
  | cons w ws ih =>
    have h1 : UnitW ws := fun w' hw' => h w' (List.mem_cons_of_mem _ hw')
    have hw := h w List.mem_cons_self
    have e : flipW (w :: ws).reverse = flipW ws.reverse ++ [(w.1, -w.2)] := by simp [flipW]
    rw [e, uEnd_append]
    simp only [uEnd]
    rw [ih h1]
    rcases uStep_back w.1 w.2 p with h2 | h2
    · exact h2
    · exact absurd hw h2

theorem Hits.flip {ws : List (ℝ × ℝ)} {x y phi : ℝ} (h : Hits ws (-x) y (-phi)) :
    Hits (flipW ws) x y phi := by
  have := uEnd_flip ws ⟨0, 0, 0⟩
  simp only [neg_zero] at this
  obtain ⟨h1, h2, h3⟩ := h
  refine ⟨?_, ?_, ?_⟩
  · rw [this, h1, neg_neg]
  · rw [this, h2]
  · rw [this]; simpa using h3.neg

theorem Hits.mirror {ws : List (ℝ × ℝ)} {x y phi : ℝ} (h : Hits ws x (-y) (-phi)) :
    Hits (mirrorW ws) x y phi := by
  have := uEnd_mirror ws ⟨0, 0, 0⟩
  simp only [neg_zero] at this
  obtain ⟨h1, h2, h3⟩ := h
  refine ⟨?_, ?_, ?_⟩
  · rw [this, h1]
  · rw [this, h2, neg_neg]
  · rw [this]; simpa using h3.neg

theorem Hits.flip_mirror {ws : List (ℝ × ℝ)} {x y phi : ℝ} (h : Hits ws (-x) (-y) phi) :
    Hits (flipW (mirrorW ws)) x y phi := by
  apply Hits.flip
  apply Hits.mirror
  rw [neg_neg]; exact h

open SF in
/-- The reversed word, driven in the same direction, solves the `backwards` problem. -/
theorem Hits.reverse' {ws : List (ℝ × ℝ)} {x y phi : ℝ} (hw : UnitW ws)
    (h : Hits ws x y phi) : Hits ws.reverse (rsXb x y phi) (rsYb x y phi) phi := by
  have hb := uEnd_back hw ⟨0, 0, 0⟩
  set r := uEnd ws ⟨0, 0, 0⟩ with hr
  have h1 := uEnd_flip ws.reverse ⟨-r.x, r.y, -r.theta⟩
  simp only [neg_neg] at h1
  rw [hb] at h1
  have h2 := uEnd_from ws.reverse ⟨-r.x, r.y, -r.theta⟩
  set q := uEnd ws.reverse ⟨0, 0, 0⟩ with hq
  rw [h2] at h1
  simp only [cos_neg, sin_neg, Config.mk.injEq] at h1
  obtain ⟨a, b, c⟩ := h1
  obtain ⟨hx, hy, ht⟩ := h
  rw [← hr] at hx hy ht
  have hsc := sin_sq_add_cos_sq r.theta
  refine ⟨?_, ?_, ?_⟩
  · rw [← hq, rsXb, ← hx, ← hy, ← ht.cos_eq, ← ht.sin_eq]
    linear_combination -q.x * hsc + cos r.theta * a + sin r.theta * b
  · rw [← hq, rsYb, ← hx, ← hy, ← ht.cos_eq, ← ht.sin_eq]
    linear_combination -q.y * hsc + sin r.theta * a - cos r.theta * b
  · rw [← hq]
    have : q.theta = r.theta := by linarith
    rw [this]; exact ht

open SF in
theorem rsXb_invol (x y phi : ℝ) : rsXb (rsXb x y phi) (rsYb x y phi) phi = x := by
  unfold rsXb rsYb
  linear_combination x * sin_sq_add_cos_sq phi

open SF in
theorem rsYb_invol (x y phi : ℝ) : rsYb (rsXb x y phi) (rsYb x y phi) phi = y := by
  unfold rsXb rsYb
  linear_combination y * sin_sq_add_cos_sq phi

open SF in
theorem Hits.reverse {ws : List (ℝ × ℝ)} {x y phi : ℝ} (hw : UnitW ws)
    (h : Hits ws (rsXb x y phi) (rsYb x y phi) phi) : Hits ws.reverse x y phi := by
  have := h.reverse' hw
  rwa [rsXb_invol, rsYb_invol] at this

/-! ### The equations of the words -/

theorem hits_iff {ws : List (ℝ × ℝ)} {A a B b H : ℝ}
    (key : uEnd ws ⟨0, 0, 0⟩ = ⟨A + a * sin H, B + b * cos H, H⟩) {x y phi : ℝ} :
    Hits ws x y phi ↔ (A + a * sin phi = x ∧ B + b * cos phi = y ∧ AngleEq H phi) := by
  unfold Hits
  rw [key]
  constructor
  · rintro ⟨h1, h2, h3⟩
    refine ⟨?_, ?_, h3⟩
    · rw [← h3.sin_eq]; exact h1
    · rw [← h3.cos_eq]; exact h2
  · rintro ⟨h1, h2, h3⟩
    refine ⟨?_, ?_, h3⟩
    · rw [← h3.sin_eq] at h1; exact h1
    · rw [← h3.cos_eq] at h2; exact h2

theorem hits_LSL {x y phi t u v : ℝ} : Hits [(1, t), (0, u), (1, v)] x y phi ↔
    (u * cos t + 1 * sin phi = x ∧ (1 + u * sin t) + -1 * cos phi = y ∧ AngleEq (t + v) phi) := by
  apply hits_iff
  simp only [uEnd, uStep]
  ext <;> simp <;> ring_nf

theorem hits_LSR {x y phi t u v : ℝ} : Hits [(1, t), (0, u), (-1, v)] x y phi ↔
    (2 * sin t + u * cos t + -1 * sin phi = x ∧ (1 - 2 * cos t + u * sin t) + 1 * cos phi = y ∧
      AngleEq (t - v) phi) := by
  apply hits_iff
  simp only [uEnd, uStep]
  ext <;> simp <;> ring_nf

theorem hits_LRL {x y phi t u v : ℝ} : Hits [(1, t), (-1, u), (1, v)] x y phi ↔
    (2 * (sin t - sin (t - u)) + 1 * sin phi = x ∧
      (1 + 2 * (cos (t - u) - cos t)) + -1 * cos phi = y ∧ AngleEq (t - u + v) phi) := by
  apply hits_iff
  simp only [uEnd, uStep]
  ext <;> simp <;> ring_nf

theorem hits_LRLRp {x y phi t u v : ℝ} : Hits [(1, t), (-1, u), (1, -u), (-1, v)] x y phi ↔
    (2 * (sin t - sin (t - u) + sin (t - 2 * u)) + -1 * sin phi = x ∧
      (1 + 2 * (-cos t + cos (t - u) - cos (t - 2 * u))) + 1 * cos phi = y ∧
      AngleEq (t - 2 * u - v) phi) := by
  apply hits_iff
  simp only [uEnd, uStep]
  ext <;> simp <;> ring_nf

theorem hits_LRLRm {x y phi t u v : ℝ} : Hits [(1, t), (-1, u), (1, u), (-1, v)] x y phi ↔
    (4 * sin t - 2 * sin (t - u) + -1 * sin phi = x ∧
      (1 + (-4 * cos t + 2 * cos (t - u))) + 1 * cos phi = y ∧ AngleEq (t - v) phi) := by
  apply hits_iff
  simp only [uEnd, uStep]
  ext <;> simp <;> ring_nf

theorem hits_LRSL {x y phi t u v : ℝ} : Hits [(1, t), (-1, -(π / 2)), (0, u), (1, v)] x y phi ↔
    (2 * (sin t - cos t) - u * sin t + 1 * sin phi = x ∧
      (1 + (-2 * (sin t + cos t) + u * cos t)) + -1 * cos phi = y ∧
      AngleEq (t + π / 2 + v) phi) := by
  apply hits_iff
  simp only [uEnd, uStep]
  have e1 : 0 + 1 * t + -1 * -(π / 2) = t + π / 2 := by ring
  have e2 : 0 + 1 * t + -1 * -(π / 2) + 0 * u = t + π / 2 := by ring
  have e3 : 0 + 1 * t + -1 * -(π / 2) + 0 * u + 1 * v = t + π / 2 + v := by ring
  rw [e3, e2, e1]
  ext <;> simp only [sin_add_pi_div_two, cos_add_pi_div_two] <;> simp <;> ring

theorem hits_LRSR {x y phi t u v : ℝ} : Hits [(1, t), (-1, -(π / 2)), (0, u), (-1, v)] x y phi ↔
    (2 * sin t - u * sin t + -1 * sin phi = x ∧
      (1 + (-2 * cos t + u * cos t)) + 1 * cos phi = y ∧ AngleEq (t + π / 2 - v) phi) := by
  apply hits_iff
  simp only [uEnd, uStep]
  have e1 : 0 + 1 * t + -1 * -(π / 2) = t + π / 2 := by ring
  have e2 : 0 + 1 * t + -1 * -(π / 2) + 0 * u = t + π / 2 := by ring
  have e3 : 0 + 1 * t + -1 * -(π / 2) + 0 * u + -1 * v = t + π / 2 - v := by ring
  rw [e3, e2, e1]
  ext <;> simp only [sin_add_pi_div_two, cos_add_pi_div_two] <;> simp <;> ring

theorem hits_LRSLR {x y phi t u v : ℝ} :
    Hits [(1, t), (-1, -(π / 2)), (0, u), (1, -(π / 2)), (-1, v)] x y phi ↔
    (4 * sin t - 2 * cos t - u * sin t + -1 * sin phi = x ∧
      (1 + (-4 * cos t - 2 * sin t + u * cos t)) + 1 * cos phi = y ∧ AngleEq (t - v) phi) := by
  apply hits_iff
  simp only [uEnd, uStep]
  have e1 : 0 + 1 * t + -1 * -(π / 2) = t + π / 2 := by ring
  have e2 : 0 + 1 * t + -1 * -(π / 2) + 0 * u = t + π / 2 := by ring
  have e3 : 0 + 1 * t + -1 * -(π / 2) + 0 * u + 1 * -(π / 2) = t := by ring
  have e4 : 0 + 1 * t + -1 * -(π / 2) + 0 * u + 1 * -(π / 2) + -1 * v = t - v := by ring
  rw [e4, e3, e2, e1]
  ext <;> simp only [sin_add_pi_div_two, cos_add_pi_div_two] <;> simp <;> ring

end Spec

namespace SF

open Spec Real

theorem pify_eq {a b : ℝ} (h : AngleEq a b) (h1 : -π < b) (h2 : b < π) : pify a = b := by
  obtain ⟨n, hn⟩ := (pify_angleEq a).trans h
  have h3 := neg_pi_le_pify a
  have h4 := pify_le_pi a
  have hp := pi_pos
  have a1 : (n : ℝ) < 1 := by nlinarith
  have a2 : (-1 : ℝ) < n := by nlinarith
  have b1 : n < 1 := by exact_mod_cast a1
  have b2 : -1 < n := by exact_mod_cast a2
  have : n = 0 := by omega
  rw [hn, this]; simp

theorem polar_cos (x y : ℝ) : (polar x y).1 * cos (polar x y).2 = x := by
  have := sqrt_mul_cos_atan2 y x
  rw [pow_two, pow_two] at this
  exact this

theorem polar_sin (x y : ℝ) : (polar x y).1 * sin (polar x y).2 = y := by
  have := sqrt_mul_sin_atan2 y x
  rw [pow_two, pow_two] at this
  exact this

theorem polar_nonneg (x y : ℝ) : 0 ≤ (polar x y).1 := sqrt_nonneg _

theorem polar_sq (x y : ℝ) : (polar x y).1 * (polar x y).1 = x ^ 2 + y ^ 2 := by
  unfold polar
  simp only
  rw [mul_self_sqrt (by nlinarith [mul_self_nonneg x, mul_self_nonneg y])]; ring

/-- Solving `(u + i m) e^{i t} = xi + i eta` for `t`. -/
theorem atan2_solve {a b A B r s : ℝ} (hr : r * cos s = a) (hs : r * sin s = b)
    (hp : 0 < A ^ 2 + B ^ 2) (h : A ^ 2 + B ^ 2 = r ^ 2) (T : ℝ)
    (hT : AngleEq T (s - atan2 B A)) (hr0 : 0 ≤ r) :
    A * cos T - B * sin T = a ∧ A * sin T + B * cos T = b := by
  have c1 := sqrt_mul_cos_atan2 B A
  have c2 := sqrt_mul_sin_atan2 B A
  rw [h, sqrt_sq hr0] at c1 c2
  have hrp : r ≠ 0 := by rintro rfl; simp at h; linarith
  rw [hT.cos_eq, hT.sin_eq, cos_sub, sin_sub]
  have hc : cos s = a / r := by field_simp; linarith
  have hss : sin s = b / r := by field_simp; linarith
  have hA : cos (atan2 B A) = A / r := by field_simp; linarith
  have hB : sin (atan2 B A) = B / r := by field_simp; linarith
  rw [hc, hss, hA, hB]
  constructor
  · field_simp; linear_combination a * h
  · field_simp; linear_combination b * h

theorem LpSpLp_hits (x y phi : ℝ) : let w := LpSpLp x y phi
    Hits [(1, w.t), (0, w.u), (1, w.v)] x y phi := by
  intro w
  rw [hits_LSL]
  refine ⟨?_, ?_, ?_⟩
  · have := polar_cos (x - sin phi) (y - 1 + cos phi)
    simp only [w, LpSpLp]; linarith
  · have := polar_sin (x - sin phi) (y - 1 + cos phi)
    simp only [w, LpSpLp]; linarith
  · simp only [w, LpSpLp]
    exact ((pify_angleEq _).add_left _).trans (AngleEq.of_eq (by ring))

theorem LpSpRp_hits {x y phi : ℝ} (h : reachedLpSpRp x y phi) : let w := LpSpRp x y phi
    Hits [(1, w.t), (0, w.u), (-1, w.v)] x y phi := by
  intro w
  rw [hits_LSR]
  unfold reachedLpSpRp at h
  set r := (polar (x + sin phi) (y - 1 - cos phi)).1 with hr
  set t1 := (polar (x + sin phi) (y - 1 - cos phi)).2 with ht1
  have c := polar_cos (x + sin phi) (y - 1 - cos phi)
  have s := polar_sin (x + sin phi) (y - 1 - cos phi)
  rw [← hr, ← ht1] at c s
  have hr0 : 0 ≤ r := polar_nonneg _ _
  have hu : (√(r * r - 4)) ^ 2 = r * r - 4 := sq_sqrt (by linarith)
  have hneg : AngleEq (-atan2 2 (√(r * r - 4))) (atan2 (-2) (√(r * r - 4))) := by
    have d1 := sqrt_mul_cos_atan2 2 (√(r * r - 4))
    have d2 := sqrt_mul_sin_atan2 2 (√(r * r - 4))
    have d3 := sqrt_mul_cos_atan2 (-2) (√(r * r - 4))
    have d4 := sqrt_mul_sin_atan2 (-2) (√(r * r - 4))
    rw [show ((-2:ℝ)) ^ 2 = 2 ^ 2 by norm_num] at d3 d4
    have hpos : 0 < √((√(r * r - 4)) ^ 2 + 2 ^ 2) := by positivity
    apply AngleEq.of_cos_sin
    · rw [cos_neg]; exact mul_left_cancel₀ hpos.ne' (d1.trans d3.symm)
    · rw [sin_neg]; apply mul_left_cancel₀ hpos.ne'; rw [d4, mul_neg, d2]
  have hT : AngleEq w.t (t1 - atan2 (-2) (√(r * r - 4))) := by
    simp only [w, LpSpRp]
    rw [← hr, ← ht1]
    refine (pify_angleEq _).trans ?_
    have := (AngleEq.refl t1).sub hneg
    exact (AngleEq.of_eq (by ring)).trans this
  obtain ⟨e1, e2⟩ := atan2_solve c s (A := √(r * r - 4)) (B := -2)
    (by positivity) (by rw [hu]; ring) w.t hT hr0
  have hwu : w.u = √(r * r - 4) := rfl
  refine ⟨?_, ?_, ?_⟩
  · rw [hwu]; linarith
  · rw [hwu]; linarith
  · simp only [w, LpSpRp]
    exact ((AngleEq.refl _).sub (pify_angleEq _)).trans (AngleEq.of_eq (by ring))

theorem LpRmL_hits {x y phi : ℝ} (h : reachedLpRmL x y phi) : let w := LpRmL x y phi
    Hits [(1, w.t), (-1, w.u), (1, w.v)] x y phi := by
  intro w
  rw [hits_LRL]
  unfold reachedLpRmL at h
  set r := (polar (x - sin phi) (y - 1 + cos phi)).1 with hr
  set th := (polar (x - sin phi) (y - 1 + cos phi)).2 with hth
  have c := polar_cos (x - sin phi) (y - 1 + cos phi)
  have s := polar_sin (x - sin phi) (y - 1 + cos phi)
  rw [← hr, ← hth] at c s
  have hr0 : 0 ≤ r := polar_nonneg _ _
  have hwu : w.u = -2 * arcsin (0.25 * r) := rfl
  have hsin : sin (arcsin (0.25 * r)) = 0.25 * r := sin_arcsin (by linarith) (by linarith)
  set a := arcsin (0.25 * r) with ha
  have hT : AngleEq w.t (th - a + π) := by
    simp only [w, LpRmL]
    rw [← hr, ← hth, ← ha]
    exact (pify_angleEq _).trans (AngleEq.of_eq (by ring))
  have hTu : AngleEq (w.t - w.u) (th + a + π) := by
    have := hT.sub (AngleEq.refl w.u)
    refine this.trans (AngleEq.of_eq ?_)
    rw [hwu]; ring
  refine ⟨?_, ?_, ?_⟩
  · rw [hT.sin_eq, hTu.sin_eq, sin_add_pi, sin_add_pi, sin_add, sin_sub, hsin]
    linarith
  · rw [hT.cos_eq, hTu.cos_eq, cos_add_pi, cos_add_pi, cos_add, cos_sub, hsin]
    linarith
  · simp only [w, LpRmL]
    exact ((pify_angleEq _).add_left _).trans (AngleEq.of_eq (by ring))

theorem LpRupLumRm_hits {x y phi : ℝ} (h : rhoLpRupLumRm x y phi ≤ 1) :
    let w := LpRupLumRm x y phi
    Hits [(1, w.t), (-1, w.u), (1, -w.u), (-1, w.v)] x y phi := by
  intro w
  rw [hits_LRLRp]
  unfold rhoLpRupLumRm at h
  set xi := x + sin phi with hxi
  set eta := y - 1 - cos phi with heta
  set r := √(xi * xi + eta * eta) with hr
  have hr0 : 0 ≤ r := sqrt_nonneg _
  have hrr : r ^ 2 = xi ^ 2 + eta ^ 2 := by
    rw [hr, sq_sqrt (by nlinarith [mul_self_nonneg xi, mul_self_nonneg eta])]; ring
  have hwu : w.u = arccos (0.25 * (2 + r)) := rfl
  have hcu : cos w.u = 0.25 * (2 + r) := by
    rw [hwu]; exact cos_arccos (by linarith) h
  set u := w.u with hu
  have hk : 2 * cos u - 1 = r / 2 := by rw [hcu]; ring
  have hsc := sin_sq_add_cos_sq u
  have hs2 : sin (pify (u - -u)) = 2 * sin u * cos u := by
    rw [sin_pify, ← sin_two_mul]; congr 1; ring
  have hc2 : cos (pify (u - -u)) = 2 * cos u ^ 2 - 1 := by
    rw [cos_pify, ← cos_two_mul]; congr 1; ring
  have hA : sin u - sin (pify (u - -u)) = -(r / 2) * sin u := by
    rw [hs2]; linear_combination -sin u * hk
  have hB : cos u - cos (pify (u - -u)) - 1 = -(r / 2) * cos u := by
    rw [hc2]; linear_combination -cos u * hk
  have hwt : AngleEq w.t (atan2 (r / 2 * (xi * cos u - eta * sin u))
      (-(r / 2) * (xi * sin u + eta * cos u))) := by
    have e : w.t = rsTau u (-u) xi eta := rfl
    rw [e]
    unfold rsTau
    simp only
    rw [hA, hB]
    have ht2 : ¬ (2 * (cos (pify (u - -u)) - cos (-u) - cos u) + 3 < 0) := by
      rw [hc2, cos_neg]; nlinarith [sq_nonneg (2 * cos u - 1)]
    rw [if_neg ht2]
    refine (pify_angleEq _).trans (AngleEq.of_eq ?_)
    congr 1 <;> ring
  have main : r * sin (w.t - u) = xi ∧ -(r * cos (w.t - u)) = eta := by
    rcases hr0.lt_or_eq with hpos | h0
    · have d1 := sqrt_mul_cos_atan2 (r / 2 * (xi * cos u - eta * sin u))
        (-(r / 2) * (xi * sin u + eta * cos u))
      have d2 := sqrt_mul_sin_atan2 (r / 2 * (xi * cos u - eta * sin u))
        (-(r / 2) * (xi * sin u + eta * cos u))
      have hN : (-(r / 2) * (xi * sin u + eta * cos u)) ^ 2
          + (r / 2 * (xi * cos u - eta * sin u)) ^ 2 = (r ^ 2 / 2) ^ 2 := by
        linear_combination (r ^ 2 / 4 * (xi ^ 2 + eta ^ 2)) * hsc - r ^ 2 / 4 * hrr
      rw [hN, sqrt_sq (by positivity), ← hwt.cos_eq] at d1
      rw [hN, sqrt_sq (by positivity), ← hwt.sin_eq] at d2
      have f1 : r * cos w.t = -(xi * sin u + eta * cos u) := by
        apply mul_left_cancel₀ (show r / 2 ≠ 0 by positivity); linear_combination d1
      have f2 : r * sin w.t = xi * cos u - eta * sin u := by
        apply mul_left_cancel₀ (show r / 2 ≠ 0 by positivity); linear_combination d2
      constructor
      · rw [sin_sub]; linear_combination cos u * f2 - sin u * f1 + xi * hsc
      · rw [cos_sub]; linear_combination -cos u * f1 - sin u * f2 + eta * hsc
    · have hx0 : xi = 0 := by rw [← h0] at hrr; nlinarith [sq_nonneg xi, sq_nonneg eta]
      have he0 : eta = 0 := by rw [← h0] at hrr; nlinarith [sq_nonneg xi, sq_nonneg eta]
      rw [← h0, hx0, he0]; simp
  have m1 : sin w.t + sin (w.t - 2 * u) = 2 * cos u * sin (w.t - u) := by
    have e1 : w.t = (w.t - u) + u := by ring
    have e2 : w.t - 2 * u = (w.t - u) - u := by ring
    rw [e2]; nth_rewrite 1 [e1]; rw [sin_add, sin_sub (w.t - u)]; ring
  have m2 : cos w.t + cos (w.t - 2 * u) = 2 * cos u * cos (w.t - u) := by
    have e1 : w.t = (w.t - u) + u := by ring
    have e2 : w.t - 2 * u = (w.t - u) - u := by ring
    rw [e2]; nth_rewrite 1 [e1]; rw [cos_add, cos_sub (w.t - u)]; ring
  obtain ⟨g1, g2⟩ := main
  refine ⟨?_, ?_, ?_⟩
  · linear_combination 2 * m1 + 2 * sin (w.t - u) * hk + g1 + hxi
  · linear_combination -2 * m2 - 2 * cos (w.t - u) * hk + g2 + heta
  · have e : w.v = pify (w.t - u + -u - phi) := rfl
    rw [e]
    exact ((AngleEq.refl _).sub (pify_angleEq _)).trans (AngleEq.of_eq (by ring))

theorem LpRumLumRp_hits {x y phi : ℝ} (h : 0 ≤ rhoLpRumLumRp x y phi ∧ rhoLpRumLumRp x y phi ≤ 1) :
    let w := LpRumLumRp x y phi
    Hits [(1, w.t), (-1, w.u), (1, w.u), (-1, w.v)] x y phi := by
  intro w
  rw [hits_LRLRm]
  unfold rhoLpRumLumRp at h
  set xi := x + sin phi with hxi
  set eta := y - 1 - cos phi with heta
  have hwu : w.u = -arccos ((20 - xi * xi - eta * eta) / 16) := rfl
  have hcu : cos w.u = (20 - xi * xi - eta * eta) / 16 := by
    rw [hwu, cos_neg]; exact cos_arccos (by linarith [h.1]) h.2
  set u := w.u with hu
  have hsc := sin_sq_add_cos_sq u
  have hdel : pify (u - u) = 0 := by
    rw [sub_self]; exact pify_eq (AngleEq.refl _) (by linarith [pi_pos]) pi_pos
  have hwt : AngleEq w.t (atan2 (eta * sin u - xi * (cos u - 2)) (xi * sin u + eta * (cos u - 2))) := by
    have e : w.t = rsTau u u xi eta := rfl
    rw [e]
    unfold rsTau
    simp only
    rw [hdel, sin_zero, cos_zero]
    have ht2 : ¬ (2 * (1 - cos u - cos u) + 3 < 0) := by linarith [cos_le_one u]
    rw [if_neg ht2]
    refine (pify_angleEq _).trans (AngleEq.of_eq ?_)
    congr 1 <;> ring
  have hrr : xi ^ 2 + eta ^ 2 = 4 * (5 - 4 * cos u) := by rw [hcu]; ring
  set N := 5 - 4 * cos u with hN0
  have hN : 0 < N := by linarith [cos_le_one u]
  have d1 := sqrt_mul_cos_atan2 (eta * sin u - xi * (cos u - 2)) (xi * sin u + eta * (cos u - 2))
  have d2 := sqrt_mul_sin_atan2 (eta * sin u - xi * (cos u - 2)) (xi * sin u + eta * (cos u - 2))
  have hNN : (xi * sin u + eta * (cos u - 2)) ^ 2 + (eta * sin u - xi * (cos u - 2)) ^ 2
      = (2 * N) ^ 2 := by
    have e : sin u ^ 2 + (cos u - 2) ^ 2 = N := by rw [hN0]; linear_combination hsc
    linear_combination (xi ^ 2 + eta ^ 2) * e + N * hrr
  rw [hNN, sqrt_sq (by positivity), ← hwt.cos_eq] at d1
  rw [hNN, sqrt_sq (by positivity), ← hwt.sin_eq] at d2
  have e : sin u ^ 2 + (cos u - 2) ^ 2 = N := by rw [hN0]; linear_combination hsc
  refine ⟨?_, ?_, ?_⟩
  · apply mul_left_cancel₀ (show N ≠ 0 by positivity)
    rw [sin_sub]
    linear_combination (2 - cos u) * d2 + sin u * d1 + xi * e + N * hxi
  · apply mul_left_cancel₀ (show N ≠ 0 by positivity)
    rw [cos_sub]
    linear_combination (cos u - 2) * d1 + sin u * d2 + eta * e + N * heta
  · have e : w.v = pify (w.t - u + u - phi) := rfl
    rw [e]
    exact ((AngleEq.refl _).sub (pify_angleEq _)).trans (AngleEq.of_eq (by ring))

theorem LpRmSmLm_hits {x y phi : ℝ} (h : reachedLpRmSmLm x y phi) : let w := LpRmSmLm x y phi
    Hits [(1, w.t), (-1, -(π / 2)), (0, w.u), (1, w.v)] x y phi := by
  intro w
  rw [hits_LRSL]
  unfold reachedLpRmSmLm at h
  set r := (polar (x - sin phi) (y - 1 + cos phi)).1 with hr
  set th := (polar (x - sin phi) (y - 1 + cos phi)).2 with hth
  have c := polar_cos (x - sin phi) (y - 1 + cos phi)
  have s := polar_sin (x - sin phi) (y - 1 + cos phi)
  rw [← hr, ← hth] at c s
  have hr0 : 0 ≤ r := polar_nonneg _ _
  set q := √(r * r - 4) with hq
  have hqq : q ^ 2 = r ^ 2 - 4 := by rw [hq, sq_sqrt (by nlinarith)]; ring
  have hwu : w.u = 2 - q := rfl
  have d1 := sqrt_mul_cos_atan2 q (-2)
  have d2 := sqrt_mul_sin_atan2 q (-2)
  have hN : (-2 : ℝ) ^ 2 + q ^ 2 = r ^ 2 := by rw [hqq]; ring
  rw [hN, sqrt_sq hr0] at d1 d2
  have hT : AngleEq w.t (th + atan2 q (-2)) := by
    simp only [w, LpRmSmLm]
    exact pify_angleEq _
  have hrp : r ≠ 0 := by intro h0; rw [h0] at h; norm_num at h
  have e1 : r ^ 2 * sin w.t = r * sin th * (-2) + r * cos th * q := by
    rw [hT.sin_eq, sin_add]; linear_combination r * sin th * d1 + r * cos th * d2
  have e2 : r ^ 2 * cos w.t = r * cos th * (-2) - r * sin th * q := by
    rw [hT.cos_eq, cos_add]; linear_combination r * cos th * d1 - r * sin th * d2
  rw [c, s] at e1 e2
  have hr2 : r ^ 2 ≠ 0 := by positivity
  refine ⟨?_, ?_, ?_⟩
  · apply mul_left_cancel₀ hr2
    rw [hwu]
    linear_combination q * e1 - 2 * e2 + (x - sin phi) * hqq
  · apply mul_left_cancel₀ hr2
    rw [hwu]
    linear_combination -2 * e1 - q * e2 + (y - 1 + cos phi) * hqq
  · simp only [w, LpRmSmLm]
    exact ((pify_angleEq _).add_left _).trans (AngleEq.of_eq (by ring))

theorem LpRmSmRm_hits (x y phi : ℝ) : let w := LpRmSmRm x y phi
    Hits [(1, w.t), (-1, -(π / 2)), (0, w.u), (-1, w.v)] x y phi := by
  intro w
  rw [hits_LRSR]
  have c := polar_cos (-(y - 1 - cos phi)) (x + sin phi)
  have s := polar_sin (-(y - 1 - cos phi)) (x + sin phi)
  refine ⟨?_, ?_, ?_⟩
  · simp only [w, LpRmSmRm]; linear_combination s
  · simp only [w, LpRmSmRm]; linear_combination -c
  · simp only [w, LpRmSmRm]
    exact ((AngleEq.refl _).sub (pify_angleEq _)).trans (AngleEq.of_eq (by ring))

theorem LpRmSLmRp_hits {x y phi : ℝ} (h : reachedLpRmSLmRp x y phi) : let w := LpRmSLmRp x y phi
    Hits [(1, w.t), (-1, -(π / 2)), (0, w.u), (1, -(π / 2)), (-1, w.v)] x y phi := by
  intro w
  rw [hits_LRSLR]
  unfold reachedLpRmSLmRp at h
  set r := (polar (x + sin phi) (y - 1 - cos phi)).1 with hr
  have hr0 : 0 ≤ r := polar_nonneg _ _
  have hrr : r * r = (x + sin phi) ^ 2 + (y - 1 - cos phi) ^ 2 := polar_sq _ _
  set xi := x + sin phi with hxi
  set eta := y - 1 - cos phi with heta
  set q := √(r * r - 4) with hq
  have hqq : q ^ 2 = r ^ 2 - 4 := by rw [hq, sq_sqrt (by nlinarith)]; ring
  have hwu : w.u = 4 - q := rfl
  have hT : AngleEq w.t (atan2 (q * xi - 2 * eta) (-2 * xi - q * eta)) := by
    have e : w.t = pify (atan2 ((4 - (4 - q)) * xi - 2 * eta) (-2 * xi + (4 - q - 4) * eta)) := rfl
    rw [e]
    refine (pify_angleEq _).trans (AngleEq.of_eq ?_)
    congr 1 <;> ring
  have d1 := sqrt_mul_cos_atan2 (q * xi - 2 * eta) (-2 * xi - q * eta)
  have d2 := sqrt_mul_sin_atan2 (q * xi - 2 * eta) (-2 * xi - q * eta)
  have hN : (-2 * xi - q * eta) ^ 2 + (q * xi - 2 * eta) ^ 2 = (r ^ 2) ^ 2 := by
    linear_combination (xi ^ 2 + eta ^ 2) * hqq - r ^ 2 * hrr
  rw [hN, sqrt_sq (by positivity), ← hT.cos_eq] at d1
  rw [hN, sqrt_sq (by positivity), ← hT.sin_eq] at d2
  have hrp : r ≠ 0 := by intro h0; rw [h0] at h; norm_num at h
  have hr2 : r ^ 2 ≠ 0 := by positivity
  refine ⟨?_, ?_, ?_⟩
  · apply mul_left_cancel₀ hr2
    rw [hwu]
    linear_combination q * d2 - 2 * d1 + xi * hqq + r ^ 2 * hxi
  · apply mul_left_cancel₀ hr2
    rw [hwu]
    linear_combination -2 * d2 - q * d1 + eta * hqq + r ^ 2 * heta
  · simp only [w, LpRmSLmRp]
    exact ((AngleEq.refl _).sub (pify_angleEq _)).trans (AngleEq.of_eq (by ring))

end SF
