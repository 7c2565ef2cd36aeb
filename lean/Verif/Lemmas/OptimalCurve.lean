import Verif.Lemmas.OptimalAll
import Verif.Spec.Curve

/-!
# Any curve of bounded curvature against the Dubins words
-/

noncomputable section

namespace Spec

open SF Real Filter Topology Set

theorem abs_sin_sub_le (a b : ℝ) : |sin a - sin b| ≤ |a - b| := by
  have h := Convex.norm_image_sub_le_of_norm_hasDerivWithin_le (f := sin) (f' := cos) (C := 1) (s := univ) (x := b) (y := a)
    (fun x _ => (hasDerivAt_sin x).hasDerivWithinAt) (fun x _ => by rw [norm_eq_abs]; exact abs_cos_le_one x) convex_univ
    (mem_univ _) (mem_univ _)
  simpa [norm_eq_abs] using h

theorem abs_cos_sub_le (a b : ℝ) : |cos a - cos b| ≤ |a - b| := by
  have h := Convex.norm_image_sub_le_of_norm_hasDerivWithin_le (f := cos) (f' := fun x => -sin x) (C := 1) (s := univ) (x := b)
    (y := a) (fun x _ => (hasDerivAt_cos x).hasDerivWithinAt)
    (fun x _ => by rw [norm_eq_abs, abs_neg]; exact abs_sin_le_one x) convex_univ (mem_univ _) (mem_univ _)
  simpa [norm_eq_abs] using h

/-- A function with a nearly constant derivative is nearly linear. -/
theorem near_linear {X V : ℝ → ℝ} {a b c h : ℝ} (hab : a ≤ b)
    (hX : ∀ s ∈ Icc a b, HasDerivWithinAt X (V s) (Icc a b) s) (hV : ∀ s ∈ Icc a b, |V s - c| ≤ h) :
    |X b - X a - (b - a) * c| ≤ h * (b - a) := by
  have k := Convex.norm_image_sub_le_of_norm_hasDerivWithin_le (f := fun s => X s - s * c) (f' := fun s => V s - c) (C := h)
    (s := Icc a b) (x := a) (y := b)
    (fun s hs => by
      have h1 := (hX s hs).sub ((hasDerivAt_id s).mul_const c).hasDerivWithinAt
      rw [one_mul] at h1
      exact h1)
    (fun s hs => by rw [norm_eq_abs]; exact hV s hs) (convex_Icc a b) (left_mem_Icc.2 hab) (right_mem_Icc.2 hab)
  rw [norm_eq_abs, norm_eq_abs, abs_of_nonneg (sub_nonneg.2 hab)] at k
  rwa [show X b - b * c - (X a - a * c) = X b - X a - (b - a) * c by ring] at k

/-- A turn by `d` and a line, of length `h` together. -/
def bang (d h : ℝ) : List (ℝ × ℝ) := [(if 0 ≤ d then 1 else -1, |d|), (0, h - |d|)]

theorem bang_end {d h : ℝ} (hd : |d| ≤ h) (c : Config) : (uEnd (bang d h) c).theta = c.theta + d ∧
    |(uEnd (bang d h) c).x - c.x - h * cos c.theta| ≤ h * h ∧ |(uEnd (bang d h) c).y - c.y - h * sin c.theta| ≤ h * h := by
  obtain ⟨e, he⟩ : ∃ e : ℝ, e = if 0 ≤ d then 1 else -1 := ⟨_, rfl⟩
  have hs : e = 1 ∨ e = -1 := by rw [he]; split_ifs <;> simp
  have hed : e * |d| = d := by
    rw [he]; split_ifs with h0
    · rw [abs_of_nonneg h0, one_mul]
    · push Not at h0; rw [abs_of_neg h0]; ring
  have he2 : e ^ 2 = 1 := by rcases hs with rfl | rfl <;> norm_num
  have hee : e * d = |d| := by rw [← hed, ← mul_assoc, ← sq, he2, one_mul, abs_mul, abs_abs]; rcases hs with rfl | rfl <;> simp
  have hl := abs_nonneg d
  have habs : ∀ z : ℝ, |e * z| = |z| := by intro z; rcases hs with rfl | rfl <;> simp
  have hS : |sin (c.theta + d) - sin c.theta - d * cos c.theta| ≤ |d| * |d| := by
    rcases le_total 0 d with h0 | h0
    · have := near_linear (X := fun s => sin (c.theta + s)) (V := fun s => cos (c.theta + s)) (a := 0) (b := d)
        (c := cos c.theta) (h := |d|) h0
        (fun s _ => by
          have := (hasDerivAt_sin (c.theta + s)).comp s ((hasDerivAt_id s).const_add c.theta)
          simpa [Function.comp_def] using this.hasDerivWithinAt)
        (fun s hs => by
          refine (abs_cos_sub_le _ _).trans ?_
          rw [add_sub_cancel_left, abs_of_nonneg hs.1, abs_of_nonneg h0]; exact hs.2)
      simp only [add_zero, sub_zero] at this
      rwa [abs_of_nonneg h0] at this ⊢
    · have := near_linear (X := fun s => sin (c.theta + s)) (V := fun s => cos (c.theta + s)) (a := d) (b := 0)
        (c := cos c.theta) (h := |d|) h0
        (fun s _ => by
          have := (hasDerivAt_sin (c.theta + s)).comp s ((hasDerivAt_id s).const_add c.theta)
          simpa [Function.comp_def] using this.hasDerivWithinAt)
        (fun s hs => by
          refine (abs_cos_sub_le _ _).trans ?_
          rw [add_sub_cancel_left, abs_of_nonpos hs.2, abs_of_nonpos h0]; linarith [hs.1])
      simp only [add_zero, zero_sub] at this
      rw [abs_of_nonpos h0] at this ⊢
      rw [← abs_neg]
      convert this using 2
      ring
  have hC : |cos c.theta - cos (c.theta + d) - d * sin c.theta| ≤ |d| * |d| := by
    rcases le_total 0 d with h0 | h0
    · have := near_linear (X := fun s => -cos (c.theta + s)) (V := fun s => sin (c.theta + s)) (a := 0) (b := d)
        (c := sin c.theta) (h := |d|) h0
        (fun s _ => by
          have := ((hasDerivAt_cos (c.theta + s)).comp s ((hasDerivAt_id s).const_add c.theta)).neg
          rw [mul_one, neg_neg] at this
          exact this.hasDerivWithinAt)
        (fun s hs => by
          refine (abs_sin_sub_le _ _).trans ?_
          rw [add_sub_cancel_left, abs_of_nonneg hs.1, abs_of_nonneg h0]; exact hs.2)
      simp only [add_zero, sub_zero] at this
      rw [abs_of_nonneg h0] at this ⊢
      convert this using 2
      ring
    · have := near_linear (X := fun s => -cos (c.theta + s)) (V := fun s => sin (c.theta + s)) (a := d) (b := 0)
        (c := sin c.theta) (h := |d|) h0
        (fun s _ => by
          have := ((hasDerivAt_cos (c.theta + s)).comp s ((hasDerivAt_id s).const_add c.theta)).neg
          rw [mul_one, neg_neg] at this
          exact this.hasDerivWithinAt)
        (fun s hs => by
          refine (abs_sin_sub_le _ _).trans ?_
          rw [add_sub_cancel_left, abs_of_nonpos hs.2, abs_of_nonpos h0]; linarith [hs.1])
      simp only [add_zero, zero_sub] at this
      rw [abs_of_nonpos h0] at this ⊢
      rw [← abs_neg]
      convert this using 2
      ring
  have h1 : (uEnd (bang d h) c).theta = c.theta + d := by
    simp only [bang, ← he, uEnd, uStep, hed]; ring
  have h2 : (uEnd (bang d h) c).x = c.x + e * (sin (c.theta + d) - sin c.theta) + (h - |d|) * cos (c.theta + d) := by
    simp only [bang, ← he, uEnd, uStep, hed, he2]; ring
  have h3 : (uEnd (bang d h) c).y = c.y + e * (cos c.theta - cos (c.theta + d)) + (h - |d|) * sin (c.theta + d) := by
    simp only [bang, ← he, uEnd, uStep, hed, he2]; ring
  have hb : |d| * |d| + (h - |d|) * |d| ≤ h * h := by nlinarith
  refine ⟨h1, ?_, ?_⟩
  · rw [h2, show c.x + e * (sin (c.theta + d) - sin c.theta) + (h - |d|) * cos (c.theta + d) - c.x - h * cos c.theta =
      e * (sin (c.theta + d) - sin c.theta - d * cos c.theta) + (h - |d|) * (cos (c.theta + d) - cos c.theta) by
        linear_combination (cos c.theta) * hee]
    refine (abs_add_le _ _).trans ?_
    rw [habs, abs_mul, abs_of_nonneg (sub_nonneg.2 hd)]
    have := abs_cos_sub_le (c.theta + d) c.theta
    rw [add_sub_cancel_left] at this
    exact (add_le_add hS (mul_le_mul_of_nonneg_left this (sub_nonneg.2 hd))).trans hb
  · rw [h3, show c.y + e * (cos c.theta - cos (c.theta + d)) + (h - |d|) * sin (c.theta + d) - c.y - h * sin c.theta =
      e * (cos c.theta - cos (c.theta + d) - d * sin c.theta) + (h - |d|) * (sin (c.theta + d) - sin c.theta) by
        linear_combination (sin c.theta) * hee]
    refine (abs_add_le _ _).trans ?_
    rw [habs, abs_mul, abs_of_nonneg (sub_nonneg.2 hd)]
    have := abs_sin_sub_le (c.theta + d) c.theta
    rw [add_sub_cancel_left] at this
    exact (add_le_add hC (mul_le_mul_of_nonneg_left this (sub_nonneg.2 hd))).trans hb

/-- The curve with heading `T`, followed by turns and lines in `n` steps of length `h`. -/
def follow (T : ℝ → ℝ) (h : ℝ) : ℕ → List (ℝ × ℝ)
  | 0 => []
  | n + 1 => follow T h n ++ bang (T ((n + 1 : ℕ) * h) - T (n * h)) h

theorem follow_end {X Y T : ℝ → ℝ} {L h : ℝ} (hh : 0 ≤ h)
    (hX : ∀ s ∈ Icc 0 L, HasDerivWithinAt X (cos (T s)) (Icc 0 L) s)
    (hY : ∀ s ∈ Icc 0 L, HasDerivWithinAt Y (sin (T s)) (Icc 0 L) s)
    (hT : ∀ s ∈ Icc 0 L, ∀ s' ∈ Icc 0 L, |T s - T s'| ≤ |s - s'|) (n : ℕ) (hn : n * h ≤ L) :
    (uEnd (follow T h n) ⟨X 0, Y 0, T 0⟩).theta = T (n * h) ∧
    |(uEnd (follow T h n) ⟨X 0, Y 0, T 0⟩).x - X (n * h)| ≤ n * (2 * (h * h)) ∧
    |(uEnd (follow T h n) ⟨X 0, Y 0, T 0⟩).y - Y (n * h)| ≤ n * (2 * (h * h)) ∧
    UnitW (follow T h n) ∧ (∀ w ∈ follow T h n, 0 ≤ w.2) ∧ wordLen (follow T h n) = n * h := by
  induction n with
  | zero => simp [follow, uEnd, UnitW, wordLen]
  | succ n ih =>
    have hn' : (n:ℝ) * h + h ≤ L := by push_cast at hn; linarith
    obtain ⟨i1, i2, i3, i4, i5, i6⟩ := ih (by linarith)
    have hnn : (0:ℝ) ≤ n * h := by positivity
    have m0 : (n:ℝ) * h ∈ Icc 0 L := ⟨hnn, by linarith⟩
    have e1 : ((n + 1 : ℕ) : ℝ) * h = n * h + h := by push_cast; ring
    have m1 : (n:ℝ) * h + h ∈ Icc 0 L := ⟨by linarith, hn'⟩
    have hsub : Icc (n * h) (n * h + h) ⊆ Icc 0 L := Icc_subset_Icc hnn hn'
    rw [e1]
    simp only [follow, e1]
    obtain ⟨d, hd⟩ : ∃ d, d = T (n * h + h) - T (n * h) := ⟨_, rfl⟩
    have hd' : |d| ≤ h := by
      have := hT _ m1 _ m0
      rwa [← hd, add_sub_cancel_left, abs_of_nonneg hh] at this
    rw [← hd, uEnd_append]
    obtain ⟨c, hc⟩ : ∃ c, c = uEnd (follow T h n) ⟨X 0, Y 0, T 0⟩ := ⟨_, rfl⟩
    rw [← hc] at i1 i2 i3 ⊢
    obtain ⟨b1, b2, b3⟩ := bang_end hd' c
    have nX := near_linear (X := X) (V := fun s => cos (T s)) (a := n * h) (b := n * h + h) (c := cos (T (n * h))) (h := h)
      (by linarith) (fun s hs => (hX s (hsub hs)).mono hsub) (fun s hs => by
        refine (abs_cos_sub_le _ _).trans ((hT _ (hsub hs) _ m0).trans ?_)
        rw [abs_of_nonneg (by linarith [hs.1])]; linarith [hs.2])
    have nY := near_linear (X := Y) (V := fun s => sin (T s)) (a := n * h) (b := n * h + h) (c := sin (T (n * h))) (h := h)
      (by linarith) (fun s hs => (hY s (hsub hs)).mono hsub) (fun s hs => by
        refine (abs_sin_sub_le _ _).trans ((hT _ (hsub hs) _ m0).trans ?_)
        rw [abs_of_nonneg (by linarith [hs.1])]; linarith [hs.2])
    rw [add_sub_cancel_left] at nX nY
    rw [i1] at b1 b2 b3
    have tri : ∀ {u v x y m k : ℝ}, |u - v - m| ≤ h * h → |x - y - m| ≤ h * h → |v - y| ≤ k → |u - x| ≤ k + 2 * (h * h) := by
      intro u v x y m k h1 h2 h3
      rw [abs_le] at *
      constructor <;> linarith [h1.1, h1.2, h2.1, h2.2, h3.1, h3.2]
    refine ⟨by rw [b1, hd]; ring, ?_, ?_, ?_, ?_, ?_⟩
    · refine (tri b2 nX i2).trans_eq ?_
      push_cast; ring
    · refine (tri b3 nY i3).trans_eq ?_
      push_cast; ring
    · intro w hw
      rw [List.mem_append] at hw
      rcases hw with hw | hw
      · exact i4 w hw
      · simp only [bang, List.mem_cons, List.not_mem_nil, or_false] at hw
        rcases hw with rfl | rfl
        · simp only; split_ifs <;> simp
        · simp
    · intro w hw
      rw [List.mem_append] at hw
      rcases hw with hw | hw
      · exact i5 w hw
      · simp only [bang, List.mem_cons, List.not_mem_nil, or_false] at hw
        rcases hw with rfl | rfl
        · exact abs_nonneg _
        · simp only; linarith
    · have : wordLen (follow T h n ++ bang d h) = wordLen (follow T h n) + wordLen (bang d h) := by
        simp [wordLen]
      rw [this, i6]
      simp only [bang, wordLen, List.map_cons, List.map_nil, List.sum_cons, List.sum_nil, abs_abs,
        abs_of_nonneg (sub_nonneg.2 hd')]
      ring

/-- Dubins' theorem at unit curvature. -/
theorem curve_beat {L : ℝ} (hL : 0 ≤ L) {p q : Config} (h : Curve 1 1 L p q) : Beat p q L := by
  obtain ⟨X, Y, T, hX, hY, hT, x0, y0, t0, x1, y1, t1⟩ := h
  simp only [one_mul] at hX hY hT
  have hp : p = ⟨X 0, Y 0, T 0⟩ := by rw [x0, y0, t0]
  have hq : q = ⟨X L, Y L, T L⟩ := by rw [x1, y1, t1]
  rw [hp, hq]
  clear hp hq x0 y0 t0 x1 y1 t1
  rw [beat_iff _ _ le_rfl]
  obtain ⟨c, hc⟩ : ∃ c : ℕ → Config, c = fun n => uEnd (follow T (L / (n + 1 : ℕ)) (n + 1)) ⟨X 0, Y 0, T 0⟩ := ⟨_, rfl⟩
  have key : ∀ n : ℕ, (c n).theta = T L ∧ |(c n).x - X L| ≤ 2 * L ^ 2 * (1 / ((n : ℝ) + 1)) ∧
      |(c n).y - Y L| ≤ 2 * L ^ 2 * (1 / ((n : ℝ) + 1)) ∧ Beat ⟨X 0, Y 0, T 0⟩ (c n) L := by
    intro n
    have hn : ((n + 1 : ℕ) : ℝ) ≠ 0 := by positivity
    have e : ((n + 1 : ℕ) : ℝ) * (L / (n + 1 : ℕ)) = L := by field_simp
    obtain ⟨i1, i2, i3, i4, i5, i6⟩ := follow_end (X := X) (Y := Y) (T := T) (L := L) (h := L / (n + 1 : ℕ)) (by positivity)
      hX hY hT (n + 1) e.le
    rw [e] at i1 i2 i3 i6
    have e2 : ((n + 1 : ℕ) : ℝ) * (2 * (L / (n + 1 : ℕ) * (L / (n + 1 : ℕ)))) = 2 * L ^ 2 * (1 / ((n : ℝ) + 1)) := by
      push_cast at hn ⊢; field_simp
    rw [e2] at i2 i3
    rw [hc]
    refine ⟨i1, i2, i3, ?_⟩
    have := fwd_all i4 i5
    rw [i6] at this
    exact this.beat _
  have lim : ∀ {f : ℕ → ℝ} {a : ℝ}, (∀ n : ℕ, |f n - a| ≤ 2 * L ^ 2 * (1 / ((n : ℝ) + 1))) → Tendsto f atTop (𝓝 a) := by
    intro f a hf
    rw [tendsto_iff_norm_sub_tendsto_zero]
    have := (tendsto_one_div_add_atTop_nhds_zero_nat (𝕜 := ℝ)).const_mul (2 * L ^ 2)
    rw [mul_zero] at this
    exact squeeze_zero (fun n => norm_nonneg _) hf this
  refine (reach_closed _ L).mem_of_tendsto (f := fun n => mark (c n) L) (b := atTop) ?_
    (Eventually.of_forall fun n => (beat_iff _ _ le_rfl).1 (key n).2.2.2)
  unfold mark
  refine (lim fun n => (key n).2.1).prodMk_nhds ((lim fun n => (key n).2.2.1).prodMk_nhds ?_)
  have hc1 : (fun n => (cos (c n).theta, sin (c n).theta, L)) = fun _ : ℕ => (cos (T L), sin (T L), L) := by
    funext n; rw [(key n).1]
  rw [hc1]
  exact tendsto_const_nhds

end Spec
