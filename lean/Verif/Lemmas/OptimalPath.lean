import Verif.Lemmas.OptimalCurve
import Verif.Lemmas.Drive
import Verif.Spec.Planner
import Verif.Spec.Dubins

/-!
# Curves of bounded curvature: pieces, reversal, scale
-/

noncomputable section

namespace Spec

open SF Real Filter Topology Set

/-- The second curve is driven after the first one. -/
def glue (L : ℝ) (X Y : ℝ → ℝ) : ℝ → ℝ := fun s => if s ≤ L then X s else Y (s - L)

theorem glue_left {L : ℝ} {X Y : ℝ → ℝ} {s : ℝ} (h : s ≤ L) : glue L X Y s = X s := if_pos h

theorem glue_right {L : ℝ} {X Y : ℝ → ℝ} (h0 : X L = Y 0) {s : ℝ} (h : L ≤ s) : glue L X Y s = Y (s - L) := by
  unfold glue
  split_ifs with h1
  · obtain rfl : s = L := le_antisymm h1 h
    rw [h0, sub_self]
  · rfl

theorem glue_deriv {L M : ℝ} (hL : 0 ≤ L) (hM : 0 ≤ M) {X Y U V : ℝ → ℝ} (h0 : X L = Y 0) (hUV : U L = V 0)
    (hX : ∀ s ∈ Icc 0 L, HasDerivWithinAt X (U s) (Icc 0 L) s) (hY : ∀ s ∈ Icc 0 M, HasDerivWithinAt Y (V s) (Icc 0 M) s)
    (s : ℝ) (hs : s ∈ Icc 0 (L + M)) : HasDerivWithinAt (glue L X Y) (glue L U V s) (Icc 0 (L + M)) s := by
  have e : Icc 0 (L + M) = Icc 0 L ∪ Icc L (L + M) := (Icc_union_Icc_eq_Icc hL (by linarith)).symm
  have h1 : s ∈ Icc 0 L → HasDerivWithinAt (glue L X Y) (glue L U V s) (Icc 0 L) s := by
    intro hs
    rw [glue_left hs.2]
    exact (hX s hs).congr (fun y hy => glue_left hy.2) (glue_left hs.2)
  have h2 : s ∈ Icc L (L + M) → HasDerivWithinAt (glue L X Y) (glue L U V s) (Icc L (L + M)) s := by
    intro hs
    rw [glue_right hUV hs.1]
    have hd : HasDerivWithinAt (fun y => y - L) 1 (Icc L (L + M)) s := ((hasDerivAt_id s).sub_const L).hasDerivWithinAt
    have hm : MapsTo (fun y => y - L) (Icc L (L + M)) (Icc 0 M) := fun y hy => ⟨by linarith [hy.1], by linarith [hy.2]⟩
    have := (hY _ (hm hs)).comp s hd hm
    rw [mul_one] at this
    exact this.congr (fun y hy => glue_right h0 hy.1) (glue_right h0 hs.1)
  rcases lt_trichotomy s L with h | h | h
  · exact (h1 ⟨hs.1, h.le⟩).mono_of_mem_nhdsWithin
      (mem_nhdsWithin.2 ⟨Iio L, isOpen_Iio, h, fun y hy => ⟨hy.2.1, le_of_lt hy.1⟩⟩)
  · rw [e]
    exact (h1 ⟨hs.1, h.le⟩).union (h2 ⟨h.ge, hs.2⟩)
  · exact (h2 ⟨h.le, hs.2⟩).mono_of_mem_nhdsWithin
      (mem_nhdsWithin.2 ⟨Ioi L, isOpen_Ioi, h, fun y hy => ⟨le_of_lt hy.1, hy.2.2⟩⟩)

theorem Curve.append {d k L M : ℝ} (hL : 0 ≤ L) (hM : 0 ≤ M) {p q r : Config} (h : Curve d k L p q) (h' : Curve d k M q r) :
    Curve d k (L + M) p r := by
  obtain ⟨X, Y, T, hX, hY, hT, x0, y0, t0, x1, y1, t1⟩ := h
  obtain ⟨X', Y', T', hX', hY', hT', x0', y0', t0', x1', y1', t1'⟩ := h'
  have ex : X L = X' 0 := by rw [x1, x0']
  have ey : Y L = Y' 0 := by rw [y1, y0']
  have et : T L = T' 0 := by rw [t1, t0']
  have fin : ∀ {A B : ℝ → ℝ}, A L = B 0 → glue L A B (L + M) = B M := by
    intro A B h
    rw [glue_right h (by linarith), add_sub_cancel_left]
  have key : ∀ (f : ℝ → ℝ) (s : ℝ), f (glue L T T' s) = glue L (fun s => f (T s)) (fun s => f (T' s)) s := by
    intro f s; unfold glue; split_ifs <;> rfl
  refine ⟨glue L X X', glue L Y Y', glue L T T', ?_, ?_, ?_, by rw [glue_left hL, x0], by rw [glue_left hL, y0],
    by rw [glue_left hL, t0], by rw [fin ex, x1'], by rw [fin ey, y1'], by rw [fin et, t1']⟩
  · intro s hs
    rw [key (fun t => d * cos t)]
    exact glue_deriv hL hM ex (by rw [et]) hX hX' s hs
  · intro s hs
    rw [key (fun t => d * sin t)]
    exact glue_deriv hL hM ey (by rw [et]) hY hY' s hs
  · have main : ∀ s ∈ Icc 0 (L + M), ∀ s' ∈ Icc 0 (L + M), s ≤ s' → |glue L T T' s - glue L T T' s'| ≤ k * |s - s'| := by
      intro s hs s' hs' hss
      rw [abs_of_nonpos (sub_nonpos.2 hss)]
      by_cases h1 : s' ≤ L
      · rw [glue_left h1, glue_left (hss.trans h1)]
        have := hT s ⟨hs.1, hss.trans h1⟩ s' ⟨hs'.1, h1⟩
        rwa [abs_of_nonpos (sub_nonpos.2 hss)] at this
      push Not at h1
      by_cases h2 : s ≤ L
      · rw [glue_left h2, glue_right et h1.le]
        have a := hT s ⟨hs.1, h2⟩ L ⟨hL, le_rfl⟩
        have b := hT' 0 ⟨le_rfl, hM⟩ (s' - L) ⟨by linarith, by linarith [hs'.2]⟩
        rw [abs_of_nonpos (by linarith : s - L ≤ 0)] at a
        rw [← et, abs_of_nonpos (by linarith : (0:ℝ) - (s' - L) ≤ 0)] at b
        calc |T s - T' (s' - L)| = |(T s - T L) + (T L - T' (s' - L))| := by ring_nf
          _ ≤ _ := abs_add_le _ _
          _ ≤ _ := add_le_add a b
          _ = _ := by ring
      · push Not at h2
        rw [glue_right et h2.le, glue_right et h1.le]
        have := hT' (s - L) ⟨by linarith, by linarith [hs.2]⟩ (s' - L) ⟨by linarith, by linarith [hs'.2]⟩
        rwa [show s - L - (s' - L) = s - s' by ring, abs_of_nonpos (sub_nonpos.2 hss)] at this
    intro s hs s' hs'
    rcases le_total s s' with h | h
    · exact main s hs s' hs' h
    · rw [abs_sub_comm, abs_sub_comm s]; exact main s' hs' s hs h

/-- The same curve, driven from its end in the other direction. -/
theorem Curve.back {d k L : ℝ} {p q : Config} (h : Curve d k L p q) : Curve (-d) k L q p := by
  obtain ⟨X, Y, T, hX, hY, hT, x0, y0, t0, x1, y1, t1⟩ := h
  have hm : MapsTo (fun s => L - s) (Icc 0 L) (Icc 0 L) := fun s hs => ⟨by linarith [hs.2], by linarith [hs.1]⟩
  have hd : ∀ s, HasDerivWithinAt (fun y => L - y) (-1) (Icc 0 L) s := fun s => ((hasDerivAt_id s).const_sub L).hasDerivWithinAt
  refine ⟨fun s => X (L - s), fun s => Y (L - s), fun s => T (L - s), ?_, ?_, ?_, by simpa using x1, by simpa using y1,
    by simpa using t1, by simpa using x0, by simpa using y0, by simpa using t0⟩
  · intro s hs
    have := (hX _ (hm hs)).comp s (hd s) hm
    rw [mul_neg_one, ← neg_mul] at this
    exact this
  · intro s hs
    have := (hY _ (hm hs)).comp s (hd s) hm
    rw [mul_neg_one, ← neg_mul] at this
    exact this
  · intro s hs s' hs'
    have := hT _ (hm hs) _ (hm hs')
    rwa [show L - s - (L - s') = -(s - s') by ring, abs_neg] at this

/-- A curve in units of the turning radius. -/
theorem Curve.scaled {d k L : ℝ} (hk : 0 < k) {p q : Config} (h : Curve d k L p q) :
    Curve d 1 (k * L) (scaled k p) (scaled k q) := by
  obtain ⟨X, Y, T, hX, hY, hT, x0, y0, t0, x1, y1, t1⟩ := h
  have hk' := hk.ne'
  have hm : MapsTo (fun s => s / k) (Icc 0 (k * L)) (Icc 0 L) := fun s hs =>
    ⟨div_nonneg hs.1 hk.le, by rw [div_le_iff₀ hk]; linarith [hs.2]⟩
  have hd : ∀ s, HasDerivWithinAt (fun y : ℝ => y / k) (1 / k) (Icc 0 (k * L)) s := fun s =>
    ((hasDerivAt_id s).div_const k).hasDerivWithinAt
  have e : k * L / k = L := by field_simp
  refine ⟨fun s => k * X (s / k), fun s => k * Y (s / k), fun s => T (s / k), ?_, ?_, ?_, ?_, ?_, ?_, ?_, ?_, ?_⟩
  · intro s hs
    have := ((hX _ (hm hs)).comp s (hd s) hm).const_mul k
    rw [show k * (d * cos (T (s / k)) * (1 / k)) = d * cos (T (s / k)) by field_simp] at this
    exact this
  · intro s hs
    have := ((hY _ (hm hs)).comp s (hd s) hm).const_mul k
    rw [show k * (d * sin (T (s / k)) * (1 / k)) = d * sin (T (s / k)) by field_simp] at this
    exact this
  · intro s hs s' hs'
    refine (hT _ (hm hs) _ (hm hs')).trans_eq ?_
    rw [← sub_div, abs_div, abs_of_pos hk]; field_simp
  all_goals simp only [zero_div, e, SF.scaled, x0, y0, t0, x1, y1, t1]

theorem Curve.mono {d k k' L : ℝ} (hk : k ≤ k') {p q : Config} (h : Curve d k L p q) : Curve d k' L p q := by
  obtain ⟨X, Y, T, hX, hY, hT, rest⟩ := h
  exact ⟨X, Y, T, hX, hY, fun s hs s' hs' => (hT s hs s' hs').trans (mul_le_mul_of_nonneg_right hk (abs_nonneg _)), rest⟩

/-- A piece of a path is a curve. -/
theorem Drives.curve {d k kappa sigma L : ℝ} (hd : d = 1 ∨ d = -1) {p q : Config} (h : Drives d kappa sigma L p q)
    (hc : ∀ s, 0 ≤ s → s ≤ L → |kappa + sigma * s| ≤ k) : Curve d k L p q := by
  obtain ⟨X, Y, T, hX, hY, hT, rest⟩ := h
  refine ⟨X, Y, T, fun s _ => (hX s).hasDerivWithinAt, fun s _ => (hY s).hasDerivWithinAt, ?_, rest⟩
  intro s hs s' hs'
  have := Convex.norm_image_sub_le_of_norm_hasDerivWithin_le (f := T) (C := k) (s := Icc 0 L) (x := s') (y := s)
    (fun x _ => (hT x).hasDerivWithinAt)
    (fun x hx => by
      rw [norm_eq_abs, abs_mul]
      have : |d| = 1 := by rcases hd with rfl | rfl <;> simp
      rw [this, one_mul]; exact hc x hx.1 hx.2) (convex_Icc 0 L) hs' hs
  simpa [norm_eq_abs] using this

theorem DrivesAll.curve {d k : ℝ} (hd : d = 1 ∨ d = -1) {cs : List Segment} {p q : Config} (h : DrivesAll cs p q)
    (hdir : ∀ c ∈ cs, c.len ≠ 0 → c.dir = d) (hc : CurvatureAtMost k cs) : Curve d k (totalLength cs) p q := by
  induction h with
  | nil p =>
    refine ⟨fun _ => p.x, fun _ => p.y, fun _ => p.theta, ?_, ?_, ?_, rfl, rfl, rfl, rfl, rfl, rfl⟩
    all_goals
      simp only [totalLength, List.map_nil, List.sum_nil, Icc_self, mem_singleton_iff]
    · rintro s rfl; simp [hasDerivWithinAt_iff_hasFDerivWithinAt, HasFDerivWithinAt.of_subsingleton]
    · rintro s rfl; simp [hasDerivWithinAt_iff_hasFDerivWithinAt, HasFDerivWithinAt.of_subsingleton]
    · rintro s rfl s' rfl; simp
  | @cons c cs p q r h1 h2 ih =>
    have i := ih (fun c' hc' => hdir c' (by simp [hc'])) (fun c' hc' => hc c' (by simp [hc']))
    have e : totalLength (c :: cs) = |c.len| + totalLength cs := by simp [totalLength]
    have hn : 0 ≤ totalLength cs := by unfold totalLength; exact List.sum_nonneg (by simp)
    by_cases h0 : c.len = 0
    · rw [h0, abs_zero] at h1
      obtain ⟨X, Y, T, -, -, -, x0, y0, t0, x1, y1, t1⟩ := h1
      have : p = q := by
        ext
        · rw [← x0, x1]
        · rw [← y0, y1]
        · rw [← t0, t1]
      rw [e, h0, abs_zero, zero_add, this]
      exact i
    · rw [hdir c (by simp) h0] at h1
      rw [e]
      exact (Drives.curve hd h1 (hc c (by simp))).append (abs_nonneg _) hn i

/-- Full turns of the heading make no difference. -/
theorem Curve.turn {d k L : ℝ} {p p' q : Config} (h : Curve d k L p q) (hp : SameConfig p p') :
    ∃ q', Curve d k L p' q' ∧ SameConfig q q' := by
  obtain ⟨X, Y, T, hX, hY, hT, x0, y0, t0, x1, y1, t1⟩ := h
  obtain ⟨px, py, n, hn⟩ := hp
  refine ⟨⟨q.x, q.y, q.theta - n * (2 * π)⟩, ⟨X, Y, fun s => T s - n * (2 * π), ?_, ?_, ?_, by rw [x0, px], by rw [y0, py], ?_,
    x1, y1, by simp only [t1]⟩, rfl, rfl, ⟨n, by ring⟩⟩
  · intro s hs
    rw [cos_sub_int_mul_two_pi]; exact hX s hs
  · intro s hs
    rw [sin_sub_int_mul_two_pi]; exact hY s hs
  · intro s hs s' hs'
    simp only [sub_sub_sub_cancel_right]; exact hT s hs s' hs'
  · simp only [t0, hn]; ring

theorem CanDrive.append {d k L M : ℝ} (hL : 0 ≤ L) (hM : 0 ≤ M) {p q r : Config} (h : CanDrive d k L p q) (h' : CanDrive d k M q r) :
    CanDrive d k (L + M) p r := by
  obtain ⟨a, h1, h2⟩ := h
  obtain ⟨b, h3, h4⟩ := h'
  obtain ⟨c, h5, h6⟩ := h3.turn h2.symm
  exact ⟨c, h1.append hL hM h5, h6.symm.trans h4⟩

theorem CanDrive.back {d k L : ℝ} {p q : Config} (h : CanDrive d k L p q) : CanDrive (-d) k L q p := by
  obtain ⟨a, h1, h2⟩ := h
  obtain ⟨c, h5, h6⟩ := h1.back.turn h2
  exact ⟨c, h5, h6.symm⟩

theorem CanDrive.mono {d k k' L : ℝ} (hk : k ≤ k') {p q : Config} (h : CanDrive d k L p q) : CanDrive d k' L p q := by
  obtain ⟨a, h1, h2⟩ := h
  exact ⟨a, h1.mono hk, h2⟩

/-- Some Dubins word, its turns in the ranges of `GW`, is no longer than the curve. -/
theorem CanDrive.word {k L : ℝ} (hk : 0 < k) (hL : 0 ≤ L) {p q : Config} (h : CanDrive 1 k L p q) :
    ∃ ws, GW ws ∧ wordLen ws ≤ k * L ∧ Reaches (wordSegs k ws) p q := by
  obtain ⟨a, h1, h2⟩ := h
  obtain ⟨w, w1, w2, w3⟩ := curve_beat (mul_nonneg hk.le hL) (h1.scaled hk)
  obtain ⟨v, v1, v2, v3⟩ := w1.nrm
  have hu : UnitW v := by
    cases v1 with
    | csc e1 e2 => exact unitW3 e1 (Or.inl rfl) e2
    | ccc e1 => exact unitW3 e1 (Or.inr e1.neg) e1
  refine ⟨v, v1, v3.trans w3, _, drivesAll_iff.2 rfl, ?_⟩
  have e := scaled_arriveAll hk hu p
  obtain ⟨k1, k2, k3⟩ := v2 _ _ _ ⟨rfl, rfl, AngleEq.refl _⟩
  have hs : SameConfig (uEnd v (SF.scaled k p)) (uEnd w (SF.scaled k p)) := by
    rw [uEnd_from v, uEnd_from w]
    exact ⟨by simp only; rw [k1, k2], by simp only; rw [k1, k2], k3.add_left _⟩
  rw [← e] at hs
  obtain ⟨g1, g2, g3⟩ := hs.trans w2
  simp only [SF.scaled] at g1 g2 g3
  exact SameConfig.trans ⟨mul_left_cancel₀ hk.ne' g1, mul_left_cancel₀ hk.ne' g2, g3⟩ h2

theorem GW.path {k : ℝ} (hk : 0 < k) {ws : List (ℝ × ℝ)} (h : GW ws) : DubinsPath k (wordSegs k ws) := by
  have hk' := hk.ne'
  cases h with
  | @csc e f t p q he hf ht hp hq hq2 =>
    have := DubinsPath.csc (kappa := k) he hf (div_nonneg ht hk.le) (div_nonneg hp hk.le) (div_nonneg hq hk.le)
    simpa [wordSegs] using this
  | @ccc e t a q he ht ha ha2 hq hqa =>
    have := DubinsPath.ccc (kappa := k) (b := 2 * a / k) he (div_nonneg ht.le hk.le) (by rw [mul_div_cancel₀ _ hk']; linarith)
      (by rw [mul_div_cancel₀ _ hk']; linarith) (div_nonneg hq.le hk.le)
    simpa [wordSegs] using this

/-- A Dubins path is a curve. -/
theorem DubinsPath.canDrive {k : ℝ} (hk : 0 < k) {cs : List Segment} (h : DubinsPath k cs) {p q : Config} (hr : Reaches cs p q) :
    CanDrive 1 k (totalLength cs) p q := by
  obtain ⟨r, h1, h2⟩ := hr
  refine ⟨r, DrivesAll.curve (Or.inl rfl) h1 ?_ ?_, h2⟩
  · intro c hc _
    have : 0 ≤ c.len := by
      cases h with
      | csc e1 e2 ha hb hc' =>
        simp only [List.mem_cons, List.not_mem_nil, or_false] at hc
        rcases hc with rfl | rfl | rfl <;> assumption
      | ccc e ha hb hb2 hc' =>
        simp only [List.mem_cons, List.not_mem_nil, or_false] at hc
        rcases hc with rfl | rfl | rfl
        · exact ha
        · by_contra h'
          push Not at h'
          simp only at h'
          nlinarith [pi_pos]
        · exact hc'
    simp [Segment.dir, not_lt.2 this]
  · have key : ∀ e : ℝ, (e = 1 ∨ e = -1) → |e * k| ≤ k := by
      rintro e (rfl | rfl) <;> simp [abs_of_pos hk]
    intro c hc t _ _
    cases h with
    | @csc e1 e3 a b c' k1 k2 =>
      simp only [List.mem_cons, List.not_mem_nil, or_false] at hc
      rcases hc with rfl | rfl | rfl
      · simpa using key _ k1
      · simpa using hk.le
      · simpa using key _ k2
    | @ccc e a b c' k1 =>
      simp only [List.mem_cons, List.not_mem_nil, or_false] at hc
      have k1' : -e = 1 ∨ -e = -1 := by rcases k1 with k | k <;> simp [k]
      rcases hc with rfl | rfl | rfl
      · simpa using key _ k1
      · have := key _ k1'
        simpa using this
      · simpa using key _ k1

end Spec
