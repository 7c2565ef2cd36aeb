import Verif.Lemmas.Sideways
import Verif.Lemmas.Predict
import Verif.Lemmas.HcSampling

/-!
# Samples cover the path
-/

noncomputable section

namespace Spec

open Real

/-- Two places of one segment. -/
theorem arrive_near {d k sigma L K u s : ℝ} (hd : d = 1 ∨ d = -1) (hu : 0 ≤ u) (hus : u ≤ s) (hs : s ≤ L)
    (hc : ∀ t, 0 ≤ t → t ≤ L → |k + sigma * t| ≤ K) (p : Config) :
    (arrive d k sigma s p).dist (arrive d k sigma u p) ≤ s - u ∧
      |(arrive d k sigma s p).theta - (arrive d k sigma u p).theta| ≤ K * (s - u) := by
  constructor
  · have h1 := arrive_add d k sigma u (s - u) p
    rw [add_sub_cancel] at h1
    rw [← h1]
    exact arrive_chord hd (by linarith) _
  · have h1 := hc ((s + u) / 2) (by linarith) (by linarith)
    have h2 : (arrive d k sigma s p).theta - (arrive d k sigma u p).theta = d * ((k + sigma * ((s + u) / 2)) * (s - u)) := by
      simp only [arrive, heading]; ring
    have hd' : |d| = 1 := by rcases hd with rfl | rfl <;> norm_num
    rw [h2, abs_mul, hd', one_mul, abs_mul, abs_of_nonneg (sub_nonneg.2 hus)]
    exact mul_le_mul_of_nonneg_right h1 (sub_nonneg.2 hus)

theorem arrive_near' {d k sigma L K u s h : ℝ} (hd : d = 1 ∨ d = -1) (hu : 0 ≤ u) (hu' : u ≤ L) (hs : 0 ≤ s) (hs' : s ≤ L)
    (hh : |s - u| ≤ h) (hc : ∀ t, 0 ≤ t → t ≤ L → |k + sigma * t| ≤ K) (p : Config) :
    (arrive d k sigma s p).dist (arrive d k sigma u p) ≤ h ∧
      |(arrive d k sigma s p).theta - (arrive d k sigma u p).theta| ≤ K * h := by
  have hK : 0 ≤ K := (abs_nonneg _).trans (hc 0 le_rfl (hu.trans hu'))
  have hm := mul_le_mul_of_nonneg_left hh hK
  rcases le_total u s with h1 | h1
  · obtain ⟨a, b⟩ := arrive_near hd hu h1 hs' hc p
    rw [abs_of_nonneg (by linarith)] at hh hm
    exact ⟨a.trans hh, b.trans hm⟩
  · obtain ⟨a, b⟩ := arrive_near hd hs h1 hu' hc p
    rw [abs_sub_comm, abs_of_nonneg (by linarith)] at hh hm
    rw [Config.dist_comm, abs_sub_comm]
    exact ⟨a.trans hh, b.trans hm⟩

/-- The nearest of the places `0, disc, 2 disc, …, L` is at most half of `disc` away. -/
theorem nearest_place {disc L s : ℝ} (hd : 0 < disc) (h0 : 0 ≤ s) (h1 : s ≤ L) :
    s ≤ disc / 2 ∨ ∃ k, k < ⌈L / disc⌉₊ ∧ |s - min ((k + 1 : ℕ) * disc) L| ≤ disc / 2 := by
  by_cases hz : s ≤ disc / 2
  · exact .inl hz
  right
  obtain ⟨k, hk⟩ : ∃ k, k = ⌊s / disc⌋₊ := ⟨_, rfl⟩
  have hs0 : 0 ≤ s / disc := div_nonneg h0 hd.le
  have k1 : (k:ℝ) * disc ≤ s := by
    have := Nat.floor_le hs0
    rw [← hk, le_div_iff₀ hd] at this
    exact this
  have k2 : s < (k + 1) * disc := by
    have := Nat.lt_floor_add_one (s / disc)
    rw [← hk, div_lt_iff₀ hd] at this
    exact this
  by_cases hn : k * disc + disc / 2 < s
  · -- the next one
    refine ⟨k, ?_, ?_⟩
    · rw [Nat.lt_ceil, lt_div_iff₀ hd]
      linarith
    · push_cast
      rcases le_total ((k + 1) * disc) L with h | h
      · rw [min_eq_left h, abs_sub_comm, abs_of_nonneg (by linarith)]; linarith
      · rw [min_eq_right h, abs_sub_comm, abs_of_nonneg (by linarith)]; linarith
  · obtain _ | j := k
    · exfalso; apply hz; push_cast at hn; linarith
    · refine ⟨j, ?_, ?_⟩
      · rw [Nat.lt_ceil, lt_div_iff₀ hd]
        push_cast at k1
        linarith
      · rw [min_eq_left (k1.trans h1), abs_of_nonneg (by linarith)]
        linarith

/-- Equal configurations. -/
theorem within_same {a b m m' : Config} {h e : ℝ} (ha : SameConfig a m) (hb : SameConfig b m') (h1 : m.dist m' ≤ h)
    (h2 : |m.theta - m'.theta| ≤ e) : Within h e a b := by
  obtain ⟨ax, ay, i, ai⟩ := ha
  obtain ⟨bx, bY, j, bj⟩ := hb
  refine ⟨?_, m'.theta + i * (2 * π), ⟨i - j, ?_⟩, ?_⟩
  · rw [Config.dist, ax, ay, bx, bY]; exact h1
  · rw [bj]; push_cast; ring
  · rw [ai]; convert h2 using 2; ring

theorem within_near {a b m m' : Config} {h e t : ℝ} (ha : SameConfig a m) (hb : Near t b m') (h1 : m.dist m' ≤ h)
    (h2 : |m.theta - m'.theta| ≤ e) : Within (h + t) e a b := by
  obtain ⟨ax, ay, i, ai⟩ := ha
  obtain ⟨hbt, j, bj⟩ := hb
  refine ⟨?_, m'.theta + i * (2 * π), ⟨i - j, ?_⟩, ?_⟩
  · have h3 := Config.dist_triangle m m' b
    rw [Config.dist_comm m' b] at h3
    have h4 : a.dist b = m.dist b := by rw [Config.dist, Config.dist, ax, ay]
    linarith
  · rw [bj]; push_cast; ring
  · rw [ai]; convert h2 using 2; ring

/-- Every place of a sampled path is at most half the discretization from a sample. -/
theorem Sampled.covers {disc K : ℝ} (hd : 0 < disc) {cs : List Segment} {p q : Config} {l : List Sample} (h : Sampled disc cs p l q)
    (hc : CurvatureAtMost K cs) : ∀ s a, At cs p s a → ∃ b ∈ l, Within (disc / 2) (K * (disc / 2)) a.cfg b.cfg := by
  induction h with
  | nil p => intro s a ha; cases ha
  | @cons c cs p q r first rest tail hf _ _ hl hs hdr _ ih =>
    intro s a ha
    cases ha with
    | @here _ _ _ m _ _ s0 s1 hm hsame _ _ =>
      have hcc := hc c List.mem_cons_self
      rw [drives_iff] at hm
      rcases nearest_place hd s0 s1 with hn | ⟨k, hk, hn⟩
      · refine ⟨first, by simp, ?_⟩
        obtain ⟨e1, e2⟩ := arrive_near' (u := 0) (h := disc / 2) (dir_eq c) le_rfl (s0.trans s1) s0 s1
          (by rwa [sub_zero, abs_of_nonneg s0]) hcc p
        rw [arrive_zero, ← hm] at e1 e2
        exact within_same hsame hf e1 e2
      · rw [← hl] at hk
        obtain ⟨m', hm', hsame', _⟩ := hs k rest[k] (List.getElem?_eq_getElem hk)
        refine ⟨rest[k], by simp, ?_⟩
        rw [drives_iff] at hm'
        obtain ⟨e1, e2⟩ := arrive_near' (dir_eq c) (by positivity) (min_le_right _ _) s0 s1 hn hcc p
        rw [← hm, ← hm'] at e1 e2
        exact within_same hsame hsame' e1 e2
    | @later _ _ _ q' s _ hdr' hat =>
      rw [drives_iff] at hdr hdr'
      obtain rfl : q' = q := hdr'.trans hdr.symm
      obtain ⟨b, hb, hw⟩ := ih (fun c' hc' => hc c' (List.mem_cons_of_mem _ hc')) _ _ hat
      exact ⟨b, by simp [hb], hw⟩

theorem segTol_nonneg' (c : Segment) : 0 ≤ segTol c := by unfold segTol; split_ifs <;> positivity

theorem pathTol_nonneg' (cs : List Segment) : 0 ≤ pathTol cs := by
  unfold pathTol
  refine List.sum_nonneg ?_
  intro x hx
  obtain ⟨c, _, rfl⟩ := List.mem_map.1 hx
  exact segTol_nonneg' c

/-- The same up to the error of the Fresnel integrals; `b0` is the sample before. -/
theorem SampledNear.covers {disc K err k : ℝ} (hd : 0 < disc) {cs : List Segment} {p q : Config} {l : List Sample}
    (h : SampledNear disc err k cs p l q) (hc : CurvatureAtMost K cs) : ∀ b0 : Sample, Near err b0.cfg p →
      ∀ s a, At cs p s a → ∃ b ∈ b0 :: l, Within (disc / 2 + (err + pathTol cs)) (K * (disc / 2)) a.cfg b.cfg := by
  induction h with
  | nil _ _ p => intro b0 _ s a ha; cases ha
  | @cons err k c cs p q r jump rest tail _ hl hs hdr _ ih =>
    intro b0 hb0 s a ha
    have t0 := segTol_nonneg' c
    have t1 := pathTol_nonneg' cs
    have et : pathTol (c :: cs) = segTol c + pathTol cs := by simp [pathTol]
    rw [et]
    have hmono : ∀ {x : ℝ} {a b : Config}, Within (disc / 2 + x) (K * (disc / 2)) a b → x ≤ err + (segTol c + pathTol cs) →
        Within (disc / 2 + (err + (segTol c + pathTol cs))) (K * (disc / 2)) a b :=
      fun h hx => ⟨h.1.trans (by linarith), h.2⟩
    cases ha with
    | @here _ _ _ m _ _ s0 s1 hm hsame _ _ =>
      have hcc := hc c List.mem_cons_self
      rw [drives_iff] at hm
      rcases nearest_place hd s0 s1 with hn | ⟨j, hk, hn⟩
      · refine ⟨b0, by simp, ?_⟩
        obtain ⟨e1, e2⟩ := arrive_near' (u := 0) (h := disc / 2) (dir_eq c) le_rfl (s0.trans s1) s0 s1
          (by rwa [sub_zero, abs_of_nonneg s0]) hcc p
        rw [arrive_zero, ← hm] at e1 e2
        exact hmono (within_near hsame hb0 e1 e2) (by linarith)
      · rw [← hl] at hk
        obtain ⟨m', hm', hsame', _⟩ := hs j rest[j] (List.getElem?_eq_getElem hk)
        refine ⟨rest[j], by simp, ?_⟩
        rw [drives_iff] at hm'
        obtain ⟨e1, e2⟩ := arrive_near' (dir_eq c) (by positivity) (min_le_right _ _) s0 s1 hn hcc p
        rw [← hm, ← hm'] at e1 e2
        exact hmono (within_near hsame hsame' e1 e2) (by linarith)
    | @later _ _ _ q' s _ hdr' hat =>
      rw [drives_iff] at hdr hdr'
      obtain rfl : q' = q := hdr'.trans hdr.symm
      obtain ⟨b1, hb1, hn1⟩ : ∃ b1 ∈ b0 :: rest, Near (err + segTol c) b1.cfg q' := by
        by_cases hr : rest = []
        · refine ⟨b0, by simp, ?_⟩
          rw [hr] at hl
          have : |c.len| / disc ≤ 0 := by
            rw [← Nat.ceil_eq_zero, ← hl]; rfl
          have hz : |c.len| = 0 := le_antisymm (by
            rw [div_le_iff₀ hd, zero_mul] at this; exact this) (abs_nonneg _)
          rw [hdr', hz, arrive_zero]
          exact ⟨hb0.1.trans (by linarith), hb0.2⟩
        · have hlen : 0 < rest.length := List.length_pos_iff.2 hr
          obtain ⟨m', hm', hsame', _⟩ := hs (rest.length - 1) rest[rest.length - 1] (List.getElem?_eq_getElem (by omega))
          refine ⟨rest[rest.length - 1], by simp, ?_⟩
          have hmin : min ((rest.length - 1 + 1 : ℕ) * disc) |c.len| = |c.len| := by
            rw [Nat.sub_add_cancel hlen]
            refine min_eq_right ?_
            rw [← div_le_iff₀ hd, hl]
            exact Nat.le_ceil _
          rw [hmin, drives_iff] at hm'
          rw [hdr', ← hm']
          exact hsame'
      obtain ⟨b, hb, hw⟩ := ih (fun c' hc' => hc c' (List.mem_cons_of_mem _ hc')) b1 hn1 _ _ hat
      refine ⟨b, ?_, hmono hw (by linarith)⟩
      rcases List.mem_cons.1 hb with rfl | hb
      · rcases List.mem_cons.1 hb1 with rfl | hb1
        · simp
        · simp [hb1]
      · simp [hb]

end Spec
