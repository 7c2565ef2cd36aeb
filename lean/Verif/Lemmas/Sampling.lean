import Verif.Lemmas.Integrate
import Verif.Spec.Bridge

/-!
# Lemmas on sampling, used for C11-C14
-/

noncomputable section

namespace Props

open SF Spec Real

theorem seg_dir (c : Control) : (seg c).dir = sgn c.delta_s := rfl

/-- One call of `integrate_ODE` is exact. -/
theorem integrate_ODE_drives {c : Control} (hc : Resolved c) (st : State)
    (hk : st.kappa = c.kappa) (h : ℝ) :
    ∃ m, Drives (seg c).dir c.kappa c.sigma h ⟨st.x, st.y, st.theta⟩ m ∧
      SameConfig (smp (integrate_ODE st c h)).cfg m ∧ (integrate_ODE st c h).kappa = c.kappa := by
  obtain ⟨hs, hk'⟩ := hc
  refine ⟨_, drives_arrive _ _ _ _ _, ?_, ?_⟩
  · simp only [integrate_ODE, smp, seg_dir, hs, hk]
    by_cases h0 : |c.kappa| > SF.epsilon
    · have hne : c.kappa ≠ 0 := by
        intro h1; rw [h1, abs_zero] at h0; exact absurd h0 (not_lt.2 epsilon_pos.le)
      rw [arrive_arc hne]
      simp only [h0, if_true, end_of_circular_arc]
      exact ⟨rfl, rfl, pify_angleEq _⟩
    · have hz : c.kappa = 0 := by
        rcases hk' with h1 | h1
        · exact h1
        · exact absurd h1 h0
      simp only [h0, if_false]
      rw [hz, arrive_line]
      exact ⟨rfl, rfl, AngleEq.refl _⟩
  · simp only [integrate_ODE]; split_ifs <;> exact hk

theorem integrateLoop_sampled {disc : ℝ} (hd : 0 < disc) :
    ∀ (cs : List Control), (∀ c ∈ cs, Resolved c) → ∀ (st : State) (p : Config),
      SameConfig (smp st).cfg p →
      ∃ q, Sampled disc (cs.map seg) p ((integrateLoop disc cs st).map smp) q := by
  intro cs
  induction cs with
  | nil => intro _ st p _; exact ⟨p, Sampled.nil p⟩
  | cons c cs ih =>
    intro hR st p hp
    have hc := hR c (List.mem_cons_self)
    set st0 : State := { st with kappa := c.kappa, d := sgn c.delta_s } with hst0
    have hf := integrate_ODE_flow c
    set r := segLoop (fun s h => integrate_ODE s c h) disc |c.delta_s|
      (nSteps disc |c.delta_s|) 0 st0 with hr
    have hlen := segLoop_len hf (a := |c.delta_s|) hd st0
    have hend := segLoop_end hf hd (abs_nonneg c.delta_s) st0
    have hget := segLoop_get hf (a := |c.delta_s|) hd st0
    rw [← hr] at hlen hend hget
    have hp0 : SameConfig ⟨st0.x, st0.y, st0.theta⟩ p := hp
    obtain ⟨q, hq1, hq2, hq3⟩ := integrate_ODE_drives hc st0 rfl |c.delta_s|
    rw [drives_iff] at hq1
    have hend' : SameConfig (smp r.2).cfg
        (arrive (seg c).dir c.kappa c.sigma |c.delta_s| p) := by
      have h1 : SameConfig (smp r.2).cfg (smp (integrate_ODE st0 c |c.delta_s|)).cfg :=
        ⟨hend.1, hend.2.1, hend.2.2.1⟩
      refine (h1.trans hq2).trans ?_
      rw [hq1]
      exact arrive_congr hp0
    obtain ⟨r', hr'⟩ := ih (fun c' hc' => hR c' (List.mem_cons_of_mem _ hc')) r.2
      (arrive (seg c).dir c.kappa c.sigma |c.delta_s| p) hend'
    refine ⟨r', ?_⟩
    have hsplit : (integrateLoop disc (c :: cs) st).map smp
        = smp st0 :: (r.1.map (fun x => smp x.2)) ++ (integrateLoop disc cs r.2).map smp := by
      simp only [integrateLoop, ← hst0, ← hr, List.map_cons, List.map_append, List.map_map,
        List.cons_append]
      rfl
    rw [hsplit, List.map_cons]
    refine Sampled.cons hp0 rfl rfl ?_ ?_ (drives_arrive _ _ _ _ _) hr'
    · rw [List.length_map, hlen]; rfl
    · intro k s hk
      rw [List.getElem?_map, Option.map_eq_some_iff] at hk
      obtain ⟨x, hx, rfl⟩ := hk
      obtain ⟨_, _, h3, h4⟩ := hget k x hx
      obtain ⟨m, hm1, hm2, hm3⟩ := integrate_ODE_drives hc st0 rfl (min ((k + 1 : ℕ) * disc) |c.delta_s|)
      rw [drives_iff] at hm1
      refine ⟨_, drives_arrive _ _ _ _ _, ?_, ?_, h4⟩
      · have h1 : SameConfig (smp x.2).cfg
            (smp (integrate_ODE st0 c (min ((k + 1 : ℕ) * disc) |c.delta_s|))).cfg :=
          ⟨h3.1, h3.2.1, h3.2.2.1⟩
        refine (h1.trans hm2).trans ?_
        rw [hm1]; exact arrive_congr hp0
      · have : x.2.kappa = c.kappa := h3.2.2.2.trans hm3
        simp only [smp, seg, this, hc.1, zero_mul, add_zero]

theorem _root_.Spec.Sampled.drives {disc : ℝ} {cs : List Segment} {p q : Config} {l : List Sample}
    (h : Sampled disc cs p l q) : DrivesAll cs p q := by
  induction h with
  | nil p => exact DrivesAll.nil p
  | cons _ _ _ _ _ h2 _ ih => exact DrivesAll.cons h2 ih

theorem _root_.Spec.Sampled.length {disc : ℝ} {cs : List Segment} {p q : Config} {l : List Sample}
    (h : Sampled disc cs p l q) : l.length = (cs.map fun c => 1 + ⌈|c.len| / disc⌉₊).sum := by
  induction h with
  | nil p => rfl
  | cons _ _ _ h1 _ _ _ ih => simp [h1, ih]; ring

/-- The last sample is the end of the path. -/
theorem _root_.Spec.Sampled.last {disc : ℝ} (hd : 0 < disc) {cs : List Segment} {p q : Config}
    {l : List Sample} (h : Sampled disc cs p l q) (a : Sample) (ha : l.getLast? = some a) :
    SameConfig a.cfg q := by
  induction h with
  | nil p => simp at ha
  | @cons c cs p q r first rest tail h1 h2 h3 h4 h5 h6 h7 ih =>
    by_cases ht : tail = []
    · subst ht
      have hqr : q = r := by
        cases h7 with
        | nil => rfl
      subst hqr
      rw [List.append_nil] at ha
      by_cases hr : rest = []
      · subst hr
        simp only [List.getLast?_singleton, Option.some.injEq] at ha
        subst ha
        have hz : |c.len| = 0 := by
          simp only [List.length_nil] at h4
          have := (Nat.ceil_eq_zero.1 h4.symm)
          rw [div_le_iff₀ hd, zero_mul] at this
          exact le_antisymm this (abs_nonneg _)
        rw [drives_iff, hz, arrive_zero] at h6
        rw [h6]; exact h1
      · rw [List.getLast?_cons_of_ne_nil hr, List.getLast?_eq_getElem?] at ha
        obtain ⟨m, hm1, hm2, _⟩ := h5 _ a ha
        have hpos : 0 < rest.length := List.length_pos_iff.2 hr
        have hmin : min (((rest.length - 1 + 1 : ℕ) : ℝ) * disc) |c.len| = |c.len| := by
          apply min_eq_right
          rw [Nat.sub_add_cancel hpos, h4, ← div_le_iff₀ hd]
          exact Nat.le_ceil _
        rw [hmin, drives_iff] at hm1
        rw [drives_iff] at h6
        rw [h6, ← hm1]; exact hm2
    · rw [List.getLast?_append_of_ne_nil _ ht] at ha
      exact ih ha

theorem s_path_cons (c : Control) (cs : List Control) :
    s_path (c :: cs) = |c.delta_s| + s_path cs := by
  have : ∀ (l : List Control) (a : ℝ), l.foldl (fun s c => s + |c.delta_s|) a
      = a + l.foldl (fun s c => s + |c.delta_s|) 0 := by
    intro l
    induction l with
    | nil => intro a; simp
    | cons d l ih => intro a; simp only [List.foldl_cons]; rw [ih, ih (0 + _)]; ring
  unfold s_path
  rw [List.foldl_cons, this]; ring

theorem s_path_eq (cs : List Control) : s_path cs = totalLength (cs.map seg) := by
  induction cs with
  | nil => simp [s_path, totalLength]
  | cons c cs ih => rw [s_path_cons, ih]; simp [totalLength, seg]

theorem s_path_nonneg (cs : List Control) : 0 ≤ s_path cs := by
  induction cs with
  | nil => simp [s_path]
  | cons c cs ih => rw [s_path_cons]; positivity

theorem interpolateLoop_at {disc s_inter : ℝ} (hd : 0 < disc) :
    ∀ (cs : List Control), cs ≠ [] → (∀ c ∈ cs, Resolved c) → ∀ (s : ℝ) (st : State) (p : Config),
      SameConfig (smp st).cfg p → s ≤ s_inter → s_inter ≤ s + s_path cs →
      At (cs.map seg) p (s_inter - s) (smp (interpolateLoop disc s_inter cs s st)) := by
  intro cs
  induction cs with
  | nil => intro h0; exact absurd rfl h0
  | cons c cs ih =>
    intro _ hR s st p hp hs1 hs2
    have hc := hR c (List.mem_cons_self)
    set st0 : State := { st with kappa := c.kappa, d := sgn c.delta_s } with hst0
    have hf := integrate_ODE_flow c
    have hp0 : SameConfig ⟨st0.x, st0.y, st0.theta⟩ p := hp
    -- the part of the segment that is driven ends where it should
    have part : ∀ a, 0 ≤ a → a ≤ |c.delta_s| →
        let e := (segLoop (fun s h => integrate_ODE s c h) disc a (nSteps disc a) 0 st0).2
        SameConfig (smp e).cfg (arrive (seg c).dir c.kappa c.sigma a p) ∧
          e.kappa = c.kappa + c.sigma * a ∧ e.d = (seg c).dir := by
      intro a ha0 ha1 e
      have hend := segLoop_end hf hd ha0 st0
      obtain ⟨m, hm1, hm2, hm3⟩ := integrate_ODE_drives hc st0 rfl a
      rw [drives_iff] at hm1
      refine ⟨?_, ?_, ?_⟩
      · have h1 : SameConfig (smp e).cfg (smp (integrate_ODE st0 c a)).cfg :=
          ⟨hend.1, hend.2.1, hend.2.2.1⟩
        refine (h1.trans hm2).trans ?_
        rw [hm1]; exact arrive_congr hp0
      · have : e.kappa = c.kappa := hend.2.2.2.trans hm3
        rw [this, hc.1]; ring
      · have h0 : StEq st0 (integrate_ODE st0 c ((0:ℕ) * disc)) := by
          simpa using (hf.zero st0).symm
        have := segLoop_spec hf (a := a) hd st0 (nSteps disc a) 0 st0 (by simp) h0
        simp only [Nat.cast_zero, zero_mul] at this
        rcases Nat.eq_zero_or_pos (nSteps disc a) with hn | hn
        · have h4 := this.2.2.2 hn
          simp only [e, h4]; rfl
        · exact (this.2.2.1 hn).2
    rw [s_path_cons] at hs2
    simp only [List.map_cons, interpolateLoop]
    rw [← hst0]
    by_cases hgt : s + |c.delta_s| > s_inter
    · rw [if_pos hgt]
      have ha : |c.delta_s| - (s + |c.delta_s| - s_inter) = s_inter - s := by ring
      rw [ha]
      obtain ⟨p1, p2, p3⟩ := part (s_inter - s) (by linarith) (by linarith)
      exact At.here (by linarith) (by simp only [seg]; linarith) (drives_arrive _ _ _ _ _) p1 p2 p3
    · rw [if_neg hgt]
      obtain ⟨p1, p2, p3⟩ := part |c.delta_s| (abs_nonneg _) le_rfl
      have hle : s + |c.delta_s| ≤ s_inter := not_lt.1 hgt
      by_cases hcs : cs = []
      · subst hcs
        have : s_inter - s = |c.delta_s| := by simp [s_path] at hs2; linarith
        rw [this]
        simp only [interpolateLoop, List.map_nil]
        exact At.here (abs_nonneg _) le_rfl (drives_arrive _ _ _ _ _) p1 p2 p3
      · have := ih hcs (fun c' hc' => hR c' (List.mem_cons_of_mem _ hc')) (s + |c.delta_s|) _ _ p1
          hle (by linarith)
        have e : s_inter - s = |(seg c).len| + (s_inter - (s + |c.delta_s|)) := by
          simp only [seg]; ring
        rw [e]
        exact At.later (drives_arrive _ _ _ _ _) this

theorem _root_.Spec.At.end {cs : List Segment} {p : Config} {a : Sample} {s : ℝ} (h : At cs p s a)
    (hs : s = totalLength cs) :
    ∃ q, DrivesAll cs p q ∧ SameConfig a.cfg q := by
  have rest : ∀ (cs : List Segment) (p : Config), totalLength cs = 0 → DrivesAll cs p p := by
    intro cs
    induction cs with
    | nil => intro p _; exact DrivesAll.nil p
    | cons c cs ih =>
      intro p h0
      have hnn : 0 ≤ totalLength cs := by
        unfold totalLength; apply List.sum_nonneg; intro x hx
        simp only [List.mem_map] at hx
        obtain ⟨c, _, rfl⟩ := hx; exact abs_nonneg _
      have : |c.len| + totalLength cs = 0 := by simpa [totalLength] using h0
      have h1 : |c.len| = 0 := le_antisymm (by linarith) (abs_nonneg _)
      refine DrivesAll.cons (q := p) ?_ (ih p (by linarith))
      rw [h1, drives_iff, arrive_zero]
  induction h with
  | @here c cs p m s a h0 h1 h2 h3 h4 h5 =>
    have hnn : 0 ≤ totalLength cs := by
      unfold totalLength; apply List.sum_nonneg; intro x hx
      simp only [List.mem_map] at hx
      obtain ⟨c, _, rfl⟩ := hx; exact abs_nonneg _
    have he : s = |c.len| + totalLength cs := by rw [hs]; simp [totalLength]
    have hz : totalLength cs = 0 := by linarith
    have : s = |c.len| := by linarith
    subst this
    exact ⟨m, DrivesAll.cons h2 (rest cs m hz), h3⟩
  | @later c cs p q s a h1 h2 ih =>
    have he : |c.len| + s = |c.len| + totalLength cs := by rw [hs]; simp [totalLength]
    obtain ⟨r, hr1, hr2⟩ := ih (by linarith)
    exact ⟨r, DrivesAll.cons h1 hr1, hr2⟩

end Props
