import Verif.Lemmas.Sampling

/-!
# Properties of `integrate` and `interpolate`: C11-C14
-/

noncomputable section

namespace Props

open SF Spec Real

/-- **C12.** The states returned by `integrate` of Dubins and Reeds-Shepp are
samples of the commanded path: in every segment the start, and then points of the
exact trajectory at arc lengths `disc, 2 disc, …, |delta_s|`. -/
theorem C12_integrate_samples {disc : ℝ} (hd : 0 < disc) (junk : ℝ × ℝ) (s : State)
    (cs : List Control) (hR : ∀ c ∈ cs, Resolved c) :
    ∃ q, Sampled disc (cs.map seg) (pose s) ((integrate disc junk s cs).map smp) q := by
  exact integrateLoop_sampled hd cs hR _ _ ⟨rfl, rfl, AngleEq.refl _⟩

/-- **C12, counts.** Number of samples of `integrate`. -/
theorem C12_integrate_count {disc : ℝ} (hd : 0 < disc) (junk : ℝ × ℝ) (s : State)
    (cs : List Control) :
    (integrate disc junk s cs).length
      = (cs.map fun c => 1 + ⌈|c.delta_s| / disc⌉₊).sum := by
  unfold integrate
  generalize ({ x := s.x, y := s.y, theta := s.theta, kappa := junk.1, d := junk.2 } : State) = st
  induction cs generalizing st with
  | nil => rfl
  | cons c cs ih =>
    simp only [integrateLoop, List.length_append, List.length_cons, List.length_map, ih,
      List.map_cons, List.sum_cons, segLoop_len (integrate_ODE_flow c) hd]
    unfold nSteps; ring

/-- **C11.** The last state of `integrate` (Dubins, Reeds-Shepp) is the end of the
commanded path, for every discretization. -/
theorem C11_integrate_end {disc : ℝ} (hd : 0 < disc) (junk : ℝ × ℝ) (s : State)
    (cs : List Control) (hR : ∀ c ∈ cs, Resolved c) (hne : cs ≠ []) :
    ∃ e q, (integrate disc junk s cs).getLast? = some e ∧
      DrivesAll (cs.map seg) (pose s) q ∧ SameConfig (pose e) q := by
  obtain ⟨q, hq⟩ := C12_integrate_samples hd junk s cs hR
  have hl := C12_integrate_count hd junk s cs
  have hne' : integrate disc junk s cs ≠ [] := by
    intro h0
    rw [h0] at hl
    cases cs with
    | nil => exact hne rfl
    | cons c cs => simp at hl; omega
  refine ⟨_, q, List.getLast?_eq_some_getLast hne', hq.drives, ?_⟩
  refine hq.last hd (smp _) ?_
  rw [List.getLast?_map, List.getLast?_eq_some_getLast hne']; rfl

/-- A three-segment path to which C11-C13 apply. -/
example : ∀ c ∈ ([⟨1, 1, 0⟩, ⟨-2, 0, 0⟩, ⟨0.3, -1, 0⟩] : List Control), Resolved c := by
  intro c hc
  simp only [List.mem_cons, List.not_mem_nil, or_false] at hc
  rcases hc with rfl | rfl | rfl <;> simp [Resolved] <;> norm_num

/-- Without the resolution hypothesis C11 is false: an arc of curvature 1e-4 is
integrated as a straight line. -/
theorem C11_unresolved_counterexample :
    ∃ (s : State) (c : Control), c.sigma = 0 ∧ ∀ (disc : ℝ), 0 < disc → ∀ (junk : ℝ × ℝ) e q,
      (integrate disc junk s [c]).getLast? = some e →
      DrivesAll [seg c] (pose s) q → ¬ SameConfig (pose e) q := by
  refine ⟨⟨0, 0, 0, 0, 0⟩, ⟨10000 * (π / 2), 1 / 10000, 0⟩, rfl, ?_⟩
  intro disc hd junk e q he hq hs
  rw [drivesAll_iff] at hq
  have hk : (1 / 10000 : ℝ) ≠ 0 := by norm_num
  have hpos : (0:ℝ) < 10000 * (π / 2) := by positivity
  -- every state produced by the loop has theta = 0
  have key : ∀ (n : ℕ) (ss : ℝ) (st : State), st.kappa = 1 / 10000 →
      ∀ x ∈ (segLoop (fun s h => integrate_ODE s ⟨10000 * (π / 2), 1 / 10000, 0⟩ h) disc
        |10000 * (π / 2)| n ss st).1, x.2.theta = st.theta := by
    intro n
    induction n with
    | zero => intro ss st _ x hx; simp [segLoop] at hx
    | succ n ih =>
      intro ss st hkap x hx
      have hode : ∀ h, (integrate_ODE st ⟨10000 * (π / 2), 1 / 10000, 0⟩ h).theta = st.theta ∧
          (integrate_ODE st ⟨10000 * (π / 2), 1 / 10000, 0⟩ h).kappa = 1 / 10000 := by
        intro h
        have : ¬ |st.kappa| > SF.epsilon := by
          rw [hkap, abs_of_pos (by norm_num)]; unfold SF.epsilon; exact lt_irrefl _
        simp only [integrate_ODE, if_neg this]; exact ⟨trivial, hkap⟩
      simp only [segLoop, List.mem_cons] at hx
      rcases hx with rfl | hx
      · exact (hode _).1
      · rw [ih _ _ (hode _).2 x hx]; exact (hode _).1
  have hth : e.theta = 0 := by
    have hmem := List.mem_of_getLast? he
    simp only [integrate, integrateLoop, List.append_nil, List.mem_cons, List.mem_map] at hmem
    rcases hmem with rfl | ⟨x, hx, rfl⟩
    · rfl
    · have := key _ _ ⟨0, 0, 0, 1 / 10000, _⟩ rfl x hx
      simpa using this
  have h2 := hs.2.2
  rw [hq] at h2
  simp only [arriveAll, seg, Segment.dir, not_lt.2 hpos.le, if_false, arrive, heading, pose,
    hth] at h2
  have h3 := h2.sin_eq
  rw [abs_of_pos hpos] at h3
  have e1 : (0:ℝ) + 1 * (1 / 10000 * (10000 * (π / 2)) + 0 * (10000 * (π / 2)) ^ 2 / 2) = π / 2 := by
    ring
  rw [e1, sin_pi_div_two, sin_zero] at h3
  norm_num at h3

/-- Without the resolution hypothesis C12 is false as well: the samples of an arc of curvature 1e-4 do not lie on it. -/
theorem C12_unresolved_counterexample :
    ∃ (s : State) (c : Control), c.sigma = 0 ∧ ∀ (disc : ℝ), 0 < disc → ∀ (junk : ℝ × ℝ) q,
      ¬ Sampled disc [seg c] (pose s) ((integrate disc junk s [c]).map smp) q := by
  obtain ⟨s, c, hc, h⟩ := C11_unresolved_counterexample
  refine ⟨s, c, hc, fun disc hd junk q hq => ?_⟩
  have hl := C12_integrate_count hd junk s [c]
  have hne : integrate disc junk s [c] ≠ [] := by
    intro h0
    rw [h0] at hl
    simp at hl
    omega
  refine h disc hd junk _ q (List.getLast?_eq_some_getLast hne) hq.drives (hq.last hd (smp _) ?_)
  rw [List.getLast?_map, List.getLast?_eq_some_getLast hne]; rfl

/-- **C11 for HC/CC spaces.** The last state of `integrate` does not depend on the
discretization, and it does not exist exactly when there are no controls. -/
theorem C11_hc_integrate_end {disc disc' : ℝ} (hd : 0 < disc) (hd' : 0 < disc') (s : State)
    (cs : List Control) (l l' : List State) (h : hcIntegrate disc s cs = some l)
    (h' : hcIntegrate disc' s cs = some l') :
    ∃ e e', l.getLast? = some e ∧ l'.getLast? = some e' ∧
      SameConfig (pose e) (pose e') ∧ e.kappa = e'.kappa := by
  have gen : ∀ (cs : List Control) (st st' : State), StEq st st' →
      ∃ e e', (st :: hcIntegrateLoop disc cs st).getLast? = some e ∧
        (st' :: hcIntegrateLoop disc' cs st').getLast? = some e' ∧ StEq e e' := by
    intro cs
    induction cs with
    | nil => intro st st' hst; exact ⟨st, st', rfl, rfl, hst⟩
    | cons c cs ih =>
      intro st st' hst
      have hf := hc_integrate_ODE_flow c
      set q : State := if |c.kappa - st.kappa| > SF.epsilon then
        { st with kappa := c.kappa, d := sgn c.delta_s } else st with hq
      set q' : State := if |c.kappa - st'.kappa| > SF.epsilon then
        { st' with kappa := c.kappa, d := sgn c.delta_s } else st' with hq'
      have hqq : StEq q q' := by
        rw [hq, hq', hst.2.2.2]
        split_ifs
        · exact ⟨hst.1, hst.2.1, hst.2.2.1, rfl⟩
        · exact hst
      set r := segLoop (fun s h => hc_integrate_ODE s c h) disc |c.delta_s|
        (nSteps disc |c.delta_s|) 0 q with hr
      set r' := segLoop (fun s h => hc_integrate_ODE s c h) disc' |c.delta_s|
        (nSteps disc' |c.delta_s|) 0 q' with hr'
      have hrr : StEq r.2 r'.2 :=
        ((segLoop_end hf hd (abs_nonneg _) q).trans (hf.congr _ _ _ hqq)).trans
          (segLoop_end hf hd' (abs_nonneg _) q').symm
      obtain ⟨e, e', he, he', hee⟩ := ih r.2 r'.2 hrr
      have lastEq : ∀ (D : ℝ) (hD : 0 < D) (t : State), let q : State := if |c.kappa - t.kappa| > SF.epsilon then
          { t with kappa := c.kappa, d := sgn c.delta_s } else t
          let r := segLoop (fun s h => hc_integrate_ODE s c h) D |c.delta_s|
            (nSteps D |c.delta_s|) 0 q
          ∃ pre, t :: hcIntegrateLoop D (c :: cs) t = pre ++ (r.2 :: hcIntegrateLoop D cs r.2) := by
        intro D hD t q r
        have hrend : ∃ pre, q :: r.1.map Prod.snd = pre ++ [r.2] := by
          have : ∀ (n : ℕ) (ss : ℝ) (q : State), ∃ pre, q ::
              (segLoop (fun s h => hc_integrate_ODE s c h) D |c.delta_s| n ss q).1.map Prod.snd
              = pre ++ [(segLoop (fun s h => hc_integrate_ODE s c h) D |c.delta_s| n ss q).2] := by
            intro n
            induction n with
            | zero => intro ss q; exact ⟨[], rfl⟩
            | succ n ihn =>
              intro ss q
              simp only [segLoop, List.map_cons]
              obtain ⟨pre, hpre⟩ := ihn (nextStep D |c.delta_s| ss).2
                (hc_integrate_ODE q c (nextStep D |c.delta_s| ss).1)
              exact ⟨q :: pre, by rw [hpre]; rfl⟩
          exact this _ _ _
        obtain ⟨pre, hpre⟩ := hrend
        by_cases hdisc : |c.kappa - t.kappa| > SF.epsilon
        · refine ⟨t :: pre, ?_⟩
          have : t :: hcIntegrateLoop D (c :: cs) t
              = t :: ((q :: r.1.map Prod.snd) ++ hcIntegrateLoop D cs r.2) := by
            simp only [hcIntegrateLoop, r, q, if_pos hdisc, List.cons_append, List.nil_append]
          rw [this, hpre]; simp
        · have hqt : q = t := by simp only [q, if_neg hdisc]
          refine ⟨pre, ?_⟩
          have : t :: hcIntegrateLoop D (c :: cs) t
              = (q :: r.1.map Prod.snd) ++ hcIntegrateLoop D cs r.2 := by
            simp only [hcIntegrateLoop, r, hqt, if_neg hdisc, List.cons_append, List.nil_append]
          rw [this, hpre]; simp
      obtain ⟨pre, hpre⟩ := lastEq disc hd st
      obtain ⟨pre', hpre'⟩ := lastEq disc' hd' st'
      refine ⟨e, e', ?_, ?_, hee⟩
      · rw [hpre, List.getLast?_append_of_ne_nil _ (by simp)]; exact he
      · rw [hpre', List.getLast?_append_of_ne_nil _ (by simp)]; exact he'
  unfold hcIntegrate at h h'
  rw [Option.map_eq_some_iff] at h h'
  obtain ⟨st, hst, rfl⟩ := h
  obtain ⟨st', hst', rfl⟩ := h'
  obtain rfl : st = st' := Option.some.inj (hst.symm.trans hst')
  obtain ⟨e, e', he, he', hee⟩ := gen cs st st (StEq.refl st)
  exact ⟨e, e', he, he', ⟨hee.1, hee.2.1, hee.2.2.1⟩, hee.2.2.2⟩

/-- **C13.** `interpolate` (Dubins, Reeds-Shepp) returns, for `0 < t`, the point of the
commanded path at arc length `min t 1 * L`, with its curvature and direction. -/
theorem C13_interpolate {disc : ℝ} (hd : 0 < disc) (junk : ℝ × ℝ) (s : State)
    (cs : List Control) (hne : cs ≠ []) (hR : ∀ c ∈ cs, Resolved c) (t : ℝ) (ht : 0 < t) :
    At (cs.map seg) (pose s) (min t 1 * totalLength (cs.map seg))
      (smp (interpolate disc junk s cs t)) := by
  have hL := s_path_nonneg cs
  rw [← s_path_eq]
  unfold interpolate
  simp only [not_le.2 ht, if_false]
  have key : ∀ si, 0 ≤ si → si ≤ s_path cs → At (cs.map seg) (pose s) si
      (smp (interpolateLoop disc si cs 0 ⟨s.x, s.y, s.theta, junk.1, junk.2⟩)) := by
    intro si h1 h2
    have := interpolateLoop_at hd (s_inter := si) cs hne hR 0
      ⟨s.x, s.y, s.theta, junk.1, junk.2⟩ (pose s) ⟨rfl, rfl, AngleEq.refl _⟩ h1 (by linarith)
    simpa using this
  by_cases h1 : t > 1
  · rw [if_pos h1, min_eq_right h1.le, one_mul]
    exact key _ hL le_rfl
  · rw [if_neg h1, min_eq_left (not_lt.1 h1)]
    exact key _ (by positivity) (by nlinarith [not_lt.1 h1])

/-- **C13, lower end.** For `t ≤ 0` the pose is the start pose. -/
theorem C13_interpolate_start (disc : ℝ) (junk : ℝ × ℝ) (s : State) (cs : List Control) (t : ℝ)
    (ht : t ≤ 0) : pose (interpolate disc junk s cs t) = pose s := by
  simp [interpolate, ht, pose]

/-- **C13, upper end.** For `t ≥ 1` `interpolate` returns the last pose of `integrate`,
whatever the two discretizations. -/
theorem C13_interpolate_end {disc disc' : ℝ} (hd : 0 < disc) (hd' : 0 < disc') (junk junk' : ℝ × ℝ)
    (s : State) (cs : List Control) (hne : cs ≠ []) (hR : ∀ c ∈ cs, Resolved c) (t : ℝ)
    (ht : 1 ≤ t) :
    ∃ e, (integrate disc' junk' s cs).getLast? = some e ∧
      SameConfig (pose (interpolate disc junk s cs t)) (pose e) := by
  obtain ⟨e, q, he, hq, heq⟩ := C11_integrate_end hd' junk' s cs hR hne
  refine ⟨e, he, ?_⟩
  have h := C13_interpolate hd junk s cs hne hR t (by linarith)
  rw [min_eq_right ht, one_mul] at h
  obtain ⟨q', hq', hs'⟩ := h.end rfl
  rw [drivesAll_iff] at hq hq'
  subst hq hq'
  exact hs'.trans heq.symm

/-- Without the resolution hypothesis C13 is false: at the end of an arc of curvature 1e-4 `interpolate` has the heading of its
start. -/
theorem C13_unresolved_counterexample :
    ∃ (s : State) (c : Control), c.sigma = 0 ∧ ∀ (disc : ℝ), 0 < disc → ∀ (junk : ℝ × ℝ),
      ¬ At [seg c] (pose s) (1 * totalLength [seg c]) (smp (interpolate disc junk s [c] 1)) := by
  refine ⟨⟨0, 0, 0, 0, 0⟩, ⟨10000 * (π / 2), 1 / 10000, 0⟩, rfl, ?_⟩
  intro disc hd junk ha
  have hpos : (0:ℝ) < 10000 * (π / 2) := by positivity
  have key : ∀ (n : ℕ) (ss : ℝ) (st : State), st.kappa = 1 / 10000 →
      (segLoop (fun s h => integrate_ODE s ⟨10000 * (π / 2), 1 / 10000, 0⟩ h) disc
        |10000 * (π / 2)| n ss st).2.theta = st.theta := by
    intro n
    induction n with
    | zero => intro ss st _; rfl
    | succ n ih =>
      intro ss st hkap
      have hode : ∀ h, (integrate_ODE st ⟨10000 * (π / 2), 1 / 10000, 0⟩ h).theta = st.theta ∧
          (integrate_ODE st ⟨10000 * (π / 2), 1 / 10000, 0⟩ h).kappa = 1 / 10000 := by
        intro h
        have : ¬ |st.kappa| > SF.epsilon := by
          rw [hkap, abs_of_pos (by norm_num)]; unfold SF.epsilon; exact lt_irrefl _
        simp only [integrate_ODE, if_neg this]; exact ⟨trivial, hkap⟩
      simp only [segLoop]
      rw [ih _ _ (hode _).2]; exact (hode _).1
  obtain ⟨q, hq, hs⟩ := ha.end (by rw [one_mul])
  rw [drivesAll_iff] at hq
  have hth : (interpolate disc junk ⟨0, 0, 0, 0, 0⟩ [⟨10000 * (π / 2), 1 / 10000, 0⟩] 1).theta = 0 := by
    have e1 : s_path [(⟨10000 * (π / 2), 1 / 10000, 0⟩ : Control)] = |10000 * (π / 2)| := by simp [s_path]
    simp only [interpolate, not_le.2 one_pos, if_false, lt_irrefl, one_mul, interpolateLoop, e1, zero_add]
    exact key _ _ ⟨0, 0, 0, 1 / 10000, _⟩ rfl
  have h2 := hs.2.2
  rw [hq] at h2
  simp only [arriveAll, seg, Segment.dir, not_lt.2 hpos.le, if_false, arrive, heading, pose, smp, hth] at h2
  have h3 := h2.sin_eq
  rw [abs_of_pos hpos] at h3
  have e1 : (0:ℝ) + 1 * (1 / 10000 * (10000 * (π / 2)) + 0 * (10000 * (π / 2)) ^ 2 / 2) = π / 2 := by
    ring
  rw [e1, sin_pi_div_two, sin_zero] at h3
  norm_num at h3

/-- **C13 for HC/CC spaces**: `interpolate` at `t ≥ 1` returns the last pose and curvature
of `integrate`, whatever the two discretizations; at `t ≤ 0` it returns the first state
of `integrate`. -/
theorem C13_hc_interpolate_ends {disc disc' : ℝ} (hd : 0 < disc) (hd' : 0 < disc')
    (s : State) (cs : List Control) (l : List State) (h : hcIntegrate disc' s cs = some l) :
    (∀ t, t ≤ 0 → hcInterpolate disc s cs t = l.head?) ∧
    (∀ t, 1 ≤ t → ∃ i e, hcInterpolate disc s cs t = some i ∧ l.getLast? = some e ∧
      SameConfig (pose i) (pose e) ∧ i.kappa = e.kappa) := by
  have gen : ∀ (cs : List Control) (st : State) (s0 si : ℝ), si = s0 + s_path cs →
      ∀ l', (st :: hcIntegrateLoop disc cs st) = l' →
      ∃ e, l'.getLast? = some e ∧ StEq (hcInterpolateLoop disc si cs s0 st) e := by
    intro cs
    induction cs with
    | nil => intro st s0 si _ l' hl'; subst hl'; exact ⟨st, rfl, StEq.refl _⟩
    | cons c cs ih =>
      intro st s0 si hsi l' hl'
      rw [s_path_cons] at hsi
      have hnn := s_path_nonneg cs
      have hng : ¬ s0 + |c.delta_s| > si := by rw [hsi, not_lt]; linarith
      set q : State := if |c.kappa - st.kappa| > SF.epsilon then
        { st with kappa := c.kappa, d := sgn c.delta_s } else st with hq
      set r := segLoop (fun s h => hc_integrate_ODE s c h) disc |c.delta_s|
        (nSteps disc |c.delta_s|) 0 q with hr
      obtain ⟨e, he1, he2⟩ := ih r.2 (s0 + |c.delta_s|) si (by linarith) _ rfl
      have hL : hcInterpolateLoop disc si (c :: cs) s0 st
          = hcInterpolateLoop disc si cs (s0 + |c.delta_s|) r.2 := by
        simp only [hcInterpolateLoop, if_neg hng, hr, hq]
      rw [hL]
      refine ⟨e, ?_, he2⟩
      have hrend : ∃ pre, q :: r.1.map Prod.snd = pre ++ [r.2] := by
        have : ∀ (n : ℕ) (ss : ℝ) (q : State), ∃ pre, q ::
            (segLoop (fun s h => hc_integrate_ODE s c h) disc |c.delta_s| n ss q).1.map Prod.snd
            = pre ++ [(segLoop (fun s h => hc_integrate_ODE s c h) disc |c.delta_s| n ss q).2] := by
          intro n
          induction n with
          | zero => intro ss q; exact ⟨[], rfl⟩
          | succ n ihn =>
            intro ss q
            simp only [segLoop, List.map_cons]
            obtain ⟨pre, hpre⟩ := ihn (nextStep disc |c.delta_s| ss).2
              (hc_integrate_ODE q c (nextStep disc |c.delta_s| ss).1)
            exact ⟨q :: pre, by rw [hpre]; rfl⟩
        exact this _ _ _
      obtain ⟨pre, hpre⟩ := hrend
      subst hl'
      by_cases hdisc : |c.kappa - st.kappa| > SF.epsilon
      · have : st :: hcIntegrateLoop disc (c :: cs) st
            = st :: ((q :: r.1.map Prod.snd) ++ hcIntegrateLoop disc cs r.2) := by
          simp only [hcIntegrateLoop, hr, hq, if_pos hdisc, List.cons_append, List.nil_append]
        rw [this, hpre, List.append_assoc, ← List.cons_append, List.singleton_append,
          List.getLast?_append_of_ne_nil _ (by simp)]
        exact he1
      · have hqt : q = st := by rw [hq, if_neg hdisc]
        have : st :: hcIntegrateLoop disc (c :: cs) st
            = (q :: r.1.map Prod.snd) ++ hcIntegrateLoop disc cs r.2 := by
          simp only [hcIntegrateLoop, hr, hqt, if_neg hdisc, List.cons_append, List.nil_append]
        rw [this, hpre, List.append_assoc, List.singleton_append,
          List.getLast?_append_of_ne_nil _ (by simp)]
        exact he1
  unfold hcIntegrate at h
  rw [Option.map_eq_some_iff] at h
  obtain ⟨st, hst, rfl⟩ := h
  constructor
  · intro t ht
    simp [hcInterpolate, hst, ht]
  · intro t ht
    have hsi : (if t > 1 then s_path cs else t * s_path cs) = 0 + s_path cs := by
      split_ifs with h1
      · ring
      · have : t = 1 := le_antisymm (not_lt.1 h1) ht
        rw [this]; ring
    obtain ⟨e, he1, he2⟩ := gen cs st 0 _ hsi _ rfl
    have hi : hcIntegrate disc s cs = some (st :: hcIntegrateLoop disc cs st) := by
      simp [hcIntegrate, hst]
    have hi' : hcIntegrate disc' s cs = some (st :: hcIntegrateLoop disc' cs st) := by
      simp [hcIntegrate, hst]
    obtain ⟨f, f', hf, hf', hff, hfk⟩ := C11_hc_integrate_end hd hd' s cs _ _ hi hi'
    obtain rfl : e = f := Option.some.inj (he1.symm.trans hf)
    refine ⟨hcInterpolateLoop disc (if t > 1 then s_path cs else t * s_path cs) cs 0 st, f', ?_,
      hf', ?_, ?_⟩
    · simp only [hcInterpolate, hst, Option.map_some, not_le.2 (lt_of_lt_of_le one_pos ht), if_false]
    · exact SameConfig.trans (q := pose e) ⟨he2.1, he2.2.1, he2.2.2.1⟩ hff
    · exact he2.2.2.2.trans hfk

/-- **C14 is false for Dubins and Reeds-Shepp**: for `t ≤ 0` curvature and direction of the
result of `interpolate` are the indeterminate initial values of local variables. -/
theorem C14_interpolate_uninitialised (disc : ℝ) (s : State) (cs : List Control) (t : ℝ)
    (ht : t ≤ 0) (kappa d : ℝ) :
    ∃ junk, (interpolate disc junk s cs t).kappa = kappa ∧
      (interpolate disc junk s cs t).d = d := by
  exact ⟨(kappa, d), by simp [interpolate, ht], by simp [interpolate, ht]⟩

/-- **C14, what holds**: for `t > 0` and a non-empty control list the result of `interpolate`
is determined by its arguments. -/
theorem C14_interpolate_partial (disc : ℝ) (junk junk' : ℝ × ℝ) (s : State) (cs : List Control)
    (hne : cs ≠ []) (t : ℝ) (ht : 0 < t) :
    interpolate disc junk s cs t = interpolate disc junk' s cs t := by
  cases cs with
  | nil => exact absurd rfl hne
  | cons c cs => simp only [interpolate, not_le.2 ht, if_false, interpolateLoop]

/-- **C14, integrate**: all fields of all states of `integrate` are determined by the arguments. -/
theorem C14_integrate_determined (disc : ℝ) (junk junk' : ℝ × ℝ) (s : State)
    (cs : List Control) : integrate disc junk s cs = integrate disc junk' s cs := by
  cases cs with
  | nil => rfl
  | cons c cs => simp only [integrate, integrateLoop]

/-- **C14 for HC/CC spaces**: `integrate` and `interpolate` have undefined behaviour exactly
for an empty control list (`controls.front()`). -/
theorem C14_hc_defined_iff (disc : ℝ) (s : State) (cs : List Control) (t : ℝ) :
    ((hcInterpolate disc s cs t).isSome ↔ cs ≠ []) ∧ ((hcIntegrate disc s cs).isSome ↔ cs ≠ []) := by
  cases cs with
  | nil => simp [hcInterpolate, hcIntegrate, hcFirst]
  | cons c cs => simp [hcInterpolate, hcIntegrate, hcFirst]

/-- A concrete HC control list with a curvature jump for the HC statements. -/
example : (hcIntegrate 0.1 ⟨0, 0, 0, 0, 0⟩ [⟨1, 0, 1⟩, ⟨-2, 1, 0⟩, ⟨0.5, -1, 1⟩]).isSome :=
  (C14_hc_defined_iff 0.1 _ _ 0).2.2 (by simp)

end Props
