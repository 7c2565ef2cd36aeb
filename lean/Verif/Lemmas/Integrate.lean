import Verif.Model.Integrate
import Verif.Lemmas.Ends
import Verif.Lemmas.Drive

/-!
# Loop invariants of `integrate` and `interpolate`
-/

noncomputable section

namespace SF

open Real Spec

/-- Same position, curvature, and heading up to full turns. -/
def StEq (s t : State) : Prop :=
  s.x = t.x ∧ s.y = t.y ∧ AngleEq s.theta t.theta ∧ s.kappa = t.kappa

theorem StEq.refl (s : State) : StEq s s := ⟨rfl, rfl, AngleEq.refl _, rfl⟩

theorem StEq.symm {s t : State} (h : StEq s t) : StEq t s :=
  ⟨h.1.symm, h.2.1.symm, h.2.2.1.symm, h.2.2.2.symm⟩

theorem StEq.trans {s t u : State} (h : StEq s t) (h' : StEq t u) : StEq s u :=
  ⟨h.1.trans h'.1, h.2.1.trans h'.2.1, h.2.2.1.trans h'.2.2.1, h.2.2.2.trans h'.2.2.2⟩

/-- A single-step integrator that is a flow (up to full turns of the heading). -/
structure IsFlow (ode : State → ℝ → State) (dir : ℝ) : Prop where
  zero : ∀ s, StEq (ode s 0) s
  add : ∀ s a b, StEq (ode (ode s a) b) (ode s (a + b))
  congr : ∀ s t a, StEq s t → StEq (ode s a) (ode t a)
  dirEq : ∀ s a, (ode s a).d = dir

theorem nextStep_lt {h a s : ℝ} (hs : s + h ≤ a) : nextStep h a s = (h, s + h) := by
  simp [nextStep, not_lt.2 hs]

theorem nextStep_ge {h a s : ℝ} (hs : a ≤ s + h) : nextStep h a s = (a - s, a) := by
  unfold nextStep
  simp only
  split_ifs with h1
  · ext <;> simp; ring
  · have : s + h = a := le_antisymm (not_lt.1 h1) hs
    ext <;> simp <;> linarith

/-- Invariant of the inner loop. -/
theorem segLoop_spec {ode : State → ℝ → State} {dir : ℝ} (hf : IsFlow ode dir) {h a : ℝ}
    (hh : 0 < h) (st0 : State) :
    ∀ (n j : ℕ) (st : State), j + n = nSteps h a → StEq st (ode st0 (j * h)) →
      let r := segLoop ode h a n (j * h) st
      r.1.length = n ∧
      (∀ k p, r.1[k]? = some p →
        p.1 = min ((j + k + 1 : ℕ) * h) a - (j + k : ℕ) * h ∧ 0 < p.1 ∧
        StEq p.2 (ode st0 (min ((j + k + 1 : ℕ) * h) a)) ∧ p.2.d = dir) ∧
      (0 < n → StEq r.2 (ode st0 a) ∧ r.2.d = dir) ∧ (n = 0 → r.2 = st) := by
  intro n
  induction n with
  | zero =>
    intro j st _ _
    exact ⟨rfl, fun k p hk => by simp [segLoop] at hk, fun h0 => absurd h0 (lt_irrefl 0), fun _ => rfl⟩
  | succ n ih =>
    intro j st hj hst
    simp only [segLoop]
    -- j h < a
    have hja : (j : ℝ) * h < a := by
      have : j < ⌈a / h⌉₊ := by unfold nSteps at hj; omega
      rw [Nat.lt_ceil, lt_div_iff₀ hh] at this
      exact this
    rcases Nat.eq_zero_or_pos n with hn | hn
    · -- last iteration
      subst hn
      have hge : a ≤ (j : ℝ) * h + h := by
        have h1 : a / h ≤ ⌈a / h⌉₊ := Nat.le_ceil _
        have h2 : (⌈a / h⌉₊ : ℝ) = j + 1 := by
          have : ⌈a / h⌉₊ = j + 1 := by unfold nSteps at hj; omega
          rw [this]; push_cast; ring
        rw [h2, div_le_iff₀ hh] at h1
        linarith
      rw [nextStep_ge hge]
      have hmin : min (((j + 0 + 1 : ℕ) : ℝ) * h) a = a := by
        apply min_eq_right; push_cast; linarith
      have hend : StEq (ode st (a - j * h)) (ode st0 a) := by
        refine (hf.congr _ _ _ hst).trans ((hf.add _ _ _).trans ?_)
        have : (j : ℝ) * h + (a - j * h) = a := by ring
        rw [this]; exact StEq.refl _
      refine ⟨by simp [segLoop], ?_, fun _ => ⟨by simpa [segLoop] using hend, by simp [segLoop, hf.dirEq]⟩,
        fun h0 => absurd h0 (by omega)⟩
      intro k p hk
      cases k with
      | zero =>
        simp only [segLoop, List.getElem?_cons_zero, Option.some.injEq] at hk
        subst hk
        rw [hmin]
        refine ⟨by push_cast; ring, by simpa using hja, hend, hf.dirEq _ _⟩
      | succ k => simp [segLoop] at hk
    · -- a further iteration follows
      have hlt : (j : ℝ) * h + h < a := by
        have : j + 1 < ⌈a / h⌉₊ := by unfold nSteps at hj; omega
        rw [Nat.lt_ceil, lt_div_iff₀ hh] at this
        push_cast at this; linarith
      rw [nextStep_lt hlt.le]
      have hcast : (j : ℝ) * h + h = ((j + 1 : ℕ) : ℝ) * h := by push_cast; ring
      have hst' : StEq (ode st h) (ode st0 ((j + 1 : ℕ) * h)) := by
        refine (hf.congr _ _ _ hst).trans ((hf.add _ _ _).trans ?_)
        rw [hcast]; exact StEq.refl _
      have := ih (j + 1) (ode st h) (by omega) hst'
      rw [← hcast] at this
      obtain ⟨i1, i2, i3, i4⟩ := this
      refine ⟨by simp [i1], ?_, fun _ => i3 hn, fun h0 => absurd h0 (by omega)⟩
      intro k p hk
      cases k with
      | zero =>
        simp only [List.getElem?_cons_zero, Option.some.injEq] at hk
        subst hk
        have hmin : min (((j + 0 + 1 : ℕ) : ℝ) * h) a = ((j + 1 : ℕ) : ℝ) * h := by
          apply min_eq_left; push_cast; linarith
        rw [hmin]
        refine ⟨by push_cast; ring, hh, hst', hf.dirEq _ _⟩
      | succ k =>
        simp only [List.getElem?_cons_succ] at hk
        have h2 := i2 k p hk
        have e1 : j + 1 + k + 1 = j + (k + 1) + 1 := by ring
        have e2 : j + 1 + k = j + (k + 1) := by ring
        rw [e1, e2] at h2
        exact h2

/-- End of the inner loop started at 0. -/
theorem segLoop_end {ode : State → ℝ → State} {dir : ℝ} (hf : IsFlow ode dir) {h a : ℝ}
    (hh : 0 < h) (ha : 0 ≤ a) (st0 : State) :
    StEq (segLoop ode h a (nSteps h a) 0 st0).2 (ode st0 a) := by
  have h0 : StEq st0 (ode st0 ((0:ℕ) * h)) := by simpa using (hf.zero st0).symm
  have := segLoop_spec hf (a := a) hh st0 (nSteps h a) 0 st0 (by simp) h0
  simp only [Nat.cast_zero, zero_mul] at this
  obtain ⟨_, _, h3, h4⟩ := this
  rcases Nat.eq_zero_or_pos (nSteps h a) with hn | hn
  · rw [h4 hn]
    have : a = 0 := by
      unfold nSteps at hn
      rw [Nat.ceil_eq_zero, div_le_iff₀ hh] at hn
      linarith
    rw [this]; exact (hf.zero _).symm
  · exact (h3 hn).1

theorem segLoop_len {ode : State → ℝ → State} {dir : ℝ} (hf : IsFlow ode dir) {h a : ℝ}
    (hh : 0 < h) (st0 : State) :
    (segLoop ode h a (nSteps h a) 0 st0).1.length = nSteps h a := by
  have h0 : StEq st0 (ode st0 ((0:ℕ) * h)) := by simpa using (hf.zero st0).symm
  have := segLoop_spec hf (a := a) hh st0 (nSteps h a) 0 st0 (by simp) h0
  simp only [Nat.cast_zero, zero_mul] at this
  exact this.1

theorem segLoop_get {ode : State → ℝ → State} {dir : ℝ} (hf : IsFlow ode dir) {h a : ℝ}
    (hh : 0 < h) (st0 : State) (k : ℕ) (p : ℝ × State)
    (hk : (segLoop ode h a (nSteps h a) 0 st0).1[k]? = some p) :
    p.1 = min ((k + 1 : ℕ) * h) a - k * h ∧ 0 < p.1 ∧
      StEq p.2 (ode st0 (min ((k + 1 : ℕ) * h) a)) ∧ p.2.d = dir := by
  have h0 : StEq st0 (ode st0 ((0:ℕ) * h)) := by simpa using (hf.zero st0).symm
  have := segLoop_spec hf (a := a) hh st0 (nSteps h a) 0 st0 (by simp) h0
  simp only [Nat.cast_zero, zero_mul] at this
  have := this.2.1 k p hk
  simpa using this

/-- Steps of the inner loop add up to the segment length. -/
theorem segLoop_sum {ode : State → ℝ → State} {h a : ℝ} (hh : 0 < h) :
    ∀ (n j : ℕ) (st : State), j + n = nSteps h a → (0 < n ∨ (j : ℝ) * h = a) →
      ((segLoop ode h a n (j * h) st).1.map Prod.fst).sum = a - j * h := by
  intro n
  induction n with
  | zero =>
    intro j st _ hor
    rcases hor with h0 | h0
    · exact absurd h0 (lt_irrefl 0)
    · simp [segLoop, h0]
  | succ n ih =>
    intro j st hj _
    simp only [segLoop]
    rcases Nat.eq_zero_or_pos n with hn | hn
    · subst hn
      have hge : a ≤ (j : ℝ) * h + h := by
        have h1 : a / h ≤ ⌈a / h⌉₊ := Nat.le_ceil _
        have h2 : (⌈a / h⌉₊ : ℝ) = j + 1 := by
          have : ⌈a / h⌉₊ = j + 1 := by unfold nSteps at hj; omega
          rw [this]; push_cast; ring
        rw [h2, div_le_iff₀ hh] at h1
        linarith
      rw [nextStep_ge hge]
      simp [segLoop]
    · have hlt : (j : ℝ) * h + h < a := by
        have : j + 1 < ⌈a / h⌉₊ := by unfold nSteps at hj; omega
        rw [Nat.lt_ceil, lt_div_iff₀ hh] at this
        push_cast at this; linarith
      rw [nextStep_lt hlt.le]
      have hcast : (j : ℝ) * h + h = ((j + 1 : ℕ) : ℝ) * h := by push_cast; ring
      simp only [List.map_cons, List.sum_cons]
      rw [hcast, ih (j + 1) _ (by omega) (Or.inl hn)]
      push_cast; ring

/-! ### The two single-step integrators are flows -/

theorem arc_zero (x y theta kappa d : ℝ) :
    let e := end_of_circular_arc x y theta kappa d 0
    e.x = x ∧ e.y = y ∧ AngleEq e.theta theta := by
  refine ⟨by simp [end_of_circular_arc], by simp [end_of_circular_arc], ?_⟩
  have := pify_angleEq (theta + kappa * d * 0)
  simpa [end_of_circular_arc] using this

theorem arc_congr {x y theta theta' kappa d a : ℝ} (h : AngleEq theta theta') :
    let e := end_of_circular_arc x y theta kappa d a
    let e' := end_of_circular_arc x y theta' kappa d a
    e.x = e'.x ∧ e.y = e'.y ∧ AngleEq e.theta e'.theta := by
  have h2 := h.add_right (d * a * kappa)
  have h3 := h.add_right (kappa * d * a)
  refine ⟨?_, ?_, ?_⟩
  · simp only [end_of_circular_arc, h.sin_eq, h2.sin_eq]
  · simp only [end_of_circular_arc, h.cos_eq, h2.cos_eq]
  · exact (pify_angleEq _).trans (h3.trans (pify_angleEq _).symm)

theorem clothoid_zero (x y theta kappa sigma d : ℝ) :
    let e := end_of_clothoid x y theta kappa sigma d 0
    e.x = x ∧ e.y = y ∧ AngleEq e.theta theta ∧ e.kappa = kappa := by
  have h : 1 / √π * (1 / √|sigma|) * (|sigma| * 0 + sgn sigma * kappa)
      = 1 / √π * (1 / √|sigma|) * sgn sigma * kappa := by ring
  refine ⟨?_, ?_, ?_, ?_⟩
  · simp only [end_of_clothoid, h]; simp
  · simp only [end_of_clothoid, h]; simp
  · have := pify_angleEq (theta + kappa * d * 0 + 0.5 * sigma * d * 0 * 0)
    simpa [end_of_clothoid] using this
  · simp [end_of_clothoid]

theorem clothoid_congr {x y theta theta' kappa sigma d a : ℝ} (h : AngleEq theta theta') :
    let e := end_of_clothoid x y theta kappa sigma d a
    let e' := end_of_clothoid x y theta' kappa sigma d a
    e.x = e'.x ∧ e.y = e'.y ∧ AngleEq e.theta e'.theta ∧ e.kappa = e'.kappa := by
  have h2 := h.sub (AngleEq.refl (0.5 * d * kappa * kappa / sigma))
  have h3 := (h.add_right (kappa * d * a)).add_right (0.5 * sigma * d * a * a)
  refine ⟨?_, ?_, ?_, rfl⟩
  · simp only [end_of_clothoid, h2.sin_eq, h2.cos_eq]
  · simp only [end_of_clothoid, h2.sin_eq, h2.cos_eq]
  · exact (pify_angleEq _).trans (h3.trans (pify_angleEq _).symm)

theorem epsilon_pos : 0 < epsilon := by unfold epsilon; norm_num

theorem integrate_ODE_flow (c : Control) :
    IsFlow (fun s h => integrate_ODE s c h) (sgn c.delta_s) where
  zero s := by
    simp only [integrate_ODE]
    split_ifs with hk
    · obtain ⟨h1, h2, h3⟩ := arc_zero s.x s.y s.theta s.kappa (sgn c.delta_s)
      exact ⟨h1, h2, h3, rfl⟩
    · refine ⟨?_, ?_, AngleEq.refl _, rfl⟩ <;> simp [end_of_straight_line]
  add s a b := by
    simp only [integrate_ODE]
    split_ifs with hk
    · obtain ⟨h1, h2, h3⟩ := arc_split (kappa := s.kappa) s.x s.y s.theta (sgn c.delta_s) a b
      exact ⟨h1, h2, h3, rfl⟩
    · have := line_split s.x s.y s.theta (sgn c.delta_s) a b
      simp only at this
      refine ⟨?_, ?_, AngleEq.refl _, rfl⟩ <;> simp [this]
  congr s t a h := by
    obtain ⟨hx, hy, ht, hk⟩ := h
    simp only [integrate_ODE, hx, hy, hk]
    split_ifs with hk'
    · obtain ⟨h1, h2, h3⟩ := arc_congr (x := t.x) (y := t.y) (kappa := t.kappa)
        (d := sgn c.delta_s) (a := a) ht
      exact ⟨h1, h2, h3, rfl⟩
    · refine ⟨?_, ?_, ht, rfl⟩ <;> simp [end_of_straight_line, ht.cos_eq, ht.sin_eq]
  dirEq s a := by
    simp only [integrate_ODE]; split_ifs <;> rfl

theorem hc_integrate_ODE_flow (c : Control) :
    IsFlow (fun s h => hc_integrate_ODE s c h) (sgn c.delta_s) where
  zero s := by
    simp only [hc_integrate_ODE]
    split_ifs with hs hk
    · obtain ⟨h1, h2, h3, h4⟩ := clothoid_zero s.x s.y s.theta s.kappa c.sigma (sgn c.delta_s)
      exact ⟨h1, h2, h3, h4⟩
    · obtain ⟨h1, h2, h3⟩ := arc_zero s.x s.y s.theta s.kappa (sgn c.delta_s)
      exact ⟨h1, h2, h3, rfl⟩
    · refine ⟨?_, ?_, AngleEq.refl _, rfl⟩ <;> simp [end_of_straight_line]
  add s a b := by
    simp only [hc_integrate_ODE]
    split_ifs with hs hk
    · have hs0 : c.sigma ≠ 0 := by
        intro h0; rw [h0, abs_zero] at hs; exact absurd hs (not_lt.2 epsilon_pos.le)
      obtain ⟨h1, h2, h3, h4⟩ := clothoid_split hs0 s.x s.y s.theta s.kappa (sgn c.delta_s) a b
      exact ⟨h1, h2, h3, h4⟩
    · obtain ⟨h1, h2, h3⟩ := arc_split (kappa := s.kappa) s.x s.y s.theta (sgn c.delta_s) a b
      exact ⟨h1, h2, h3, rfl⟩
    · have := line_split s.x s.y s.theta (sgn c.delta_s) a b
      simp only at this
      refine ⟨?_, ?_, AngleEq.refl _, rfl⟩ <;> simp [this]
  congr s t a h := by
    obtain ⟨hx, hy, ht, hk⟩ := h
    simp only [hc_integrate_ODE, hx, hy, hk]
    split_ifs with hs' hk'
    · obtain ⟨h1, h2, h3, h4⟩ := clothoid_congr (x := t.x) (y := t.y) (kappa := t.kappa)
        (sigma := c.sigma) (d := sgn c.delta_s) (a := a) ht
      exact ⟨h1, h2, h3, h4⟩
    · obtain ⟨h1, h2, h3⟩ := arc_congr (x := t.x) (y := t.y) (kappa := t.kappa)
        (d := sgn c.delta_s) (a := a) ht
      exact ⟨h1, h2, h3, rfl⟩
    · refine ⟨?_, ?_, ht, rfl⟩ <;> simp [end_of_straight_line, ht.cos_eq, ht.sin_eq]
  dirEq s a := by
    simp only [hc_integrate_ODE]; split_ifs <;> rfl

end SF
