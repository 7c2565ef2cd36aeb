import Verif.Lemmas.Integrate
import Verif.Lemmas.Within
import Verif.Lemmas.Clothoid
import Verif.Spec.Bridge

/-!
# The states of a path lie in an ellipse

The single-step integrators move by at most the step, for any curvature and sharpness, resolved or not.
-/

noncomputable section

namespace SF

open Real Spec Props

/-- Distance of the positions of two states. -/
abbrev gap (s t : State) : ℝ := (pose s).dist (pose t)

theorem gap_triangle (s t u : State) : gap s u ≤ gap s t + gap t u := Config.dist_triangle _ _ _

theorem gap_self (s : State) : gap s s = 0 := Config.dist_self _

theorem gap_comm (s t : State) : gap s t = gap t s := Config.dist_comm _ _

theorem gap_of_pos {s t u v : State} (h1 : s.x = u.x) (h2 : s.y = u.y) (h3 : t.x = v.x) (h4 : t.y = v.y) : gap s t = gap u v := by
  simp only [gap, pose, Config.dist, h1, h2, h3, h4]

theorem StEq.gap {s t u v : State} (h : StEq s u) (h' : StEq t v) : gap s t = gap u v :=
  gap_of_pos h.1 h.2.1 h'.1 h'.2.1

theorem drives_gap {d kappa sigma L : ℝ} {p q : Config} (hd : d = 1 ∨ d = -1) (hL : 0 ≤ L) (h : Drives d kappa sigma L p q) :
    p.dist q ≤ L := by
  rw [drives_iff.1 h, Config.dist_comm, Config.dist_eq, arrive_pos, add_sub_cancel_left, norm_mul, norm_cis, one_mul]
  exact norm_disp_le hd _ _ _ hL

/-- The integrator moves by the step at most, up to `tol`. -/
def Slow (ode : State → ℝ → State) (tol : ℝ) : Prop := ∀ s a, 0 ≤ a → gap s (ode s a) ≤ a + tol

theorem arc_gap (s : State) {kappa d a : ℝ} (hk : kappa ≠ 0) (hd : d = 1 ∨ d = -1) (ha : 0 ≤ a) (k' d' : ℝ) :
    gap s ⟨(end_of_circular_arc s.x s.y s.theta kappa d a).x, (end_of_circular_arc s.x s.y s.theta kappa d a).y,
      (end_of_circular_arc s.x s.y s.theta kappa d a).theta, k', d'⟩ ≤ a := by
  have := drives_gap hd ha (drives_arc (d := d) (L := a) hk ⟨s.x, s.y, s.theta⟩)
  exact this

theorem line_gap (s : State) {d a : ℝ} (hd : d = 1 ∨ d = -1) (ha : 0 ≤ a) (k' d' : ℝ) :
    gap s ⟨(end_of_straight_line s.x s.y s.theta d a).1, (end_of_straight_line s.x s.y s.theta d a).2, s.theta, k', d'⟩ ≤ a := by
  have h : Drives d 0 0 a ⟨s.x, s.y, s.theta⟩
      ⟨(end_of_straight_line s.x s.y s.theta d a).1, (end_of_straight_line s.x s.y s.theta d a).2, s.theta⟩ := by
    rw [drives_iff, arrive_line]; rfl
  exact drives_gap hd ha h

theorem ne_zero_of_resolved {k : ℝ} (h : |k| > epsilon) : k ≠ 0 := by
  rintro rfl
  rw [abs_zero] at h
  exact absurd h (not_lt.2 epsilon_pos.le)

theorem integrate_ODE_slow (c : Control) : Slow (fun s h => integrate_ODE s c h) 0 := by
  intro s a ha
  rw [add_zero]
  simp only [integrate_ODE]
  split_ifs with hk
  · exact arc_gap s (ne_zero_of_resolved hk) (sgn_pm _) ha _ _
  · exact line_gap s (sgn_pm _) ha _ _

theorem hc_integrate_ODE_slow (c : Control) : Slow (fun s h => hc_integrate_ODE s c h) (5 / 10 ^ 14) := by
  intro s a ha
  simp only [hc_integrate_ODE]
  split_ifs with hs hk
  · have h0 := ne_zero_of_resolved hs
    obtain ⟨q, hq⟩ : ∃ q, q = arrive (sgn c.delta_s) s.kappa c.sigma a ⟨s.x, s.y, s.theta⟩ := ⟨_, rfl⟩
    have h1 := clothoid_accurate h0 (sgn_pm c.delta_s) s.x s.y s.theta s.kappa a
    have h2 := drives_gap (sgn_pm c.delta_s) ha (drives_iff.2 hq)
    rw [← hq] at h1
    have h3 : (5:ℝ) / 10 ^ 16 / √|c.sigma| ≤ 5 / 10 ^ 14 := by
      have : (1:ℝ) / 100 ≤ √|c.sigma| := by
        apply le_sqrt_of_sq_le
        unfold epsilon at hs
        norm_num at hs ⊢
        linarith
      rw [div_le_iff₀ (lt_of_lt_of_le (by norm_num) this)]
      linarith
    obtain ⟨e, he⟩ : ∃ e, e = end_of_clothoid s.x s.y s.theta s.kappa c.sigma (sgn c.delta_s) a := ⟨_, rfl⟩
    rw [← he] at h1 ⊢
    have h4 : q.dist ⟨e.x, e.y, e.theta⟩ ≤ 5 / 10 ^ 14 := by
      rw [Config.dist_comm]; exact h1.trans h3
    exact (Config.dist_triangle _ q _).trans (add_le_add h2 h4)
  · exact (arc_gap s (ne_zero_of_resolved hk) (sgn_pm _) ha _ _).trans (by norm_num)
  · exact (line_gap s (sgn_pm _) ha _ _).trans (by norm_num)

/-- `x` can be met on a way of length `len` from `p` to `q`, up to `tol`. -/
def OnWay (len tol : ℝ) (p q x : State) : Prop := ∃ t, 0 ≤ t ∧ t ≤ len ∧ gap p x ≤ t + tol ∧ gap x q ≤ len - t + tol

theorem segLoop_gap {ode : State → ℝ → State} {dir tol : ℝ} (hf : IsFlow ode dir) (hs : Slow ode tol) {h a : ℝ} (hh : 0 < h)
    (ha : 0 ≤ a) (st0 : State) :
    gap st0 (segLoop ode h a (nSteps h a) 0 st0).2 ≤ a + tol ∧
    ∀ x ∈ (segLoop ode h a (nSteps h a) 0 st0).1, OnWay a tol st0 (segLoop ode h a (nSteps h a) 0 st0).2 x.2 := by
  have he := segLoop_end hf hh ha st0
  refine ⟨by rw [(StEq.refl st0).gap he]; exact hs st0 a ha, fun x hx => ?_⟩
  obtain ⟨k, hk⟩ := List.mem_iff_getElem?.1 hx
  obtain ⟨-, -, h3, -⟩ := segLoop_get hf hh st0 k x hk
  obtain ⟨t, ht⟩ : ∃ t, t = min ((k + 1 : ℕ) * h) a := ⟨_, rfl⟩
  rw [← ht] at h3
  have t0 : 0 ≤ t := by rw [ht]; exact le_min (by positivity) ha
  have t1 : t ≤ a := by rw [ht]; exact min_le_right _ _
  refine ⟨t, t0, t1, ?_, ?_⟩
  · rw [(StEq.refl st0).gap h3]; exact hs st0 t t0
  · have h4 := hf.add st0 t (a - t)
    rw [show t + (a - t) = a by ring] at h4
    rw [h3.gap (he.trans h4.symm)]
    exact hs _ _ (by linarith)

/-- The inner loop ends at the last state pushed. -/
theorem segLoop_last (ode : State → ℝ → State) (h a : ℝ) : ∀ (n : ℕ) (s : ℝ) (st : State),
    (st :: (segLoop ode h a n s st).1.map Prod.snd).getLast? = some (segLoop ode h a n s st).2 := by
  intro n
  induction n with
  | zero => intro s st; rfl
  | succ n ih =>
    intro s st
    simp only [segLoop, List.map_cons, List.getLast?_cons_cons]
    exact ih _ _

theorem getLast_append {α : Type*} {l m : List α} {e f : α} (h1 : l.getLast? = some e) (h2 : (e :: m).getLast? = some f) :
    (l ++ m).getLast? = some f := by
  cases m with
  | nil => simpa [h1] using h2
  | cons x m => rw [List.getLast?_append]; simpa using h2

/-- Sum of the lengths. -/
def lens (cs : List Control) : ℝ := (cs.map fun c => |c.delta_s|).sum

theorem lens_nonneg (cs : List Control) : 0 ≤ lens cs := List.sum_nonneg (by simp)

theorem OnWay.first {a b tol tol' : ℝ} {p q r x : State} (ha : 0 ≤ b) (h : OnWay a tol p q x) (h' : gap q r ≤ b + tol')
    (ht : 0 ≤ tol') : OnWay (a + b) (tol + tol') p r x := by
  obtain ⟨t, h0, h1, h2, h3⟩ := h
  have := gap_triangle x q r
  exact ⟨t, h0, by linarith, by linarith, by linarith⟩

theorem OnWay.second {a b tol tol' : ℝ} {p q r x : State} (ha : 0 ≤ a) (h : OnWay b tol' q r x) (h' : gap p q ≤ a + tol)
    (ht : 0 ≤ tol) : OnWay (a + b) (tol + tol') p r x := by
  obtain ⟨t, h0, h1, h2, h3⟩ := h
  have := gap_triangle p q x
  exact ⟨a + t, by linarith, by linarith, by linarith, by linarith⟩

theorem OnWay.start {a tol : ℝ} {p q : State} (ha : 0 ≤ a) (ht : 0 ≤ tol) (h : gap p q ≤ a + tol) : OnWay a tol p q p :=
  ⟨0, le_rfl, ha, by rw [gap_self]; linarith, by linarith⟩

/-- Where the loop of `integrate` ends. -/
def fin (disc : ℝ) : List Control → State → State
  | [], st => st
  | c :: cs, st => fin disc cs (segLoop (fun s h => integrate_ODE s c h) disc |c.delta_s| (nSteps disc |c.delta_s|) 0
      { st with kappa := c.kappa, d := sgn c.delta_s }).2

/-- Where the loop of `integrate` of the planners with clothoids ends. -/
def hcFin (disc : ℝ) : List Control → State → State
  | [], st => st
  | c :: cs, st => hcFin disc cs (segLoop (fun s h => hc_integrate_ODE s c h) disc |c.delta_s| (nSteps disc |c.delta_s|) 0
      (if |c.kappa - st.kappa| > epsilon then { st with kappa := c.kappa, d := sgn c.delta_s } else st)).2

theorem integrateLoop_gap {disc : ℝ} (hd : 0 < disc) (cs : List Control) : ∀ st : State, ∃ e, e = fin disc cs st ∧
    (∃ f, (st :: integrateLoop disc cs st).getLast? = some f ∧ f.x = e.x ∧ f.y = e.y) ∧ gap st e ≤ lens cs ∧
    ∀ x ∈ integrateLoop disc cs st, OnWay (lens cs) 0 st e x := by
  induction cs with
  | nil => intro st; exact ⟨st, rfl, ⟨st, rfl, rfl, rfl⟩, by simp [gap_self, lens], by simp [integrateLoop]⟩
  | cons c cs ih =>
    intro st
    obtain ⟨st0, h0⟩ : ∃ st0 : State, st0 = { st with kappa := c.kappa, d := sgn c.delta_s } := ⟨_, rfl⟩
    obtain ⟨r, hr⟩ : ∃ r, r = segLoop (fun s h => integrate_ODE s c h) disc |c.delta_s| (nSteps disc |c.delta_s|) 0 st0 := ⟨_, rfl⟩
    obtain ⟨g1, g2⟩ := segLoop_gap (integrate_ODE_flow c) (integrate_ODE_slow c) hd (abs_nonneg c.delta_s) st0
    rw [← hr] at g1 g2
    obtain ⟨e, e0, ⟨f, f1, f2⟩, e2, e3⟩ := ih r.2
    have eq : ∀ x, gap st0 x = gap st x := fun x => gap_of_pos (by rw [h0]) (by rw [h0]) rfl rfl
    have hl : integrateLoop disc (c :: cs) st = st0 :: r.1.map Prod.snd ++ integrateLoop disc cs r.2 := by
      simp only [integrateLoop, ← h0, ← hr]
    have hL : lens (c :: cs) = |c.delta_s| + lens cs := by simp [lens]
    have hn := lens_nonneg cs
    have hc := abs_nonneg c.delta_s
    rw [eq] at g1
    have hfin : gap st e ≤ lens (c :: cs) := by
      have := gap_triangle st r.2 e
      linarith
    refine ⟨e, by rw [e0, fin, ← h0, ← hr], ⟨f, ?_, f2⟩, hfin, ?_⟩
    · rw [hl]
      have := getLast_append (hr ▸ segLoop_last _ _ _ _ _ st0) f1
      rw [List.cons_append] at this ⊢
      rw [List.getLast?_cons_cons]
      exact this
    · intro x hx
      rw [hl] at hx
      rcases List.mem_append.1 hx with hx | hx
      · have hw : OnWay |c.delta_s| 0 st0 r.2 x := by
          rcases List.mem_cons.1 hx with rfl | hx
          · exact OnWay.start hc le_rfl (by rw [eq]; exact g1)
          · obtain ⟨y, hy, rfl⟩ := List.mem_map.1 hx
            exact g2 y hy
        have hw : OnWay |c.delta_s| 0 st r.2 x := by
          obtain ⟨t, a1, a2, a3, a4⟩ := hw
          exact ⟨t, a1, a2, by rw [← eq]; exact a3, a4⟩
        have := hw.first hn (show gap r.2 e ≤ lens cs + 0 by linarith) le_rfl
        rwa [hL, show (0:ℝ) = 0 + 0 by ring]
      · have := (e3 x hx).second hc g1 le_rfl
        rwa [hL, show (0:ℝ) = 0 + 0 by ring]

theorem hcIntegrateLoop_gap {disc : ℝ} (hd : 0 < disc) (cs : List Control) : ∀ st : State, ∃ e, e = hcFin disc cs st ∧
    (∃ f, (st :: hcIntegrateLoop disc cs st).getLast? = some f ∧ f.x = e.x ∧ f.y = e.y) ∧
    gap st e ≤ lens cs + cs.length * (5 / 10 ^ 14) ∧
    ∀ x ∈ hcIntegrateLoop disc cs st, OnWay (lens cs) (cs.length * (5 / 10 ^ 14)) st e x := by
  induction cs with
  | nil => intro st; exact ⟨st, rfl, ⟨st, rfl, rfl, rfl⟩, by simp [gap_self, lens], by simp [hcIntegrateLoop]⟩
  | cons c cs ih =>
    intro st
    obtain ⟨st0, h0⟩ : ∃ st0 : State, st0 = if |c.kappa - st.kappa| > epsilon then
      { st with kappa := c.kappa, d := sgn c.delta_s } else st := ⟨_, rfl⟩
    obtain ⟨r, hr⟩ : ∃ r, r = segLoop (fun s h => hc_integrate_ODE s c h) disc |c.delta_s| (nSteps disc |c.delta_s|) 0 st0 := ⟨_, rfl⟩
    obtain ⟨g1, g2⟩ := segLoop_gap (hc_integrate_ODE_flow c) (hc_integrate_ODE_slow c) hd (abs_nonneg c.delta_s) st0
    rw [← hr] at g1 g2
    obtain ⟨e, e0, ⟨f, f1, f2⟩, e2, e3⟩ := ih r.2
    have eqx : st0.x = st.x := by rw [h0]; split_ifs <;> rfl
    have eqy : st0.y = st.y := by rw [h0]; split_ifs <;> rfl
    have eq : ∀ x, gap st0 x = gap st x := fun x => gap_of_pos eqx eqy rfl rfl
    have hl : hcIntegrateLoop disc (c :: cs) st = (if |c.kappa - st.kappa| > epsilon then [st0] else []) ++ r.1.map Prod.snd ++
        hcIntegrateLoop disc cs r.2 := by
      simp only [hcIntegrateLoop, ← h0, ← hr]
    have hL : lens (c :: cs) = |c.delta_s| + lens cs := by simp [lens]
    have hT : ((c :: cs).length : ℝ) * (5 / 10 ^ 14) = 5 / 10 ^ 14 + cs.length * (5 / 10 ^ 14) := by
      rw [List.length_cons]; push_cast; ring
    have hn := lens_nonneg cs
    have hc := abs_nonneg c.delta_s
    have hp : 0 ≤ (cs.length : ℝ) * (5 / 10 ^ 14) := by positivity
    rw [eq] at g1
    have hfin : gap st e ≤ lens (c :: cs) + (c :: cs).length * (5 / 10 ^ 14) := by
      have := gap_triangle st r.2 e
      rw [hL, hT]
      linarith
    refine ⟨e, by rw [e0, hcFin, ← h0, ← hr], ⟨f, ?_, f2⟩, hfin, ?_⟩
    · rw [hl]
      have hlast := getLast_append (hr ▸ segLoop_last _ _ _ _ _ st0) f1
      by_cases hj : |c.kappa - st.kappa| > epsilon
      · rw [if_pos hj]
        simp only [List.cons_append, List.nil_append] at hlast ⊢
        rw [List.getLast?_cons_cons]
        exact hlast
      · rw [if_neg hj] at h0 ⊢
        subst h0
        simpa using hlast
    · intro x hx
      rw [hl] at hx
      rw [hL, hT]
      rcases List.mem_append.1 hx with hx | hx
      · have hw : OnWay |c.delta_s| (5 / 10 ^ 14) st0 r.2 x := by
          rcases List.mem_append.1 hx with hx | hx
          · obtain rfl : x = st0 := by
              split_ifs at hx
              · simpa using hx
              · simp at hx
            exact OnWay.start hc (by norm_num) (by rw [eq]; exact g1)
          · obtain ⟨y, hy, rfl⟩ := List.mem_map.1 hx
            exact g2 y hy
        have hw : OnWay |c.delta_s| (5 / 10 ^ 14) st r.2 x := by
          obtain ⟨t, a1, a2, a3, a4⟩ := hw
          exact ⟨t, a1, a2, by rw [← eq]; exact a3, a4⟩
        exact hw.first hn e2 hp
      · exact (e3 x hx).second hc g1 (by norm_num)

/-- A loop over part of the segment. -/
theorem segLoop_part {ode : State → ℝ → State} {dir tol : ℝ} (hf : IsFlow ode dir) (hs : Slow ode tol) {h a b : ℝ} (hh : 0 < h)
    (hb : 0 ≤ b) (hba : b ≤ a) (st0 : State) :
    gap st0 (segLoop ode h b (nSteps h b) 0 st0).2 ≤ b + tol ∧
    gap (segLoop ode h b (nSteps h b) 0 st0).2 (segLoop ode h a (nSteps h a) 0 st0).2 ≤ a - b + tol := by
  have he := segLoop_end hf hh hb st0
  have h4 := hf.add st0 b (a - b)
  rw [show b + (a - b) = a by ring] at h4
  rw [(StEq.refl st0).gap he, he.gap ((segLoop_end hf hh (hb.trans hba) st0).trans h4.symm)]
  exact ⟨hs st0 b hb, hs _ _ (by linarith)⟩

theorem interpolateLoop_gap {disc : ℝ} (hd : 0 < disc) {si : ℝ} (cs : List Control) : ∀ (s : ℝ) (st : State), s ≤ si → si ≤ s + lens cs →
    gap st (interpolateLoop disc si cs s st) ≤ si - s ∧
    gap (interpolateLoop disc si cs s st) (fin disc cs st) ≤ lens cs - (si - s) := by
  induction cs with
  | nil =>
    intro s st h1 h2
    have : si - s = 0 := by simp [lens] at h2; linarith
    simp [interpolateLoop, fin, gap_self, lens, this]
  | cons c cs ih =>
    intro s st h1 h2
    have hL : lens (c :: cs) = |c.delta_s| + lens cs := by simp [lens]
    have hc := abs_nonneg c.delta_s
    obtain ⟨st0, h0⟩ : ∃ st0 : State, st0 = { st with kappa := c.kappa, d := sgn c.delta_s } := ⟨_, rfl⟩
    have eq : ∀ x, gap st0 x = gap st x := fun x => gap_of_pos (by rw [h0]) (by rw [h0]) rfl rfl
    simp only [interpolateLoop, fin, ← h0]
    obtain ⟨r, hr⟩ : ∃ r, r = segLoop (fun s h => integrate_ODE s c h) disc |c.delta_s| (nSteps disc |c.delta_s|) 0 st0 := ⟨_, rfl⟩
    have g1 := (segLoop_gap (integrate_ODE_flow c) (integrate_ODE_slow c) hd hc st0).1
    obtain ⟨e, e0, -, e2, -⟩ := integrateLoop_gap hd cs r.2
    rw [← hr] at g1 ⊢
    rw [eq] at g1
    split_ifs with hgt
    · obtain ⟨p1, p2⟩ := segLoop_part (integrate_ODE_flow c) (integrate_ODE_slow c) hd
        (show 0 ≤ |c.delta_s| - (s + |c.delta_s| - si) by linarith) (show _ ≤ |c.delta_s| by linarith) st0
      rw [← hr] at p2
      rw [eq] at p1
      rw [← e0]
      refine ⟨by linarith, (gap_triangle _ r.2 _).trans ?_⟩
      rw [hL]; linarith
    · push Not at hgt
      obtain ⟨i1, i2⟩ := ih (s + |c.delta_s|) r.2 hgt (by rw [hL] at h2; linarith)
      refine ⟨(gap_triangle _ r.2 _).trans (by linarith), ?_⟩
      rw [hL]; linarith

theorem hcInterpolateLoop_gap {disc : ℝ} (hd : 0 < disc) {si : ℝ} (cs : List Control) : ∀ (s : ℝ) (st : State), s ≤ si →
    si ≤ s + lens cs → gap st (hcInterpolateLoop disc si cs s st) ≤ si - s + cs.length * (5 / 10 ^ 14) ∧
    gap (hcInterpolateLoop disc si cs s st) (hcFin disc cs st) ≤ lens cs - (si - s) + cs.length * (5 / 10 ^ 14) := by
  induction cs with
  | nil =>
    intro s st h1 h2
    have : si - s = 0 := by simp [lens] at h2; linarith
    simp [hcInterpolateLoop, hcFin, gap_self, lens, this]
  | cons c cs ih =>
    intro s st h1 h2
    have hL : lens (c :: cs) = |c.delta_s| + lens cs := by simp [lens]
    have hT : ((c :: cs).length : ℝ) * (5 / 10 ^ 14) = 5 / 10 ^ 14 + cs.length * (5 / 10 ^ 14) := by
      rw [List.length_cons]; push_cast; ring
    have hp : 0 ≤ (cs.length : ℝ) * (5 / 10 ^ 14) := by positivity
    have hc := abs_nonneg c.delta_s
    obtain ⟨st0, h0⟩ : ∃ st0 : State, st0 = if |c.kappa - st.kappa| > epsilon then
      { st with kappa := c.kappa, d := sgn c.delta_s } else st := ⟨_, rfl⟩
    have eq : ∀ x, gap st0 x = gap st x := fun x => gap_of_pos (by rw [h0]; split_ifs <;> rfl) (by rw [h0]; split_ifs <;> rfl) rfl rfl
    simp only [hcInterpolateLoop, hcFin, ← h0]
    obtain ⟨r, hr⟩ : ∃ r, r = segLoop (fun s h => hc_integrate_ODE s c h) disc |c.delta_s| (nSteps disc |c.delta_s|) 0 st0 := ⟨_, rfl⟩
    have g1 := (segLoop_gap (hc_integrate_ODE_flow c) (hc_integrate_ODE_slow c) hd hc st0).1
    obtain ⟨e, e0, -, e2, -⟩ := hcIntegrateLoop_gap hd cs r.2
    rw [← hr] at g1 ⊢
    rw [eq] at g1
    rw [hL, hT]
    split_ifs with hgt
    · obtain ⟨p1, p2⟩ := segLoop_part (hc_integrate_ODE_flow c) (hc_integrate_ODE_slow c) hd
        (show 0 ≤ |c.delta_s| - (s + |c.delta_s| - si) by linarith) (show _ ≤ |c.delta_s| by linarith) st0
      rw [← hr] at p2
      rw [eq] at p1
      rw [← e0]
      exact ⟨by linarith, (gap_triangle _ r.2 _).trans (by linarith)⟩
    · push Not at hgt
      obtain ⟨i1, i2⟩ := ih (s + |c.delta_s|) r.2 hgt (by rw [hL] at h2; linarith)
      exact ⟨(gap_triangle _ r.2 _).trans (by linarith), by linarith⟩

end SF
