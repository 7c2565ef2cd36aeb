import Verif.Lemmas.Sampling
import Verif.Lemmas.Clothoid
import Verif.Spec.Near

/-!
# Lemmas on sampling in the HC/CC state spaces
-/

noncomputable section

namespace Spec

open Real

theorem sqrt_eq_norm (a b : ℝ) : √(a ^ 2 + b ^ 2) = ‖(⟨a, b⟩ : ℂ)‖ := by
  rw [Complex.norm_def, Complex.normSq_mk]; ring_nf

theorem Config.dist_triangle (p q r : Config) : p.dist r ≤ p.dist q + q.dist r := by
  unfold Config.dist
  simp only [sqrt_eq_norm]
  have : (⟨p.x - r.x, p.y - r.y⟩ : ℂ) = ⟨p.x - q.x, p.y - q.y⟩ + ⟨q.x - r.x, q.y - r.y⟩ := by
    apply Complex.ext <;> simp
  rw [this]; exact norm_add_le _ _

theorem Config.dist_comm (p q : Config) : p.dist q = q.dist p := by
  unfold Config.dist; congr 1; ring

theorem Config.dist_self (p : Config) : p.dist p = 0 := by simp [Config.dist]

theorem Config.dist_nonneg (p q : Config) : 0 ≤ p.dist q := sqrt_nonneg _

theorem Near.trans {e f : ℝ} {p q r : Config} (h : Near e p q) (h' : Near f q r) :
    Near (e + f) p r :=
  ⟨(Config.dist_triangle p q r).trans (add_le_add h.1 h'.1), h.2.trans h'.2⟩

theorem Near.of_same {e : ℝ} (he : 0 ≤ e) {p q : Config} (h : SameConfig p q) : Near e p q := by
  refine ⟨?_, h.2.2⟩
  unfold Config.dist; rw [h.1, h.2.1]; simpa using he

theorem Near.mono {e f : ℝ} {p q : Config} (h : Near e p q) (hef : e ≤ f) : Near f p q :=
  ⟨h.1.trans hef, h.2⟩

/-- Driving transports a position error unchanged. -/
theorem Near.arrive {e d kappa sigma L : ℝ} {p q : Config} (h : Near e p q) :
    Near e (arrive d kappa sigma L p) (arrive d kappa sigma L q) := by
  have hh : ∀ s, AngleEq (heading d kappa sigma p.theta s) (heading d kappa sigma q.theta s) :=
    fun s => h.2.add_right _
  refine ⟨?_, hh L⟩
  have := h.1
  unfold Config.dist at this ⊢
  simp only [Spec.arrive, (hh _).cos_eq, (hh _).sin_eq, add_sub_add_right_eq_sub]
  exact this

theorem segTol_nonneg (c : Segment) : 0 ≤ segTol c := by
  unfold segTol; split_ifs <;> positivity

theorem pathTol_nonneg (cs : List Segment) : 0 ≤ pathTol cs := by
  unfold pathTol
  apply List.sum_nonneg
  intro x hx
  rw [List.mem_map] at hx
  obtain ⟨c, _, rfl⟩ := hx
  exact segTol_nonneg c

theorem SampledNear.drives {disc err k : ℝ} {cs : List Segment} {p q : Config} {l : List Sample}
    (h : SampledNear disc err k cs p l q) : DrivesAll cs p q := by
  induction h with
  | nil _ _ p => exact DrivesAll.nil p
  | cons _ _ _ h2 _ ih => exact DrivesAll.cons h2 ih

theorem totalLength_nonneg (cs : List Segment) : 0 ≤ totalLength cs := by
  unfold totalLength; apply List.sum_nonneg; intro x hx
  simp only [List.mem_map] at hx
  obtain ⟨c, _, rfl⟩ := hx; exact abs_nonneg _

theorem drivesAll_zero : ∀ (cs : List Segment) (p : Config), totalLength cs = 0 → DrivesAll cs p p := by
  intro cs
  induction cs with
  | nil => intro p _; exact DrivesAll.nil p
  | cons c cs ih =>
    intro p h0
    have hnn := totalLength_nonneg cs
    have : |c.len| + totalLength cs = 0 := by simpa [totalLength] using h0
    have h1 : |c.len| = 0 := le_antisymm (by linarith) (abs_nonneg _)
    refine DrivesAll.cons (q := p) ?_ (ih p (by linarith))
    rw [h1, drives_iff, arrive_zero]

/-- The sample at the total length is the end of the path. -/
theorem AtNear.end {err s : ℝ} {cs : List Segment} {p : Config} {a : Sample}
    (h : AtNear err cs p s a) (hs : s = totalLength cs) :
    ∃ q, DrivesAll cs p q ∧ Near (err + pathTol cs) a.cfg q := by
  induction h with
  | @here err c cs p m s a h0 h1 h2 h3 h4 h5 =>
    have hnn := totalLength_nonneg cs
    have he : s = |c.len| + totalLength cs := by rw [hs]; simp [totalLength]
    have hz : totalLength cs = 0 := by linarith
    have : s = |c.len| := by linarith
    subst this
    refine ⟨m, DrivesAll.cons h2 (drivesAll_zero cs m hz), h3.mono ?_⟩
    have := pathTol_nonneg cs
    simp only [pathTol, List.map_cons, List.sum_cons] at this ⊢
    linarith
  | @later err c cs p q s a h1 h2 ih =>
    have he : |c.len| + s = |c.len| + totalLength cs := by rw [hs]; simp [totalLength]
    obtain ⟨r, hr1, hr2⟩ := ih (by linarith)
    refine ⟨r, DrivesAll.cons h1 hr1, hr2.mono ?_⟩
    simp only [pathTol, List.map_cons, List.sum_cons]
    linarith

end Spec

namespace Props

open SF Spec Real

/-- Segments representable by one HC/CC integration step. -/
def HcOk (c : Control) : Prop :=
  |c.sigma| > 1 / 10000 ∨ c.sigma = 0 ∧ (c.kappa = 0 ∨ |c.kappa| > 1 / 10000)

theorem hc_ode_near {c : Control} (hc : HcOk c) (st : State) (hk : st.kappa = c.kappa) (h : ℝ) :
    Near (segTol (seg c)) (pose (hc_integrate_ODE st c h))
      (arrive (seg c).dir c.kappa c.sigma h (pose st)) ∧
    (hc_integrate_ODE st c h).kappa = c.kappa + c.sigma * h := by
  have hd : (seg c).dir = 1 ∨ (seg c).dir = -1 := by rw [seg_dir]; exact sgn_pm _
  rcases hc with hs | ⟨hs, hk'⟩
  · have hs0 : c.sigma ≠ 0 := by
      intro h0; rw [h0, abs_zero] at hs; norm_num at hs
    have hs' : |c.sigma| > SF.epsilon := hs
    have hacc := clothoid_accurate hs0 hd st.x st.y st.theta c.kappa h
    simp only [hc_integrate_ODE, if_pos hs', hk]
    refine ⟨⟨?_, ?_⟩, rfl⟩
    · unfold segTol Config.dist
      rw [if_neg (show ¬ (seg c).sigma = 0 from hs0)]
      exact hacc
    · refine (pify_angleEq _).trans ?_
      have : heading (seg c).dir c.kappa c.sigma st.theta h
          = st.theta + c.kappa * sgn c.delta_s * h + 0.5 * c.sigma * sgn c.delta_s * h * h := by
        unfold heading; rw [seg_dir]; ring
      simp only [arrive, pose, this]
      exact AngleEq.refl _
  · have hs' : ¬ |c.sigma| > SF.epsilon := by rw [hs, abs_zero]; exact not_lt.2 epsilon_pos.le
    have e : segTol (seg c) = 0 := if_pos hs
    rw [e]
    obtain ⟨m, hm1, hm2, hm3⟩ := integrate_ODE_drives (c := c) ⟨hs, hk'⟩ st hk h
    have hsame : hc_integrate_ODE st c h = integrate_ODE st c h := by
      simp only [hc_integrate_ODE, if_neg hs', integrate_ODE]
    rw [hsame, hm3, hs]
    rw [drives_iff, hs] at hm1
    refine ⟨Near.of_same le_rfl ?_, by ring⟩
    rw [hm1] at hm2; exact hm2

theorem pose_of_StEq {s t : State} (h : StEq s t) : SameConfig (pose s) (pose t) :=
  ⟨h.1, h.2.1, h.2.2.1⟩

/-- Position, heading and curvature after part of a segment. -/
theorem hc_part {disc : ℝ} (hd : 0 < disc) {c : Control} (hc : HcOk c) {st : State} {p : Config}
    {err : ℝ} (hp : Near err (pose st) p) (hk : st.kappa = c.kappa) {a : ℝ} (ha : 0 ≤ a) :
    let e := (segLoop (fun s h => hc_integrate_ODE s c h) disc a (nSteps disc a) 0 st).2
    Near (err + segTol (seg c)) (pose e) (arrive (seg c).dir c.kappa c.sigma a p) ∧
      e.kappa = c.kappa + c.sigma * a ∧ (0 < a → e.d = (seg c).dir) := by
  intro e
  have hf := hc_integrate_ODE_flow c
  have hend := segLoop_end hf hd ha st
  obtain ⟨h1, h2⟩ := hc_ode_near hc st hk a
  refine ⟨?_, hend.2.2.2.trans h2, ?_⟩
  · have h3 : Near 0 (pose e) (pose (hc_integrate_ODE st c a)) :=
      Near.of_same le_rfl (pose_of_StEq hend)
    refine ((h3.trans h1).trans hp.arrive).mono ?_
    linarith
  · intro hpos
    have h0 : StEq st (hc_integrate_ODE st c ((0:ℕ) * disc)) := by
      simpa using (hf.zero st).symm
    have := segLoop_spec hf (a := a) hd st (nSteps disc a) 0 st (by simp) h0
    simp only [Nat.cast_zero, zero_mul] at this
    have hn : 0 < nSteps disc a := by
      unfold nSteps; rw [Nat.ceil_pos]; positivity
    exact (this.2.2.1 hn).2

theorem hcIntegrateLoop_sampled {disc : ℝ} (hd : 0 < disc) :
    ∀ (cs : List Control) (st : State) (p : Config) (err : ℝ), 0 ≤ err → Near err (pose st) p →
      Representable st.kappa (cs.map seg) →
      ∃ q, SampledNear disc err st.kappa (cs.map seg) p ((hcIntegrateLoop disc cs st).map smp) q := by
  intro cs
  induction cs with
  | nil => intro st p err _ _ _; exact ⟨p, SampledNear.nil _ _ p⟩
  | cons c cs ih =>
    intro st p err he hp hR
    obtain ⟨hc, hj, hR'⟩ := hR
    have hc : HcOk c := hc
    have hj : c.kappa = st.kappa ∨ |c.kappa - st.kappa| > 1 / 10000 := hj
    obtain ⟨st0, hst0⟩ : ∃ st0 : State, st0 = if |c.kappa - st.kappa| > SF.epsilon then
      { st with kappa := c.kappa, d := sgn c.delta_s } else st := ⟨_, rfl⟩
    have hk0 : st0.kappa = c.kappa := by
      rw [hst0]
      rcases hj with hj | hj
      · rw [hj, sub_self, abs_zero, if_neg (not_lt.2 epsilon_pos.le)]
      · rw [if_pos (show |c.kappa - st.kappa| > SF.epsilon from hj)]
    have hp0 : Near err (pose st0) p := by
      rw [hst0]; split_ifs <;> exact hp
    have hf := hc_integrate_ODE_flow c
    obtain ⟨r, hr⟩ : ∃ r, r = segLoop (fun s h => hc_integrate_ODE s c h) disc |c.delta_s|
      (nSteps disc |c.delta_s|) 0 st0 := ⟨_, rfl⟩
    obtain ⟨e1, e2, e3⟩ := hc_part hd hc hp0 hk0 (abs_nonneg c.delta_s)
    rw [← hr] at e1 e2 e3
    have hR'' : Representable r.2.kappa (cs.map seg) := by rw [e2]; exact hR'
    obtain ⟨q, hq⟩ := ih r.2 _ (err + segTol (seg c)) (by linarith [segTol_nonneg (seg c)]) e1 hR''
    refine ⟨q, ?_⟩
    have hsplit : (hcIntegrateLoop disc (c :: cs) st).map smp
        = (if |c.kappa - st.kappa| > SF.epsilon then [smp st0] else []) ++
          r.1.map (fun x => smp x.2) ++ (hcIntegrateLoop disc cs r.2).map smp := by
      simp only [hcIntegrateLoop]
      rw [← hst0, ← hr]
      simp only [List.map_append, List.map_map]
      congr 1
      split_ifs <;> rfl
    rw [hsplit, List.map_cons]
    refine SampledNear.cons ?_ ?_ ?_ (drives_arrive _ _ _ _ _) (e2 ▸ hq)
    · rcases hj with hj | hj
      · left
        rw [hj, sub_self, abs_zero, if_neg (not_lt.2 epsilon_pos.le)]
        exact ⟨rfl, hj⟩
      · right
        have hj' : |c.kappa - st.kappa| > SF.epsilon := hj
        rw [if_pos hj']
        refine ⟨smp st0, rfl, ?_, hp0, hk0, ?_⟩
        · intro h0
          have h0 : c.kappa = st.kappa := h0
          rw [h0, sub_self, abs_zero] at hj; norm_num at hj
        · rw [hst0, if_pos hj']; rfl
    · rw [List.length_map, hr, segLoop_len hf hd]; rfl
    · intro j s hjs
      rw [List.getElem?_map, Option.map_eq_some_iff] at hjs
      obtain ⟨x, hx, rfl⟩ := hjs
      rw [hr] at hx
      obtain ⟨_, _, h3, h4⟩ := segLoop_get hf hd st0 j x hx
      obtain ⟨n1, n2⟩ := hc_ode_near hc st0 hk0 (min ((j + 1 : ℕ) * disc) |c.delta_s|)
      refine ⟨_, drives_arrive _ _ _ _ _, ?_, ?_, h4⟩
      · have h5 : Near 0 (pose x.2) _ := Near.of_same le_rfl (pose_of_StEq h3)
        refine ((h5.trans n1).trans hp0.arrive).mono ?_
        linarith
      · exact h3.2.2.2.trans n2

theorem hcInterpolateLoop_at {disc s_inter : ℝ} (hd : 0 < disc) :
    ∀ (cs : List Control), cs ≠ [] → ∀ (s : ℝ) (st : State) (p : Config) (err : ℝ),
      0 ≤ err → Near err (pose st) p → Representable st.kappa (cs.map seg) →
      s ≤ s_inter → s_inter ≤ s + s_path cs →
      AtNear err (cs.map seg) p (s_inter - s) (smp (hcInterpolateLoop disc s_inter cs s st)) := by
  intro cs
  induction cs with
  | nil => intro h0; exact absurd rfl h0
  | cons c cs ih =>
    intro _ s st p err he hp hR hs1 hs2
    obtain ⟨hc, hj, hR'⟩ := hR
    have hc : HcOk c := hc
    have hj : c.kappa = st.kappa ∨ |c.kappa - st.kappa| > 1 / 10000 := hj
    obtain ⟨st0, hst0⟩ : ∃ st0 : State, st0 = if |c.kappa - st.kappa| > SF.epsilon then
      { st with kappa := c.kappa, d := sgn c.delta_s } else st := ⟨_, rfl⟩
    have hk0 : st0.kappa = c.kappa := by
      rw [hst0]
      rcases hj with hj | hj
      · rw [hj, sub_self, abs_zero, if_neg (not_lt.2 epsilon_pos.le)]
      · rw [if_pos (show |c.kappa - st.kappa| > SF.epsilon from hj)]
    have hp0 : Near err (pose st0) p := by
      rw [hst0]; split_ifs <;> exact hp
    rw [s_path_cons] at hs2
    simp only [List.map_cons, hcInterpolateLoop]
    rw [← hst0]
    by_cases hgt : s + |c.delta_s| > s_inter
    · rw [if_pos hgt]
      have ha : |c.delta_s| - (s + |c.delta_s| - s_inter) = s_inter - s := by ring
      rw [ha]
      obtain ⟨p1, p2, p3⟩ := hc_part hd hc hp0 hk0 (show 0 ≤ s_inter - s by linarith)
      exact AtNear.here (by linarith) (by simp only [seg]; linarith) (drives_arrive _ _ _ _ _) p1 p2 p3
    · rw [if_neg hgt]
      obtain ⟨p1, p2, p3⟩ := hc_part hd hc hp0 hk0 (abs_nonneg c.delta_s)
      have hle : s + |c.delta_s| ≤ s_inter := not_lt.1 hgt
      by_cases hcs : cs = []
      · subst hcs
        have : s_inter - s = |c.delta_s| := by simp [s_path] at hs2; linarith
        rw [this]
        simp only [hcInterpolateLoop, List.map_nil]
        exact AtNear.here (abs_nonneg _) le_rfl (drives_arrive _ _ _ _ _) p1 p2 p3
      · have hR'' : Representable (c.kappa + c.sigma * |c.delta_s|) (cs.map seg) := hR'
        rw [← p2] at hR''
        have := ih hcs (s + |c.delta_s|) _ _ (err + segTol (seg c))
          (by linarith [segTol_nonneg (seg c)]) p1 hR'' hle (by linarith)
        have e : s_inter - s = |(seg c).len| + (s_inter - (s + |c.delta_s|)) := by
          simp only [seg]; ring
        rw [e]
        exact AtNear.later (drives_arrive _ _ _ _ _) this

end Props
