import Verif.Model.GetPath
import Verif.Props.Integrate
import Verif.Props.Dubins
import Verif.Props.ReedsShepp

/-!
# `get_path` of the Dubins and Reeds-Shepp spaces: C27
-/

noncomputable section

namespace Props

open SF Spec Real

theorem integrateLoop_theta {disc : ℝ} (cs : List Control) (h : ∀ c ∈ cs, |c.kappa| ≤ 1 / 10000)
    (st : State) : ∀ e ∈ integrateLoop disc cs st, e.theta = st.theta := by
  have key : ∀ (c : Control) (n : ℕ) (a ss : ℝ) (s : State), |s.kappa| ≤ 1 / 10000 →
      (∀ x ∈ (segLoop (fun s h => integrate_ODE s c h) disc a n ss s).1, x.2.theta = s.theta) ∧
      (segLoop (fun s h => integrate_ODE s c h) disc a n ss s).2.theta = s.theta := by
    intro c n
    induction n with
    | zero => intro a ss s _; exact ⟨fun x hx => by simp [segLoop] at hx, rfl⟩
    | succ n ih =>
      intro a ss s hs
      have hk : ¬ |s.kappa| > SF.epsilon := by unfold SF.epsilon; exact not_lt.2 hs
      have hode : ∀ h, (integrate_ODE s c h).theta = s.theta ∧
          (integrate_ODE s c h).kappa = s.kappa := by
        intro h; simp [integrate_ODE, hk]
      obtain ⟨i1, i2⟩ := ih a (nextStep disc a ss).2 (integrate_ODE s c (nextStep disc a ss).1)
        (by rw [(hode _).2]; exact hs)
      rw [(hode _).1] at i1 i2
      simp only [segLoop]
      refine ⟨fun x hx => ?_, i2⟩
      rcases List.mem_cons.1 hx with rfl | hx
      · exact (hode _).1
      · exact i1 x hx
  induction cs generalizing st with
  | nil => intro e he; simp [integrateLoop] at he
  | cons c cs ih =>
    intro e he
    simp only [integrateLoop, List.mem_append, List.mem_cons, List.mem_map] at he
    obtain ⟨k1, k2⟩ := key c (nSteps disc |c.delta_s|) |c.delta_s| 0
      { st with kappa := c.kappa, d := sgn c.delta_s } (h c List.mem_cons_self)
    rcases he with (rfl | ⟨x, hx, rfl⟩) | he
    · rfl
    · exact k1 x hx
    · rw [ih (fun c' h' => h c' (List.mem_cons_of_mem _ h')) _ e he]; exact k2

/-- **C27, Reeds-Shepp, what holds.** For curvature above 1e-4 the last state of `get_path` is at
the goal pose, for every discretization. -/
theorem C27_rs_get_path_partial {sp : RSSpace} (hv : sp.Valid) (hk : sp.kappa > 1 / 10000)
    (junk : ℝ × ℝ) (s1 s2 : State) (hfar : sp.kappa * dist2 s1 s2 ≤ 10 ^ 200) :
    ∃ e, (sp.get_path junk s1 s2).getLast? = some e ∧ SameConfig (pose e) (pose s2) := by
  obtain ⟨h1, h2, h3⟩ := C43_rs_controls hv s1 s2 hfar
  obtain ⟨e, q, he, hq, hs⟩ := C11_integrate_end hv.2 junk s1 (sp.get_controls s1 s2)
    (fun c hc => ⟨(h3 c hc).2.1, (h3 c hc).1.imp_right (fun h => by rw [h]; exact hk)⟩)
    (by intro h; rw [h] at h1; simp at h1)
  obtain ⟨r, hr1, hr2⟩ := C22_rs_reaches hv s1 s2 hfar
  rw [drivesAll_iff] at hq hr1
  rw [hq, ← hr1] at hs
  exact ⟨e, he, hs.trans hr2⟩

/-- **C27, Dubins, what holds.** The same for Dubins outside the two tolerance zones. -/
theorem C27_dubins_get_path_partial {sp : DubinsSpace} (hv : sp.Valid) (hk : sp.kappa > 1 / 10000)
    (junk : ℝ × ℝ) (s1 s2 : State) (hfar : sp.kappa * dist2 s1 s2 ≤ 10 ^ 200)
    (hne : ¬ NearlyEqual sp.kappa s1 s2) (hz : ¬ NearlyTangent sp.kappa s1 s2) :
    ∃ e, (sp.get_path junk s1 s2).getLast? = some e ∧ SameConfig (pose e) (pose s2) := by
  obtain ⟨h1, h3⟩ := C17_dubins_controls hv s1 s2 hfar
  obtain ⟨e, q, he, hq, hs⟩ := C11_integrate_end hv.2 junk s1 (sp.get_controls s1 s2)
    (fun c hc => ⟨(h3 c hc).2.1, (h3 c hc).1.imp_right (fun h => by rw [h]; exact hk)⟩)
    (by intro h; rw [h] at h1; simp at h1)
  obtain ⟨r, hr1, hr2⟩ := C15_dubins_reaches hv s1 s2 hfar hne hz
  rw [drivesAll_iff] at hq hr1
  rw [hq, ← hr1] at hs
  exact ⟨e, he, hs.trans hr2⟩

/-- **C27 is false.** For every planner with curvature at most 1e-4, `get_path` never turns: no
goal with a different heading is reached (Dubins and Reeds-Shepp). -/
theorem C27_small_curvature_never_turns (junk : ℝ × ℝ) (s1 s2 : State)
    (hth : ¬ AngleEq s1.theta s2.theta) :
    (∀ sp : DubinsSpace, sp.Valid → sp.kappa ≤ 1 / 10000 → sp.kappa * dist2 s1 s2 ≤ 10 ^ 200 →
      ∀ e ∈ sp.get_path junk s1 s2, ¬ SameConfig (pose e) (pose s2)) ∧
    (∀ sp : RSSpace, sp.Valid → sp.kappa ≤ 1 / 10000 → sp.kappa * dist2 s1 s2 ≤ 10 ^ 200 →
      ∀ e ∈ sp.get_path junk s1 s2, ¬ SameConfig (pose e) (pose s2)) := by
  have small : ∀ {k K : ℝ}, K ≤ 1 / 10000 → (k = 0 ∨ |k| = K) → |k| ≤ 1 / 10000 := by
    intro k K hK h
    rcases h with h | h
    · rw [h, abs_zero]; norm_num
    · rw [h]; exact hK
  constructor
  · intro sp hv hk hfar e he hs
    have := integrateLoop_theta (sp.get_controls s1 s2)
      (fun c hc => small hk ((C17_dubins_controls hv s1 s2 hfar).2 c hc).1) _ e he
    apply hth
    have h := hs.2.2
    simp only [pose] at h
    rw [this] at h; exact h
  · intro sp hv hk hfar e he hs
    have := integrateLoop_theta (sp.get_controls s1 s2)
      (fun c hc => small hk ((C43_rs_controls hv s1 s2 hfar).2.2 c hc).1) _ e he
    apply hth
    have h := hs.2.2
    simp only [pose] at h
    rw [this] at h; exact h

/-- Concrete witness: radius 10000, goal heading a quarter turn away; the path is not empty. -/
example : ¬ AngleEq (0:ℝ) (π / 2) ∧ (⟨1 / 10000, 1⟩ : RSSpace).Valid := by
  refine ⟨?_, by norm_num, by norm_num⟩
  intro h
  have := h.sin_eq
  rw [sin_zero, sin_pi_div_two] at this
  norm_num at this

end Props
