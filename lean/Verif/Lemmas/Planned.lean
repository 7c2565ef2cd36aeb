import Verif.Lemmas.Cc00Core
import Verif.Spec.Planner
import Verif.Props.Clothoid

/-!
# From tracks to planners
-/

noncomputable section

namespace Spec

open Real Props

theorem Leads.congr {cs : List Segment} {p p' q q' : Config} {len a b c : ℝ} (h : Leads cs p q len a b c)
    (hp : SameConfig p p') (hq : SameConfig q q') : Leads cs p' q' len a b c := by
  refine ⟨?_, h.length⟩
  have h1 : Near 0 (arriveAll cs p') (arriveAll cs p) := Near.of_same le_rfl (arriveAll_congr hp).symm
  have h2 : Near 0 q q' := Near.of_same le_rfl hq
  exact ((h1.within.trans h.arrives).trans h2.within).mono (by linarith) (by linarith)

theorem Leads.leadsTo {cs : List SF.Control} {s1 s2 : SF.State} {len a b c : ℝ}
    (h : Leads (cs.map seg) (pose s1) (pose s2) len a b c) : LeadsTo cs s1 s2 a b :=
  ⟨_, drivesAll_iff.2 rfl, h.arrives⟩

/-- Not shorter than the straight line. -/
theorem Leads.euclid {cs : List Segment} {p q : Config} {len a b c : ℝ} (h : Leads cs p q len a b c) :
    p.dist q ≤ len + a + c + pathTol cs := by
  have h1 := Config.dist_triangle p (arriveAll cs p) q
  have h2 := arriveAll_dist cs p
  have h3 := h.arrives.1
  have h4 := abs_le.1 h.length
  rw [Config.dist_comm] at h2
  linarith

theorem representable_of {cs : List SF.Control} {k k' : ℝ} (h : CurvatureContinuous k (cs.map seg) k')
    (hs : Sharp cs) (hf : ∀ c ∈ cs, c.sigma = 0 → c.kappa = 0 ∨ |c.kappa| > SF.epsilon) :
    Representable k (cs.map seg) := by
  induction cs generalizing k with
  | nil => trivial
  | cons c cs ih =>
    refine ⟨?_, .inl h.1, ih h.2 (fun c hc => hs c (List.mem_cons_of_mem _ hc))
      fun c hc => hf c (List.mem_cons_of_mem _ hc)⟩
    rcases hs c List.mem_cons_self with h0 | h0
    · exact .inr ⟨h0, hf c List.mem_cons_self h0⟩
    · exact .inl h0

/-- The last state of the integrated controls. -/
theorem LeadsTo.integrate {cs : List SF.Control} {s1 s2 : SF.State} {a b k k' disc : ℝ} (h : LeadsTo cs s1 s2 a b)
    (hd : 0 < disc) (hne : cs ≠ []) (hc : CurvatureContinuous k (cs.map seg) k') (hs : Sharp cs)
    (hf : ∀ c ∈ cs, c.sigma = 0 → c.kappa = 0 ∨ |c.kappa| > SF.epsilon) :
    ∃ l e, SF.hcIntegrate disc s1 cs = some l ∧ l.getLast? = some e ∧
      Within (a + 2 * pathTol (cs.map seg)) b (pose e) (pose s2) := by
  obtain ⟨e, h1, h2⟩ := h
  cases cs with
  | nil => exact absurd rfl hne
  | cons c cs =>
    have hr := representable_of hc hs hf
    have hk : c.kappa = k := hc.1
    rw [← hk] at hr
    obtain ⟨l, e', q, g1, g2, g3, g4⟩ := C11_hc_integrate_end_near hd s1 c cs hr
    refine ⟨l, e', g1, g2, ?_⟩
    rw [drivesAll_iff.1 h1] at h2
    rw [drivesAll_iff.1 g3] at g4
    exact (g4.within.trans h2).mono (by linarith) (by linarith)

end Spec
