import Verif.Model.MemoryDubins
import Verif.Model.MemoryReedsShepp
import Verif.Lemmas.Memory

/-!
# The rows of the nine planners behave well

The operations of a row depend on eight truth values only. A row is therefore checked on the empty heap for all 256
of them, which by `run_ok` settles it for all heaps.
-/

namespace SF.Mem

/-- `RowOk` as a computation. -/
def rowCheck (p : Planner) (r : Row) (o : Tests) : Bool :=
  match r.run o ⟨0, []⟩ with
  | .error _ => false
  | .ok (e, h) =>
    p.cleaned.all (fun x => e x ≠ .uninit) && p.destroyed.all (fun x => memberOf p e x ≠ .uninit) &&
    h.live.isPerm (addrs (p.cleaned.map e)) && h.live.isPerm (addrs (p.destroyed.map (memberOf p e))) &&
    r.uses.all (fun x => x ∈ p.destroyed) &&
    (!r.guard o || r.uses.all (fun x => (memberOf p e x).addr?.isSome))

theorem rowCheck_ok {p : Planner} {r : Row} {o : Tests} (hc : rowCheck p r o = true) : RowOk p r o := by
  unfold rowCheck at hc
  cases hr : r.run o ⟨0, []⟩ with
  | error f => rw [hr] at hc; simp at hc
  | ok x =>
    obtain ⟨e, h⟩ := x
    rw [hr] at hc
    simp only [Bool.and_eq_true, List.all_eq_true, decide_eq_true_eq, List.isPerm_iff] at hc
    obtain ⟨⟨⟨⟨⟨h1, h2⟩, h3⟩, h4⟩, h5⟩, h6⟩ := hc
    refine ⟨e, h, hr, h1, h2, by simpa using h3, by simpa using h4, h5, ?_⟩
    intro hg x hx
    rw [hg] at h6
    simp only [Bool.not_true, Bool.false_or, List.all_eq_true] at h6
    have := h6 x hx
    cases hm : memberOf p e x with
    | uninit => rw [hm] at this; simp [Ptr.addr?] at this
    | null => rw [hm] at this; simp [Ptr.addr?] at this
    | obj a => exact ⟨a, rfl⟩

/-- A condition holds for all outcomes of the tests. -/
def allTests (f : Tests → Bool) : Bool :=
  [true, false].all fun a => [true, false].all fun b => [true, false].all fun c => [true, false].all fun d =>
  [true, false].all fun i => [true, false].all fun u => [true, false].all fun s => [true, false].all fun t =>
    f ⟨⟨a, b⟩, ⟨c, d⟩, i, u, s, t⟩

theorem allTests_iff {f : Tests → Bool} (h : allTests f = true) (o : Tests) : f o = true := by
  unfold allTests at h
  simp only [List.all_eq_true] at h
  obtain ⟨⟨a, b⟩, ⟨c, d⟩, i, u, s, t⟩ := o
  have hm : ∀ x : Bool, x ∈ [true, false] := by intro x; cases x <;> simp
  exact h a (hm a) b (hm b) c (hm c) d (hm d) i (hm i) u (hm u) s (hm s) t (hm t)

/-- All rows of a planner for all outcomes of the tests. -/
def check (p : Planner) : Bool := p.rows.all fun r => allTests (rowCheck p r)

theorem check_ok {p : Planner} (h : check p = true) : PlannerOk p := by
  unfold check at h
  rw [List.all_eq_true] at h
  intro r hr o
  exact rowCheck_ok (allTests_iff (h r hr) o)

theorem cc00_dubins_rows : PlannerOk CC00Dubins.planner := check_ok (by decide +kernel)
theorem cc0pm_dubins_rows : PlannerOk CC0pmDubins.planner := check_ok (by decide +kernel)
theorem ccpm0_dubins_rows : PlannerOk CCpm0Dubins.planner := check_ok (by decide +kernel)
theorem ccpmpm_dubins_rows : PlannerOk CCpmpmDubins.planner := check_ok (by decide +kernel)
theorem cc00_rs_rows : PlannerOk CC00ReedsShepp.planner := check_ok (by decide +kernel)
theorem hc00_rows : PlannerOk HC00.planner := check_ok (by decide +kernel)
theorem hc0pm_rows : PlannerOk HC0pm.planner := check_ok (by decide +kernel)
theorem hcpm0_rows : PlannerOk HCpm0.planner := check_ok (by decide +kernel)
theorem hcpmpm_rows : PlannerOk HCpmpm.planner := check_ok (by decide +kernel)

end SF.Mem
