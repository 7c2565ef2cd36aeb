import Verif.Model.Memory
import Mathlib.Data.List.Perm.Basic
import Mathlib.Data.List.ProdSigma
import Mathlib.Logic.Function.Basic
import Mathlib.Tactic.Linarith
import Mathlib.Tactic.TautoSet

/-!
# Lemmas on the memory of the planners

The operations behave the same on every heap (`exec_frame`), so that a row need only be looked at on the empty heap
(`RowOk`). The rest follows which objects are owned by the rows, the paths and the planner.
-/

namespace SF.Mem

/-- The address a pointer holds. -/
def Ptr.addr? : Ptr → Option ℕ
  | .obj a => some a
  | _ => none

/-- The addresses held by some pointers. -/
def addrs (ps : List Ptr) : List ℕ := ps.filterMap Ptr.addr?

/-- All living objects have addresses given out before. -/
def Heap.Good (h : Heap) : Prop := ∀ a ∈ h.live, a < h.next

/-! ## Every heap is like the empty one -/

def Ptr.shift (n : ℕ) : Ptr → Ptr
  | .obj a => .obj (a + n)
  | .null => .null
  | .uninit => .uninit

def Heap.frame (n : ℕ) (F : List ℕ) (h : Heap) : Heap := ⟨h.next + n, h.live.map (· + n) ++ F⟩

section frame
variable {n : ℕ} {F : List ℕ} (hF : ∀ a ∈ F, a < n)
include hF

theorem mem_frame (h : Heap) (a : ℕ) : a + n ∈ (h.frame n F).live ↔ a ∈ h.live := by
  unfold Heap.frame
  simp only [List.mem_append, List.mem_map]
  constructor
  · rintro (⟨b, hb, hab⟩ | h)
    · have : b = a := by omega
      rwa [← this]
    · have := hF _ h; omega
  · intro h; exact Or.inl ⟨a, h, rfl⟩

theorem access_frame (h : Heap) (p : Ptr) : (h.frame n F).access (p.shift n) = h.access p := by
  cases p with
  | uninit => rfl
  | null => rfl
  | obj a =>
    simp only [Heap.access, Ptr.shift]
    by_cases ha : a ∈ h.live
    · rw [if_pos ha, if_pos ((mem_frame hF h a).2 ha)]
    · rw [if_neg ha, if_neg (fun hc => ha ((mem_frame hF h a).1 hc))]

theorem accessAll_frame (h : Heap) (ps : List Ptr) :
    (h.frame n F).accessAll (ps.map (Ptr.shift n)) = h.accessAll ps := by
  induction ps with
  | nil => rfl
  | cons p ps ih =>
    simp only [List.map_cons, Heap.accessAll, access_frame hF, ih]

omit hF in
theorem erase_frame (L : List ℕ) (a : ℕ) (ha : a ∈ L) :
    (L.map (· + n) ++ F).erase (a + n) = (L.erase a).map (· + n) ++ F := by
  rw [List.erase_append_left _ (List.mem_map.2 ⟨a, ha, rfl⟩)]
  congr 1
  rw [List.map_erase (fun x y h => by simpa using h)]

theorem free_frame (h : Heap) (p : Ptr) :
    (h.frame n F).free (p.shift n) = (h.free p).map (Heap.frame n F) := by
  cases p with
  | uninit => rfl
  | null => rfl
  | obj a =>
    simp only [Heap.free, Ptr.shift]
    by_cases ha : a ∈ h.live
    · rw [if_pos ha, if_pos ((mem_frame hF h a).2 ha)]
      simp only [Heap.frame, Except.map, erase_frame _ _ ha]
    · rw [if_neg ha, if_neg (fun hc => ha ((mem_frame hF h a).1 hc))]
      rfl

omit hF in
theorem alloc_frame (h : Heap) : (h.frame n F).alloc = (h.alloc).frame n F := by
  simp only [Heap.frame, Heap.alloc, List.map_cons, List.cons_append, Heap.mk.injEq, and_true]
  omega

theorem step_frame (e : Env) (h : Heap) (o : Op) :
    step (Ptr.shift n ∘ e) (h.frame n F) o = (step e h o).map (fun x => (Ptr.shift n ∘ x.1, x.2.frame n F)) := by
  cases o with
  | new x reads =>
    simp only [step]
    rw [← List.map_map, accessAll_frame hF, alloc_frame]
    have hu : Function.update (Ptr.shift n ∘ e) x (Ptr.obj (h.frame n F).next)
        = Ptr.shift n ∘ Function.update e x (Ptr.obj h.next) := by
      rw [Function.comp_update]; rfl
    rw [hu]
    cases h.accessAll (reads.map e) <;> rfl
  | read xs =>
    simp only [step]
    rw [← List.map_map, accessAll_frame hF]
    cases h.accessAll (xs.map e) <;> rfl
  | set x y =>
    simp only [step]
    have hs : (Ptr.shift n ∘ e) y = .uninit ↔ e y = .uninit := by
      simp only [Function.comp]
      cases e y <;> simp [Ptr.shift]
    by_cases hy : e y = .uninit
    · rw [if_pos hy, if_pos (hs.2 hy)]; rfl
    · rw [if_neg hy, if_neg (fun hc => hy (hs.1 hc))]
      have hu : Function.update (Ptr.shift n ∘ e) x ((Ptr.shift n ∘ e) y)
          = Ptr.shift n ∘ Function.update e x (e y) := by
        rw [Function.comp_update]; rfl
      rw [hu]; rfl
  | delete x =>
    simp only [step, Function.comp]
    rw [free_frame hF]
    cases h.free (e x) <;> rfl

theorem exec_frame (os : List Op) (e : Env) (h : Heap) :
    exec os (Ptr.shift n ∘ e) (h.frame n F)
      = (exec os e h).map (fun x => (Ptr.shift n ∘ x.1, x.2.frame n F)) := by
  induction os generalizing e h with
  | nil => rfl
  | cons o os ih =>
    simp only [exec]
    rw [step_frame hF]
    cases hs : step e h o with
    | error f => rfl
    | ok x =>
      obtain ⟨e', h'⟩ := x
      exact ih e' h'

end frame

theorem shift_init (n : ℕ) : Ptr.shift n ∘ Env.init = Env.init := by
  funext x; cases x <;> rfl

/-! ## Addresses stay below the next free one -/

theorem good_alloc {h : Heap} (hg : h.Good) : h.alloc.Good := by
  intro a ha
  simp only [Heap.alloc, List.mem_cons] at ha ⊢
  rcases ha with rfl | ha
  · omega
  · have := hg a ha; omega

theorem free_good {h h' : Heap} {p : Ptr} (hg : h.Good) (hf : h.free p = .ok h') :
    h'.Good ∧ h'.next = h.next := by
  cases p with
  | uninit => simp [Heap.free] at hf
  | null => simp only [Heap.free, Except.ok.injEq] at hf; rw [← hf]; exact ⟨hg, rfl⟩
  | obj a =>
    simp only [Heap.free] at hf
    split_ifs at hf
    simp only [Except.ok.injEq] at hf
    rw [← hf]
    exact ⟨fun b hb => hg b (List.mem_of_mem_erase hb), rfl⟩

theorem step_good {e e' : Env} {h h' : Heap} {o : Op} (hg : h.Good) (hs : step e h o = .ok (e', h')) :
    h'.Good := by
  cases o with
  | new x reads =>
    simp only [step] at hs
    cases ha : h.accessAll (reads.map e) with
    | error f => rw [ha] at hs; simp [bind, Except.bind] at hs
    | ok u =>
      rw [ha] at hs
      simp only [bind, Except.bind, pure, Except.pure, Except.ok.injEq, Prod.mk.injEq] at hs
      rw [← hs.2]; exact good_alloc hg
  | read xs =>
    simp only [step] at hs
    cases ha : h.accessAll (xs.map e) with
    | error f => rw [ha] at hs; simp [bind, Except.bind] at hs
    | ok u =>
      rw [ha] at hs
      simp only [bind, Except.bind, pure, Except.pure, Except.ok.injEq, Prod.mk.injEq] at hs
      rw [← hs.2]; exact hg
  | set x y =>
    simp only [step] at hs
    split_ifs at hs
    simp only [pure, Except.pure, Except.ok.injEq, Prod.mk.injEq] at hs
    rw [← hs.2]; exact hg
  | delete x =>
    simp only [step] at hs
    cases ha : h.free (e x) with
    | error f => rw [ha] at hs; simp [bind, Except.bind] at hs
    | ok u =>
      rw [ha] at hs
      simp only [bind, Except.bind, pure, Except.pure, Except.ok.injEq, Prod.mk.injEq] at hs
      rw [← hs.2]; exact (free_good hg ha).1

theorem exec_good {os : List Op} {e e' : Env} {h h' : Heap} (hg : h.Good) (hs : exec os e h = .ok (e', h')) :
    h'.Good := by
  induction os generalizing e h with
  | nil => simp only [exec, Except.ok.injEq, Prod.mk.injEq] at hs; rw [← hs.2]; exact hg
  | cons o os ih =>
    simp only [exec] at hs
    cases ha : step e h o with
    | error f => rw [ha] at hs; simp [bind, Except.bind] at hs
    | ok x =>
      obtain ⟨e1, h1⟩ := x
      rw [ha] at hs
      exact ih (step_good hg ha) hs

/-! ## Rows -/

/-- The pointers of a path made from a row. -/
def memberOf (p : Planner) (e : Env) : Var → Ptr := fun x => if x ∈ p.passed then e x else .null

/-- What is needed of a row that has been filled while the objects in `F` were alive: the pointers are initialised;
the fields that are released, and those that a path made from the row releases, hold exactly the objects made, each
once; and if the row is filled the fields that are used hold objects. -/
structure Owns (p : Planner) (r : Row) (o : Tests) (F : List ℕ) (e : Env) (L : List ℕ) : Prop where
  cleaned : ∀ x ∈ p.cleaned, e x ≠ .uninit
  destroyed : ∀ x ∈ p.destroyed, memberOf p e x ≠ .uninit
  cleanedPerm : L.Perm (addrs (p.cleaned.map e) ++ F)
  destroyedPerm : L.Perm (addrs (p.destroyed.map (memberOf p e)) ++ F)
  uses : ∀ x ∈ r.uses, x ∈ p.destroyed
  used : r.guard o = true → ∀ x ∈ r.uses, ∃ a, memberOf p e x = .obj a

/-- A row behaves well on the empty heap. -/
def RowOk (p : Planner) (r : Row) (o : Tests) : Prop :=
  ∃ e h, r.run o ⟨0, []⟩ = .ok (e, h) ∧ Owns p r o [] e h.live

theorem addrs_shift (n : ℕ) (ps : List Ptr) : addrs (ps.map (Ptr.shift n)) = (addrs ps).map (· + n) := by
  unfold addrs
  rw [List.filterMap_map, List.map_filterMap]
  congr 1
  funext p
  cases p <;> rfl

theorem memberOf_shift (p : Planner) (e : Env) (n : ℕ) :
    memberOf p (Ptr.shift n ∘ e) = Ptr.shift n ∘ memberOf p e := by
  funext x
  simp only [memberOf, Function.comp]
  split_ifs <;> rfl

theorem shift_uninit {n : ℕ} {p : Ptr} (h : p ≠ .uninit) : p.shift n ≠ .uninit := by
  cases p <;> simp_all [Ptr.shift]

/-- A row that behaves well on the empty heap behaves well on every heap. -/
theorem run_ok {p : Planner} {r : Row} {o : Tests} (hr : RowOk p r o) {h : Heap} (hg : h.Good) :
    ∃ e h', r.run o h = .ok (e, h') ∧ h'.Good ∧ Owns p r o h.live e h'.live := by
  obtain ⟨e, h0, hrun, ho⟩ := hr
  have hfr : r.run o h = .ok (Ptr.shift h.next ∘ e, h0.frame h.next h.live) := by
    have hh : (Heap.frame h.next h.live ⟨0, []⟩) = h := by
      cases h; simp [Heap.frame]
    unfold Row.run at hrun ⊢
    split_ifs at hrun ⊢
    · have := exec_frame (F := h.live) (n := h.next) hg (r.body o) Env.init ⟨0, []⟩
      rw [shift_init, hh, hrun] at this
      exact this
    · simp only [Except.ok.injEq, Prod.mk.injEq] at hrun ⊢
      rw [← hrun.1, ← hrun.2, shift_init, hh]
      exact ⟨rfl, rfl⟩
  have hgood : (h0.frame h.next h.live).Good := by
    have h00 : h0.Good := by
      unfold Row.run at hrun
      split_ifs at hrun
      · exact exec_good (h := ⟨0, []⟩) (fun a ha => by simp at ha) hrun
      · simp only [Except.ok.injEq, Prod.mk.injEq] at hrun
        rw [← hrun.2]; intro a ha; simp at ha
    intro a ha
    simp only [Heap.frame, List.mem_append, List.mem_map] at ha ⊢
    rcases ha with ⟨b, hb, rfl⟩ | ha
    · have := h00 b hb; omega
    · have := hg a ha; omega
  refine ⟨_, _, hfr, hgood, ?_, ?_, ?_, ?_, ho.uses, ?_⟩
  · intro x hx; exact shift_uninit (ho.cleaned x hx)
  · intro x hx; rw [memberOf_shift]; exact shift_uninit (ho.destroyed x hx)
  · rw [← List.map_map, addrs_shift]
    simp only [Heap.frame]
    refine List.Perm.append_right _ (List.Perm.map _ ?_)
    simpa using ho.cleanedPerm
  · rw [memberOf_shift, ← List.map_map, addrs_shift]
    simp only [Heap.frame]
    refine List.Perm.append_right _ (List.Perm.map _ ?_)
    simpa using ho.destroyedPerm
  · intro hgd x hx
    obtain ⟨a, ha⟩ := ho.used hgd x hx
    refine ⟨a + h.next, ?_⟩
    rw [memberOf_shift]
    simp only [Function.comp, ha, Ptr.shift]

/-! ## Release -/

theorem free_ok {h : Heap} {p : Ptr} {R : List ℕ} (hg : h.Good) (hp : p ≠ .uninit)
    (hl : h.live.Perm (addrs [p] ++ R)) :
    ∃ h', h.free p = .ok h' ∧ h'.Good ∧ h'.live.Perm R := by
  cases p with
  | uninit => exact absurd rfl hp
  | null => exact ⟨h, rfl, hg, by simpa [addrs, Ptr.addr?, List.filterMap_cons] using hl⟩
  | obj a =>
    have hl' : h.live.Perm (a :: R) := by simpa [addrs, Ptr.addr?] using hl
    have ha : a ∈ h.live := hl'.mem_iff.2 (List.mem_cons_self)
    have hf : h.free (.obj a) = .ok ⟨h.next, h.live.erase a⟩ := by simp [Heap.free, ha]
    refine ⟨_, hf, (free_good hg hf).1, ?_⟩
    have := hl'.erase a
    simpa using this

theorem freeAll_ok {ps : List Ptr} {h : Heap} {R : List ℕ} (hg : h.Good) (hp : ∀ p ∈ ps, p ≠ .uninit)
    (hl : h.live.Perm (addrs ps ++ R)) :
    ∃ h', Heap.freeAll ps h = .ok h' ∧ h'.Good ∧ h'.live.Perm R := by
  induction ps generalizing h with
  | nil => exact ⟨h, rfl, hg, by simpa [addrs] using hl⟩
  | cons p ps ih =>
    have hsplit : addrs (p :: ps) = addrs [p] ++ addrs ps := by
      rw [show p :: ps = [p] ++ ps from rfl]; unfold addrs; rw [List.filterMap_append]
    rw [hsplit, List.append_assoc] at hl
    obtain ⟨h1, hf1, hg1, hl1⟩ := free_ok hg (hp p (by simp)) hl
    obtain ⟨h2, hf2, hg2, hl2⟩ := ih hg1 (fun q hq => hp q (by simp [hq])) hl1
    refine ⟨h2, ?_, hg2, hl2⟩
    simp only [Heap.freeAll, hf1]
    exact hf2

/-! ## Access -/

theorem access_ok {h : Heap} {a : ℕ} (ha : a ∈ h.live) : h.access (.obj a) = .ok () := by
  simp [Heap.access, ha]

theorem accessAll_ok {h : Heap} {ps : List Ptr} (hp : ∀ p ∈ ps, ∃ a ∈ h.live, p = .obj a) :
    h.accessAll ps = .ok () := by
  induction ps with
  | nil => rfl
  | cons p ps ih =>
    obtain ⟨a, ha, rfl⟩ := hp p (by simp)
    simp only [Heap.accessAll, access_ok ha]
    exact ih (fun q hq => hp q (by simp [hq]))

/-- Pointers that are `nullptr` or hold living objects can only fail for `nullptr`. -/
theorem accessAll_null {h : Heap} {ps : List Ptr} (hp : ∀ p ∈ ps, p = .null ∨ ∃ a ∈ h.live, p = .obj a) :
    h.accessAll ps = .ok () ∨ h.accessAll ps = .error .null := by
  induction ps with
  | nil => exact Or.inl rfl
  | cons p ps ih =>
    rcases hp p (by simp) with rfl | ⟨a, ha, rfl⟩
    · exact Or.inr rfl
    · simp only [Heap.accessAll, access_ok ha]
      exact ih (fun q hq => hp q (by simp [hq]))

/-! ## One pair of circles -/

/-- All rows of a planner behave well for all outcomes of the tests. -/
def PlannerOk (p : Planner) : Prop := ∀ r ∈ p.rows, ∀ o, RowOk p r o

/-- What the rows of the table own. -/
def held (p : Planner) (es : List Env) : List ℕ := addrs (es.flatMap fun e => p.cleaned.map e)

theorem addrs_append (as bs : List Ptr) : addrs (as ++ bs) = addrs as ++ addrs bs := by
  unfold addrs; rw [List.filterMap_append]

theorem fill_ok {p : Planner} {rs : List Row} (hr : ∀ r ∈ rs, ∀ o, RowOk p r o) (o : ℕ → Tests) (k : ℕ) {h : Heap}
    (hg : h.Good) :
    ∃ es h', fill o k rs h = .ok (es, h') ∧ h'.Good ∧ h'.live.Perm (held p es ++ h.live) ∧ es.length = rs.length ∧
      (∀ e ∈ es, ∀ x ∈ p.cleaned, e x ≠ .uninit) ∧
      ∀ i (hi : i < rs.length) (hi' : i < es.length), ∃ F L, Owns p rs[i] (o (k + i)) F es[i] L := by
  induction rs generalizing k h with
  | nil => exact ⟨[], h, rfl, hg, by simp [held, addrs], rfl, by simp, fun i hi => by simp at hi⟩
  | cons r rs ih =>
    obtain ⟨e, h1, hrun, hg1, ho⟩ := run_ok (hr r (by simp) (o k)) hg
    obtain ⟨es, h2, hf, hg2, hl2, hlen, hun, hrow⟩ := ih (fun r hr' => hr r (by simp [hr'])) (k + 1) hg1
    refine ⟨e :: es, h2, ?_, hg2, ?_, by simp [hlen], ?_, ?_⟩
    · simp only [fill, hrun, bind, Except.bind]
      rw [hf]; rfl
    · refine hl2.trans ?_
      unfold held
      rw [List.flatMap_cons, addrs_append]
      refine (List.Perm.append_left _ ho.cleanedPerm).trans ?_
      rw [← List.append_assoc]
      exact List.Perm.append_right _ List.perm_append_comm
    · intro e' he'
      rcases List.mem_cons.1 he' with rfl | he'
      · exact ho.cleaned
      · exact hun e' he'
    · intro i hi hi'
      cases i with
      | zero => exact ⟨_, _, ho⟩
      | succ i =>
        have := hrow i (by simpa using hi) (by simpa using hi')
        simpa [Nat.add_assoc, Nat.add_comm 1 i] using this

/-- What a path owns. -/
def PathObj.holds (p : Planner) (q : PathObj) : List ℕ := q.addr :: addrs (p.destroyed.map q.member)

/-- A path made from a row. -/
structure Made (p : Planner) (o : ℕ → Tests) (best : ℕ) (q : PathObj) : Prop where
  type : q.type = best
  member : ∀ x ∈ p.destroyed, q.member x ≠ .uninit
  uses : ∀ x ∈ (p.rows.map Row.uses).getD best [], x ∈ p.destroyed
  used : (∃ r, p.rows[best]? = some r ∧ r.guard (o best) = true) →
    ∀ x ∈ (p.rows.map Row.uses).getD best [], ∃ a, q.member x = .obj a

theorem perm_getD_eraseIdx {α : Type*} (l : List α) (i : ℕ) (hi : i < l.length) (d : α) :
    l.Perm (l.getD i d :: l.eraseIdx i) := by
  have h1 : l.getD i d = l[i] := by simp [List.getD, hi]
  rw [h1]
  exact (List.getElem_cons_eraseIdx_perm hi).symm

theorem circlesPath_ok {p : Planner} (hp : PlannerOk p) (o : ℕ → Tests) {best : ℕ} (hb : best < p.rows.length)
    {c1 c2 : ℕ} {h : Heap} (hg : h.Good) (h1 : c1 ∈ h.live) (h2 : c2 ∈ h.live) :
    ∃ q h', circlesPath p o best c1 c2 h = .ok (q, h') ∧ h'.Good ∧ h'.live.Perm (q.holds p ++ h.live) ∧
      Made p o best q := by
  obtain ⟨es, h', hf, hg', hl, hlen, hun, hrow⟩ := fill_ok hp o 0 hg
  have hbe : best < es.length := by rw [hlen]; exact hb
  have hgd : es.getD best Env.init = es[best] := by simp [List.getD, hbe]
  obtain ⟨F, L, ho⟩ := hrow best hb hbe
  rw [Nat.zero_add] at ho
  obtain ⟨e, he⟩ : ∃ e, e = es[best] := ⟨_, rfl⟩
  rw [← he] at ho
  -- what the rows hold
  have hheld : (held p es).Perm (addrs (p.cleaned.map e) ++ held p (es.eraseIdx best)) := by
    have := perm_getD_eraseIdx es best hbe Env.init
    rw [hgd, ← he] at this
    unfold held
    have h3 := (this.flatMap_right (fun e : Env => p.cleaned.map e)).filterMap Ptr.addr?
    rw [List.flatMap_cons] at h3
    rw [← addrs_append]
    exact h3
  have hmem : (addrs (p.cleaned.map e)).Perm (addrs (p.destroyed.map (memberOf p e))) :=
    (List.perm_append_right_iff F).1 (ho.cleanedPerm.symm.trans ho.destroyedPerm)
  obtain ⟨q, hq⟩ : ∃ q : PathObj, q = ⟨h'.next, best, memberOf p e⟩ := ⟨_, rfl⟩
  have hfree := freeAll_ok (ps := (es.eraseIdx best).flatMap fun e => p.cleaned.map e) (h := h'.alloc)
    (R := q.holds p ++ h.live) (good_alloc hg') (by
      intro x hx
      obtain ⟨e', he', hx'⟩ := List.mem_flatMap.1 hx
      obtain ⟨y, hy, rfl⟩ := List.mem_map.1 hx'
      exact hun e' (List.mem_of_mem_eraseIdx he') y hy) (by
      have e1 : h'.alloc.live = h'.next :: h'.live := rfl
      rw [e1]
      have e2 : q.holds p = h'.next :: addrs (p.destroyed.map (memberOf p e)) := by rw [hq]; rfl
      rw [e2]
      refine (List.Perm.cons _ hl).trans ?_
      refine (List.Perm.cons _ ((hheld.trans (List.Perm.append_right _ hmem)).append_right _)).trans ?_
      change (h'.next :: (addrs _ ++ held p (es.eraseIdx best) ++ h.live)).Perm (held p (es.eraseIdx best) ++ _)
      rw [List.cons_append, List.append_assoc]
      refine List.Perm.trans ?_ List.perm_middle.symm
      refine List.Perm.cons _ ?_
      rw [← List.append_assoc, ← List.append_assoc]
      exact List.Perm.append_right _ List.perm_append_comm)
  obtain ⟨h'', hfr, hg'', hl''⟩ := hfree
  refine ⟨q, h'', ?_, hg'', hl'', ?_⟩
  · unfold circlesPath
    rw [accessAll_ok (by
      intro x hx
      simp only [List.mem_cons, List.not_mem_nil, or_false] at hx
      rcases hx with rfl | rfl
      · exact ⟨c1, h1, rfl⟩
      · exact ⟨c2, h2, rfl⟩)]
    simp only [bind, Except.bind, hf, hfr, hgd, ← he, pure, Except.pure, hq]
    rfl
  · have hus : (p.rows.map Row.uses).getD best [] = (p.rows[best]).uses := by
      simp [List.getD, hb]
    refine ⟨by rw [hq], ?_, ?_, ?_⟩
    · rw [hq]; exact ho.destroyed
    · rw [hus]; exact ho.uses
    · rintro ⟨r, hr, hgr⟩
      rw [hus, hq]
      have : r = p.rows[best] := by
        rw [List.getElem?_eq_getElem hb] at hr; exact (Option.some.inj hr).symm
      rw [this] at hgr
      exact ho.used hgr

/-! ## Paths -/

theorem destroy_ok {p : Planner} {q : PathObj} (hm : ∀ x ∈ p.destroyed, q.member x ≠ .uninit) {h : Heap}
    {R : List ℕ} (hg : h.Good) (hl : h.live.Perm (q.holds p ++ R)) :
    ∃ h', destroy p q h = .ok h' ∧ h'.Good ∧ h'.live.Perm R := by
  have ha : q.addr ∈ h.live := hl.mem_iff.2 (by simp [PathObj.holds])
  obtain ⟨h1, hf1, hg1, hl1⟩ := freeAll_ok (ps := p.destroyed.map q.member) (R := q.addr :: R) hg (by
    intro x hx
    obtain ⟨y, hy, rfl⟩ := List.mem_map.1 hx
    exact hm y hy) (by
    refine hl.trans ?_
    unfold PathObj.holds
    rw [List.cons_append]
    exact List.perm_middle.symm)
  obtain ⟨h2, hf2, hg2, hl2⟩ := free_ok (p := .obj q.addr) (R := R) hg1 (by simp)
    (by simpa [addrs, Ptr.addr?] using hl1)
  refine ⟨h2, ?_, hg2, hl2⟩
  unfold destroy
  rw [access_ok ha]
  simp only [bind, Except.bind, hf1]
  exact hf2

/-- What a path that may be `nullptr` owns. -/
def holdsO (p : Planner) : Option PathObj → List ℕ
  | none => []
  | some q => q.holds p

/-- The pointers of the path are initialised. -/
def InitO (p : Planner) : Option PathObj → Prop
  | none => True
  | some q => ∀ x ∈ p.destroyed, q.member x ≠ .uninit

theorem deleteAll_ok {p : Planner} {qs : List (Option PathObj)} (hm : ∀ q ∈ qs, InitO p q) {h : Heap} {R : List ℕ}
    (hg : h.Good) (hl : h.live.Perm (qs.flatMap (holdsO p) ++ R)) :
    ∃ h', deleteAll p qs h = .ok h' ∧ h'.Good ∧ h'.live.Perm R := by
  induction qs generalizing h with
  | nil => exact ⟨h, rfl, hg, by simpa using hl⟩
  | cons q qs ih =>
    rw [List.flatMap_cons, List.append_assoc] at hl
    have h1 : ∃ h', delete p q h = .ok h' ∧ h'.Good ∧ h'.live.Perm (qs.flatMap (holdsO p) ++ R) := by
      cases q with
      | none => exact ⟨h, rfl, hg, by simpa [holdsO] using hl⟩
      | some q => exact destroy_ok (hm (some q) (by simp)) hg hl
    obtain ⟨h1, hd1, hg1, hl1⟩ := h1
    obtain ⟨h2, hd2, hg2, hl2⟩ := ih (fun q hq => hm q (by simp [hq])) hg1 hl1
    exact ⟨h2, by simp only [deleteAll, hd1]; exact hd2, hg2, hl2⟩

/-! ## All pairs of circles -/

theorem newCircles_ok (n : ℕ) {h : Heap} (hg : h.Good) :
    (newCircles n h).2.Good ∧ (newCircles n h).2.live.Perm ((newCircles n h).1 ++ h.live) ∧
      (newCircles n h).1.length = n := by
  induction n generalizing h with
  | zero => exact ⟨hg, by simp [newCircles], rfl⟩
  | succ n ih =>
    obtain ⟨i1, i2, i3⟩ := ih (good_alloc hg)
    refine ⟨i1, ?_, ?_⟩
    · simp only [newCircles, List.cons_append]
      refine i2.trans ?_
      exact List.perm_middle
    · simp only [newCircles, List.length_cons, i3]

/-- The outcomes are possible for the planner: the best row is a row, the best pair a pair. -/
def Choices.Fits (c : Choices) (p : Planner) : Prop :=
  (∀ k, c.row k < p.rows.length) ∧ c.pair < p.circles * p.circles

theorem tryPairs_ok {p : Planner} (hp : PlannerOk p) (c : Choices) (hc : ∀ k, c.row k < p.rows.length) (k : ℕ)
    {ab : List (ℕ × ℕ)} {h : Heap} (hg : h.Good) (hab : ∀ x ∈ ab, x.1 ∈ h.live ∧ x.2 ∈ h.live) :
    ∃ qs h', tryPairs p c k ab h = .ok (qs, h') ∧ h'.Good ∧ h'.live.Perm (qs.flatMap (holdsO p) ++ h.live) ∧
      qs.length = ab.length ∧ (∀ q ∈ qs, InitO p q) ∧
      ∀ i (hi : i < qs.length), (c.skip (k + i) = true → qs[i] = none) ∧
        (c.skip (k + i) = false → ∃ q, qs[i] = some q ∧ Made p (c.tests (k + i)) (c.row (k + i)) q) := by
  induction ab generalizing k h with
  | nil => exact ⟨[], h, rfl, hg, by simp, rfl, by simp, fun i hi => by simp at hi⟩
  | cons x ab ih =>
    obtain ⟨a, b⟩ := x
    -- the first pair
    have hfirst : ∃ y h1, tryPair p c k a b h = .ok (y, h1) ∧ h1.Good ∧
        h1.live.Perm (holdsO p y ++ h.live) ∧ InitO p y ∧ (c.skip k = true → y = none) ∧
        (c.skip k = false → ∃ q, y = some q ∧ Made p (c.tests k) (c.row k) q) := by
      by_cases hs : c.skip k = true
      · refine ⟨none, h, by unfold tryPair; rw [if_pos hs], hg, by simp [holdsO], trivial, fun _ => rfl, fun hf => ?_⟩
        rw [hs] at hf; cases hf
      · have hab1 := hab (a, b) (by simp)
        obtain ⟨q, h1, hq, hg1, hl1, hm⟩ := circlesPath_ok hp (c.tests k) (hc k) hg hab1.1 hab1.2
        refine ⟨some q, h1, ?_, hg1, hl1, hm.member, fun hf => absurd hf hs, fun _ => ⟨q, rfl, hm⟩⟩
        unfold tryPair
        rw [if_neg hs]
        have ha : q.addr ∈ h1.live := hl1.mem_iff.2 (by simp [PathObj.holds])
        simp only [bind, Except.bind, hq, access_ok ha]
        rfl
    obtain ⟨y, h1, hy, hg1, hl1, hi1, hs1, hs2⟩ := hfirst
    obtain ⟨ys, h2, hys, hg2, hl2, hlen, hi2, hrow⟩ := ih (k + 1) hg1 (fun x hx => by
      have := hab x (by simp [hx])
      exact ⟨hl1.mem_iff.2 (List.mem_append_right _ this.1), hl1.mem_iff.2 (List.mem_append_right _ this.2)⟩)
    refine ⟨y :: ys, h2, ?_, hg2, ?_, by simp [hlen], ?_, ?_⟩
    · simp only [tryPairs, hy]
      simp only [bind, Except.bind, hys]
      rfl
    · refine hl2.trans ?_
      rw [List.flatMap_cons]
      refine (List.Perm.append_left _ hl1).trans ?_
      rw [← List.append_assoc]
      exact List.Perm.append_right _ List.perm_append_comm
    · intro q hq
      rcases List.mem_cons.1 hq with rfl | hq
      · exact hi1
      · exact hi2 q hq
    · intro i hi
      cases i with
      | zero => exact ⟨hs1, hs2⟩
      | succ i =>
        have := hrow i (by simpa using hi)
        simpa [Nat.add_assoc, Nat.add_comm 1 i] using this

theorem zip_perm (as bs : List ℕ) (hl : as.length = bs.length) :
    (addrs ((as.zip bs).flatMap fun ab => [Ptr.obj ab.1, Ptr.obj ab.2])).Perm (as ++ bs) := by
  induction as generalizing bs with
  | nil =>
    have : bs = [] := by simpa using hl.symm
    subst this; simp [addrs]
  | cons a as ih =>
    cases bs with
    | nil => simp at hl
    | cons b bs =>
      have := ih bs (by simpa using hl)
      rw [List.zip_cons_cons, List.flatMap_cons, addrs_append]
      have e : addrs [Ptr.obj a, Ptr.obj b] = [a, b] := rfl
      rw [e]
      refine (List.Perm.append_left _ this).trans ?_
      rw [List.cons_append]
      refine List.Perm.cons _ ?_
      simp only [List.cons_append, List.nil_append]
      exact List.perm_middle.symm

/-- The planner leaves behind the path it returns, and nothing else. -/
theorem plan_ok {p : Planner} (hp : PlannerOk p) {c : Choices} (hc : c.Fits p) {h : Heap} (hg : h.Good) :
    ∃ q h', plan p c h = .ok (q, h') ∧ h'.Good ∧ h'.live.Perm (holdsO p q ++ h.live) ∧ InitO p q ∧
      (c.skip c.pair = true → q = none) ∧
      (c.skip c.pair = false → ∃ q', q = some q' ∧ Made p (c.tests c.pair) (c.row c.pair) q') := by
  obtain ⟨hc1, hc2⟩ := hc
  obtain ⟨g1, l1, n1⟩ := newCircles_ok p.circles hg
  obtain ⟨starts, hs⟩ : ∃ s, s = (newCircles p.circles h).1 := ⟨_, rfl⟩
  obtain ⟨hA, hhA⟩ : ∃ s, s = (newCircles p.circles h).2 := ⟨_, rfl⟩
  rw [← hs, ← hhA] at l1
  rw [← hhA] at g1
  rw [← hs] at n1
  obtain ⟨g2, l2, n2⟩ := newCircles_ok p.circles g1
  obtain ⟨ends, he⟩ : ∃ s, s = (newCircles p.circles hA).1 := ⟨_, rfl⟩
  obtain ⟨hB, hhB⟩ : ∃ s, s = (newCircles p.circles hA).2 := ⟨_, rfl⟩
  rw [← he, ← hhB] at l2
  rw [← hhB] at g2
  rw [← he] at n2
  obtain ⟨qs, hC, ht, g3, l3, n3, hi3, hrow⟩ := tryPairs_ok hp c hc1 0 (ab := starts.product ends) g2 (by
    rintro ⟨a, b⟩ hx
    obtain ⟨ha, hb⟩ := List.mem_product.1 hx
    exact ⟨l2.mem_iff.2 (List.mem_append_right _ (l1.mem_iff.2 (List.mem_append_left _ ha))),
      l2.mem_iff.2 (List.mem_append_left _ hb)⟩)
  have hlen : qs.length = p.circles * p.circles := by
    rw [n3]
    have : (starts.product ends).length = starts.length * ends.length := List.length_product starts ends
    rw [this, n1, n2]
  have hpair : c.pair < qs.length := by rw [hlen]; exact hc2
  obtain ⟨hD, hfD, gD, lD⟩ := freeAll_ok
    (ps := (starts.zip ends).flatMap fun ab => [Ptr.obj ab.1, Ptr.obj ab.2]) (h := hC)
    (R := qs.flatMap (holdsO p) ++ h.live) g3 (by
      intro x hx
      obtain ⟨y, _, hy⟩ := List.mem_flatMap.1 hx
      simp only [List.mem_cons, List.not_mem_nil, or_false] at hy
      rcases hy with rfl | rfl <;> simp) (by
      refine l3.trans ?_
      refine (List.Perm.append_left _ (l2.trans (List.Perm.append_left _ l1))).trans ?_
      refine List.Perm.trans ?_ (List.Perm.append_right _ (zip_perm starts ends (by rw [n1, n2])).symm)
      rw [← List.append_assoc ends, ← List.append_assoc (qs.flatMap _), ← List.append_assoc (starts ++ ends)]
      refine List.Perm.append_right _ ?_
      refine List.perm_append_comm.trans ?_
      exact List.Perm.append_right _ List.perm_append_comm)
  have hgd : qs.getD c.pair none = qs[c.pair] := by simp [List.getD, hpair]
  obtain ⟨hE, hfE, gE, lE⟩ := deleteAll_ok (p := p) (qs := qs.eraseIdx c.pair)
    (fun q hq => hi3 q (List.mem_of_mem_eraseIdx hq)) (h := hD) (R := holdsO p qs[c.pair] ++ h.live) gD (by
      refine lD.trans ?_
      rw [← List.append_assoc]
      refine List.Perm.append_right _ ?_
      have h4 := (perm_getD_eraseIdx qs c.pair hpair none).flatMap_right (holdsO p)
      rw [hgd, List.flatMap_cons] at h4
      exact h4.trans List.perm_append_comm)
  refine ⟨qs[c.pair], hE, ?_, gE, lE, hi3 _ (List.getElem_mem hpair), ?_, ?_⟩
  · unfold plan
    simp only [← hs, ← hhA, ← he, ← hhB]
    simp only [bind, Except.bind, ht, hfD, hfE, hgd]
    rfl
  · intro h5
    have := hrow c.pair hpair
    rw [Nat.zero_add] at this
    exact this.1 h5
  · intro h5
    have := hrow c.pair hpair
    rw [Nat.zero_add] at this
    exact this.2 h5

/-! ## Queries -/

theorem get_distance_ok {p : Planner} (hp : PlannerOk p) {c : Choices} (hc : c.Fits p) {h : Heap} (hg : h.Good) :
    (c.skip c.pair = false → ∃ h', get_distance p c h = .ok h' ∧ h'.Good ∧ h'.live.Perm h.live) ∧
      (c.skip c.pair = true → get_distance p c h = .error .null) := by
  obtain ⟨q, h1, hpl, hg1, hl1, hi1, hn, hsome⟩ := plan_ok hp hc hg
  constructor
  · intro hs
    obtain ⟨q', rfl, hm⟩ := hsome hs
    obtain ⟨h2, hd, hg2, hl2⟩ := destroy_ok hm.member hg1 hl1
    have ha : q'.addr ∈ h1.live := hl1.mem_iff.2 (by simp [holdsO, PathObj.holds])
    refine ⟨h2, ?_, hg2, hl2⟩
    unfold get_distance
    simp only [bind, Except.bind, hpl, access_ok ha]
    exact hd
  · intro hs
    have := hn hs
    subst this
    unfold get_distance
    simp only [bind, Except.bind, hpl]

theorem get_controls_ok {p : Planner} (hp : PlannerOk p) {c : Choices} (hc : c.Fits p) {h : Heap} (hg : h.Good) :
    (c.skip c.pair = false →
      (∃ r, p.rows[c.row c.pair]? = some r ∧ r.guard (c.tests c.pair (c.row c.pair)) = true) →
      ∃ h', get_controls p c h = .ok h' ∧ h'.Good ∧ h'.live.Perm h.live) ∧
    ((∃ h', get_controls p c h = .ok h' ∧ h'.Good ∧ h'.live.Perm h.live) ∨ get_controls p c h = .error .null) := by
  obtain ⟨q, h1, hpl, hg1, hl1, hi1, hn, hsome⟩ := plan_ok hp hc hg
  by_cases hs : c.skip c.pair = true
  · refine ⟨fun hf => absurd hf (by simp [hs]), Or.inr ?_⟩
    have := hn hs
    subst this
    unfold get_controls
    simp only [bind, Except.bind, hpl]
  · obtain ⟨q', rfl, hm⟩ := hsome (by simpa using hs)
    obtain ⟨h2, hd, hg2, hl2⟩ := destroy_ok hm.member hg1 hl1
    have ha : q'.addr ∈ h1.live := hl1.mem_iff.2 (by simp [holdsO, PathObj.holds])
    have hall : ∀ x ∈ p.destroyed, ∀ a, q'.member x = .obj a → a ∈ h1.live := by
      intro x hx a hxa
      refine hl1.mem_iff.2 (List.mem_append_left _ ?_)
      simp only [holdsO, PathObj.holds, List.mem_cons]
      right
      unfold addrs
      rw [List.mem_filterMap]
      exact ⟨q'.member x, List.mem_map.2 ⟨x, hx, rfl⟩, by rw [hxa]; rfl⟩
    have hok : h1.accessAll (((p.rows.map Row.uses).getD q'.type []).map q'.member) = .ok () →
        ∃ h', get_controls p c h = .ok h' ∧ h'.Good ∧ h'.live.Perm h.live := by
      intro hu
      refine ⟨h2, ?_, hg2, hl2⟩
      unfold get_controls
      simp only [bind, Except.bind, hpl, access_ok ha, hu]
      exact hd
    constructor
    · intro _ hgr
      refine hok (accessAll_ok ?_)
      intro x hx
      obtain ⟨y, hy, rfl⟩ := List.mem_map.1 hx
      rw [hm.type] at hy
      obtain ⟨a, hya⟩ := hm.used hgr y hy
      exact ⟨a, hall y (hm.uses y hy) a hya, hya⟩
    · have hnull := accessAll_null (h := h1) (ps := ((p.rows.map Row.uses).getD q'.type []).map q'.member) (by
        intro x hx
        obtain ⟨y, hy, rfl⟩ := List.mem_map.1 hx
        rw [hm.type] at hy
        have hyd := hm.uses y hy
        cases hy' : q'.member y with
        | uninit => exact absurd hy' (hm.member y hyd)
        | null => exact Or.inl rfl
        | obj a => exact Or.inr ⟨a, hall y hyd a hy', rfl⟩)
      rcases hnull with hu | hu
      · exact Or.inl (hok hu)
      · right
        unfold get_controls
        simp only [bind, Except.bind, hpl, access_ok ha, hu]

end SF.Mem
