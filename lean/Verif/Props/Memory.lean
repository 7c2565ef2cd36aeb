import Verif.Lemmas.MemoryRows

/-!
# The planners for continuous and hybrid curvature release what they allocate
-/

namespace Props

open SF.Mem

/-- The nine planners. -/
def planners : List Planner :=
  [CC00Dubins.planner, CC0pmDubins.planner, CCpm0Dubins.planner, CCpmpmDubins.planner, CC00ReedsShepp.planner,
    HC00.planner, HC0pm.planner, HCpm0.planner, HCpmpm.planner]

theorem planners_ok : ∀ p ∈ planners, PlannerOk p := by
  intro p hp
  simp only [planners, List.mem_cons, List.not_mem_nil, or_false] at hp
  rcases hp with rfl | rfl | rfl | rfl | rfl | rfl | rfl | rfl | rfl
  · exact cc00_dubins_rows
  · exact cc0pm_dubins_rows
  · exact ccpm0_dubins_rows
  · exact ccpmpm_dubins_rows
  · exact cc00_rs_rows
  · exact hc00_rows
  · exact hc0pm_rows
  · exact hcpm0_rows
  · exact hcpmpm_rows

/-- A heap between two queries: an arbitrary set of objects of others, at addresses given out before. -/
def Proper (h : Heap) : Prop := h.live.Nodup ∧ ∀ a ∈ h.live, a < h.next

/-- After the query the same objects live as before it: what the query made has been released, and nothing else
has been. -/
def Clean (h : Heap) (result : Except Fault Heap) : Prop :=
  ∃ h', result = .ok h' ∧ Proper h' ∧ ∀ a, a ∈ h'.live ↔ a ∈ h.live

theorem clean_of_perm {h h' : Heap} {result : Except Fault Heap} (hp : Proper h) (hr : result = .ok h') (hg : h'.Good)
    (hl : h'.live.Perm h.live) : Clean h result :=
  ⟨h', hr, ⟨hl.nodup_iff.2 hp.1, hg⟩, fun _ => hl.mem_iff⟩

/-- C110: `get_distance` releases every object it makes, exactly once, and uses no pointer that is not initialised or
whose object has been released; it reads through `nullptr` only if no path is returned, i.e. if the best pair of
circles is one of those skipped. -/
theorem C110_distance {p : Planner} (hp : p ∈ planners) {c : Choices} (hc : c.Fits p) {h : Heap} (hh : Proper h) :
    (c.skip c.pair = false → Clean h (get_distance p c h)) ∧
      (c.skip c.pair = true → get_distance p c h = .error .null) := by
  obtain ⟨h1, h2⟩ := get_distance_ok (planners_ok p hp) hc (h := h) hh.2
  refine ⟨fun hs => ?_, h2⟩
  obtain ⟨h', hr, hg, hl⟩ := h1 hs
  exact clean_of_perm hh hr hg hl

/-- C110: the same for `get_controls`, if the type of the path is one whose row has been filled. -/
theorem C110_controls {p : Planner} (hp : p ∈ planners) {c : Choices} (hc : c.Fits p) {h : Heap} (hh : Proper h)
    (hs : c.skip c.pair = false) {r : Row} (hr : p.rows[c.row c.pair]? = some r)
    (hg : r.guard (c.tests c.pair (c.row c.pair)) = true) :
    Clean h (get_controls p c h) := by
  obtain ⟨h', hr', hg', hl⟩ := (get_controls_ok (planners_ok p hp) hc (h := h) hh.2).1 hs ⟨r, hr, hg⟩
  exact clean_of_perm hh hr' hg' hl

/-- C110: in all other cases too, nothing can go wrong but a read through `nullptr`. -/
theorem C110_controls_all {p : Planner} (hp : p ∈ planners) {c : Choices} (hc : c.Fits p) {h : Heap} (hh : Proper h) :
    Clean h (get_controls p c h) ∨ get_controls p c h = .error .null := by
  rcases (get_controls_ok (planners_ok p hp) hc (h := h) hh.2).2 with ⟨h', hr', hg', hl⟩ | hn
  · exact Or.inl (clean_of_perm hh hr' hg' hl)
  · exact Or.inr hn

/-- A query to one of the planners. -/
inductive Query
  | distance (p : Planner) (c : Choices)
  | controls (p : Planner) (c : Choices)

/-- One query. -/
def Query.run : Query → Heap → Except Fault Heap
  | .distance p c, h => get_distance p c h
  | .controls p c, h => get_controls p c h

/-- The query has a path. -/
def Query.Finds : Query → Prop
  | .distance p c => p ∈ planners ∧ c.Fits p ∧ c.skip c.pair = false
  | .controls p c => p ∈ planners ∧ c.Fits p ∧ c.skip c.pair = false ∧
      ∃ r, p.rows[c.row c.pair]? = some r ∧ r.guard (c.tests c.pair (c.row c.pair)) = true

/-- Several queries, one after the other. -/
def runAll : List Query → Heap → Except Fault Heap
  | [], h => .ok h
  | q :: qs, h =>
    match q.run h with
    | .ok h => runAll qs h
    | .error f => .error f

/-- C110: however often the planners are asked, no memory is used up. -/
theorem C110_history (qs : List Query) (hq : ∀ q ∈ qs, q.Finds) {h : Heap} (hh : Proper h) :
    Clean h (runAll qs h) := by
  induction qs generalizing h with
  | nil => exact ⟨h, rfl, hh, fun _ => Iff.rfl⟩
  | cons q qs ih =>
    have hone : Clean h (q.run h) := by
      have hq1 := hq q (by simp)
      cases q with
      | distance p c => exact (C110_distance hq1.1 hq1.2.1 hh).1 hq1.2.2
      | controls p c =>
        obtain ⟨r, hr, hg⟩ := hq1.2.2.2
        exact C110_controls hq1.1 hq1.2.1 hh hq1.2.2.1 hr hg
    obtain ⟨h1, hr1, hp1, hl1⟩ := hone
    obtain ⟨h2, hr2, hp2, hl2⟩ := ih (fun q hq' => hq q (by simp [hq'])) hp1
    refine ⟨h2, ?_, hp2, fun a => (hl2 a).trans (hl1 a)⟩
    simp only [runAll, hr1]
    exact hr2

/-! ## Examples -/

/-- Outcomes in which every path exists, only the pairs beginning with circle 1 or 3 are tried, and the best path is
the one of type `TcTSTcT` for the pair 5. -/
def sampleChoices : Choices :=
  ⟨fun k => k / 4 % 2 == 0, fun _ _ => ⟨⟨true, true⟩, ⟨false, true⟩, true, false, true, true⟩, fun _ => 11, 5⟩

/-- The hypotheses are satisfiable. -/
example : HCpmpm.planner ∈ planners ∧ sampleChoices.Fits HCpmpm.planner ∧ Proper ⟨8, [7, 3]⟩ ∧
    sampleChoices.skip sampleChoices.pair = false ∧
    ∃ r, HCpmpm.planner.rows[sampleChoices.row sampleChoices.pair]? = some r ∧
      r.guard (sampleChoices.tests sampleChoices.pair (sampleChoices.row sampleChoices.pair)) = true := by
  refine ⟨by simp [planners], ⟨fun k => by show 11 < 18; decide, by show 5 < 4 * 4; decide⟩,
    ⟨by decide, by decide⟩, rfl, _, rfl, rfl⟩

example : Clean ⟨8, [7, 3]⟩ (get_controls HCpmpm.planner sampleChoices ⟨8, [7, 3]⟩) :=
  C110_controls (by simp [planners]) ⟨fun k => by show 11 < 18; decide, by show 5 < 4 * 4; decide⟩
    ⟨by decide, by decide⟩ rfl (r := _) rfl rfl

/-- The query really makes and releases objects: more than a hundred addresses are given out. -/
example : ∃ h', get_controls HCpmpm.planner sampleChoices ⟨8, [7, 3]⟩ = .ok h' ∧ h'.live = [7, 3] ∧ 108 < h'.next := by
  have h2 : (match get_controls HCpmpm.planner sampleChoices ⟨8, [7, 3]⟩ with
      | .ok h' => decide (h'.live = [7, 3] ∧ 108 < h'.next)
      | .error _ => false) = true := by decide +kernel
  revert h2
  generalize get_controls _ _ _ = x
  intro h2
  match x, h2 with
  | .ok h', h2 => exact ⟨h', rfl, by simpa using h2⟩

/-- A planner that forgets to release one field of the rows leaks. -/
example : ¬ Clean ⟨8, [7, 3]⟩ (get_distance { HCpmpm.planner with cleaned := [.qi1, .qi2, .qi3, .qi4, .cstart, .ci1, .cend] }
    sampleChoices ⟨8, [7, 3]⟩) := by
  rintro ⟨h', hr, -, hl⟩
  have : ∃ a ∈ h'.live, a ∉ [7, 3] := by
    have h2 : (match get_distance { HCpmpm.planner with cleaned := [.qi1, .qi2, .qi3, .qi4, .cstart, .ci1, .cend] }
        sampleChoices ⟨8, [7, 3]⟩ with
      | .ok h' => h'.live.any (fun a => a ∉ [7, 3])
      | .error _ => false) = true := by decide +kernel
    rw [hr] at h2
    simpa using h2
  obtain ⟨a, ha, hn⟩ := this
  exact hn ((hl a).1 ha)

/-- A planner that releases a field twice is caught. -/
example : get_distance { HCpmpm.planner with cleaned := .qi1 :: HCpmpm.planner.cleaned } sampleChoices ⟨8, [7, 3]⟩
    = .error .invalid := by
  have h2 : (match get_distance { HCpmpm.planner with cleaned := .qi1 :: HCpmpm.planner.cleaned }
        sampleChoices ⟨8, [7, 3]⟩ with
      | .error .invalid => true
      | _ => false) = true := by decide +kernel
  revert h2
  generalize get_distance _ _ _ = x
  intro h2
  match x, h2 with
  | .error .invalid, _ => rfl

end Props
