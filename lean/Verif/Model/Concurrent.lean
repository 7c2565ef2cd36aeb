import Verif.Model.CcDubins

/-!
# Concurrent queries of one CC00-Dubins object

The helper object `cc00_dubins_` of a state space is shared by all (const) queries; its members
`distance` and `angle` are written at the start of every call of `cc00_circles_dubins_path` and read later in
the same call.  Two threads that query the same object are modelled by interleaved atomic steps.  The steps are coarse:
writing both members is one step, the rest of the call is another.  Formally the C++ program has a data race (undefined
behaviour); the interleavings modelled are the mildest possible executions.
-/

noncomputable section

namespace SF.CC00

/-- A thread inside `cc00_dubins(state1, state2)`, cc00_dubins_state_space.cpp:414-486: the number of calls of
`cc00_circles_dubins_path` already finished is the number of `paths`. -/
structure Thread where
  state1 : State
  state2 : State
  /-- lines 340-341 of the current call are executed -/
  written : Bool
  /-- results so far -/
  paths : List CCPath

/-- A thread at the start of a query. -/
def Thread.begin (state1 state2 : State) : Thread := ⟨state1, state2, false, []⟩

/-- Start circle of the current call. -/
def Thread.c1 (sp : HCSpace) (t : Thread) : Circle :=
  start_circle sp (configuration t.state1.x t.state1.y t.state1.theta 0) (t.paths.length / 2)

/-- End circle of the current call. -/
def Thread.c2 (sp : HCSpace) (t : Thread) : Circle :=
  end_circle sp (configuration t.state2.x t.state2.y t.state2.theta 0) (t.paths.length % 2)

/-- One step of a thread with the shared members `m`: write the members
(cc00_dubins_state_space.cpp:340-341), or do the rest of the call (343-412).  Threads that have finished their four
calls do nothing. -/
def Thread.step (sp : HCSpace) (m : Scratch) (t : Thread) : Scratch × Thread :=
  if t.paths.length < 4 then
    if t.written then (m, { t with written := false, paths := t.paths ++ [body sp m (t.c1 sp) (t.c2 sp)] })
    else (scratch (t.c1 sp) (t.c2 sp), { t with written := true })
  else (m, t)

/-- Result of a finished query, cc00_dubins_state_space.cpp:458-485; `none` while it is running. -/
def Thread.result (t : Thread) : Option CCPath :=
  match t.paths with
  | [p0, p1, p2, p3] =>
    let path : ℕ → CCPath := fun n => if n = 0 then p0 else if n = 1 then p1 else if n = 2 then p2 else p3
    some (path (array_index_min (fun n => (path n).length) 4))
  | _ => none

/-- `n` steps of a thread that is alone. -/
def runAlone (sp : HCSpace) : ℕ → Scratch → Thread → Scratch × Thread
  | 0, m, t => (m, t)
  | n + 1, m, t => let r := t.step sp m; runAlone sp n r.1 r.2

/-- Queries one after the other, by one or several threads, starting with any contents `m` of the members. -/
def runQueries (sp : HCSpace) : Scratch → List (State × State) → List (Option CCPath)
  | _, [] => []
  | m, (s1, s2) :: qs =>
    let r := runAlone sp 8 m (.begin s1 s2)
    r.2.result :: runQueries sp r.1 qs

/-- Two threads and a schedule: `true` lets the first thread do a step. -/
def runTwo (sp : HCSpace) : List Bool → Scratch → Thread → Thread → Thread × Thread
  | [], _, a, b => (a, b)
  | true :: l, m, a, b => let r := a.step sp m; runTwo sp l r.1 r.2 b
  | false :: l, m, a, b => let r := b.step sp m; runTwo sp l r.1 a r.2

end SF.CC00
