import Mathlib.Data.List.Basic

/-!
# Memory of the planners for continuous and hybrid curvature

The planners in `/repo/src/hc_cc_state_space` keep every intermediate configuration, every circle and every path
on the heap and release them by hand. This file models the objects on the heap, the operations on pointers, and
the part of the planners that is the same in all nine classes; the functions that differ are in
`Verif.Model.MemoryDubins` and `Verif.Model.MemoryReedsShepp`.

Simplifications.
* Only pointers are modelled. What the code decides by comparing real numbers (`..._exists`, which of two candidate
  paths is shorter, which row and which pair of circles is best, whether a pair of circles is skipped) is an
  arbitrary outcome (`Tests`, `Choices`). Every run of the code is one of the runs of the model.
* An address is never used twice, and `new` never fails.
* Reads through a pointer are collected per statement; a statement that reads through a pointer many times counts
  as one read.
-/

namespace SF.Mem

/-- The pointers of one row of the table in `..._circles_..._path` (the entries of the arrays `qi1` ... `ci2`, e.g.
hcpmpm_reeds_shepp_state_space.cpp:1574-1589), and the local pointers of the functions `..._path`
(e.g. hc00_reeds_shepp_state_space.cpp:284-290). -/
inductive Var
  | qi1 | qi2 | qi3 | qi4 | cstart | cend | ci1 | ci2
  | qa | qb | qc | qd | qe | qf
  | start1 | start2 | middle1 | middle2 | middle3 | middle4 | end1 | end2
  deriving DecidableEq

/-- The value of a pointer: not initialised, `nullptr`, or the address of an object. -/
inductive Ptr
  | uninit | null | obj (a : ℕ)
  deriving DecidableEq

/-- What may go wrong when a pointer is used: it is `nullptr` and read through, or it holds no address of a living
object (not initialised, or the object has been released). Both are undefined behaviour in C++. -/
inductive Fault
  | null | invalid
  deriving DecidableEq

/-- The heap: the next free address and the addresses of the objects that live. -/
structure Heap where
  next : ℕ
  live : List ℕ
  deriving DecidableEq

/-- `new`: a new object at the next address. -/
def Heap.alloc (h : Heap) : Heap := ⟨h.next + 1, h.next :: h.live⟩

/-- `delete p`: nothing for `nullptr`; otherwise the object must live and is released. -/
def Heap.free (h : Heap) : Ptr → Except Fault Heap
  | .uninit => .error .invalid
  | .null => .ok h
  | .obj a => if a ∈ h.live then .ok ⟨h.next, h.live.erase a⟩ else .error .invalid

/-- `*p` and `p->...`: the object must live. -/
def Heap.access (h : Heap) : Ptr → Except Fault Unit
  | .uninit => .error .invalid
  | .null => .error .null
  | .obj a => if a ∈ h.live then .ok () else .error .invalid

/-- Reads through several pointers. -/
def Heap.accessAll (h : Heap) : List Ptr → Except Fault Unit
  | [] => .ok ()
  | p :: ps => do
    h.access p
    h.accessAll ps

/-- Several `delete`s, one after the other. -/
def Heap.freeAll : List Ptr → Heap → Except Fault Heap
  | [], h => .ok h
  | p :: ps, h => do
    let h ← h.free p
    freeAll ps h

/-- The values of the pointers of a row. -/
abbrev Env := Var → Ptr

/-- Before a row is filled the fields are `nullptr` (`pointer_array_init`, utilities.cpp:241-247) and the local
pointers of the functions are not initialised. -/
def Env.init : Env
  | .qi1 | .qi2 | .qi3 | .qi4 | .cstart | .cend | .ci1 | .ci2 => .null
  | _ => .uninit

/-- The operations on pointers: `x = new T(...)` where the arguments read through the pointers `reads`; a statement
that reads through the pointers `xs`; `x = y`; `delete x`. -/
inductive Op
  | new (x : Var) (reads : List Var)
  | read (xs : List Var)
  | set (x y : Var)
  | delete (x : Var)

/-- One sequence of operations after the other. -/
abbrev andThen (a b : List Op) : List Op := a ++ b

@[inherit_doc] infixr:65 " ;; " => andThen

/-- The effect of one operation. Copying a pointer that is not initialised counts as a fault. -/
def step (e : Env) (h : Heap) : Op → Except Fault (Env × Heap)
  | .new x reads => do
    h.accessAll (reads.map e)
    pure (Function.update e x (.obj h.next), h.alloc)
  | .read xs => do
    h.accessAll (xs.map e)
    pure (e, h)
  | .set x y => if e y = .uninit then .error .invalid else pure (Function.update e x (e y), h)
  | .delete x => do
    let h ← h.free (e x)
    pure (e, h)

/-- A sequence of operations. -/
def exec : List Op → Env → Heap → Except Fault (Env × Heap)
  | [], e, h => .ok (e, h)
  | o :: os, e, h => do
    let (e, h) ← step e h o
    exec os e h

/-- The orientation of a circle (`HC_CC_Circle::left`, `HC_CC_Circle::forward`). -/
structure Sides where
  left : Bool
  forward : Bool

/-- The outcomes of the tests made while one row is filled: the orientations of the two circles, whether the path
with an inner and the one with an outer tangent exists (`...TiST..._exists`, `...TeST..._exists`), whether the
first of two candidates is shorter (`length1 < length2`), and whether the path exists (`..._exists`, or the tests
for the cases E, S and T). -/
structure Tests where
  c1 : Sides
  c2 : Sides
  inner : Bool
  outer : Bool
  shorter : Bool
  taken : Bool

/-- A row of the table: when it is filled, the operations that fill it, and the pointers `get_controls` reads through
for a path of this type. -/
structure Row where
  guard : Tests → Bool
  body : Tests → List Op
  uses : List Var

/-- What distinguishes the planners: the rows of the table; the fields passed to the constructor of the path, the
others being `nullptr`; the fields released in all rows but the best; the fields released by the destructor of the
path; and the number of circles at the start and at the end. -/
structure Planner where
  rows : List Row
  passed : List Var
  cleaned : List Var
  destroyed : List Var
  circles : ℕ

/-- An object of class `CC_Dubins_Path` or `HC_CC_RS_Path` (paths.hpp:73-102, 131-160): its address, its type and its
pointers. -/
structure PathObj where
  addr : ℕ
  type : ℕ
  member : Var → Ptr

/-- `delete path` for a path that is not `nullptr`: the destructor (paths.cpp:65-75, 156-166) and the release of the
object. -/
def destroy (p : Planner) (q : PathObj) (h : Heap) : Except Fault Heap := do
  h.access (.obj q.addr)
  let h ← Heap.freeAll (p.destroyed.map q.member) h
  h.free (.obj q.addr)

/-- `delete path` for a path that may be `nullptr`. -/
def delete (p : Planner) : Option PathObj → Heap → Except Fault Heap
  | none, h => .ok h
  | some q, h => destroy p q h

/-- Several paths, one after the other. -/
def deleteAll (p : Planner) : List (Option PathObj) → Heap → Except Fault Heap
  | [], h => .ok h
  | q :: qs, h => do
    let h ← delete p q h
    deleteAll p qs h

/-- One row is filled (e.g. hcpmpm_reeds_shepp_state_space.cpp:1597-1710). -/
def Row.run (r : Row) (o : Tests) (h : Heap) : Except Fault (Env × Heap) :=
  if r.guard o then exec (r.body o) Env.init h else .ok (Env.init, h)

/-- All rows are filled, beginning with row `k`. -/
def fill (o : ℕ → Tests) : ℕ → List Row → Heap → Except Fault (List Env × Heap)
  | _, [], h => .ok ([], h)
  | k, r :: rs, h => do
    let (e, h) ← r.run (o k) h
    let (es, h) ← fill o (k + 1) rs h
    pure (e :: es, h)

/-- The function `..._circles_..._path` (hcpmpm_reeds_shepp_state_space.cpp:1568-1736 and the functions cited at the
nine `planner`s): the circles are read, the rows filled, the path made from row `best`, and all other rows released.
The loop over all `i` with `i != best_path` is the loop over the rows without row `best`. -/
def circlesPath (p : Planner) (o : ℕ → Tests) (best : ℕ) (c1 c2 : ℕ) (h : Heap) : Except Fault (PathObj × Heap) := do
  h.accessAll [.obj c1, .obj c2]
  let (es, h) ← fill o 0 p.rows h
  let e := es.getD best Env.init
  let q : PathObj := ⟨h.next, best, fun x => if x ∈ p.passed then e x else .null⟩
  let h := h.alloc
  let h ← Heap.freeAll ((es.eraseIdx best).flatMap fun e => p.cleaned.map e) h
  pure (q, h)

/-- The outcomes of the tests made during one query: for the pair of circles with number `k` whether it is skipped
(`state1.kappa`, `state2.kappa`), the tests for each row, and the best row; and the best pair. -/
structure Choices where
  skip : ℕ → Bool
  tests : ℕ → ℕ → Tests
  row : ℕ → ℕ
  pair : ℕ

/-- `n` circles are made. -/
def newCircles : ℕ → Heap → List ℕ × Heap
  | 0, h => ([], h)
  | n + 1, h => let (as, h') := newCircles n h.alloc; (h.next :: as, h')

/-- The best path for the pair of circles with number `k`, whose length is read, or `nullptr` if the pair is skipped
(e.g. hcpmpm_reeds_shepp_state_space.cpp:1773-1796). -/
def tryPair (p : Planner) (c : Choices) (k a b : ℕ) (h : Heap) : Except Fault (Option PathObj × Heap) :=
  if c.skip k then .ok (none, h)
  else do
    let (q, h) ← circlesPath p (c.tests k) (c.row k) a b h
    h.access (.obj q.addr)
    pure (some q, h)

/-- The loop over the pairs of circles, beginning with pair `k`
(e.g. hcpmpm_reeds_shepp_state_space.cpp:1771-1797). -/
def tryPairs (p : Planner) (c : Choices) : ℕ → List (ℕ × ℕ) → Heap → Except Fault (List (Option PathObj) × Heap)
  | _, [], h => .ok ([], h)
  | k, (a, b) :: rest, h => do
    let (x, h) ← tryPair p c k a b h
    let (xs, h) ← tryPairs p c (k + 1) rest h
    pure (x :: xs, h)

/-- The planner (hcpmpm_reeds_shepp_state_space.cpp:1738-1829 and the functions cited at the nine `planner`s): the
circles are made, all pairs tried, the circles and all paths but the best released, and the best path returned. -/
def plan (p : Planner) (c : Choices) (h : Heap) : Except Fault (Option PathObj × Heap) := do
  let (starts, h) := newCircles p.circles h
  let (ends, h) := newCircles p.circles h
  let (paths, h) ← tryPairs p c 0 (starts.product ends) h
  let h ← Heap.freeAll ((starts.zip ends).flatMap fun ab => [.obj ab.1, .obj ab.2]) h
  let h ← deleteAll p (paths.eraseIdx c.pair) h
  pure (paths.getD c.pair none, h)

/-- `get_distance` (e.g. hcpmpm_reeds_shepp_state_space.cpp:1831-1837). -/
def get_distance (p : Planner) (c : Choices) (h : Heap) : Except Fault Heap := do
  let (q, h) ← plan p c h
  match q with
  | none => .error .null
  | some q => do
    h.access (.obj q.addr)
    destroy p q h

/-- `get_controls` (e.g. hcpmpm_reeds_shepp_state_space.cpp:1839-1938): for the type of the path its pointers are
read through. -/
def get_controls (p : Planner) (c : Choices) (h : Heap) : Except Fault Heap := do
  let (q, h) ← plan p c h
  match q with
  | none => .error .null
  | some q => do
    h.access (.obj q.addr)
    h.accessAll (((p.rows.map Row.uses).getD q.type []).map q.member)
    destroy p q h

end SF.Mem
