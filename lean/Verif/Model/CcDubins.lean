import Verif.Model.Paths
import Verif.Model.Integrate

/-!
# Model of `src/hc_cc_state_space/cc00_dubins_state_space.cpp`

The heap objects are modelled by values.  A pointer that may be null is an `Option`; a
dereferenced null pointer (undefined behaviour) makes the whole result `none`.
`goto label_end` is modelled by nested `if`s.  Deletion of unused objects is not modelled.
-/

noncomputable section

namespace SF

open Real

/-! ### Data shared by the CC-Dubins planners -/

namespace cc_dubins

/-- `enum path_type`, include/steering_functions/hc_cc_state_space/paths.hpp:52-67. -/
abbrev E : ℕ := 0
abbrev S : ℕ := 1
abbrev T : ℕ := 2
abbrev TT : ℕ := 3
abbrev TST : ℕ := 4
abbrev TTT : ℕ := 5
abbrev TTTT : ℕ := 6

end cc_dubins

/-- `nb_cc_dubins_paths`, paths.hpp:70. -/
def nb_cc_dubins_paths : ℕ := 7

/-- One column of the tables `length`, `qi1`, …, `ci2` of the `*_circles_dubins_path` functions, e.g.
cc00_dubins_state_space.cpp:325-337 (the code has one array per field).  The defaults are the
initial values set by `double_array_init` and `pointer_array_init`. -/
structure Row where
  length : ℝ := dblMax
  qi1 : Option Configuration := none
  qi2 : Option Configuration := none
  qi3 : Option Configuration := none
  qi4 : Option Configuration := none
  cstart : Option Circle := none
  cend : Option Circle := none
  ci1 : Option Circle := none
  ci2 : Option Circle := none

/-- The tables: entry `i` belongs to path type `i`. -/
abbrev Table := ℕ → Row

/-- Assignment to column `i`. -/
def Table.set (t : Table) (i : ℕ) (r : Row) : Table := fun j => if j = i then r else t j

/-- The initialised tables. -/
def Table.init : Table := fun _ => {}

/-- `class Path` and `class CC_Dubins_Path`, paths.hpp:33-49, 73-110, paths.cpp:38-63 (the members
`kappa` and `sigma`, never read, are left out). -/
structure CCPath where
  start : Configuration
  end_ : Configuration
  type : ℕ
  row : Row

/-- Member `length`. -/
def CCPath.length (p : CCPath) : ℝ := p.row.length

/-- "select shortest path", cc00_dubins_state_space.cpp:392-397. -/
def Table.best (t : Table) (n : ℕ) (start end_ : Configuration) : CCPath :=
  let best_path := array_index_min (fun i => (t i).length) n
  ⟨start, end_, best_path, t best_path⟩

/-- Members of the HC/CC state spaces used by the planners; `forwards` exists in the CC-Dubins
spaces only.  hc_cc_state_space.hpp:100-112. -/
structure HCSpace where
  kappa : ℝ
  sigma : ℝ
  discretization : ℝ
  forwards : Bool

/-- Member `hc_cc_circle_param_`, hc_cc_state_space.cpp:28-60. -/
def HCSpace.param (sp : HCSpace) : CircleParam := hc_cc_circle_param sp.kappa sp.sigma

/-- Assertions of the constructor, hc_cc_state_space.cpp:31. -/
def HCSpace.Valid (sp : HCSpace) : Prop := 0 < sp.kappa ∧ 0 < sp.sigma ∧ 0 < sp.discretization

/-- The data members `distance` and `angle` of the helper classes, e.g.
cc00_dubins_state_space.cpp:49-50. -/
structure Scratch where
  distance : ℝ
  angle : ℝ

/-- "precomputations", e.g. cc00_dubins_state_space.cpp:340-341. -/
def scratch (c1 c2 : Circle) : Scratch :=
  ⟨center_distance c1 c2, atan2 (c2.yc - c1.yc) (c2.xc - c1.xc)⟩

/-! ### CC00 -/

namespace CC00

/-- `TT_exists`, cc00_dubins_state_space.cpp:53-64. -/
def TT_exists (m : Scratch) (c1 c2 : Circle) : Prop :=
  if c1.left = c2.left then False
  else if c1.forward = c2.forward then False
  else |m.distance - 2 * c1.radius| < epsilon

/-- `TT_tangent_circles`, cc00_dubins_state_space.cpp:66-94. -/
def TT_tangent_circles (c1 c2 : Circle) : Configuration :=
  let x := (c1.xc + c2.xc) / 2
  let y := (c1.yc + c2.yc) / 2
  let angle := atan2 (c2.yc - c1.yc) (c2.xc - c1.xc)
  let theta :=
    if c1.left then
      if c1.forward then angle + π / 2 - c1.mu else angle + π / 2 + c1.mu
    else
      if c1.forward then angle - π / 2 + c1.mu else angle - π / 2 - c1.mu
  configuration x y theta 0

/-- `TT_path`, cc00_dubins_state_space.cpp:96-100; result `(length, q)`. -/
def TT_path (c1 c2 : Circle) : ℝ × Configuration :=
  let q := TT_tangent_circles c1 c2
  (c1.cc_turn_length q + c2.cc_turn_length q, q)

/-- `TiST_exists`, cc00_dubins_state_space.cpp:105-116. -/
def TiST_exists (m : Scratch) (c1 c2 : Circle) : Prop :=
  if c1.left = c2.left then False
  else if c1.forward = c2.forward then False
  else m.distance ≥ 2 * c1.radius

/-- `TeST_exists`, cc00_dubins_state_space.cpp:118-129. -/
def TeST_exists (m : Scratch) (c1 c2 : Circle) : Prop :=
  if c1.left ≠ c2.left then False
  else if c1.forward = c2.forward then False
  else m.distance ≥ 2 * c1.radius * c1.sin_mu

/-- `TST_exists`, cc00_dubins_state_space.cpp:131-134. -/
def TST_exists (m : Scratch) (c1 c2 : Circle) : Prop := TiST_exists m c1 c2 ∨ TeST_exists m c1 c2

/-- `TiST_tangent_circles`, cc00_dubins_state_space.cpp:136-177. Guard: the centres differ. -/
def TiST_tangent_circles (c1 c2 : Circle) : Configuration × Configuration :=
  let distance := center_distance c1 c2
  let angle := atan2 (c2.yc - c1.yc) (c2.xc - c1.xc)
  let alpha := arcsin (2 * c1.radius * c1.cos_mu / distance)
  let delta_x := c1.radius * c1.sin_mu
  let delta_y := c1.radius * c1.cos_mu
  if c1.left then
    if c1.forward then
      let theta := angle + alpha
      let p1 := global_frame_change c1.xc c1.yc theta delta_x (-delta_y)
      let p2 := global_frame_change c2.xc c2.yc theta (-delta_x) delta_y
      (configuration p1.1 p1.2 theta 0, configuration p2.1 p2.2 theta 0)
    else
      let theta := angle - alpha
      let p1 := global_frame_change c1.xc c1.yc theta delta_x delta_y
      let p2 := global_frame_change c2.xc c2.yc theta (-delta_x) (-delta_y)
      (configuration p1.1 p1.2 (theta + π) 0, configuration p2.1 p2.2 (theta + π) 0)
  else
    if c1.forward then
      let theta := angle - alpha
      let p1 := global_frame_change c1.xc c1.yc theta delta_x delta_y
      let p2 := global_frame_change c2.xc c2.yc theta (-delta_x) (-delta_y)
      (configuration p1.1 p1.2 theta 0, configuration p2.1 p2.2 theta 0)
    else
      let theta := angle + alpha
      let p1 := global_frame_change c1.xc c1.yc theta delta_x (-delta_y)
      let p2 := global_frame_change c2.xc c2.yc theta (-delta_x) delta_y
      (configuration p1.1 p1.2 (theta + π) 0, configuration p2.1 p2.2 (theta + π) 0)

/-- `TeST_tangent_circles`, cc00_dubins_state_space.cpp:179-214. -/
def TeST_tangent_circles (c1 c2 : Circle) : Configuration × Configuration :=
  let delta_x := c1.radius * c1.sin_mu
  let delta_y := c1.radius * c1.cos_mu
  let theta := atan2 (c2.yc - c1.yc) (c2.xc - c1.xc)
  if c1.left then
    if c1.forward then
      let p1 := global_frame_change c1.xc c1.yc theta delta_x (-delta_y)
      let p2 := global_frame_change c2.xc c2.yc theta (-delta_x) (-delta_y)
      (configuration p1.1 p1.2 theta 0, configuration p2.1 p2.2 theta 0)
    else
      let p1 := global_frame_change c1.xc c1.yc theta delta_x delta_y
      let p2 := global_frame_change c2.xc c2.yc theta (-delta_x) delta_y
      (configuration p1.1 p1.2 (theta + π) 0, configuration p2.1 p2.2 (theta + π) 0)
  else
    if c1.forward then
      let p1 := global_frame_change c1.xc c1.yc theta delta_x delta_y
      let p2 := global_frame_change c2.xc c2.yc theta (-delta_x) delta_y
      (configuration p1.1 p1.2 theta 0, configuration p2.1 p2.2 theta 0)
    else
      let p1 := global_frame_change c1.xc c1.yc theta delta_x (-delta_y)
      let p2 := global_frame_change c2.xc c2.yc theta (-delta_x) (-delta_y)
      (configuration p1.1 p1.2 (theta + π) 0, configuration p2.1 p2.2 (theta + π) 0)

/-- `TiST_path`, cc00_dubins_state_space.cpp:216-220; result `(length, q1, q2)`. -/
def TiST_path (c1 c2 : Circle) : ℝ × Configuration × Configuration :=
  let q := TiST_tangent_circles c1 c2
  (c1.cc_turn_length q.1 + configuration_distance q.1 q.2 + c2.cc_turn_length q.2, q.1, q.2)

/-- `TeST_path`, cc00_dubins_state_space.cpp:222-226; result `(length, q1, q2)`. -/
def TeST_path (c1 c2 : Circle) : ℝ × Configuration × Configuration :=
  let q := TeST_tangent_circles c1 c2
  (c1.cc_turn_length q.1 + configuration_distance q.1 q.2 + c2.cc_turn_length q.2, q.1, q.2)

open Classical in
/-- `TST_path`, cc00_dubins_state_space.cpp:228-239; column of the tables written by the call in
lines 377-383 (`q1`, `q2` stay null if neither exists). -/
def TST_path (m : Scratch) (c1 c2 : Circle) : Row :=
  if TiST_exists m c1 c2 then
    let r := TiST_path c1 c2
    { length := r.1, qi1 := some r.2.1, qi2 := some r.2.2, cstart := some c1, cend := some c2 }
  else if TeST_exists m c1 c2 then
    let r := TeST_path c1 c2
    { length := r.1, qi1 := some r.2.1, qi2 := some r.2.2, cstart := some c1, cend := some c2 }
  else { length := dblMax, cstart := some c1, cend := some c2 }

/-- `TTT_exists`, cc00_dubins_state_space.cpp:242-253. -/
def TTT_exists (m : Scratch) (c1 c2 : Circle) : Prop :=
  if c1.left ≠ c2.left then False
  else if c1.forward = c2.forward then False
  else m.distance ≤ 4 * c1.radius

/-- `TTT_tangent_circles`, cc00_dubins_state_space.cpp:255-273; result `(q1, q2, q3, q4)`.
Guard: the argument of the square root is not negative. -/
def TTT_tangent_circles (P : CircleParam) (m : Scratch) (c1 c2 : Circle) :
    Configuration × Configuration × Configuration × Configuration :=
  let theta := m.angle
  let r := 2 * c1.radius
  let delta_x := 0.5 * m.distance
  let delta_y := √(r ^ 2 - delta_x ^ 2)
  let p1 := global_frame_change c1.xc c1.yc theta delta_x delta_y
  let tgt1 := circleCentered p1.1 p1.2 (!c1.left) c1.forward c1.regular P
  let p2 := global_frame_change c1.xc c1.yc theta delta_x (-delta_y)
  let tgt2 := circleCentered p2.1 p2.2 (!c1.left) c1.forward c1.regular P
  (TT_tangent_circles c1 tgt1, TT_tangent_circles tgt1 c2,
   TT_tangent_circles c1 tgt2, TT_tangent_circles tgt2 c2)

/-- `TTT_path`, cc00_dubins_state_space.cpp:275-308; result `(length, q1, q2, ci)`. -/
def TTT_path (P : CircleParam) (m : Scratch) (c1 c2 : Circle) :
    ℝ × Configuration × Configuration × Circle :=
  let q := TTT_tangent_circles P m c1 c2
  let qa := q.1
  let qb := q.2.1
  let qc := q.2.2.1
  let qd := q.2.2.2
  let middle1 := circleAt qa (!c1.left) c1.forward c1.regular P
  let middle2 := circleAt qc (!c1.left) c1.forward c1.regular P
  let length1 := c1.cc_turn_length qa + middle1.cc_turn_length qb + c2.cc_turn_length qb
  let length2 := c1.cc_turn_length qc + middle2.cc_turn_length qd + c2.cc_turn_length qd
  if length1 < length2 then (length1, qa, qb, middle1) else (length2, qc, qd, middle2)

open Classical in
/-- The tables after the case analysis of `cc00_circles_dubins_path`,
cc00_dubins_state_space.cpp:343-390; `m` are the values of the members `distance` and `angle`
that this part reads. -/
def table (sp : HCSpace) (m : Scratch) (c1 c2 : Circle) : Table :=
  if configuration_equal c1.start c2.start then
    Table.init.set cc_dubins.E { length := 0 }
  else if sp.forwards ∧ configuration_aligned c1.start c2.start then
    Table.init.set cc_dubins.S { length := configuration_distance c1.start c2.start }
  else if ¬sp.forwards ∧ configuration_aligned c2.start c1.start then
    Table.init.set cc_dubins.S { length := configuration_distance c2.start c1.start }
  else if configuration_on_hc_cc_circle c1 c2.start then
    Table.init.set cc_dubins.T { length := c1.cc_turn_length c2.start, cstart := some c1 }
  else
    let t := Table.init
    let t := if TT_exists m c1 c2 then
      let r := TT_path c1 c2
      t.set cc_dubins.TT { length := r.1, qi1 := some r.2, cstart := some c1, cend := some c2 }
    else t
    let t := if TST_exists m c1 c2 then t.set cc_dubins.TST (TST_path m c1 c2) else t
    if TTT_exists m c1 c2 then
      let r := TTT_path sp.param m c1 c2
      t.set cc_dubins.TTT { length := r.1, qi1 := some r.2.1, qi2 := some r.2.2.1,
                            ci1 := some r.2.2.2, cstart := some c1, cend := some c2 }
    else t

/-- Part of `cc00_circles_dubins_path` after the precomputations,
cc00_dubins_state_space.cpp:343-412. -/
def body (sp : HCSpace) (m : Scratch) (c1 c2 : Circle) : CCPath :=
  (table sp m c1 c2).best nb_cc_dubins_paths c1.start c2.start

/-- `cc00_circles_dubins_path`, cc00_dubins_state_space.cpp:323-412. -/
def circles_dubins_path (sp : HCSpace) (c1 c2 : Circle) : CCPath := body sp (scratch c1 c2) c1 c2

/-- `start_circle[i]`, cc00_dubins_state_space.cpp:422-436. -/
def start_circle (sp : HCSpace) (start : Configuration) (i : ℕ) : Circle :=
  circleAt start (i = 0) sp.forwards true sp.param

/-- `end_circle[j]`, cc00_dubins_state_space.cpp:422-436. -/
def end_circle (sp : HCSpace) (end_ : Configuration) (j : ℕ) : Circle :=
  circleAt end_ (j = 0) (!sp.forwards) true sp.param

/-- `path[2 i + j]`, cc00_dubins_state_space.cpp:444-454. -/
def path (sp : HCSpace) (state1 state2 : State) (n : ℕ) : CCPath :=
  let start := configuration state1.x state1.y state1.theta 0
  let end_ := configuration state2.x state2.y state2.theta 0
  circles_dubins_path sp (start_circle sp start (n / 2)) (end_circle sp end_ (n % 2))

/-- `cc00_dubins`, cc00_dubins_state_space.cpp:414-486. -/
def cc00_dubins (sp : HCSpace) (state1 state2 : State) : CCPath :=
  let best_path := array_index_min (fun n => (path sp state1 state2 n).length) 4
  path sp state1 state2 best_path

/-- `CC00_Dubins_State_Space::get_distance`, cc00_dubins_state_space.cpp:488-494. -/
def get_distance (sp : HCSpace) (state1 state2 : State) : ℝ := (cc00_dubins sp state1 state2).length

/-- The `switch` of `get_controls`, cc00_dubins_state_space.cpp:501-530; `none` is a
dereferenced null pointer. -/
def path_controls (p : CCPath) : Option (List Control) :=
  match p.type with
  | 0 => some empty_controls
  | 1 => some (straight_controls p.start p.end_)
  | 2 => p.row.cstart.map fun cstart => cc_turn_controls cstart p.end_ true
  | 3 =>
    p.row.cstart.bind fun cstart => p.row.qi1.bind fun qi1 => p.row.cend.map fun cend =>
      cc_turn_controls cstart qi1 true ++ cc_turn_controls cend qi1 false
  | 4 =>
    p.row.cstart.bind fun cstart => p.row.qi1.bind fun qi1 => p.row.qi2.bind fun qi2 =>
      p.row.cend.map fun cend =>
        cc_turn_controls cstart qi1 true ++ straight_controls qi1 qi2
          ++ cc_turn_controls cend qi2 false
  | 5 =>
    p.row.cstart.bind fun cstart => p.row.qi1.bind fun qi1 => p.row.ci1.bind fun ci1 =>
      p.row.qi2.bind fun qi2 => p.row.cend.map fun cend =>
        cc_turn_controls cstart qi1 true ++ cc_turn_controls ci1 qi2 true
          ++ cc_turn_controls cend qi2 false
  | _ => some []

/-- `CC00_Dubins_State_Space::get_controls`, cc00_dubins_state_space.cpp:496-533. -/
def get_controls (sp : HCSpace) (state1 state2 : State) : Option (List Control) :=
  path_controls (cc00_dubins sp state1 state2)

/-- `HC_CC_State_Space::get_path`, hc_cc_state_space.cpp:67-71, for this planner. -/
def get_path (sp : HCSpace) (state1 state2 : State) : Option (List State) :=
  (get_controls sp state1 state2).bind (hcIntegrate sp.discretization state1)

end CC00

end SF
