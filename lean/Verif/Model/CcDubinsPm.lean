import Verif.Model.CcDubins

/-!
# Model of the CC-Dubins planners with start or goal curvature `±kappa`

* src/hc_cc_state_space/cc0pm_dubins_state_space.cpp
* src/hc_cc_state_space/ccpm0_dubins_state_space.cpp
* src/hc_cc_state_space/ccpmpm_dubins_state_space.cpp

Conventions as in `Model.CcDubins`.  The tangent functions of the three files have the same text as
those of cc00_dubins_state_space.cpp, except for the circle whose `radius` and `mu` they read: that
is `c1` in CC0pm, `c2` in CCpm0 and the state space itself in CCpmpm.  They are therefore
given in terms of those of CC00 with the parameters of `c1` replaced (`Circle.reparam`).
-/

noncomputable section

namespace SF

open Real

/-- The circle `c` with other parameters (not a function of the code, see above). -/
def Circle.reparam (c : Circle) (p : CircleParam) : Circle := { c with toCircleParam := p }

/-- Member `rs_circle_param_`, e.g. cc0pm_dubins_state_space.cpp:341. -/
def HCSpace.rs_param (sp : HCSpace) : CircleParam := rs_circle_param sp.kappa

/-- "select shortest path", e.g. cc0pm_dubins_state_space.cpp:473-474; a null pointer has the entry
`numeric_limits<double>::max()` in the table `lg`. -/
def best_of (path : ℕ → Option CCPath) : Option CCPath :=
  path (array_index_min (fun n => ((path n).map CCPath.length).getD dblMax) 4)

/-! ### CC0pm -/

namespace CC0pm

/-- `TT_exists`, cc0pm_dubins_state_space.cpp:53-64. -/
def TT_exists (m : Scratch) (c1 c2 : Circle) : Prop := CC00.TT_exists m c1 c2

/-- `TT_tangent_circles`, cc0pm_dubins_state_space.cpp:66-95. -/
def TT_tangent_circles (c1 c2 : Circle) : Configuration := CC00.TT_tangent_circles c1 c2

/-- `TiST_exists`, cc0pm_dubins_state_space.cpp:110-121. -/
def TiST_exists (m : Scratch) (c1 c2 : Circle) : Prop := CC00.TiST_exists m c1 c2

/-- `TeST_exists`, cc0pm_dubins_state_space.cpp:123-134. -/
def TeST_exists (m : Scratch) (c1 c2 : Circle) : Prop := CC00.TeST_exists m c1 c2

/-- `TST_exists`, cc0pm_dubins_state_space.cpp:136-139. -/
def TST_exists (m : Scratch) (c1 c2 : Circle) : Prop := TiST_exists m c1 c2 ∨ TeST_exists m c1 c2

/-- `TiST_tangent_circles`, cc0pm_dubins_state_space.cpp:141-182. -/
def TiST_tangent_circles (c1 c2 : Circle) : Configuration × Configuration :=
  CC00.TiST_tangent_circles c1 c2

/-- `TeST_tangent_circles`, cc0pm_dubins_state_space.cpp:184-219. -/
def TeST_tangent_circles (c1 c2 : Circle) : Configuration × Configuration :=
  CC00.TeST_tangent_circles c1 c2

/-- `TTT_exists`, cc0pm_dubins_state_space.cpp:256-267. -/
def TTT_exists (m : Scratch) (c1 c2 : Circle) : Prop := CC00.TTT_exists m c1 c2

/-- `TTT_tangent_circles`, cc0pm_dubins_state_space.cpp:269-287. -/
def TTT_tangent_circles (P : CircleParam) (m : Scratch) (c1 c2 : Circle) :
    Configuration × Configuration × Configuration × Configuration :=
  CC00.TTT_tangent_circles P m c1 c2

/-- `cstart` of all paths, e.g. cc0pm_dubins_state_space.cpp:101. -/
def cstart (P : CircleParam) (c1 : Circle) : Circle := circleAt c1.start c1.left c1.forward true P

/-- `cend` of all paths except `T`, e.g. cc0pm_dubins_state_space.cpp:102. -/
def cend (P : CircleParam) (q : Configuration) (c2 : Circle) : Circle :=
  circleAt q c2.left (!c2.forward) true P

/-- The last configuration of all paths except `T`, e.g. cc0pm_dubins_state_space.cpp:103. -/
def last (c2 : Circle) : Configuration := configuration c2.start.x c2.start.y c2.start.theta c2.kappa

/-- `TT_path`, cc0pm_dubins_state_space.cpp:97-105, with the call 385-389. -/
def TT_path (P : CircleParam) (c1 c2 : Circle) : Row :=
  let q1 := TT_tangent_circles c1 c2
  let cs := cstart P c1
  let ce := cend P q1 c2
  let q2 := last c2
  { length := cs.cc_turn_length q1 + ce.hc_turn_length q2
    cstart := some cs
    cend := some ce
    qi1 := some q1
    qi2 := some q2 }

/-- Body of `TiST_path` and `TeST_path`, cc0pm_dubins_state_space.cpp:221-239, for tangent
configurations `q`. -/
def line_path (P : CircleParam) (q : Configuration × Configuration) (c1 c2 : Circle) : Row :=
  let cs := cstart P c1
  let ce := cend P q.2 c2
  let q3 := last c2
  { length := cs.cc_turn_length q.1 + configuration_distance q.1 q.2 + ce.hc_turn_length q3
    cstart := some cs
    cend := some ce
    qi1 := some q.1
    qi2 := some q.2
    qi3 := some q3 }

open Classical in
/-- `TST_path`, cc0pm_dubins_state_space.cpp:241-253, with the call 392-395. -/
def TST_path (P : CircleParam) (m : Scratch) (c1 c2 : Circle) : Row :=
  if TiST_exists m c1 c2 then line_path P (TiST_tangent_circles c1 c2) c1 c2
  else if TeST_exists m c1 c2 then line_path P (TeST_tangent_circles c1 c2) c1 c2
  else { length := dblMax }

/-- `TTT_path`, cc0pm_dubins_state_space.cpp:289-333, with the call 398-402. -/
def TTT_path (P : CircleParam) (m : Scratch) (c1 c2 : Circle) : Row :=
  let q := TTT_tangent_circles P m c1 c2
  let qa := q.1
  let qb := q.2.1
  let qc := q.2.2.1
  let qd := q.2.2.2
  let middle1 := circleAt qa (!c1.left) c1.forward true P
  let end1 := cend P qb c2
  let middle2 := circleAt qc (!c1.left) c1.forward true P
  let end2 := cend P qd c2
  let cs := cstart P c1
  let q3 := last c2
  let length1 := cs.cc_turn_length qa + middle1.cc_turn_length qb + end1.hc_turn_length q3
  let length2 := cs.cc_turn_length qc + middle2.cc_turn_length qd + end2.hc_turn_length q3
  if length1 < length2 then
    { length := length1
      cstart := some cs
      cend := some end1
      qi1 := some qa
      qi2 := some qb
      qi3 := some q3
      ci1 := some middle1 }
  else
    { length := length2
      cstart := some cs
      cend := some end2
      qi1 := some qc
      qi2 := some qd
      qi3 := some q3
      ci1 := some middle2 }

open Classical in
/-- The tables after the case analysis of `cc0pm_circles_dubins_path`,
cc0pm_dubins_state_space.cpp:371-403. -/
def table (sp : HCSpace) (m : Scratch) (c1 c2 : Circle) : Table :=
  if configuration_equal c1.start c2.start then
    Table.init.set cc_dubins.E { length := 0 }
  else if m.distance < epsilon then
    Table.init.set cc_dubins.T { length := (cstart sp.param c1).hc_turn_length c2.start,
                                 cstart := some (cstart sp.param c1) }
  else
    let t := Table.init
    let t := if TT_exists m c1 c2 then t.set cc_dubins.TT (TT_path sp.param c1 c2) else t
    let t := if TST_exists m c1 c2 then t.set cc_dubins.TST (TST_path sp.param m c1 c2) else t
    if TTT_exists m c1 c2 then t.set cc_dubins.TTT (TTT_path sp.param m c1 c2) else t

/-- `cc0pm_circles_dubins_path`, cc0pm_dubins_state_space.cpp:348-426. -/
def circles_dubins_path (sp : HCSpace) (c1 c2 : Circle) : CCPath :=
  (table sp (scratch c1 c2) c1 c2).best nb_cc_dubins_paths c1.start c2.start

/-- `start_circle[i]`, cc0pm_dubins_state_space.cpp:436-450. -/
def start_circle (sp : HCSpace) (start : Configuration) (i : ℕ) : Circle :=
  circleAt start (i = 0) sp.forwards true sp.param

/-- `end_circle[j]`, cc0pm_dubins_state_space.cpp:432-450. -/
def end_circle (sp : HCSpace) (s : State) (j : ℕ) : Circle :=
  let end1 := configuration s.x s.y s.theta sp.kappa
  let end2 := configuration s.x s.y s.theta (-sp.kappa)
  circleAt (if j = 0 then end1 else end2) (j = 0) (!sp.forwards) true sp.rs_param

open Classical in
/-- `path[2 i + j]`, cc0pm_dubins_state_space.cpp:458-472; `none` where the loop continues and leaves the null
pointer. -/
def path (sp : HCSpace) (state1 state2 : State) (n : ℕ) : Option CCPath :=
  let start := configuration state1.x state1.y state1.theta 0
  if n % 2 = 0 ∧ state2.kappa < 0 then none
  else if n % 2 = 1 ∧ state2.kappa > 0 then none
  else some (circles_dubins_path sp (start_circle sp start (n / 2)) (end_circle sp state2 (n % 2)))

/-- `cc0pm_dubins`, cc0pm_dubins_state_space.cpp:428-506. -/
def cc0pm_dubins (sp : HCSpace) (state1 state2 : State) : Option CCPath :=
  best_of (path sp state1 state2)

/-- `CC0pm_Dubins_State_Space::get_distance`, cc0pm_dubins_state_space.cpp:508-514. -/
def get_distance (sp : HCSpace) (state1 state2 : State) : Option ℝ :=
  (cc0pm_dubins sp state1 state2).map CCPath.length

/-- The `switch` of `get_controls`, cc0pm_dubins_state_space.cpp:521-547; `none` is a
dereferenced null pointer. -/
def path_controls (p : CCPath) : Option (List Control) :=
  match p.type with
  | 0 => some empty_controls
  | 2 => p.row.cstart.map fun cstart => hc_turn_controls cstart p.end_ true
  | 3 =>
    p.row.cstart.bind fun cstart => p.row.qi1.bind fun qi1 => p.row.cend.bind fun cend =>
      p.row.qi2.map fun qi2 =>
        cc_turn_controls cstart qi1 true ++ hc_turn_controls cend qi2 true
  | 4 =>
    p.row.cstart.bind fun cstart => p.row.qi1.bind fun qi1 => p.row.qi2.bind fun qi2 =>
      p.row.cend.bind fun cend => p.row.qi3.map fun qi3 =>
        cc_turn_controls cstart qi1 true ++ straight_controls qi1 qi2
          ++ hc_turn_controls cend qi3 true
  | 5 =>
    p.row.cstart.bind fun cstart => p.row.qi1.bind fun qi1 => p.row.ci1.bind fun ci1 =>
      p.row.qi2.bind fun qi2 => p.row.cend.bind fun cend => p.row.qi3.map fun qi3 =>
        cc_turn_controls cstart qi1 true ++ cc_turn_controls ci1 qi2 true
          ++ hc_turn_controls cend qi3 true
  | _ => some []

/-- `CC0pm_Dubins_State_Space::get_controls`, cc0pm_dubins_state_space.cpp:516-550. -/
def get_controls (sp : HCSpace) (state1 state2 : State) : Option (List Control) :=
  (cc0pm_dubins sp state1 state2).bind path_controls

/-- `HC_CC_State_Space::get_path`, hc_cc_state_space.cpp:67-71, for this planner. -/
def get_path (sp : HCSpace) (state1 state2 : State) : Option (List State) :=
  (get_controls sp state1 state2).bind (hcIntegrate sp.discretization state1)

end CC0pm

/-! ### CCpm0 -/

namespace CCpm0

/-- `TT_exists`, ccpm0_dubins_state_space.cpp:53-64. -/
def TT_exists (m : Scratch) (c1 c2 : Circle) : Prop :=
  CC00.TT_exists m (c1.reparam c2.toCircleParam) c2

/-- `TT_tangent_circles`, ccpm0_dubins_state_space.cpp:66-95. -/
def TT_tangent_circles (c1 c2 : Circle) : Configuration :=
  CC00.TT_tangent_circles (c1.reparam c2.toCircleParam) c2

/-- `TiST_exists`, ccpm0_dubins_state_space.cpp:110-121. -/
def TiST_exists (m : Scratch) (c1 c2 : Circle) : Prop :=
  CC00.TiST_exists m (c1.reparam c2.toCircleParam) c2

/-- `TeST_exists`, ccpm0_dubins_state_space.cpp:123-134. -/
def TeST_exists (m : Scratch) (c1 c2 : Circle) : Prop :=
  CC00.TeST_exists m (c1.reparam c2.toCircleParam) c2

/-- `TST_exists`, ccpm0_dubins_state_space.cpp:136-139. -/
def TST_exists (m : Scratch) (c1 c2 : Circle) : Prop := TiST_exists m c1 c2 ∨ TeST_exists m c1 c2

/-- `TiST_tangent_circles`, ccpm0_dubins_state_space.cpp:141-182. -/
def TiST_tangent_circles (c1 c2 : Circle) : Configuration × Configuration :=
  CC00.TiST_tangent_circles (c1.reparam c2.toCircleParam) c2

/-- `TeST_tangent_circles`, ccpm0_dubins_state_space.cpp:184-219. -/
def TeST_tangent_circles (c1 c2 : Circle) : Configuration × Configuration :=
  CC00.TeST_tangent_circles (c1.reparam c2.toCircleParam) c2

/-- `TTT_exists`, ccpm0_dubins_state_space.cpp:256-267. -/
def TTT_exists (m : Scratch) (c1 c2 : Circle) : Prop :=
  CC00.TTT_exists m (c1.reparam c2.toCircleParam) c2

/-- `TTT_tangent_circles`, ccpm0_dubins_state_space.cpp:269-287; result `(q1, q2, q3, q4)`.
Guard: the argument of the square root is not negative. -/
def TTT_tangent_circles (P : CircleParam) (m : Scratch) (c1 c2 : Circle) :
    Configuration × Configuration × Configuration × Configuration :=
  let theta := m.angle
  let r := 2 * c2.radius
  let delta_x := 0.5 * m.distance
  let delta_y := √(r ^ 2 - delta_x ^ 2)
  let p1 := global_frame_change c1.xc c1.yc theta delta_x delta_y
  let tgt1 := circleCentered p1.1 p1.2 (!c1.left) c1.forward c1.regular P
  let p2 := global_frame_change c1.xc c1.yc theta delta_x (-delta_y)
  let tgt2 := circleCentered p2.1 p2.2 (!c1.left) c1.forward c1.regular P
  (TT_tangent_circles c1 tgt1, TT_tangent_circles tgt1 c2,
   TT_tangent_circles c1 tgt2, TT_tangent_circles tgt2 c2)

/-- `cend` of all paths, e.g. ccpm0_dubins_state_space.cpp:102. -/
def cend (P : CircleParam) (c2 : Circle) : Circle := circleAt c2.start c2.left c2.forward true P

/-- `cstart` of the paths `TST` and `TTT`, e.g. ccpm0_dubins_state_space.cpp:225. -/
def cstart (P : CircleParam) (q : Configuration) (c1 : Circle) : Circle :=
  circleAt q c1.left (!c1.forward) true P

/-- The first configuration of all paths except `T`, e.g. ccpm0_dubins_state_space.cpp:103. -/
def first (c1 : Circle) : Configuration := configuration c1.start.x c1.start.y c1.start.theta c1.kappa

/-- `TT_path`, ccpm0_dubins_state_space.cpp:97-105, with the call 385-389. -/
def TT_path (P : CircleParam) (c1 c2 : Circle) : Row :=
  let q2 := TT_tangent_circles c1 c2
  let cs := circleAt q2 (!c2.left) c2.forward true P
  let ce := cend P c2
  let q1 := first c1
  { length := cs.hc_turn_length q1 + ce.cc_turn_length q2
    cstart := some cs
    cend := some ce
    qi1 := some q1
    qi2 := some q2 }

/-- Body of `TiST_path` and `TeST_path`, ccpm0_dubins_state_space.cpp:221-239, for tangent
configurations `q`. -/
def line_path (P : CircleParam) (q : Configuration × Configuration) (c1 c2 : Circle) : Row :=
  let cs := cstart P q.1 c1
  let ce := cend P c2
  let q1 := first c1
  { length := cs.hc_turn_length q1 + configuration_distance q.1 q.2 + ce.cc_turn_length q.2
    cstart := some cs
    cend := some ce
    qi1 := some q1
    qi2 := some q.1
    qi3 := some q.2 }

open Classical in
/-- `TST_path`, ccpm0_dubins_state_space.cpp:241-253, with the call 392-395. -/
def TST_path (P : CircleParam) (m : Scratch) (c1 c2 : Circle) : Row :=
  if TiST_exists m c1 c2 then line_path P (TiST_tangent_circles c1 c2) c1 c2
  else if TeST_exists m c1 c2 then line_path P (TeST_tangent_circles c1 c2) c1 c2
  else { length := dblMax }

/-- `TTT_path`, ccpm0_dubins_state_space.cpp:289-333, with the call 398-402. -/
def TTT_path (P : CircleParam) (m : Scratch) (c1 c2 : Circle) : Row :=
  let q := TTT_tangent_circles P m c1 c2
  let qa := q.1
  let qb := q.2.1
  let qc := q.2.2.1
  let qd := q.2.2.2
  let start1 := cstart P qa c1
  let middle1 := circleAt qa (!c1.left) c1.forward true P
  let start2 := cstart P qc c1
  let middle2 := circleAt qc (!c1.left) c1.forward true P
  let ce := cend P c2
  let q1 := first c1
  let length1 := start1.hc_turn_length q1 + middle1.cc_turn_length qb + ce.cc_turn_length qb
  let length2 := start2.hc_turn_length q1 + middle2.cc_turn_length qd + ce.cc_turn_length qd
  if length1 < length2 then
    { length := length1
      cstart := some start1
      cend := some ce
      qi1 := some q1
      qi2 := some qb
      ci1 := some middle1 }
  else
    { length := length2
      cstart := some start2
      cend := some ce
      qi1 := some q1
      qi2 := some qd
      ci1 := some middle2 }

open Classical in
/-- The tables after the case analysis of `ccpm0_circles_dubins_path`,
ccpm0_dubins_state_space.cpp:371-402. -/
def table (sp : HCSpace) (m : Scratch) (c1 c2 : Circle) : Table :=
  if configuration_equal c1.start c2.start then
    Table.init.set cc_dubins.E { length := 0 }
  else if m.distance < epsilon then
    Table.init.set cc_dubins.T { length := (cend sp.param c2).hc_turn_length c1.start,
                                 cend := some (cend sp.param c2) }
  else
    let t := Table.init
    let t := if TT_exists m c1 c2 then t.set cc_dubins.TT (TT_path sp.param c1 c2) else t
    let t := if TST_exists m c1 c2 then t.set cc_dubins.TST (TST_path sp.param m c1 c2) else t
    if TTT_exists m c1 c2 then t.set cc_dubins.TTT (TTT_path sp.param m c1 c2) else t

/-- `ccpm0_circles_dubins_path`, ccpm0_dubins_state_space.cpp:348-425. -/
def circles_dubins_path (sp : HCSpace) (c1 c2 : Circle) : CCPath :=
  (table sp (scratch c1 c2) c1 c2).best nb_cc_dubins_paths c1.start c2.start

/-- `start_circle[i]`, ccpm0_dubins_state_space.cpp:430-449. -/
def start_circle (sp : HCSpace) (s : State) (i : ℕ) : Circle :=
  let start1 := configuration s.x s.y s.theta sp.kappa
  let start2 := configuration s.x s.y s.theta (-sp.kappa)
  circleAt (if i = 0 then start1 else start2) (i = 0) sp.forwards true sp.rs_param

/-- `end_circle[j]`, ccpm0_dubins_state_space.cpp:430-449. -/
def end_circle (sp : HCSpace) (end_ : Configuration) (j : ℕ) : Circle :=
  circleAt end_ (j = 0) (!sp.forwards) true sp.param

open Classical in
/-- `path[2 i + j]`, ccpm0_dubins_state_space.cpp:457-471; `none` where the loop continues and leaves the null
pointer. -/
def path (sp : HCSpace) (state1 state2 : State) (n : ℕ) : Option CCPath :=
  let end_ := configuration state2.x state2.y state2.theta 0
  if n / 2 = 0 ∧ state1.kappa < 0 then none
  else if n / 2 = 1 ∧ state1.kappa > 0 then none
  else some (circles_dubins_path sp (start_circle sp state1 (n / 2)) (end_circle sp end_ (n % 2)))

/-- `ccpm0_dubins`, ccpm0_dubins_state_space.cpp:427-505. -/
def ccpm0_dubins (sp : HCSpace) (state1 state2 : State) : Option CCPath :=
  best_of (path sp state1 state2)

/-- `CCpm0_Dubins_State_Space::get_distance`, ccpm0_dubins_state_space.cpp:507-513. -/
def get_distance (sp : HCSpace) (state1 state2 : State) : Option ℝ :=
  (ccpm0_dubins sp state1 state2).map CCPath.length

/-- The `switch` of `get_controls`, ccpm0_dubins_state_space.cpp:520-546; `none` is a
dereferenced null pointer. -/
def path_controls (p : CCPath) : Option (List Control) :=
  match p.type with
  | 0 => some empty_controls
  | 2 => p.row.cend.map fun cend => hc_turn_controls cend p.start false
  | 3 =>
    p.row.cstart.bind fun cstart => p.row.qi1.bind fun qi1 => p.row.cend.bind fun cend =>
      p.row.qi2.map fun qi2 =>
        hc_turn_controls cstart qi1 false ++ cc_turn_controls cend qi2 false
  | 4 =>
    p.row.cstart.bind fun cstart => p.row.qi1.bind fun qi1 => p.row.qi2.bind fun qi2 =>
      p.row.cend.bind fun cend => p.row.qi3.map fun qi3 =>
        hc_turn_controls cstart qi1 false ++ straight_controls qi2 qi3
          ++ cc_turn_controls cend qi3 false
  | 5 =>
    p.row.cstart.bind fun cstart => p.row.qi1.bind fun qi1 => p.row.ci1.bind fun ci1 =>
      p.row.qi2.bind fun qi2 => p.row.cend.map fun cend =>
        hc_turn_controls cstart qi1 false ++ cc_turn_controls ci1 qi2 true
          ++ cc_turn_controls cend qi2 false
  | _ => some []

/-- `CCpm0_Dubins_State_Space::get_controls`, ccpm0_dubins_state_space.cpp:515-549. -/
def get_controls (sp : HCSpace) (state1 state2 : State) : Option (List Control) :=
  (ccpm0_dubins sp state1 state2).bind path_controls

/-- `HC_CC_State_Space::get_path`, hc_cc_state_space.cpp:67-71, for this planner. -/
def get_path (sp : HCSpace) (state1 state2 : State) : Option (List State) :=
  (get_controls sp state1 state2).bind (hcIntegrate sp.discretization state1)

end CCpm0

/-! ### CCpmpm -/

namespace CCpmpm

/-- `TT_exists`, ccpmpm_dubins_state_space.cpp:53-64; `P` are the members `radius_`, `mu_`, `sin_mu_`, `cos_mu_` and
`hc_cc_circle_param_`, which the constructor (457-468) copies from the latter. -/
def TT_exists (P : CircleParam) (m : Scratch) (c1 c2 : Circle) : Prop :=
  CC00.TT_exists m (c1.reparam P) c2

/-- `TT_tangent_circles`, ccpmpm_dubins_state_space.cpp:66-95. -/
def TT_tangent_circles (P : CircleParam) (c1 c2 : Circle) : Configuration :=
  CC00.TT_tangent_circles (c1.reparam P) c2

/-- `TiST_exists`, ccpmpm_dubins_state_space.cpp:111-122. -/
def TiST_exists (P : CircleParam) (m : Scratch) (c1 c2 : Circle) : Prop :=
  CC00.TiST_exists m (c1.reparam P) c2

/-- `TeST_exists`, ccpmpm_dubins_state_space.cpp:124-135. -/
def TeST_exists (P : CircleParam) (m : Scratch) (c1 c2 : Circle) : Prop :=
  CC00.TeST_exists m (c1.reparam P) c2

/-- `TST_exists`, ccpmpm_dubins_state_space.cpp:137-140. -/
def TST_exists (P : CircleParam) (m : Scratch) (c1 c2 : Circle) : Prop :=
  TiST_exists P m c1 c2 ∨ TeST_exists P m c1 c2

/-- `TiST_tangent_circles`, ccpmpm_dubins_state_space.cpp:142-183. -/
def TiST_tangent_circles (P : CircleParam) (c1 c2 : Circle) : Configuration × Configuration :=
  CC00.TiST_tangent_circles (c1.reparam P) c2

/-- `TeST_tangent_circles`, ccpmpm_dubins_state_space.cpp:185-220. -/
def TeST_tangent_circles (P : CircleParam) (c1 c2 : Circle) : Configuration × Configuration :=
  CC00.TeST_tangent_circles (c1.reparam P) c2

/-- `TTT_exists`, ccpmpm_dubins_state_space.cpp:259-270. -/
def TTT_exists (P : CircleParam) (m : Scratch) (c1 c2 : Circle) : Prop :=
  CC00.TTT_exists m (c1.reparam P) c2

/-- `TTT_tangent_circles`, ccpmpm_dubins_state_space.cpp:272-290; result `(q1, q2, q3, q4)`.
Guard: the argument of the square root is not negative. -/
def TTT_tangent_circles (P : CircleParam) (m : Scratch) (c1 c2 : Circle) :
    Configuration × Configuration × Configuration × Configuration :=
  let theta := m.angle
  let r := 2 * P.radius
  let delta_x := 0.5 * m.distance
  let delta_y := √(r ^ 2 - delta_x ^ 2)
  let p1 := global_frame_change c1.xc c1.yc theta delta_x delta_y
  let tgt1 := circleCentered p1.1 p1.2 (!c1.left) c1.forward c1.regular P
  let p2 := global_frame_change c1.xc c1.yc theta delta_x (-delta_y)
  let tgt2 := circleCentered p2.1 p2.2 (!c1.left) c1.forward c1.regular P
  (TT_tangent_circles P c1 tgt1, TT_tangent_circles P tgt1 c2,
   TT_tangent_circles P c1 tgt2, TT_tangent_circles P tgt2 c2)

/-- `TTTT_exists`, ccpmpm_dubins_state_space.cpp:345-356. -/
def TTTT_exists (P : CircleParam) (m : Scratch) (c1 c2 : Circle) : Prop :=
  if c1.left = c2.left then False
  else if c1.forward = c2.forward then False
  else m.distance ≤ 6 * P.radius

open Classical in
/-- `delta_x` of `TTTT_tangent_circles`, ccpmpm_dubins_state_space.cpp:363-373. -/
def TTTT_delta_x (P : CircleParam) (m : Scratch) : ℝ :=
  let r1 := 2 * P.radius
  if m.distance < r1 then (m.distance + r1) / 2 else (m.distance - r1) / 2

/-- One of the two symmetric halves of `TTTT_tangent_circles`,
ccpmpm_dubins_state_space.cpp:375-378, 385-387 (with `delta_y`) and 380-383, 389-391 (with
`-delta_y`); result `(q1, q2, q3)`. -/
def TTTT_half (P : CircleParam) (m : Scratch) (delta_y : ℝ) (c1 c2 : Circle) :
    Configuration × Configuration × Configuration :=
  let theta := m.angle
  let delta_x := TTTT_delta_x P m
  let p1 := global_frame_change c1.xc c1.yc theta delta_x delta_y
  let tgt1 := circleCentered p1.1 p1.2 (!c1.left) c1.forward c1.regular P
  let p2 := global_frame_change c2.xc c2.yc theta (-delta_x) delta_y
  let tgt2 := circleCentered p2.1 p2.2 (!c2.left) (!c2.forward) c2.regular P
  (TT_tangent_circles P c1 tgt1, TT_tangent_circles P tgt1 tgt2, TT_tangent_circles P tgt2 c2)

/-- `TTTT_tangent_circles`, ccpmpm_dubins_state_space.cpp:358-392; result `((q1, q2, q3), (q4, q5, q6))`.
Guard: the argument of the square root is not negative. -/
def TTTT_tangent_circles (P : CircleParam) (m : Scratch) (c1 c2 : Circle) :
    (Configuration × Configuration × Configuration) ×
      (Configuration × Configuration × Configuration) :=
  let r1 := 2 * P.radius
  let delta_y := √(r1 ^ 2 - TTTT_delta_x P m ^ 2)
  (TTTT_half P m delta_y c1 c2, TTTT_half P m (-delta_y) c1 c2)

/-- `cstart` of all paths except `T`, e.g. ccpmpm_dubins_state_space.cpp:101. -/
def cstart (P : CircleParam) (q : Configuration) (c1 : Circle) : Circle :=
  circleAt q c1.left (!c1.forward) true P

/-- `cend` of all paths except `T`, e.g. ccpmpm_dubins_state_space.cpp:102. -/
def cend (P : CircleParam) (q : Configuration) (c2 : Circle) : Circle :=
  circleAt q c2.left (!c2.forward) true P

/-- The first or last configuration of all paths except `T`, e.g. ccpmpm_dubins_state_space.cpp:103-104. -/
def outer (c : Circle) : Configuration := configuration c.start.x c.start.y c.start.theta c.kappa

/-- `TT_path`, ccpmpm_dubins_state_space.cpp:97-106, with the call 513-517. -/
def TT_path (P : CircleParam) (c1 c2 : Circle) : Row :=
  let q2 := TT_tangent_circles P c1 c2
  let cs := cstart P q2 c1
  let ce := cend P q2 c2
  let q1 := outer c1
  let q3 := outer c2
  { length := cs.hc_turn_length q1 + ce.hc_turn_length q3
    cstart := some cs
    cend := some ce
    qi1 := some q1
    qi2 := some q2
    qi3 := some q3 }

/-- Body of `TiST_path` and `TeST_path`, ccpmpm_dubins_state_space.cpp:222-242, for tangent
configurations `q`. -/
def line_path (P : CircleParam) (q : Configuration × Configuration) (c1 c2 : Circle) : Row :=
  let cs := cstart P q.1 c1
  let ce := cend P q.2 c2
  let q1 := outer c1
  let q4 := outer c2
  { length := cs.hc_turn_length q1 + configuration_distance q.1 q.2 + ce.hc_turn_length q4
    cstart := some cs
    cend := some ce
    qi1 := some q1
    qi2 := some q.1
    qi3 := some q.2
    qi4 := some q4 }

open Classical in
/-- `TST_path`, ccpmpm_dubins_state_space.cpp:244-256, with the call 520-525. -/
def TST_path (P : CircleParam) (m : Scratch) (c1 c2 : Circle) : Row :=
  if TiST_exists P m c1 c2 then line_path P (TiST_tangent_circles P c1 c2) c1 c2
  else if TeST_exists P m c1 c2 then line_path P (TeST_tangent_circles P c1 c2) c1 c2
  else { length := dblMax }

/-- `TTT_path`, ccpmpm_dubins_state_space.cpp:292-342, with the call 527-532. -/
def TTT_path (P : CircleParam) (m : Scratch) (c1 c2 : Circle) : Row :=
  let q := TTT_tangent_circles P m c1 c2
  let qa := q.1
  let qb := q.2.1
  let qc := q.2.2.1
  let qd := q.2.2.2
  let start1 := cstart P qa c1
  let middle1 := circleAt qa (!c1.left) c1.forward true P
  let end1 := cend P qb c2
  let start2 := cstart P qc c1
  let middle2 := circleAt qc (!c1.left) c1.forward true P
  let end2 := cend P qd c2
  let q1 := outer c1
  let q3 := outer c2
  let length1 := start1.hc_turn_length q1 + middle1.cc_turn_length qb + end1.hc_turn_length q3
  let length2 := start2.hc_turn_length q1 + middle2.cc_turn_length qd + end2.hc_turn_length q3
  if length1 < length2 then
    { length := length1
      cstart := some start1
      cend := some end1
      qi1 := some q1
      qi2 := some qb
      qi3 := some q3
      ci1 := some middle1 }
  else
    { length := length2
      cstart := some start2
      cend := some end2
      qi1 := some q1
      qi2 := some qd
      qi3 := some q3
      ci1 := some middle2 }

/-- `TTTT_path`, ccpmpm_dubins_state_space.cpp:394-453, with the call 535-540. -/
def TTTT_path (P : CircleParam) (m : Scratch) (c1 c2 : Circle) : Row :=
  let q := TTTT_tangent_circles P m c1 c2
  let qa := q.1.1
  let qb := q.1.2.1
  let qc := q.1.2.2
  let qd := q.2.1
  let qe := q.2.2.1
  let qf := q.2.2.2
  let start1 := cstart P qa c1
  let middle1 := circleAt qa (!c1.left) c1.forward true P
  let middle2 := circleAt qc (!c2.left) c2.forward true P
  let end1 := cend P qc c2
  let start2 := cstart P qd c1
  let middle3 := circleAt qd (!c1.left) c1.forward true P
  let middle4 := circleAt qf (!c2.left) c2.forward true P
  let end2 := cend P qf c2
  let q1 := outer c1
  let q3 := outer c2
  let length1 := start1.hc_turn_length q1 + middle1.cc_turn_length qb + middle2.cc_turn_length qb
    + end1.hc_turn_length q3
  let length2 := start2.hc_turn_length q1 + middle3.cc_turn_length qe + middle4.cc_turn_length qe
    + end2.hc_turn_length q3
  if length1 < length2 then
    { length := length1
      cstart := some start1
      cend := some end1
      qi1 := some q1
      qi2 := some qb
      qi3 := some q3
      ci1 := some middle1
      ci2 := some middle2 }
  else
    { length := length2
      cstart := some start2
      cend := some end2
      qi1 := some q1
      qi2 := some qe
      qi3 := some q3
      ci1 := some middle3
      ci2 := some middle4 }

/-- `cstart` of the path `T`, ccpmpm_dubins_state_space.cpp:508. -/
def cturn (sp : HCSpace) (c1 : Circle) : Circle := circleAt c1.start c1.left c1.forward true sp.rs_param

open Classical in
/-- The tables after the case analysis of `ccpmpm_circles_dubins_path`,
ccpmpm_dubins_state_space.cpp:499-540. -/
def table (sp : HCSpace) (m : Scratch) (c1 c2 : Circle) : Table :=
  if configuration_equal c1.start c2.start then
    Table.init.set cc_dubins.E { length := 0 }
  else if configuration_on_hc_cc_circle c1 c2.start then
    Table.init.set cc_dubins.T { length := (cturn sp c1).rs_turn_length c2.start,
                                 cstart := some (cturn sp c1) }
  else
    let P := sp.param
    let t := Table.init
    let t := if TT_exists P m c1 c2 then t.set cc_dubins.TT (TT_path P c1 c2) else t
    let t := if TST_exists P m c1 c2 then t.set cc_dubins.TST (TST_path P m c1 c2) else t
    let t := if TTT_exists P m c1 c2 then t.set cc_dubins.TTT (TTT_path P m c1 c2) else t
    if TTTT_exists P m c1 c2 then t.set cc_dubins.TTTT (TTTT_path P m c1 c2) else t

/-- `ccpmpm_circles_dubins_path`, ccpmpm_dubins_state_space.cpp:472-565. -/
def circles_dubins_path (sp : HCSpace) (c1 c2 : Circle) : CCPath :=
  (table sp (scratch c1 c2) c1 c2).best nb_cc_dubins_paths c1.start c2.start

/-- `start_circle[i]`, ccpmpm_dubins_state_space.cpp:570-591. -/
def start_circle (sp : HCSpace) (s : State) (i : ℕ) : Circle :=
  let start1 := configuration s.x s.y s.theta sp.kappa
  let start2 := configuration s.x s.y s.theta (-sp.kappa)
  circleAt (if i = 0 then start1 else start2) (i = 0) sp.forwards true sp.rs_param

/-- `end_circle[j]`, ccpmpm_dubins_state_space.cpp:570-591. -/
def end_circle (sp : HCSpace) (s : State) (j : ℕ) : Circle :=
  let end1 := configuration s.x s.y s.theta sp.kappa
  let end2 := configuration s.x s.y s.theta (-sp.kappa)
  circleAt (if j = 0 then end1 else end2) (j = 0) (!sp.forwards) true sp.rs_param

open Classical in
/-- `path[2 i + j]`, ccpmpm_dubins_state_space.cpp:599-619; `none` where the loop continues and leaves the null
pointer. -/
def path (sp : HCSpace) (state1 state2 : State) (n : ℕ) : Option CCPath :=
  if n / 2 = 0 ∧ state1.kappa < 0 then none
  else if n / 2 = 1 ∧ state1.kappa > 0 then none
  else if n % 2 = 0 ∧ state2.kappa < 0 then none
  else if n % 2 = 1 ∧ state2.kappa > 0 then none
  else some (circles_dubins_path sp (start_circle sp state1 (n / 2)) (end_circle sp state2 (n % 2)))

/-- `ccpmpm_dubins`, ccpmpm_dubins_state_space.cpp:567-651. -/
def ccpmpm_dubins (sp : HCSpace) (state1 state2 : State) : Option CCPath :=
  best_of (path sp state1 state2)

/-- `CCpmpm_Dubins_State_Space::get_distance`, ccpmpm_dubins_state_space.cpp:653-659. -/
def get_distance (sp : HCSpace) (state1 state2 : State) : Option ℝ :=
  (ccpmpm_dubins sp state1 state2).map CCPath.length

/-- The `switch` of `get_controls`, ccpmpm_dubins_state_space.cpp:666-698; `none` is a
dereferenced null pointer. -/
def path_controls (p : CCPath) : Option (List Control) :=
  match p.type with
  | 0 => some empty_controls
  | 2 => p.row.cstart.map fun cstart => rs_turn_controls cstart p.end_ true
  | 3 =>
    p.row.cstart.bind fun cstart => p.row.qi1.bind fun qi1 => p.row.cend.bind fun cend =>
      p.row.qi3.map fun qi3 =>
        hc_turn_controls cstart qi1 false ++ hc_turn_controls cend qi3 true
  | 4 =>
    p.row.cstart.bind fun cstart => p.row.qi1.bind fun qi1 => p.row.qi2.bind fun qi2 =>
      p.row.qi3.bind fun qi3 => p.row.cend.bind fun cend => p.row.qi4.map fun qi4 =>
        hc_turn_controls cstart qi1 false ++ straight_controls qi2 qi3
          ++ hc_turn_controls cend qi4 true
  | 5 =>
    p.row.cstart.bind fun cstart => p.row.qi1.bind fun qi1 => p.row.ci1.bind fun ci1 =>
      p.row.qi2.bind fun qi2 => p.row.cend.bind fun cend => p.row.qi3.map fun qi3 =>
        hc_turn_controls cstart qi1 false ++ cc_turn_controls ci1 qi2 true
          ++ hc_turn_controls cend qi3 true
  | 6 =>
    p.row.cstart.bind fun cstart => p.row.qi1.bind fun qi1 => p.row.ci1.bind fun ci1 =>
      p.row.qi2.bind fun qi2 => p.row.ci2.bind fun ci2 => p.row.cend.bind fun cend =>
        p.row.qi3.map fun qi3 =>
          hc_turn_controls cstart qi1 false ++ cc_turn_controls ci1 qi2 true
            ++ cc_turn_controls ci2 qi2 false ++ hc_turn_controls cend qi3 true
  | _ => some []

/-- `CCpmpm_Dubins_State_Space::get_controls`, ccpmpm_dubins_state_space.cpp:661-701. -/
def get_controls (sp : HCSpace) (state1 state2 : State) : Option (List Control) :=
  (ccpmpm_dubins sp state1 state2).bind path_controls

/-- `HC_CC_State_Space::get_path`, hc_cc_state_space.cpp:67-71, for this planner. -/
def get_path (sp : HCSpace) (state1 state2 : State) : Option (List State) :=
  (get_controls sp state1 state2).bind (hcIntegrate sp.discretization state1)

end CCpmpm

end SF
