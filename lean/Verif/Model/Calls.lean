import Verif.Model.CcReedsShepp

/-!
# The calls of turn functions and their debug assertions

Which turn functions the planners call with which arguments, while computing the lengths of all candidates
(`distance_calls`) and the controls of the shortest one (`control_calls`).  The assertions of these functions (hc_cc_circle.cpp:150, 187,
240, paths.cpp:322, 338, 419) read `kappa` of the circle and the configuration and `sigma` of the circle only.

Where a length is not a number (see `Model.HcReedsShepp`), the arguments listed here have other coordinates than those in the
code, but the same `kappa` and `sigma`.
-/

noncomputable section

namespace SF

open Real

/-- The debug assertion at the begin of the called function; `configuration_distance` and `straight_controls` have none. -/
def Move.assertion : Move → Prop
  | .cc _ q _ => Circle.cc_turn_assert q
  | .hc c q _ => c.hc_turn_assert q
  | .rs c q _ => c.rs_turn_assert q
  | .line _ _ => True

/-! ### CC-Dubins -/

namespace CC00

/-- Calls in `TTT_path`, cc00_dubins_state_space.cpp:286-287, for both connections. -/
def TTT_calls (P : CircleParam) (m : Scratch) (c1 c2 : Circle) : List Move :=
  let q := TTT_tangent_circles P m c1 c2
  let middle1 := circleAt q.1 (!c1.left) c1.forward c1.regular P
  let middle2 := circleAt q.2.2.1 (!c1.left) c1.forward c1.regular P
  [.cc c1 q.1 true, .cc middle1 q.2.1 true, .cc c2 q.2.1 false,
   .cc c1 q.2.2.1 true, .cc middle2 q.2.2.2 true, .cc c2 q.2.2.2 false]

/-- Calls in `TiST_path` and `TeST_path`, cc00_dubins_state_space.cpp:220, 226. -/
def line_calls (c1 c2 : Circle) (q : Configuration × Configuration) : List Move :=
  [.cc c1 q.1 true, .line q.1 q.2, .cc c2 q.2 false]

open Classical in
/-- Calls in `cc00_circles_dubins_path`, cc00_dubins_state_space.cpp:343-390. -/
def circles_calls (sp : HCSpace) (c1 c2 : Circle) : List Move :=
  let m := scratch c1 c2
  if configuration_equal c1.start c2.start then []
  else if sp.forwards ∧ configuration_aligned c1.start c2.start then []
  else if ¬sp.forwards ∧ configuration_aligned c2.start c1.start then []
  else if configuration_on_hc_cc_circle c1 c2.start then [.cc c1 c2.start true]
  else
    (if TT_exists m c1 c2 then [.cc c1 (TT_tangent_circles c1 c2) true, .cc c2 (TT_tangent_circles c1 c2) false] else [])
    ++ (if TiST_exists m c1 c2 then line_calls c1 c2 (TiST_tangent_circles c1 c2)
        else if TeST_exists m c1 c2 then line_calls c1 c2 (TeST_tangent_circles c1 c2) else [])
    ++ (if TTT_exists m c1 c2 then TTT_calls sp.param m c1 c2 else [])

/-- Calls in `cc00_dubins`, cc00_dubins_state_space.cpp:444-454. -/
def distance_calls (sp : HCSpace) (state1 state2 : State) : List Move :=
  let start := configuration state1.x state1.y state1.theta 0
  let end_ := configuration state2.x state2.y state2.theta 0
  (List.range 4).flatMap fun n => circles_calls sp (start_circle sp start (n / 2)) (end_circle sp end_ (n % 2))

/-- Calls in `get_controls`, cc00_dubins_state_space.cpp:501-530; `none` is a dereferenced null pointer. -/
def path_calls (p : CCPath) : Option (List Move) :=
  match p.type with
  | 1 => some [.line p.start p.end_]
  | 2 => p.row.cstart.map fun cstart => [.cc cstart p.end_ true]
  | 3 =>
    p.row.cstart.bind fun cstart => p.row.qi1.bind fun qi1 => p.row.cend.map fun cend => [.cc cstart qi1 true, .cc cend qi1 false]
  | 4 =>
    p.row.cstart.bind fun cstart => p.row.qi1.bind fun qi1 => p.row.qi2.bind fun qi2 =>
      p.row.cend.map fun cend => [.cc cstart qi1 true, .line qi1 qi2, .cc cend qi2 false]
  | 5 =>
    p.row.cstart.bind fun cstart => p.row.qi1.bind fun qi1 => p.row.ci1.bind fun ci1 =>
      p.row.qi2.bind fun qi2 => p.row.cend.map fun cend =>
        [.cc cstart qi1 true, .cc ci1 qi2 true, .cc cend qi2 false]
  | _ => some []

/-- Calls in `get_controls` after planning. -/
def control_calls (sp : HCSpace) (state1 state2 : State) : Option (List Move) := path_calls (cc00_dubins sp state1 state2)

end CC00

namespace CC0pm

/-- Calls in `TTT_path`, cc0pm_dubins_state_space.cpp:304-305, for both connections. -/
def TTT_calls (P : CircleParam) (m : Scratch) (c1 c2 : Circle) : List Move :=
  let q := TTT_tangent_circles P m c1 c2
  let cs := cstart P c1
  [.cc cs q.1 true, .cc (circleAt q.1 (!c1.left) c1.forward true P) q.2.1 true, .hc (cend P q.2.1 c2) (last c2) true,
   .cc cs q.2.2.1 true, .cc (circleAt q.2.2.1 (!c1.left) c1.forward true P) q.2.2.2 true, .hc (cend P q.2.2.2 c2) (last c2) true]

/-- Calls in `TiST_path` and `TeST_path`, cc0pm_dubins_state_space.cpp:228, 238. -/
def line_calls (P : CircleParam) (c1 c2 : Circle) (q : Configuration × Configuration) : List Move :=
  [.cc (cstart P c1) q.1 true, .line q.1 q.2, .hc (cend P q.2 c2) (last c2) true]

open Classical in
/-- Calls in `cc0pm_circles_dubins_path`, cc0pm_dubins_state_space.cpp:371-403. -/
def circles_calls (sp : HCSpace) (c1 c2 : Circle) : List Move :=
  let m := scratch c1 c2
  let P := sp.param
  if configuration_equal c1.start c2.start then []
  else if m.distance < epsilon then [.hc (cstart P c1) c2.start true]
  else
    (if TT_exists m c1 c2 then
      [.cc (cstart P c1) (TT_tangent_circles c1 c2) true, .hc (cend P (TT_tangent_circles c1 c2) c2) (last c2) true] else [])
    ++ (if TiST_exists m c1 c2 then line_calls P c1 c2 (TiST_tangent_circles c1 c2)
        else if TeST_exists m c1 c2 then line_calls P c1 c2 (TeST_tangent_circles c1 c2) else [])
    ++ (if TTT_exists m c1 c2 then TTT_calls P m c1 c2 else [])

open Classical in
/-- Calls in `cc0pm_dubins`, cc0pm_dubins_state_space.cpp:458-472. -/
def distance_calls (sp : HCSpace) (state1 state2 : State) : List Move :=
  let start := configuration state1.x state1.y state1.theta 0
  (List.range 4).flatMap fun n =>
    if n % 2 = 0 ∧ state2.kappa < 0 then []
    else if n % 2 = 1 ∧ state2.kappa > 0 then []
    else circles_calls sp (start_circle sp start (n / 2)) (end_circle sp state2 (n % 2))

/-- Calls in `get_controls`, cc0pm_dubins_state_space.cpp:521-547; `none` is a dereferenced null pointer. -/
def path_calls (p : CCPath) : Option (List Move) :=
  match p.type with
  | 2 => p.row.cstart.map fun cstart => [.hc cstart p.end_ true]
  | 3 =>
    p.row.cstart.bind fun cstart => p.row.qi1.bind fun qi1 => p.row.cend.bind fun cend =>
      p.row.qi2.map fun qi2 => [.cc cstart qi1 true, .hc cend qi2 true]
  | 4 =>
    p.row.cstart.bind fun cstart => p.row.qi1.bind fun qi1 => p.row.qi2.bind fun qi2 =>
      p.row.cend.bind fun cend => p.row.qi3.map fun qi3 => [.cc cstart qi1 true, .line qi1 qi2, .hc cend qi3 true]
  | 5 =>
    p.row.cstart.bind fun cstart => p.row.qi1.bind fun qi1 => p.row.ci1.bind fun ci1 =>
      p.row.qi2.bind fun qi2 => p.row.cend.bind fun cend => p.row.qi3.map fun qi3 =>
        [.cc cstart qi1 true, .cc ci1 qi2 true, .hc cend qi3 true]
  | _ => some []

/-- Calls in `get_controls` after planning. -/
def control_calls (sp : HCSpace) (state1 state2 : State) : Option (List Move) :=
  (cc0pm_dubins sp state1 state2).bind path_calls

end CC0pm

namespace CCpm0

/-- Calls in `TTT_path`, ccpm0_dubins_state_space.cpp:304-305, for both connections. -/
def TTT_calls (P : CircleParam) (m : Scratch) (c1 c2 : Circle) : List Move :=
  let q := TTT_tangent_circles P m c1 c2
  let ce := cend P c2
  [.hc (cstart P q.1 c1) (first c1) false, .cc (circleAt q.1 (!c1.left) c1.forward true P) q.2.1 true, .cc ce q.2.1 false,
   .hc (cstart P q.2.2.1 c1) (first c1) false, .cc (circleAt q.2.2.1 (!c1.left) c1.forward true P) q.2.2.2 true,
   .cc ce q.2.2.2 false]

/-- Calls in `TiST_path` and `TeST_path`, ccpm0_dubins_state_space.cpp:228, 238. -/
def line_calls (P : CircleParam) (c1 c2 : Circle) (q : Configuration × Configuration) : List Move :=
  [.hc (cstart P q.1 c1) (first c1) false, .line q.1 q.2, .cc (cend P c2) q.2 false]

open Classical in
/-- Calls in `ccpm0_circles_dubins_path`, ccpm0_dubins_state_space.cpp:371-402. -/
def circles_calls (sp : HCSpace) (c1 c2 : Circle) : List Move :=
  let m := scratch c1 c2
  let P := sp.param
  if configuration_equal c1.start c2.start then []
  else if m.distance < epsilon then [.hc (cend P c2) c1.start false]
  else
    (if TT_exists m c1 c2 then
      [.hc (circleAt (TT_tangent_circles c1 c2) (!c2.left) c2.forward true P) (first c1) false,
       .cc (cend P c2) (TT_tangent_circles c1 c2) false] else [])
    ++ (if TiST_exists m c1 c2 then line_calls P c1 c2 (TiST_tangent_circles c1 c2)
        else if TeST_exists m c1 c2 then line_calls P c1 c2 (TeST_tangent_circles c1 c2) else [])
    ++ (if TTT_exists m c1 c2 then TTT_calls P m c1 c2 else [])

open Classical in
/-- Calls in `ccpm0_dubins`, ccpm0_dubins_state_space.cpp:457-471. -/
def distance_calls (sp : HCSpace) (state1 state2 : State) : List Move :=
  let end_ := configuration state2.x state2.y state2.theta 0
  (List.range 4).flatMap fun n =>
    if n / 2 = 0 ∧ state1.kappa < 0 then []
    else if n / 2 = 1 ∧ state1.kappa > 0 then []
    else circles_calls sp (start_circle sp state1 (n / 2)) (end_circle sp end_ (n % 2))

/-- Calls in `get_controls`, ccpm0_dubins_state_space.cpp:520-546; `none` is a dereferenced null pointer. -/
def path_calls (p : CCPath) : Option (List Move) :=
  match p.type with
  | 2 => p.row.cend.map fun cend => [.hc cend p.start false]
  | 3 =>
    p.row.cstart.bind fun cstart => p.row.qi1.bind fun qi1 => p.row.cend.bind fun cend =>
      p.row.qi2.map fun qi2 => [.hc cstart qi1 false, .cc cend qi2 false]
  | 4 =>
    p.row.cstart.bind fun cstart => p.row.qi1.bind fun qi1 => p.row.qi2.bind fun qi2 =>
      p.row.cend.bind fun cend => p.row.qi3.map fun qi3 => [.hc cstart qi1 false, .line qi2 qi3, .cc cend qi3 false]
  | 5 =>
    p.row.cstart.bind fun cstart => p.row.qi1.bind fun qi1 => p.row.ci1.bind fun ci1 =>
      p.row.qi2.bind fun qi2 => p.row.cend.map fun cend =>
        [.hc cstart qi1 false, .cc ci1 qi2 true, .cc cend qi2 false]
  | _ => some []

/-- Calls in `get_controls` after planning. -/
def control_calls (sp : HCSpace) (state1 state2 : State) : Option (List Move) :=
  (ccpm0_dubins sp state1 state2).bind path_calls

end CCpm0

namespace CCpmpm

/-- Calls in `TTT_path`, ccpmpm_dubins_state_space.cpp:309-310, for both connections. -/
def TTT_calls (P : CircleParam) (m : Scratch) (c1 c2 : Circle) : List Move :=
  let q := TTT_tangent_circles P m c1 c2
  [.hc (cstart P q.1 c1) (outer c1) false, .cc (circleAt q.1 (!c1.left) c1.forward true P) q.2.1 true,
   .hc (cend P q.2.1 c2) (outer c2) true,
   .hc (cstart P q.2.2.1 c1) (outer c1) false, .cc (circleAt q.2.2.1 (!c1.left) c1.forward true P) q.2.2.2 true,
   .hc (cend P q.2.2.2 c2) (outer c2) true]

/-- Calls in `TTTT_path`, ccpmpm_dubins_state_space.cpp:414-417, for one of the connections. -/
def TTTT_calls (P : CircleParam) (c1 c2 : Circle) (q : Configuration × Configuration × Configuration) : List Move :=
  [.hc (cstart P q.1 c1) (outer c1) false, .cc (circleAt q.1 (!c1.left) c1.forward true P) q.2.1 true,
   .cc (circleAt q.2.2 (!c2.left) c2.forward true P) q.2.1 false, .hc (cend P q.2.2 c2) (outer c2) true]

/-- Calls in `TiST_path` and `TeST_path`, ccpmpm_dubins_state_space.cpp:230, 241. -/
def line_calls (P : CircleParam) (c1 c2 : Circle) (q : Configuration × Configuration) : List Move :=
  [.hc (cstart P q.1 c1) (outer c1) false, .line q.1 q.2, .hc (cend P q.2 c2) (outer c2) true]

open Classical in
/-- Calls in `ccpmpm_circles_dubins_path`, ccpmpm_dubins_state_space.cpp:499-540. -/
def circles_calls (sp : HCSpace) (c1 c2 : Circle) : List Move :=
  let m := scratch c1 c2
  let P := sp.param
  if configuration_equal c1.start c2.start then []
  else if configuration_on_hc_cc_circle c1 c2.start then [.rs (cturn sp c1) c2.start true]
  else
    (if TT_exists P m c1 c2 then
      [.hc (cstart P (TT_tangent_circles P c1 c2) c1) (outer c1) false,
       .hc (cend P (TT_tangent_circles P c1 c2) c2) (outer c2) true] else [])
    ++ (if TiST_exists P m c1 c2 then line_calls P c1 c2 (TiST_tangent_circles P c1 c2)
        else if TeST_exists P m c1 c2 then line_calls P c1 c2 (TeST_tangent_circles P c1 c2) else [])
    ++ (if TTT_exists P m c1 c2 then TTT_calls P m c1 c2 else [])
    ++ (if TTTT_exists P m c1 c2 then TTTT_calls P c1 c2 (TTTT_tangent_circles P m c1 c2).1
        ++ TTTT_calls P c1 c2 (TTTT_tangent_circles P m c1 c2).2 else [])

open Classical in
/-- Calls in `ccpmpm_dubins`, ccpmpm_dubins_state_space.cpp:599-619. -/
def distance_calls (sp : HCSpace) (state1 state2 : State) : List Move :=
  (List.range 4).flatMap fun n =>
    if n / 2 = 0 ∧ state1.kappa < 0 then []
    else if n / 2 = 1 ∧ state1.kappa > 0 then []
    else if n % 2 = 0 ∧ state2.kappa < 0 then []
    else if n % 2 = 1 ∧ state2.kappa > 0 then []
    else circles_calls sp (start_circle sp state1 (n / 2)) (end_circle sp state2 (n % 2))

/-- Calls in `get_controls`, ccpmpm_dubins_state_space.cpp:666-698; `none` is a dereferenced null pointer. -/
def path_calls (p : CCPath) : Option (List Move) :=
  match p.type with
  | 2 => p.row.cstart.map fun cstart => [.rs cstart p.end_ true]
  | 3 =>
    p.row.cstart.bind fun cstart => p.row.qi1.bind fun qi1 => p.row.cend.bind fun cend =>
      p.row.qi3.map fun qi3 => [.hc cstart qi1 false, .hc cend qi3 true]
  | 4 =>
    p.row.cstart.bind fun cstart => p.row.qi1.bind fun qi1 => p.row.qi2.bind fun qi2 =>
      p.row.qi3.bind fun qi3 => p.row.cend.bind fun cend => p.row.qi4.map fun qi4 =>
        [.hc cstart qi1 false, .line qi2 qi3, .hc cend qi4 true]
  | 5 =>
    p.row.cstart.bind fun cstart => p.row.qi1.bind fun qi1 => p.row.ci1.bind fun ci1 =>
      p.row.qi2.bind fun qi2 => p.row.cend.bind fun cend => p.row.qi3.map fun qi3 =>
        [.hc cstart qi1 false, .cc ci1 qi2 true, .hc cend qi3 true]
  | 6 =>
    p.row.cstart.bind fun cstart => p.row.qi1.bind fun qi1 => p.row.ci1.bind fun ci1 =>
      p.row.qi2.bind fun qi2 => p.row.ci2.bind fun ci2 => p.row.cend.bind fun cend =>
        p.row.qi3.map fun qi3 =>
          [.hc cstart qi1 false, .cc ci1 qi2 true, .cc ci2 qi2 false, .hc cend qi3 true]
  | _ => some []

/-- Calls in `get_controls` after planning. -/
def control_calls (sp : HCSpace) (state1 state2 : State) : Option (List Move) :=
  (ccpmpm_dubins sp state1 state2).bind path_calls

end CCpmpm

/-! ### Hybrid-curvature Reeds-Shepp -/

namespace HcRs

open Classical in
/-- Calls in the `*_path` function of family `i`, with both connections where it has two; files and lines as for the functions
`*_path`. -/
def family_calls (pm1 pm2 : Bool) (sp : HCSpace) (m : Scratch) (c1 c2 : Circle) (i : ℕ) : List Move :=
  let P := sp.param
  let R := P.radius
  let k := |c1.kappa_inv|
  match i with
  | hc_cc_rs.TT => if TT_exists P m c1 c2 then (TT_path pm1 pm2 P c1 c2).moves else []
  | hc_cc_rs.TcT => if TcT_exists m c1 c2 then (TcT_path pm1 pm2 c1 c2).moves else []
  | hc_cc_rs.TcTcT =>
    let dx := 0.5 * m.distance
    let dy := √((2 * k) ^ 2 - dx ^ 2)
    if TcTcT_exists m c1 c2 then
      (TcTcT_side pm1 pm2 P sp.rs_param m c1 c2 dx dy).moves ++ (TcTcT_side pm1 pm2 P sp.rs_param m c1 c2 dx (-dy)).moves
    else []
  | hc_cc_rs.TcTT =>
    let dx := ((2 * k) ^ 2 + m.distance ^ 2 - (2 * R) ^ 2) / (2 * m.distance)
    let dy := √((2 * k) ^ 2 - dx ^ 2)
    if TcTT_exists P m c1 c2 then
      (TcTT_side pm1 pm2 P m c1 c2 dx dy).moves ++ (TcTT_side pm1 pm2 P m c1 c2 dx (-dy)).moves
    else []
  | hc_cc_rs.TTcT =>
    let dx := ((2 * R) ^ 2 + m.distance ^ 2 - (2 * k) ^ 2) / (2 * m.distance)
    let dy := √((2 * R) ^ 2 - dx ^ 2)
    if TTcT_exists P m c1 c2 then
      (TTcT_side pm1 pm2 P m c1 c2 dx dy).moves ++ (TTcT_side pm1 pm2 P m c1 c2 dx (-dy)).moves
    else []
  | hc_cc_rs.TST => (TST_path pm1 pm2 P m c1 c2).moves
  | hc_cc_rs.TSTcT => (TSTcT_path pm1 pm2 P m c1 c2).moves
  | hc_cc_rs.TcTST => (TcTST_path pm1 pm2 P m c1 c2).moves
  | hc_cc_rs.TcTSTcT => (TcTSTcT_path pm1 pm2 P m c1 c2).moves
  | hc_cc_rs.TTcTT =>
    let dx := if m.distance < 4 * R - 2 * k then (m.distance + 2 * k) / 2 else (m.distance - 2 * k) / 2
    let dy := √((2 * R) ^ 2 - dx ^ 2)
    if TTcTT_exists P m c1 c2 then
      (TTcTT_side pm1 pm2 P m c1 c2 dx dy).moves ++ (TTcTT_side pm1 pm2 P m c1 c2 dx (-dy)).moves
    else []
  | hc_cc_rs.TcTTcT =>
    let dx := ((2 * k) ^ 2 + (m.distance / 2) ^ 2 - R ^ 2) / m.distance
    let dy := √((2 * k) ^ 2 - dx ^ 2)
    if TcTTcT_exists P m c1 c2 then
      (TcTTcT_side pm1 pm2 P m c1 c2 dx dy).moves ++ (TcTTcT_side pm1 pm2 P m c1 c2 dx (-dy)).moves
    else []
  | hc_cc_rs.TTT =>
    let dx := 0.5 * m.distance
    let dy := √((2 * R) ^ 2 - dx ^ 2)
    if TTT_exists P m c1 c2 then
      (TTT_side pm1 pm2 P m c1 c2 dx dy).moves ++ (TTT_side pm1 pm2 P m c1 c2 dx (-dy)).moves
    else []
  | hc_cc_rs.TcST => (TcST_path pm1 pm2 P m c1 c2).moves
  | hc_cc_rs.TScT => (TScT_path pm1 pm2 P m c1 c2).moves
  | hc_cc_rs.TcScT => (TcScT_path pm1 pm2 m c1 c2).moves
  | _ => []

/-- Calls in the `*_circles_rs_path` functions, hc00:1528-1651 / hc0pm:1561-1675 / hcpm0:1561-1674 / hcpmpm:1595-1716. -/
def circles_calls (pm1 pm2 : Bool) (sp : HCSpace) (c1 c2 : Circle) : List Move :=
  let m := scratch c1 c2
  match shortcut pm1 pm2 sp m c1 c2 with
  | some (_, r) => r.moves
  | none => (List.range nb_hc_cc_rs_paths).flatMap (family_calls pm1 pm2 sp m c1 c2)

open Classical in
/-- Calls in `hc00_reeds_shepp` etc., hc00:1709-1719 / hc0pm:1731-1751 / hcpm0:1731-1751 / hcpmpm:1773-1803. -/
def distance_calls (pm1 pm2 : Bool) (sp : HCSpace) (state1 state2 : State) : List Move :=
  (List.range 16).flatMap fun n =>
    if skip pm1 state1 (n / 4) ∨ skip pm2 state2 (n % 4) then []
    else circles_calls pm1 pm2 sp (end_circle pm1 sp state1 (n / 4)) (end_circle pm2 sp state2 (n % 4))

/-- Calls in `get_controls` after planning; `none` is a dereferenced null pointer. -/
def control_calls (pm1 pm2 : Bool) (sp : HCSpace) (state1 state2 : State) : Option (List Move) :=
  (reeds_shepp pm1 pm2 sp state1 state2).map fun p => p.row.moves

end HcRs

/-! ### CC-Reeds-Shepp -/

namespace CcRs

open Classical in
/-- Calls in the `*_path` function of family `i`, with both connections where it has two; lines as for the functions
`*_path`. -/
def family_calls (sp : HCSpace) (m : Scratch) (c1 c2 : Circle) (i : ℕ) : List Move :=
  let P := sp.param
  let R := c1.radius
  let C := c1.radius * c1.cos_mu
  match i with
  | hc_cc_rs.TT => if TT_exists m c1 c2 then (TT_path c1 c2).moves else []
  | hc_cc_rs.TcT => if TcT_exists m c1 c2 then (TcT_path c1 c2).moves else []
  | hc_cc_rs.TcTcT =>
    let dx := 0.5 * m.distance
    let dy := √((2 * C) ^ 2 - dx ^ 2)
    if TcTcT_exists m c1 c2 then (TcTcT_side P m c1 c2 dx dy).moves ++ (TcTcT_side P m c1 c2 dx (-dy)).moves else []
  | hc_cc_rs.TcTT =>
    let dx := ((2 * C) ^ 2 + m.distance ^ 2 - (2 * R) ^ 2) / (2 * m.distance)
    let dy := √((2 * C) ^ 2 - dx ^ 2)
    if TcTT_exists m c1 c2 then (TcTT_side P m c1 c2 dx dy).moves ++ (TcTT_side P m c1 c2 dx (-dy)).moves else []
  | hc_cc_rs.TTcT =>
    let dx := ((2 * R) ^ 2 + m.distance ^ 2 - (2 * C) ^ 2) / (2 * m.distance)
    let dy := √((2 * R) ^ 2 - dx ^ 2)
    if TTcT_exists m c1 c2 then (TTcT_side P m c1 c2 dx dy).moves ++ (TTcT_side P m c1 c2 dx (-dy)).moves else []
  | hc_cc_rs.TST => (TST_path m c1 c2).moves
  | hc_cc_rs.TSTcT => (TSTcT_path P m c1 c2).moves
  | hc_cc_rs.TcTST => (TcTST_path P m c1 c2).moves
  | hc_cc_rs.TcTSTcT => (TcTSTcT_path P m c1 c2).moves
  | hc_cc_rs.TTcTT =>
    let dx := if m.distance < 2 * R * (-c1.cos_mu + 2) then (m.distance + 2 * C) / 2 else (m.distance - 2 * C) / 2
    let dy := √((2 * R) ^ 2 - dx ^ 2)
    if TTcTT_exists m c1 c2 then (TTcTT_side P m c1 c2 dx dy).moves ++ (TTcTT_side P m c1 c2 dx (-dy)).moves else []
  | hc_cc_rs.TcTTcT =>
    let dx := ((2 * C) ^ 2 + (m.distance / 2) ^ 2 - R ^ 2) / m.distance
    let dy := √((2 * C) ^ 2 - dx ^ 2)
    if TcTTcT_exists m c1 c2 then (TcTTcT_side P m c1 c2 dx dy).moves ++ (TcTTcT_side P m c1 c2 dx (-dy)).moves else []
  | hc_cc_rs.TTT =>
    let dx := 0.5 * m.distance
    let dy := √((2 * R) ^ 2 - dx ^ 2)
    if TTT_exists m c1 c2 then (TTT_side P m c1 c2 dx dy).moves ++ (TTT_side P m c1 c2 dx (-dy)).moves else []
  | hc_cc_rs.TcST => (TcST_path m c1 c2).moves
  | hc_cc_rs.TScT => (TScT_path m c1 c2).moves
  | hc_cc_rs.TcScT => (TcScT_path m c1 c2).moves
  | _ => []

/-- Calls in `cc00_circles_rs_path`, lines 1444-1597. -/
def circles_calls (sp : HCSpace) (c1 c2 : Circle) : List Move :=
  match shortcut c1 c2 with
  | some (_, r) => r.moves
  | none => (List.range nb_hc_cc_rs_paths).flatMap (family_calls sp (scratch c1 c2) c1 c2)

/-- Calls in `cc00_reeds_shepp`, lines 1652-1662. -/
def distance_calls (sp : HCSpace) (state1 state2 : State) : List Move :=
  (List.range 16).flatMap fun n => circles_calls sp (end_circle sp state1 (n / 4)) (end_circle sp state2 (n % 4))

/-- Calls in `get_controls` after planning, lines 1710-1780. -/
def control_calls (sp : HCSpace) (state1 state2 : State) : List Move := (reeds_shepp sp state1 state2).row.moves

end CcRs

end SF
