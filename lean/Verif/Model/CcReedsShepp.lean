import Verif.Model.HcReedsShepp

/-!
# Model of the CC-Reeds-Shepp planner between states with curvature zero

src/hc_cc_state_space/cc00_reeds_shepp_state_space.cpp (all line numbers below refer to this file).

Conventions as in `Model.CcDubins` and `Model.HcReedsShepp`: a row of the tables holds the calls that
`get_controls` will make, and a length that is not a number is replaced by
`numeric_limits<double>::max()`.  All turns of this planner are CC turns on circles with
`CC_REGULAR = false`.  `radius`, `mu`, `sin_mu` and `cos_mu` are read from the circles, `P` is the member
`hc_cc_circle_param_` of the state space.
-/

noncomputable section

namespace SF

open Real

namespace CcRs

/-! ### TT -/

/-- `TT_exists`, lines 55-66; the text is that of cc00_dubins_state_space.cpp. -/
def TT_exists (m : Scratch) (c1 c2 : Circle) : Prop := CC00.TT_exists m c1 c2

/-- `TT_tangent_circles`, lines 68-97; the text is that of cc00_dubins_state_space.cpp. -/
def TT_tangent_circles (c1 c2 : Circle) : Configuration := CC00.TT_tangent_circles c1 c2

/-- `TT_path`, lines 99-103, and the calls in lines 1723-1724. -/
def TT_path (c1 c2 : Circle) : RSRow :=
  let q := TT_tangent_circles c1 c2
  { length := c1.cc_turn_length q + c2.cc_turn_length q
    moves := [.cc c1 q true, .cc c2 q false] }

/-! ### TcT -/

/-- `TcT_exists`, lines 106-117. -/
def TcT_exists (m : Scratch) (c1 c2 : Circle) : Prop :=
  if c1.left = c2.left then False
  else if c1.forward ≠ c2.forward then False
  else |m.distance - 2 * c1.radius * c1.cos_mu| < epsilon

/-- The argument of the square root in `TcT_tangent_circles` is negative, lines 121-123. -/
def TcT_negative (c1 c2 : Circle) : Prop :=
  c1.radius ^ 2 - (0.5 * center_distance c1 c2) ^ 2 < 0

/-- Orientation `theta` of the configuration of `TcT_tangent_circles`, lines 124-151. -/
def TcT_theta (c1 c2 : Circle) : ℝ :=
  let angle := atan2 (c2.yc - c1.yc) (c2.xc - c1.xc)
  if c1.left then angle + π / 2 else angle - π / 2

/-- `TcT_tangent_circles`, lines 119-153.  Guard: not `TcT_negative`.  It holds for all calls but the one
in `TcT_path`, since the other callers place the circles at distance `2 * radius * cos_mu`. -/
def TcT_tangent_circles (c1 c2 : Circle) : Configuration :=
  let distance := center_distance c1 c2
  let delta_x := 0.5 * distance
  let delta_y := √(c1.radius ^ 2 - delta_x ^ 2)
  let angle := atan2 (c2.yc - c1.yc) (c2.xc - c1.xc)
  let p :=
    if c1.left then
      if c1.forward then global_frame_change c1.xc c1.yc angle delta_x delta_y
      else global_frame_change c1.xc c1.yc angle delta_x (-delta_y)
    else
      if c1.forward then global_frame_change c1.xc c1.yc angle delta_x (-delta_y)
      else global_frame_change c1.xc c1.yc angle delta_x delta_y
  configuration p.1 p.2 (TcT_theta c1 c2) 0

/-- A configuration whose coordinates are not numbers, seen from a turn on circle `c`: `cc_turn_length`
and `cc_turn_controls` read the coordinates only through `configuration_distance (c.start, q)`, in the
comparison `> get_epsilon()` of `cc_elementary_sharpness` (false for not-a-number, hc_cc_circle.cpp:197)
and in the case `delta < get_epsilon()` of `cc_turn_controls` (see `TcT_lost`).  The coordinates of
`c.start` give the same result in the first case. -/
def blind (c : Circle) (theta : ℝ) : Configuration := configuration c.start.x c.start.y theta 0

open Classical in
/-- `TcT_path`, lines 155-159, and the calls in lines 1723-1724. -/
def TcT_path (c1 c2 : Circle) : RSRow :=
  let q1 := if TcT_negative c1 c2 then blind c1 (TcT_theta c1 c2) else TcT_tangent_circles c1 c2
  let q2 := if TcT_negative c1 c2 then blind c2 (TcT_theta c1 c2) else TcT_tangent_circles c1 c2
  { length := c1.cc_turn_length q1 + c2.cc_turn_length q2
    moves := [.cc c1 q1 true, .cc c2 q2 false] }

/-- `straight_controls` is called with a configuration whose coordinates are not numbers: the controls
of the path `TcT` are not numbers, paths.cpp:422-429, `cc_turn_controls`, case
`delta < get_epsilon()`. -/
def TcT_lost (c1 c2 : Circle) : Prop :=
  TcT_negative c1 c2 ∧
    (c1.deflection (blind c1 (TcT_theta c1 c2)) < epsilon ∨ c2.deflection (blind c2 (TcT_theta c1 c2)) < epsilon)

/-! ### TcTcT -/

/-- `TcTcT_exists`, lines 164-175. -/
def TcTcT_exists (m : Scratch) (c1 c2 : Circle) : Prop :=
  if c1.left ≠ c2.left then False
  else if c1.forward = c2.forward then False
  else m.distance ≤ 4 * c1.radius * c1.cos_mu

/-- One of the two connections of `TcTcT_path` with the configurations of `TcTcT_tangent_circles`, lines
186-194, 201-208 and 1730-1732; the lateral offset is `delta_y` for the first and `-delta_y` for the
second. -/
def TcTcT_side (P : CircleParam) (m : Scratch) (c1 c2 : Circle) (delta_x delta_y : ℝ) : RSRow :=
  let p := global_frame_change c1.xc c1.yc m.angle delta_x delta_y
  let tgt := circleCentered p.1 p.2 (!c1.left) (!c1.forward) c1.regular P
  let qa := TcT_tangent_circles c1 tgt
  let qb := TcT_tangent_circles tgt c2
  let middle := circleAt qa (!c1.left) (!c1.forward) c1.regular P
  { length := c1.cc_turn_length qa + middle.cc_turn_length qb + c2.cc_turn_length qb
    moves := [.cc c1 qa true, .cc middle qb true, .cc c2 qb false] }

/-- `TcTcT_path`, lines 177-230.  The argument of the square root is not negative if the path exists. -/
def TcTcT_path (P : CircleParam) (m : Scratch) (c1 c2 : Circle) : RSRow :=
  let r := 2 * c1.radius * c1.cos_mu
  let delta_x := 0.5 * m.distance
  let delta_y := √(r ^ 2 - delta_x ^ 2)
  (TcTcT_side P m c1 c2 delta_x delta_y).shorter (TcTcT_side P m c1 c2 delta_x (-delta_y))

/-! ### TcTT -/

/-- `TcTT_exists`, lines 233-244. -/
def TcTT_exists (m : Scratch) (c1 c2 : Circle) : Prop :=
  if c1.left ≠ c2.left then False
  else if c1.forward ≠ c2.forward then False
  else m.distance ≤ 2 * c1.radius * (1 + c1.cos_mu) ∧ m.distance ≥ 2 * c1.radius * (1 - c1.cos_mu)

/-- One of the two connections of `TcTT_path`, lines 256-264, 270-278 and 1730-1732. -/
def TcTT_side (P : CircleParam) (m : Scratch) (c1 c2 : Circle) (delta_x delta_y : ℝ) : RSRow :=
  let p := global_frame_change c1.xc c1.yc m.angle delta_x delta_y
  let tgt := circleCentered p.1 p.2 (!c1.left) (!c1.forward) c1.regular P
  let qa := TcT_tangent_circles c1 tgt
  let qb := TT_tangent_circles tgt c2
  let middle := circleAt qa (!c1.left) (!c1.forward) c1.regular P
  { length := c1.cc_turn_length qa + middle.cc_turn_length qb + c2.cc_turn_length qb
    moves := [.cc c1 qa true, .cc middle qb true, .cc c2 qb false] }

open Classical in
/-- `TcTT_path`, lines 246-300.  If the distance is zero or the argument of the square root negative, the
length is not a number. -/
def TcTT_path (P : CircleParam) (m : Scratch) (c1 c2 : Circle) : RSRow :=
  let r1 := 2 * c1.radius * c1.cos_mu
  let r2 := 2 * c1.radius
  let delta_x := (r1 ^ 2 + m.distance ^ 2 - r2 ^ 2) / (2 * m.distance)
  let delta_y := √(r1 ^ 2 - delta_x ^ 2)
  if m.distance = 0 ∨ r1 ^ 2 - delta_x ^ 2 < 0 then {}
  else (TcTT_side P m c1 c2 delta_x delta_y).shorter (TcTT_side P m c1 c2 delta_x (-delta_y))

/-! ### TTcT -/

/-- `TTcT_exists`, lines 303-314. -/
def TTcT_exists (m : Scratch) (c1 c2 : Circle) : Prop :=
  if c1.left ≠ c2.left then False
  else if c1.forward ≠ c2.forward then False
  else m.distance ≤ 2 * c1.radius * (1 + c1.cos_mu) ∧ m.distance ≥ 2 * c1.radius * (1 - c1.cos_mu)

/-- One of the two connections of `TTcT_path`, lines 326-334, 340-348 and 1730-1732. -/
def TTcT_side (P : CircleParam) (m : Scratch) (c1 c2 : Circle) (delta_x delta_y : ℝ) : RSRow :=
  let p := global_frame_change c1.xc c1.yc m.angle delta_x delta_y
  let tgt := circleCentered p.1 p.2 (!c1.left) c1.forward c1.regular P
  let qa := TT_tangent_circles c1 tgt
  let qb := TcT_tangent_circles tgt c2
  let middle := circleAt qa (!c1.left) c1.forward c1.regular P
  { length := c1.cc_turn_length qa + middle.cc_turn_length qb + c2.cc_turn_length qb
    moves := [.cc c1 qa true, .cc middle qb true, .cc c2 qb false] }

open Classical in
/-- `TTcT_path`, lines 316-370; see `TcTT_path`. -/
def TTcT_path (P : CircleParam) (m : Scratch) (c1 c2 : Circle) : RSRow :=
  let r1 := 2 * c1.radius
  let r2 := 2 * c1.radius * c1.cos_mu
  let delta_x := (r1 ^ 2 + m.distance ^ 2 - r2 ^ 2) / (2 * m.distance)
  let delta_y := √(r1 ^ 2 - delta_x ^ 2)
  if m.distance = 0 ∨ r1 ^ 2 - delta_x ^ 2 < 0 then {}
  else (TTcT_side P m c1 c2 delta_x delta_y).shorter (TTcT_side P m c1 c2 delta_x (-delta_y))

/-! ### TST -/

/-- `TiST_exists`, lines 373-384; the text is that of cc00_dubins_state_space.cpp. -/
def TiST_exists (m : Scratch) (c1 c2 : Circle) : Prop := CC00.TiST_exists m c1 c2

/-- `TeST_exists`, lines 386-398; the text is that of cc00_dubins_state_space.cpp. -/
def TeST_exists (m : Scratch) (c1 c2 : Circle) : Prop := CC00.TeST_exists m c1 c2

/-- `TiST_tangent_circles`, lines 405-446; the text is that of cc00_dubins_state_space.cpp. -/
def TiST_tangent_circles (c1 c2 : Circle) : Configuration × Configuration := CC00.TiST_tangent_circles c1 c2

/-- `TeST_tangent_circles`, lines 448-483; the text is that of cc00_dubins_state_space.cpp. -/
def TeST_tangent_circles (c1 c2 : Circle) : Configuration × Configuration := CC00.TeST_tangent_circles c1 c2

/-- Length and calls of the families with two turns and a line for the tangent configurations `q`:
lines 488, 494, 1108, 1145, 1231, 1268, 1354, 1391 and 1735-1737, 1774-1776. -/
def line_row (c1 c2 : Circle) (q : Configuration × Configuration) : RSRow :=
  { length := c1.cc_turn_length q.1 + configuration_distance q.1 q.2 + c2.cc_turn_length q.2
    moves := [.cc c1 q.1 true, .line q.1 q.2, .cc c2 q.2 false] }

open Classical in
/-- `TST_exists` and `TST_path`, lines 400-403, 485-508. -/
def TST_path (m : Scratch) (c1 c2 : Circle) : RSRow :=
  if TiST_exists m c1 c2 then line_row c1 c2 (TiST_tangent_circles c1 c2)
  else if TeST_exists m c1 c2 then line_row c1 c2 (TeST_tangent_circles c1 c2)
  else {}

/-! ### TSTcT -/

/-- `TiSTcT_exists`, lines 511-522. -/
def TiSTcT_exists (m : Scratch) (c1 c2 : Circle) : Prop :=
  if c1.left ≠ c2.left then False
  else if c1.forward ≠ c2.forward then False
  else m.distance ≥ 2 * c1.radius * √(1 + 2 * c1.sin_mu * c1.cos_mu + c1.cos_mu ^ 2)

/-- `TeSTcT_exists`, lines 524-535. -/
def TeSTcT_exists (m : Scratch) (c1 c2 : Circle) : Prop :=
  if c1.left = c2.left then False
  else if c1.forward ≠ c2.forward then False
  else m.distance ≥ 2 * c1.radius * (c1.cos_mu + c1.sin_mu)

/-- `TiSTcT_path`, lines 542-561 and 1740-1743.  Guard: `distance > 0`, implied by `TiSTcT_exists`. -/
def TiSTcT_path (P : CircleParam) (m : Scratch) (c1 c2 : Circle) : RSRow :=
  let r := c2.radius * c2.cos_mu
  let delta_y := (2 * r) ^ 2 / m.distance
  let delta_x := 2 * r * √(1 - delta_y / m.distance)
  let p := global_frame_change c2.xc c2.yc m.angle (-delta_x) delta_y
  let tgt1 := circleCentered p.1 p.2 (!c2.left) c2.forward c2.regular P
  let q := TiST_tangent_circles c1 tgt1
  let q3 := TcT_tangent_circles tgt1 c2
  let ci := circleAt q.2 (!c1.left) c1.forward c1.regular P
  { length := c1.cc_turn_length q.1 + configuration_distance q.1 q.2 + ci.cc_turn_length q3 +
      c2.cc_turn_length q3
    moves := [.cc c1 q.1 true, .line q.1 q.2, .cc ci q3 true, .cc c2 q3 false] }

/-- `TeSTcT_path`, lines 563-581 and 1740-1743. -/
def TeSTcT_path (P : CircleParam) (m : Scratch) (c1 c2 : Circle) : RSRow :=
  let delta_x := 2 * c2.radius * c2.cos_mu
  let delta_y := 0
  let p := global_frame_change c2.xc c2.yc m.angle (-delta_x) delta_y
  let tgt1 := circleCentered p.1 p.2 (!c2.left) c2.forward c2.regular P
  let q := TeST_tangent_circles c1 tgt1
  let q3 := TcT_tangent_circles tgt1 c2
  let ci := circleAt q.2 c1.left c1.forward c1.regular P
  { length := c1.cc_turn_length q.1 + configuration_distance q.1 q.2 + ci.cc_turn_length q3 +
      c2.cc_turn_length q3
    moves := [.cc c1 q.1 true, .line q.1 q.2, .cc ci q3 true, .cc c2 q3 false] }

open Classical in
/-- `TSTcT_exists` and `TSTcT_path`, lines 537-540, 583-595. -/
def TSTcT_path (P : CircleParam) (m : Scratch) (c1 c2 : Circle) : RSRow :=
  if TiSTcT_exists m c1 c2 then TiSTcT_path P m c1 c2
  else if TeSTcT_exists m c1 c2 then TeSTcT_path P m c1 c2
  else {}

/-! ### TcTST -/

/-- `TcTiST_exists`, lines 598-609. -/
def TcTiST_exists (m : Scratch) (c1 c2 : Circle) : Prop :=
  if c1.left ≠ c2.left then False
  else if c1.forward ≠ c2.forward then False
  else m.distance ≥ 2 * c1.radius * √(1 + 2 * c1.sin_mu * c1.cos_mu + c1.cos_mu ^ 2)

/-- `TcTeST_exists`, lines 611-622. -/
def TcTeST_exists (m : Scratch) (c1 c2 : Circle) : Prop :=
  if c1.left = c2.left then False
  else if c1.forward ≠ c2.forward then False
  else m.distance ≥ 2 * c1.radius * (c1.cos_mu + c1.sin_mu)

/-- `TcTiST_path`, lines 629-648 and 1746-1749.  Guard: `distance > 0`, implied by `TcTiST_exists`. -/
def TcTiST_path (P : CircleParam) (m : Scratch) (c1 c2 : Circle) : RSRow :=
  let r := c1.radius * c1.cos_mu
  let delta_y := (2 * r) ^ 2 / m.distance
  let delta_x := 2 * r * √(1 - delta_y / m.distance)
  let p := global_frame_change c1.xc c1.yc m.angle delta_x (-delta_y)
  let tgt1 := circleCentered p.1 p.2 (!c2.left) (!c2.forward) c2.regular P
  let q1 := TcT_tangent_circles c1 tgt1
  let q := TiST_tangent_circles tgt1 c2
  let ci := circleAt q1 (!c1.left) (!c1.forward) c1.regular P
  { length := c1.cc_turn_length q1 + ci.cc_turn_length q.1 + configuration_distance q.1 q.2 +
      c2.cc_turn_length q.2
    moves := [.cc c1 q1 true, .cc ci q.1 true, .line q.1 q.2, .cc c2 q.2 false] }

/-- `TcTeST_path`, lines 650-668 and 1746-1749. -/
def TcTeST_path (P : CircleParam) (m : Scratch) (c1 c2 : Circle) : RSRow :=
  let delta_x := 2 * c2.radius * c2.cos_mu
  let delta_y := 0
  let p := global_frame_change c1.xc c1.yc m.angle delta_x delta_y
  let tgt1 := circleCentered p.1 p.2 c2.left (!c2.forward) c2.regular P
  let q1 := TcT_tangent_circles c1 tgt1
  let q := TeST_tangent_circles tgt1 c2
  let ci := circleAt q1 (!c1.left) (!c1.forward) c1.regular P
  { length := c1.cc_turn_length q1 + ci.cc_turn_length q.1 + configuration_distance q.1 q.2 +
      c2.cc_turn_length q.2
    moves := [.cc c1 q1 true, .cc ci q.1 true, .line q.1 q.2, .cc c2 q.2 false] }

open Classical in
/-- `TcTST_exists` and `TcTST_path`, lines 624-627, 670-682. -/
def TcTST_path (P : CircleParam) (m : Scratch) (c1 c2 : Circle) : RSRow :=
  if TcTiST_exists m c1 c2 then TcTiST_path P m c1 c2
  else if TcTeST_exists m c1 c2 then TcTeST_path P m c1 c2
  else {}

/-! ### TcTSTcT -/

/-- `TcTiSTcT_exists`, lines 685-696. -/
def TcTiSTcT_exists (m : Scratch) (c1 c2 : Circle) : Prop :=
  if c1.left = c2.left then False
  else if c1.forward = c2.forward then False
  else m.distance ≥ 2 * c1.radius * √(1 + 4 * c1.cos_mu * c1.sin_mu + 4 * c1.cos_mu ^ 2)

/-- `TcTeSTcT_exists`, lines 698-709. -/
def TcTeSTcT_exists (m : Scratch) (c1 c2 : Circle) : Prop :=
  if c1.left ≠ c2.left then False
  else if c1.forward = c2.forward then False
  else m.distance ≥ 2 * c1.radius * (2 * c1.cos_mu + c1.sin_mu)

/-- `TcTiSTcT_path`, lines 716-739 and 1752-1756.  Guard: `distance > 0`, implied by
`TcTiSTcT_exists`. -/
def TcTiSTcT_path (P : CircleParam) (m : Scratch) (c1 c2 : Circle) : RSRow :=
  let r := c1.radius * c1.cos_mu
  let delta_y := (2 * r) ^ 2 / m.distance
  let delta_x := 2 * r * √(1 - delta_y / m.distance)
  let p1 := global_frame_change c1.xc c1.yc m.angle delta_x delta_y
  let tgt1 := circleCentered p1.1 p1.2 (!c1.left) (!c1.forward) c1.regular P
  let p2 := global_frame_change c2.xc c2.yc m.angle (-delta_x) (-delta_y)
  let tgt2 := circleCentered p2.1 p2.2 (!c2.left) c2.forward c2.regular P
  let q1 := TcT_tangent_circles c1 tgt1
  let q := TiST_tangent_circles tgt1 tgt2
  let q4 := TcT_tangent_circles tgt2 c2
  let ci1 := circleAt q1 (!c1.left) (!c1.forward) c1.regular P
  let ci2 := circleAt q.2 (!c2.left) c2.forward c2.regular P
  { length := c1.cc_turn_length q1 + ci1.cc_turn_length q.1 + configuration_distance q.1 q.2 +
      ci2.cc_turn_length q4 + c2.cc_turn_length q4
    moves := [.cc c1 q1 true, .cc ci1 q.1 true, .line q.1 q.2, .cc ci2 q4 true, .cc c2 q4 false] }

/-- `TcTeSTcT_path`, lines 741-763 and 1752-1756. -/
def TcTeSTcT_path (P : CircleParam) (m : Scratch) (c1 c2 : Circle) : RSRow :=
  let delta_x := 2 * c1.radius * c1.cos_mu
  let delta_y := 0
  let p1 := global_frame_change c1.xc c1.yc m.angle delta_x delta_y
  let tgt1 := circleCentered p1.1 p1.2 (!c1.left) (!c1.forward) c1.regular P
  let p2 := global_frame_change c2.xc c2.yc m.angle (-delta_x) delta_y
  let tgt2 := circleCentered p2.1 p2.2 (!c2.left) c2.forward c2.regular P
  let q1 := TcT_tangent_circles c1 tgt1
  let q := TeST_tangent_circles tgt1 tgt2
  let q4 := TcT_tangent_circles tgt2 c2
  let ci1 := circleAt q1 (!c1.left) (!c1.forward) c1.regular P
  let ci2 := circleAt q.2 (!c2.left) c2.forward c2.regular P
  { length := c1.cc_turn_length q1 + ci1.cc_turn_length q.1 + configuration_distance q.1 q.2 +
      ci2.cc_turn_length q4 + c2.cc_turn_length q4
    moves := [.cc c1 q1 true, .cc ci1 q.1 true, .line q.1 q.2, .cc ci2 q4 true, .cc c2 q4 false] }

open Classical in
/-- `TcTSTcT_exists` and `TcTSTcT_path`, lines 711-714, 765-777. -/
def TcTSTcT_path (P : CircleParam) (m : Scratch) (c1 c2 : Circle) : RSRow :=
  if TcTiSTcT_exists m c1 c2 then TcTiSTcT_path P m c1 c2
  else if TcTeSTcT_exists m c1 c2 then TcTeSTcT_path P m c1 c2
  else {}

/-! ### TTcTT -/

/-- `TTcTT_exists`, lines 780-791. -/
def TTcTT_exists (m : Scratch) (c1 c2 : Circle) : Prop :=
  if c1.left = c2.left then False
  else if c1.forward ≠ c2.forward then False
  else m.distance ≤ 2 * c1.radius * (c1.cos_mu + 2)

/-- One of the two connections of `TTcTT_path`, lines 811-827, 833-845 and 1760-1763. -/
def TTcTT_side (P : CircleParam) (m : Scratch) (c1 c2 : Circle) (delta_x delta_y : ℝ) : RSRow :=
  let p1 := global_frame_change c1.xc c1.yc m.angle delta_x delta_y
  let tgt1 := circleCentered p1.1 p1.2 (!c1.left) c1.forward c1.regular P
  let p2 := global_frame_change c2.xc c2.yc m.angle (-delta_x) delta_y
  let tgt2 := circleCentered p2.1 p2.2 (!c2.left) (!c2.forward) c2.regular P
  let qa := TT_tangent_circles c1 tgt1
  let qb := TcT_tangent_circles tgt1 tgt2
  let qc := TT_tangent_circles tgt2 c2
  let middle1 := circleAt qa (!c1.left) c1.forward c1.regular P
  let middle2 := circleAt qb (!c2.left) (!c2.forward) c2.regular P
  { length := c1.cc_turn_length qa + middle1.cc_turn_length qb + middle2.cc_turn_length qc +
      c2.cc_turn_length qc
    moves := [.cc c1 qa true, .cc middle1 qb true, .cc middle2 qc true, .cc c2 qc false] }

open Classical in
/-- `TTcTT_tangent_circles` and `TTcTT_path`, lines 793-875.  If the argument of the square root is
negative, the length is not a number. -/
def TTcTT_path (P : CircleParam) (m : Scratch) (c1 c2 : Circle) : RSRow :=
  let r1 := 2 * c1.radius * c1.cos_mu
  let r2 := 2 * c1.radius
  let delta_x :=
    if m.distance < 2 * c1.radius * (-c1.cos_mu + 2) then (m.distance + r1) / 2 else (m.distance - r1) / 2
  let delta_y := √(r2 ^ 2 - delta_x ^ 2)
  if r2 ^ 2 - delta_x ^ 2 < 0 then {}
  else (TTcTT_side P m c1 c2 delta_x delta_y).shorter (TTcTT_side P m c1 c2 delta_x (-delta_y))

/-! ### TcTTcT -/

/-- `TcTTcT_exists`, lines 878-889. -/
def TcTTcT_exists (m : Scratch) (c1 c2 : Circle) : Prop :=
  if c1.left = c2.left then False
  else if c1.forward = c2.forward then False
  else m.distance ≤ 2 * c1.radius * (2 * c1.cos_mu + 1) ∧ m.distance ≥ 2 * c1.radius * (2 * c1.cos_mu - 1)

/-- One of the two connections of `TcTTcT_path`, lines 901-917, 923-935 and 1760-1763; the lateral
offsets at `c1` and `c2` are opposite. -/
def TcTTcT_side (P : CircleParam) (m : Scratch) (c1 c2 : Circle) (delta_x delta_y : ℝ) : RSRow :=
  let p1 := global_frame_change c1.xc c1.yc m.angle delta_x delta_y
  let tgt1 := circleCentered p1.1 p1.2 (!c1.left) (!c1.forward) c1.regular P
  let p2 := global_frame_change c2.xc c2.yc m.angle (-delta_x) (-delta_y)
  let tgt2 := circleCentered p2.1 p2.2 (!c2.left) c2.forward c2.regular P
  let qa := TcT_tangent_circles c1 tgt1
  let qb := TT_tangent_circles tgt1 tgt2
  let qc := TcT_tangent_circles tgt2 c2
  let middle1 := circleAt qa (!c1.left) (!c1.forward) c1.regular P
  let middle2 := circleAt qb c1.left (!c1.forward) c1.regular P
  { length := c1.cc_turn_length qa + middle1.cc_turn_length qb + middle2.cc_turn_length qc +
      c2.cc_turn_length qc
    moves := [.cc c1 qa true, .cc middle1 qb true, .cc middle2 qc true, .cc c2 qc false] }

open Classical in
/-- `TcTTcT_tangent_circles` and `TcTTcT_path`, lines 891-965.  If the distance is zero or the argument of
the square root negative, the length is not a number. -/
def TcTTcT_path (P : CircleParam) (m : Scratch) (c1 c2 : Circle) : RSRow :=
  let r1 := 2 * c1.radius * c1.cos_mu
  let r2 := c1.radius
  let delta_x := (r1 ^ 2 + (m.distance / 2) ^ 2 - r2 ^ 2) / m.distance
  let delta_y := √(r1 ^ 2 - delta_x ^ 2)
  if m.distance = 0 ∨ r1 ^ 2 - delta_x ^ 2 < 0 then {}
  else (TcTTcT_side P m c1 c2 delta_x delta_y).shorter (TcTTcT_side P m c1 c2 delta_x (-delta_y))

/-! ### TTT -/

/-- `TTT_exists`, lines 970-981; the text is that of cc00_dubins_state_space.cpp. -/
def TTT_exists (m : Scratch) (c1 c2 : Circle) : Prop := CC00.TTT_exists m c1 c2

/-- One of the two connections of `TTT_path`, lines 992-1000, 1006-1014 and 1767-1769. -/
def TTT_side (P : CircleParam) (m : Scratch) (c1 c2 : Circle) (delta_x delta_y : ℝ) : RSRow :=
  let p := global_frame_change c1.xc c1.yc m.angle delta_x delta_y
  let tgt := circleCentered p.1 p.2 (!c1.left) c1.forward c1.regular P
  let qa := TT_tangent_circles c1 tgt
  let qb := TT_tangent_circles tgt c2
  let middle := circleAt qa (!c1.left) c1.forward c1.regular P
  { length := c1.cc_turn_length qa + middle.cc_turn_length qb + c2.cc_turn_length qb
    moves := [.cc c1 qa true, .cc middle qb true, .cc c2 qb false] }

/-- `TTT_path`, lines 983-1036.  The argument of the square root is not negative if the path exists. -/
def TTT_path (P : CircleParam) (m : Scratch) (c1 c2 : Circle) : RSRow :=
  let r := 2 * c1.radius
  let delta_x := 0.5 * m.distance
  let delta_y := √(r ^ 2 - delta_x ^ 2)
  (TTT_side P m c1 c2 delta_x delta_y).shorter (TTT_side P m c1 c2 delta_x (-delta_y))

/-! ### TcST -/

/-- `TciST_exists`, lines 1039-1050. -/
def TciST_exists (m : Scratch) (c1 c2 : Circle) : Prop :=
  if c1.left = c2.left then False
  else if c1.forward ≠ c2.forward then False
  else m.distance ≥ 2 * c1.radius * c1.cos_mu

/-- `TceST_exists`, lines 1052-1063. -/
def TceST_exists (m : Scratch) (c1 c2 : Circle) : Prop :=
  if c1.left ≠ c2.left then False
  else if c1.forward ≠ c2.forward then False
  else m.distance ≥ epsilon

/-- The configurations `q1`, `q2` of `TciST_path`, lines 1072-1107.  Guard: `distance > 0`, implied by `TciST_exists`. -/
def TciST_tangents (m : Scratch) (c1 c2 : Circle) : Configuration × Configuration :=
  let alpha := arcsin (2 * c1.radius * c1.cos_mu / m.distance)
  let delta_x := c1.radius * c1.sin_mu
  let delta_y := c1.radius * c1.cos_mu
  if c1.left then
    if c1.forward then
      let theta := m.angle - alpha
      let p1 := global_frame_change c1.xc c1.yc theta (-delta_x) delta_y
      let p2 := global_frame_change c2.xc c2.yc theta (-delta_x) (-delta_y)
      (configuration p1.1 p1.2 (theta + π) 0, configuration p2.1 p2.2 (theta + π) 0)
    else
      let theta := m.angle + alpha
      let p1 := global_frame_change c1.xc c1.yc theta (-delta_x) (-delta_y)
      let p2 := global_frame_change c2.xc c2.yc theta (-delta_x) delta_y
      (configuration p1.1 p1.2 theta 0, configuration p2.1 p2.2 theta 0)
  else
    if c1.forward then
      let theta := m.angle + alpha
      let p1 := global_frame_change c1.xc c1.yc theta (-delta_x) (-delta_y)
      let p2 := global_frame_change c2.xc c2.yc theta (-delta_x) delta_y
      (configuration p1.1 p1.2 (theta + π) 0, configuration p2.1 p2.2 (theta + π) 0)
    else
      let theta := m.angle - alpha
      let p1 := global_frame_change c1.xc c1.yc theta (-delta_x) delta_y
      let p2 := global_frame_change c2.xc c2.yc theta (-delta_x) (-delta_y)
      (configuration p1.1 p1.2 theta 0, configuration p2.1 p2.2 theta 0)

/-- The configurations `q1`, `q2` of `TceST_path`, lines 1113-1144. -/
def TceST_tangents (m : Scratch) (c1 c2 : Circle) : Configuration × Configuration :=
  let theta := m.angle
  let delta_x := c1.radius * c1.sin_mu
  let delta_y := c1.radius * c1.cos_mu
  if c1.left then
    if c1.forward then
      let p1 := global_frame_change c1.xc c1.yc theta (-delta_x) delta_y
      let p2 := global_frame_change c2.xc c2.yc theta (-delta_x) delta_y
      (configuration p1.1 p1.2 (theta + π) 0, configuration p2.1 p2.2 (theta + π) 0)
    else
      let p1 := global_frame_change c1.xc c1.yc theta (-delta_x) (-delta_y)
      let p2 := global_frame_change c2.xc c2.yc theta (-delta_x) (-delta_y)
      (configuration p1.1 p1.2 theta 0, configuration p2.1 p2.2 theta 0)
  else
    if c1.forward then
      let p1 := global_frame_change c1.xc c1.yc theta (-delta_x) (-delta_y)
      let p2 := global_frame_change c2.xc c2.yc theta (-delta_x) (-delta_y)
      (configuration p1.1 p1.2 (theta + π) 0, configuration p2.1 p2.2 (theta + π) 0)
    else
      let p1 := global_frame_change c1.xc c1.yc theta (-delta_x) delta_y
      let p2 := global_frame_change c2.xc c2.yc theta (-delta_x) delta_y
      (configuration p1.1 p1.2 theta 0, configuration p2.1 p2.2 theta 0)

open Classical in
/-- `TcST_exists` and `TcST_path`, lines 1065-1068, 1148-1159. -/
def TcST_path (m : Scratch) (c1 c2 : Circle) : RSRow :=
  if TciST_exists m c1 c2 then line_row c1 c2 (TciST_tangents m c1 c2)
  else if TceST_exists m c1 c2 then line_row c1 c2 (TceST_tangents m c1 c2)
  else {}

/-! ### TScT -/

/-- `TiScT_exists`, lines 1162-1173. -/
def TiScT_exists (m : Scratch) (c1 c2 : Circle) : Prop :=
  if c1.left = c2.left then False
  else if c1.forward ≠ c2.forward then False
  else m.distance ≥ 2 * c1.radius * c1.cos_mu

/-- `TeScT_exists`, lines 1175-1186. -/
def TeScT_exists (m : Scratch) (c1 c2 : Circle) : Prop :=
  if c1.left ≠ c2.left then False
  else if c1.forward ≠ c2.forward then False
  else m.distance ≥ epsilon

/-- The configurations `q1`, `q2` of `TiScT_path`, lines 1195-1230.  Guard: `distance > 0`, implied by `TiScT_exists`. -/
def TiScT_tangents (m : Scratch) (c1 c2 : Circle) : Configuration × Configuration :=
  let alpha := arcsin (2 * c1.radius * c1.cos_mu / m.distance)
  let delta_x := c1.radius * c1.sin_mu
  let delta_y := c1.radius * c1.cos_mu
  if c1.left then
    if c1.forward then
      let theta := m.angle + alpha
      let p1 := global_frame_change c1.xc c1.yc theta delta_x (-delta_y)
      let p2 := global_frame_change c2.xc c2.yc theta delta_x delta_y
      (configuration p1.1 p1.2 theta 0, configuration p2.1 p2.2 theta 0)
    else
      let theta := m.angle - alpha
      let p1 := global_frame_change c1.xc c1.yc theta delta_x delta_y
      let p2 := global_frame_change c2.xc c2.yc theta delta_x (-delta_y)
      (configuration p1.1 p1.2 (theta + π) 0, configuration p2.1 p2.2 (theta + π) 0)
  else
    if c1.forward then
      let theta := m.angle - alpha
      let p1 := global_frame_change c1.xc c1.yc theta delta_x delta_y
      let p2 := global_frame_change c2.xc c2.yc theta delta_x (-delta_y)
      (configuration p1.1 p1.2 theta 0, configuration p2.1 p2.2 theta 0)
    else
      let theta := m.angle + alpha
      let p1 := global_frame_change c1.xc c1.yc theta delta_x (-delta_y)
      let p2 := global_frame_change c2.xc c2.yc theta delta_x delta_y
      (configuration p1.1 p1.2 (theta + π) 0, configuration p2.1 p2.2 (theta + π) 0)

/-- The configurations `q1`, `q2` of `TeScT_path`, lines 1236-1267. -/
def TeScT_tangents (m : Scratch) (c1 c2 : Circle) : Configuration × Configuration :=
  let theta := m.angle
  let delta_x := c1.radius * c1.sin_mu
  let delta_y := c1.radius * c1.cos_mu
  if c1.left then
    if c1.forward then
      let p1 := global_frame_change c1.xc c1.yc theta delta_x (-delta_y)
      let p2 := global_frame_change c2.xc c2.yc theta delta_x (-delta_y)
      (configuration p1.1 p1.2 theta 0, configuration p2.1 p2.2 theta 0)
    else
      let p1 := global_frame_change c1.xc c1.yc theta delta_x delta_y
      let p2 := global_frame_change c2.xc c2.yc theta delta_x delta_y
      (configuration p1.1 p1.2 (theta + π) 0, configuration p2.1 p2.2 (theta + π) 0)
  else
    if c1.forward then
      let p1 := global_frame_change c1.xc c1.yc theta delta_x delta_y
      let p2 := global_frame_change c2.xc c2.yc theta delta_x delta_y
      (configuration p1.1 p1.2 theta 0, configuration p2.1 p2.2 theta 0)
    else
      let p1 := global_frame_change c1.xc c1.yc theta delta_x (-delta_y)
      let p2 := global_frame_change c2.xc c2.yc theta delta_x (-delta_y)
      (configuration p1.1 p1.2 (theta + π) 0, configuration p2.1 p2.2 (theta + π) 0)

open Classical in
/-- `TScT_exists` and `TScT_path`, lines 1188-1191, 1271-1282. -/
def TScT_path (m : Scratch) (c1 c2 : Circle) : RSRow :=
  if TiScT_exists m c1 c2 then line_row c1 c2 (TiScT_tangents m c1 c2)
  else if TeScT_exists m c1 c2 then line_row c1 c2 (TeScT_tangents m c1 c2)
  else {}

/-! ### TcScT -/

/-- `TciScT_exists`, lines 1285-1296. -/
def TciScT_exists (m : Scratch) (c1 c2 : Circle) : Prop :=
  if c1.left = c2.left then False
  else if c1.forward = c2.forward then False
  else m.distance ≥ 2 * c1.radius * c1.cos_mu

/-- `TceScT_exists`, lines 1298-1309. -/
def TceScT_exists (m : Scratch) (c1 c2 : Circle) : Prop :=
  if c1.left ≠ c2.left then False
  else if c1.forward = c2.forward then False
  else m.distance ≥ epsilon

/-- The configurations `q1`, `q2` of `TciScT_path`, lines 1318-1353.  Guard: `distance > 0`, implied by `TciScT_exists`. -/
def TciScT_tangents (m : Scratch) (c1 c2 : Circle) : Configuration × Configuration :=
  let alpha := arcsin (2 * c1.radius * c1.cos_mu / m.distance)
  let delta_x := c1.radius * c1.sin_mu
  let delta_y := c1.radius * c1.cos_mu
  if c1.left then
    if c1.forward then
      let theta := m.angle - alpha
      let p1 := global_frame_change c1.xc c1.yc theta (-delta_x) delta_y
      let p2 := global_frame_change c2.xc c2.yc theta delta_x (-delta_y)
      (configuration p1.1 p1.2 (theta + π) 0, configuration p2.1 p2.2 (theta + π) 0)
    else
      let theta := m.angle + alpha
      let p1 := global_frame_change c1.xc c1.yc theta (-delta_x) (-delta_y)
      let p2 := global_frame_change c2.xc c2.yc theta delta_x delta_y
      (configuration p1.1 p1.2 theta 0, configuration p2.1 p2.2 theta 0)
  else
    if c1.forward then
      let theta := m.angle + alpha
      let p1 := global_frame_change c1.xc c1.yc theta (-delta_x) (-delta_y)
      let p2 := global_frame_change c2.xc c2.yc theta delta_x delta_y
      (configuration p1.1 p1.2 (theta + π) 0, configuration p2.1 p2.2 (theta + π) 0)
    else
      let theta := m.angle - alpha
      let p1 := global_frame_change c1.xc c1.yc theta (-delta_x) delta_y
      let p2 := global_frame_change c2.xc c2.yc theta delta_x (-delta_y)
      (configuration p1.1 p1.2 theta 0, configuration p2.1 p2.2 theta 0)

/-- The configurations `q1`, `q2` of `TceScT_path`, lines 1359-1390. -/
def TceScT_tangents (m : Scratch) (c1 c2 : Circle) : Configuration × Configuration :=
  let theta := m.angle
  let delta_x := c1.radius * c1.sin_mu
  let delta_y := c1.radius * c1.cos_mu
  if c1.left then
    if c1.forward then
      let p1 := global_frame_change c1.xc c1.yc theta (-delta_x) delta_y
      let p2 := global_frame_change c2.xc c2.yc theta delta_x delta_y
      (configuration p1.1 p1.2 (theta + π) 0, configuration p2.1 p2.2 (theta + π) 0)
    else
      let p1 := global_frame_change c1.xc c1.yc theta (-delta_x) (-delta_y)
      let p2 := global_frame_change c2.xc c2.yc theta delta_x (-delta_y)
      (configuration p1.1 p1.2 theta 0, configuration p2.1 p2.2 theta 0)
  else
    if c1.forward then
      let p1 := global_frame_change c1.xc c1.yc theta (-delta_x) (-delta_y)
      let p2 := global_frame_change c2.xc c2.yc theta delta_x (-delta_y)
      (configuration p1.1 p1.2 (theta + π) 0, configuration p2.1 p2.2 (theta + π) 0)
    else
      let p1 := global_frame_change c1.xc c1.yc theta (-delta_x) delta_y
      let p2 := global_frame_change c2.xc c2.yc theta delta_x delta_y
      (configuration p1.1 p1.2 theta 0, configuration p2.1 p2.2 theta 0)

open Classical in
/-- `TcScT_exists` and `TcScT_path`, lines 1311-1314, 1394-1405. -/
def TcScT_path (m : Scratch) (c1 c2 : Circle) : RSRow :=
  if TciScT_exists m c1 c2 then line_row c1 c2 (TciScT_tangents m c1 c2)
  else if TceScT_exists m c1 c2 then line_row c1 c2 (TceScT_tangents m c1 c2)
  else {}

/-! ### Paths between two circles -/

open Classical in
/-- Column `i` of the tables after the cases `TT` to `TcScT` of `cc00_circles_rs_path`, lines 1469-1597.
Each case writes one column. -/
def family (sp : HCSpace) (m : Scratch) (c1 c2 : Circle) (i : ℕ) : RSRow :=
  match i with
  | hc_cc_rs.TT => if TT_exists m c1 c2 then TT_path c1 c2 else {}
  | hc_cc_rs.TcT => if TcT_exists m c1 c2 then TcT_path c1 c2 else {}
  | hc_cc_rs.TcTcT => if TcTcT_exists m c1 c2 then TcTcT_path sp.param m c1 c2 else {}
  | hc_cc_rs.TcTT => if TcTT_exists m c1 c2 then TcTT_path sp.param m c1 c2 else {}
  | hc_cc_rs.TTcT => if TTcT_exists m c1 c2 then TTcT_path sp.param m c1 c2 else {}
  | hc_cc_rs.TST => TST_path m c1 c2
  | hc_cc_rs.TSTcT => TSTcT_path sp.param m c1 c2
  | hc_cc_rs.TcTST => TcTST_path sp.param m c1 c2
  | hc_cc_rs.TcTSTcT => TcTSTcT_path sp.param m c1 c2
  | hc_cc_rs.TTcTT => if TTcTT_exists m c1 c2 then TTcTT_path sp.param m c1 c2 else {}
  | hc_cc_rs.TcTTcT => if TcTTcT_exists m c1 c2 then TcTTcT_path sp.param m c1 c2 else {}
  | hc_cc_rs.TTT => if TTT_exists m c1 c2 then TTT_path sp.param m c1 c2 else {}
  | hc_cc_rs.TcST => TcST_path m c1 c2
  | hc_cc_rs.TScT => TScT_path m c1 c2
  | hc_cc_rs.TcScT => TcScT_path m c1 c2
  | _ => {}

open Classical in
/-- Cases `E`, `S` and `T`, which are followed by `goto label_end`: path type and row, lines
1444-1468, 1715-1720. -/
def shortcut (c1 c2 : Circle) : Option (ℕ × RSRow) :=
  if configuration_equal c1.start c2.start then some (hc_cc_rs.E, { length := 0 })
  else if configuration_aligned c1.start c2.start then
    some (hc_cc_rs.S, { length := configuration_distance c1.start c2.start,
                        moves := [.line c1.start c2.start] })
  else if configuration_aligned c2.start c1.start then
    some (hc_cc_rs.S, { length := configuration_distance c2.start c1.start,
                        moves := [.line c1.start c2.start] })
  else if configuration_on_hc_cc_circle c1 c2.start then
    some (hc_cc_rs.T, { length := c1.cc_turn_length c2.start, moves := [.cc c1 c2.start true] })
  else none

/-- The tables at `label_end`. -/
def table (sp : HCSpace) (m : Scratch) (c1 c2 : Circle) (i : ℕ) : RSRow :=
  match shortcut c1 c2 with
  | some (t, r) => if i = t then r else {}
  | none => family sp m c1 c2 i

/-- `class HC_CC_RS_Path`, paths.hpp:146-186 (see `RSPath`); `lost`: the controls are not numbers. -/
structure Path where
  type : ℕ
  row : RSRow
  lost : Prop

/-- Member `length`. -/
def Path.length (p : Path) : ℝ := p.row.length

/-- `cc00_circles_rs_path`, lines 1418-1622. -/
def circles_rs_path (sp : HCSpace) (c1 c2 : Circle) : Path :=
  let t := table sp (scratch c1 c2) c1 c2
  let best_path := array_index_min (fun i => (t i).length) nb_hc_cc_rs_paths
  ⟨best_path, t best_path, best_path = hc_cc_rs.TcT ∧ TcT_lost c1 c2⟩

/-! ### The planner -/

/-- `start_circle[i]` and `end_circle[i]`, lines 1627-1639. -/
def end_circle (sp : HCSpace) (s : State) (i : ℕ) : Circle :=
  circleAt (configuration s.x s.y s.theta 0) (i % 2 = 0) (i < 2) false sp.param

/-- `path[n]` with `n = 4 * i + j`, lines 1652-1662. -/
def path (sp : HCSpace) (state1 state2 : State) (n : ℕ) : Path :=
  circles_rs_path sp (end_circle sp state1 (n / 4)) (end_circle sp state2 (n % 4))

/-- `cc00_reeds_shepp`, lines 1624-1695. -/
def reeds_shepp (sp : HCSpace) (state1 state2 : State) : Path :=
  path sp state1 state2 (array_index_min (fun n => (path sp state1 state2 n).length) 16)

/-- `get_distance`, lines 1697-1703. -/
def get_distance (sp : HCSpace) (state1 state2 : State) : ℝ := (reeds_shepp sp state1 state2).length

open Classical in
/-- The `switch` of `get_controls`, lines 1710-1780; `none`: controls that are not numbers. -/
def path_controls (p : Path) : Option (List Control) :=
  if p.lost then none
  else if p.type = hc_cc_rs.E then some empty_controls
  else some (p.row.moves.flatMap Move.controls)

/-- `get_controls`, lines 1705-1783. -/
def get_controls (sp : HCSpace) (state1 state2 : State) : Option (List Control) :=
  path_controls (reeds_shepp sp state1 state2)

/-- `HC_CC_State_Space::get_path`, hc_cc_state_space.cpp:67-71, for this planner. -/
def get_path (sp : HCSpace) (state1 state2 : State) : Option (List State) :=
  (get_controls sp state1 state2).bind (hcIntegrate sp.discretization state1)

end CcRs

end SF
