import Verif.Model.CcDubinsPm

/-!
# Model of the hybrid-curvature Reeds-Shepp planners

* src/hc_cc_state_space/hc00_reeds_shepp_state_space.cpp
* src/hc_cc_state_space/hc0pm_reeds_shepp_state_space.cpp
* src/hc_cc_state_space/hcpm0_reeds_shepp_state_space.cpp
* src/hc_cc_state_space/hcpmpm_reeds_shepp_state_space.cpp

The four files have the same text up to the first and the last turn, so one model with two switches
`pm1` (curvature `±kappa` at the start) and `pm2` (curvature `±kappa` at the goal) is used.  The line
numbers are given in the order hc00 / hc0pm / hcpm0 / hcpmpm.

Conventions as in `Model.CcDubins`, and

* `radius`, `mu`, `sin_mu` and `cos_mu` are read from `c1` (hc00, hc0pm), from `c2` (hcpm0) or from
  copies in the state space (hcpmpm).  In all cases these are the values of
  `hc_cc_circle_param_`, called `P` here.
* Some files write `!c2.left` for `c1.left`, `!c2.forward` for `c1.forward` and so on in branches
  whose guard makes both equal.  The text of hc00 is used.
* In the code a row of the tables holds the pointers that `get_controls` dereferences later.  Here a row
  holds the calls that `get_controls` will make (`Move`).  All pointers that `get_controls` dereferences
  for a path type are set by the `*_path` function of the type.
* A length that is not a number (a square root of a negative number, a division of zero by zero) is never
  selected by `array_index_min`, because it is not less than any other.  It is replaced by
  `numeric_limits<double>::max()`, which is not less than any other entry, either.
-/

noncomputable section

namespace SF

open Real

namespace hc_cc_rs

/-- `enum path_type`, include/steering_functions/hc_cc_state_space/paths.hpp:113-140. -/
@[match_pattern] abbrev E : ℕ := 0
@[match_pattern] abbrev S : ℕ := 1
@[match_pattern] abbrev T : ℕ := 2
@[match_pattern] abbrev TT : ℕ := 3
@[match_pattern] abbrev TcT : ℕ := 4
@[match_pattern] abbrev TcTcT : ℕ := 5
@[match_pattern] abbrev TcTT : ℕ := 6
@[match_pattern] abbrev TTcT : ℕ := 7
@[match_pattern] abbrev TST : ℕ := 8
@[match_pattern] abbrev TSTcT : ℕ := 9
@[match_pattern] abbrev TcTST : ℕ := 10
@[match_pattern] abbrev TcTSTcT : ℕ := 11
@[match_pattern] abbrev TTcTT : ℕ := 12
@[match_pattern] abbrev TcTTcT : ℕ := 13
@[match_pattern] abbrev TTT : ℕ := 14
@[match_pattern] abbrev TcST : ℕ := 15
@[match_pattern] abbrev TScT : ℕ := 16
@[match_pattern] abbrev TcScT : ℕ := 17

end hc_cc_rs

/-- `nb_hc_cc_rs_paths`, paths.hpp:143. -/
def nb_hc_cc_rs_paths : ℕ := 18

/-- One call of `cc_turn_controls`, `hc_turn_controls`, `rs_turn_controls` or `straight_controls` in
`get_controls`, hc00:1762-1864 / hc0pm:1793-1890 / hcpm0:1791-1888 / hcpmpm:1839-1937. -/
inductive Move
  | cc (c : Circle) (q : Configuration) (order : Bool)
  | hc (c : Circle) (q : Configuration) (order : Bool)
  | rs (c : Circle) (q : Configuration) (order : Bool)
  | line (q1 q2 : Configuration)

/-- The controls appended by the call. -/
def Move.controls : Move → List Control
  | .cc c q order => cc_turn_controls c q order
  | .hc c q order => hc_turn_controls c q order
  | .rs c q order => rs_turn_controls c q order
  | .line q1 q2 => straight_controls q1 q2

/-- The matching term of the length of a path: `cc_turn_length`, `hc_turn_length`,
`rs_turn_length` or `configuration_distance`. -/
def Move.length : Move → ℝ
  | .cc c q _ => c.cc_turn_length q
  | .hc c q _ => c.hc_turn_length q
  | .rs c q _ => c.rs_turn_length q
  | .line q1 q2 => configuration_distance q1 q2

/-- One column of the tables of the `*_circles_rs_path` functions, hc00:1505-1522 (see above). -/
structure RSRow where
  length : ℝ := dblMax
  moves : List Move := []

/-- "select shortest connection", e.g. hc00:216-237. -/
def RSRow.shorter (a b : RSRow) : RSRow := if a.length < b.length then a else b

namespace HcRs


/-! ### First and last turn -/

/-- First turn ending with curvature zero.  Without start curvature: a CC turn on a copy of `c1`
with `CC_REGULAR`, hc00:102.  With start curvature: an HC turn on the circle at `q`,
with `HC_REGULAR`, to the start, e.g. hcpm0:511-514, hcpmpm:520-524. -/
def firstT (pm1 : Bool) (P : CircleParam) (c1 : Circle) (q : Configuration) : Move :=
  if pm1 then
    .hc (circleAt q c1.left (!c1.forward) false P)
      (configuration c1.start.x c1.start.y c1.start.theta c1.kappa) false
  else .cc (circleAt c1.start c1.left c1.forward false P) q true

/-- First turn ending with curvature `±kappa`, hc00:162-164, hcpm0:164-166. -/
def firstTc (pm1 : Bool) (c1 : Circle) (q : Configuration) : Move :=
  if pm1 then .rs c1 q true else .hc c1 q true

/-- Last turn starting with curvature zero, hc00:103, hc0pm:105-107. -/
def lastT (pm2 : Bool) (P : CircleParam) (c2 : Circle) (q : Configuration) : Move :=
  if pm2 then
    .hc (circleAt q c2.left (!c2.forward) false P)
      (configuration c2.start.x c2.start.y c2.start.theta c2.kappa) true
  else .cc (circleAt c2.start c2.left c2.forward false P) q false

/-- Last turn starting with curvature `±kappa`, hc00:162-164, hc0pm:164-166. -/
def lastcT (pm2 : Bool) (c2 : Circle) (q : Configuration) : Move :=
  if pm2 then .rs c2 q false else .hc c2 q false

/-! ### TT -/

/-- `TT_exists`, hc00:55-66 / hc0pm:56-67 / hcpm0:56-67 / hcpmpm:56-67. -/
def TT_exists (P : CircleParam) (m : Scratch) (c1 c2 : Circle) : Prop :=
  CC00.TT_exists m (c1.reparam P) c2

/-- `TT_tangent_circles`, hc00:68-96 / hc0pm:69-98 / hcpm0:69-98 / hcpmpm:69-98; the text is that of
cc00_dubins_state_space.cpp. -/
def TT_tangent_circles (P : CircleParam) (c1 c2 : Circle) : Configuration :=
  CC00.TT_tangent_circles (c1.reparam P) c2

/-- `TT_path`, hc00:98-106 / hc0pm:100-109 / hcpm0:100-109 / hcpmpm:100-110. -/
def TT_path (pm1 pm2 : Bool) (P : CircleParam) (c1 c2 : Circle) : RSRow :=
  let q := TT_tangent_circles P c1 c2
  let first := firstT pm1 P c1 q
  let last := lastT pm2 P c2 q
  { length := first.length + last.length
    moves := [first, last] }

/-! ### TcT -/

/-- `TcT_exists`, hc00:109-120 / hc0pm:111-122 / hcpm0:111-122 / hcpmpm:112-123. -/
def TcT_exists (m : Scratch) (c1 c2 : Circle) : Prop :=
  if c1.left = c2.left then False
  else if c1.forward ≠ c2.forward then False
  else |m.distance - 2 * abs c1.kappa_inv| < epsilon

/-- `TcT_tangent_circles`, hc00:122-156 / hc0pm:124-158 / hcpm0:124-158 / hcpmpm:125-159. -/
def TcT_tangent_circles (c1 c2 : Circle) : Configuration :=
  let distance := center_distance c1 c2
  let delta_x := 0.5 * distance
  let delta_y := 0
  let angle := atan2 (c2.yc - c1.yc) (c2.xc - c1.xc)
  let theta := if c1.left then angle + π / 2 else angle - π / 2
  let p :=
    if c1.left then
      if c1.forward then global_frame_change c1.xc c1.yc angle delta_x delta_y
      else global_frame_change c1.xc c1.yc angle delta_x (-delta_y)
    else
      if c1.forward then global_frame_change c1.xc c1.yc angle delta_x (-delta_y)
      else global_frame_change c1.xc c1.yc angle delta_x delta_y
  configuration p.1 p.2 theta c1.kappa

/-- `TcT_path`, hc00:158-165 / hc0pm:160-167 / hcpm0:160-167 / hcpmpm:161-168. -/
def TcT_path (pm1 pm2 : Bool) (c1 c2 : Circle) : RSRow :=
  let q := TcT_tangent_circles c1 c2
  let first := firstTc pm1 c1 q
  let last := lastcT pm2 c2 q
  { length := first.length + last.length
    moves := [first, last] }

/-! ### TcTcT -/

/-- `TcTcT_exists`, hc00:170-181 / hc0pm:172-183 / hcpm0:172-183 / hcpmpm:173-184. -/
def TcTcT_exists (m : Scratch) (c1 c2 : Circle) : Prop :=
  if c1.left ≠ c2.left then False
  else if c1.forward = c2.forward then False
  else m.distance ≤ 4 * |c1.kappa_inv|

/-- One of the two connections of `TcTcT_path` with the configurations of `TcTcT_tangent_circles`:
hc00:183-214 / hc0pm:185-219 / hcpm0:185-219 / hcpmpm:186-220; the lateral offset is `delta_y` for the first
and `-delta_y` for the second. -/
def TcTcT_side (pm1 pm2 : Bool) (P Prs : CircleParam) (m : Scratch) (c1 c2 : Circle)
    (delta_x delta_y : ℝ) : RSRow :=
  let p := global_frame_change c1.xc c1.yc m.angle delta_x delta_y
  let tgt := circleCentered p.1 p.2 (!c1.left) (!c1.forward) c1.regular P
  let qa := TcT_tangent_circles c1 tgt
  let qb := TcT_tangent_circles tgt c2
  let middle := circleAt qa (!c1.left) (!c1.forward) true Prs
  let first := firstTc pm1 c1 qa
  let last := lastcT pm2 c2 qb
  { length := first.length + middle.rs_turn_length qb + last.length
    moves := [first, .rs middle qb true, last] }

/-- `TcTcT_path`, hc00:203-239 / hc0pm:205-241 / hcpm0:205-241 / hcpmpm:206-242.  The argument of the
square root is not negative if the path exists. -/
def TcTcT_path (pm1 pm2 : Bool) (P Prs : CircleParam) (m : Scratch) (c1 c2 : Circle) : RSRow :=
  let r := 2 * |c1.kappa_inv|
  let delta_x := 0.5 * m.distance
  let delta_y := √(r ^ 2 - delta_x ^ 2)
  (TcTcT_side pm1 pm2 P Prs m c1 c2 delta_x delta_y).shorter
    (TcTcT_side pm1 pm2 P Prs m c1 c2 delta_x (-delta_y))

/-! ### TcTT -/

/-- `TcTT_exists`, hc00:242-253 / hc0pm:244-255 / hcpm0:244-255 / hcpmpm:245-257. -/
def TcTT_exists (P : CircleParam) (m : Scratch) (c1 c2 : Circle) : Prop :=
  if c1.left ≠ c2.left then False
  else if c1.forward ≠ c2.forward then False
  else m.distance ≤ 2 * P.radius + 2 * |c1.kappa_inv| ∧ m.distance ≥ 2 * P.radius - 2 * |c1.kappa_inv|

/-- One of the two connections of `TcTT_path`: hc00:255-288 / hc0pm:257-297 / hcpm0:257-292 /
hcpmpm:259-299. -/
def TcTT_side (pm1 pm2 : Bool) (P : CircleParam) (m : Scratch) (c1 c2 : Circle)
    (delta_x delta_y : ℝ) : RSRow :=
  let p := global_frame_change c1.xc c1.yc m.angle delta_x delta_y
  let tgt := circleCentered p.1 p.2 (!c1.left) (!c1.forward) c1.regular P
  let qa := TcT_tangent_circles c1 tgt
  let qb := TT_tangent_circles P tgt c2
  let middle := circleAt qb (!c1.left) c1.forward true P
  let first := firstTc pm1 c1 qa
  let last := lastT pm2 P c2 qb
  { length := first.length + middle.hc_turn_length qa + last.length
    moves := [first, .hc middle qa false, last] }

open Classical in
/-- `TcTT_path`, hc00:276-312 / hc0pm:278-320 / hcpm0:278-314 / hcpmpm:280-322.  If the distance is zero
or the argument of the square root negative, the length is not a number. -/
def TcTT_path (pm1 pm2 : Bool) (P : CircleParam) (m : Scratch) (c1 c2 : Circle) : RSRow :=
  let r1 := 2 * |c1.kappa_inv|
  let r2 := 2 * P.radius
  let delta_x := (r1 ^ 2 + m.distance ^ 2 - r2 ^ 2) / (2 * m.distance)
  let delta_y := √(r1 ^ 2 - delta_x ^ 2)
  if m.distance = 0 ∨ r1 ^ 2 - delta_x ^ 2 < 0 then {}
  else (TcTT_side pm1 pm2 P m c1 c2 delta_x delta_y).shorter
    (TcTT_side pm1 pm2 P m c1 c2 delta_x (-delta_y))

/-! ### TTcT -/

/-- `TTcT_exists`, hc00:315-326 / hc0pm:323-334 / hcpm0:317-328 / hcpmpm:325-337. -/
def TTcT_exists (P : CircleParam) (m : Scratch) (c1 c2 : Circle) : Prop :=
  if c1.left ≠ c2.left then False
  else if c1.forward ≠ c2.forward then False
  else m.distance ≤ 2 * P.radius + 2 * |c1.kappa_inv| ∧ m.distance ≥ 2 * P.radius - 2 * |c1.kappa_inv|

/-- One of the two connections of `TTcT_path`: hc00:328-361 / hc0pm:336-371 / hcpm0:330-369 /
hcpmpm:339-379. -/
def TTcT_side (pm1 pm2 : Bool) (P : CircleParam) (m : Scratch) (c1 c2 : Circle)
    (delta_x delta_y : ℝ) : RSRow :=
  let p := global_frame_change c1.xc c1.yc m.angle delta_x delta_y
  let tgt := circleCentered p.1 p.2 (!c1.left) c1.forward c1.regular P
  let qa := TT_tangent_circles P c1 tgt
  let qb := TcT_tangent_circles tgt c2
  let middle := circleAt qa (!c1.left) c1.forward true P
  let first := firstT pm1 P c1 qa
  let last := lastcT pm2 c2 qb
  { length := first.length + middle.hc_turn_length qb + last.length
    moves := [first, .hc middle qb true, last] }

open Classical in
/-- `TTcT_path`, hc00:349-385 / hc0pm:357-393 / hcpm0:351-393 / hcpmpm:360-402; see `TcTT_path`. -/
def TTcT_path (pm1 pm2 : Bool) (P : CircleParam) (m : Scratch) (c1 c2 : Circle) : RSRow :=
  let r1 := 2 * P.radius
  let r2 := 2 * |c1.kappa_inv|
  let delta_x := (r1 ^ 2 + m.distance ^ 2 - r2 ^ 2) / (2 * m.distance)
  let delta_y := √(r1 ^ 2 - delta_x ^ 2)
  if m.distance = 0 ∨ r1 ^ 2 - delta_x ^ 2 < 0 then {}
  else (TTcT_side pm1 pm2 P m c1 c2 delta_x delta_y).shorter
    (TTcT_side pm1 pm2 P m c1 c2 delta_x (-delta_y))

/-! ### TST -/

/-- `TiST_exists`, hc00:388-399 / hc0pm:396-407 / hcpm0:396-407 / hcpmpm:405-416. -/
def TiST_exists (P : CircleParam) (m : Scratch) (c1 c2 : Circle) : Prop :=
  CC00.TiST_exists m (c1.reparam P) c2

/-- `TeST_exists`, hc00:401-413 / hc0pm:409-420 / hcpm0:409-420 / hcpmpm:418-429. -/
def TeST_exists (P : CircleParam) (m : Scratch) (c1 c2 : Circle) : Prop :=
  CC00.TeST_exists m (c1.reparam P) c2

/-- `TiST_tangent_circles`, hc00:420-461 / hc0pm:427-468 / hcpm0:427-468 / hcpmpm:436-477; the text is
that of cc00_dubins_state_space.cpp. -/
def TiST_tangent_circles (P : CircleParam) (c1 c2 : Circle) : Configuration × Configuration :=
  CC00.TiST_tangent_circles (c1.reparam P) c2

/-- `TeST_tangent_circles`, hc00:463-498 / hc0pm:470-505 / hcpm0:470-505 / hcpmpm:479-514. -/
def TeST_tangent_circles (P : CircleParam) (c1 c2 : Circle) : Configuration × Configuration :=
  CC00.TeST_tangent_circles (c1.reparam P) c2

/-- Body of `TiST_path` and `TeST_path` for the tangent configurations `q`, hc00:500-516 / hc0pm:507-525 /
hcpm0:507-525 / hcpmpm:516-536. -/
def TST_line (pm1 pm2 : Bool) (P : CircleParam) (c1 c2 : Circle) (q : Configuration × Configuration) : RSRow :=
  let first := firstT pm1 P c1 q.1
  let last := lastT pm2 P c2 q.2
  { length := first.length + configuration_distance q.1 q.2 + last.length
    moves := [first, .line q.1 q.2, last] }

open Classical in
/-- `TST_exists` and `TST_path`, hc00:415-418, 518-530 / hc0pm:422-425, 527-539 / hcpm0:422-425, 527-539 /
hcpmpm:431-434, 538-550. -/
def TST_path (pm1 pm2 : Bool) (P : CircleParam) (m : Scratch) (c1 c2 : Circle) : RSRow :=
  if TiST_exists P m c1 c2 then TST_line pm1 pm2 P c1 c2 (TiST_tangent_circles P c1 c2)
  else if TeST_exists P m c1 c2 then TST_line pm1 pm2 P c1 c2 (TeST_tangent_circles P c1 c2)
  else {}

/-! ### TSTcT -/

/-- `TiSTcT_exists`, hc00:533-545 / hc0pm:542-554 / hcpm0:542-554 / hcpmpm:553-565. -/
def TiSTcT_exists (P : CircleParam) (m : Scratch) (c1 c2 : Circle) : Prop :=
  if c1.left ≠ c2.left then False
  else if c1.forward ≠ c2.forward then False
  else m.distance ≥
    √((2 * P.radius * P.sin_mu + 2 * |c1.kappa_inv|) ^ 2 + (2 * P.radius * P.cos_mu) ^ 2)

/-- `TeSTcT_exists`, hc00:547-558 / hc0pm:556-567 / hcpm0:556-567 / hcpmpm:567-578. -/
def TeSTcT_exists (P : CircleParam) (m : Scratch) (c1 c2 : Circle) : Prop :=
  if c1.left = c2.left then False
  else if c1.forward ≠ c2.forward then False
  else m.distance ≥ 2 * (|c1.kappa_inv| + P.radius * P.sin_mu)

/-- `TiSTcT_path`, hc00:565-585 / hc0pm:574-594 / hcpm0:574-596 / hcpmpm:585-607.  Guard: `distance > 0`,
implied by `TiSTcT_exists`. -/
def TiSTcT_path (pm1 pm2 : Bool) (P : CircleParam) (m : Scratch) (c1 c2 : Circle) : RSRow :=
  let delta_y := 4 * P.radius * P.cos_mu / (|c2.kappa| * m.distance)
  let delta_x := √((2 * c2.kappa_inv) ^ 2 - delta_y ^ 2)
  let p := global_frame_change c2.xc c2.yc m.angle (-delta_x) delta_y
  let tgt1 := circleCentered p.1 p.2 (!c2.left) c2.forward c2.regular P
  let q := TiST_tangent_circles P c1 tgt1
  let q3 := TcT_tangent_circles tgt1 c2
  let ci := circleAt q.2 (!c1.left) c1.forward true P
  let first := firstT pm1 P c1 q.1
  let last := lastcT pm2 c2 q3
  { length := first.length + configuration_distance q.1 q.2 + ci.hc_turn_length q3 + last.length
    moves := [first, .line q.1 q.2, .hc ci q3 true, last] }

/-- `TeSTcT_path`, hc00:587-607 / hc0pm:596-616 / hcpm0:598-620 / hcpmpm:609-631. -/
def TeSTcT_path (pm1 pm2 : Bool) (P : CircleParam) (m : Scratch) (c1 c2 : Circle) : RSRow :=
  let delta_x := 2 * |c2.kappa_inv|
  let delta_y := 0
  let p := global_frame_change c2.xc c2.yc m.angle (-delta_x) delta_y
  let tgt1 := circleCentered p.1 p.2 (!c2.left) c2.forward c2.regular P
  let q := TeST_tangent_circles P c1 tgt1
  let q3 := TcT_tangent_circles tgt1 c2
  let ci := circleAt q.2 c1.left c1.forward true P
  let first := firstT pm1 P c1 q.1
  let last := lastcT pm2 c2 q3
  { length := first.length + configuration_distance q.1 q.2 + ci.hc_turn_length q3 + last.length
    moves := [first, .line q.1 q.2, .hc ci q3 true, last] }

open Classical in
/-- `TSTcT_exists` and `TSTcT_path`, hc00:560-563, 609-621 / hc0pm:569-572, 618-630 / hcpm0:569-572, 622-635 /
hcpmpm:580-583, 633-646. -/
def TSTcT_path (pm1 pm2 : Bool) (P : CircleParam) (m : Scratch) (c1 c2 : Circle) : RSRow :=
  if TiSTcT_exists P m c1 c2 then TiSTcT_path pm1 pm2 P m c1 c2
  else if TeSTcT_exists P m c1 c2 then TeSTcT_path pm1 pm2 P m c1 c2
  else {}

/-! ### TcTST -/

/-- `TcTiST_exists`, hc00:624-636 / hc0pm:633-645 / hcpm0:638-650 / hcpmpm:649-661. -/
def TcTiST_exists (P : CircleParam) (m : Scratch) (c1 c2 : Circle) : Prop :=
  if c1.left ≠ c2.left then False
  else if c1.forward ≠ c2.forward then False
  else m.distance ≥
    √((2 * P.radius * P.sin_mu + 2 * |c1.kappa_inv|) ^ 2 + (2 * P.radius * P.cos_mu) ^ 2)

/-- `TcTeST_exists`, hc00:638-649 / hc0pm:647-658 / hcpm0:652-663 / hcpmpm:663-674. -/
def TcTeST_exists (P : CircleParam) (m : Scratch) (c1 c2 : Circle) : Prop :=
  if c1.left = c2.left then False
  else if c1.forward ≠ c2.forward then False
  else m.distance ≥ 2 * (|c1.kappa_inv| + P.radius * P.sin_mu)

/-- `TcTiST_path`, hc00:656-676 / hc0pm:665-687 / hcpm0:670-690 / hcpmpm:681-703.  Guard: `distance > 0`,
implied by `TcTiST_exists`. -/
def TcTiST_path (pm1 pm2 : Bool) (P : CircleParam) (m : Scratch) (c1 c2 : Circle) : RSRow :=
  let delta_y := 4 * P.radius * P.cos_mu / (|c2.kappa| * m.distance)
  let delta_x := √((2 * c2.kappa_inv) ^ 2 - delta_y ^ 2)
  let p := global_frame_change c1.xc c1.yc m.angle delta_x (-delta_y)
  let tgt1 := circleCentered p.1 p.2 (!c2.left) (!c2.forward) c2.regular P
  let q1 := TcT_tangent_circles c1 tgt1
  let q := TiST_tangent_circles P tgt1 c2
  let ci := circleAt q.1 (!c1.left) c1.forward true P
  let first := firstTc pm1 c1 q1
  let last := lastT pm2 P c2 q.2
  { length := first.length + ci.hc_turn_length q1 + configuration_distance q.1 q.2 + last.length
    moves := [first, .hc ci q1 false, .line q.1 q.2, last] }

/-- `TcTeST_path`, hc00:678-698 / hc0pm:689-711 / hcpm0:692-712 / hcpmpm:705-727. -/
def TcTeST_path (pm1 pm2 : Bool) (P : CircleParam) (m : Scratch) (c1 c2 : Circle) : RSRow :=
  let delta_x := 2 * |c2.kappa_inv|
  let delta_y := 0
  let p := global_frame_change c1.xc c1.yc m.angle delta_x delta_y
  let tgt1 := circleCentered p.1 p.2 c2.left (!c2.forward) c2.regular P
  let q1 := TcT_tangent_circles c1 tgt1
  let q := TeST_tangent_circles P tgt1 c2
  let ci := circleAt q.1 (!c1.left) c1.forward true P
  let first := firstTc pm1 c1 q1
  let last := lastT pm2 P c2 q.2
  { length := first.length + ci.hc_turn_length q1 + configuration_distance q.1 q.2 + last.length
    moves := [first, .hc ci q1 false, .line q.1 q.2, last] }

open Classical in
/-- `TcTST_exists` and `TcTST_path`, hc00:651-654, 700-712 / hc0pm:660-663, 713-726 / hcpm0:665-668, 714-726 /
hcpmpm:676-679, 729-742. -/
def TcTST_path (pm1 pm2 : Bool) (P : CircleParam) (m : Scratch) (c1 c2 : Circle) : RSRow :=
  if TcTiST_exists P m c1 c2 then TcTiST_path pm1 pm2 P m c1 c2
  else if TcTeST_exists P m c1 c2 then TcTeST_path pm1 pm2 P m c1 c2
  else {}

/-! ### TcTSTcT -/

/-- `TcTiSTcT_exists`, hc00:715-727 / hc0pm:729-741 / hcpm0:729-741 / hcpmpm:745-757. -/
def TcTiSTcT_exists (P : CircleParam) (m : Scratch) (c1 c2 : Circle) : Prop :=
  if c1.left = c2.left then False
  else if c1.forward = c2.forward then False
  else m.distance ≥
    √((2 * P.radius) ^ 2 + 16 * P.radius * P.sin_mu * |c1.kappa_inv| + (4 * c1.kappa_inv) ^ 2)

/-- `TcTeSTcT_exists`, hc00:729-740 / hc0pm:743-754 / hcpm0:743-754 / hcpmpm:759-770. -/
def TcTeSTcT_exists (P : CircleParam) (m : Scratch) (c1 c2 : Circle) : Prop :=
  if c1.left ≠ c2.left then False
  else if c1.forward = c2.forward then False
  else m.distance ≥ 4 * |c1.kappa_inv| + 2 * P.radius * P.sin_mu

/-- `TcTiSTcT_path`, hc00:747-772 / hc0pm:761-786 / hcpm0:761-786 / hcpmpm:777-802.  Guard: `distance > 0`,
implied by `TcTiSTcT_exists`. -/
def TcTiSTcT_path (pm1 pm2 : Bool) (P : CircleParam) (m : Scratch) (c1 c2 : Circle) : RSRow :=
  let delta_y := 4 * P.radius * P.cos_mu / (m.distance * |c1.kappa|)
  let delta_x := √((2 * c1.kappa_inv) ^ 2 - delta_y ^ 2)
  let p1 := global_frame_change c1.xc c1.yc m.angle delta_x delta_y
  let tgt1 := circleCentered p1.1 p1.2 (!c1.left) (!c1.forward) c1.regular P
  let p2 := global_frame_change c2.xc c2.yc m.angle (-delta_x) (-delta_y)
  let tgt2 := circleCentered p2.1 p2.2 (!c2.left) c2.forward c2.regular P
  let q1 := TcT_tangent_circles c1 tgt1
  let q := TiST_tangent_circles P tgt1 tgt2
  let q4 := TcT_tangent_circles tgt2 c2
  let ci1 := circleAt q.1 (!c1.left) c1.forward true P
  let ci2 := circleAt q.2 (!c2.left) c2.forward true P
  let first := firstTc pm1 c1 q1
  let last := lastcT pm2 c2 q4
  { length := first.length + ci1.hc_turn_length q1 + configuration_distance q.1 q.2 + ci2.hc_turn_length q4
      + last.length
    moves := [first, .hc ci1 q1 false, .line q.1 q.2, .hc ci2 q4 true, last] }

/-- `TcTeSTcT_path`, hc00:774-799 / hc0pm:788-813 / hcpm0:788-813 / hcpmpm:804-829. -/
def TcTeSTcT_path (pm1 pm2 : Bool) (P : CircleParam) (m : Scratch) (c1 c2 : Circle) : RSRow :=
  let delta_x := 2 * |c1.kappa_inv|
  let delta_y := 0
  let p1 := global_frame_change c1.xc c1.yc m.angle delta_x delta_y
  let tgt1 := circleCentered p1.1 p1.2 (!c1.left) (!c1.forward) c1.regular P
  let p2 := global_frame_change c2.xc c2.yc m.angle (-delta_x) delta_y
  let tgt2 := circleCentered p2.1 p2.2 (!c2.left) c2.forward c2.regular P
  let q1 := TcT_tangent_circles c1 tgt1
  let q := TeST_tangent_circles P tgt1 tgt2
  let q4 := TcT_tangent_circles tgt2 c2
  let ci1 := circleAt q.1 (!c1.left) c1.forward true P
  let ci2 := circleAt q.2 (!c2.left) c2.forward true P
  let first := firstTc pm1 c1 q1
  let last := lastcT pm2 c2 q4
  { length := first.length + ci1.hc_turn_length q1 + configuration_distance q.1 q.2 + ci2.hc_turn_length q4
      + last.length
    moves := [first, .hc ci1 q1 false, .line q.1 q.2, .hc ci2 q4 true, last] }

open Classical in
/-- `TcTSTcT_exists` and `TcTSTcT_path`, hc00:742-745, 801-814 / hc0pm:756-759, 815-828 / hcpm0:756-759, 815-828 /
hcpmpm:772-775, 831-844. -/
def TcTSTcT_path (pm1 pm2 : Bool) (P : CircleParam) (m : Scratch) (c1 c2 : Circle) : RSRow :=
  if TcTiSTcT_exists P m c1 c2 then TcTiSTcT_path pm1 pm2 P m c1 c2
  else if TcTeSTcT_exists P m c1 c2 then TcTeSTcT_path pm1 pm2 P m c1 c2
  else {}

/-! ### TTcTT -/

/-- `TTcTT_exists`, hc00:817-828 / hc0pm:831-842 / hcpm0:831-842 / hcpmpm:847-858. -/
def TTcTT_exists (P : CircleParam) (m : Scratch) (c1 c2 : Circle) : Prop :=
  if c1.left = c2.left then False
  else if c1.forward ≠ c2.forward then False
  else m.distance ≤ 4 * P.radius + 2 * |c1.kappa_inv|

/-- One of the two connections of `TTcTT_path`: hc00:846-886 / hc0pm:861-903 / hcpm0:861-903 /
hcpmpm:877-921. -/
def TTcTT_side (pm1 pm2 : Bool) (P : CircleParam) (m : Scratch) (c1 c2 : Circle)
    (delta_x delta_y : ℝ) : RSRow :=
  let p1 := global_frame_change c1.xc c1.yc m.angle delta_x delta_y
  let tgt1 := circleCentered p1.1 p1.2 (!c1.left) c1.forward c1.regular P
  let p2 := global_frame_change c2.xc c2.yc m.angle (-delta_x) delta_y
  let tgt2 := circleCentered p2.1 p2.2 (!c2.left) (!c2.forward) c2.regular P
  let qa := TT_tangent_circles P c1 tgt1
  let qb := TcT_tangent_circles tgt1 tgt2
  let qc := TT_tangent_circles P tgt2 c2
  let middle1 := circleAt qa (!c1.left) c1.forward true P
  let middle2 := circleAt qc (!c2.left) c2.forward true P
  let first := firstT pm1 P c1 qa
  let last := lastT pm2 P c2 qc
  { length := first.length + middle1.hc_turn_length qb + middle2.hc_turn_length qb + last.length
    moves := [first, .hc middle1 qb true, .hc middle2 qb false, last] }

open Classical in
/-- `TTcTT_tangent_circles` and `TTcTT_path`, hc00:830-915 / hc0pm:844-936 / hcpm0:844-937 / hcpmpm:860-956.
If the argument of the square root is negative, the length is not a number. -/
def TTcTT_path (pm1 pm2 : Bool) (P : CircleParam) (m : Scratch) (c1 c2 : Circle) : RSRow :=
  let r1 := 2 * |c1.kappa_inv|
  let r2 := 2 * P.radius
  let delta_x :=
    if m.distance < 4 * P.radius - 2 * |c1.kappa_inv| then (m.distance + r1) / 2
    else (m.distance - r1) / 2
  let delta_y := √(r2 ^ 2 - delta_x ^ 2)
  if r2 ^ 2 - delta_x ^ 2 < 0 then {}
  else (TTcTT_side pm1 pm2 P m c1 c2 delta_x delta_y).shorter
    (TTcTT_side pm1 pm2 P m c1 c2 delta_x (-delta_y))

/-! ### TcTTcT -/

/-- `TcTTcT_exists`, hc00:918-929 / hc0pm:939-950 / hcpm0:940-951 / hcpmpm:959-971. -/
def TcTTcT_exists (P : CircleParam) (m : Scratch) (c1 c2 : Circle) : Prop :=
  if c1.left = c2.left then False
  else if c1.forward = c2.forward then False
  else m.distance ≤ 4 * |c1.kappa_inv| + 2 * P.radius ∧ m.distance ≥ 4 * |c1.kappa_inv| - 2 * P.radius

/-- One of the two connections of `TcTTcT_path`: hc00:940-979 / hc0pm:961-999 / hcpm0:962-1000 /
hcpmpm:982-1020; the lateral offsets at `c1` and `c2` are opposite. -/
def TcTTcT_side (pm1 pm2 : Bool) (P : CircleParam) (m : Scratch) (c1 c2 : Circle)
    (delta_x delta_y : ℝ) : RSRow :=
  let p1 := global_frame_change c1.xc c1.yc m.angle delta_x delta_y
  let tgt1 := circleCentered p1.1 p1.2 (!c1.left) (!c1.forward) c1.regular P
  let p2 := global_frame_change c2.xc c2.yc m.angle (-delta_x) (-delta_y)
  let tgt2 := circleCentered p2.1 p2.2 (!c2.left) c2.forward c2.regular P
  let qa := TcT_tangent_circles c1 tgt1
  let qb := TT_tangent_circles P tgt1 tgt2
  let qc := TcT_tangent_circles tgt2 c2
  let middle1 := circleAt qb (!c1.left) c1.forward true P
  let middle2 := circleAt qb c1.left (!c1.forward) true P
  let first := firstTc pm1 c1 qa
  let last := lastcT pm2 c2 qc
  { length := first.length + middle1.hc_turn_length qa + middle2.hc_turn_length qc + last.length
    moves := [first, .hc middle1 qa false, .hc middle2 qc true, last] }

open Classical in
/-- `TcTTcT_tangent_circles` and `TcTTcT_path`, hc00:931-1009 / hc0pm:952-1029 / hcpm0:953-1030 /
hcpmpm:973-1050.  If the distance is zero or the argument of the square root negative, the length is not a
number. -/
def TcTTcT_path (pm1 pm2 : Bool) (P : CircleParam) (m : Scratch) (c1 c2 : Circle) : RSRow :=
  let r1 := 2 * |c1.kappa_inv|
  let r2 := P.radius
  let delta_x := (r1 ^ 2 + (m.distance / 2) ^ 2 - r2 ^ 2) / m.distance
  let delta_y := √(r1 ^ 2 - delta_x ^ 2)
  if m.distance = 0 ∨ r1 ^ 2 - delta_x ^ 2 < 0 then {}
  else (TcTTcT_side pm1 pm2 P m c1 c2 delta_x delta_y).shorter
    (TcTTcT_side pm1 pm2 P m c1 c2 delta_x (-delta_y))

/-! ### TTT -/

/-- `TTT_exists`, hc00:1014-1025 / hc0pm:1034-1045 / hcpm0:1035-1046 / hcpmpm:1055-1066. -/
def TTT_exists (P : CircleParam) (m : Scratch) (c1 c2 : Circle) : Prop :=
  CC00.TTT_exists m (c1.reparam P) c2

/-- One of the two connections of `TTT_path`: hc00:1035-1064 / hc0pm:1055-1088 / hcpm0:1056-1089 /
hcpmpm:1076-1112.  The middle circle is regular in hc00 and not regular in the others. -/
def TTT_side (pm1 pm2 : Bool) (P : CircleParam) (m : Scratch) (c1 c2 : Circle)
    (delta_x delta_y : ℝ) : RSRow :=
  let p := global_frame_change c1.xc c1.yc m.angle delta_x delta_y
  let tgt := circleCentered p.1 p.2 (!c1.left) c1.forward c1.regular P
  let qa := TT_tangent_circles P c1 tgt
  let qb := TT_tangent_circles P tgt c2
  let middle := circleAt qa (!c1.left) c1.forward (!pm1 && !pm2) P
  let first := firstT pm1 P c1 qa
  let last := lastT pm2 P c2 qb
  { length := first.length + middle.cc_turn_length qb + last.length
    moves := [first, .cc middle qb true, last] }

/-- `TTT_path`, hc00:1047-1083 / hc0pm:1067-1109 / hcpm0:1068-1110 / hcpmpm:1088-1136.  The argument of the
square root is not negative if the path exists. -/
def TTT_path (pm1 pm2 : Bool) (P : CircleParam) (m : Scratch) (c1 c2 : Circle) : RSRow :=
  let r := 2 * P.radius
  let delta_x := 0.5 * m.distance
  let delta_y := √(r ^ 2 - delta_x ^ 2)
  (TTT_side pm1 pm2 P m c1 c2 delta_x delta_y).shorter
    (TTT_side pm1 pm2 P m c1 c2 delta_x (-delta_y))

/-! ### TcST -/

/-- `TciST_exists`, hc00:1086-1097 / hc0pm:1112-1123 / hcpm0:1113-1124 / hcpmpm:1139-1151. -/
def TciST_exists (P : CircleParam) (m : Scratch) (c1 c2 : Circle) : Prop :=
  if c1.left = c2.left then False
  else if c1.forward ≠ c2.forward then False
  else m.distance ≥ √((P.radius * P.sin_mu) ^ 2 + (P.radius * P.cos_mu + |c1.kappa_inv|) ^ 2)

/-- `TceST_exists`, hc00:1099-1110 / hc0pm:1125-1136 / hcpm0:1126-1137 / hcpmpm:1153-1165. -/
def TceST_exists (P : CircleParam) (m : Scratch) (c1 c2 : Circle) : Prop :=
  if c1.left ≠ c2.left then False
  else if c1.forward ≠ c2.forward then False
  else m.distance ≥ √((P.radius * P.sin_mu) ^ 2 + (P.radius * P.cos_mu - |c1.kappa_inv|) ^ 2)

/-- The configurations `q1`, `q2` of `TciST_path`, hc00:1120-1157 / hc0pm:1147-1184 / hcpm0:1147-1184 /
hcpmpm:1176-1213.  Guard: `distance > 0`, implied by `TciST_exists`. -/
def TciST_tangents (P : CircleParam) (m : Scratch) (c1 c2 : Circle) : Configuration × Configuration :=
  let alpha := arcsin ((P.radius * P.cos_mu + |c1.kappa_inv|) / m.distance)
  let delta_x1 := 0
  let delta_y1 := |c1.kappa_inv|
  let delta_x2 := P.radius * P.sin_mu
  let delta_y2 := P.radius * P.cos_mu
  if c1.left then
    if c1.forward then
      let theta := m.angle - alpha
      let p1 := global_frame_change c1.xc c1.yc theta (-delta_x1) delta_y1
      let p2 := global_frame_change c2.xc c2.yc theta (-delta_x2) (-delta_y2)
      (configuration p1.1 p1.2 (theta + π) c1.kappa, configuration p2.1 p2.2 (theta + π) 0)
    else
      let theta := m.angle + alpha
      let p1 := global_frame_change c1.xc c1.yc theta (-delta_x1) (-delta_y1)
      let p2 := global_frame_change c2.xc c2.yc theta (-delta_x2) delta_y2
      (configuration p1.1 p1.2 theta c1.kappa, configuration p2.1 p2.2 theta 0)
  else
    if c1.forward then
      let theta := m.angle + alpha
      let p1 := global_frame_change c1.xc c1.yc theta (-delta_x1) (-delta_y1)
      let p2 := global_frame_change c2.xc c2.yc theta (-delta_x2) delta_y2
      (configuration p1.1 p1.2 (theta + π) c1.kappa, configuration p2.1 p2.2 (theta + π) 0)
    else
      let theta := m.angle - alpha
      let p1 := global_frame_change c1.xc c1.yc theta (-delta_x1) delta_y1
      let p2 := global_frame_change c2.xc c2.yc theta (-delta_x2) (-delta_y2)
      (configuration p1.1 p1.2 theta c1.kappa, configuration p2.1 p2.2 theta 0)

/-- The configurations `q1`, `q2` of `TceST_path`, hc00:1166-1203 / hc0pm:1194-1231 / hcpm0:1193-1230 /
hcpmpm:1223-1260.  Guard: `distance > 0`, implied by `TceST_exists`. -/
def TceST_tangents (P : CircleParam) (m : Scratch) (c1 c2 : Circle) : Configuration × Configuration :=
  let alpha := arcsin ((P.radius * P.cos_mu - |c1.kappa_inv|) / m.distance)
  let delta_x1 := 0
  let delta_y1 := |c1.kappa_inv|
  let delta_x2 := P.radius * P.sin_mu
  let delta_y2 := P.radius * P.cos_mu
  if c1.left then
    if c1.forward then
      let theta := m.angle + alpha
      let p1 := global_frame_change c1.xc c1.yc theta (-delta_x1) delta_y1
      let p2 := global_frame_change c2.xc c2.yc theta (-delta_x2) delta_y2
      (configuration p1.1 p1.2 (theta + π) c1.kappa, configuration p2.1 p2.2 (theta + π) 0)
    else
      let theta := m.angle - alpha
      let p1 := global_frame_change c1.xc c1.yc theta (-delta_x1) (-delta_y1)
      let p2 := global_frame_change c2.xc c2.yc theta (-delta_x2) (-delta_y2)
      (configuration p1.1 p1.2 theta c1.kappa, configuration p2.1 p2.2 theta 0)
  else
    if c1.forward then
      let theta := m.angle - alpha
      let p1 := global_frame_change c1.xc c1.yc theta (-delta_x1) (-delta_y1)
      let p2 := global_frame_change c2.xc c2.yc theta (-delta_x2) (-delta_y2)
      (configuration p1.1 p1.2 (theta + π) c1.kappa, configuration p2.1 p2.2 (theta + π) 0)
    else
      let theta := m.angle + alpha
      let p1 := global_frame_change c1.xc c1.yc theta (-delta_x1) delta_y1
      let p2 := global_frame_change c2.xc c2.yc theta (-delta_x2) delta_y2
      (configuration p1.1 p1.2 theta c1.kappa, configuration p2.1 p2.2 theta 0)

/-- Length and calls of `TciST_path` and `TceST_path`, hc00:1158-1160, 1204-1206 / hc0pm:1185-1187, 1232-1234 /
hcpm0:1185-1187, 1231-1233 / hcpmpm:1214-1216, 1261-1263. -/
def TcST_line (pm1 pm2 : Bool) (P : CircleParam) (c1 c2 : Circle) (q : Configuration × Configuration) : RSRow :=
  let first := firstTc pm1 c1 q.1
  let last := lastT pm2 P c2 q.2
  { length := first.length + configuration_distance q.1 q.2 + last.length
    moves := [first, .line q.1 q.2, last] }

open Classical in
/-- `TcST_exists` and `TcST_path`, hc00:1112-1115, 1209-1221 / hc0pm:1138-1141, 1237-1249 /
hcpm0:1139-1142, 1236-1248 / hcpmpm:1167-1170, 1266-1278. -/
def TcST_path (pm1 pm2 : Bool) (P : CircleParam) (m : Scratch) (c1 c2 : Circle) : RSRow :=
  if TciST_exists P m c1 c2 then TcST_line pm1 pm2 P c1 c2 (TciST_tangents P m c1 c2)
  else if TceST_exists P m c1 c2 then TcST_line pm1 pm2 P c1 c2 (TceST_tangents P m c1 c2)
  else {}

/-! ### TScT -/

/-- `TiScT_exists`, hc00:1224-1235 / hc0pm:1252-1263 / hcpm0:1251-1262 / hcpmpm:1281-1293. -/
def TiScT_exists (P : CircleParam) (m : Scratch) (c1 c2 : Circle) : Prop :=
  if c1.left = c2.left then False
  else if c1.forward ≠ c2.forward then False
  else m.distance ≥ √((P.radius * P.sin_mu) ^ 2 + (P.radius * P.cos_mu + |c1.kappa_inv|) ^ 2)

/-- `TeScT_exists`, hc00:1237-1248 / hc0pm:1265-1276 / hcpm0:1264-1275 / hcpmpm:1295-1307. -/
def TeScT_exists (P : CircleParam) (m : Scratch) (c1 c2 : Circle) : Prop :=
  if c1.left ≠ c2.left then False
  else if c1.forward ≠ c2.forward then False
  else m.distance ≥ √((P.radius * P.sin_mu) ^ 2 + (P.radius * P.cos_mu - |c1.kappa_inv|) ^ 2)

/-- The configurations `q1`, `q2` of `TiScT_path`, hc00:1258-1295 / hc0pm:1286-1323 / hcpm0:1286-1323 /
hcpmpm:1318-1355. -/
def TiScT_tangents (P : CircleParam) (m : Scratch) (c1 c2 : Circle) : Configuration × Configuration :=
  let alpha := arcsin ((P.radius * P.cos_mu + |c1.kappa_inv|) / m.distance)
  let delta_x1 := P.radius * P.sin_mu
  let delta_y1 := P.radius * P.cos_mu
  let delta_x2 := 0
  let delta_y2 := |c1.kappa_inv|
  if c1.left then
    if c1.forward then
      let theta := m.angle + alpha
      let p1 := global_frame_change c1.xc c1.yc theta delta_x1 (-delta_y1)
      let p2 := global_frame_change c2.xc c2.yc theta delta_x2 delta_y2
      (configuration p1.1 p1.2 theta 0, configuration p2.1 p2.2 theta c2.kappa)
    else
      let theta := m.angle - alpha
      let p1 := global_frame_change c1.xc c1.yc theta delta_x1 delta_y1
      let p2 := global_frame_change c2.xc c2.yc theta delta_x2 (-delta_y2)
      (configuration p1.1 p1.2 (theta + π) 0, configuration p2.1 p2.2 (theta + π) c2.kappa)
  else
    if c1.forward then
      let theta := m.angle - alpha
      let p1 := global_frame_change c1.xc c1.yc theta delta_x1 delta_y1
      let p2 := global_frame_change c2.xc c2.yc theta delta_x2 (-delta_y2)
      (configuration p1.1 p1.2 theta 0, configuration p2.1 p2.2 theta c2.kappa)
    else
      let theta := m.angle + alpha
      let p1 := global_frame_change c1.xc c1.yc theta delta_x1 (-delta_y1)
      let p2 := global_frame_change c2.xc c2.yc theta delta_x2 delta_y2
      (configuration p1.1 p1.2 (theta + π) 0, configuration p2.1 p2.2 (theta + π) c2.kappa)

/-- The configurations `q1`, `q2` of `TeScT_path`, hc00:1304-1341 / hc0pm:1333-1370 / hcpm0:1333-1370 /
hcpmpm:1365-1402. -/
def TeScT_tangents (P : CircleParam) (m : Scratch) (c1 c2 : Circle) : Configuration × Configuration :=
  let alpha := arcsin ((P.radius * P.cos_mu - |c1.kappa_inv|) / m.distance)
  let delta_x1 := P.radius * P.sin_mu
  let delta_y1 := P.radius * P.cos_mu
  let delta_x2 := 0
  let delta_y2 := |c1.kappa_inv|
  if c1.left then
    if c1.forward then
      let theta := m.angle + alpha
      let p1 := global_frame_change c1.xc c1.yc theta delta_x1 (-delta_y1)
      let p2 := global_frame_change c2.xc c2.yc theta delta_x2 (-delta_y2)
      (configuration p1.1 p1.2 theta 0, configuration p2.1 p2.2 theta c2.kappa)
    else
      let theta := m.angle - alpha
      let p1 := global_frame_change c1.xc c1.yc theta delta_x1 delta_y1
      let p2 := global_frame_change c2.xc c2.yc theta delta_x2 delta_y2
      (configuration p1.1 p1.2 (theta + π) 0, configuration p2.1 p2.2 (theta + π) c2.kappa)
  else
    if c1.forward then
      let theta := m.angle - alpha
      let p1 := global_frame_change c1.xc c1.yc theta delta_x1 delta_y1
      let p2 := global_frame_change c2.xc c2.yc theta delta_x2 delta_y2
      (configuration p1.1 p1.2 theta 0, configuration p2.1 p2.2 theta c2.kappa)
    else
      let theta := m.angle + alpha
      let p1 := global_frame_change c1.xc c1.yc theta delta_x1 (-delta_y1)
      let p2 := global_frame_change c2.xc c2.yc theta delta_x2 (-delta_y2)
      (configuration p1.1 p1.2 (theta + π) 0, configuration p2.1 p2.2 (theta + π) c2.kappa)

/-- Length and calls of `TiScT_path` and `TeScT_path`, hc00:1296-1298, 1342-1344 / hc0pm:1324-1327, 1371-1373 /
hcpm0:1324-1326, 1371-1373 / hcpmpm:1356-1358, 1403-1405. -/
def TScT_line (pm1 pm2 : Bool) (P : CircleParam) (c1 c2 : Circle) (q : Configuration × Configuration) : RSRow :=
  let first := firstT pm1 P c1 q.1
  let last := lastcT pm2 c2 q.2
  { length := first.length + configuration_distance q.1 q.2 + last.length
    moves := [first, .line q.1 q.2, last] }

open Classical in
/-- `TScT_exists` and `TScT_path`, hc00:1250-1253, 1347-1359 / hc0pm:1278-1281, 1376-1388 /
hcpm0:1277-1280, 1376-1388 / hcpmpm:1309-1312, 1408-1420. -/
def TScT_path (pm1 pm2 : Bool) (P : CircleParam) (m : Scratch) (c1 c2 : Circle) : RSRow :=
  if TiScT_exists P m c1 c2 then TScT_line pm1 pm2 P c1 c2 (TiScT_tangents P m c1 c2)
  else if TeScT_exists P m c1 c2 then TScT_line pm1 pm2 P c1 c2 (TeScT_tangents P m c1 c2)
  else {}

/-! ### TcScT -/

/-- `TciScT_exists`, hc00:1362-1373 / hc0pm:1391-1402 / hcpm0:1391-1402 / hcpmpm:1423-1434. -/
def TciScT_exists (m : Scratch) (c1 c2 : Circle) : Prop :=
  if c1.left = c2.left then False
  else if c1.forward = c2.forward then False
  else m.distance > 2 * |c1.kappa_inv|

/-- `TceScT_exists`, hc00:1375-1386 / hc0pm:1404-1415 / hcpm0:1404-1415 / hcpmpm:1436-1447. -/
def TceScT_exists (m : Scratch) (c1 c2 : Circle) : Prop :=
  if c1.left ≠ c2.left then False
  else if c1.forward = c2.forward then False
  else m.distance ≥ epsilon

/-- The configurations `q1`, `q2` of `TciScT_path`, hc00:1396-1431 / hc0pm:1425-1460 / hcpm0:1425-1460 /
hcpmpm:1457-1492. -/
def TciScT_tangents (m : Scratch) (c1 c2 : Circle) : Configuration × Configuration :=
  let alpha := arcsin (2 / (|c1.kappa| * m.distance))
  let delta_x := 0
  let delta_y := |c1.kappa_inv|
  if c1.left then
    if c1.forward then
      let theta := m.angle - alpha
      let p1 := global_frame_change c1.xc c1.yc theta (-delta_x) delta_y
      let p2 := global_frame_change c2.xc c2.yc theta delta_x (-delta_y)
      (configuration p1.1 p1.2 (theta + π) c1.kappa, configuration p2.1 p2.2 (theta + π) c2.kappa)
    else
      let theta := m.angle + alpha
      let p1 := global_frame_change c1.xc c1.yc theta (-delta_x) (-delta_y)
      let p2 := global_frame_change c2.xc c2.yc theta delta_x delta_y
      (configuration p1.1 p1.2 theta c1.kappa, configuration p2.1 p2.2 theta c2.kappa)
  else
    if c1.forward then
      let theta := m.angle + alpha
      let p1 := global_frame_change c1.xc c1.yc theta (-delta_x) (-delta_y)
      let p2 := global_frame_change c2.xc c2.yc theta delta_x delta_y
      (configuration p1.1 p1.2 (theta + π) c1.kappa, configuration p2.1 p2.2 (theta + π) c2.kappa)
    else
      let theta := m.angle - alpha
      let p1 := global_frame_change c1.xc c1.yc theta (-delta_x) delta_y
      let p2 := global_frame_change c2.xc c2.yc theta delta_x (-delta_y)
      (configuration p1.1 p1.2 theta c1.kappa, configuration p2.1 p2.2 theta c2.kappa)

/-- The configurations `q1`, `q2` of `TceScT_path`, hc00:1440-1471 / hc0pm:1469-1500 / hcpm0:1469-1500 /
hcpmpm:1501-1532. -/
def TceScT_tangents (m : Scratch) (c1 c2 : Circle) : Configuration × Configuration :=
  let theta := m.angle
  let delta_x := 0
  let delta_y := |c1.kappa_inv|
  if c1.left then
    if c1.forward then
      let p1 := global_frame_change c1.xc c1.yc theta (-delta_x) delta_y
      let p2 := global_frame_change c2.xc c2.yc theta delta_x delta_y
      (configuration p1.1 p1.2 (theta + π) c1.kappa, configuration p2.1 p2.2 (theta + π) c2.kappa)
    else
      let p1 := global_frame_change c1.xc c1.yc theta (-delta_x) (-delta_y)
      let p2 := global_frame_change c2.xc c2.yc theta delta_x (-delta_y)
      (configuration p1.1 p1.2 theta c1.kappa, configuration p2.1 p2.2 theta c2.kappa)
  else
    if c1.forward then
      let p1 := global_frame_change c1.xc c1.yc theta (-delta_x) (-delta_y)
      let p2 := global_frame_change c2.xc c2.yc theta delta_x (-delta_y)
      (configuration p1.1 p1.2 (theta + π) c1.kappa, configuration p2.1 p2.2 (theta + π) c2.kappa)
    else
      let p1 := global_frame_change c1.xc c1.yc theta (-delta_x) delta_y
      let p2 := global_frame_change c2.xc c2.yc theta delta_x delta_y
      (configuration p1.1 p1.2 theta c1.kappa, configuration p2.1 p2.2 theta c2.kappa)

/-- Length and calls of `TciScT_path` and `TceScT_path`, hc00:1432-1434, 1472-1474 / hc0pm:1461-1463, 1501-1503 /
hcpm0:1461-1463, 1501-1503 / hcpmpm:1493-1495, 1533-1535. -/
def TcScT_line (pm1 pm2 : Bool) (c1 c2 : Circle) (q : Configuration × Configuration) : RSRow :=
  let first := firstTc pm1 c1 q.1
  let last := lastcT pm2 c2 q.2
  { length := first.length + configuration_distance q.1 q.2 + last.length
    moves := [first, .line q.1 q.2, last] }

open Classical in
/-- `TcScT_exists` and `TcScT_path`, hc00:1388-1391, 1477-1489 / hc0pm:1417-1420, 1506-1518 /
hcpm0:1417-1420, 1506-1518 / hcpmpm:1449-1452, 1538-1550. -/
def TcScT_path (pm1 pm2 : Bool) (m : Scratch) (c1 c2 : Circle) : RSRow :=
  if TciScT_exists m c1 c2 then TcScT_line pm1 pm2 c1 c2 (TciScT_tangents m c1 c2)
  else if TceScT_exists m c1 c2 then TcScT_line pm1 pm2 c1 c2 (TceScT_tangents m c1 c2)
  else {}

/-! ### Paths between two circles -/

open Classical in
/-- Column `i` of the tables after the cases `TT` to `TcScT` of the `*_circles_rs_path` functions,
hc00:1554-1651 / hc0pm:1573-1675 / hcpm0:1573-1674 / hcpmpm:1607-1716.  Each case writes one column. -/
def family (pm1 pm2 : Bool) (sp : HCSpace) (m : Scratch) (c1 c2 : Circle) (i : ℕ) : RSRow :=
  match i with
  | hc_cc_rs.TT => if TT_exists sp.param m c1 c2 then TT_path pm1 pm2 sp.param c1 c2 else {}
  | hc_cc_rs.TcT => if TcT_exists m c1 c2 then TcT_path pm1 pm2 c1 c2 else {}
  | hc_cc_rs.TcTcT =>
    if TcTcT_exists m c1 c2 then TcTcT_path pm1 pm2 sp.param sp.rs_param m c1 c2 else {}
  | hc_cc_rs.TcTT => if TcTT_exists sp.param m c1 c2 then TcTT_path pm1 pm2 sp.param m c1 c2 else {}
  | hc_cc_rs.TTcT => if TTcT_exists sp.param m c1 c2 then TTcT_path pm1 pm2 sp.param m c1 c2 else {}
  | hc_cc_rs.TST => TST_path pm1 pm2 sp.param m c1 c2
  | hc_cc_rs.TSTcT => TSTcT_path pm1 pm2 sp.param m c1 c2
  | hc_cc_rs.TcTST => TcTST_path pm1 pm2 sp.param m c1 c2
  | hc_cc_rs.TcTSTcT => TcTSTcT_path pm1 pm2 sp.param m c1 c2
  | hc_cc_rs.TTcTT => if TTcTT_exists sp.param m c1 c2 then TTcTT_path pm1 pm2 sp.param m c1 c2 else {}
  | hc_cc_rs.TcTTcT => if TcTTcT_exists sp.param m c1 c2 then TcTTcT_path pm1 pm2 sp.param m c1 c2 else {}
  | hc_cc_rs.TTT => if TTT_exists sp.param m c1 c2 then TTT_path pm1 pm2 sp.param m c1 c2 else {}
  | hc_cc_rs.TcST => TcST_path pm1 pm2 sp.param m c1 c2
  | hc_cc_rs.TScT => TScT_path pm1 pm2 sp.param m c1 c2
  | hc_cc_rs.TcScT => TcScT_path pm1 pm2 m c1 c2
  | _ => {}

open Classical in
/-- Cases `E`, `S` and `T`, which are followed by `goto label_end`: path type and row.
hc00:1528-1553 / hc0pm:1561-1572 / hcpm0:1561-1572 / hcpmpm:1595-1606. -/
def shortcut (pm1 pm2 : Bool) (sp : HCSpace) (m : Scratch) (c1 c2 : Circle) : Option (ℕ × RSRow) :=
  if configuration_equal c1.start c2.start then some (hc_cc_rs.E, { length := 0 })
  else
    match pm1, pm2 with
    | false, false =>
      if configuration_aligned c1.start c2.start then
        some (hc_cc_rs.S, { length := configuration_distance c1.start c2.start,
                            moves := [.line c1.start c2.start] })
      else if configuration_aligned c2.start c1.start then
        some (hc_cc_rs.S, { length := configuration_distance c2.start c1.start,
                            moves := [.line c1.start c2.start] })
      else if configuration_on_hc_cc_circle c1 c2.start then
        let cstart := circleAt c1.start c1.left c1.forward false sp.param
        some (hc_cc_rs.T, { length := cstart.cc_turn_length c2.start, moves := [.cc cstart c2.start true] })
      else none
    | false, true =>
      if m.distance < epsilon then
        let cstart := circleAt c1.start c1.left c1.forward false sp.param
        some (hc_cc_rs.T, { length := cstart.hc_turn_length c2.start, moves := [.hc cstart c2.start true] })
      else none
    | true, false =>
      if m.distance < epsilon then
        let cend := circleAt c2.start c2.left c2.forward false sp.param
        some (hc_cc_rs.T, { length := cend.hc_turn_length c1.start, moves := [.hc cend c1.start false] })
      else none
    | true, true =>
      if configuration_on_hc_cc_circle c1 c2.start then
        let cstart := circleAt c1.start c1.left c1.forward true sp.rs_param
        some (hc_cc_rs.T, { length := cstart.rs_turn_length c2.start, moves := [.rs cstart c2.start true] })
      else none

/-- The tables at `label_end`. -/
def table (pm1 pm2 : Bool) (sp : HCSpace) (m : Scratch) (c1 c2 : Circle) (i : ℕ) : RSRow :=
  match shortcut pm1 pm2 sp m c1 c2 with
  | some (t, r) => if i = t then r else {}
  | none => family pm1 pm2 sp m c1 c2 i

/-- `class HC_CC_RS_Path`, paths.hpp:146-186 (the members `start`, `end`, `kappa` and `sigma` are
left out: `get_controls` reads only the first two, in the cases `S` and `T`, where they are part of the
calls in `row`). -/
structure RSPath where
  type : ℕ
  row : RSRow

/-- Member `length`. -/
def RSPath.length (p : RSPath) : ℝ := p.row.length

/-- `hc00_circles_rs_path` etc., hc00:1503-1679 / hc0pm:1534-1700 / hcpm0:1534-1699 / hcpmpm:1568-1741. -/
def circles_rs_path (pm1 pm2 : Bool) (sp : HCSpace) (c1 c2 : Circle) : RSPath :=
  let t := table pm1 pm2 sp (scratch c1 c2) c1 c2
  let best_path := array_index_min (fun i => (t i).length) nb_hc_cc_rs_paths
  ⟨best_path, t best_path⟩

/-! ### The planners -/

/-- `start_circle[i]` and `end_circle[i]`: the circles at state `s` with curvature zero (`pm = false`) or
`±kappa` (`pm = true`), hc00:1684-1696 / hc0pm:1705-1718 / hcpm0:1704-1717 / hcpmpm:1746-1760. -/
def end_circle (pm : Bool) (sp : HCSpace) (s : State) (i : ℕ) : Circle :=
  let kappa := if pm then (if i % 2 = 0 then sp.kappa else -sp.kappa) else 0
  circleAt (configuration s.x s.y s.theta kappa) (i % 2 = 0) (i < 2) true
    (if pm then sp.rs_param else sp.param)

/-- "skip circle for curvature continuity", hc0pm:1736-1744 / hcpm0:1734-1742 /
hcpmpm:1775-1783, 1786-1794. -/
def skip (pm : Bool) (s : State) (i : ℕ) : Prop :=
  pm = true ∧ ((i % 2 = 0 ∧ s.kappa < 0) ∨ (i % 2 = 1 ∧ s.kappa > 0))

open Classical in
/-- `path[n]` with `n = 4 * i + j`, hc00:1709-1719 / hc0pm:1731-1751 / hcpm0:1731-1751 /
hcpmpm:1773-1803; `none` is a null pointer. -/
def path (pm1 pm2 : Bool) (sp : HCSpace) (state1 state2 : State) (n : ℕ) : Option RSPath :=
  if skip pm1 state1 (n / 4) ∨ skip pm2 state2 (n % 4) then none
  else some (circles_rs_path pm1 pm2 sp (end_circle pm1 sp state1 (n / 4)) (end_circle pm2 sp state2 (n % 4)))

/-- `hc00_reeds_shepp` etc., hc00:1681-1752 / hc0pm:1702-1783 / hcpm0:1701-1781 / hcpmpm:1743-1829; a null
pointer has the entry `numeric_limits<double>::max()` in the table `lg`. -/
def reeds_shepp (pm1 pm2 : Bool) (sp : HCSpace) (state1 state2 : State) : Option RSPath :=
  path pm1 pm2 sp state1 state2
    (array_index_min (fun n => ((path pm1 pm2 sp state1 state2 n).map RSPath.length).getD dblMax) 16)

/-- `get_distance`, hc00:1754-1760 / hc0pm:1785-1791 / hcpm0:1783-1789 / hcpmpm:1831-1837; `none` is a
dereferenced null pointer. -/
def get_distance (pm1 pm2 : Bool) (sp : HCSpace) (state1 state2 : State) : Option ℝ :=
  (reeds_shepp pm1 pm2 sp state1 state2).map RSPath.length

/-- The `switch` of `get_controls`. -/
def path_controls (p : RSPath) : List Control :=
  if p.type = hc_cc_rs.E then empty_controls else p.row.moves.flatMap Move.controls

/-- `get_controls`, hc00:1762-1864 / hc0pm:1793-1890 / hcpm0:1791-1888 / hcpmpm:1839-1937; `none` is a
dereferenced null pointer. -/
def get_controls (pm1 pm2 : Bool) (sp : HCSpace) (state1 state2 : State) : Option (List Control) :=
  (reeds_shepp pm1 pm2 sp state1 state2).map path_controls

/-- `HC_CC_State_Space::get_path`, hc_cc_state_space.cpp:67-71, for these planners. -/
def get_path (pm1 pm2 : Bool) (sp : HCSpace) (state1 state2 : State) : Option (List State) :=
  (get_controls pm1 pm2 sp state1 state2).bind (hcIntegrate sp.discretization state1)

end HcRs

end SF
