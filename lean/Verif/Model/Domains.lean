import Verif.Model.Calls
import Verif.Model.ReedsShepp

/-!
# The partial operations: divisions, square roots, `asin` and `acos`

Which divisions and which calls of `sqrt`, `asin` and `acos` the code makes, with their arguments: in the turn functions, the
constructor of `HC_CC_State_Space`, the steps of the integration, and the planners.  Outside its domain such an operation gives NaN
or infinity in the code, but some number in the model.

Left out are divisions by literals and by `π`, and square roots of a sum of two squares (`point_distance`, `center_distance`, `polar`,
and the bounds in the `*_exists` functions that have this form).
-/

noncomputable section

namespace SF

open Real

/-- A partial operation with its argument; for a division the divisor. -/
inductive Op
  | div (d : ℝ)
  | sqrt (x : ℝ)
  | asin (x : ℝ)
  | acos (x : ℝ)

/-! ### Utilities -/

/-- `fresnel`, utilities.cpp:138-151, with `fresnel_0_8` (line 98) and `fresnel_8_inf` (lines 109, 131-135). -/
def fresnel_ops (s : ℝ) : List Op :=
  let x := π / 2 * s * s
  if x ≤ 8 then [.sqrt x] else [.div (x * x), .sqrt x, .div (2 * x), .div (√x)]

/-- `end_of_clothoid`, utilities.cpp:153-183. -/
def end_of_clothoid_ops (kappa_i sigma length : ℝ) : List Op :=
  let sqrt_sigma_inv := 1 / √|sigma|
  let k2 := 1 / √π * sqrt_sigma_inv * (|sigma| * length + sgn sigma * kappa_i)
  let k3 := 1 / √π * sqrt_sigma_inv * sgn sigma * kappa_i
  [.sqrt |sigma|, .div (√|sigma|), .div sigma] ++ fresnel_ops k2 ++ fresnel_ops k3

/-- `end_of_circular_arc`, utilities.cpp:185-191. -/
def end_of_circular_arc_ops (kappa : ℝ) : List Op := [.div kappa]

/-! ### Integration -/

/-- `Dubins_State_Space::integrate_ODE`, dubins_state_space.cpp:484-504, and
`Reeds_Shepp_State_Space::integrate_ODE`, reeds_shepp_state_space.cpp:773-793. -/
def integrate_ODE_ops (state : State) : List Op := if |state.kappa| > epsilon then end_of_circular_arc_ops state.kappa else []

/-- `HC_CC_State_Space::integrate_ODE`, hc_cc_state_space.cpp:281-310. -/
def hc_integrate_ODE_ops (state : State) (control : Control) (integration_step : ℝ) : List Op :=
  if |control.sigma| > epsilon then end_of_clothoid_ops state.kappa control.sigma integration_step
  else if |state.kappa| > epsilon then end_of_circular_arc_ops state.kappa
  else []

/-! ### Circles and turns -/

/-- Constructor of `HC_CC_State_Space`, hc_cc_state_space.cpp:28-60. -/
def space_ops (kappa sigma : ℝ) : List Op :=
  let length_min := kappa / sigma
  let e := first_clothoid kappa sigma
  let yc := e.y + cos e.theta / kappa
  [.div sigma] ++ (if length_min > epsilon then end_of_clothoid_ops 0 sigma length_min else []) ++
    [.div kappa, .div yc, .div kappa]

/-- `D1`, hc_cc_circle.cpp:130-136. -/
def D1_ops (alpha : ℝ) : List Op := .sqrt (2 * alpha / π) :: fresnel_ops (√(2 * alpha / π))

/-- `cc_elementary_sharpness`, hc_cc_circle.cpp:192-207, with the length of the elementary path, hc_cc_circle.cpp:258,
paths.cpp:374. -/
def cc_elementary_ops (c : Circle) (q : Configuration) (delta : ℝ) : List Op :=
  let distance := point_distance c.start.x c.start.y q.x q.y
  if delta < 4.5948 ∧ distance > epsilon then
    let sigma0 := 4 * π * Circle.D1 (0.5 * delta) ^ 2 / distance ^ 2
    D1_ops (0.5 * delta) ++ [.div (distance ^ 2), .div |sigma0|, .sqrt (delta / |sigma0|)]
  else []

/-- `cc_turn_length`, hc_cc_circle.cpp:238-271, and `cc_turn_controls`, paths.cpp:417-460. -/
def cc_turn_ops (c : Circle) (q : Configuration) : List Op :=
  let delta := c.deflection q
  if delta < epsilon then []
  else .div c.sigma :: if delta < 2 * c.delta_min then cc_elementary_ops c q delta else []

/-- The turn functions; `hc_turn_length`, hc_cc_circle.cpp:185-190, `hc_turn_controls`, paths.cpp:336-366. -/
def Move.ops : Move → List Op
  | .cc c q _ => cc_turn_ops c q
  | .hc c _ _ => [.div c.sigma]
  | .rs _ _ _ => []
  | .line _ _ => []

/-! ### Reeds-Shepp -/

open Classical in
/-- The word functions of the Reeds-Shepp planner: `LpSpRp`, reeds_shepp_state_space.cpp:110, `LpRmL`, 169, `LpRupLumRm`, 229,
`LpRumLumRp`, 244, `LpRmSmLm`, 305, `LpRmSLmRp`, 442; the others have no such operation. -/
def word_ops (x y phi : ℝ) : List Op :=
  let u1 := (polar (x + sin phi) (y - 1 - cos phi)).1
  let w1 := (polar (x - sin phi) (y - 1 + cos phi)).1
  (if u1 * u1 ≥ 4 then [.sqrt (u1 * u1 - 4)] else []) ++
  (if w1 ≤ 4 then [.asin (0.25 * w1)] else []) ++
  (if rhoLpRupLumRm x y phi ≤ 1 then [.acos (rhoLpRupLumRm x y phi)] else []) ++
  (if rhoLpRumLumRp x y phi ≥ 0 ∧ rhoLpRumLumRp x y phi ≤ 1 then [.acos (rhoLpRumLumRp x y phi)] else []) ++
  (if w1 ≥ 2 then [.sqrt (w1 * w1 - 4)] else []) ++
  (if u1 ≥ 2 then [.sqrt (u1 * u1 - 4)] else [])

/-! ### Tangents of CC circles -/

namespace CC00

/-- `TiST_tangent_circles`, cc00_dubins_state_space.cpp:137-178 (line 142). -/
def TiST_ops (c1 c2 : Circle) : List Op :=
  let distance := center_distance c1 c2
  [.div distance, .asin (2 * c1.radius * c1.cos_mu / distance)]

/-- `TTT_tangent_circles`, cc00_dubins_state_space.cpp:255-273 (line 262). -/
def TTT_ops (m : Scratch) (c1 : Circle) : List Op := [.sqrt ((2 * c1.radius) ^ 2 - (0.5 * m.distance) ^ 2)]

open Classical in
/-- `cc00_circles_dubins_path`, cc00_dubins_state_space.cpp:343-390, without the turn functions. -/
def circles_ops (sp : HCSpace) (c1 c2 : Circle) : List Op :=
  let m := scratch c1 c2
  if configuration_equal c1.start c2.start then []
  else if sp.forwards ∧ configuration_aligned c1.start c2.start then []
  else if ¬sp.forwards ∧ configuration_aligned c2.start c1.start then []
  else if configuration_on_hc_cc_circle c1 c2.start then []
  else (if TiST_exists m c1 c2 then TiST_ops c1 c2 else []) ++ (if TTT_exists m c1 c2 then TTT_ops m c1 else [])

/-- `cc00_dubins`, cc00_dubins_state_space.cpp:414-486, with the turn functions it calls. -/
def distance_ops (sp : HCSpace) (state1 state2 : State) : List Op :=
  let start := configuration state1.x state1.y state1.theta 0
  let end_ := configuration state2.x state2.y state2.theta 0
  ((List.range 4).flatMap fun n => circles_ops sp (start_circle sp start (n / 2)) (end_circle sp end_ (n % 2))) ++
    (distance_calls sp state1 state2).flatMap Move.ops

end CC00

namespace CC0pm

open Classical in
/-- `cc0pm_circles_dubins_path`, cc0pm_dubins_state_space.cpp:371-403, without the turn functions. -/
def circles_ops (c1 c2 : Circle) : List Op :=
  let m := scratch c1 c2
  if configuration_equal c1.start c2.start then []
  else if m.distance < epsilon then []
  else (if TiST_exists m c1 c2 then CC00.TiST_ops c1 c2 else []) ++ (if TTT_exists m c1 c2 then CC00.TTT_ops m c1 else [])

open Classical in
/-- `cc0pm_dubins`, cc0pm_dubins_state_space.cpp:426-504, with the turn functions it calls. -/
def distance_ops (sp : HCSpace) (state1 state2 : State) : List Op :=
  let start := configuration state1.x state1.y state1.theta 0
  ((List.range 4).flatMap fun n =>
    if n % 2 = 0 ∧ state2.kappa < 0 then []
    else if n % 2 = 1 ∧ state2.kappa > 0 then []
    else circles_ops (start_circle sp start (n / 2)) (end_circle sp state2 (n % 2))) ++
    (distance_calls sp state1 state2).flatMap Move.ops

end CC0pm

namespace CCpm0

/-- `TTT_tangent_circles`, ccpm0_dubins_state_space.cpp:269-287 (line 275). -/
def TTT_ops (m : Scratch) (c2 : Circle) : List Op := [.sqrt ((2 * c2.radius) ^ 2 - (0.5 * m.distance) ^ 2)]

/-- `TiST_tangent_circles`, ccpm0_dubins_state_space.cpp:141-182 (line 146). -/
def TiST_ops (c1 c2 : Circle) : List Op :=
  let distance := center_distance c1 c2
  [.div distance, .asin (2 * c2.radius * c2.cos_mu / distance)]

open Classical in
/-- `ccpm0_circles_dubins_path`, ccpm0_dubins_state_space.cpp:371-402, without the turn functions. -/
def circles_ops (c1 c2 : Circle) : List Op :=
  let m := scratch c1 c2
  if configuration_equal c1.start c2.start then []
  else if m.distance < epsilon then []
  else (if TiST_exists m c1 c2 then TiST_ops c1 c2 else []) ++ (if TTT_exists m c1 c2 then TTT_ops m c2 else [])

open Classical in
/-- `ccpm0_dubins`, ccpm0_dubins_state_space.cpp:425-503, with the turn functions it calls. -/
def distance_ops (sp : HCSpace) (state1 state2 : State) : List Op :=
  let end_ := configuration state2.x state2.y state2.theta 0
  ((List.range 4).flatMap fun n =>
    if n / 2 = 0 ∧ state1.kappa < 0 then []
    else if n / 2 = 1 ∧ state1.kappa > 0 then []
    else circles_ops (start_circle sp state1 (n / 2)) (end_circle sp end_ (n % 2))) ++
    (distance_calls sp state1 state2).flatMap Move.ops

end CCpm0

namespace CCpmpm

/-- `TiST_tangent_circles`, ccpmpm_dubins_state_space.cpp:142-183 (line 147). -/
def TiST_ops (P : CircleParam) (c1 c2 : Circle) : List Op :=
  let distance := center_distance c1 c2
  [.div distance, .asin (2 * P.radius * P.cos_mu / distance)]

/-- `TTT_tangent_circles`, ccpmpm_dubins_state_space.cpp:272-290 (line 278). -/
def TTT_ops (P : CircleParam) (m : Scratch) : List Op := [.sqrt ((2 * P.radius) ^ 2 - (0.5 * m.distance) ^ 2)]

/-- `TTTT_tangent_circles`, ccpmpm_dubins_state_space.cpp:358-392 (lines 367, 372). -/
def TTTT_ops (P : CircleParam) (m : Scratch) : List Op := [.sqrt ((2 * P.radius) ^ 2 - TTTT_delta_x P m ^ 2)]

open Classical in
/-- `ccpmpm_circles_dubins_path`, ccpmpm_dubins_state_space.cpp:499-540, without the turn functions. -/
def circles_ops (sp : HCSpace) (c1 c2 : Circle) : List Op :=
  let m := scratch c1 c2
  let P := sp.param
  if configuration_equal c1.start c2.start then []
  else if configuration_on_hc_cc_circle c1 c2.start then []
  else (if TiST_exists P m c1 c2 then TiST_ops P c1 c2 else []) ++ (if TTT_exists P m c1 c2 then TTT_ops P m else []) ++
    (if TTTT_exists P m c1 c2 then TTTT_ops P m else [])

open Classical in
/-- `ccpmpm_dubins`, ccpmpm_dubins_state_space.cpp:567-651, with the turn functions it calls. -/
def distance_ops (sp : HCSpace) (state1 state2 : State) : List Op :=
  ((List.range 4).flatMap fun n =>
    if n / 2 = 0 ∧ state1.kappa < 0 then []
    else if n / 2 = 1 ∧ state1.kappa > 0 then []
    else if n % 2 = 0 ∧ state2.kappa < 0 then []
    else if n % 2 = 1 ∧ state2.kappa > 0 then []
    else circles_ops sp (start_circle sp state1 (n / 2)) (end_circle sp state2 (n % 2))) ++
    (distance_calls sp state1 state2).flatMap Move.ops

end CCpmpm

/-! ### Hybrid-curvature Reeds-Shepp

As in `Model.HcReedsShepp`, radius and `mu` are those of `hc_cc_circle_param_`. -/

namespace HcRs

/-- `TiST_tangent_circles` at centre distance `distance`, hc00:425 / hc0pm:432 / hcpm0:432 / hcpmpm:441. -/
def TiST_ops (P : CircleParam) (distance : ℝ) : List Op := [.div distance, .asin (2 * P.radius * P.cos_mu / distance)]

/-- `TcTcT_tangent_circles`, hc00:189 / hc0pm:191 / hcpm0:191 / hcpmpm:192. -/
def TcTcT_ops (m : Scratch) (c1 : Circle) : List Op := [.sqrt ((2 * |c1.kappa_inv|) ^ 2 - (0.5 * m.distance) ^ 2)]

/-- `TcTT_tangent_circles`, hc00:261-262 / hc0pm:263-264 / hcpm0:263-264 / hcpmpm:265-266 (`r1 = 2 |kappa_inv|`, `r2 = 2 radius`), and
`TTcT_tangent_circles`, hc00:334-335 / hc0pm:342-343 / hcpm0:336-337 / hcpmpm:345-346 (`r1 = 2 radius`, `r2 = 2 |kappa_inv|`). -/
def triangle_ops (m : Scratch) (r1 r2 : ℝ) : List Op :=
  [.div (2 * m.distance), .sqrt (r1 ^ 2 - ((r1 ^ 2 + m.distance ^ 2 - r2 ^ 2) / (2 * m.distance)) ^ 2)]

/-- `TiSTcT_path`, hc00:569-576 / hc0pm:578-585 / hcpm0:579-586 / hcpmpm:590-597. -/
def TiSTcT_ops (P : CircleParam) (m : Scratch) (c1 c2 : Circle) : List Op :=
  let delta_y := 4 * P.radius * P.cos_mu / (|c2.kappa| * m.distance)
  let delta_x := √((2 * c2.kappa_inv) ^ 2 - delta_y ^ 2)
  let p := global_frame_change c2.xc c2.yc m.angle (-delta_x) delta_y
  let tgt1 := circleCentered p.1 p.2 (!c2.left) c2.forward c2.regular P
  [.div (|c2.kappa| * m.distance), .sqrt ((2 * c2.kappa_inv) ^ 2 - delta_y ^ 2)] ++ TiST_ops P (center_distance c1 tgt1)

/-- `TcTiST_path`, hc00:660-667 / hc0pm:670-677 / hcpm0:674-681 / hcpmpm:686-693. -/
def TcTiST_ops (P : CircleParam) (m : Scratch) (c1 c2 : Circle) : List Op :=
  let delta_y := 4 * P.radius * P.cos_mu / (|c2.kappa| * m.distance)
  let delta_x := √((2 * c2.kappa_inv) ^ 2 - delta_y ^ 2)
  let p := global_frame_change c1.xc c1.yc m.angle delta_x (-delta_y)
  let tgt1 := circleCentered p.1 p.2 (!c2.left) (!c2.forward) c2.regular P
  [.div (|c2.kappa| * m.distance), .sqrt ((2 * c2.kappa_inv) ^ 2 - delta_y ^ 2)] ++ TiST_ops P (center_distance tgt1 c2)

/-- `TcTiSTcT_path`, hc00:752-762 / hc0pm:766-776 / hcpm0:766-776 / hcpmpm:782-792. -/
def TcTiSTcT_ops (P : CircleParam) (m : Scratch) (c1 c2 : Circle) : List Op :=
  let delta_y := 4 * P.radius * P.cos_mu / (m.distance * |c1.kappa|)
  let delta_x := √((2 * c1.kappa_inv) ^ 2 - delta_y ^ 2)
  let p1 := global_frame_change c1.xc c1.yc m.angle delta_x delta_y
  let tgt1 := circleCentered p1.1 p1.2 (!c1.left) (!c1.forward) c1.regular P
  let p2 := global_frame_change c2.xc c2.yc m.angle (-delta_x) (-delta_y)
  let tgt2 := circleCentered p2.1 p2.2 (!c2.left) c2.forward c2.regular P
  [.div (m.distance * |c1.kappa|), .sqrt ((2 * c1.kappa_inv) ^ 2 - delta_y ^ 2)] ++ TiST_ops P (center_distance tgt1 tgt2)

open Classical in
/-- `TTcTT_tangent_circles`, hc00:836-846 / hc0pm:850-860 / hcpm0:850-860 / hcpmpm:866-876. -/
def TTcTT_ops (P : CircleParam) (m : Scratch) (c1 : Circle) : List Op :=
  let r1 := 2 * |c1.kappa_inv|
  let r2 := 2 * P.radius
  let delta_x := if m.distance < 4 * P.radius - 2 * |c1.kappa_inv| then (m.distance + r1) / 2 else (m.distance - r1) / 2
  [.sqrt (r2 ^ 2 - delta_x ^ 2)]

/-- `TcTTcT_tangent_circles`, hc00:937-938 / hc0pm:958-959 / hcpm0:959-960 / hcpmpm:979-980. -/
def TcTTcT_ops (P : CircleParam) (m : Scratch) (c1 : Circle) : List Op :=
  let r1 := 2 * |c1.kappa_inv|
  let r2 := P.radius
  [.div m.distance, .sqrt (r1 ^ 2 - ((r1 ^ 2 + (m.distance / 2) ^ 2 - r2 ^ 2) / m.distance) ^ 2)]

/-- `TTT_tangent_circles`, hc00:1033 / hc0pm:1053 / hcpm0:1054 / hcpmpm:1074. -/
def TTT_ops (P : CircleParam) (m : Scratch) : List Op := [.sqrt ((2 * P.radius) ^ 2 - (0.5 * m.distance) ^ 2)]

/-- `TciST_path` and `TiScT_path` (`b = |kappa_inv|`), `TceST_path` and `TeScT_path` (`b = -|kappa_inv|`): hc00:1120, 1166, 1258, 1304 /
hc0pm:1146, 1193, 1286, 1333 / hcpm0:1147, 1193, 1285, 1332 / hcpmpm:1175, 1222, 1317, 1364. -/
def cusp_line_ops (P : CircleParam) (m : Scratch) (b : ℝ) : List Op :=
  [.div m.distance, .asin ((P.radius * P.cos_mu + b) / m.distance)]

/-- `TciScT_path`, hc00:1396 / hc0pm:1425 / hcpm0:1425 / hcpmpm:1457. -/
def TciScT_ops (m : Scratch) (c1 : Circle) : List Op := [.div (|c1.kappa| * m.distance), .asin (2 / (|c1.kappa| * m.distance))]

open Classical in
/-- The `*_path` function of family `i`, without the turn functions.  In the `*_exists` functions of `TcTiSTcT` a square root is taken
which is not one of a sum of two squares, hc00:726 / hc0pm:740 / hcpm0:740 / hcpmpm:756. -/
def family_ops (sp : HCSpace) (m : Scratch) (c1 c2 : Circle) (i : ℕ) : List Op :=
  let P := sp.param
  let k := |c1.kappa_inv|
  match i with
  | hc_cc_rs.TcTcT => if TcTcT_exists m c1 c2 then TcTcT_ops m c1 else []
  | hc_cc_rs.TcTT => if TcTT_exists P m c1 c2 then triangle_ops m (2 * k) (2 * P.radius) else []
  | hc_cc_rs.TTcT => if TTcT_exists P m c1 c2 then triangle_ops m (2 * P.radius) (2 * k) else []
  | hc_cc_rs.TST => if TiST_exists P m c1 c2 then TiST_ops P (center_distance c1 c2) else []
  | hc_cc_rs.TSTcT => if TiSTcT_exists P m c1 c2 then TiSTcT_ops P m c1 c2 else []
  | hc_cc_rs.TcTST => if TcTiST_exists P m c1 c2 then TcTiST_ops P m c1 c2 else []
  | hc_cc_rs.TcTSTcT =>
    .sqrt ((2 * P.radius) ^ 2 + 16 * P.radius * P.sin_mu * k + (4 * c1.kappa_inv) ^ 2) ::
      if TcTiSTcT_exists P m c1 c2 then TcTiSTcT_ops P m c1 c2 else []
  | hc_cc_rs.TTcTT => if TTcTT_exists P m c1 c2 then TTcTT_ops P m c1 else []
  | hc_cc_rs.TcTTcT => if TcTTcT_exists P m c1 c2 then TcTTcT_ops P m c1 else []
  | hc_cc_rs.TTT => if TTT_exists P m c1 c2 then TTT_ops P m else []
  | hc_cc_rs.TcST =>
    if TciST_exists P m c1 c2 then cusp_line_ops P m k else if TceST_exists P m c1 c2 then cusp_line_ops P m (-k) else []
  | hc_cc_rs.TScT =>
    if TiScT_exists P m c1 c2 then cusp_line_ops P m k else if TeScT_exists P m c1 c2 then cusp_line_ops P m (-k) else []
  | hc_cc_rs.TcScT => if TciScT_exists m c1 c2 then TciScT_ops m c1 else []
  | _ => []

/-- The `*_circles_rs_path` functions, hc00:1528-1651 / hc0pm:1561-1675 / hcpm0:1561-1674 / hcpmpm:1595-1716, without the turn
functions. -/
def circles_ops (pm1 pm2 : Bool) (sp : HCSpace) (c1 c2 : Circle) : List Op :=
  let m := scratch c1 c2
  match shortcut pm1 pm2 sp m c1 c2 with
  | some _ => []
  | none => (List.range nb_hc_cc_rs_paths).flatMap (family_ops sp m c1 c2)

open Classical in
/-- `hc00_reeds_shepp` etc., hc00:1681-1752 / hc0pm:1702-1783 / hcpm0:1701-1781 / hcpmpm:1743-1829, with the turn functions it calls. -/
def distance_ops (pm1 pm2 : Bool) (sp : HCSpace) (state1 state2 : State) : List Op :=
  ((List.range 16).flatMap fun n =>
    if skip pm1 state1 (n / 4) ∨ skip pm2 state2 (n % 4) then []
    else circles_ops pm1 pm2 sp (end_circle pm1 sp state1 (n / 4)) (end_circle pm2 sp state2 (n % 4))) ++
    (distance_calls pm1 pm2 sp state1 state2).flatMap Move.ops

end HcRs

end SF
