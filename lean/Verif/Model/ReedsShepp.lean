import Verif.Model.Utilities

/-!
# Model of `src/reeds_shepp_state_space/reeds_shepp_state_space.cpp` (planner part)

The integration part of the same file is in `Verif/Model/Integrate.lean`.
Every `assert` is recorded in a separate predicate next to the function in which
it occurs.

A word function `bool f(x, y, phi, double &t, double &u, double &v)` becomes a function
that returns an `RSWord`: the returned truth value as the proposition `ok`, and the three
output parameters.  Where the C++ function leaves an output parameter unassigned, `ok` is
false, and no caller reads the output then (`&&` short-circuits).
-/

noncomputable section

namespace SF

open Real

/-- `enum Reeds_Shepp_Path_Segment_Type`, reeds_shepp_state_space.hpp:90-96. -/
inductive RSSeg
  | nop
  | left
  | straight
  | right
deriving DecidableEq

/-- `reeds_shepp_path_type`, reeds_shepp_state_space.cpp:493-512. -/
def reeds_shepp_path_type : ℕ → RSSeg × RSSeg × RSSeg × RSSeg × RSSeg
  | 0 => (.left, .right, .left, .nop, .nop)
  | 1 => (.right, .left, .right, .nop, .nop)
  | 2 => (.left, .right, .left, .right, .nop)
  | 3 => (.right, .left, .right, .left, .nop)
  | 4 => (.left, .right, .straight, .left, .nop)
  | 5 => (.right, .left, .straight, .right, .nop)
  | 6 => (.left, .straight, .right, .left, .nop)
  | 7 => (.right, .straight, .left, .right, .nop)
  | 8 => (.left, .right, .straight, .right, .nop)
  | 9 => (.right, .left, .straight, .left, .nop)
  | 10 => (.right, .straight, .right, .left, .nop)
  | 11 => (.left, .straight, .left, .right, .nop)
  | 12 => (.left, .straight, .right, .nop, .nop)
  | 13 => (.right, .straight, .left, .nop, .nop)
  | 14 => (.left, .straight, .left, .nop, .nop)
  | 15 => (.right, .straight, .right, .nop, .nop)
  | 16 => (.left, .right, .straight, .left, .right)
  | _ => (.right, .left, .straight, .right, .left)

/-- `class Reeds_Shepp_Path`, reeds_shepp_state_space.hpp:102-130.  The pointer `type_` into
the static table is modelled by the row it points to; `length_[0..4]` are `t u v w x`. -/
structure RSPath where
  type : RSSeg × RSSeg × RSSeg × RSSeg × RSSeg
  t : ℝ
  u : ℝ
  v : ℝ
  w : ℝ := 0
  x : ℝ := 0

/-- `Reeds_Shepp_Path::length`, reeds_shepp_state_space.hpp:110-113; `total_length_` is set by
the constructor, reeds_shepp_state_space.cpp:523. -/
def RSPath.length (p : RSPath) : ℝ := |p.t| + |p.u| + |p.v| + |p.w| + |p.x|

/-- The default constructed (`no path`) value, reeds_shepp_state_space.hpp:106-108. -/
def RSPath.default : RSPath := ⟨reeds_shepp_path_type 0, dblMax, 0, 0, 0, 0⟩

/-- `RS_EPS`, reeds_shepp_state_space.cpp:73. -/
def RS_EPS : ℝ := 1 / 10 ^ 6

/-- `RS_ZERO`, reeds_shepp_state_space.cpp:74: ten times the machine epsilon `2^-52`. -/
def RS_ZERO : ℝ := 10 * (1 / 2 ^ 52)

/-- Result of a word function: truth value and output parameters. -/
structure RSWord where
  ok : Prop
  t : ℝ
  u : ℝ
  v : ℝ

/-- `tau` of `tauOmega`, reeds_shepp_state_space.cpp:78-80. -/
def rsTau (u v xi eta : ℝ) : ℝ :=
  let delta := pify (u - v)
  let A := sin u - sin delta
  let B := cos u - cos delta - 1
  let t1 := atan2 (eta * A - xi * B) (xi * A + eta * B)
  let t2 := 2 * (cos delta - cos v - cos u) + 3
  if t2 < 0 then pify (t1 + π) else pify t1

/-- `omega` of `tauOmega`, reeds_shepp_state_space.cpp:81. -/
def rsOmega (u v xi eta phi : ℝ) : ℝ := pify (rsTau u v xi eta - u + v - phi)

/-- `LpSpLp`, reeds_shepp_state_space.cpp:85-100. -/
def LpSpLp (x y phi : ℝ) : RSWord :=
  let u := (polar (x - sin phi) (y - 1 + cos phi)).1
  let t := (polar (x - sin phi) (y - 1 + cos phi)).2
  let v := pify (phi - t)
  ⟨t ≥ -RS_ZERO ∧ v ≥ -RS_ZERO, t, u, v⟩

/-- Assertions of `LpSpLp`, reeds_shepp_state_space.cpp:93-95 (reached only if `ok`). -/
def assertsLpSpLp (x y phi t u v : ℝ) : Prop :=
  |u * cos t + sin phi - x| < RS_EPS ∧ |u * sin t - cos phi + 1 - y| < RS_EPS ∧
  |pify (t + v - phi)| < RS_EPS

/-- `LpSpRp`, reeds_shepp_state_space.cpp:102-120. -/
def LpSpRp (x y phi : ℝ) : RSWord :=
  let u0 := (polar (x + sin phi) (y - 1 - cos phi)).1
  let t1 := (polar (x + sin phi) (y - 1 - cos phi)).2
  let u1 := u0 * u0
  let u := √(u1 - 4)
  let theta := atan2 2 u
  let t := pify (t1 + theta)
  let v := pify (t - phi)
  ⟨u1 ≥ 4 ∧ t ≥ -RS_ZERO ∧ v ≥ -RS_ZERO, t, u, v⟩

/-- Condition under which lines 109-117 of `LpSpRp` are executed,
reeds_shepp_state_space.cpp:107. -/
def reachedLpSpRp (x y phi : ℝ) : Prop :=
  (polar (x + sin phi) (y - 1 - cos phi)).1 * (polar (x + sin phi) (y - 1 - cos phi)).1 ≥ 4

/-- Assertions of `LpSpRp`, reeds_shepp_state_space.cpp:114-116. -/
def assertsLpSpRp (x y phi t u v : ℝ) : Prop :=
  |2 * sin t + u * cos t - sin phi - x| < RS_EPS ∧
  |-2 * cos t + u * sin t + cos phi + 1 - y| < RS_EPS ∧
  |pify (t - v - phi)| < RS_EPS

/-- `LpRmL`, reeds_shepp_state_space.cpp:163-178. -/
def LpRmL (x y phi : ℝ) : RSWord :=
  let xi := x - sin phi
  let eta := y - 1 + cos phi
  let u1 := (polar xi eta).1
  let theta := (polar xi eta).2
  let u := -2 * arcsin (0.25 * u1)
  let t := pify (theta + 0.5 * u + π)
  let v := pify (phi - t + u)
  ⟨u1 ≤ 4 ∧ t ≥ -RS_ZERO ∧ u ≤ RS_ZERO, t, u, v⟩

/-- Condition under which lines 169-175 of `LpRmL` are executed,
reeds_shepp_state_space.cpp:167. -/
def reachedLpRmL (x y phi : ℝ) : Prop := (polar (x - sin phi) (y - 1 + cos phi)).1 ≤ 4

/-- Assertions of `LpRmL`, reeds_shepp_state_space.cpp:172-174. -/
def assertsLpRmL (x y phi t u v : ℝ) : Prop :=
  |2 * (sin t - sin (t - u)) + sin phi - x| < RS_EPS ∧
  |2 * (-cos t + cos (t - u)) - cos phi + 1 - y| < RS_EPS ∧
  |pify (t - u + v - phi)| < RS_EPS

/-- `LpRupLumRm`, reeds_shepp_state_space.cpp:224-237. -/
def LpRupLumRm (x y phi : ℝ) : RSWord :=
  let xi := x + sin phi
  let eta := y - 1 - cos phi
  let rho := 0.25 * (2 + √(xi * xi + eta * eta))
  let u := arccos rho
  let t := rsTau u (-u) xi eta
  let v := rsOmega u (-u) xi eta phi
  ⟨rho ≤ 1 ∧ t ≥ -RS_ZERO ∧ v ≤ RS_ZERO, t, u, v⟩

/-- `rho` of `LpRupLumRm`, reeds_shepp_state_space.cpp:226; lines 229-234 are executed if
it is at most 1. -/
def rhoLpRupLumRm (x y phi : ℝ) : ℝ :=
  0.25 * (2 + √((x + sin phi) * (x + sin phi) + (y - 1 - cos phi) * (y - 1 - cos phi)))

/-- Assertions of `LpRupLumRm`, reeds_shepp_state_space.cpp:231-233. -/
def assertsLpRupLumRm (x y phi t u v : ℝ) : Prop :=
  |2 * (sin t - sin (t - u) + sin (t - 2 * u)) - sin phi - x| < RS_EPS ∧
  |2 * (-cos t + cos (t - u) - cos (t - 2 * u)) + cos phi + 1 - y| < RS_EPS ∧
  |pify (t - 2 * u - v - phi)| < RS_EPS

/-- `LpRumLumRp`, reeds_shepp_state_space.cpp:239-255. -/
def LpRumLumRp (x y phi : ℝ) : RSWord :=
  let xi := x + sin phi
  let eta := y - 1 - cos phi
  let rho := (20 - xi * xi - eta * eta) / 16
  let u := -arccos rho
  let t := rsTau u u xi eta
  let v := rsOmega u u xi eta phi
  ⟨(rho ≥ 0 ∧ rho ≤ 1) ∧ u ≥ -0.5 * π ∧ t ≥ -RS_ZERO ∧ v ≥ -RS_ZERO, t, u, v⟩

/-- `rho` of `LpRumLumRp`, reeds_shepp_state_space.cpp:241; lines 244-251 are executed if it
is in `[0, 1]` (and `u ≥ -pi/2`). -/
def rhoLpRumLumRp (x y phi : ℝ) : ℝ :=
  (20 - (x + sin phi) * (x + sin phi) - (y - 1 - cos phi) * (y - 1 - cos phi)) / 16

/-- Assertions of `LpRumLumRp`, reeds_shepp_state_space.cpp:248-250. -/
def assertsLpRumLumRp (x y phi t u v : ℝ) : Prop :=
  |4 * sin t - 2 * sin (t - u) - sin phi - x| < RS_EPS ∧
  |-4 * cos t + 2 * cos (t - u) + cos phi + 1 - y| < RS_EPS ∧
  |pify (t - v - phi)| < RS_EPS

/-- `LpRmSmLm`, reeds_shepp_state_space.cpp:299-315. -/
def LpRmSmLm (x y phi : ℝ) : RSWord :=
  let xi := x - sin phi
  let eta := y - 1 + cos phi
  let rho := (polar xi eta).1
  let theta := (polar xi eta).2
  let r := √(rho * rho - 4)
  let u := 2 - r
  let t := pify (theta + atan2 r (-2))
  let v := pify (phi - 0.5 * π - t)
  ⟨rho ≥ 2 ∧ t ≥ -RS_ZERO ∧ u ≤ RS_ZERO ∧ v ≤ RS_ZERO, t, u, v⟩

/-- Condition under which lines 305-312 of `LpRmSmLm` are executed,
reeds_shepp_state_space.cpp:303. -/
def reachedLpRmSmLm (x y phi : ℝ) : Prop := (polar (x - sin phi) (y - 1 + cos phi)).1 ≥ 2

/-- Assertions of `LpRmSmLm`, reeds_shepp_state_space.cpp:309-311. -/
def assertsLpRmSmLm (x y phi t u v : ℝ) : Prop :=
  |2 * (sin t - cos t) - u * sin t + sin phi - x| < RS_EPS ∧
  |-2 * (sin t + cos t) + u * cos t - cos phi + 1 - y| < RS_EPS ∧
  |pify (t + π / 2 + v - phi)| < RS_EPS

/-- `LpRmSmRm`, reeds_shepp_state_space.cpp:317-332. -/
def LpRmSmRm (x y phi : ℝ) : RSWord :=
  let xi := x + sin phi
  let eta := y - 1 - cos phi
  let rho := (polar (-eta) xi).1
  let theta := (polar (-eta) xi).2
  let t := theta
  let u := 2 - rho
  let v := pify (t + 0.5 * π - phi)
  ⟨rho ≥ 2 ∧ t ≥ -RS_ZERO ∧ u ≤ RS_ZERO ∧ v ≤ RS_ZERO, t, u, v⟩

/-- Condition under which lines 323-329 of `LpRmSmRm` are executed,
reeds_shepp_state_space.cpp:321. -/
def reachedLpRmSmRm (x y phi : ℝ) : Prop := (polar (-(y - 1 - cos phi)) (x + sin phi)).1 ≥ 2

/-- Assertions of `LpRmSmRm`, reeds_shepp_state_space.cpp:326-328. -/
def assertsLpRmSmRm (x y phi t u v : ℝ) : Prop :=
  |2 * sin t - cos (t - v) - u * sin t - x| < RS_EPS ∧
  |-2 * cos t - sin (t - v) + u * cos t + 1 - y| < RS_EPS ∧
  |pify (t + π / 2 - v - phi)| < RS_EPS

/-- `LpRmSLmRp`, reeds_shepp_state_space.cpp:436-454. -/
def LpRmSLmRp (x y phi : ℝ) : RSWord :=
  let xi := x + sin phi
  let eta := y - 1 - cos phi
  let rho := (polar xi eta).1
  let u := 4 - √(rho * rho - 4)
  let t := pify (atan2 ((4 - u) * xi - 2 * eta) (-2 * xi + (u - 4) * eta))
  let v := pify (t - phi)
  ⟨rho ≥ 2 ∧ u ≤ RS_ZERO ∧ t ≥ -RS_ZERO ∧ v ≥ -RS_ZERO, t, u, v⟩

/-- Condition under which lines 445-450 of `LpRmSLmRp` are executed (the second test,
`u <= RS_ZERO`, is dropped: the assertions hold without it), reeds_shepp_state_space.cpp:440. -/
def reachedLpRmSLmRp (x y phi : ℝ) : Prop := (polar (x + sin phi) (y - 1 - cos phi)).1 ≥ 2

/-- Assertions of `LpRmSLmRp`, reeds_shepp_state_space.cpp:447-449. -/
def assertsLpRmSLmRp (x y phi t u v : ℝ) : Prop :=
  |4 * sin t - 2 * cos t - u * sin t - sin phi - x| < RS_EPS ∧
  |-4 * cos t - 2 * sin t + u * cos t + cos phi + 1 - y| < RS_EPS ∧
  |pify (t - v - phi)| < RS_EPS

/-- One `if (word(..) && Lmin > (L = ..)) { path = ..; Lmin = L; }` statement: the truth value
of the word function, `L`, and the path assigned. -/
structure RSCand where
  ok : Prop
  L : ℝ
  path : RSPath

open Classical in
/-- Execution of such a statement on the pair `(path, Lmin)`.  (In the last statement of each
family the code does not update `Lmin`, which is dead by then.) -/
def rsTry (st : RSPath × ℝ) (c : RSCand) : RSPath × ℝ :=
  if c.ok ∧ st.2 > c.L then (c.path, c.L) else st

/-- `xb` of the `backwards` blocks, reeds_shepp_state_space.cpp:204, 387. -/
def rsXb (x y phi : ℝ) : ℝ := x * cos phi + y * sin phi

/-- `yb` of the `backwards` blocks, reeds_shepp_state_space.cpp:204, 387. -/
def rsYb (x y phi : ℝ) : ℝ := x * sin phi - y * cos phi

/-- Candidate with `L = |t| + |u| + |v|` and path lengths `(s t, s u, s v)`. -/
def cand3 (w : RSWord) (ty : ℕ) (s : ℝ) : RSCand :=
  ⟨w.ok, |w.t| + |w.u| + |w.v|, ⟨reeds_shepp_path_type ty, s * w.t, s * w.u, s * w.v, 0, 0⟩⟩

/-- Candidate with `L = |t| + |u| + |v|` and path lengths `(s v, s u, s t)`. -/
def cand3b (w : RSWord) (ty : ℕ) (s : ℝ) : RSCand :=
  ⟨w.ok, |w.t| + |w.u| + |w.v|, ⟨reeds_shepp_path_type ty, s * w.v, s * w.u, s * w.t, 0, 0⟩⟩

/-- The statements of `CSC`, reeds_shepp_state_space.cpp:124-160. -/
def candsCSC (x y phi : ℝ) : List RSCand :=
  [cand3 (LpSpLp x y phi) 14 1,
   cand3 (LpSpLp (-x) y (-phi)) 14 (-1),
   cand3 (LpSpLp x (-y) (-phi)) 15 1,
   cand3 (LpSpLp (-x) (-y) phi) 15 (-1),
   cand3 (LpSpRp x y phi) 12 1,
   cand3 (LpSpRp (-x) y (-phi)) 12 (-1),
   cand3 (LpSpRp x (-y) (-phi)) 13 1,
   cand3 (LpSpRp (-x) (-y) phi) 13 (-1)]

/-- `CSC`, reeds_shepp_state_space.cpp:121-161. -/
def rsCSC (x y phi : ℝ) (path : RSPath) : RSPath :=
  ((candsCSC x y phi).foldl rsTry (path, path.length)).1

/-- The statements of `CCC`, reeds_shepp_state_space.cpp:182-221. -/
def candsCCC (x y phi : ℝ) : List RSCand :=
  let xb := rsXb x y phi
  let yb := rsYb x y phi
  [cand3 (LpRmL x y phi) 0 1,
   cand3 (LpRmL (-x) y (-phi)) 0 (-1),
   cand3 (LpRmL x (-y) (-phi)) 1 1,
   cand3 (LpRmL (-x) (-y) phi) 1 (-1),
   cand3b (LpRmL xb yb phi) 0 1,
   cand3b (LpRmL (-xb) yb (-phi)) 0 (-1),
   cand3b (LpRmL xb (-yb) (-phi)) 1 1,
   cand3b (LpRmL (-xb) (-yb) phi) 1 (-1)]

/-- `CCC`, reeds_shepp_state_space.cpp:179-222. -/
def rsCCC (x y phi : ℝ) (path : RSPath) : RSPath :=
  ((candsCCC x y phi).foldl rsTry (path, path.length)).1

/-- Candidate of `CCCC` with `L = |t| + 2 |u| + |v|` and lengths `(s t, s u, -s u, s v)`,
first block. -/
def cand4p (w : RSWord) (ty : ℕ) (s : ℝ) : RSCand :=
  ⟨w.ok, |w.t| + 2 * |w.u| + |w.v|,
    ⟨reeds_shepp_path_type ty, s * w.t, s * w.u, -(s * w.u), s * w.v, 0⟩⟩

/-- Candidate of `CCCC` with `L = |t| + 2 |u| + |v|` and lengths `(s t, s u, s u, s v)`,
second block. -/
def cand4m (w : RSWord) (ty : ℕ) (s : ℝ) : RSCand :=
  ⟨w.ok, |w.t| + 2 * |w.u| + |w.v|,
    ⟨reeds_shepp_path_type ty, s * w.t, s * w.u, s * w.u, s * w.v, 0⟩⟩

/-- The statements of `CCCC`, reeds_shepp_state_space.cpp:259-296. -/
def candsCCCC (x y phi : ℝ) : List RSCand :=
  [cand4p (LpRupLumRm x y phi) 2 1,
   cand4p (LpRupLumRm (-x) y (-phi)) 2 (-1),
   cand4p (LpRupLumRm x (-y) (-phi)) 3 1,
   cand4p (LpRupLumRm (-x) (-y) phi) 3 (-1),
   cand4m (LpRumLumRp x y phi) 2 1,
   cand4m (LpRumLumRp (-x) y (-phi)) 2 (-1),
   cand4m (LpRumLumRp x (-y) (-phi)) 3 1,
   cand4m (LpRumLumRp (-x) (-y) phi) 3 (-1)]

/-- `CCCC`, reeds_shepp_state_space.cpp:256-297. -/
def rsCCCC (x y phi : ℝ) (path : RSPath) : RSPath :=
  ((candsCCCC x y phi).foldl rsTry (path, path.length)).1

/-- Candidate of `CCSC` with `L = |t| + |u| + |v|` and lengths `(s t, -s pi/2, s u, s v)`. -/
def cand4h (w : RSWord) (ty : ℕ) (s : ℝ) : RSCand :=
  ⟨w.ok, |w.t| + |w.u| + |w.v|,
    ⟨reeds_shepp_path_type ty, s * w.t, -(s * (0.5 * π)), s * w.u, s * w.v, 0⟩⟩

/-- Candidate of `CCSC`, backwards block, with lengths `(s v, s u, -s pi/2, s t)`. -/
def cand4hb (w : RSWord) (ty : ℕ) (s : ℝ) : RSCand :=
  ⟨w.ok, |w.t| + |w.u| + |w.v|,
    ⟨reeds_shepp_path_type ty, s * w.v, s * w.u, -(s * (0.5 * π)), s * w.t, 0⟩⟩

/-- The statements of `CCSC`, reeds_shepp_state_space.cpp:336-433. -/
def candsCCSC (x y phi : ℝ) : List RSCand :=
  let xb := rsXb x y phi
  let yb := rsYb x y phi
  [cand4h (LpRmSmLm x y phi) 4 1,
   cand4h (LpRmSmLm (-x) y (-phi)) 4 (-1),
   cand4h (LpRmSmLm x (-y) (-phi)) 5 1,
   cand4h (LpRmSmLm (-x) (-y) phi) 5 (-1),
   cand4h (LpRmSmRm x y phi) 8 1,
   cand4h (LpRmSmRm (-x) y (-phi)) 8 (-1),
   cand4h (LpRmSmRm x (-y) (-phi)) 9 1,
   cand4h (LpRmSmRm (-x) (-y) phi) 9 (-1),
   cand4hb (LpRmSmLm xb yb phi) 6 1,
   cand4hb (LpRmSmLm (-xb) yb (-phi)) 6 (-1),
   cand4hb (LpRmSmLm xb (-yb) (-phi)) 7 1,
   cand4hb (LpRmSmLm (-xb) (-yb) phi) 7 (-1),
   cand4hb (LpRmSmRm xb yb phi) 10 1,
   cand4hb (LpRmSmRm (-xb) yb (-phi)) 10 (-1),
   cand4hb (LpRmSmRm xb (-yb) (-phi)) 11 1,
   cand4hb (LpRmSmRm (-xb) (-yb) phi) 11 (-1)]

/-- `CCSC`, reeds_shepp_state_space.cpp:333-434; note `Lmin = path.length() - .5 * PI`. -/
def rsCCSC (x y phi : ℝ) (path : RSPath) : RSPath :=
  ((candsCCSC x y phi).foldl rsTry (path, path.length - 0.5 * π)).1

/-- Candidate of `CCSCC` with lengths `(s t, -s pi/2, s u, -s pi/2, s v)`. -/
def cand5 (w : RSWord) (ty : ℕ) (s : ℝ) : RSCand :=
  ⟨w.ok, |w.t| + |w.u| + |w.v|,
    ⟨reeds_shepp_path_type ty, s * w.t, -(s * (0.5 * π)), s * w.u, -(s * (0.5 * π)), s * w.v⟩⟩

/-- The statements of `CCSCC`, reeds_shepp_state_space.cpp:458-478. -/
def candsCCSCC (x y phi : ℝ) : List RSCand :=
  [cand5 (LpRmSLmRp x y phi) 16 1,
   cand5 (LpRmSLmRp (-x) y (-phi)) 16 (-1),
   cand5 (LpRmSLmRp x (-y) (-phi)) 17 1,
   cand5 (LpRmSLmRp (-x) (-y) phi) 17 (-1)]

/-- `CCSCC`, reeds_shepp_state_space.cpp:455-479; note `Lmin = path.length() - PI`. -/
def rsCCSCC (x y phi : ℝ) (path : RSPath) : RSPath :=
  ((candsCCSCC x y phi).foldl rsTry (path, path.length - π)).1

/-- `reeds_shepp` (helper), reeds_shepp_state_space.cpp:481-490. -/
def reeds_shepp (x y phi : ℝ) : RSPath :=
  let path := RSPath.default
  let path := rsCSC x y phi path
  let path := rsCCC x y phi path
  let path := rsCCCC x y phi path
  let path := rsCCSC x y phi path
  rsCCSCC x y phi path

/-- Members of `Reeds_Shepp_State_Space` used by the planner,
reeds_shepp_state_space.hpp:133-137. -/
structure RSSpace where
  kappa : ℝ
  discretization : ℝ

/-- `kappa_inv_`, reeds_shepp_state_space.hpp:136. -/
def RSSpace.kappa_inv (sp : RSSpace) : ℝ := 1 / sp.kappa

/-- Assertion of the constructor, reeds_shepp_state_space.hpp:135. -/
def RSSpace.Valid (sp : RSSpace) : Prop := 0 < sp.kappa ∧ 0 < sp.discretization

/-- The goal in the frame of the start, in units of the turning radius, as computed by
`Reeds_Shepp_State_Space::reeds_shepp`, reeds_shepp_state_space.cpp:529-532. -/
def RSSpace.params (sp : RSSpace) (s1 s2 : State) : ℝ × ℝ × ℝ :=
  let dx := s2.x - s1.x
  let dy := s2.y - s1.y
  let dth := s2.theta - s1.theta
  let c := cos s1.theta
  let s := sin s1.theta
  let x := c * dx + s * dy
  let y := -s * dx + c * dy
  (x * sp.kappa, y * sp.kappa, dth)

/-- `Reeds_Shepp_State_Space::reeds_shepp`, reeds_shepp_state_space.cpp:526-533. -/
def RSSpace.reeds_shepp (sp : RSSpace) (s1 s2 : State) : RSPath :=
  SF.reeds_shepp (sp.params s1 s2).1 (sp.params s1 s2).2.1 (sp.params s1 s2).2.2

/-- `Reeds_Shepp_State_Space::get_distance`, reeds_shepp_state_space.cpp:542-545. -/
def RSSpace.get_distance (sp : RSSpace) (s1 s2 : State) : ℝ :=
  sp.kappa_inv * (sp.reeds_shepp s1 s2).length

/-- The loop of `get_controls`, reeds_shepp_state_space.cpp:552-577: stops at `RS_NOP`. -/
def RSSpace.loop (sp : RSSpace) : List (RSSeg × ℝ) → List Control
  | [] => []
  | (.nop, _) :: _ => []
  | (.left, l) :: r => ⟨sp.kappa_inv * l, sp.kappa, 0⟩ :: sp.loop r
  | (.right, l) :: r => ⟨sp.kappa_inv * l, -sp.kappa, 0⟩ :: sp.loop r
  | (.straight, l) :: r => ⟨sp.kappa_inv * l, 0, 0⟩ :: sp.loop r

/-- The pairs `(type_[i], length_[i])` read by the loop of `get_controls`. -/
def RSPath.segs (p : RSPath) : List (RSSeg × ℝ) :=
  [(p.type.1, p.t), (p.type.2.1, p.u), (p.type.2.2.1, p.v), (p.type.2.2.2.1, p.w),
   (p.type.2.2.2.2, p.x)]

/-- `Reeds_Shepp_State_Space::get_controls`, reeds_shepp_state_space.cpp:547-578. -/
def RSSpace.get_controls (sp : RSSpace) (s1 s2 : State) : List Control :=
  sp.loop (sp.reeds_shepp s1 s2).segs

end SF
