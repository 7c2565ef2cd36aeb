import Mathlib.Analysis.SpecialFunctions.Complex.Arg
import Mathlib.Analysis.SpecialFunctions.Trigonometric.Basic
import Mathlib.Analysis.SpecialFunctions.Trigonometric.Inverse
import Mathlib.Analysis.SpecialFunctions.Trigonometric.Arctan
import Mathlib.Analysis.Real.Sqrt
import Mathlib.Algebra.Order.Round

/-!
# Model of `src/utilities/utilities.cpp`

`double` is modelled by `ℝ`; see DESIGN.md, section 1.
-/

noncomputable section

namespace SF

open Real

/-- `struct State`, include/steering_functions/steering_functions.hpp:27-43. -/
@[ext] structure State where
  x : ℝ
  y : ℝ
  theta : ℝ
  kappa : ℝ
  d : ℝ

/-- `struct Control`, include/steering_functions/steering_functions.hpp:64-75. -/
@[ext] structure Control where
  delta_s : ℝ
  kappa : ℝ
  sigma : ℝ

/-- C library `atan2`: modelled by `Complex.arg`, so the range is `(-π, π]` and
`atan2 0 0 = 0`.  (Simplification: signed zeros are not modelled.) -/
def atan2 (y x : ℝ) : ℝ := Complex.arg ⟨x, y⟩

/-- Truncation towards zero, used by `fmod`. -/
def truncZ (x : ℝ) : ℤ := if 0 ≤ x then ⌊x⌋ else ⌈x⌉

/-- C library `fmod`: `x - y * trunc (x / y)`. Guard: `y ≠ 0`. -/
def fmod (x y : ℝ) : ℝ := x - y * (truncZ (x / y) : ℝ)

/-- `numeric_limits<double>::max()` of IEEE 754 binary64. -/
def dblMax : ℝ := (2 - 2⁻¹ ^ 52) * 2 ^ 1023

/-- `epsilon` / `get_epsilon`, include/steering_functions/utilities/utilities.hpp:41,
src/utilities/utilities.cpp:33-36. -/
def epsilon : ℝ := 1 / 10000

/-- `sgn`, src/utilities/utilities.cpp:38-41. -/
def sgn (x : ℝ) : ℝ := if x < 0 then -1 else 1

/-- `point_distance`, src/utilities/utilities.cpp:43-46. -/
def point_distance (x1 y1 x2 y2 : ℝ) : ℝ := √((x2 - x1) ^ 2 + (y2 - y1) ^ 2)

/-- `polar`, src/utilities/utilities.cpp:48-52; result `(r, theta)`. -/
def polar (x y : ℝ) : ℝ × ℝ := (√(x * x + y * y), atan2 y x)

/-- `twopify`, src/utilities/utilities.cpp:54-57. -/
def twopify (alpha : ℝ) : ℝ := alpha - 2 * π * (⌊alpha / (2 * π)⌋ : ℝ)

/-- `pify`, src/utilities/utilities.cpp:59-67. -/
def pify (alpha : ℝ) : ℝ :=
  let v := fmod alpha (2 * π)
  if v < -π then v + 2 * π
  else if v > π then v - 2 * π
  else v

/-- `chebev_a`, include/steering_functions/utilities/fresnel.data. -/
def chebev_a : List ℚ :=
  [0.76435138664186000189, -0.43135547547660179313, 0.43288199979726653054,
   -0.26973310338387111029, 0.08416045320876935378, -0.01546524484461381958,
   0.00187855423439822018, -0.00016264977618887547, 0.00001057397656383260,
   -0.00000053609339889243, 0.00000002181658454933, -0.00000000072901621186,
   0.00000000002037332548, -0.00000000000048344033, 0.00000000000000986533,
   -0.00000000000000017502, 0.00000000000000000272, -0.00000000000000000004]

/-- `chebev_b`, include/steering_functions/utilities/fresnel.data. -/
def chebev_b : List ℚ :=
  [0.63041404314570539241, -0.42344511405705333544, 0.37617172643343656625,
   -0.16249489154509567415, 0.03822255778633008694, -0.00564563477132190899,
   0.00057454951976897367, -0.00004287071532102004, 0.00000245120749923299,
   -0.00000011098841840868, 0.00000000408249731696, -0.00000000012449830219,
   0.00000000000320048425, -0.00000000000007032416, 0.00000000000000133638,
   -0.00000000000000002219, 0.00000000000000000032]

/-- `chebev_e`, include/steering_functions/utilities/fresnel.data. -/
def chebev_e : List ℚ :=
  [0.97462779093296822410, -0.02424701873969321371, 0.00103400906842977317, -0.00008052450246908016,
   0.00000905962481966582, -0.00000131016996757743, 0.00000022770820391497, -0.00000004558623552026,
   0.00000001021567537083, -0.00000000251114508133, 0.00000000066704761275, -0.00000000018931512852,
   0.00000000005689898935, -0.00000000001798219359, 0.00000000000594162963, -0.00000000000204285065,
   0.00000000000072797580, -0.00000000000026797428, 0.00000000000010160694, -0.00000000000003958559,
   0.00000000000001581262, -0.00000000000000646411, 0.00000000000000269981, -0.00000000000000115038,
   0.00000000000000049942, -0.00000000000000022064, 0.00000000000000009910, -0.00000000000000004520,
   0.00000000000000002092, -0.00000000000000000982, 0.00000000000000000467, -0.00000000000000000225,
   0.00000000000000000110, -0.00000000000000000054, 0.00000000000000000027, -0.00000000000000000014,
   0.00000000000000000007, -0.00000000000000000004, 0.00000000000000000002, -0.00000000000000000001,
   0.00000000000000000001]

/-- `chebev_f`, include/steering_functions/utilities/fresnel.data. -/
def chebev_f : List ℚ :=
  [0.99461545179407928910, -0.00524276766084297210, 0.00013325864229883909, -0.00000770856452642713,
   0.00000070848077032045, -0.00000008812517411602, 0.00000001359784717148, -0.00000000246858295747,
   0.00000000050925789921, -0.00000000011653400634, 0.00000000002906578309, -0.00000000000779847361,
   0.00000000000222802542, -0.00000000000067239338, 0.00000000000021296411, -0.00000000000007041482,
   0.00000000000002419805, -0.00000000000000861080, 0.00000000000000316287, -0.00000000000000119596,
   0.00000000000000046444, -0.00000000000000018485, 0.00000000000000007527, -0.00000000000000003131,
   0.00000000000000001328, -0.00000000000000000574, 0.00000000000000000252, -0.00000000000000000113,
   0.00000000000000000051, -0.00000000000000000024, 0.00000000000000000011, -0.00000000000000000005,
   0.00000000000000000002, -0.00000000000000000001, 0.00000000000000000001]

/-- Array access `tab[n]` into a coefficient table (all accesses made by the
code are in range; out of range the model returns 0). -/
def tab (l : List ℚ) (n : ℕ) : ℝ := ((l.getD n 0 : ℚ) : ℝ)

/-- Loop variables of `fresnel_0_8`. -/
structure Cheb08 where
  A : ℝ
  B : ℝ
  m4 : ℝ
  m2 : ℝ
  m1 : ℝ

/-- Body of the `for` loop of `fresnel_0_8`, src/utilities/utilities.cpp:86-95. -/
def step08 (arg quarter_x : ℝ) (st : Cheb08) (n : ℕ) : Cheb08 :=
  let T2n := 2 * arg * st.m2 - st.m4
  let T2n_p1 := quarter_x * T2n - st.m1
  { A := st.A + tab chebev_a n * T2n
    B := st.B + tab chebev_b n * T2n_p1
    m4 := st.m2
    m2 := T2n
    m1 := T2n_p1 }

/-- State of `fresnel_0_8` on entry of the loop, src/utilities/utilities.cpp:74-85. -/
def init08 (x : ℝ) : Cheb08 :=
  let quarter_x := 0.25 * x
  let arg := 0.03125 * x * x - 1
  let T0 : ℝ := 1
  let T1 := 0.125 * x
  let T2 := arg
  let T3 := quarter_x * T2 - T1
  { A := tab chebev_a 0 * T0 + tab chebev_a 1 * T2
    B := tab chebev_b 0 * T1 + tab chebev_b 1 * T3
    m4 := T0, m2 := T2, m1 := T3 }

/-- The two Chebyshev sums `(A, B)` of `fresnel_0_8`, src/utilities/utilities.cpp:74-97. -/
def sums08 (x : ℝ) : ℝ × ℝ :=
  let arg := 0.03125 * x * x - 1
  let st := (List.range' 2 15).foldl (step08 arg (0.25 * x)) (init08 x)
  let T34 := 2 * arg * st.m2 - st.m4
  (st.A + tab chebev_a 17 * T34, st.B)

/-- `fresnel_0_8`, src/utilities/utilities.cpp:70-102; result `(S_f, C_f)`. -/
def fresnel_0_8 (x : ℝ) : ℝ × ℝ :=
  let AB := sums08 x
  let sqrt_x := √x
  (1 / √(2 * π) * sqrt_x * AB.2, 1 / √(2 * π) * sqrt_x * AB.1)

/-- Loop variables of `fresnel_8_inf`. -/
structure Cheb8i where
  E : ℝ
  F : ℝ
  m4 : ℝ
  m2 : ℝ

/-- Body of the first loop of `fresnel_8_inf`, src/utilities/utilities.cpp:114-121. -/
def step8i (arg : ℝ) (st : Cheb8i) (n : ℕ) : Cheb8i :=
  let T2n := 2 * arg * st.m2 - st.m4
  { E := st.E + tab chebev_e n * T2n
    F := st.F + tab chebev_f n * T2n
    m4 := st.m2
    m2 := T2n }

/-- Body of the second loop of `fresnel_8_inf`, src/utilities/utilities.cpp:122-128. -/
def step8i' (arg : ℝ) (st : Cheb8i) (n : ℕ) : Cheb8i :=
  let T2n := 2 * arg * st.m2 - st.m4
  { E := st.E + tab chebev_e n * T2n
    F := st.F
    m4 := st.m2
    m2 := T2n }

/-- The two Chebyshev sums `(E, F)` of `fresnel_8_inf` as functions of the local
variable `arg`, src/utilities/utilities.cpp:107-128. -/
def sums8i (arg : ℝ) : ℝ × ℝ :=
  let init : Cheb8i :=
    { E := tab chebev_e 0 * 1 + tab chebev_e 1 * arg
      F := tab chebev_f 0 * 1 + tab chebev_f 1 * arg
      m4 := 1, m2 := arg }
  let st1 := (List.range' 2 33).foldl (step8i arg) init
  let st2 := (List.range' 35 6).foldl (step8i' arg) st1
  (st2.E, st2.F)

/-- `fresnel_8_inf`, src/utilities/utilities.cpp:104-136; result `(S_f, C_f)`. Guard: `x > 0`. -/
def fresnel_8_inf (x : ℝ) : ℝ × ℝ :=
  let arg := 128 / (x * x) - 1
  let EF := sums8i arg
  let sin_x := sin x
  let cos_x := cos x
  let sqrt_x := √x
  (0.5 - 1 / √(2 * π) * (EF.1 * sin_x / (2 * x) + EF.2 * cos_x) / sqrt_x,
   0.5 - 1 / √(2 * π) * (EF.1 * cos_x / (2 * x) - EF.2 * sin_x) / sqrt_x)

/-- `fresnel`, src/utilities/utilities.cpp:138-151; result `(S_f, C_f)`. -/
def fresnel (s : ℝ) : ℝ × ℝ :=
  let x := π / 2 * s * s
  let SC := if x ≤ 8 then fresnel_0_8 x else fresnel_8_inf x
  if s < 0 then (-SC.1, -SC.2) else SC

/-- Result of `end_of_clothoid`. -/
@[ext] structure ClothoidEnd where
  x : ℝ
  y : ℝ
  theta : ℝ
  kappa : ℝ

/-- `end_of_clothoid`, src/utilities/utilities.cpp:153-183. Guard: `sigma ≠ 0`. -/
def end_of_clothoid (x_i y_i theta_i kappa_i sigma direction length : ℝ) : ClothoidEnd :=
  let sgn_sigma := sgn sigma
  let abs_sigma := |sigma|
  let sqrt_sigma_inv := 1 / √abs_sigma
  let k1 := theta_i - 0.5 * direction * kappa_i * kappa_i / sigma
  let k2 := 1 / √π * sqrt_sigma_inv * (abs_sigma * length + sgn_sigma * kappa_i)
  let k3 := 1 / √π * sqrt_sigma_inv * sgn_sigma * kappa_i
  let cos_k1 := cos k1
  let sin_k1 := sin k1
  let f2 := fresnel k2
  let f3 := fresnel k3
  { x := x_i + √π * sqrt_sigma_inv *
      (direction * cos_k1 * (f2.2 - f3.2) - sgn_sigma * sin_k1 * (f2.1 - f3.1))
    y := y_i + √π * sqrt_sigma_inv *
      (direction * sin_k1 * (f2.2 - f3.2) + sgn_sigma * cos_k1 * (f2.1 - f3.1))
    theta := pify (theta_i + kappa_i * direction * length
      + 0.5 * sigma * direction * length * length)
    kappa := kappa_i + sigma * length }

/-- Position and heading, used for results of the `end_of_*` functions. -/
@[ext] structure Pose where
  x : ℝ
  y : ℝ
  theta : ℝ

/-- `end_of_circular_arc`, src/utilities/utilities.cpp:185-191. Guard: `kappa ≠ 0`. -/
def end_of_circular_arc (x_i y_i theta_i kappa direction length : ℝ) : Pose :=
  { x := x_i + (1 / kappa) * (-sin theta_i + sin (theta_i + direction * length * kappa))
    y := y_i + (1 / kappa) * (cos theta_i - cos (theta_i + direction * length * kappa))
    theta := pify (theta_i + kappa * direction * length) }

/-- `end_of_straight_line`, src/utilities/utilities.cpp:193-198; result `(x_f, y_f)`. -/
def end_of_straight_line (x_i y_i theta direction length : ℝ) : ℝ × ℝ :=
  (x_i + direction * length * cos theta, y_i + direction * length * sin theta)

/-- `global_frame_change`, src/utilities/utilities.cpp:200-207; result `(global_x, global_y)`. -/
def global_frame_change (x y theta local_x local_y : ℝ) : ℝ × ℝ :=
  let sin_th := sin theta
  let cos_th := cos theta
  (local_x * cos_th - local_y * sin_th + x, local_x * sin_th + local_y * cos_th + y)

/-- `local_frame_change`, src/utilities/utilities.cpp:209-216; result `(local_x, local_y)`. -/
def local_frame_change (x y theta global_x global_y : ℝ) : ℝ × ℝ :=
  let sin_th := sin theta
  let cos_th := cos theta
  ((global_x - x) * cos_th + (global_y - y) * sin_th,
   -(global_x - x) * sin_th + (global_y - y) * cos_th)

/-- Loop body of `array_index_min`, src/utilities/utilities.cpp:222-229; the loop
state is `(min, index_min)`. -/
def aimStep (a : ℕ → ℝ) (st : ℝ × ℕ) (i : ℕ) : ℝ × ℕ :=
  if a i < st.1 then (a i, i) else st

/-- `array_index_min`, src/utilities/utilities.cpp:218-231.  The array is the
memory `a`, of which the first `size` cells belong to it (precondition of the
code: `size ≥ 1`, since `array[0]` is read unconditionally). -/
def array_index_min (a : ℕ → ℝ) (size : ℕ) : ℕ :=
  ((List.range' 1 (size - 1)).foldl (aimStep a) (a 0, 0)).2

end SF
