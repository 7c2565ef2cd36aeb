import Verif.Model.Dubins
import Verif.Model.Integrate

/-!
# Double precision model of the angle functions, of Dubins' planner and of the sampling loop

The rest of the model computes with real numbers.  Here every arithmetic operation and every call of a mathematical function is
followed by a rounding `fl`, in the order in which the C++ code evaluates them (no fused multiply-add, no
extended precision: `FLT_EVAL_METHOD` 0).  `floor`, `ceil`, `fabs`, `max`, `fmod`, negation and comparisons are exact.  `sin`, `cos`,
`acos` and `atan2` are taken to be rounded correctly; the C standard does not promise this, but the values that matter below
are multiples of a unit apart.  Not modelled: signed zeros, infinities and not-a-number.
-/

noncomputable section

namespace SF.Dbl

open Real

variable (fl : ℝ → ℝ)

/-- The constant `TWO_PI`, utilities.hpp:34, as converted to `double`. -/
def TWO_PI : ℝ := fl 6.2831853071795864770

/-- The constant `PI`, utilities.hpp:32, as converted to `double`. -/
def PI : ℝ := fl 3.1415926535897932384

/-- `twopify`, src/utilities/utilities.cpp:55-58. -/
def twopify (alpha : ℝ) : ℝ := fl (alpha - fl (TWO_PI fl * (⌊fl (alpha / TWO_PI fl)⌋ : ℝ)))

/-- `pify`, src/utilities/utilities.cpp:60-68. -/
def pify (alpha : ℝ) : ℝ :=
  let v := fmod alpha (TWO_PI fl)
  if v < -PI fl then fl (v + TWO_PI fl)
  else if v > PI fl then fl (v - TWO_PI fl)
  else v

/-- `Dubins_Path::length`, dubins_state_space.hpp:117-120. -/
def length (a : DPath) : ℝ := fl (fl (a.t + a.p) + a.q)

/-- `DUBINS_EPS`, dubins_state_space.cpp:73. -/
def DUBINS_EPS : ℝ := fl (1 / 10 ^ 6)

/-- `DUBINS_ZERO`, dubins_state_space.cpp:74. -/
def DUBINS_ZERO : ℝ := fl (-(1 / 10 ^ 9))

/-- `cos`, `sin`, `acos`, `atan2` and `sqrt` of the C library. -/
def cosF (x : ℝ) : ℝ := fl (cos x)
@[inherit_doc cosF] def sinF (x : ℝ) : ℝ := fl (sin x)
@[inherit_doc cosF] def acosF (x : ℝ) : ℝ := fl (arccos x)
@[inherit_doc cosF] def atan2F (y x : ℝ) : ℝ := fl (atan2 y x)
@[inherit_doc cosF] def sqrtF (x : ℝ) : ℝ := fl √x

/-- `ca * cb + sa * sb`, part of every `tmp` of the six words. -/
def common (ca sa cb sb : ℝ) : ℝ := fl (fl (ca * cb) + fl (sa * sb))

/-- `dubinsLSL`, dubins_state_space.cpp:76-92. -/
def dubinsLSL (d alpha beta : ℝ) : DPath :=
  let ca := cosF fl alpha
  let sa := sinF fl alpha
  let cb := cosF fl beta
  let sb := sinF fl beta
  let tmp := fl (fl (2 + fl (d * d)) - fl (2 * fl (common fl ca sa cb sb - fl (d * fl (sa - sb)))))
  if tmp ≥ DUBINS_ZERO fl then
    let theta := atan2F fl (fl (cb - ca)) (fl (fl (d + sa) - sb))
    let t := twopify fl (fl (-alpha + theta))
    let p := sqrtF fl (max tmp 0)
    let q := twopify fl (fl (beta - theta))
    ⟨dubins_path_type 0, t, p, q⟩
  else DPath.default

/-- `dubinsRSR`, dubins_state_space.cpp:94-110. -/
def dubinsRSR (d alpha beta : ℝ) : DPath :=
  let ca := cosF fl alpha
  let sa := sinF fl alpha
  let cb := cosF fl beta
  let sb := sinF fl beta
  let tmp := fl (fl (2 + fl (d * d)) - fl (2 * fl (common fl ca sa cb sb - fl (d * fl (sb - sa)))))
  if tmp ≥ DUBINS_ZERO fl then
    let theta := atan2F fl (fl (ca - cb)) (fl (fl (d - sa) + sb))
    let t := twopify fl (fl (alpha - theta))
    let p := sqrtF fl (max tmp 0)
    let q := twopify fl (fl (-beta + theta))
    ⟨dubins_path_type 1, t, p, q⟩
  else DPath.default

/-- `dubinsRSL`, dubins_state_space.cpp:112-128. -/
def dubinsRSL (d alpha beta : ℝ) : DPath :=
  let ca := cosF fl alpha
  let sa := sinF fl alpha
  let cb := cosF fl beta
  let sb := sinF fl beta
  let tmp := fl (fl (fl (d * d) - 2) + fl (2 * fl (common fl ca sa cb sb - fl (d * fl (sa + sb)))))
  if tmp ≥ DUBINS_ZERO fl then
    let p := sqrtF fl (max tmp 0)
    let theta := fl (atan2F fl (fl (ca + cb)) (fl (fl (d - sa) - sb)) - atan2F fl 2 p)
    let t := twopify fl (fl (alpha - theta))
    let q := twopify fl (fl (beta - theta))
    ⟨dubins_path_type 2, t, p, q⟩
  else DPath.default

/-- `dubinsLSR`, dubins_state_space.cpp:130-146. -/
def dubinsLSR (d alpha beta : ℝ) : DPath :=
  let ca := cosF fl alpha
  let sa := sinF fl alpha
  let cb := cosF fl beta
  let sb := sinF fl beta
  let tmp := fl (fl (-2 + fl (d * d)) + fl (2 * fl (common fl ca sa cb sb + fl (d * fl (sa + sb)))))
  if tmp ≥ DUBINS_ZERO fl then
    let p := sqrtF fl (max tmp 0)
    let theta := fl (atan2F fl (fl (-ca - cb)) (fl (fl (d + sa) + sb)) - atan2F fl (-2) p)
    let t := twopify fl (fl (-alpha + theta))
    let q := twopify fl (fl (-beta + theta))
    ⟨dubins_path_type 3, t, p, q⟩
  else DPath.default

/-- `dubinsRLR`, dubins_state_space.cpp:148-164. -/
def dubinsRLR (d alpha beta : ℝ) : DPath :=
  let ca := cosF fl alpha
  let sa := sinF fl alpha
  let cb := cosF fl beta
  let sb := sinF fl beta
  let tmp := fl (0.125 * fl (fl (6 - fl (d * d)) + fl (2 * fl (common fl ca sa cb sb + fl (d * fl (sa - sb))))))
  if |tmp| < 1 then
    let p := fl (TWO_PI fl - acosF fl tmp)
    let theta := atan2F fl (fl (ca - cb)) (fl (fl (d - sa) + sb))
    let t := twopify fl (fl (fl (alpha - theta) + fl (0.5 * p)))
    let q := twopify fl (fl (fl (fl (alpha - beta) - t) + p))
    ⟨dubins_path_type 4, t, p, q⟩
  else DPath.default

/-- `dubinsLRL`, dubins_state_space.cpp:166-182. -/
def dubinsLRL (d alpha beta : ℝ) : DPath :=
  let ca := cosF fl alpha
  let sa := sinF fl alpha
  let cb := cosF fl beta
  let sb := sinF fl beta
  let tmp := fl (0.125 * fl (fl (6 - fl (d * d)) + fl (2 * fl (common fl ca sa cb sb - fl (d * fl (sa - sb))))))
  if |tmp| < 1 then
    let p := fl (TWO_PI fl - acosF fl tmp)
    let theta := atan2F fl (fl (-ca + cb)) (fl (fl (d + sa) - sb))
    let t := twopify fl (fl (fl (-alpha + theta) + fl (0.5 * p)))
    let q := twopify fl (fl (fl (fl (beta - alpha) - t) + p))
    ⟨dubins_path_type 5, t, p, q⟩
  else DPath.default

/-- One comparison of `dubins`, as `SF.dubinsPick`. -/
def dubinsPick (st : ℝ × DPath) (tmp : DPath) : ℝ × DPath :=
  if length fl tmp < st.1 then (length fl tmp, tmp) else st

/-- `dubins` (helper), dubins_state_space.cpp:184-219. -/
def dubins (d alpha beta : ℝ) : DPath :=
  if d < DUBINS_EPS fl ∧ |fl (alpha - beta)| < DUBINS_EPS fl then ⟨dubins_path_type 0, 0, d, 0⟩
  else
    let path := dubinsLSL fl d alpha beta
    let s0 := (length fl path, path)
    let s1 := dubinsPick fl s0 (dubinsRSR fl d alpha beta)
    let s2 := dubinsPick fl s1 (dubinsRSL fl d alpha beta)
    let s3 := dubinsPick fl s2 (dubinsLSR fl d alpha beta)
    let s4 := dubinsPick fl s3 (dubinsRLR fl d alpha beta)
    let s5 := dubinsPick fl s4 (dubinsLRL fl d alpha beta)
    s5.2

/-- `Dubins_State_Space::dubins`, dubins_state_space.cpp:228-233. -/
def space_dubins (sp : DubinsSpace) (s1 s2 : State) : DPath :=
  let dx := fl (s2.x - s1.x)
  let dy := fl (s2.y - s1.y)
  let th := atan2F fl dy dx
  let d := fl (sqrtF fl (fl (fl (dx * dx) + fl (dy * dy))) * sp.kappa)
  let alpha := twopify fl (fl (s1.theta - th))
  let beta := twopify fl (fl (s2.theta - th))
  dubins fl d alpha beta

/-- `Dubins_State_Space::get_distance`, dubins_state_space.cpp:241-247; `kappa_inv_` is dubins_state_space.hpp:137. -/
def get_distance (sp : DubinsSpace) (s1 s2 : State) : ℝ :=
  if sp.forwards then fl (fl (1 / sp.kappa) * length fl (space_dubins fl sp s1 s2))
  else fl (fl (1 / sp.kappa) * length fl (space_dubins fl sp s2 s1))

/-- "get integration step", dubins_state_space.cpp:335-344 (same text in all six loops): `(integration_step, new s_seg)`. -/
def nextStep (discretization abs_delta_s s_seg : ℝ) : ℝ × ℝ :=
  let s_seg := fl (s_seg + discretization)
  if s_seg > abs_delta_s then (fl (discretization - fl (s_seg - abs_delta_s)), abs_delta_s)
  else (discretization, s_seg)

/-- The integration steps of the inner `for` loop, dubins_state_space.cpp:332-348: `n` iterations starting with `s_seg`. -/
def steps (discretization abs_delta_s : ℝ) : ℕ → ℝ → List ℝ
  | 0, _ => []
  | n + 1, s_seg =>
    let ns := nextStep fl discretization abs_delta_s s_seg
    ns.1 :: steps discretization abs_delta_s n ns.2

/-- Number of iterations, `ceil(abs_delta_s / discretization_)`. -/
def nSteps (discretization abs_delta_s : ℝ) : ℕ := ⌈fl (abs_delta_s / discretization)⌉₊

/-- All integration steps of a segment. -/
def segSteps (discretization delta_s : ℝ) : List ℝ :=
  steps fl discretization |delta_s| (nSteps fl discretization |delta_s|) 0

end SF.Dbl
