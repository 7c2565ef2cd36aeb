import Verif.Spec.Turn
import Verif.Spec.DubinsStates
import Verif.Model.CcDubinsPm

/-!
# Specification of the HC/CC planners
-/

noncomputable section

namespace Props

open SF Spec Real

/-- Parameters that the library resolves: curvature and clothoid length above its resolution 1e-4, and
a clothoid length whose path lengths fit into a `double`. -/
structure InRange (k s : ℝ) : Prop where
  kappa : k > 1 / 10000
  sigma : 0 < s
  clothoid : k / s > 1 / 10000
  finite : k / s ≤ 10 ^ 100

/-- A number above the radius of the CC circles with curvature `kappa` and sharpness `sigma`. -/
def radiusBound (kappa sigma : ℝ) : ℝ := 3 * (kappa / sigma) + 2 / kappa

/-- The controls lead from `s1` to `s2` with position error at most `a`, besides that of the approximate
Fresnel integrals, and heading error at most `b`. -/
def LeadsTo (cs : List Control) (s1 s2 : State) (a b : ℝ) : Prop :=
  ∃ e, DrivesAll (cs.map seg) (pose s1) e ∧ Within (a + pathTol (cs.map seg)) b e (pose s2)

/-- Sum of the lengths of the controls. -/
def lengthOf (cs : List Control) : ℝ := totalLength (cs.map seg)

/-- All sharpnesses are zero or above the resolution of the integration. -/
def Sharp (cs : List Control) : Prop := ∀ c ∈ cs, c.sigma = 0 ∨ |c.sigma| > 1 / 10000

/-- All controls drive in direction `d`. -/
def DrivesOnly (d : ℝ) (cs : List Control) : Prop := ∀ c ∈ cs, 0 ≤ d * c.delta_s

end Props

namespace Spec.CC00

/-- The turns of a path: circle and far configuration. -/
def turns (t : ℕ) (r : SF.Row) (end_ : SF.Configuration) : List (SF.Circle × SF.Configuration) :=
  match t with
  | 2 => (r.cstart.map fun c => (c, end_)).toList
  | 3 => (r.cstart.bind fun c => r.qi1.map fun q => (c, q)).toList
      ++ (r.cend.bind fun c => r.qi1.map fun q => (c, q)).toList
  | 4 => (r.cstart.bind fun c => r.qi1.map fun q => (c, q)).toList
      ++ (r.cend.bind fun c => r.qi2.map fun q => (c, q)).toList
  | 5 => (r.cstart.bind fun c => r.qi1.map fun q => (c, q)).toList
      ++ (r.ci1.bind fun c => r.qi2.map fun q => (c, q)).toList
      ++ (r.cend.bind fun c => r.qi2.map fun q => (c, q)).toList
  | _ => []

end Spec.CC00

/-- The CC turns of a path of CC0pm-Dubins: circle and far configuration. -/
def Spec.CC0pm.turns (t : ℕ) (r : SF.Row) : List (SF.Circle × SF.Configuration) :=
  match t with
  | 3 => (r.cstart.bind fun c => r.qi1.map fun q => (c, q)).toList
  | 4 => (r.cstart.bind fun c => r.qi1.map fun q => (c, q)).toList
  | 5 => (r.cstart.bind fun c => r.qi1.map fun q => (c, q)).toList
      ++ (r.ci1.bind fun c => r.qi2.map fun q => (c, q)).toList
  | _ => []

/-- The CC turns of a path of CCpm0-Dubins. -/
def Spec.CCpm0.turns (t : ℕ) (r : SF.Row) : List (SF.Circle × SF.Configuration) :=
  match t with
  | 3 => (r.cend.bind fun c => r.qi2.map fun q => (c, q)).toList
  | 4 => (r.cend.bind fun c => r.qi3.map fun q => (c, q)).toList
  | 5 => (r.ci1.bind fun c => r.qi2.map fun q => (c, q)).toList
      ++ (r.cend.bind fun c => r.qi2.map fun q => (c, q)).toList
  | _ => []

/-- The CC turns of a path of CCpmpm-Dubins. -/
def Spec.CCpmpm.turns (t : ℕ) (r : SF.Row) : List (SF.Circle × SF.Configuration) :=
  match t with
  | 5 => (r.ci1.bind fun c => r.qi2.map fun q => (c, q)).toList
  | 6 => (r.ci1.bind fun c => r.qi2.map fun q => (c, q)).toList
      ++ (r.ci2.bind fun c => r.qi2.map fun q => (c, q)).toList
  | _ => []

namespace Props

open SF

/-- A turn to side `l` (`true`: left) has the sign of the curvature `kappa` (zero leaves the choice). -/
def Toward (l : Bool) (kappa : ℝ) : Prop := (l = true → 0 ≤ kappa) ∧ (l = false → kappa ≤ 0)

/-- Signed curvature of a turn to side `l`. -/
def sideCurvature (kappa : ℝ) (l : Bool) : ℝ := if l then kappa else -kappa

/-- A turning circle of CC0pm-Dubins at the start and the circle of curvature `kappa` of the other sense at the goal
have the same centre, up to 1e-4. -/
def CC0pm.Opposed (sp : HCSpace) (s1 s2 : State) : Prop :=
  ∃ i j : ℕ, i < 2 ∧ j < 2 ∧ i ≠ j ∧ Toward (j = 0) s2.kappa ∧
    center_distance (SF.CC0pm.start_circle sp (configuration s1.x s1.y s1.theta 0) i)
      (SF.CC0pm.end_circle sp s2 j) < 1 / 10000

/-- A turning circle of CCpm0-Dubins at the goal and the circle of curvature `kappa` of the other sense at the start
have the same centre, up to 1e-4. -/
def CCpm0.Opposed (sp : HCSpace) (s1 s2 : State) : Prop :=
  ∃ i j : ℕ, i < 2 ∧ j < 2 ∧ i ≠ j ∧ Toward (i = 0) s1.kappa ∧
    center_distance (SF.CCpm0.start_circle sp s1 i)
      (SF.CCpm0.end_circle sp (configuration s2.x s2.y s2.theta 0) j) < 1 / 10000

end Props
