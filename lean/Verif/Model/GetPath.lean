import Verif.Model.Integrate
import Verif.Model.Dubins
import Verif.Model.ReedsShepp

/-!
# `get_path` of the Dubins and Reeds-Shepp spaces
-/

noncomputable section

namespace SF

/-- `Dubins_State_Space::get_path`, dubins_state_space.cpp:291-295.  `junk`: see `integrate`. -/
def DubinsSpace.get_path (sp : DubinsSpace) (junk : ℝ × ℝ) (s1 s2 : State) : List State :=
  integrate sp.discretization junk s1 (sp.get_controls s1 s2)

/-- `Reeds_Shepp_State_Space::get_path`, reeds_shepp_state_space.cpp:580-584. -/
def RSSpace.get_path (sp : RSSpace) (junk : ℝ × ℝ) (s1 s2 : State) : List State :=
  integrate sp.discretization junk s1 (sp.get_controls s1 s2)

end SF
