import Verif.Props.Optimal
import Verif.Props.Limits

/-!
# No path with continuous curvature is shorter than the Dubins path: C116
-/

noncomputable section

namespace Props

open SF Spec Real Set

/-- The Dubins planner with curvature `K` and the driving direction of the planner `sp`. -/
def dubinsOf (sp : HCSpace) (K : ℝ) : DubinsSpace := ⟨K, sp.discretization, sp.forwards⟩

/-- The controls `cs` of a planner `sp` are no shorter than the paths that the Dubins planner and the Reeds-Shepp planner with
curvature `K` find from the start to the state `e` where the controls end. -/
def NoShorter (sp : HCSpace) (K : ℝ) (s1 : State) (cs : List Control) : Prop :=
  ∀ e : State, Reaches (cs.map seg) (pose s1) (pose e) →
    (dubinsOf sp K).get_distance s1 e ≤ lengthOf cs ∧ (RSSpace.mk K sp.discretization).get_distance s1 e ≤ lengthOf cs

theorem noShorter {sp : HCSpace} {K : ℝ} (hK : 0 < K) (hd : 0 < sp.discretization) {s1 : State} {cs : List Control}
    (hdir : DrivesOnly (if sp.forwards then 1 else -1) cs) (hc : CurvatureAtMost K (cs.map seg)) : NoShorter sp K s1 cs := by
  intro e hr
  have hv : (dubinsOf sp K).Valid := ⟨hK, hd⟩
  have hdir' : ∀ c ∈ cs.map seg, c.len ≠ 0 → c.dir = dirOf (dubinsOf sp K) := by
    intro c hcm h0
    obtain ⟨x, hx, rfl⟩ := List.mem_map.1 hcm
    have h1 := hdir x hx
    change x.delta_s ≠ 0 at h0
    change (if x.delta_s < 0 then (-1:ℝ) else 1) = if sp.forwards = true then 1 else -1
    by_cases hf : sp.forwards = true
    · rw [if_pos hf] at h1 ⊢
      rw [if_neg (by linarith)]
    · rw [if_neg hf] at h1 ⊢
      rw [if_pos (lt_of_le_of_ne (by linarith) h0)]
  refine ⟨C112_dubins_controls hv s1 e _ hdir' hc hr, ?_⟩
  obtain ⟨r, h1, h2⟩ := hr
  have hd : dirOf (dubinsOf sp K) = 1 ∨ dirOf (dubinsOf sp K) = -1 := by unfold dirOf; split_ifs <;> simp
  exact C115_rs_le_curve (sp := ⟨K, sp.discretization⟩) hv s1 e hd (by unfold lengthOf totalLength; exact List.sum_nonneg (by simp))
    ⟨r, DrivesAll.curve hd h1 hdir' hc, h2⟩

variable {sp : HCSpace}

theorem InRange.pos' (h : InRange sp.kappa sp.sigma) : 0 < sp.kappa * (1 + 1 / 10 ^ 8) :=
  mul_pos (lt_of_lt_of_le (by norm_num) h.kappa.le) (by norm_num)

/-- Clothoids long compared to the tolerance for one- and two-turn paths, as in C52. -/
def LongClothoids (sp : HCSpace) : Prop :=
  1 / 1000 * (1 + radiusBound sp.kappa sp.sigma) ≤ min (sp.kappa / sp.sigma) (1 / √sp.sigma / 2)

theorem LongClothoids.turn (h : InRange sp.kappa sp.sigma) (hA : LongClothoids sp) :
    1 / 1000 * (1 + 1 / sp.kappa) ≤ min (sp.kappa / sp.sigma) (1 / √sp.sigma / 2) := by
  refine le_trans ?_ hA
  have := h.rng.pos
  have := h.rng.sigma
  have : 0 < 1 / sp.kappa := by positivity
  have : 0 < sp.kappa / sp.sigma := by positivity
  unfold radiusBound
  rw [show 2 / sp.kappa = 2 * (1 / sp.kappa) by ring]
  linarith

/-- **C116, CC00 (partial).** Unless the path consists of one or two turns.  Missing: those, and the goal itself instead of the state
where the controls end, see `C116_cc00_false`. -/
theorem C116_cc00_partial (h : InRange sp.kappa sp.sigma) (hd : 0 < sp.discretization) (hA : LongClothoids sp) (s1 s2 : State)
    (hfar : dist2 s1 s2 ≤ 10 ^ 100) (h2 : (CC00.cc00_dubins sp s1 s2).type ≠ cc_dubins.T)
    (h3 : (CC00.cc00_dubins sp s1 s2).type ≠ cc_dubins.TT) :
    ∃ cs, CC00.get_controls sp s1 s2 = some cs ∧ NoShorter sp (sp.kappa * (1 + 1 / 10 ^ 8)) s1 cs := by
  obtain ⟨cs, hcs, hl, _⟩ := C51_cc00_limits_partial h s1 s2 hfar h2 h3
  obtain ⟨cs', hcs', hw⟩ := C52_cc00_direction h s1 s2 hfar hA
  obtain rfl := Option.some.inj (hcs'.symm.trans hcs)
  exact ⟨_, hcs, noShorter h.pos' hd hw hl⟩

/-- **C116, CC00, far apart (partial).** For all states more than four radii apart. -/
theorem C116_cc00_far_partial (h : InRange sp.kappa sp.sigma) (hd : 0 < sp.discretization) (hA : LongClothoids sp) (s1 s2 : State)
    (hfar : dist2 s1 s2 ≤ 10 ^ 100) (hf : 4 * radiusBound sp.kappa sp.sigma + 1 / 10000 < dist2 s1 s2) :
    ∃ cs, CC00.get_controls sp s1 s2 = some cs ∧ NoShorter sp (sp.kappa * (1 + 1 / 10 ^ 8)) s1 cs := by
  obtain ⟨cs, hcs, hl, _⟩ := C51_cc00_limits_far_partial h s1 s2 hfar hf
  obtain ⟨cs', hcs', hw⟩ := C52_cc00_direction h s1 s2 hfar hA
  obtain rfl := Option.some.inj (hcs'.symm.trans hcs)
  exact ⟨_, hcs, noShorter h.pos' hd hw hl⟩

/-- **C116, CC0pm (partial).** Unless the path consists of two turns. -/
theorem C116_cc0pm_partial (h : InRange sp.kappa sp.sigma) (hd : 0 < sp.discretization) (hA : LongClothoids sp) (s1 s2 : State)
    (hfar : dist2 s1 s2 ≤ 10 ^ 100) {p : CCPath} (hp : SF.CC0pm.cc0pm_dubins sp s1 s2 = some p) (hTT : p.type ≠ cc_dubins.TT) :
    ∃ cs, SF.CC0pm.get_controls sp s1 s2 = some cs ∧ NoShorter sp (sp.kappa * (1 + 1 / 10 ^ 8)) s1 cs := by
  obtain ⟨cs, hcs, hl, _⟩ := C57_cc0pm_limits_partial h s1 s2 hfar hp hTT
  obtain ⟨cs', hcs', hw⟩ := C58_cc0pm_direction h s1 s2 hfar (hA.turn h)
  obtain rfl := Option.some.inj (hcs'.symm.trans hcs)
  exact ⟨_, hcs, noShorter h.pos' hd hw hl⟩

/-- **C116, CCpm0 (partial).** Unless the path consists of two turns. -/
theorem C116_ccpm0_partial (h : InRange sp.kappa sp.sigma) (hd : 0 < sp.discretization) (hA : LongClothoids sp) (s1 s2 : State)
    (hfar : dist2 s1 s2 ≤ 10 ^ 100) {p : CCPath} (hp : SF.CCpm0.ccpm0_dubins sp s1 s2 = some p) (hTT : p.type ≠ cc_dubins.TT) :
    ∃ cs, SF.CCpm0.get_controls sp s1 s2 = some cs ∧ NoShorter sp (sp.kappa * (1 + 1 / 10 ^ 8)) s1 cs := by
  obtain ⟨cs, hcs, hl, _⟩ := C57_ccpm0_limits_partial h s1 s2 hfar hp hTT
  obtain ⟨cs', hcs', hw⟩ := C58_ccpm0_direction h s1 s2 hfar (hA.turn h)
  obtain rfl := Option.some.inj (hcs'.symm.trans hcs)
  exact ⟨_, hcs, noShorter h.pos' hd hw hl⟩

/-- **C116, CCpmpm.** All states: no path of this planner is shorter than the Dubins path to the state where it ends. -/
theorem C116_ccpmpm (h : InRange sp.kappa sp.sigma) (hd : 0 < sp.discretization) (hA : LongClothoids sp) (s1 s2 : State)
    (hfar : dist2 s1 s2 ≤ 10 ^ 100) :
    ∃ cs, SF.CCpmpm.get_controls sp s1 s2 = some cs ∧ NoShorter sp (sp.kappa * (1 + 1 / 10 ^ 8)) s1 cs := by
  obtain ⟨cs, hcs, hl, _⟩ := C57_ccpmpm_limits h s1 s2 hfar
  obtain ⟨cs', hcs', hw⟩ := C58_ccpmpm_direction h s1 s2 hfar (hA.turn h)
  obtain rfl := Option.some.inj (hcs'.symm.trans hcs)
  exact ⟨_, hcs, noShorter h.pos' hd hw hl⟩

/-- **C116, CC (partial).** Every possible result of CC-Dubins between states of any curvature that are far apart. -/
theorem C116_cc_far_partial {junk : ℝ} (h : InRange sp.kappa sp.sigma) (hd : 0 < sp.discretization) (hA : LongClothoids sp) (s1 s2 : State)
    (hr : InReach sp s1 s2) (hf : HcFarApart sp s1 s2) (h1 : |s1.kappa| ≤ sp.kappa) (h2 : |s2.kappa| ≤ sp.kappa) {cs : List Control}
    (hcs : SF.CC.IsControls sp junk s1 s2 cs) : NoShorter sp (sp.kappa * (1 + 1 / 10 ^ 8)) s1 cs :=
  noShorter h.pos' hd (C64_cc_direction h s1 s2 hr hA hcs) (C102_cc_limits_far_partial h s1 s2 hr hf h1 h2 hcs).1

/-- A planner and states that the theorems cover. -/
example : InRange 1 1 ∧ LongClothoids ⟨1, 1, 1, true⟩ ∧ 4 * radiusBound 1 1 + 1 / 10000 < dist2 ⟨0, 0, 0, 0, 0⟩ ⟨-100, 0, 0, 0, 0⟩ := by
  refine ⟨by constructor <;> norm_num, by unfold LongClothoids radiusBound; norm_num, ?_⟩
  rw [dist2, show ((-100:ℝ) - 0) ^ 2 + (0 - 0) ^ 2 = 100 ^ 2 by norm_num, sqrt_sq (by norm_num), radiusBound]
  norm_num

/-- Controls to which `NoShorter` applies end somewhere: there is a state `e`. -/
example (s1 : State) (cs : List Control) : ∃ e : State, Reaches (cs.map seg) (pose s1) (pose e) :=
  ⟨⟨(arriveAll (cs.map seg) (pose s1)).x, (arriveAll (cs.map seg) (pose s1)).y, (arriveAll (cs.map seg) (pose s1)).theta, 0, 0⟩, _,
    drivesAll_iff.2 rfl, SameConfig.refl _⟩

/-- **C116 is false for the goal itself**: a goal 5e-5 m behind the car counts as reached by CC00-Dubins, the Dubins planner drives a
loop. -/
theorem C116_cc00_false : ∃ (sp : HCSpace) (s1 s2 : State), InRange sp.kappa sp.sigma ∧ LongClothoids sp ∧
    CC00.get_distance sp s1 s2 + 1 < (dubinsOf sp sp.kappa).get_distance s1 s2 := by
  have hd : dist2 ⟨0, 0, 0, 0, 0⟩ ⟨-5 / 10 ^ 5, 0, 0, 0, 0⟩ = 5 / 10 ^ 5 := by
    rw [dist_behind (by norm_num)]; norm_num
  refine ⟨⟨1, 1, 1, true⟩, ⟨0, 0, 0, 0, 0⟩, ⟨-5 / 10 ^ 5, 0, 0, 0, 0⟩, by constructor <;> norm_num,
    by unfold LongClothoids radiusBound; norm_num, ?_⟩
  have h0 : CC00.get_distance ⟨1, 1, 1, true⟩ ⟨0, 0, 0, 0, 0⟩ ⟨-5 / 10 ^ 5, 0, 0, 0, 0⟩ ≤ 0 := by
    refine Spec.CC00.dist_equal ?_
    have z : twopify 0 = 0 := twopify_of_mem le_rfl (by linarith [pi_pos])
    simp only [SF.configuration_equal, Spec.CC00.startOf, configuration, configuration_distance, point_distance, sub_self, abs_zero, z]
    rw [if_neg (by norm_num [SF.epsilon]), if_neg]
    · trivial
    rw [show (-5 / 10 ^ 5 - (0:ℝ)) ^ 2 + 0 ^ 2 = (5 / 10 ^ 5) ^ 2 by norm_num, sqrt_sq (by norm_num)]
    norm_num [SF.epsilon]
  have hv : (⟨1, 1, true⟩ : DubinsSpace).Valid := ⟨one_pos, one_pos⟩
  have hne : ¬ NearlyEqual 1 ⟨0, 0, 0, 0, 0⟩ ⟨-5 / 10 ^ 5, 0, 0, 0, 0⟩ := by
    rintro ⟨a, -⟩
    rw [hd] at a; norm_num at a
  have hz : ¬ NearlyTangent 1 ⟨0, 0, 0, 0, 0⟩ ⟨-5 / 10 ^ 5, 0, 0, 0, 0⟩ := by
    rintro ⟨e, he, _, h⟩
    unfold crossDist2 at h
    rcases he with rfl | rfl <;> norm_num at h
  obtain ⟨a1, q, a2, a3, -, -⟩ := C112_dubins_attained hv ⟨0, 0, 0, 0, 0⟩ ⟨-5 / 10 ^ 5, 0, 0, 0, 0⟩
    (by rw [hd]; norm_num) hne hz
  by_contra hc
  push Not at hc
  have := curve_ahead a1 (hc.trans (by linarith)) (p := pose ⟨0, 0, 0, 0, 0⟩) rfl a2
  rw [a3] at this
  norm_num [pose] at this

end Props
