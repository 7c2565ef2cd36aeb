import Verif.Props.Admissible
import Verif.Props.LimitsTolerance
import Verif.Props.ReedsShepp
import Verif.Props.HcReedsShepp

/-!
# What continuous curvature costs: C127, and C116 for near states

The paths of the clothoid planners are longer than those of Dubins and Reeds-Shepp at most by a constant that does not depend on the
states, so for distant goals the relative difference vanishes.
-/

noncomputable section

namespace Props

open SF Spec Real

variable {sp : HCSpace} {junk : ℝ}

/-- The constant. -/
def smoothCost (kappa sigma : ℝ) : ℝ := 50 * (kappa / sigma) + 61 / kappa

/-- A path of length `len` with clothoids, compared to the length `base` of the path that ignores them: longer at most by
`smoothCost`, and by any given fraction `e` at most if the states are far enough apart. -/
structure CostsLittle (kappa sigma : ℝ) (s1 s2 : State) (base len : ℝ) : Prop where
  add : len ≤ base + smoothCost kappa sigma
  rel : ∀ e, 0 < e → smoothCost kappa sigma / e + 1 / kappa ≤ dist2 s1 s2 → len ≤ (1 + e) * base

theorem costsLittle (h : InRange sp.kappa sp.sigma) {s1 s2 : State} {base len : ℝ}
    (hl : len ≤ dist2 s1 s2 + 50 * (sp.kappa / sp.sigma) + 60 / sp.kappa) (hb : dist2 s1 s2 - 1 / 10 ^ 9 / sp.kappa ≤ base) :
    CostsLittle sp.kappa sp.sigma s1 s2 base len := by
  have hk := h.rng.pos
  have e1 : (60:ℝ) / sp.kappa = 60 * (1 / sp.kappa) := by ring
  have e2 : (61:ℝ) / sp.kappa = 61 * (1 / sp.kappa) := by ring
  have e3 : (1:ℝ) / 10 ^ 9 / sp.kappa = 1 / 10 ^ 9 * (1 / sp.kappa) := by ring
  have hp : 0 < 1 / sp.kappa := by positivity
  have hadd : len ≤ base + smoothCost sp.kappa sp.sigma := by
    unfold smoothCost
    rw [e1] at hl; rw [e3] at hb; rw [e2]
    linarith
  refine ⟨hadd, fun e he hd => ?_⟩
  have hb' : smoothCost sp.kappa sp.sigma / e ≤ base := by
    rw [e3] at hb
    linarith
  rw [div_le_iff₀ he] at hb'
  linarith

theorem euclid_dubins (h : InRange sp.kappa sp.sigma) (hd : 0 < sp.discretization) {s1 s2 : State}
    (hk : sp.kappa * dist2 s1 s2 ≤ 10 ^ 200) :
    dist2 s1 s2 - 1 / 10 ^ 9 / sp.kappa ≤ (dubinsOf sp sp.kappa).get_distance s1 s2 :=
  (C20_dubins_bounds (sp := dubinsOf sp sp.kappa) ⟨h.rng.pos, hd⟩ s1 s2 hk).1

theorem euclid_rs (h : InRange sp.kappa sp.sigma) (hd : 0 < sp.discretization) {s1 s2 : State}
    (hk : sp.kappa * dist2 s1 s2 ≤ 10 ^ 200) :
    dist2 s1 s2 - 1 / 10 ^ 9 / sp.kappa ≤ (RSSpace.mk sp.kappa sp.discretization).get_distance s1 s2 := by
  have := C26_rs_ge_euclid (sp := RSSpace.mk sp.kappa sp.discretization) ⟨h.rng.pos, hd⟩ s1 s2 hk
  have hp := h.rng.pos
  have : 0 < 1 / 10 ^ 9 / sp.kappa := by positivity
  linarith

theorem bound_up (h : InRange sp.kappa sp.sigma) {x len : ℝ} {a b : ℝ} (ha : a ≤ 50) (hb : b ≤ 60)
    (hl : len ≤ x + a * (sp.kappa / sp.sigma) + b / sp.kappa) : len ≤ x + 50 * (sp.kappa / sp.sigma) + 60 / sp.kappa := by
  have hk := h.rng.pos
  have hs := h.rng.sigma
  have h1 := mul_le_mul_of_nonneg_right ha (show 0 ≤ sp.kappa / sp.sigma by positivity)
  have h2 : b / sp.kappa ≤ 60 / sp.kappa := div_le_div_of_nonneg_right hb hk.le
  linarith

/-- **C127, CC00-Dubins.** -/
theorem C127_cc00 (h : InRange sp.kappa sp.sigma) (hd : 0 < sp.discretization) (s1 s2 : State) (hfar : dist2 s1 s2 ≤ 10 ^ 100)
    (hk : sp.kappa * dist2 s1 s2 ≤ 10 ^ 200) :
    CostsLittle sp.kappa sp.sigma s1 s2 ((dubinsOf sp sp.kappa).get_distance s1 s2) (CC00.get_distance sp s1 s2) :=
  costsLittle h (bound_up h (by norm_num) (by norm_num) (C38_cc00_always h s1 s2 hfar).1) (euclid_dubins h hd hk)

/-- **C127, CC0pm-, CCpm0- and CCpmpm-Dubins.** -/
theorem C127_cc_pm (h : InRange sp.kappa sp.sigma) (hd : 0 < sp.discretization) (s1 s2 : State) (hfar : dist2 s1 s2 ≤ 10 ^ 100)
    (hk : sp.kappa * dist2 s1 s2 ≤ 10 ^ 200) : ∃ l0 l1 l2,
    (SF.CC0pm.get_distance sp s1 s2 = some l0 ∧ SF.CCpm0.get_distance sp s1 s2 = some l1 ∧
      SF.CCpmpm.get_distance sp s1 s2 = some l2) ∧
    CostsLittle sp.kappa sp.sigma s1 s2 ((dubinsOf sp sp.kappa).get_distance s1 s2) l0 ∧
    CostsLittle sp.kappa sp.sigma s1 s2 ((dubinsOf sp sp.kappa).get_distance s1 s2) l1 ∧
    CostsLittle sp.kappa sp.sigma s1 s2 ((dubinsOf sp sp.kappa).get_distance s1 s2) l2 := by
  obtain ⟨l0, _, a0, b0, _⟩ := C56_cc0pm_always h s1 s2 hfar
  obtain ⟨l1, _, a1, b1, _⟩ := C56_ccpm0_always h s1 s2 hfar
  obtain ⟨l2, _, a2, b2, _⟩ := C56_ccpmpm_always h s1 s2 hfar
  have hb := euclid_dubins h hd hk
  exact ⟨l0, l1, l2, ⟨a0, a1, a2⟩, costsLittle h (bound_up h (by norm_num) le_rfl b0) hb,
    costsLittle h (bound_up h (by norm_num) le_rfl b1) hb, costsLittle h (bound_up h (by norm_num) le_rfl b2) hb⟩

/-- **C127, CC-Dubins.** -/
theorem C127_cc (h : InRange sp.kappa sp.sigma) (hd : 0 < sp.discretization) (s1 s2 : State) (hr : InReach sp s1 s2)
    (hk : sp.kappa * dist2 s1 s2 ≤ 10 ^ 200) : ∃ m, SF.CC.get_distance sp junk s1 s2 = some m ∧
    CostsLittle sp.kappa sp.sigma s1 s2 ((dubinsOf sp sp.kappa).get_distance s1 s2) m := by
  obtain ⟨⟨m, a, b⟩, _⟩ := C62_cc_always (junk := junk) h s1 s2 hr
  exact ⟨m, a, costsLittle h b (euclid_dubins h hd hk)⟩

/-- **C127, HC00-, HC0pm-, HCpm0- and HCpmpm-Reeds-Shepp.** -/
theorem C127_hc (pm1 pm2 : Bool) (h : InRange sp.kappa sp.sigma) (hd : 0 < sp.discretization) (s1 s2 : State)
    (hfar : dist2 s1 s2 ≤ 10 ^ 100) (hk : sp.kappa * dist2 s1 s2 ≤ 10 ^ 200) :
    ∃ len, SF.HcRs.get_distance pm1 pm2 sp s1 s2 = some len ∧
    CostsLittle sp.kappa sp.sigma s1 s2 ((RSSpace.mk sp.kappa sp.discretization).get_distance s1 s2) len := by
  obtain ⟨m, _, a, b, _⟩ := C72_hc_always (pm1 := pm1) (pm2 := pm2) h s1 s2 hfar
  exact ⟨m, a, costsLittle h (bound_up h (by norm_num) le_rfl b) (euclid_rs h hd hk)⟩

/-- **C127, HC-Reeds-Shepp.** -/
theorem C127_hcrs (h : InRange sp.kappa sp.sigma) (hd : 0 < sp.discretization) (s1 s2 : State) (hr : InReach sp s1 s2)
    (hk : sp.kappa * dist2 s1 s2 ≤ 10 ^ 200) : ∃ m, SF.HC.get_distance sp junk s1 s2 = some m ∧
    CostsLittle sp.kappa sp.sigma s1 s2 ((RSSpace.mk sp.kappa sp.discretization).get_distance s1 s2) m := by
  obtain ⟨⟨m, a, b⟩, _⟩ := C78_hcrs_always (junk := junk) h s1 s2 hr
  exact ⟨m, a, costsLittle h b (euclid_rs h hd hk)⟩

/-- **C127, CC00-Reeds-Shepp.** -/
theorem C127_cc00_rs (h : InRange sp.kappa sp.sigma) (hd : 0 < sp.discretization) (s1 s2 : State)
    (hfar : dist2 s1 s2 ≤ 10 ^ 100) (hk : sp.kappa * dist2 s1 s2 ≤ 10 ^ 200) :
    CostsLittle sp.kappa sp.sigma s1 s2 ((RSSpace.mk sp.kappa sp.discretization).get_distance s1 s2)
      (CcRs.get_distance sp s1 s2) :=
  costsLittle h (bound_up h (by norm_num) le_rfl (C85_cc00_rs_always h s1 s2 hfar).1) (euclid_rs h hd hk)

/-- With `kappa = sigma = 1` and a goal 12 km away (all lengths in metres) smooth paths are at most one percent longer. -/
example : InRange 1 1 ∧ smoothCost 1 1 / (1 / 100) + 1 / 1 ≤ dist2 ⟨0, 0, 0, 0, 0⟩ ⟨12000, 0, 1, 0, 0⟩ ∧
    dist2 ⟨0, 0, 0, 0, 0⟩ ⟨12000, 0, 1, 0, 0⟩ ≤ 10 ^ 100 := by
  have : dist2 (⟨0, 0, 0, 0, 0⟩ : State) ⟨12000, 0, 1, 0, 0⟩ = 12000 := by
    rw [dist2, show ((12000:ℝ) - 0) ^ 2 + (0 - 0) ^ 2 = 12000 ^ 2 by norm_num, sqrt_sq (by norm_num)]
  rw [this]
  exact ⟨by constructor <;> norm_num, by norm_num [smoothCost], by norm_num⟩

/-! ## C116, all states -/

theorem CoarseEnough.long (h : InRange sp.kappa sp.sigma)
    (hc : CoarseEnough sp.kappa sp.sigma (toleranceRatio sp.kappa sp.sigma)) : LongClothoids sp := by
  have hA := Spec.clothoidBound_pos h.rng
  have := hc.small
  unfold toleranceRatio at this
  rw [div_le_iff₀ hA] at this
  have hA' : clothoidBound sp.kappa sp.sigma * 10 = min (sp.kappa / sp.sigma) (1 / √sp.sigma / 2) := by
    unfold clothoidBound; ring
  unfold LongClothoids
  rw [← hA']
  linarith

theorem tolerance_pos (h : InRange sp.kappa sp.sigma) {x : ℝ} (hx : 0 ≤ x) :
    0 < (1 + 2 * toleranceRatio sp.kappa sp.sigma) * (sp.kappa * (1 + 1 / 10 ^ 8)) + x := by
  have := h.rng.pos
  have := h.rng.radius_nonneg
  have := Spec.clothoidBound_pos h.rng
  unfold toleranceRatio
  positivity

/-- **C116, CC00, all states.** No path is shorter than the Dubins path of the slightly greater curvature of C126. -/
theorem C116_cc00_all (h : InRange sp.kappa sp.sigma) (hd : 0 < sp.discretization) (s1 s2 : State) (hfar : dist2 s1 s2 ≤ 10 ^ 100)
    (hc : CoarseEnough sp.kappa sp.sigma (toleranceRatio sp.kappa sp.sigma)) :
    ∃ cs, CC00.get_controls sp s1 s2 = some cs ∧
      NoShorter sp ((1 + 2 * toleranceRatio sp.kappa sp.sigma) * (sp.kappa * (1 + 1 / 10 ^ 8))) s1 cs := by
  obtain ⟨cs, hcs, hl, _⟩ := C126_cc00_limits h s1 s2 hfar hc
  obtain ⟨cs', hcs', hw⟩ := C52_cc00_direction h s1 s2 hfar (hc.long h)
  obtain rfl := Option.some.inj (hcs'.symm.trans hcs)
  exact ⟨_, hcs, noShorter (by simpa using tolerance_pos h le_rfl) hd hw hl⟩

/-- **C116, CC0pm, all states.** -/
theorem C116_cc0pm_all (h : InRange sp.kappa sp.sigma) (hd : 0 < sp.discretization) (s1 s2 : State) (hfar : dist2 s1 s2 ≤ 10 ^ 100)
    (hc : CoarseEnough sp.kappa sp.sigma (toleranceRatio sp.kappa sp.sigma)) :
    ∃ cs, SF.CC0pm.get_controls sp s1 s2 = some cs ∧
      NoShorter sp ((1 + 2 * toleranceRatio sp.kappa sp.sigma) * (sp.kappa * (1 + 1 / 10 ^ 8))) s1 cs := by
  obtain ⟨cs, hcs, hl, _⟩ := C126_cc0pm_limits h s1 s2 hfar hc
  obtain ⟨cs', hcs', hw⟩ := C58_cc0pm_direction h s1 s2 hfar ((hc.long h).turn h)
  obtain rfl := Option.some.inj (hcs'.symm.trans hcs)
  exact ⟨_, hcs, noShorter (by simpa using tolerance_pos h le_rfl) hd hw hl⟩

/-- **C116, CCpm0, all states.** -/
theorem C116_ccpm0_all (h : InRange sp.kappa sp.sigma) (hd : 0 < sp.discretization) (s1 s2 : State) (hfar : dist2 s1 s2 ≤ 10 ^ 100)
    (hc : CoarseEnough sp.kappa sp.sigma (toleranceRatio sp.kappa sp.sigma)) :
    ∃ cs, SF.CCpm0.get_controls sp s1 s2 = some cs ∧
      NoShorter sp ((1 + 2 * toleranceRatio sp.kappa sp.sigma) * (sp.kappa * (1 + 1 / 10 ^ 8))) s1 cs := by
  obtain ⟨cs, hcs, hl, _⟩ := C126_ccpm0_limits h s1 s2 hfar hc
  obtain ⟨cs', hcs', hw⟩ := C58_ccpm0_direction h s1 s2 hfar ((hc.long h).turn h)
  obtain rfl := Option.some.inj (hcs'.symm.trans hcs)
  exact ⟨_, hcs, noShorter (by simpa using tolerance_pos h le_rfl) hd hw hl⟩

/-- **C116, CC, all states** of curvature at most `kappa` for which the assertions hold. -/
theorem C116_cc_all (h : InRange sp.kappa sp.sigma) (hd : 0 < sp.discretization) (s1 s2 : State) (hr : InReach sp s1 s2)
    (hA : SF.CC.Asserts sp junk s1 s2) (h1 : |s1.kappa| ≤ sp.kappa) (h2 : |s2.kappa| ≤ sp.kappa)
    (hc : CoarseEnough sp.kappa sp.sigma (toleranceRatio sp.kappa sp.sigma)) {cs : List Control}
    (hcs : SF.CC.IsControls sp junk s1 s2 cs) :
    NoShorter sp ((1 + 2 * toleranceRatio sp.kappa sp.sigma) * (sp.kappa * (1 + 1 / 10 ^ 8)) + 1 / 10000) s1 cs :=
  noShorter (tolerance_pos h (by norm_num)) hd (C64_cc_direction h s1 s2 hr (hc.long h) hcs)
    (C126_cc_limits h s1 s2 hr hA h1 h2 hc hcs).1

/-- Two states three radii apart, where C116_cc00_partial says nothing about paths of two turns; the planner reaches the goal. -/
example : InRange 1 1 ∧ CoarseEnough 1 1 (toleranceRatio 1 1) ∧ LongClothoids ⟨1, 1, 1, true⟩ ∧
    dist2 ⟨0, 0, 0, 0, 0⟩ ⟨3, 0, 0, 0, 0⟩ ≤ 10 ^ 100 := by
  have h : InRange 1 1 := ⟨by norm_num, by norm_num, by norm_num, by norm_num⟩
  have hc : CoarseEnough 1 1 (toleranceRatio 1 1) := ⟨by norm_num, by rw [ratio_one.1]; norm_num⟩
  refine ⟨h, hc, CoarseEnough.long (sp := ⟨1, 1, 1, true⟩) h hc, ?_⟩
  rw [dist2, show ((3:ℝ) - 0) ^ 2 + (0 - 0) ^ 2 = 3 ^ 2 by norm_num, sqrt_sq (by norm_num)]
  norm_num

end Props
