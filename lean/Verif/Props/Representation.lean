import Verif.Lemmas.Representation
import Verif.Lemmas.RSPeriod
import Verif.Lemmas.MotionWitness
import Verif.Props.CcDubins

/-!
# Representation of states: full turns of the heading, units of length
-/

noncomputable section

namespace Props

open SF Spec Real

/-! ## C100 -/

/-- **C100, planners for zero or maximum curvature.** The distances of the planners with clothoids, and the controls they return, do not
change if full turns are added to the headings. -/
theorem C100_basic_planners (sp : HCSpace) {s1 s1' s2 s2' : State} (h1 : SameState s1 s1') (h2 : SameState s2 s2') :
    (CC00.get_distance sp s1' s2' = CC00.get_distance sp s1 s2 ∧ CC00.get_controls sp s1' s2' = CC00.get_controls sp s1 s2) ∧
    (CC0pm.get_distance sp s1' s2' = CC0pm.get_distance sp s1 s2 ∧ CC0pm.get_controls sp s1' s2' = CC0pm.get_controls sp s1 s2) ∧
    (CCpm0.get_distance sp s1' s2' = CCpm0.get_distance sp s1 s2 ∧ CCpm0.get_controls sp s1' s2' = CCpm0.get_controls sp s1 s2) ∧
    (CCpmpm.get_distance sp s1' s2' = CCpmpm.get_distance sp s1 s2 ∧
      CCpmpm.get_controls sp s1' s2' = CCpmpm.get_controls sp s1 s2) ∧
    (CcRs.get_distance sp s1' s2' = CcRs.get_distance sp s1 s2 ∧ CcRs.get_controls sp s1' s2' = CcRs.get_controls sp s1 s2) ∧
    ∀ pm1 pm2, HcRs.get_distance pm1 pm2 sp s1' s2' = HcRs.get_distance pm1 pm2 sp s1 s2 ∧
      HcRs.get_controls pm1 pm2 sp s1' s2' = HcRs.get_controls pm1 pm2 sp s1 s2 := by
  simp only [CC00.get_distance, CC00.get_controls, CC0pm.get_distance, CC0pm.get_controls, CCpm0.get_distance,
    CCpm0.get_controls, CCpmpm.get_distance, CCpmpm.get_controls, CcRs.get_distance, CcRs.get_controls, HcRs.get_distance,
    HcRs.get_controls, h1.cc00 h2, h1.cc0pm h2, h1.ccpm0 h2, h1.ccpmpm h2, h1.ccrs h2, h1.hcrs h2, and_self, implies_true]

/-- **C100, planners for arbitrary curvature.** The same for CC-Dubins and HC-Reeds-Shepp, where a list of controls is a possible result for
one representation if and only if it is one for the other. -/
theorem C100_general_planners (sp : HCSpace) (junk : ℝ) {s1 s1' s2 s2' : State} (h1 : SameState s1 s1') (h2 : SameState s2 s2') :
    CC.get_distance sp junk s1' s2' = CC.get_distance sp junk s1 s2 ∧
    HC.get_distance sp junk s1' s2' = HC.get_distance sp junk s1 s2 ∧
    ∀ cs, (CC.IsControls sp junk s1' s2' cs ↔ CC.IsControls sp junk s1 s2 cs) ∧
      (HC.IsControls sp junk s1' s2' cs ↔ HC.IsControls sp junk s1 s2 cs) :=
  ⟨min_distance_same (cc_distance_respects sp) (cc_predict_same h1 _ _ _) (cc_predict_same h2 _ _ _),
    min_distance_same (hc_distance_respects sp) (hc_predict_same h1 _ _) (hc_predict_same h2 _ _),
    fun cs => ⟨min_controls_same (cc_controls_respects sp) (cc_predict_same h1 _ _ _) (cc_predict_same h2 _ _ _) cs,
      min_controls_same (hc_controls_respects sp) (hc_predict_same h1 _ _) (hc_predict_same h2 _ _) cs⟩⟩

/-- A state that needs a prediction, with headings on different sides of the cut of `pify`. -/
example : CC.get_distance ⟨1, 1, 1, true⟩ 0 ⟨0, 0, 0, 0, 0⟩ ⟨1, 2, -π, 1 / 2, 0⟩ =
    CC.get_distance ⟨1, 1, 1, true⟩ 0 ⟨0, 0, 0, 0, 0⟩ ⟨1, 2, π, 1 / 2, 1⟩ :=
  (C100_general_planners ⟨1, 1, 1, true⟩ 0 (s1 := ⟨0, 0, 0, 0, 0⟩) (s1' := ⟨0, 0, 0, 0, 0⟩) (s2 := ⟨1, 2, π, 1 / 2, 1⟩)
    (s2' := ⟨1, 2, -π, 1 / 2, 0⟩) ⟨rfl, rfl, AngleEq.refl _, rfl⟩ ⟨rfl, rfl, ⟨-1, by push_cast; ring⟩, rfl⟩).1

/-! ## C101 -/

/-- The state in a unit of length that is `c` times smaller. -/
def scaled (c : ℝ) (s : State) : State := ⟨c * s.x, c * s.y, s.theta, s.kappa / c, s.d⟩

/-- The control in a unit of length that is `c` times smaller. -/
def scaledControl (c : ℝ) (u : Control) : Control := ⟨c * u.delta_s, u.kappa / c, u.sigma / c ^ 2⟩

/-- **C101, Reeds-Shepp.** Distances and controls do not depend on the unit of length. -/
theorem C101_rs_units (kappa disc disc' : ℝ) {c : ℝ} (hc : 0 < c) (s1 s2 : State) :
    (RSSpace.mk (kappa / c) disc').get_distance (scaled c s1) (scaled c s2) = c * (RSSpace.mk kappa disc).get_distance s1 s2 ∧
    (RSSpace.mk (kappa / c) disc').get_controls (scaled c s1) (scaled c s2) =
      ((RSSpace.mk kappa disc).get_controls s1 s2).map (scaledControl c) := by
  have e : (RSSpace.mk (kappa / c) disc').params (scaled c s1) (scaled c s2) = (RSSpace.mk kappa disc).params s1 s2 := by
    simp only [RSSpace.params, scaled]
    refine Prod.ext ?_ (Prod.ext ?_ rfl) <;> simp only <;> field_simp
  have er : (RSSpace.mk (kappa / c) disc').reeds_shepp (scaled c s1) (scaled c s2) = (RSSpace.mk kappa disc).reeds_shepp s1 s2 := by
    unfold RSSpace.reeds_shepp; rw [e]
  have ei : (RSSpace.mk (kappa / c) disc').kappa_inv = c * (RSSpace.mk kappa disc).kappa_inv := by
    simp only [RSSpace.kappa_inv]; rw [one_div_div]; ring
  refine ⟨by unfold RSSpace.get_distance; rw [er, ei, mul_assoc], ?_⟩
  unfold RSSpace.get_controls
  rw [er]
  have loop : ∀ l : List (RSSeg × ℝ), (RSSpace.mk (kappa / c) disc').loop l =
      ((RSSpace.mk kappa disc).loop l).map (scaledControl c) := by
    intro l
    induction l with
    | nil => rfl
    | cons a l ih =>
      obtain ⟨ty, x⟩ := a
      cases ty <;> simp [RSSpace.loop, ih, scaledControl, ei, mul_assoc, neg_div]
  exact loop _

/-- **C101, Dubins.** Distances and controls do not depend on the unit of length. -/
theorem C101_dubins_units (kappa disc disc' : ℝ) (fw : Bool) {c : ℝ} (hc : 0 < c) (s1 s2 : State) :
    (DubinsSpace.mk (kappa / c) disc' fw).get_distance (scaled c s1) (scaled c s2) =
      c * (DubinsSpace.mk kappa disc fw).get_distance s1 s2 ∧
    (DubinsSpace.mk (kappa / c) disc' fw).get_controls (scaled c s1) (scaled c s2) =
      ((DubinsSpace.mk kappa disc fw).get_controls s1 s2).map (scaledControl c) := by
  have e : ∀ s1 s2, (DubinsSpace.mk (kappa / c) disc' fw).params (scaled c s1) (scaled c s2) =
      (DubinsSpace.mk kappa disc fw).params s1 s2 := by
    intro s1 s2
    have ha : atan2 (c * s2.y - c * s1.y) (c * s2.x - c * s1.x) = atan2 (s2.y - s1.y) (s2.x - s1.x) := by
      unfold atan2
      have : (⟨c * s2.x - c * s1.x, c * s2.y - c * s1.y⟩ : ℂ) = (c : ℂ) * ⟨s2.x - s1.x, s2.y - s1.y⟩ := by
        apply Complex.ext <;> simp <;> ring
      rw [this, Complex.arg_real_mul _ hc]
    have hs : √((c * s2.x - c * s1.x) * (c * s2.x - c * s1.x) + (c * s2.y - c * s1.y) * (c * s2.y - c * s1.y)) =
        c * √((s2.x - s1.x) * (s2.x - s1.x) + (s2.y - s1.y) * (s2.y - s1.y)) := by
      rw [show (c * s2.x - c * s1.x) * (c * s2.x - c * s1.x) + (c * s2.y - c * s1.y) * (c * s2.y - c * s1.y) =
        c ^ 2 * ((s2.x - s1.x) * (s2.x - s1.x) + (s2.y - s1.y) * (s2.y - s1.y)) by ring, sqrt_mul (by positivity), sqrt_sq hc.le]
    simp only [DubinsSpace.params, scaled, ha, hs]
    refine Prod.ext ?_ rfl
    simp only; field_simp
  have er : ∀ s1 s2, (DubinsSpace.mk (kappa / c) disc' fw).dubins (scaled c s1) (scaled c s2) =
      (DubinsSpace.mk kappa disc fw).dubins s1 s2 := by
    intro s1 s2; unfold DubinsSpace.dubins; rw [e]
  have ei : (DubinsSpace.mk (kappa / c) disc' fw).kappa_inv = c * (DubinsSpace.mk kappa disc fw).kappa_inv := by
    simp only [DubinsSpace.kappa_inv]; rw [one_div_div]; ring
  have ec : ∀ ty l, (DubinsSpace.mk (kappa / c) disc' fw).control ty l = scaledControl c ((DubinsSpace.mk kappa disc fw).control ty l) := by
    intro ty l
    cases ty <;> simp [DubinsSpace.control, scaledControl, ei, mul_assoc, neg_div]
  constructor
  · unfold DubinsSpace.get_distance
    rw [er, er, ei]
    split_ifs <;> ring
  · unfold DubinsSpace.get_controls
    rw [er, er]
    simp only [DubinsSpace.pathControls, ec]
    split_ifs
    · simp
    · simp [scaledControl]

/-- **C101 is false of CC00-Dubins**: the tolerance for equal states is an absolute length, so that the path between two states is empty in one
unit of length and not in another. Both spaces are in the supported range. -/
theorem C101_cc00_false : ∃ (kappa sigma disc c : ℝ) (s1 s2 : State), 0 < c ∧ InRange kappa sigma ∧ InRange (kappa / c) (sigma / c ^ 2) ∧
    CC00.get_distance ⟨kappa / c, sigma / c ^ 2, disc, true⟩ (scaled c s1) (scaled c s2) ≠
      c * CC00.get_distance ⟨kappa, sigma, disc, true⟩ s1 s2 := by
  refine ⟨3 / 4, 5625, 1, 3 / 2, ⟨0, 0, 0, 0, 0⟩, ⟨0, 8 / 100000, 0, 0, 0⟩, by norm_num, ?_, ?_, ne_of_gt ?_⟩
  · constructor <;> norm_num
  · constructor <;> norm_num
  · have h0 := beside_zero (sp := ⟨3 / 4, 5625, 1, true⟩) rfl rfl (s1 := ⟨0, 0, 0, 0, 0⟩) (s2 := ⟨0, 8 / 100000, 0, 0, 0⟩) rfl rfl
      rfl (by norm_num) (by norm_num)
    have h1 := beside_pos (sp := ⟨3 / 4 / (3 / 2), 5625 / (3 / 2) ^ 2, 1, true⟩) (by norm_num) (by norm_num)
      (s1 := scaled (3 / 2) ⟨0, 0, 0, 0, 0⟩) (s2 := scaled (3 / 2) ⟨0, 8 / 100000, 0, 0, 0⟩) rfl rfl (by simp [scaled])
      (by norm_num [scaled])
    linarith

/-- One kilometre or a thousand metres. -/
example : (RSSpace.mk (1 / 1000) 1).get_distance ⟨0, 0, 0, 0, 0⟩ ⟨1000, 2000, 3, 0, 0⟩ =
    1000 * (RSSpace.mk 1 1).get_distance ⟨0, 0, 0, 0, 0⟩ ⟨1, 2, 3, 0, 0⟩ := by
  have := (C101_rs_units 1 1 1 (c := 1000) (by norm_num) ⟨0, 0, 0, 0, 0⟩ ⟨1, 2, 3, 0, 0⟩).1
  norm_num [scaled] at this ⊢
  exact this

end Props
