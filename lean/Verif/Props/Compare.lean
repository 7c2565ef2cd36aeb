import Verif.Lemmas.CompareAll
import Verif.Lemmas.DubinsCut
import Verif.Props.Dubins
import Verif.Props.ReedsShepp
import Verif.Props.Symmetry

/-!
# The Reeds-Shepp planner against the Dubins planner: C111
-/

noncomputable section

namespace Props

open SF Spec Real

/-- A word replaced by a Reeds-Shepp word bounds the Reeds-Shepp distance. -/
theorem rs_le_of_beaten {sp : RSSpace} (hv : sp.Valid) {s1 s2 : State} {ws : List (ℝ × ℝ)} {L : ℝ} (hw : UnitW ws)
    (h : Beaten ws L) (hr : Reaches (wordSegs sp.kappa ws) (pose s1) (pose s2)) : sp.get_distance s1 s2 ≤ 1 / sp.kappa * L := by
  obtain ⟨ws', h1, h2, h3⟩ := h
  have hk := hv.1
  have hr' := (reaches_iff_hits hk h1.unit s1 s2).2 (h2 _ _ _ ((reaches_iff_hits hk hw s1 s2).1 hr))
  refine (C25_rs_shortest hv s1 s2 _ (h1.path sp.kappa) hr').trans ?_
  rw [totalLength_wordSegs hk]
  exact mul_le_mul_of_nonneg_left h3 (by positivity)

/-- **C111, any Dubins path.** The distance of the Reeds-Shepp planner is at most the length of every Dubins path (forward
only, turn - straight - turn or three turns) with the same curvature and the same ends. -/
theorem C111_rs_le_dubins_path {sp : RSSpace} (hv : sp.Valid) (s1 s2 : State) (cs : List Segment)
    (hcs : DubinsPath sp.kappa cs) (hr : Reaches cs (pose s1) (pose s2)) : sp.get_distance s1 s2 ≤ totalLength cs := by
  have hk := hv.1
  have hk' := hk.ne'
  cases hcs with
  | @csc e1 e3 a b c he1 he3 ha hb hc =>
    have e : [(⟨a, e1 * sp.kappa, 0⟩ : Segment), ⟨b, 0, 0⟩, ⟨c, e3 * sp.kappa, 0⟩] =
        wordSegs sp.kappa [(e1, sp.kappa * a), (0, sp.kappa * b), (e3, sp.kappa * c)] := by
      simp [wordSegs, mul_div_cancel_left₀ _ hk']
    rw [e] at hr
    have := rs_le_of_beaten hv (unitW3 he1 (Or.inl rfl) he3) (csc_beaten he1 he3 (by positivity) (by positivity) (by positivity)) hr
    refine this.trans_eq ?_
    simp only [totalLength, List.map_cons, List.map_nil, List.sum_cons, List.sum_nil, abs_of_nonneg ha, abs_of_nonneg hb, abs_of_nonneg hc]
    field_simp
    ring
  | @ccc e a b c he ha hb1 hb2 hc =>
    have hb : 0 ≤ b := by
      by_contra h
      push Not at h
      linarith [mul_neg_of_pos_of_neg hk h, pi_pos]
    have eq : [(⟨a, e * sp.kappa, 0⟩ : Segment), ⟨b, -e * sp.kappa, 0⟩, ⟨c, e * sp.kappa, 0⟩] =
        wordSegs sp.kappa [(e, sp.kappa * a), (-e, sp.kappa * b), (e, sp.kappa * c)] := by
      simp [wordSegs, mul_div_cancel_left₀ _ hk']
    rw [eq] at hr
    have he' : IsSign e := he
    have := rs_le_of_beaten hv (unitW3 he (Or.inr he'.neg) he) (ccc_beaten he hb1.le hb2 (by positivity) (by positivity)) hr
    refine this.trans_eq ?_
    simp only [totalLength, List.map_cons, List.map_nil, List.sum_cons, List.sum_nil, abs_of_nonneg ha, abs_of_nonneg hb, abs_of_nonneg hc]
    field_simp
    ring

/-- A Dubins path that the theorem covers: a whole turn to the left, then 5 m ahead. -/
example : DubinsPath 1 [⟨2 * π, 1 * 1, 0⟩, ⟨5, 0, 0⟩, ⟨0, 1 * 1, 0⟩] ∧
    Reaches [⟨2 * π, 1 * 1, 0⟩, ⟨5, 0, 0⟩, ⟨0, 1 * 1, 0⟩] (pose ⟨0, 0, 0, 0, 0⟩) (pose ⟨5, 0, 0, 0, 0⟩) := by
  refine ⟨DubinsPath.csc (Or.inl rfl) (Or.inl rfl) (by positivity) (by norm_num) le_rfl, ?_⟩
  have h : Hits [(1, 2 * π), (0, 5), (1, 0)] ((⟨1, 1⟩ : RSSpace).params ⟨0, 0, 0, 0, 0⟩ ⟨5, 0, 0, 0, 0⟩).1
      ((⟨1, 1⟩ : RSSpace).params ⟨0, 0, 0, 0, 0⟩ ⟨5, 0, 0, 0, 0⟩).2.1
      ((⟨1, 1⟩ : RSSpace).params ⟨0, 0, 0, 0, 0⟩ ⟨5, 0, 0, 0, 0⟩).2.2 := by
    simp only [Hits, uEnd, uStep, RSSpace.params]
    norm_num
    exact ⟨1, by push_cast; ring⟩
  have := (reaches_iff_hits (sp := ⟨1, 1⟩) one_pos (unitW3 one_sign (Or.inl rfl) one_sign) _ _).2 h
  simpa [wordSegs] using this

/-- **C111, outside of the tolerances.** A car that may also reverse never needs a longer path: the distance of
`Reeds_Shepp_State_Space` is at most that of `Dubins_State_Space` with the same curvature, forwards or backwards.  Missing: the
states which the Dubins planner takes to be equal or tangent, see `C111_rs_le_dubins_false`. -/
theorem C111_rs_le_dubins_partial {sp : RSSpace} {du : DubinsSpace} (hv : sp.Valid) (hd : du.Valid) (hk : du.kappa = sp.kappa)
    (s1 s2 : State) (hfar : du.kappa * dist2 s1 s2 ≤ 10 ^ 200) (hne : ¬ NearlyEqual du.kappa s1 s2)
    (hz : ¬ NearlyTangent du.kappa s1 s2) : sp.get_distance s1 s2 ≤ du.get_distance s1 s2 := by
  have fw : ∀ t1 t2 : State, du.kappa * dist2 t1 t2 ≤ 10 ^ 200 → ¬ NearlyEqual du.kappa t1 t2 →
      ¬ NearlyTangent du.kappa t1 t2 → sp.get_distance t1 t2 ≤ (⟨du.kappa, du.discretization, true⟩ : DubinsSpace).get_distance t1 t2 := by
    intro t1 t2 hf hn hzz
    rw [C16_dubins_distance (sp := ⟨du.kappa, du.discretization, true⟩) hd t1 t2 hf]
    apply C111_rs_le_dubins_path hv t1 t2
    · rw [← hk]
      exact dubins_path (sp := ⟨du.kappa, du.discretization, true⟩) hd.1 t1 t2 hf
    · exact C15_dubins_reaches (sp := ⟨du.kappa, du.discretization, true⟩) hd t1 t2 hf hn hzz
  obtain ⟨k, disc, f⟩ := du
  cases f with
  | true => exact fw s1 s2 hfar hne hz
  | false =>
    rw [C21_dubins_backwards, ← C97_rs_symmetric hv]
    exact fw s2 s1 (by rw [dist2_symm]; exact hfar) (fun h => hne (nearlyEqual_symm h)) (fun h => hz (nearlyTangent_symm h))

/-- Two states that the theorem covers: a goal 2 m behind the car, where the Dubins planner has to drive a loop. -/
example : ¬ NearlyEqual 1 ⟨0, 0, 0, 0, 0⟩ ⟨-2, 0, 0, 0, 0⟩ ∧ ¬ NearlyTangent 1 ⟨0, 0, 0, 0, 0⟩ ⟨-2, 0, 0, 0, 0⟩ := by
  constructor
  · rintro ⟨h, _⟩
    unfold dist2 at h
    have : √(((-2:ℝ) - 0) ^ 2 + (0 - 0) ^ 2) = 2 := by
      rw [show ((-2:ℝ) - 0) ^ 2 + (0 - 0) ^ 2 = 2 ^ 2 by norm_num]; exact sqrt_sq (by norm_num)
    rw [this] at h; norm_num at h
  · rintro ⟨e, he, _, h⟩
    unfold crossDist2 at h
    rcases he with rfl | rfl <;> norm_num at h

/-- **C111 is false** within the tolerance of the Dubins planner: two states at the same place whose headings differ by `5e-7`
have Dubins distance 0, while the Reeds-Shepp planner turns the car. -/
theorem C111_rs_le_dubins_false : ∃ (sp : RSSpace) (du : DubinsSpace) (s1 s2 : State), sp.Valid ∧ du.Valid ∧
    du.kappa = sp.kappa ∧ du.get_distance s1 s2 < sp.get_distance s1 s2 := by
  obtain ⟨e, he⟩ : ∃ e : ℝ, e = 5 / 10 ^ 7 := ⟨_, rfl⟩
  have hpi := pi_gt_three
  have he0 : 0 < e := by rw [he]; norm_num
  have he1 : e < 1 := by rw [he]; norm_num
  refine ⟨⟨1, 1⟩, ⟨1, 1, true⟩, ⟨0, 0, 0, 0, 0⟩, ⟨0, 0, e, 0, 0⟩, ⟨one_pos, one_pos⟩, ⟨one_pos, one_pos⟩, rfl, ?_⟩
  have z : atan2 0 0 = 0 := atan2_zero_nonneg le_rfl
  have p1 : (DubinsSpace.mk 1 1 true).params ⟨0, 0, 0, 0, 0⟩ ⟨0, 0, e, 0, 0⟩ = (0, 0, e) := by
    simp only [DubinsSpace.params, sub_self, mul_zero, add_zero, sqrt_zero, zero_mul, z, sub_zero]
    rw [twopify_of_mem le_rfl (by linarith), twopify_of_mem he0.le (by linarith)]
  have d1 : (DubinsSpace.mk 1 1 true).get_distance ⟨0, 0, 0, 0, 0⟩ ⟨0, 0, e, 0, 0⟩ = 0 := by
    simp only [DubinsSpace.get_distance, DubinsSpace.dubins, p1, if_true, SF.dubins]
    rw [if_pos]
    · simp [DPath.length]
    · unfold DUBINS_EPS
      refine ⟨by norm_num, ?_⟩
      rw [zero_sub, abs_neg, abs_of_pos he0, he]; norm_num
  rw [d1]
  have hv : (⟨1, 1⟩ : RSSpace).Valid := ⟨one_pos, one_pos⟩
  obtain ⟨r, h1, h2, h3, h4⟩ := C22_rs_reaches hv ⟨0, 0, 0, 0, 0⟩ ⟨0, 0, e, 0, 0⟩ (by simp [dist2])
  rw [C23_rs_distance hv]
  obtain ⟨cs, hcs⟩ : ∃ cs, cs = ((⟨1, 1⟩ : RSSpace).get_controls ⟨0, 0, 0, 0, 0⟩ ⟨0, 0, e, 0, 0⟩).map seg := ⟨_, rfl⟩
  rw [← hcs] at h1 ⊢
  by_contra hc
  push Not at hc
  have hall : ∀ (l : List Segment) (p : Config), totalLength l ≤ 0 → arriveAll l p = p := by
    intro l
    induction l with
    | nil => intro p _; rfl
    | cons c l ih =>
      intro p hl
      simp only [totalLength, List.map_cons, List.sum_cons] at hl
      have h5 : 0 ≤ (l.map fun c => |c.len|).sum := List.sum_nonneg (by simp)
      have h6 : |c.len| = 0 := le_antisymm (by linarith) (abs_nonneg _)
      simp only [arriveAll, h6, arrive_zero]
      exact ih p (by unfold totalLength; linarith [abs_nonneg c.len])
  rw [drivesAll_iff.1 h1, hall cs _ hc] at h4
  simp only [pose] at h4
  have := angleEq_eq_of_mem h4 le_rfl (by linarith) he0.le (by linarith)
  linarith

end Props
