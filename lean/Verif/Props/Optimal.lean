import Verif.Lemmas.OptimalPath
import Verif.Lemmas.HcSampling
import Verif.Props.Compare

/-!
# The distance of the Dubins planner among all paths of bounded curvature: C112 to C115
-/

noncomputable section

namespace Props

open SF Spec Real Set

/-- The driving direction of a Dubins planner. -/
def dirOf (sp : DubinsSpace) : ℝ := if sp.forwards then 1 else -1

/-! ## C112 -/

/-- **C112, lower bound.** No path whatsoever with the driving direction of the planner and curvature at most `kappa` leads from
`s1` to `s2` and is shorter than `get_distance`.  All states, including those in the tolerances of the planner. -/
theorem C112_dubins_optimal {sp : DubinsSpace} (hv : sp.Valid) (s1 s2 : State) {L : ℝ} (hL : 0 ≤ L)
    (h : CanDrive (dirOf sp) sp.kappa L (pose s1) (pose s2)) : sp.get_distance s1 s2 ≤ L := by
  have fw : ∀ t1 t2 : State, CanDrive 1 sp.kappa L (pose t1) (pose t2) →
      (⟨sp.kappa, sp.discretization, true⟩ : DubinsSpace).get_distance t1 t2 ≤ L := by
    intro t1 t2 h
    have hk := hv.1
    obtain ⟨ws, h1, h2, h3⟩ := h.word hk hL
    refine (C18_dubins_shortest (sp := ⟨sp.kappa, sp.discretization, true⟩) hv rfl t1 t2 _ (h1.path hk) h3).trans ?_
    rw [totalLength_wordSegs hk, one_div, inv_mul_le_iff₀ hk]
    exact h2
  obtain ⟨k, disc, f⟩ := sp
  cases f with
  | true => exact fw s1 s2 h
  | false =>
    rw [C21_dubins_backwards]
    have := h.back
    simp only [dirOf, Bool.false_eq_true, if_false, neg_neg] at this
    exact fw s2 s1 this

/-- **C112, attained.** Outside of the tolerances some path has length `get_distance`. -/
theorem C112_dubins_attained {sp : DubinsSpace} (hv : sp.Valid) (s1 s2 : State) (hfar : sp.kappa * dist2 s1 s2 ≤ 10 ^ 200)
    (hne : ¬ NearlyEqual sp.kappa s1 s2) (hz : ¬ NearlyTangent sp.kappa s1 s2) :
    0 ≤ sp.get_distance s1 s2 ∧ CanDrive (dirOf sp) sp.kappa (sp.get_distance s1 s2) (pose s1) (pose s2) := by
  have fw : ∀ t1 t2 : State, sp.kappa * dist2 t1 t2 ≤ 10 ^ 200 → ¬ NearlyEqual sp.kappa t1 t2 →
      ¬ NearlyTangent sp.kappa t1 t2 → 0 ≤ (⟨sp.kappa, sp.discretization, true⟩ : DubinsSpace).get_distance t1 t2 ∧
      CanDrive 1 sp.kappa ((⟨sp.kappa, sp.discretization, true⟩ : DubinsSpace).get_distance t1 t2) (pose t1) (pose t2) := by
    intro t1 t2 hf hn hzz
    rw [C16_dubins_distance (sp := ⟨sp.kappa, sp.discretization, true⟩) hv t1 t2 hf]
    refine ⟨by unfold totalLength; exact List.sum_nonneg (by simp), ?_⟩
    exact DubinsPath.canDrive hv.1 (dubins_path (sp := ⟨sp.kappa, sp.discretization, true⟩) hv.1 t1 t2 hf)
      (C15_dubins_reaches (sp := ⟨sp.kappa, sp.discretization, true⟩) hv t1 t2 hf hn hzz)
  obtain ⟨k, disc, f⟩ := sp
  cases f with
  | true => exact fw s1 s2 hfar hne hz
  | false =>
    rw [C21_dubins_backwards]
    obtain ⟨h1, h2⟩ := fw s2 s1 (by rw [dist2_symm]; exact hfar) (fun h => hne (nearlyEqual_symm h))
      (fun h => hz (nearlyTangent_symm h))
    exact ⟨h1, h2.back⟩

/-- **C112, outside of the tolerances.** `get_distance` is the length of a shortest path: the least `L` such that a car with
curvature at most `kappa` can drive from `s1` to `s2` on a path of length `L`.  Missing: in the tolerances the distance is a lower
bound only (`C112_dubins_optimal`), see `C112_dubins_attained_false`. -/
theorem C112_dubins_is_least_partial {sp : DubinsSpace} (hv : sp.Valid) (s1 s2 : State)
    (hfar : sp.kappa * dist2 s1 s2 ≤ 10 ^ 200) (hne : ¬ NearlyEqual sp.kappa s1 s2) (hz : ¬ NearlyTangent sp.kappa s1 s2) :
    IsLeast {L | 0 ≤ L ∧ CanDrive (dirOf sp) sp.kappa L (pose s1) (pose s2)} (sp.get_distance s1 s2) :=
  ⟨C112_dubins_attained hv s1 s2 hfar hne hz, fun _ h => C112_dubins_optimal hv s1 s2 h.1 h.2⟩

/-- **C112, controls.** The same for paths given by controls: lines, arcs and clothoids in any number and order. -/
theorem C112_dubins_controls {sp : DubinsSpace} (hv : sp.Valid) (s1 s2 : State) (cs : List Segment)
    (hdir : ∀ c ∈ cs, c.len ≠ 0 → c.dir = dirOf sp) (hc : CurvatureAtMost sp.kappa cs)
    (hr : Reaches cs (pose s1) (pose s2)) : sp.get_distance s1 s2 ≤ totalLength cs := by
  have hd : dirOf sp = 1 ∨ dirOf sp = -1 := by unfold dirOf; split_ifs <;> simp
  obtain ⟨r, h1, h2⟩ := hr
  exact C112_dubins_optimal hv s1 s2 (by unfold totalLength; exact List.sum_nonneg (by simp))
    ⟨r, DrivesAll.curve hd h1 hdir hc, h2⟩

/-- A path that the theorems cover and that is not a Dubins path: a quarter of a circle of radius 2 for a car that could turn on a
circle of radius 1. -/
example : CanDrive (dirOf ⟨1, 1, true⟩) (DubinsSpace.mk 1 1 true).kappa π (pose ⟨0, 0, 0, 0, 0⟩) (pose ⟨2, 2, π / 2, 0, 0⟩) := by
  refine ⟨⟨2 * sin (π / 2), 2 - 2 * cos (π / 2), π / 2⟩, ⟨fun s => 2 * sin (s / 2), fun s => 2 - 2 * cos (s / 2), fun s => s / 2, ?_, ?_, ?_, ?_, ?_, ?_, rfl, rfl, rfl⟩, ?_⟩
  · intro s _
    have := (((hasDerivAt_id s).div_const 2).sin).const_mul 2
    simp only [id] at this
    simp only [dirOf, if_true, one_mul]
    rw [show 2 * (cos (s / 2) * (1 / 2)) = cos (s / 2) by ring] at this
    exact this.hasDerivWithinAt
  · intro s _
    have := ((((hasDerivAt_id s).div_const 2).cos).const_mul 2).const_sub 2
    simp only [id] at this
    simp only [dirOf, if_true, one_mul]
    rw [show -(2 * (-sin (s / 2) * (1 / 2))) = sin (s / 2) by ring] at this
    exact this.hasDerivWithinAt
  · intro s _ s' _
    rw [← sub_div, abs_div, abs_of_pos (by norm_num : (0:ℝ) < 2)]
    simp only [one_mul]
    linarith [abs_nonneg (s - s')]
  · simp [pose]
  · simp [pose]
  · simp [pose]
  · simp [SameConfig, pose]
    exact AngleEq.refl _

/-- Controls that the theorem covers: an arc of radius 2, a clothoid that straightens out, a line. -/
example : (∀ c ∈ [(⟨1, 1 / 2, 0⟩ : Segment), ⟨1, 1 / 2, -1 / 2⟩, ⟨3, 0, 0⟩], c.len ≠ 0 → c.dir = dirOf ⟨1, 1, true⟩) ∧
    CurvatureAtMost (DubinsSpace.mk 1 1 true).kappa [⟨1, 1 / 2, 0⟩, ⟨1, 1 / 2, -1 / 2⟩, ⟨3, 0, 0⟩] ∧
    ∃ q, Reaches [⟨1, 1 / 2, 0⟩, ⟨1, 1 / 2, -1 / 2⟩, ⟨3, 0, 0⟩] (pose ⟨0, 0, 0, 0, 0⟩) q := by
  refine ⟨?_, ?_, _, _, drivesAll_iff.2 rfl, SameConfig.refl _⟩
  · intro c hc _
    simp only [List.mem_cons, List.not_mem_nil, or_false] at hc
    rcases hc with rfl | rfl | rfl <;> norm_num [Segment.dir, dirOf]
  · intro c hc t h0 h1
    simp only [List.mem_cons, List.not_mem_nil, or_false] at hc
    rcases hc with rfl | rfl | rfl
    · rw [abs_of_nonneg (by norm_num)]; norm_num
    · simp only [abs_one] at h1
      rw [abs_le]; constructor <;> simp only <;> linarith
    · norm_num

/-- The distance of states at the same place whose headings nearly agree is 0. -/
theorem dubins_on_the_spot {a b : ℝ} (ha : 0 ≤ a) (ha1 : a < 1) (hb : 0 ≤ b) (hb1 : b < 1) (h : |a - b| < 1 / 10 ^ 6) :
    (DubinsSpace.mk 1 1 true).get_distance ⟨0, 0, a, 0, 0⟩ ⟨0, 0, b, 0, 0⟩ = 0 := by
  have hpi := pi_gt_three
  have z : atan2 0 0 = 0 := atan2_zero_nonneg le_rfl
  have p1 : (DubinsSpace.mk 1 1 true).params ⟨0, 0, a, 0, 0⟩ ⟨0, 0, b, 0, 0⟩ = (0, a, b) := by
    simp only [DubinsSpace.params, sub_self, mul_zero, add_zero, sqrt_zero, zero_mul, z, sub_zero]
    rw [twopify_of_mem ha (by linarith), twopify_of_mem hb (by linarith)]
  simp only [DubinsSpace.get_distance, DubinsSpace.dubins, p1, if_true, SF.dubins]
  rw [if_pos ⟨by unfold DUBINS_EPS; norm_num, h.trans_le (by unfold DUBINS_EPS; norm_num)⟩]
  simp [DPath.length]

/-- **C112 is false in the tolerances**: two states at the same place whose headings differ by `5e-7` have distance 0, but no
path of length 0 connects them. -/
theorem C112_dubins_attained_false : ∃ (sp : DubinsSpace) (s1 s2 : State), sp.Valid ∧ dist2 s1 s2 = 0 ∧
    ¬ CanDrive (dirOf sp) sp.kappa (sp.get_distance s1 s2) (pose s1) (pose s2) := by
  refine ⟨⟨1, 1, true⟩, ⟨0, 0, 0, 0, 0⟩, ⟨0, 0, 5 / 10 ^ 7, 0, 0⟩, ⟨one_pos, one_pos⟩, by simp [dist2], ?_⟩
  rw [dubins_on_the_spot le_rfl one_pos (by norm_num) (by norm_num) (by rw [zero_sub, abs_neg, abs_of_pos (by norm_num)]; norm_num)]
  rintro ⟨q, ⟨X, Y, T, -, -, -, -, -, t0, -, -, t1⟩, -, -, h⟩
  rw [← t1, t0] at h
  simp only [pose] at h
  have hpi := pi_gt_three
  have := angleEq_eq_of_mem h le_rfl (by linarith) (by norm_num) (by linarith)
  norm_num at this

/-! ## C113 -/

/-- **C113, outside of the tolerances.** The triangle inequality: a detour over a third state is never shorter.  Missing: legs of
the detour which the planner takes to be equal or tangent, see `C113_dubins_triangle_false`. -/
theorem C113_dubins_triangle_partial {sp : DubinsSpace} (hv : sp.Valid) (s1 s2 s3 : State)
    (hfar : sp.kappa * dist2 s1 s2 ≤ 10 ^ 200) (hne : ¬ NearlyEqual sp.kappa s1 s2) (hz : ¬ NearlyTangent sp.kappa s1 s2)
    (hfar' : sp.kappa * dist2 s2 s3 ≤ 10 ^ 200) (hne' : ¬ NearlyEqual sp.kappa s2 s3) (hz' : ¬ NearlyTangent sp.kappa s2 s3) :
    sp.get_distance s1 s3 ≤ sp.get_distance s1 s2 + sp.get_distance s2 s3 := by
  obtain ⟨a1, a2⟩ := C112_dubins_attained hv s1 s2 hfar hne hz
  obtain ⟨b1, b2⟩ := C112_dubins_attained hv s2 s3 hfar' hne' hz'
  exact C112_dubins_optimal hv s1 s3 (add_nonneg a1 b1) (a2.append a1 b1 b2)

theorem behind_clear {x : ℝ} (h1 : x ≤ -1) : ¬ NearlyEqual 1 ⟨0, 0, 0, 0, 0⟩ ⟨x, 0, 0, 0, 0⟩ ∧
    ¬ NearlyTangent 1 ⟨0, 0, 0, 0, 0⟩ ⟨x, 0, 0, 0, 0⟩ := by
  constructor
  · rintro ⟨h, _⟩
    unfold dist2 at h
    have : √((x - 0) ^ 2 + (0 - 0) ^ 2) = -x := by
      rw [show (x - 0) ^ 2 + ((0:ℝ) - 0) ^ 2 = (-x) ^ 2 by ring]; exact sqrt_sq (by linarith)
    rw [this] at h; norm_num at h; linarith
  · rintro ⟨e, he, _, h⟩
    unfold crossDist2 at h
    rcases he with rfl | rfl <;> simp at h <;> nlinarith

theorem dist_behind {x : ℝ} (h1 : x ≤ 0) : dist2 ⟨0, 0, 0, 0, 0⟩ ⟨x, 0, 0, 0, 0⟩ = -x := by
  unfold dist2
  rw [show (x - 0) ^ 2 + ((0:ℝ) - 0) ^ 2 = (-x) ^ 2 by ring]; exact sqrt_sq (by linarith)

/-- The distance to a goal 2 m behind the car is the length of a shortest path. -/
example : IsLeast {L | 0 ≤ L ∧ CanDrive 1 1 L (pose ⟨0, 0, 0, 0, 0⟩) (pose ⟨-2, 0, 0, 0, 0⟩)}
    ((DubinsSpace.mk 1 1 true).get_distance ⟨0, 0, 0, 0, 0⟩ ⟨-2, 0, 0, 0, 0⟩) := by
  obtain ⟨hne, hz⟩ := behind_clear (x := -2) (by norm_num)
  exact C112_dubins_is_least_partial (sp := ⟨1, 1, true⟩) ⟨one_pos, one_pos⟩ _ _ (by rw [dist_behind (by norm_num)]; norm_num) hne hz

/-- States that the theorem covers: a goal 2 m behind the car, and a third state 3 m behind that. -/
example : (¬ NearlyEqual 1 ⟨0, 0, 0, 0, 0⟩ ⟨-2, 0, 0, 0, 0⟩ ∧ ¬ NearlyTangent 1 ⟨0, 0, 0, 0, 0⟩ ⟨-2, 0, 0, 0, 0⟩) ∧
    ¬ NearlyEqual 1 ⟨-2, 0, 0, 0, 0⟩ ⟨-5, 0, 0, 0, 0⟩ ∧ ¬ NearlyTangent 1 ⟨-2, 0, 0, 0, 0⟩ ⟨-5, 0, 0, 0, 0⟩ := by
  refine ⟨behind_clear (by norm_num), ?_⟩
  have h := behind_clear (x := -3) (by norm_num)
  constructor
  · rintro ⟨a, b⟩
    refine h.1 ⟨?_, b⟩
    simp only [dist2] at a ⊢
    norm_num at a ⊢
    exact a
  · rintro ⟨e, he, a, b⟩
    refine h.2 ⟨e, he, ?_, ?_⟩
    · simp only [crossDist2] at a ⊢; convert a using 2; norm_num
    · simp only [crossDist2] at b ⊢; convert b using 2; norm_num

/-- **C113 is false in the tolerances**: two turns on the spot by `6e-7` cost nothing, a turn by `12e-7` does. -/
theorem C113_dubins_triangle_false : ∃ (sp : DubinsSpace) (s1 s2 s3 : State), sp.Valid ∧
    dist2 s1 s2 = 0 ∧ dist2 s2 s3 = 0 ∧ sp.get_distance s1 s2 + sp.get_distance s2 s3 < sp.get_distance s1 s3 := by
  have hpi := pi_gt_three
  have hv : (⟨1, 1, true⟩ : DubinsSpace).Valid := ⟨one_pos, one_pos⟩
  refine ⟨⟨1, 1, true⟩, ⟨0, 0, 0, 0, 0⟩, ⟨0, 0, 6 / 10 ^ 7, 0, 0⟩, ⟨0, 0, 12 / 10 ^ 7, 0, 0⟩, hv, by simp [dist2], by simp [dist2], ?_⟩
  rw [dubins_on_the_spot le_rfl one_pos (by norm_num) (by norm_num) (by rw [zero_sub, abs_neg, abs_of_pos (by norm_num)]; norm_num),
    dubins_on_the_spot (by norm_num) (by norm_num) (by norm_num) (by norm_num) (by rw [abs_of_neg (by norm_num)]; norm_num), add_zero]
  have hfar : (⟨1, 1, true⟩ : DubinsSpace).kappa * dist2 ⟨0, 0, 0, 0, 0⟩ ⟨0, 0, 12 / 10 ^ 7, 0, 0⟩ ≤ 10 ^ 200 := by simp [dist2]
  rw [C16_dubins_distance hv _ _ hfar]
  obtain ⟨r, h1, -, h, hh, hb⟩ := C15_dubins_reaches_within hv _ _ hfar
  by_contra hc
  push Not at hc
  have h0 : totalLength (((⟨1, 1, true⟩ : DubinsSpace).get_controls ⟨0, 0, 0, 0, 0⟩ ⟨0, 0, 12 / 10 ^ 7, 0, 0⟩).map seg) = 0 :=
    le_antisymm hc (by unfold totalLength; exact List.sum_nonneg (by simp))
  have hr := drivesAll_iff.1 h1
  rw [← drivesAll_iff.1 (drivesAll_zero _ (pose ⟨0, 0, 0, 0, 0⟩) h0)] at hr
  rw [hr] at hb
  obtain ⟨n, hn⟩ := hh
  simp only [pose] at hn hb
  rw [zero_sub, abs_neg, abs_le, hn] at hb
  have n1 : (n:ℝ) < 1 := by
    by_contra hh; push Not at hh; nlinarith [hb.2]
  have n2 : (-1:ℝ) < n := by
    by_contra hh; push Not at hh; nlinarith [hb.1]
  have : n = 0 := by
    have a1 : n < 1 := by exact_mod_cast n1
    have a2 : -1 < n := by exact_mod_cast n2
    omega
  rw [this] at hb
  norm_num at hb

/-! ## C114 -/

/-- **C114, outside of the tolerances.** A car that can turn more tightly never has a longer way.  Missing: states which the planner
of the smaller curvature takes to be equal or tangent, see `C114_dubins_monotone_false`. -/
theorem C114_dubins_monotone_partial {sp sp' : DubinsSpace} (hv : sp.Valid) (hv' : sp'.Valid) (hk : sp.kappa ≤ sp'.kappa)
    (hf : sp.forwards = sp'.forwards) (s1 s2 : State) (hfar : sp.kappa * dist2 s1 s2 ≤ 10 ^ 200)
    (hne : ¬ NearlyEqual sp.kappa s1 s2) (hz : ¬ NearlyTangent sp.kappa s1 s2) :
    sp'.get_distance s1 s2 ≤ sp.get_distance s1 s2 := by
  obtain ⟨a1, a2⟩ := C112_dubins_attained hv s1 s2 hfar hne hz
  have e : dirOf sp = dirOf sp' := by unfold dirOf; rw [hf]
  rw [e] at a2
  exact C112_dubins_optimal hv' s1 s2 a1 (a2.mono hk)

/-- States that the theorem covers, for planners of curvature 1 and 2. -/
example : (DubinsSpace.mk 1 1 true).Valid ∧ (DubinsSpace.mk 2 1 true).Valid ∧
    ¬ NearlyEqual 1 ⟨0, 0, 0, 0, 0⟩ ⟨-2, 0, 0, 0, 0⟩ ∧ ¬ NearlyTangent 1 ⟨0, 0, 0, 0, 0⟩ ⟨-2, 0, 0, 0, 0⟩ :=
  ⟨⟨one_pos, one_pos⟩, ⟨two_pos, one_pos⟩, behind_clear (by norm_num)⟩

/-- On a path no longer than the turning radius the car does not move back. -/
theorem curve_ahead {L : ℝ} (hL : 0 ≤ L) (hL1 : L ≤ 1) {p q : Config} (hp : p.theta = 0) (h : Curve 1 1 L p q) : p.x ≤ q.x := by
  obtain ⟨X, Y, T, hX, hY, hT, x0, y0, t0, x1, y1, t1⟩ := h
  have := near_linear (X := X) (V := fun s => 1 * cos (T s)) (a := 0) (b := L) (c := 1) (h := 1) hL hX (fun s hs => by
    have h1 := hT s hs 0 ⟨le_rfl, hL⟩
    rw [t0, hp, sub_zero, sub_zero, one_mul, abs_of_nonneg hs.1] at h1
    have h3 := abs_le.1 (h1.trans (hs.2.trans hL1))
    have h2 : 0 ≤ cos (T s) := cos_nonneg_of_mem_Icc
      ⟨by linarith [h3.1, pi_gt_three], by linarith [h3.2, pi_gt_three]⟩
    rw [one_mul, abs_le]
    exact ⟨by linarith, by linarith [cos_le_one (T s)]⟩)
  rw [x0, x1, abs_le] at this
  linarith [this.1]

/-- **C114 is false in the tolerances**: the planner of curvature `1e-9` takes a goal 1 m behind the car to be reached by driving 1 m
ahead; the planner of curvature 1 drives a loop. -/
theorem C114_dubins_monotone_false : ∃ (sp sp' : DubinsSpace) (s1 s2 : State), sp.Valid ∧ sp'.Valid ∧ sp.kappa ≤ sp'.kappa ∧
    sp.forwards = sp'.forwards ∧ sp.get_distance s1 s2 < sp'.get_distance s1 s2 := by
  have hv : (⟨1, 1, true⟩ : DubinsSpace).Valid := ⟨one_pos, one_pos⟩
  refine ⟨⟨1 / 10 ^ 9, 1, true⟩, ⟨1, 1, true⟩, ⟨0, 0, 0, 0, 0⟩, ⟨-1, 0, 0, 0, 0⟩, ⟨by norm_num, one_pos⟩, hv, by norm_num, rfl, ?_⟩
  have h1 : (⟨1 / 10 ^ 9, 1, true⟩ : DubinsSpace).get_distance ⟨0, 0, 0, 0, 0⟩ ⟨-1, 0, 0, 0, 0⟩ = 1 := by
    have hd : √(((-1:ℝ) - 0) * (-1 - 0) + (0 - 0) * (0 - 0)) = 1 := by
      rw [show ((-1:ℝ) - 0) * (-1 - 0) + (0 - 0) * (0 - 0) = 1 by norm_num, sqrt_one]
    simp only [DubinsSpace.get_distance, DubinsSpace.dubins, DubinsSpace.params, if_true, SF.dubins, hd]
    rw [if_pos ⟨by unfold DUBINS_EPS; norm_num, by rw [sub_self, abs_zero]; unfold DUBINS_EPS; norm_num⟩]
    simp [DPath.length, DubinsSpace.kappa_inv]
  rw [h1]
  obtain ⟨hne, hz⟩ := behind_clear (x := -1) le_rfl
  obtain ⟨a1, q, a2, a3, -, -⟩ := C112_dubins_attained hv ⟨0, 0, 0, 0, 0⟩ ⟨-1, 0, 0, 0, 0⟩
    (by rw [dist_behind (by norm_num)]; norm_num) hne hz
  by_contra hc
  push Not at hc
  have := curve_ahead a1 hc (p := pose ⟨0, 0, 0, 0, 0⟩) rfl a2
  rw [a3] at this
  norm_num [pose] at this

/-! ## C115 -/

/-- **C115.** The distance of the Reeds-Shepp planner is at most the length of every path of curvature at most `kappa` that keeps
its driving direction, forwards (`d = 1`) or backwards (`d = -1`). -/
theorem C115_rs_le_curve {sp : RSSpace} (hv : sp.Valid) (s1 s2 : State) {d L : ℝ} (hd : d = 1 ∨ d = -1) (hL : 0 ≤ L)
    (h : CanDrive d sp.kappa L (pose s1) (pose s2)) : sp.get_distance s1 s2 ≤ L := by
  have fw : ∀ t1 t2 : State, CanDrive 1 sp.kappa L (pose t1) (pose t2) → sp.get_distance t1 t2 ≤ L := by
    intro t1 t2 h
    have hk := hv.1
    obtain ⟨ws, h1, h2, h3⟩ := h.word hk hL
    refine (C111_rs_le_dubins_path hv t1 t2 _ (h1.path hk) h3).trans ?_
    rw [totalLength_wordSegs hk, one_div, inv_mul_le_iff₀ hk]
    exact h2
  rcases hd with rfl | rfl
  · exact fw s1 s2 h
  · rw [← C97_rs_symmetric hv]
    have := h.back
    rw [neg_neg] at this
    exact fw s2 s1 this

/-- A path backwards that the theorem covers: 3 m straight back. -/
example : CanDrive (-1) (RSSpace.mk 1 1).kappa 3 (pose ⟨0, 0, 0, 0, 0⟩) (pose ⟨-3, 0, 0, 0, 0⟩) := by
  refine ⟨⟨-3, 0, 0⟩, ⟨fun s => -s, fun _ => 0, fun _ => 0, ?_, ?_, ?_, by simp [pose], rfl, rfl, rfl, rfl, rfl⟩, rfl, rfl, AngleEq.refl _⟩
  · intro s _
    have := (hasDerivAt_id s).neg.hasDerivWithinAt (s := Icc 0 3)
    rw [cos_zero, mul_one]
    exact this
  · intro s _
    simpa using hasDerivWithinAt_const s (Icc 0 3) (0:ℝ)
  · intro s _ s' _
    simp

end Props
