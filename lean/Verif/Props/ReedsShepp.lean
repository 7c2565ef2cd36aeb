import Verif.Lemmas.RSPeriod

/-!
# Properties of the Reeds-Shepp planner: C22-C26, C43-C46
-/

noncomputable section

namespace Props

open SF Spec Real

/-- **C22.** Driving the controls of `get_controls` leads exactly from `s1` to `s2`. -/
theorem C22_rs_reaches {sp : RSSpace} (hv : sp.Valid) (s1 s2 : State)
    (hfar : sp.kappa * dist2 s1 s2 ≤ 10 ^ 200) :
    Reaches ((sp.get_controls s1 s2).map seg) (pose s1) (pose s2) := by
  obtain ⟨⟨c, hc, ok, hp⟩, -⟩ := rs_core hv.1 hfar
  unfold RSSpace.get_controls
  rw [loop_seg, reaches_iff_hits hv.1 (unitW_rsWordOf _), hp]
  exact (rsCands_sound hc).1 ok

/-- **C23.** `get_distance` is the total length of `get_controls` (for all states). -/
theorem C23_rs_distance {sp : RSSpace} (hv : sp.Valid) (s1 s2 : State) :
    sp.get_distance s1 s2 = totalLength ((sp.get_controls s1 s2).map seg) := by
  unfold RSSpace.get_controls RSSpace.get_distance RSSpace.kappa_inv
  rw [loop_seg, totalLength_wordSegs hv.1]
  congr 1
  obtain ⟨h, -⟩ := reeds_shepp_result (sp.params s1 s2).1 (sp.params s1 s2).2.1
    (sp.params s1 s2).2.2
  rcases h with h | ⟨c, hc, -, h⟩
  · unfold RSSpace.reeds_shepp
    rw [h]
    simp [RSPath.default, RSPath.length, RSPath.segs, reeds_shepp_path_type, rsWordOf, wordLen]
  · unfold RSSpace.reeds_shepp
    rw [h]
    exact (rsCands_sound hc).2

/-- **C24.** A path is always found: `get_distance` is at most four times the Euclidean distance
plus 14 turning radii, and below the `no path` value. -/
theorem C24_rs_finds_path {sp : RSSpace} (hv : sp.Valid) (s1 s2 : State)
    (hfar : sp.kappa * dist2 s1 s2 ≤ 10 ^ 200) :
    sp.get_distance s1 s2 ≤ 4 * dist2 s1 s2 + 14 / sp.kappa ∧
    sp.get_distance s1 s2 < 1 / sp.kappa * dblMax := by
  have hk := hv.1
  obtain ⟨-, h⟩ := rs_core hk hfar
  have hki : 0 < 1 / sp.kappa := by positivity
  have e : 1 / sp.kappa * (4 * (sp.kappa * dist2 s1 s2) + 14) = 4 * dist2 s1 s2 + 14 / sp.kappa := by
    field_simp
  unfold RSSpace.get_distance RSSpace.kappa_inv
  refine ⟨by rw [← e]; exact mul_le_mul_of_nonneg_left h hki.le, ?_⟩
  apply mul_lt_mul_of_pos_left _ hki
  have hbig := dblMax_large
  have h1 : (10:ℝ) ^ 201 = 10 * 10 ^ 200 := by rw [pow_succ]; ring
  have h2 : (14:ℝ) ≤ 10 ^ 200 :=
    le_trans (by norm_num : (14:ℝ) ≤ 10 ^ 2) (pow_le_pow_right₀ (by norm_num) (by norm_num))
  linarith

/-- **C25.** No path of a Reeds-Shepp word that reaches the goal is shorter than `get_distance`
(for all states). -/
theorem C25_rs_shortest {sp : RSSpace} (hv : sp.Valid) (s1 s2 : State) (cs : List Segment)
    (hcs : ReedsSheppPath sp.kappa cs) (hr : Reaches cs (pose s1) (pose s2)) :
    sp.get_distance s1 s2 ≤ totalLength cs := by
  have hk := hv.1
  obtain ⟨L, hL, hA⟩ := rs_optimal hk hcs hr
  obtain ⟨c, hc, ok, hl⟩ := hA.cand
  obtain ⟨-, -, h3⟩ := reeds_shepp_result (sp.params s1 s2).1 (sp.params s1 s2).2.1
    (sp.params s1 s2).2.2
  rw [hL]
  unfold RSSpace.get_distance RSSpace.kappa_inv
  apply mul_le_mul_of_nonneg_left _ (by positivity)
  exact (h3 c hc ok).trans hl

/-- A three-point turn (left forwards, right backwards, left forwards) to which C25 applies: for
every planner it reaches some goal. -/
example (sp : RSSpace) : ∃ cs q, ReedsSheppPath sp.kappa cs ∧ Reaches cs ⟨0, 0, 0⟩ q ∧
    cs = [rsPiece sp.kappa 1 1 1, rsPiece sp.kappa (-1) (-1) 1, rsPiece sp.kappa 1 1 0.5] := by
  refine ⟨_, _, ReedsSheppPath.ccc (Or.inl rfl) (Or.inl rfl) (Or.inl rfl)
    ⟨zero_le_one, by linarith [pi_gt_three]⟩ zero_le_one (by linarith [pi_gt_three])
    (by norm_num), ⟨_, drivesAll_iff.2 rfl, rfl, rfl, AngleEq.refl _⟩, rfl⟩

/-- **C25, candidates.** The returned path is no longer than any accepted candidate of any word
formula under any symmetry. -/
theorem C25_rs_shortest_candidate {sp : RSSpace} (hv : sp.Valid) (s1 s2 : State) (c : RSCand)
    (hc : c ∈ candsCSC (sp.params s1 s2).1 (sp.params s1 s2).2.1 (sp.params s1 s2).2.2 ++
        candsCCC (sp.params s1 s2).1 (sp.params s1 s2).2.1 (sp.params s1 s2).2.2 ++
        candsCCCC (sp.params s1 s2).1 (sp.params s1 s2).2.1 (sp.params s1 s2).2.2 ++
        candsCCSC (sp.params s1 s2).1 (sp.params s1 s2).2.1 (sp.params s1 s2).2.2 ++
        candsCCSCC (sp.params s1 s2).1 (sp.params s1 s2).2.1 (sp.params s1 s2).2.2)
    (ok : c.ok) : sp.get_distance s1 s2 ≤ sp.kappa_inv * c.path.length := by
  obtain ⟨-, -, h3⟩ := reeds_shepp_result (sp.params s1 s2).1 (sp.params s1 s2).2.1
    (sp.params s1 s2).2.2
  have hk := hv.1
  unfold RSSpace.get_distance RSSpace.kappa_inv
  exact mul_le_mul_of_nonneg_left (h3 c hc ok) (by positivity)

/-- **C26.** `get_distance` is never below the Euclidean distance. -/
theorem C26_rs_ge_euclid {sp : RSSpace} (hv : sp.Valid) (s1 s2 : State)
    (hfar : sp.kappa * dist2 s1 s2 ≤ 10 ^ 200) : dist2 s1 s2 ≤ sp.get_distance s1 s2 := by
  obtain ⟨r, h1, h2⟩ := C22_rs_reaches hv s1 s2 hfar
  rw [C23_rs_distance hv]
  have := h1.chord
  rw [h2.1, h2.2.1] at this
  exact this

/-- **C43.** `get_controls` returns three to five segments; curvatures are 0 or ±kappa, sharpness
is 0, and no arc exceeds half a turn. -/
theorem C43_rs_controls {sp : RSSpace} (hv : sp.Valid) (s1 s2 : State)
    (hfar : sp.kappa * dist2 s1 s2 ≤ 10 ^ 200) :
    3 ≤ (sp.get_controls s1 s2).length ∧ (sp.get_controls s1 s2).length ≤ 5 ∧
    ∀ c ∈ sp.get_controls s1 s2, (c.kappa = 0 ∨ |c.kappa| = sp.kappa) ∧ c.sigma = 0 ∧
      (c.kappa ≠ 0 → |c.delta_s| ≤ π / sp.kappa) := by
  have hk := hv.1
  obtain ⟨⟨c, hc, ok, hp⟩, -⟩ := rs_core hk hfar
  have hmap := loop_seg sp (sp.reeds_shepp s1 s2).segs
  change (sp.get_controls s1 s2).map seg = _ at hmap
  rw [hp] at hmap
  change _ = wordSegs sp.kappa c.path.word at hmap
  have hlen : (sp.get_controls s1 s2).length = c.path.word.length := by
    have := congrArg List.length hmap
    simpa [wordSegs] using this
  have hl : 3 ≤ c.path.word.length ∧ c.path.word.length ≤ 5 := by
    unfold rsCands at hc
    simp only [List.mem_append] at hc
    rcases hc with (((hc | hc) | hc) | hc) | hc
    · simp only [candsCSC, List.mem_cons, List.not_mem_nil, or_false] at hc
      rcases hc with rfl | rfl | rfl | rfl | rfl | rfl | rfl | rfl <;>
        simp [cand3, RSPath.word, RSPath.segs, reeds_shepp_path_type, rsWordOf]
    · simp only [candsCCC, List.mem_cons, List.not_mem_nil, or_false] at hc
      rcases hc with rfl | rfl | rfl | rfl | rfl | rfl | rfl | rfl <;>
        simp [cand3, cand3b, RSPath.word, RSPath.segs, reeds_shepp_path_type, rsWordOf]
    · simp only [candsCCCC, List.mem_cons, List.not_mem_nil, or_false] at hc
      rcases hc with rfl | rfl | rfl | rfl | rfl | rfl | rfl | rfl <;>
        simp [cand4p, cand4m, RSPath.word, RSPath.segs, reeds_shepp_path_type, rsWordOf]
    · simp only [candsCCSC, List.mem_cons, List.not_mem_nil, or_false] at hc
      rcases hc with rfl | rfl | rfl | rfl | rfl | rfl | rfl | rfl | rfl | rfl | rfl | rfl | rfl |
        rfl | rfl | rfl <;>
        simp [cand4h, cand4hb, RSPath.word, RSPath.segs, reeds_shepp_path_type, rsWordOf]
    · simp only [candsCCSCC, List.mem_cons, List.not_mem_nil, or_false] at hc
      rcases hc with rfl | rfl | rfl | rfl <;>
        simp [cand5, RSPath.word, RSPath.segs, reeds_shepp_path_type, rsWordOf]
  refine ⟨by rw [hlen]; exact hl.1, by rw [hlen]; exact hl.2, ?_⟩
  intro d hd
  have hm : seg d ∈ wordSegs sp.kappa c.path.word := by
    rw [← hmap]; exact List.mem_map.2 ⟨d, hd, rfl⟩
  unfold wordSegs at hm
  rw [List.mem_map] at hm
  obtain ⟨w, hw, he⟩ := hm
  have ek : d.kappa = w.1 * sp.kappa := (congrArg Segment.kappa he).symm
  have es : d.sigma = 0 := (congrArg Segment.sigma he).symm
  have el : d.delta_s = w.2 / sp.kappa := (congrArg Segment.len he).symm
  have hu := unitW_rsWordOf c.path.segs w hw
  refine ⟨?_, es, ?_⟩
  · rw [ek]
    rcases hu with h | h | h <;> rw [h]
    · simp
    · right; rw [one_mul, abs_of_pos hk]
    · right; rw [neg_one_mul, abs_neg, abs_of_pos hk]
  · intro hne
    have h0 : w.1 ≠ 0 := by rintro h; rw [ek, h, zero_mul] at hne; exact hne rfl
    rw [el, abs_div, abs_of_pos hk]
    exact div_le_div_of_nonneg_right (rsCands_arcs hc w hw h0) hk.le

/-- **C44.** In exact arithmetic no assertion of the eight word functions fails, for all goals for
which it is reached, and the arguments of `asin`, `acos` and `sqrt` are in their domains. -/
theorem C44_rs_asserts (x y phi : ℝ) :
    (let w := LpSpLp x y phi; assertsLpSpLp x y phi w.t w.u w.v) ∧
    (reachedLpSpRp x y phi → let w := LpSpRp x y phi;
      0 ≤ (polar (x + sin phi) (y - 1 - cos phi)).1 * (polar (x + sin phi) (y - 1 - cos phi)).1 - 4 ∧
      assertsLpSpRp x y phi w.t w.u w.v) ∧
    (reachedLpRmL x y phi → let w := LpRmL x y phi;
      |0.25 * (polar (x - sin phi) (y - 1 + cos phi)).1| ≤ 1 ∧ assertsLpRmL x y phi w.t w.u w.v) ∧
    (rhoLpRupLumRm x y phi ≤ 1 → let w := LpRupLumRm x y phi;
      |rhoLpRupLumRm x y phi| ≤ 1 ∧ assertsLpRupLumRm x y phi w.t w.u w.v) ∧
    (0 ≤ rhoLpRumLumRp x y phi ∧ rhoLpRumLumRp x y phi ≤ 1 → let w := LpRumLumRp x y phi;
      assertsLpRumLumRp x y phi w.t w.u w.v) ∧
    (reachedLpRmSmLm x y phi → let w := LpRmSmLm x y phi;
      0 ≤ (polar (x - sin phi) (y - 1 + cos phi)).1 * (polar (x - sin phi) (y - 1 + cos phi)).1 - 4 ∧
      assertsLpRmSmLm x y phi w.t w.u w.v) ∧
    (reachedLpRmSmRm x y phi → let w := LpRmSmRm x y phi;
      assertsLpRmSmRm x y phi w.t w.u w.v) ∧
    (reachedLpRmSLmRp x y phi → let w := LpRmSLmRp x y phi;
      0 ≤ (polar (x + sin phi) (y - 1 - cos phi)).1 * (polar (x + sin phi) (y - 1 - cos phi)).1 - 4 ∧
      assertsLpRmSLmRp x y phi w.t w.u w.v) := by
  have heps : (0:ℝ) < RS_EPS := by unfold RS_EPS; norm_num
  have z : ∀ {a b : ℝ}, a = b → |a - b| < RS_EPS := by
    intro a b h; rw [h, sub_self, abs_zero]; exact heps
  have p : ∀ {a b c : ℝ}, AngleEq a b → c = a - b → |pify c| < RS_EPS := by
    intro a b c h hc
    have : pify c = 0 := by
      apply pify_eq
      · obtain ⟨n, hn⟩ := h; exact ⟨n, by rw [hc, hn]; ring⟩
      · linarith [pi_pos]
      · exact pi_pos
    rw [this, abs_zero]; exact heps
  refine ⟨?_, ?_, ?_, ?_, ?_, ?_, ?_, ?_⟩
  · obtain ⟨h1, h2, h3⟩ := hits_LSL.1 (LpSpLp_hits x y phi)
    exact ⟨z (by linarith), z (by linarith), p h3 rfl⟩
  · intro h
    obtain ⟨h1, h2, h3⟩ := hits_LSR.1 (LpSpRp_hits h)
    exact ⟨sub_nonneg.2 h, z (by linarith), z (by linarith), p h3 rfl⟩
  · intro h
    obtain ⟨h1, h2, h3⟩ := hits_LRL.1 (LpRmL_hits h)
    refine ⟨?_, z (by linarith), z (by linarith), p h3 rfl⟩
    have h0 := polar_nonneg (x - sin phi) (y - 1 + cos phi)
    unfold reachedLpRmL at h
    rw [abs_of_nonneg (by positivity)]; linarith
  · intro h
    obtain ⟨h1, h2, h3⟩ := hits_LRLRp.1 (LpRupLumRm_hits h)
    refine ⟨?_, z (by linarith), z (by linarith), p h3 rfl⟩
    have : 0 ≤ rhoLpRupLumRm x y phi := by
      unfold rhoLpRupLumRm
      have := sqrt_nonneg ((x + sin phi) * (x + sin phi) + (y - 1 - cos phi) * (y - 1 - cos phi))
      linarith
    rw [abs_of_nonneg this]; exact h
  · intro h
    obtain ⟨h1, h2, h3⟩ := hits_LRLRm.1 (LpRumLumRp_hits h)
    exact ⟨z (by linarith), z (by linarith), p h3 rfl⟩
  · intro h
    obtain ⟨h1, h2, h3⟩ := hits_LRSL.1 (LpRmSmLm_hits h)
    unfold reachedLpRmSmLm at h
    exact ⟨by nlinarith, z (by linarith), z (by linarith), p h3 rfl⟩
  · intro h
    obtain ⟨h1, h2, h3⟩ := hits_LRSR.1 (LpRmSmRm_hits x y phi)
    have e1 : sin phi = cos ((LpRmSmRm x y phi).t - (LpRmSmRm x y phi).v) := by
      rw [← h3.sin_eq, ← sin_add_pi_div_two]; congr 1; ring
    have e2 : cos phi = -sin ((LpRmSmRm x y phi).t - (LpRmSmRm x y phi).v) := by
      rw [← h3.cos_eq, ← cos_add_pi_div_two]; congr 1; ring
    exact ⟨z (by rw [← e1]; linarith), z (by linarith), p h3 rfl⟩
  · intro h
    obtain ⟨h1, h2, h3⟩ := hits_LRSLR.1 (LpRmSLmRp_hits h)
    unfold reachedLpRmSLmRp at h
    exact ⟨by nlinarith, z (by linarith), z (by linarith), p h3 rfl⟩

/-- All branches of C44 are reached by some goal. -/
example : reachedLpSpRp 5 0 0 ∧ reachedLpRmL 0 0 0 ∧ reachedLpRmSmLm 5 0 0 ∧
    reachedLpRmSmRm 5 0 0 ∧ reachedLpRmSLmRp 5 0 0 ∧ rhoLpRupLumRm 0 2 0 ≤ 1 ∧
    (0 ≤ rhoLpRumLumRp 2 2 0 ∧ rhoLpRumLumRp 2 2 0 ≤ 1) := by
  have h1 := polar_sq (5 + sin 0) (0 - 1 - cos 0)
  have n1 := polar_nonneg (5 + sin 0) (0 - 1 - cos 0)
  have h2 := polar_sq (5 - sin 0) (0 - 1 + cos 0)
  have n2 := polar_nonneg (5 - sin 0) (0 - 1 + cos 0)
  have h3 := polar_sq (-(0 - 1 - cos 0)) (5 + sin 0)
  have n3 := polar_nonneg (-(0 - 1 - cos 0)) (5 + sin 0)
  have h4 := polar_sq (0 - sin 0) (0 - 1 + cos 0)
  have n4 := polar_nonneg (0 - sin 0) (0 - 1 + cos 0)
  simp only [sin_zero, cos_zero] at h1 n1 h2 n2 h3 n3 h4 n4
  unfold reachedLpSpRp reachedLpRmL reachedLpRmSmLm reachedLpRmSmRm reachedLpRmSLmRp
    rhoLpRupLumRm rhoLpRumLumRp
  simp only [sin_zero, cos_zero]
  refine ⟨by rw [h1]; norm_num, by nlinarith, by nlinarith, by nlinarith, by nlinarith, ?_, ?_, ?_⟩
  · norm_num
  · norm_num
  · norm_num

/-- **C45.** Moving both states by the same rotation and translation changes neither the controls
nor the distance. -/
theorem C45_rs_rigid_motion (sp : RSSpace) (s1 s2 : State) (phi a b : ℝ) :
    sp.get_controls (moved phi a b s1) (moved phi a b s2) = sp.get_controls s1 s2 ∧
    sp.get_distance (moved phi a b s1) (moved phi a b s2) = sp.get_distance s1 s2 := by
  have e : sp.params (moved phi a b s1) (moved phi a b s2) = sp.params s1 s2 := by
    simp only [RSSpace.params, moved, cos_add, sin_add]
    have h := sin_sq_add_cos_sq phi
    refine Prod.ext ?_ (Prod.ext ?_ ?_)
    · simp only
      linear_combination sp.kappa * (cos s1.theta * (s2.x - s1.x) + sin s1.theta * (s2.y - s1.y)) * h
    · simp only
      linear_combination sp.kappa * (-sin s1.theta * (s2.x - s1.x) + cos s1.theta * (s2.y - s1.y)) * h
    · simp only; ring
  unfold RSSpace.get_controls RSSpace.get_distance RSSpace.reeds_shepp
  rw [e]
  exact ⟨rfl, rfl⟩

/-- A motion that moves both states. -/
example : moved (π / 2) 1 2 ⟨3, 0, 0, 0, 0⟩ = ⟨1, 5, π / 2, 0, 0⟩ := by
  simp [moved]; norm_num

/-- **C46.** The distance is zero exactly if position and heading (modulo full turns) agree. -/
theorem C46_rs_zero_iff {sp : RSSpace} (hv : sp.Valid) (s1 s2 : State)
    (hfar : sp.kappa * dist2 s1 s2 ≤ 10 ^ 200) :
    sp.get_distance s1 s2 = 0 ↔ SameConfig (pose s1) (pose s2) := by
  have hk := hv.1
  have hnn : 0 ≤ sp.get_distance s1 s2 := by
    unfold RSSpace.get_distance RSSpace.kappa_inv
    exact mul_nonneg (by positivity) (RSPath.length_nonneg _)
  constructor
  · intro h0
    obtain ⟨r, h1, h2⟩ := C22_rs_reaches hv s1 s2 hfar
    rw [C23_rs_distance hv] at h0
    rw [drivesAll_iff] at h1
    have gen : ∀ (cs : List Segment) (p : Config), totalLength cs = 0 → arriveAll cs p = p := by
      intro cs
      induction cs with
      | nil => intro p _; rfl
      | cons c cs ih =>
        intro p h
        have hc : totalLength (c :: cs) = |c.len| + totalLength cs := by
          simp [totalLength]
        have hn : 0 ≤ totalLength cs := by
          unfold totalLength
          apply List.sum_nonneg
          intro x hx
          obtain ⟨y, -, rfl⟩ := List.mem_map.1 hx
          exact abs_nonneg _
        have ha := abs_nonneg c.len
        have e1 : |c.len| = 0 := by linarith
        have e2 : totalLength cs = 0 := by linarith
        simp only [arriveAll, e1, arrive_zero]
        exact ih p e2
    rw [gen _ _ h0] at h1
    rw [h1] at h2; exact h2
  · intro h
    have hz : IsHalfTurn 0 := ⟨le_rfl, pi_pos.le⟩
    have hcs : ReedsSheppPath sp.kappa [rsPiece sp.kappa 1 1 0, rsPiece sp.kappa 0 1 0,
        rsPiece sp.kappa 1 1 0] :=
      ReedsSheppPath.csc (Or.inl rfl) (Or.inl rfl) (Or.inl rfl) hz le_rfl hz
    have hr : Reaches [rsPiece sp.kappa 1 1 0, rsPiece sp.kappa 0 1 0,
        rsPiece sp.kappa 1 1 0] (pose s1) (pose s2) := by
      refine ⟨_, drivesAll_iff.2 rfl, ?_⟩
      simpa [arriveAll, rsPiece, arrive_zero] using h
    have := C25_rs_shortest hv s1 s2 _ hcs hr
    have e : totalLength [rsPiece sp.kappa 1 1 0, rsPiece sp.kappa 0 1 0,
        rsPiece sp.kappa 1 1 0] = 0 := by simp [totalLength, rsPiece]
    linarith

/-- The distance hypothesis of C22-C26 holds for a typical query. -/
example : (⟨1, 0.1⟩ : RSSpace).Valid ∧
    (⟨1, 0.1⟩ : RSSpace).kappa * dist2 ⟨0, 0, 0, 0, 0⟩ ⟨3, 4, 1, 0, 0⟩ ≤ 10 ^ 200 := by
  refine ⟨⟨one_pos, by norm_num⟩, ?_⟩
  have : dist2 ⟨0, 0, 0, 0, 0⟩ ⟨3, 4, 1, 0, 0⟩ = 5 := by
    unfold dist2
    rw [show ((3:ℝ) - 0) ^ 2 + (4 - 0) ^ 2 = 5 ^ 2 by norm_num]; exact sqrt_sq (by norm_num)
  rw [this]
  refine le_trans (by norm_num : _ ≤ (10:ℝ) ^ 1) (pow_le_pow_right₀ (by norm_num) (by norm_num))

end Props
