import Verif.Lemmas.Aligned
import Verif.Lemmas.Frame
import Verif.Props.ReedsShepp
import Verif.Props.Dubins

/-!
# Only straight paths are as short as the distance of the positions: C136
-/

noncomputable section

namespace Props

open SF Spec Real

/-- `s2` is `L` ahead of `s1` (behind it for negative `L`) and has its heading. -/
def StraightTo (L : ℝ) (s1 s2 : State) : Prop :=
  s2.x = s1.x + L * cos s1.theta ∧ s2.y = s1.y + L * sin s1.theta ∧ AngleEq s2.theta s1.theta

theorem StraightTo.dist {L : ℝ} {s1 s2 : State} (h : StraightTo L s1 s2) : dist2 s1 s2 = |L| := by
  rw [dist2, h.1, h.2.1, show (s1.x + L * cos s1.theta - s1.x) ^ 2 + (s1.y + L * sin s1.theta - s1.y) ^ 2 = L ^ 2 by
    linear_combination L ^ 2 * sin_sq_add_cos_sq s1.theta]
  exact sqrt_sq_eq_abs L

/-- The line from `s1` to `s2`. -/
theorem StraightTo.reaches {L : ℝ} {s1 s2 : State} (h : StraightTo L s1 s2) (k1 k2 : ℝ) :
    Reaches [⟨0, k1, 0⟩, ⟨L, 0, 0⟩, ⟨0, k2, 0⟩] (pose s1) (pose s2) := by
  refine ⟨⟨s2.x, s2.y, s1.theta⟩, ?_, rfl, rfl, ?_⟩
  · rw [drivesAll_iff]
    simp only [arriveAll, abs_zero, arrive_zero, arrive_line]
    rw [seg_dir_mul_abs]
    rw [h.1, h.2.1]; rfl
  · obtain ⟨n, hn⟩ := h.2.2
    exact ⟨-n, by rw [show (pose s2).theta = s2.theta from rfl, hn]; push_cast; ring⟩

theorem straightTo_of {cs : List Segment} (hs : ∀ c ∈ cs, c.sigma = 0) {s1 s2 : State} (hr : Reaches cs (pose s1) (pose s2))
    (hl : totalLength cs = dist2 s1 s2) :
    ∃ d, (d = 0 ∨ ∃ c ∈ cs, c.len ≠ 0 ∧ c.dir = d) ∧ StraightTo (d * totalLength cs) s1 s2 := by
  obtain ⟨q, hq, hx, hy, n, hn⟩ := hr
  obtain ⟨ht, d, hd, e1, e2⟩ := straight_of_length hs hq (by rw [hl, dist2, hx, hy]; rfl)
  rw [hx] at e1
  rw [hy] at e2
  exact ⟨d, hd, e1, e2, -n, by
    rw [ht] at hn
    have : s1.theta = s2.theta + n * (2 * π) := hn
    rw [this]; push_cast; ring⟩

/-- **C136, Reeds-Shepp.** The distance is the distance of the positions exactly if the goal is straight ahead or behind, with the heading
of the start. -/
theorem C136_rs {sp : RSSpace} (hv : sp.Valid) (s1 s2 : State) (hfar : sp.kappa * dist2 s1 s2 ≤ 10 ^ 200) :
    sp.get_distance s1 s2 = dist2 s1 s2 ↔ ∃ L, StraightTo L s1 s2 := by
  have hk := hv.1
  constructor
  · intro h
    obtain ⟨-, -, h3⟩ := C43_rs_controls hv s1 s2 hfar
    obtain ⟨d, -, hd⟩ := straightTo_of (fun c hc => by
      obtain ⟨x, hx, rfl⟩ := List.mem_map.1 hc
      exact (h3 x hx).2.1) (C22_rs_reaches hv s1 s2 hfar) (by rw [← C23_rs_distance hv, h])
    exact ⟨_, hd⟩
  · rintro ⟨L, hL⟩
    refine le_antisymm ?_ (C26_rs_ge_euclid hv s1 s2 hfar)
    obtain ⟨s, hs, e⟩ : ∃ s, IsSign s ∧ L = s * |L| := by
      rcases le_total 0 L with h | h
      · exact ⟨1, .inl rfl, by rw [abs_of_nonneg h, one_mul]⟩
      · exact ⟨-1, .inr rfl, by rw [abs_of_nonpos h]; ring⟩
    have hp : ReedsSheppPath sp.kappa [rsPiece sp.kappa 1 s 0, rsPiece sp.kappa 0 s (sp.kappa * |L|), rsPiece sp.kappa 1 s 0] :=
      .csc (.inl rfl) (.inl rfl) hs ⟨le_rfl, pi_pos.le⟩ (mul_nonneg hk.le (abs_nonneg L)) ⟨le_rfl, pi_pos.le⟩
    have e2 : s * (sp.kappa * |L|) / sp.kappa = L := by
      rw [show s * (sp.kappa * |L|) = sp.kappa * (s * |L|) by ring, ← e, mul_div_cancel_left₀ _ hk.ne']
    have e3 : [rsPiece sp.kappa 1 s 0, rsPiece sp.kappa 0 s (sp.kappa * |L|), rsPiece sp.kappa 1 s 0]
        = [⟨0, sp.kappa, 0⟩, ⟨L, 0, 0⟩, ⟨0, sp.kappa, 0⟩] := by
      simp [rsPiece, e2]
    rw [e3] at hp
    have := C25_rs_shortest hv s1 s2 _ hp (hL.reaches _ _)
    rw [hL.dist]
    simpa [totalLength] using this

/-- **C136, Dubins.** Outside the tolerance zones; the goal must be ahead (behind, for the planner that drives backwards). -/
theorem C136_dubins {sp : DubinsSpace} (hv : sp.Valid) (s1 s2 : State) (hfar : sp.kappa * dist2 s1 s2 ≤ 10 ^ 200)
    (hne : ¬ NearlyEqual sp.kappa s1 s2) (hz : ¬ NearlyTangent sp.kappa s1 s2) :
    sp.get_distance s1 s2 = dist2 s1 s2 ↔
      ∃ L, StraightTo L s1 s2 ∧ (sp.forwards = true → 0 ≤ L) ∧ (sp.forwards = false → L ≤ 0) := by
  have hk := hv.1
  constructor
  · intro h
    obtain ⟨-, h3⟩ := C17_dubins_controls hv s1 s2 hfar
    have h0 : 0 ≤ totalLength ((sp.get_controls s1 s2).map seg) := List.sum_nonneg (by simp)
    obtain ⟨d, hd, hS⟩ := straightTo_of (fun c hc => by
      obtain ⟨x, hx, rfl⟩ := List.mem_map.1 hc
      exact (h3 x hx).2.1) (C15_dubins_reaches hv s1 s2 hfar hne hz) (by rw [← C16_dubins_distance hv s1 s2 hfar, h])
    refine ⟨_, hS, fun hf => ?_, fun hf => ?_⟩
    · rcases hd with rfl | ⟨c, hc, hc0, rfl⟩
      · simp
      · obtain ⟨x, hx, rfl⟩ := List.mem_map.1 hc
        have := (h3 x hx).2.2.1 hf
        have e : (seg x).dir = 1 := by rw [Segment.dir, if_neg]; simp only [seg]; linarith
        rw [e, one_mul]; exact h0
    · rcases hd with rfl | ⟨c, hc, hc0, rfl⟩
      · simp
      · obtain ⟨x, hx, rfl⟩ := List.mem_map.1 hc
        have := (h3 x hx).2.2.2.1 hf
        have e : (seg x).dir = -1 := by
          rw [Segment.dir, if_pos]
          exact lt_of_le_of_ne this hc0
        rw [e]; linarith
  · rintro ⟨L, hL, hf, hb⟩
    refine le_antisymm ?_ ((C20_dubins_bounds hv s1 s2 hfar).2.1 hz)
    rw [hL.dist]
    rcases hfw : sp.forwards with _ | _
    · have hL0 := hb hfw
      have hp : DubinsPath sp.kappa (([⟨0, sp.kappa, 0⟩, ⟨L, 0, 0⟩, ⟨0, sp.kappa, 0⟩] : List Segment).reverse.map Segment.neg) := by
        have e : ([⟨0, sp.kappa, 0⟩, ⟨L, 0, 0⟩, ⟨0, sp.kappa, 0⟩] : List Segment).reverse.map Segment.neg
            = [⟨0, 1 * sp.kappa, 0⟩, ⟨-L, 0, 0⟩, ⟨0, 1 * sp.kappa, 0⟩] := by
          simp [Segment.neg]
        rw [e]
        exact .csc (.inl rfl) (.inl rfl) le_rfl (by linarith) le_rfl
      have := C18_dubins_shortest_backwards hv hfw s1 s2 _ hp (hL.reaches _ _)
      simpa [totalLength] using this
    · have hL0 := hf hfw
      have hp : DubinsPath sp.kappa [⟨0, 1 * sp.kappa, 0⟩, ⟨L, 0, 0⟩, ⟨0, 1 * sp.kappa, 0⟩] :=
        .csc (.inl rfl) (.inl rfl) le_rfl hL0 le_rfl
      have := C18_dubins_shortest hv hfw s1 s2 _ hp (hL.reaches _ _)
      simpa [totalLength] using this

/-- Twenty metres backwards. -/
example : (⟨1, 1⟩ : RSSpace).get_distance ⟨0, 0, 0, 0, 0⟩ ⟨-20, 0, 0, 0, 0⟩ = 20 := by
  have hS : StraightTo (-20) ⟨0, 0, 0, 0, 0⟩ ⟨-20, 0, 0, 0, 0⟩ := ⟨by simp, by simp, 0, by simp⟩
  have hd : dist2 ⟨0, 0, 0, 0, 0⟩ ⟨-20, 0, 0, 0, 0⟩ = 20 := by rw [hS.dist]; norm_num
  exact ((C136_rs (sp := ⟨1, 1⟩) ⟨one_pos, one_pos⟩ _ _ (by rw [hd]; norm_num)).2 ⟨_, hS⟩).trans hd

/-- A goal beside the start is further away than it looks. -/
example : dist2 ⟨0, 0, 0, 0, 0⟩ ⟨0, 3, 0, 0, 0⟩ < (⟨1, 1⟩ : RSSpace).get_distance ⟨0, 0, 0, 0, 0⟩ ⟨0, 3, 0, 0, 0⟩ := by
  have hd : dist2 ⟨0, 0, 0, 0, 0⟩ ⟨0, 3, 0, 0, 0⟩ = 3 := by
    rw [dist2, show ((0:ℝ) - 0) ^ 2 + (3 - 0) ^ 2 = 3 ^ 2 by norm_num]; exact sqrt_sq (by norm_num)
  have hfar : (⟨1, 1⟩ : RSSpace).kappa * dist2 ⟨0, 0, 0, 0, 0⟩ ⟨0, 3, 0, 0, 0⟩ ≤ 10 ^ 200 := by rw [hd]; norm_num
  refine lt_of_le_of_ne (C26_rs_ge_euclid ⟨one_pos, one_pos⟩ _ _ hfar) fun h => ?_
  obtain ⟨L, -, h2, -⟩ := (C136_rs (sp := ⟨1, 1⟩) ⟨one_pos, one_pos⟩ _ _ hfar).1 h.symm
  norm_num at h2

end Props
