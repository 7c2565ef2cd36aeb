import Verif.Lemmas.DubinsPick

/-!
# From the Dubins words to the planner
-/

noncomputable section

namespace Spec

open Real

theorem arriveAll_append (a b : List Segment) (p : Config) :
    arriveAll (a ++ b) p = arriveAll b (arriveAll a p) := by
  induction a generalizing p with
  | nil => rfl
  | cons c a ih => exact ih _

theorem arrive_back {d kappa L : ℝ} (p : Config) :
    arrive (-d) kappa 0 L (arrive d kappa 0 L p) = p := by
  by_cases hk : kappa = 0
  · subst hk
    rw [arrive_line, arrive_line]
    ext <;> simp
  · rw [arrive_arc hk, arrive_arc hk]
    have e1 : p.theta + kappa * d * L + -d * L * kappa = p.theta := by ring
    have e2 : p.theta + kappa * d * L = p.theta + d * L * kappa := by ring
    ext
    · simp only [e1]; rw [e2]; ring
    · simp only [e1]; rw [e2]; ring
    · simp

/-- The segment driven in the opposite direction. -/
def Segment.neg (c : Segment) : Segment := ⟨-c.len, c.kappa, c.sigma⟩

theorem arriveAll_back (cs : List Segment) (h : ∀ c ∈ cs, c.sigma = 0) (p : Config) :
    arriveAll (cs.reverse.map Segment.neg) (arriveAll cs p) = p := by
  induction cs generalizing p with
  | nil => rfl
  | cons c cs ih =>
    have e : ((c :: cs).reverse.map Segment.neg) = cs.reverse.map Segment.neg ++ [c.neg] := by simp
    rw [e, arriveAll_append]
    have e2 : arriveAll (c :: cs) p = arriveAll cs (arrive c.dir c.kappa c.sigma |c.len| p) := rfl
    rw [e2, ih (fun c' hc' => h c' (List.mem_cons_of_mem _ hc'))]
    have hs : c.sigma = 0 := h c List.mem_cons_self
    simp only [arriveAll, Segment.neg, abs_neg, hs]
    by_cases h0 : c.len = 0
    · rw [h0, abs_zero, arrive_zero, arrive_zero]
    · have hd : (⟨-c.len, c.kappa, c.sigma⟩ : Segment).dir = -c.dir := by
        unfold Segment.dir
        rcases lt_or_gt_of_ne h0 with h1 | h1
        · rw [if_pos h1, if_neg (by simp only; linarith)]; norm_num
        · rw [if_pos (show (-c.len : ℝ) < 0 by linarith), if_neg (not_lt.2 h1.le)]
      rw [hs] at hd
      rw [hd]; exact arrive_back p

theorem arriveAll_translate (cs : List Segment) (p : Config) (a b : ℝ) :
    arriveAll cs ⟨p.x + a, p.y + b, p.theta⟩ =
      ⟨(arriveAll cs p).x + a, (arriveAll cs p).y + b, (arriveAll cs p).theta⟩ := by
  induction cs generalizing p with
  | nil => rfl
  | cons c cs ih =>
    have e : arrive c.dir c.kappa c.sigma |c.len| ⟨p.x + a, p.y + b, p.theta⟩
        = ⟨(arrive c.dir c.kappa c.sigma |c.len| p).x + a,
           (arrive c.dir c.kappa c.sigma |c.len| p).y + b,
           (arrive c.dir c.kappa c.sigma |c.len| p).theta⟩ := by
      simp only [arrive]
      ext <;> simp <;> ring
    simp only [arriveAll, e]
    exact ih _

end Spec

namespace SF

open Real Spec Props

theorem control_seg (sp : DubinsSpace) (ty : SegT) (len : ℝ) :
    seg (sp.control ty len) = ⟨len / sp.kappa, ty.sign * sp.kappa, 0⟩ := by
  cases ty <;> simp [DubinsSpace.control, seg, SegT.sign, DubinsSpace.kappa_inv] <;>
    (field_simp)

theorem pathControls_seg (sp : DubinsSpace) (a : DPath) :
    (sp.pathControls a).map seg = [⟨a.t / sp.kappa, a.type.1.sign * sp.kappa, 0⟩,
      ⟨a.p / sp.kappa, a.type.2.1.sign * sp.kappa, 0⟩,
      ⟨a.q / sp.kappa, a.type.2.2.sign * sp.kappa, 0⟩] := by
  simp [DubinsSpace.pathControls, control_seg]

/-- Distance and direction from `s1` to `s2`. -/
theorem params_goal (sp : DubinsSpace) (hk : 0 < sp.kappa) (s1 s2 : State) :
    let th := atan2 (s2.y - s1.y) (s2.x - s1.x)
    (sp.params s1 s2).1 = sp.kappa * √((s2.x - s1.x) ^ 2 + (s2.y - s1.y) ^ 2) ∧
    0 ≤ (sp.params s1 s2).1 ∧
    s2.x = s1.x + (sp.params s1 s2).1 / sp.kappa * cos th ∧
    s2.y = s1.y + (sp.params s1 s2).1 / sp.kappa * sin th ∧
    AngleEq (sp.params s1 s2).2.1 (s1.theta - th) ∧
    AngleEq (sp.params s1 s2).2.2 (s2.theta - th) := by
  intro th
  have e : (sp.params s1 s2).1 = sp.kappa * √((s2.x - s1.x) ^ 2 + (s2.y - s1.y) ^ 2) := by
    simp only [DubinsSpace.params]
    rw [mul_comm, pow_two, pow_two]
  refine ⟨e, ?_, ?_, ?_, twopify_angleEq _, twopify_angleEq _⟩
  · rw [e]; positivity
  · rw [e, mul_div_cancel_left₀ _ hk.ne', sqrt_mul_cos_atan2]; ring
  · rw [e, mul_div_cancel_left₀ _ hk.ne', sqrt_mul_sin_atan2]; ring

/-- Forward: a path that hits its normalised target leads to the goal state. -/
theorem hits_reaches {sp : DubinsSpace} (hk : 0 < sp.kappa) {s1 s2 : State} {a : DPath}
    {eps eta : ℝ} (heps : 0 ≤ eps)
    (h : a.Hits eps eta (sp.params s1 s2).1 (sp.params s1 s2).2.1 (sp.params s1 s2).2.2) :
    let r := arriveAll ((sp.pathControls a).map seg) (pose s1)
    √((r.x - s2.x) ^ 2 + (r.y - s2.y) ^ 2) ≤ eps / sp.kappa ∧
      ∃ h, AngleEq h s2.theta ∧ |r.theta - h| ≤ eta := by
  intro r
  obtain ⟨_, _, hx, hy, hal, hbe⟩ := params_goal sp hk s1 s2
  set th := atan2 (s2.y - s1.y) (s2.x - s1.x) with hth
  have hh := h sp.kappa (pose s1) th hk hal
  rw [← pathControls_seg] at hh
  obtain ⟨rx, ry, g, h1, h2, h3, h4, h5⟩ := hh
  change r.x - (s1.x + (sp.params s1 s2).1 / sp.kappa * cos th) = _ at h4
  change r.y - (s1.y + (sp.params s1 s2).1 / sp.kappa * sin th) = _ at h5
  rw [← hx] at h4
  rw [← hy] at h5
  constructor
  · apply sqrt_le_iff.2 ⟨by positivity, ?_⟩
    rw [h4, h5]
    have hs := sin_sq_add_cos_sq th
    have : (1 / sp.kappa * (cos th * rx - sin th * ry)) ^ 2
        + (1 / sp.kappa * (sin th * rx + cos th * ry)) ^ 2
        = (rx ^ 2 + ry ^ 2) * (1 / sp.kappa) ^ 2 := by
      linear_combination ((rx ^ 2 + ry ^ 2) * (1 / sp.kappa) ^ 2) * hs
    rw [this]
    have e : (eps / sp.kappa) ^ 2 = eps ^ 2 * (1 / sp.kappa) ^ 2 := by ring
    rw [e]
    exact mul_le_mul_of_nonneg_right h1 (by positivity)
  · obtain ⟨n, hn⟩ := h3
    refine ⟨th + (sp.params s1 s2).2.2 + n * (2 * π), ?_, ?_⟩
    · have h6 : AngleEq (th + (sp.params s1 s2).2.2) s2.theta := by
        have := hbe.add_left th
        exact this.trans (AngleEq.of_eq (by ring))
      have h7 : AngleEq (th + (sp.params s1 s2).2.2 + n * (2 * π)) (th + (sp.params s1 s2).2.2) :=
        ⟨n, rfl⟩
      exact h7.trans h6
    · have : r.theta - (th + (sp.params s1 s2).2.2 + n * (2 * π)) = g - (sp.params s1 s2).2.2 := by
        linarith [hn]
      rw [this]; exact h2

theorem reverse_map_seg (l : List Control) :
    (l.reverse.map fun c => ({ c with delta_s := -c.delta_s } : Control)).map seg
      = (l.map seg).reverse.map Segment.neg := by
  rw [List.map_map, ← List.map_reverse, List.map_map]
  rfl

/-- The shortcut `⟨LSL, 0, d, 0⟩` hits up to `2 d`. -/
theorem shortcut_hits {d al be : ℝ} (hd : 0 ≤ d) (hd1 : d < DUBINS_EPS)
    (hab : |al - be| < DUBINS_EPS) :
    DPath.Hits ⟨dubins_path_type 0, 0, d, 0⟩ (2 / 10 ^ 6) (1 / 10 ^ 6) d al be := by
  intro kappa c th hk hal
  have := csc_end (e1 := 1) (e3 := 1) (t := 0) (p := d) (q := 0) (d := d) (be := al) hk
    (Or.inl rfl) (Or.inl rfl) le_rfl hd le_rfl hal (AngleEq.of_eq (by ring))
  simp only at this
  obtain ⟨a1, a2, a3⟩ := this
  simp only [dubins_path_type, SegT.sign, zero_mul]
  refine ⟨_, _, al, ?_, hab.le, a3, a1, a2⟩
  have hs := sin_sq_add_cos_sq al
  have e1 : d * cos (al + 1 * 0) + (1 - 1) * sin (al + 1 * 0) - (d + 1 * sin al - 1 * sin al)
      = d * cos al - d := by simp
  have e2 : d * sin (al + 1 * 0) - (1 - 1) * cos (al + 1 * 0) - (1 * cos al - 1 * cos al)
      = d * sin al := by simp
  rw [e1, e2]
  have e3 : (d * cos al - d) ^ 2 + (d * sin al) ^ 2 = d ^ 2 * (2 - 2 * cos al) := by
    linear_combination d ^ 2 * hs
  rw [e3]
  unfold DUBINS_EPS at hd1
  have h4 : 2 - 2 * cos al ≤ 4 := by linarith [neg_one_le_cos al]
  have h5 : d ^ 2 ≤ (1 / 10 ^ 6) ^ 2 := pow_le_pow_left₀ hd hd1.le 2
  calc d ^ 2 * (2 - 2 * cos al) ≤ (1 / 10 ^ 6) ^ 2 * 4 := by
        apply mul_le_mul h5 h4 (by linarith [cos_le_one al]) (by positivity)
    _ = (2 / 10 ^ 6) ^ 2 := by norm_num

theorem dist_symm (a b c d : ℝ) : √((a - c) ^ 2 + (b - d) ^ 2) = √((c - a) ^ 2 + (d - b) ^ 2) := by
  congr 1; ring

/-- Backward driving of a path planned from `s2` to `s1`, when the heading is exact. -/
theorem back_reaches {sp : DubinsSpace} {s1 s2 : State} {a : DPath} {eps : ℝ}
    (h : let r := arriveAll ((sp.pathControls a).map seg) (pose s2)
      √((r.x - s1.x) ^ 2 + (r.y - s1.y) ^ 2) ≤ eps ∧ AngleEq r.theta s1.theta) :
    let r := arriveAll (((sp.pathControls a).reverse.map
      fun c => ({ c with delta_s := -c.delta_s } : Control)).map seg) (pose s1)
    √((r.x - s2.x) ^ 2 + (r.y - s2.y) ^ 2) ≤ eps ∧ AngleEq r.theta s2.theta := by
  obtain ⟨h1, h2⟩ := h
  set F := (sp.pathControls a).map seg with hF
  set q := arriveAll F (pose s2) with hq
  have hsig : ∀ c ∈ F, c.sigma = 0 := by
    rw [hF, pathControls_seg]
    intro c hc
    simp only [List.mem_cons, List.not_mem_nil, or_false] at hc
    rcases hc with rfl | rfl | rfl <;> rfl
  have hback := arriveAll_back F hsig (pose s2)
  rw [← hq] at hback
  rw [reverse_map_seg, ← hF]
  set B := F.reverse.map Segment.neg with hB
  have htr := arriveAll_translate B q (s1.x - q.x) (s1.y - q.y)
  rw [hback] at htr
  have hcfg : SameConfig (pose s1) ⟨q.x + (s1.x - q.x), q.y + (s1.y - q.y), q.theta⟩ :=
    ⟨by simp [pose], by simp [pose], h2.symm⟩
  have hcong := arriveAll_congr (cs := B) hcfg
  rw [htr] at hcong
  obtain ⟨c1, c2, c3⟩ := hcong
  intro r
  refine ⟨?_, c3⟩
  have e1 : r.x - s2.x = s1.x - q.x := by
    have : r.x = s2.x + (s1.x - q.x) := c1
    rw [this]; ring
  have e2 : r.y - s2.y = s1.y - q.y := by
    have : r.y = s2.y + (s1.y - q.y) := c2
    rw [this]; ring
  rw [e1, e2, dist_symm]; exact h1

end SF
