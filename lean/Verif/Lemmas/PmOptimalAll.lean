import Verif.Lemmas.PmOptimalPlan

/-!
# CC-Dubins with curvature at the ends: the whole planners against the words
-/

noncomputable section

namespace Spec

open Real Props
open CC00 (CircOk circOk_at startOf cfg_startOf idx idx_lt)

theorem sg_inj {a b : Bool} (h : sg a = sg b) : a = b := by
  cases a <;> cases b <;> norm_num [sg] at h <;> rfl

theorem idx_zero (b : Bool) : decide (idx b = 0) = b := by cases b <;> simp [idx]

/-- First part of a word. -/
def FirstLeg (curved : Bool) (k s : ℝ) (l d : Bool) (p q : Config) (len : ℝ) : Prop :=
  match curved with
  | false => Turned true k s l d p q len
  | true => Closed k s l d p q len

/-- Last part of a word. -/
def LastLeg (curved : Bool) (k s : ℝ) (l d : Bool) (p q : Config) (len : ℝ) : Prop :=
  match curved with
  | false => Turned true k s l d p q len
  | true => Opened k s l d p q len

theorem startTurn_leg {k s : ℝ} (H : Rng k s) {curved : Bool} {l d : Bool} {w : List Segment}
    (h : StartTurn k s (sg d) (sg l) curved w) (p : Config) :
    FirstLeg curved k s l d p (libAll w p) (totalLength w) := by
  cases h with
  | zero h => exact ccTurn_turned H.kappa H.sigma H.clothoid l d h p
  | curved a ha => exact close_closed H.pos H.sigma l d ha p

theorem endTurn_leg {k s : ℝ} (H : Rng k s) {curved : Bool} {l d : Bool} {w : List Segment}
    (h : EndTurn k s (sg d) (sg l) curved w) (p g : Config) (hg : SameConfig (libAll w p) g) :
    LastLeg curved k s l d p g (totalLength w) := by
  cases h with
  | zero h => exact (ccTurn_turned H.kappa H.sigma H.clothoid l d h p).congr (SameConfig.refl _) hg
  | curved a ha => exact (open_opened H.pos H.sigma l d ha p).congr (SameConfig.refl _) hg

theorem pm_split {k s : ℝ} (H : Rng k s) {u1 u2 : Bool} {d l1 l2 : Bool}
    {cs : List Segment} (hw : PmWord u1 u2 k s (sg d) (sg l1) (sg l2) cs) (p g : Config)
    (he : SameConfig (libAll cs p) g) :
    (∃ q1 q2 x L1 L2, FirstLeg u1 k s l1 d p q1 L1 ∧ LastLeg u2 k s l2 d q2 g L2 ∧ 0 ≤ x ∧
      q2.pos = q1.pos + cis q1.theta * ((sg d * x : ℝ) : ℂ) ∧ AngleEq q2.theta q1.theta ∧
      totalLength cs = L1 + x + L2) ∨
    (l2 = l1 ∧ ∃ q1 q2 L1 L2 L3, FirstLeg u1 k s l1 d p q1 L1 ∧ Turned true k s (!l1) d q1 q2 L2 ∧
      LastLeg u2 k s l1 d q2 g L3 ∧ totalLength cs = L1 + L2 + L3) := by
  generalize hx2 : sg l2 = x2 at hw
  cases hw with
  | @tst l2' x w1 w2 h1 hx h2 =>
    subst hx2
    rw [libAll_append, libAll_append] at he
    obtain ⟨e1, e2⟩ := lib_line (len := sg d * x) (libAll w1 p)
    left
    refine ⟨libAll w1 p, libArrive ⟨sg d * x, 0, 0⟩ (libAll w1 p), x, totalLength w1, totalLength w2,
      startTurn_leg H h1 p, endTurn_leg H h2 _ _ he, hx, e1, AngleEq.of_eq e2, ?_⟩
    rw [totalLength_append, totalLength_append]
    simp only [totalLength, List.map_cons, List.map_nil, List.sum_cons, List.sum_nil,
      abs_pm_mul (sg_pm d) hx, add_zero]
  | @tt w1 w2 h1 h2 =>
    rw [← hx2] at h2
    rw [libAll_append] at he
    left
    refine ⟨libAll w1 p, libAll w1 p, 0, totalLength w1, totalLength w2,
      startTurn_leg H h1 p, endTurn_leg H h2 _ _ he, le_rfl, by simp, AngleEq.refl _, ?_⟩
    rw [totalLength_append, add_zero]
  | @ttt w1 w2 w3 h1 h2 h3 =>
    obtain rfl : l2 = l1 := sg_inj hx2
    rw [← sg_not] at h2
    rw [libAll_append, libAll_append] at he
    right
    refine ⟨rfl, libAll w1 p, libAll w2 (libAll w1 p), totalLength w1, totalLength w2, totalLength w3,
      startTurn_leg H h1 p, ccTurn_turned H.kappa H.sigma H.clothoid (!l2) d h2 _, endTurn_leg H h3 _ _ he, ?_⟩
    rw [totalLength_append, totalLength_append]

/-- The selected path is not longer than an entry. -/
theorem best_le {path : ℕ → Option SF.CCPath} {n : ℕ} (hn : n < 4) {p : SF.CCPath} (h : path n = some p) {L : ℝ}
    (hL : p.length ≤ L) (hlt : L < SF.dblMax) :
    ∃ x, (SF.best_of path).map SF.CCPath.length = some x ∧ x ≤ L := by
  obtain ⟨m, p', _, _, h1, h2⟩ := best_of_spec hn h (hL.trans_lt hlt)
  exact ⟨p'.length, by rw [h1]; rfl, (h2 n hn p h).trans hL⟩

/-- A configuration on a circle is recognised. -/
theorem on_circle_geom {c : SF.Circle} {A B : ℝ} (h : GeomOk c A B) (hR : 0 < c.radius) {q : SF.Configuration}
    (hq0 : 0 ≤ q.theta) (hq1 : q.theta < 2 * π)
    (hc : cen (-(sg c.forward * A)) (sg c.left * B) (cfg q) = center c) :
    SF.configuration_on_hc_cc_circle c q := by
  obtain ⟨e, he⟩ : ∃ e : ℂ, e = (⟨sg c.forward * A, -(sg c.left * B)⟩ : ℂ) := ⟨_, rfl⟩
  have hpos : (cfg q).pos - center c = cis q.theta * e := by
    rw [← hc, cen, he]
    have : (⟨-(sg c.forward * A), sg c.left * B⟩ : ℂ)
        = -⟨sg c.forward * A, -(sg c.left * B)⟩ := by apply Complex.ext <;> simp
    rw [this]; change _ = cis (cfg q).theta * _; ring
  have hen : ‖e‖ = c.radius := by
    rw [he, ← sqrt_eq_norm, h.radius]
    congr 1
    have h1 := sg_sq c.forward
    have h2 := sg_sq c.left
    rw [neg_sq, mul_pow, mul_pow, sq (sg _), sq (sg _), h1, h2, one_mul, one_mul]
  have hz : (⟨q.x - c.xc, q.y - c.yc⟩ : ℂ) = (cfg q).pos - center c := by
    apply Complex.ext <;> rfl
  have hd : SF.point_distance c.xc c.yc q.x q.y = c.radius := by
    unfold SF.point_distance
    rw [sqrt_eq_norm, hz, hpos, norm_cis_mul, hen]
  have harg : SF.atan2 (q.y - c.yc) (q.x - c.xc) = Complex.arg ((cfg q).pos - center c) := by
    rw [← hz]; rfl
  have hpol := norm_mul_cis_arg ((cfg q).pos - center c)
  rw [← harg, hpos, norm_cis_mul, hen] at hpol
  obtain ⟨g, hg⟩ : ∃ g, g = SF.atan2 (q.y - c.yc) (q.x - c.xc) := ⟨_, rfl⟩
  have key : cis (g + sg c.left * (π / 2) - sg c.left * sg c.forward * c.mu) * e = (c.radius : ℂ) * cis g := by
    rw [he, ← h.sin_mu, ← h.cos_mu, h.sin_mu_eq, h.cos_mu_eq, sub_eq_add_neg, add_assoc, cis_add, mul_assoc,
      mul_comm (cis g)]
    congr 1
    have h1 := sin_sq_add_cos_sq c.mu
    generalize c.mu = m at h1 ⊢
    cases c.left <;> cases c.forward <;> apply Complex.ext <;>
      simp [cis, sg, cos_add, sin_add] <;> first | linear_combination c.radius * h1 | ring
  have he0 : e ≠ 0 := by rw [← norm_pos_iff, hen]; exact hR
  have hang : AngleEq (g + sg c.left * (π / 2) - sg c.left * sg c.forward * c.mu) q.theta := by
    apply cis_inj
    refine mul_right_cancel₀ he0 ?_
    rw [key, ← hpol, hg]
  have htw : ∀ w, w = g + sg c.left * (π / 2) - sg c.left * sg c.forward * c.mu →
      |q.theta - SF.twopify w| < SF.epsilon := by
    rintro w rfl
    rw [SF.twopify_congr hang, SF.twopify_of_mem hq0 hq1]
    norm_num [SF.epsilon]
  unfold SF.configuration_on_hc_cc_circle
  simp only
  rw [if_neg (by rw [hd]; norm_num [SF.epsilon]), ← hg]
  apply htw
  cases c.left <;> cases c.forward <;> simp [sg] <;> ring

theorem curved_theta (sp : SF.HCSpace) (s : SF.State) (l : Bool) :
    0 ≤ (curvedOf sp s l).theta ∧ (curvedOf sp s l).theta < 2 * π := ⟨SF.twopify_nonneg _, SF.twopify_lt _⟩

/-- The circles of a turn-line-turn word are at least the length of the line apart. -/
theorem line_far {A B x : ℝ} {d l1 l2 : Bool} {C1 C2 : ℂ} {q1 q2 : Config} (hA : 0 ≤ A)
    (g1 : cen (-(sg d * A)) (sg l1 * B) q1 = C1) (g2 : cen (sg d * A) (sg l2 * B) q2 = C2) (hx : 0 ≤ x)
    (hq : q2.pos = q1.pos + cis q1.theta * ((sg d * x : ℝ) : ℂ)) (hqt : AngleEq q2.theta q1.theta) :
    x ≤ ‖C2 - C1‖ := by
  have e : C2 - C1 = cis q1.theta * (⟨sg d * (x + 2 * A), (sg l2 - sg l1) * B⟩ : ℂ) := by
    rw [← g1, ← g2]
    unfold cen
    rw [hq, hqt.cis_eq]
    have : (⟨sg d * (x + 2 * A), (sg l2 - sg l1) * B⟩ : ℂ) = ((sg d * x : ℝ) : ℂ)
        + ⟨sg d * A, sg l2 * B⟩ - ⟨-(sg d * A), sg l1 * B⟩ := by
      apply Complex.ext
      · simp; ring
      · simp; ring
    rw [this]; ring
  rw [e, norm_cis_mul]
  have h := Complex.abs_re_le_norm (⟨sg d * (x + 2 * A), (sg l2 - sg l1) * B⟩ : ℂ)
  simp only at h
  rw [abs_pm_mul (sg_pm d) (by linarith)] at h
  linarith

/-! ### CC0pm -/

namespace CC0pm

open SF.CC0pm

variable {sp : SF.HCSpace} (H : Rng sp.kappa sp.sigma) {s1 s2 : SF.State}

theorem pair_some {l1 l2 : Bool} (ht : Toward l2 s2.kappa) :
    path sp s1 s2 (2 * idx l1 + idx l2) = some (circles_dubins_path sp (start_circle sp (startOf s1) (idx l1))
      (end_circle sp s2 (idx l2))) := by
  have h1 := idx_lt l1
  have h2 := idx_lt l2
  rw [path_some, show (2 * idx l1 + idx l2) % 2 = idx l2 by omega, show (2 * idx l1 + idx l2) / 2 = idx l1 by omega]
  refine ⟨?_, rfl⟩
  rw [idx_zero]; exact ht

theorem start_left (q : SF.Configuration) (b : Bool) : (start_circle sp q (idx b)).left = b := idx_zero b

theorem end_left (b : Bool) : (end_circle sp s2 (idx b)).left = b := idx_zero b

theorem end_cfg (b : Bool) : SameConfig (cfg (end_circle sp s2 (idx b)).start) (pose s2) := by
  rw [end_start]; exact cfg_curvedOf _ _ _

theorem equal_le {c1 c2 : SF.Circle} (h : SF.configuration_equal c1.start c2.start) :
    (circles_dubins_path sp c1 c2).length ≤ 0 := by
  refine (entry_le sp c1 c2 (i := 0) (by norm_num)).trans (le_of_eq ?_)
  unfold table; rw [if_pos h, set_same]

include H in
theorem word_le {cs : List Segment} {l1 l2 : Bool}
    (hw : PmWord false true sp.kappa sp.sigma (sg sp.forwards) (sg l1) (sg l2) cs) (ht : Toward l2 s2.kappa)
    (he : SameConfig (libAll cs (pose s1)) (pose s2))
    (hoff : SF.epsilon ≤ SF.center_distance (start_circle sp (startOf s1) (idx l1)) (end_circle sp s2 (idx l2)))
    (hfin : totalLength cs < SF.dblMax) : ∃ x, get_distance sp s1 s2 = some x ∧ x ≤ totalLength cs := by
  have i1 := idx_lt l1
  have i2 := idx_lt l2
  refine best_le (n := 2 * idx l1 + idx l2) (by omega) (pair_some ht) ?_ hfin
  obtain ⟨c1, hc1⟩ : ∃ c1, c1 = start_circle sp (startOf s1) (idx l1) := ⟨_, rfl⟩
  obtain ⟨c2, hc2⟩ : ∃ c2, c2 = end_circle sp s2 (idx l2) := ⟨_, rfl⟩
  rw [← hc1, ← hc2] at hoff ⊢
  by_cases hE : SF.configuration_equal c1.start c2.start
  · exact (equal_le hE).trans (totalLength_nonneg _)
  have h1 : CircOk c1 sp.kappa sp.sigma := by
    rw [hc1]; exact circOk_at H.kappa H.sigma H.clothoid _ _ _ _
  have h2 : RsOk c2 sp.kappa := by rw [hc2]; exact rsOk_at H.pos _ _ _ _
  have hl1 : c1.left = l1 := by rw [hc1]; exact start_left _ _
  have hl2 : c2.left = l2 := by rw [hc2]; exact end_left _
  have hd : c1.forward = sp.forwards := by rw [hc1]; rfl
  have hf : c2.forward = !c1.forward := by rw [hc1, hc2]; rfl
  have e1 : SameConfig (cfg c1.start) (pose s1) := by rw [hc1]; exact cfg_startOf s1
  have e2 : SameConfig (cfg c2.start) (pose s2) := by rw [hc2]; exact end_cfg _
  rcases pm_split H hw _ _ he with ⟨q1, q2, x, L1, L2, t1, t2, hx, hq, hqt, e⟩ | ⟨hl, q1, q2, L1, L2, L3, t1, t2, t3, e⟩
  · rw [e]
    have t1' : Turned true sp.kappa sp.sigma l1 sp.forwards (pose s1) q1 L1 := t1
    have t2' : Opened sp.kappa sp.sigma l2 sp.forwards q2 (pose s2) L2 := t2
    refine tst_le H h1 h2 hf ⟨hE, hoff⟩ (q1 := q1) (q2 := q2) ?_ ?_ hx (by rw [hd]; exact hq) hqt
    · rw [hl1, hd]; exact t1'.congr e1.symm (SameConfig.refl _)
    · rw [hl2, hd]; exact t2'.congr (SameConfig.refl _) e2.symm
  · rw [e]
    have t1' : Turned true sp.kappa sp.sigma l1 sp.forwards (pose s1) q1 L1 := t1
    have t3' : Opened sp.kappa sp.sigma l1 sp.forwards q2 (pose s2) L3 := t3
    refine ttt_le H h1 h2 hf ⟨hE, hoff⟩ (by rw [hl1, hl2, hl]) (q1 := q1) (q2 := q2) ?_ ?_ ?_
    · rw [hl1, hd]; exact t1'.congr e1.symm (SameConfig.refl _)
    · rw [hl1, hd]; exact t2
    · rw [hl1, hd]; exact t3'.congr (SameConfig.refl _) e2.symm

include H in
theorem turn_le {a : ℝ} (ha : 0 ≤ a) {l : Bool} (ht : Toward l s2.kappa)
    (he : SameConfig (libAll (openTurn sp.kappa sp.sigma (sg sp.forwards) (sg l) a) (pose s1)) (pose s2))
    (hfin : sp.kappa / sp.sigma + a < SF.dblMax) :
    ∃ x, get_distance sp s1 s2 = some x ∧ x ≤ sp.kappa / sp.sigma + a := by
  have i1 := idx_lt l
  refine best_le (n := 2 * idx l + idx l) (by omega) (pair_some ht) ?_ hfin
  obtain ⟨c1, hc1⟩ : ∃ c1, c1 = start_circle sp (startOf s1) (idx l) := ⟨_, rfl⟩
  obtain ⟨c2, hc2⟩ : ∃ c2, c2 = end_circle sp s2 (idx l) := ⟨_, rfl⟩
  rw [← hc1, ← hc2]
  by_cases hE : SF.configuration_equal c1.start c2.start
  · have := div_pos H.pos H.sigma
    exact (equal_le hE).trans (by linarith)
  have h1 : CircOk c1 sp.kappa sp.sigma := by
    rw [hc1]; exact circOk_at H.kappa H.sigma H.clothoid _ _ _ _
  have h2 : RsOk c2 sp.kappa := by rw [hc2]; exact rsOk_at H.pos _ _ _ _
  have hl1 : c1.left = l := by rw [hc1]; exact start_left _ _
  have hl2 : c2.left = l := by rw [hc2]; exact end_left _
  have hd : c1.forward = sp.forwards := by rw [hc1]; rfl
  have e1 : SameConfig (cfg c1.start) (pose s1) := by rw [hc1]; exact cfg_startOf s1
  have e2 : SameConfig (cfg c2.start) (pose s2) := by rw [hc2]; exact end_cfg _
  have t := (open_opened H.pos H.sigma l sp.forwards ha (pose s1)).congr e1.symm (he.trans e2.symm)
  rw [(half_length H.pos H.sigma ha l sp.forwards).1] at t
  have hcc : center c1 = center c2 := by rw [h1.cen, h2.cen, hl1, hl2, hd, t.cen]
  refine (entry_le sp c1 c2 (i := 2) (by norm_num)).trans ?_
  unfold table
  rw [if_neg hE, if_pos (show (SF.scratch c1 c2).distance < SF.epsilon by
    change SF.center_distance c1 c2 < _
    rw [center_distance_eq, hcc, sub_self, norm_zero]; norm_num [SF.epsilon]), set_same]
  exact t.turn _ _ (circOk_at H.kappa H.sigma H.clothoid _ _ _ _).ok rfl hl1 hd (SameConfig.refl _) (SameConfig.refl _)

end CC0pm

/-! ### CCpm0 -/

namespace CCpm0

open SF.CCpm0

variable {sp : SF.HCSpace} (H : Rng sp.kappa sp.sigma) {s1 s2 : SF.State}

theorem pair_some {l1 l2 : Bool} (ht : Toward l1 s1.kappa) :
    path sp s1 s2 (2 * idx l1 + idx l2) = some (circles_dubins_path sp (start_circle sp s1 (idx l1))
      (end_circle sp (startOf s2) (idx l2))) := by
  have h1 := idx_lt l1
  have h2 := idx_lt l2
  rw [path_some (by omega), show (2 * idx l1 + idx l2) % 2 = idx l2 by omega,
    show (2 * idx l1 + idx l2) / 2 = idx l1 by omega]
  refine ⟨?_, rfl⟩
  rw [idx_zero]; exact ht

theorem start_left (b : Bool) : (start_circle sp s1 (idx b)).left = b := idx_zero b

theorem end_left (q : SF.Configuration) (b : Bool) : (end_circle sp q (idx b)).left = b := idx_zero b

theorem start_cfg (b : Bool) : SameConfig (cfg (start_circle sp s1 (idx b)).start) (pose s1) := by
  rw [start_start]; exact cfg_curvedOf _ _ _

theorem equal_le {c1 c2 : SF.Circle} (h : SF.configuration_equal c1.start c2.start) :
    (circles_dubins_path sp c1 c2).length ≤ 0 := by
  refine (entry_le sp c1 c2 (i := 0) (by norm_num)).trans (le_of_eq ?_)
  unfold table; rw [if_pos h, set_same]

include H in
theorem word_le {cs : List Segment} {l1 l2 : Bool}
    (hw : PmWord true false sp.kappa sp.sigma (sg sp.forwards) (sg l1) (sg l2) cs) (ht : Toward l1 s1.kappa)
    (he : SameConfig (libAll cs (pose s1)) (pose s2))
    (hoff : SF.epsilon ≤ SF.center_distance (start_circle sp s1 (idx l1)) (end_circle sp (startOf s2) (idx l2)))
    (hfin : totalLength cs < SF.dblMax) : ∃ x, get_distance sp s1 s2 = some x ∧ x ≤ totalLength cs := by
  have i1 := idx_lt l1
  have i2 := idx_lt l2
  refine best_le (n := 2 * idx l1 + idx l2) (by omega) (pair_some ht) ?_ hfin
  obtain ⟨c1, hc1⟩ : ∃ c1, c1 = start_circle sp s1 (idx l1) := ⟨_, rfl⟩
  obtain ⟨c2, hc2⟩ : ∃ c2, c2 = end_circle sp (startOf s2) (idx l2) := ⟨_, rfl⟩
  rw [← hc1, ← hc2] at hoff ⊢
  by_cases hE : SF.configuration_equal c1.start c2.start
  · exact (equal_le hE).trans (totalLength_nonneg _)
  have h1 : RsOk c1 sp.kappa := by rw [hc1]; exact rsOk_at H.pos _ _ _ _
  have h2 : CircOk c2 sp.kappa sp.sigma := by
    rw [hc2]; exact circOk_at H.kappa H.sigma H.clothoid _ _ _ _
  have hl1 : c1.left = l1 := by rw [hc1]; exact start_left _
  have hl2 : c2.left = l2 := by rw [hc2]; exact end_left _ _
  have hd : c1.forward = sp.forwards := by rw [hc1]; rfl
  have hf : c2.forward = !c1.forward := by rw [hc1, hc2]; rfl
  have e1 : SameConfig (cfg c1.start) (pose s1) := by rw [hc1]; exact start_cfg _
  have e2 : SameConfig (cfg c2.start) (pose s2) := by rw [hc2]; exact cfg_startOf s2
  rcases pm_split H hw _ _ he with ⟨q1, q2, x, L1, L2, t1, t2, hx, hq, hqt, e⟩ | ⟨hl, q1, q2, L1, L2, L3, t1, t2, t3, e⟩
  · rw [e]
    have t1' : Closed sp.kappa sp.sigma l1 sp.forwards (pose s1) q1 L1 := t1
    have t2' : Turned true sp.kappa sp.sigma l2 sp.forwards q2 (pose s2) L2 := t2
    refine tst_le H h1 h2 hf ⟨hE, hoff⟩ (q1 := q1) (q2 := q2) ?_ ?_ hx (by rw [hd]; exact hq) hqt
    · rw [hl1, hd]; exact t1'.congr e1.symm (SameConfig.refl _)
    · rw [hl2, hd]; exact t2'.congr (SameConfig.refl _) e2.symm
  · rw [e]
    have t1' : Closed sp.kappa sp.sigma l1 sp.forwards (pose s1) q1 L1 := t1
    have t3' : Turned true sp.kappa sp.sigma l1 sp.forwards q2 (pose s2) L3 := t3
    refine ttt_le H h1 h2 hf ⟨hE, hoff⟩ (by rw [hl1, hl2, hl]) (q1 := q1) (q2 := q2) ?_ ?_ ?_
    · rw [hl1, hd]; exact t1'.congr e1.symm (SameConfig.refl _)
    · rw [hl1, hd]; exact t2
    · rw [hl1, hd]; exact t3'.congr (SameConfig.refl _) e2.symm

include H in
theorem turn_le {a : ℝ} (ha : 0 ≤ a) {l : Bool} (ht : Toward l s1.kappa)
    (he : SameConfig (libAll (closeTurn sp.kappa sp.sigma (sg sp.forwards) (sg l) a) (pose s1)) (pose s2))
    (hfin : sp.kappa / sp.sigma + a < SF.dblMax) :
    ∃ x, get_distance sp s1 s2 = some x ∧ x ≤ sp.kappa / sp.sigma + a := by
  have i1 := idx_lt l
  refine best_le (n := 2 * idx l + idx l) (by omega) (pair_some ht) ?_ hfin
  obtain ⟨c1, hc1⟩ : ∃ c1, c1 = start_circle sp s1 (idx l) := ⟨_, rfl⟩
  obtain ⟨c2, hc2⟩ : ∃ c2, c2 = end_circle sp (startOf s2) (idx l) := ⟨_, rfl⟩
  rw [← hc1, ← hc2]
  by_cases hE : SF.configuration_equal c1.start c2.start
  · have := div_pos H.pos H.sigma
    exact (equal_le hE).trans (by linarith)
  have h1 : RsOk c1 sp.kappa := by rw [hc1]; exact rsOk_at H.pos _ _ _ _
  have h2 : CircOk c2 sp.kappa sp.sigma := by
    rw [hc2]; exact circOk_at H.kappa H.sigma H.clothoid _ _ _ _
  have hl1 : c1.left = l := by rw [hc1]; exact start_left _
  have hl2 : c2.left = l := by rw [hc2]; exact end_left _ _
  have hd : c2.forward = !sp.forwards := by rw [hc2]; rfl
  have e1 : SameConfig (cfg c1.start) (pose s1) := by rw [hc1]; exact start_cfg _
  have e2 : SameConfig (cfg c2.start) (pose s2) := by rw [hc2]; exact cfg_startOf s2
  have t := (close_closed H.pos H.sigma l sp.forwards ha (pose s1)).congr e1.symm (he.trans e2.symm)
  rw [(half_length H.pos H.sigma ha l sp.forwards).2] at t
  have hcc : center c1 = center c2 := by rw [h1.cen, h2.cen, hl1, hl2, hd, sg_not, neg_mul, t.cen]
  refine (entry_le sp c1 c2 (i := 2) (by norm_num)).trans ?_
  unfold table
  rw [if_neg hE, if_pos (show (SF.scratch c1 c2).distance < SF.epsilon by
    change SF.center_distance c1 c2 < _
    rw [center_distance_eq, hcc, sub_self, norm_zero]; norm_num [SF.epsilon]), set_same]
  exact t.turn _ _ (circOk_at H.kappa H.sigma H.clothoid _ _ _ _).ok rfl hl2 hd (SameConfig.refl _) (SameConfig.refl _)

end CCpm0

/-! ### CCpmpm -/

namespace CCpmpm

open SF.CCpmpm

variable {sp : SF.HCSpace} (H : Rng sp.kappa sp.sigma) {s1 s2 : SF.State}

theorem pair_some {l1 l2 : Bool} (ht1 : Toward l1 s1.kappa) (ht2 : Toward l2 s2.kappa) :
    path sp s1 s2 (2 * idx l1 + idx l2) = some (circles_dubins_path sp (start_circle sp s1 (idx l1))
      (end_circle sp s2 (idx l2))) := by
  have h1 := idx_lt l1
  have h2 := idx_lt l2
  rw [path_some (by omega), show (2 * idx l1 + idx l2) % 2 = idx l2 by omega,
    show (2 * idx l1 + idx l2) / 2 = idx l1 by omega]
  refine ⟨?_, ?_, rfl⟩
  · rw [idx_zero]; exact ht1
  · rw [idx_zero]; exact ht2

theorem start_left (b : Bool) : (start_circle sp s1 (idx b)).left = b := idx_zero b

theorem end_left (b : Bool) : (end_circle sp s2 (idx b)).left = b := idx_zero b

theorem start_cfg (b : Bool) : SameConfig (cfg (start_circle sp s1 (idx b)).start) (pose s1) := by
  rw [start_start]; exact cfg_curvedOf _ _ _

theorem end_cfg (b : Bool) : SameConfig (cfg (end_circle sp s2 (idx b)).start) (pose s2) := by
  rw [end_start]; exact cfg_curvedOf _ _ _

theorem equal_le {c1 c2 : SF.Circle} (h : SF.configuration_equal c1.start c2.start) :
    (circles_dubins_path sp c1 c2).length ≤ 0 := by
  refine (entry_le sp c1 c2 (i := 0) (by norm_num)).trans (le_of_eq ?_)
  unfold table; rw [if_pos h, set_same]

theorem on_same {k : ℝ} (hk : 0 < k) {c1 : SF.Circle} (h1 : RsOk c1 k) {q : SF.Configuration}
    (hq : 0 ≤ q.theta ∧ q.theta < 2 * π) (hcc : Spec.cen 0 (1 / (sg c1.left * k)) (cfg q) = center c1) :
    SF.configuration_on_hc_cc_circle c1 q := by
  refine on_circle_geom h1.geom (by rw [h1.radius]; positivity) hq.1 hq.2 ?_
  rw [mul_zero, neg_zero, rs_inv]; exact hcc

include H in
theorem word_le {cs : List Segment} {l1 l2 : Bool}
    (hw : PmWord true true sp.kappa sp.sigma (sg sp.forwards) (sg l1) (sg l2) cs) (ht1 : Toward l1 s1.kappa)
    (ht2 : Toward l2 s2.kappa) (he : SameConfig (libAll cs (pose s1)) (pose s2))
    (hoff : ¬ SF.configuration_on_hc_cc_circle (start_circle sp s1 (idx l1)) (end_circle sp s2 (idx l2)).start)
    (hfin : totalLength cs < SF.dblMax) : ∃ x, get_distance sp s1 s2 = some x ∧ x ≤ totalLength cs := by
  have i1 := idx_lt l1
  have i2 := idx_lt l2
  refine best_le (n := 2 * idx l1 + idx l2) (by omega) (pair_some ht1 ht2) ?_ hfin
  obtain ⟨c1, hc1⟩ : ∃ c1, c1 = start_circle sp s1 (idx l1) := ⟨_, rfl⟩
  obtain ⟨c2, hc2⟩ : ∃ c2, c2 = end_circle sp s2 (idx l2) := ⟨_, rfl⟩
  rw [← hc1, ← hc2] at hoff ⊢
  by_cases hE : SF.configuration_equal c1.start c2.start
  · exact (equal_le hE).trans (totalLength_nonneg _)
  have h1 : RsOk c1 sp.kappa := by rw [hc1]; exact rsOk_at H.pos _ _ _ _
  have h2 : RsOk c2 sp.kappa := by rw [hc2]; exact rsOk_at H.pos _ _ _ _
  have hl1 : c1.left = l1 := by rw [hc1]; exact start_left _
  have hl2 : c2.left = l2 := by rw [hc2]; exact end_left _
  have hd : c1.forward = sp.forwards := by rw [hc1]; rfl
  have hf : c2.forward = !c1.forward := by rw [hc1, hc2]; rfl
  have e1 : SameConfig (cfg c1.start) (pose s1) := by rw [hc1]; exact start_cfg _
  have e2 : SameConfig (cfg c2.start) (pose s2) := by rw [hc2]; exact end_cfg _
  rcases pm_split H hw _ _ he with ⟨q1, q2, x, L1, L2, t1, t2, hx, hq, hqt, e⟩ | ⟨hl, q1, q2, L1, L2, L3, t1, t2, t3, e⟩
  · rw [e]
    have t1' : Closed sp.kappa sp.sigma l1 sp.forwards (pose s1) q1 L1 := t1
    have t2' : Opened sp.kappa sp.sigma l2 sp.forwards q2 (pose s2) L2 := t2
    refine tst_le H h1 h2 hf ⟨hE, hoff⟩ (q1 := q1) (q2 := q2) ?_ ?_ hx (by rw [hd]; exact hq) hqt
    · rw [hl1, hd]; exact t1'.congr e1.symm (SameConfig.refl _)
    · rw [hl2, hd]; exact t2'.congr (SameConfig.refl _) e2.symm
  · rw [e]
    have t1' : Closed sp.kappa sp.sigma l1 sp.forwards (pose s1) q1 L1 := t1
    have t3' : Opened sp.kappa sp.sigma l1 sp.forwards q2 (pose s2) L3 := t3
    refine ttt_le H h1 h2 hf ⟨hE, hoff⟩ ?_ (by rw [hl1, hl2, hl]) (q1 := q1) (q2 := q2) ?_ ?_ ?_
    · intro hcc
      refine hoff (on_same H.pos h1 ?_ ?_)
      · rw [hc2, end_start]; exact curved_theta _ _ _
      · rw [hcc, h2.cen, hl1, hl2, hl]
    · rw [hl1, hd]; exact t1'.congr e1.symm (SameConfig.refl _)
    · rw [hl1, hd]; exact t2
    · rw [hl1, hd]; exact t3'.congr (SameConfig.refl _) e2.symm

include H in
theorem turn_le {a : ℝ} (ha : 0 ≤ a) {l : Bool} (ht1 : Toward l s1.kappa) (ht2 : Toward l s2.kappa)
    (he : SameConfig (libAll [⟨sg sp.forwards * a, sg l * sp.kappa, 0⟩] (pose s1)) (pose s2))
    (hfin : a < SF.dblMax) :
    ∃ x, get_distance sp s1 s2 = some x ∧ x ≤ a := by
  have i1 := idx_lt l
  refine best_le (n := 2 * idx l + idx l) (by omega) (pair_some ht1 ht2) ?_ hfin
  obtain ⟨c1, hc1⟩ : ∃ c1, c1 = start_circle sp s1 (idx l) := ⟨_, rfl⟩
  obtain ⟨c2, hc2⟩ : ∃ c2, c2 = end_circle sp s2 (idx l) := ⟨_, rfl⟩
  rw [← hc1, ← hc2]
  by_cases hE : SF.configuration_equal c1.start c2.start
  · exact (equal_le hE).trans ha
  have h1 : RsOk c1 sp.kappa := by rw [hc1]; exact rsOk_at H.pos _ _ _ _
  have hl1 : c1.left = l := by rw [hc1]; exact start_left _
  have hd : c1.forward = sp.forwards := by rw [hc1]; rfl
  have e1 : SameConfig (cfg c1.start) (pose s1) := by rw [hc1]; exact start_cfg _
  have e2 : SameConfig (cfg c2.start) (pose s2) := by rw [hc2]; exact end_cfg _
  simp only [libAll] at he
  obtain ⟨j1, j2⟩ := lib_arc (len := sg sp.forwards * a) (sg_k_ne H.pos l) (pose s1)
  rw [cen_congr (he.trans e2.symm), ← cen_congr e1] at j1
  have hon : SF.configuration_on_hc_cc_circle c1 c2.start := by
    refine on_same H.pos h1 ?_ ?_
    · rw [hc2, end_start]; exact curved_theta _ _ _
    · rw [h1.cen, hl1]; exact j1
  refine (entry_le sp c1 c2 (i := 2) (by norm_num)).trans ?_
  unfold table
  rw [if_neg hE, if_pos hon, set_same]
  have hang : AngleEq ((cturn sp c1).deflection c2.start) (sp.kappa * a) := by
    refine deflection_to (p := pose s1) (q := libArrive ⟨sg sp.forwards * a, sg l * sp.kappa, 0⟩ (pose s1)) e1
      (e2.trans he.symm) (AngleEq.of_eq ?_)
    rw [j2]
    change _ = _ + sg c1.forward * sg c1.left * _
    rw [hd, hl1]; ring
  obtain ⟨_, d0, d1⟩ := deflection_spec (cturn sp c1) c2.start
  have hk := H.pos
  have hle := le_of_angleEq hang d1 (by positivity)
  have hr : RsOk (cturn sp c1) sp.kappa := rsOk_at H.pos _ _ _ _
  change (cturn sp c1).rs_turn_length c2.start ≤ a
  unfold SF.Circle.rs_turn_length SF.Circle.rs_circular_deflection
  simp only
  rw [if_pos (show (cturn sp c1).regular = true from rfl), abs_mul, hr.kappa_inv, abs_of_nonneg d0, abs_mul,
    abs_of_pos (show 0 < 1 / sp.kappa by positivity), show |sg (cturn sp c1).left| = 1 by
      cases (cturn sp c1).left <;> simp [sg], one_mul]
  have := mul_le_mul_of_nonneg_left hle (show 0 ≤ 1 / sp.kappa by positivity)
  rwa [show 1 / sp.kappa * (sp.kappa * a) = a by field_simp] at this

end CCpmpm

end Spec
