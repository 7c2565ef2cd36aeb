import Verif.Lemmas.HcLeg
import Verif.Spec.HcPlanner

/-!
# The moves of hybrid-curvature Reeds-Shepp paths
-/

noncomputable section

namespace Spec

open Real Props
open CC00 (CircOk cc_turn_ne_nil circOk_at)

/-! ### Driving directions -/

theorem mem_driven {cs : List Segment} {x : Segment} (h : x ∈ driven cs) : x ∈ cs ∧ x.len ≠ 0 := by
  simpa [driven] using h

theorem OneWay.driven {d : ℝ} (hd : d = 1 ∨ d = -1) {cs : List SF.Control} (h : OneWay d cs) {x : Segment}
    (hx : x ∈ driven (cs.map seg)) : 0 < d * x.len := by
  obtain ⟨h1, h2⟩ := mem_driven hx
  obtain ⟨c, hc, rfl⟩ := List.mem_map.1 h1
  refine lt_of_le_of_ne (h c hc) (Ne.symm (mul_ne_zero ?_ h2))
  rcases hd with rfl | rfl <;> norm_num

/-- Directions at both ends. -/
def Ways (a b : ℝ) (cs : List SF.Control) : Prop :=
  (∀ x ∈ (driven (cs.map seg)).head?, 0 < a * x.len) ∧ (∀ x ∈ (driven (cs.map seg)).getLast?, 0 < b * x.len)

theorem OneWay.ways {d : ℝ} (hd : d = 1 ∨ d = -1) {cs : List SF.Control} (h : OneWay d cs) : Ways d d cs :=
  ⟨fun _ hx => h.driven hd (List.mem_of_mem_head? hx), fun _ hx => h.driven hd (List.mem_of_mem_getLast? hx)⟩

theorem some_head (cs : List SF.Control) : ∃ a, ∀ x ∈ (driven (cs.map seg)).head?, 0 < a * x.len := by
  rcases h : (driven (cs.map seg)).head? with _ | y
  · exact ⟨0, by simp⟩
  · refine ⟨y.len, fun x hx => ?_⟩
    obtain rfl := Option.some.inj hx
    exact mul_self_pos.2 (mem_driven (List.mem_of_mem_head? h)).2

theorem some_last (cs : List SF.Control) : ∃ b, ∀ x ∈ (driven (cs.map seg)).getLast?, 0 < b * x.len := by
  rcases h : (driven (cs.map seg)).getLast? with _ | y
  · exact ⟨0, by simp⟩
  · refine ⟨y.len, fun x hx => ?_⟩
    obtain rfl := Option.some.inj hx
    exact mul_self_pos.2 (mem_driven (List.mem_of_mem_getLast? h)).2

theorem head_first {c : SF.Control} {cs : List SF.Control} {d : ℝ} (h : 0 < d * c.delta_s) :
    driven ((c :: cs).map seg) ≠ [] ∧ ∀ x ∈ (driven ((c :: cs).map seg)).head?, 0 < d * x.len := by
  have h0 : (seg c).len ≠ 0 := by
    intro h0; have : c.delta_s = 0 := h0
    rw [this, mul_zero] at h; exact lt_irrefl _ h
  rw [List.map_cons, driven_cons h0]
  refine ⟨by simp, fun x hx => ?_⟩
  obtain rfl : seg c = x := by simpa using hx
  exact h

theorem last_last {c : SF.Control} {cs : List SF.Control} {d : ℝ} (h : 0 < d * c.delta_s) :
    driven ((cs ++ [c]).map seg) ≠ [] ∧ ∀ x ∈ (driven ((cs ++ [c]).map seg)).getLast?, 0 < d * x.len := by
  have h0 : (seg c).len ≠ 0 := by
    intro h0; have : c.delta_s = 0 := h0
    rw [this, mul_zero] at h; exact lt_irrefl _ h
  have hd : driven ((cs ++ [c]).map seg) = driven (cs.map seg) ++ [seg c] := by
    rw [List.map_append]
    unfold driven
    rw [List.filter_append]
    simp [h0]
  rw [hd]
  refine ⟨by simp, fun x hx => ?_⟩
  obtain rfl : seg c = x := by simpa using hx
  exact h

theorem pm_sq {d : ℝ} (hd : d = 1 ∨ d = -1) {w : ℝ} (hw : 0 < w) : 0 < d * (d * w) := by
  rcases hd with rfl | rfl <;> linarith

theorem hc_first_way {k s A B : ℝ} {c : SF.Circle} (h : CircleOk c k s A B) (hk : 0 < k) (hs : 0 < s) (q : SF.Configuration) :
    driven ((SF.hc_turn_controls c q true).map seg) ≠ [] ∧
    ∀ x ∈ (driven ((SF.hc_turn_controls c q true).map seg)).head?, 0 < sg c.forward * x.len := by
  unfold SF.hc_turn_controls
  simp only [if_true, List.append_nil, List.cons_append, List.nil_append]
  apply head_first
  simp only [abs_kappa_sigma h hk hs, direction_to]
  exact pm_sq (sg_pm _) (by positivity)

theorem hc_last_way {k s A B : ℝ} {c : SF.Circle} (h : CircleOk c k s A B) (hk : 0 < k) (hs : 0 < s) (q : SF.Configuration) :
    driven ((SF.hc_turn_controls c q false).map seg) ≠ [] ∧
    ∀ x ∈ (driven ((SF.hc_turn_controls c q false).map seg)).getLast?, 0 < -sg c.forward * x.len := by
  unfold SF.hc_turn_controls
  simp only [Bool.false_eq_true, if_false, List.nil_append]
  apply last_last
  simp only [abs_kappa_sigma h hk hs, direction_from]
  refine pm_sq ?_ (by positivity)
  rcases sg_pm c.forward with e | e <;> rw [e] <;> simp

theorem cc_ways {c : SF.Circle} {k s e : ℝ} (H : Rng k s) (h : CircOk c k s) {q : SF.Configuration}
    (he : ‖cen (-(sg c.forward * ccA k s)) (sg c.left * ccB k s) (cfg q) - center c‖ ≤ e) (heA : e ≤ ccA k s)
    (order : Bool) :
    Ways (SF.direction c.forward order) (SF.direction c.forward order) (SF.cc_turn_controls c q order) := by
  have hk := H.pos
  have hs := H.sigma
  have hd := direction_pm c.forward order
  by_cases hdel : c.deflection q < SF.epsilon
  · have hcs : SF.cc_turn_controls c q order = SF.cc_turn_controls { c with regular := true } q order := by
      have hdel' : SF.Circle.deflection { c with regular := true } q < SF.epsilon := hdel
      unfold SF.cc_turn_controls
      simp only [hdel, hdel', if_true]
    rw [hcs]
    have hok : CircleOk { c with regular := true } k s (ccA k s) (ccB k s) := by
      obtain ⟨⟩ := h.ok; constructor <;> assumption
    exact (oneWay_turn hok H.kappa H.sigma H.clothoid h.cen he rfl heA order).ways hd
  · have S := cc_turn_shape h.ok H.kappa H.sigma q order
    generalize SF.direction c.forward order = d at *
    generalize SF.cc_turn_controls c q order = cs at *
    have hp : ∀ w, 0 < w → 0 < d * (d * w) := fun w hw => pm_sq hd hw
    cases S with
    | line x h' => exact absurd h' hdel
    | full w hw h' =>
      refine ⟨(head_first ?_).2, (last_last (cs := [_, _]) ?_).2⟩
      · exact hp _ (by positivity)
      · exact hp _ (by positivity)
    | elem s0 L h0 hL h' hlim =>
      refine ⟨(head_first ?_).2, (last_last (cs := [_]) ?_).2⟩
      · exact hp _ hL
      · exact hp _ hL

theorem hc_limits {k s A B : ℝ} {c : SF.Circle} (h : CircleOk c k s A B) (hk : k > SF.epsilon) (hs : 0 < s)
    (q : SF.Configuration) (order : Bool) :
    CurvatureAtMost (k * (1 + 1 / 10 ^ 8)) ((SF.hc_turn_controls c q order).map seg) ∧
      SharpnessAtMost (s * (1 + 2 / 10 ^ 8)) ((SF.hc_turn_controls c q order).map seg) := by
  obtain ⟨_, g2, g3, _⟩ := hc_turn_form h hk hs q order
  have : 0 < k := lt_trans (by norm_num [SF.epsilon]) hk
  exact limits_mono (by linarith) (by linarith) ⟨g2, g3⟩

theorem rs_limits {k s : ℝ} {c : SF.Circle} (h : RsOk c k) (hk : 0 < k) (hs : 0 < s) (q : SF.Configuration) (order : Bool) :
    CurvatureAtMost (k * (1 + 1 / 10 ^ 8)) ((SF.rs_turn_controls c q order).map seg) ∧
      SharpnessAtMost (s * (1 + 2 / 10 ^ 8)) ((SF.rs_turn_controls c q order).map seg) := by
  have hak : |sg c.left * k| = k := abs_pm_mul (sg_pm _) hk.le
  have hx : ∀ x ∈ SF.rs_turn_controls c q order, x.kappa = sg c.left * k ∧ x.sigma = 0 := by
    intro x hx
    simp only [SF.rs_turn_controls, List.mem_singleton] at hx
    rw [hx]; exact ⟨h.kappa, rfl⟩
  constructor
  · intro x hx' t _ _
    obtain ⟨y, hy, rfl⟩ := List.mem_map.1 hx'
    simp only [seg, (hx y hy).1, (hx y hy).2, zero_mul, add_zero, hak]
    linarith
  · intro x hx'
    obtain ⟨y, hy, rfl⟩ := List.mem_map.1 hx'
    simp only [seg, (hx y hy).2, abs_zero]
    linarith

/-! ### Circles at the ends -/

/-- The circles at the ends as the planners create them. -/
structure EndOk (pm : Bool) (k s : ℝ) (c : SF.Circle) : Prop where
  regular : c.regular = true
  ok : if pm then RsOk c k else CircOk c k s

/-- Curvature at the end. -/
def kEnd (pm : Bool) (k : ℝ) (c : SF.Circle) : ℝ := if pm then sg c.left * k else 0

theorem level_end (pm : Bool) (k : ℝ) (c : SF.Circle) : Level k (kEnd pm k c) := by
  cases pm
  · exact level_zero k
  · exact level_side k c.left

theorem EndOk.rs {k s : ℝ} {c : SF.Circle} (h : EndOk true k s c) : RsOk c k := by simpa using h.ok

theorem EndOk.cc {k s : ℝ} {c : SF.Circle} (h : EndOk false k s c) : CircOk c k s := by simpa using h.ok

theorem EndOk.kappa {pm : Bool} {k s : ℝ} {c : SF.Circle} (h : EndOk pm k s c) : c.kappa = sg c.left * k := by
  cases pm
  · exact h.cc.ok.kappa
  · exact h.rs.kappa

theorem EndOk.kappa_inv {pm : Bool} {k s : ℝ} {c : SF.Circle} (h : EndOk pm k s c) :
    c.kappa_inv = sg c.left * (1 / k) := by
  cases pm
  · exact h.cc.ok.kappa_inv
  · exact h.rs.kappa_inv

theorem EndOk.abs_kappa {pm : Bool} {k s : ℝ} {c : SF.Circle} (h : EndOk pm k s c) (hk : 0 < k) : |c.kappa| = k := by
  rw [h.kappa]; exact abs_pm_mul (sg_pm _) hk.le

theorem EndOk.abs_inv {pm : Bool} {k s : ℝ} {c : SF.Circle} (h : EndOk pm k s c) (hk : 0 < k) :
    |c.kappa_inv| = 1 / k := by
  rw [h.kappa_inv]; exact abs_pm_mul (sg_pm _) (by positivity)

theorem turns_le (m : SF.Move) : (turns m).length ≤ 1 := by cases m <;> simp [turns]

section
variable {k s : ℝ} (H : Rng k s) {e : ℝ} {q q1 q2 : SF.Configuration} {z : ℂ} {l f r : Bool}

local notation "P" => SF.hc_cc_circle_param k s

include H in
theorem center_at (q : SF.Configuration) (l f r : Bool) :
    center (SF.circleAt q l f r P) = cen (sg f * ccA k s) (sg l * ccB k s) (cfg q) :=
  (circOk_at H.kappa H.sigma H.clothoid q l f r).cen

include H in
theorem AtTan.center (h : AtTan k s (!f) l z q e) : ‖center (SF.circleAt q l f r P) - z‖ ≤ e := by
  rw [center_at H]
  rw [AtTan, sg_not, neg_mul, neg_neg] at h
  exact h

theorem AtTan.nonneg (h : AtTan k s f l z q e) : 0 ≤ e := (norm_nonneg _).trans h

theorem AtCusp.nonneg (h : AtCusp k l z q e) : 0 ≤ e := (norm_nonneg _).trans h

include H in
theorem chain_hc_to {c : SF.Circle} (h : CircOk c k s)
    (he : ‖cen 0 (1 / (sg c.left * k)) (cfg q) - center c‖ ≤ e) {b : ℝ} (hb : c.regular = true → b = sg c.forward)
    (hb' : c.regular = false → ∀ x ∈ (driven ((SF.hc_turn_controls c q true).map seg)).getLast?, 0 < b * x.len) :
    Chain k s [⟨0, sg c.forward, sg c.left * k, b, false⟩] 0 (sg c.left * k) [] e 0 (SF.hc_turn_controls c q true)
      (cfg c.start) (cfg q) (c.hc_turn_length q) := by
  refine (leg_hc H h he true).chain (level_zero _) (level_side _ _) le_rfl
    (fun m hm => limits_up hm.1 H.pos.le H.sigma.le (hc_limits h.ok H.kappa H.sigma q true)) fun _ => ?_
  obtain ⟨w1, w2⟩ := hc_first_way h.ok H.pos H.sigma q
  refine ⟨w2, ?_, fun _ => w1⟩
  cases hr : c.regular
  · exact hb' hr
  · rw [hb hr]
    have := hc_turn_way hr q true
    rw [direction_to] at this
    exact (this.ways (sg_pm _)).2

include H in
theorem chain_hc_from {c : SF.Circle} (h : CircOk c k s)
    (he : ‖cen 0 (1 / (sg c.left * k)) (cfg q) - center c‖ ≤ e) {a : ℝ} (ha : c.regular = true → a = -sg c.forward)
    (ha' : c.regular = false → ∀ x ∈ (driven ((SF.hc_turn_controls c q false).map seg)).head?, 0 < a * x.len) :
    Chain k s [⟨sg c.left * k, a, 0, -sg c.forward, false⟩] (sg c.left * k) 0 [] e 0 (SF.hc_turn_controls c q false)
      (cfg q) (cfg c.start) (c.hc_turn_length q) := by
  refine (leg_hc H h he false).chain (level_side _ _) (level_zero _) le_rfl
    (fun m hm => limits_up hm.1 H.pos.le H.sigma.le (hc_limits h.ok H.kappa H.sigma q false)) fun _ => ?_
  obtain ⟨w1, w2⟩ := hc_last_way h.ok H.pos H.sigma q
  refine ⟨?_, w2, fun _ => w1⟩
  cases hr : c.regular
  · exact ha' hr
  · rw [ha hr]
    have := hc_turn_way hr q false
    rw [direction_from, ← sg_not] at this
    rw [← sg_not]
    exact (this.ways (sg_pm _)).1

include H in
theorem chain_rs {c : SF.Circle} (h : RsOk c k) (hr : c.regular = true)
    (he : ‖cen 0 (1 / (sg c.left * k)) (cfg q) - center c‖ ≤ e) (order : Bool) :
    Chain k s [⟨sg c.left * k, SF.direction c.forward order, sg c.left * k, SF.direction c.forward order, true⟩]
      (sg c.left * k) (sg c.left * k) [] e 0 (SF.rs_turn_controls c q order)
      (tFrom c q order) (tTo c q order) (c.rs_turn_length q) := by
  refine (leg_rs H h he order).chain (level_side _ _) (level_side _ _) le_rfl
    (fun m hm => limits_up hm.1 H.pos.le H.sigma.le (rs_limits h H.pos H.sigma q order)) fun _ => ?_
  obtain ⟨w1, w2⟩ := (rs_turn_way hr q order).ways (direction_pm c.forward order)
  exact ⟨w1, w2, by simp⟩

include H in
theorem chain_cc {c : SF.Circle} (h : CircOk c k s)
    (he : ‖cen (-(sg c.forward * ccA k s)) (sg c.left * ccB k s) (cfg q) - center c‖ ≤ e) (order : Bool) :
    Chain k s [⟨0, SF.direction c.forward order, 0, SF.direction c.forward order, true⟩]
      0 0 [(c, q)] e e (SF.cc_turn_controls c q order) (tFrom c q order) (tTo c q order) (c.cc_turn_length q) := by
  have he0 : 0 ≤ e := (norm_nonneg _).trans he
  have T := cc_turn_track h.ok H.kappa H.sigma H.clothoid h.cen he order (tiny_le c q)
  have L : Leg k s 0 0 [(c, q)] e (SF.cc_turn_controls c q order) (tFrom c q order) (tTo c q order)
      (c.cc_turn_length q) := by
    refine ⟨fun tau _ hb => ?_, fun hb => cc_turn_length_eq _ _ _ (hb (c, q) (by simp)), cc_turn_ne_nil _ _ _⟩
    have := cc_turn_track h.ok H.kappa H.sigma H.clothoid h.cen he order (hb (c, q) (by simp))
    rwa [h.ok.radius] at this
  refine L.chain (level_zero _) (level_zero _) he0 T.limitsUp fun hE => ?_
  obtain ⟨w1, w2⟩ := cc_ways H h he hE order
  exact ⟨w1, w2, by simp⟩

include H in
/-- A line. -/
theorem chain_line {d x : ℝ} (hd : d = 1 ∨ d = -1) (hx : 0 ≤ x) (h : Ahead d q1 q2 x) :
    Chain k s [⟨0, d, 0, d, true⟩] 0 0 [] 0 0 (SF.Move.line q1 q2).controls (cfg q1) (cfg q2)
      (SF.configuration_distance q1 q2) := by
  have L := leg_straight H hd hx h.2 h.1
  have T := L.track 0 le_rfl (by simp)
  refine L.toLeg.chain (level_zero _) (level_zero _) le_rfl T.limitsUp fun hE => ?_
  obtain ⟨w1, w2⟩ := (L.way hE).ways hd
  exact ⟨w1, w2, by simp⟩

include H in
/-- First turn, ending with curvature zero. -/
theorem chain_firstT {pm : Bool} {c : SF.Circle} (h : EndOk pm k s c) (ht : AtTan k s c.forward c.left (center c) q e) :
    ∃ a, Chain k s [⟨kEnd pm k c, a, 0, sg c.forward, true⟩] (kEnd pm k c) 0 (turns (SF.HcRs.firstT pm P c q)) e
      (if pm then 0 else e) (SF.HcRs.firstT pm P c q).controls (cfg c.start) (cfg q) (SF.HcRs.firstT pm P c q).length := by
  cases pm
  · have hc := circOk_at H.kappa H.sigma H.clothoid c.start c.left c.forward false
    have hz : center (SF.circleAt c.start c.left c.forward false P) = center c := by
      rw [center_at H, h.cc.cen]
    have := chain_cc H (q := q) (e := e) hc (by rw [hz]; exact ht) true
    rw [direction_to] at this
    exact ⟨_, this⟩
  · have hc := circOk_at H.kappa H.sigma H.clothoid q c.left (!c.forward) false
    have hz : ‖cen 0 (1 / (sg c.left * k)) (cfg (outerOf c)) - center (SF.circleAt q c.left (!c.forward) false P)‖ ≤ e := by
      rw [cen_congr (cfg_outerOf c), ← h.rs.cen, norm_sub_rev]
      exact AtTan.center H (by rwa [Bool.not_not])
    obtain ⟨a, ha⟩ := some_head (SF.hc_turn_controls (SF.circleAt q c.left (!c.forward) false P) (outerOf c) false)
    have := (chain_hc_from H hc hz (a := a) (by intro h; cases h) (fun _ => ha)).congr (cfg_outerOf c) (SameConfig.refl _)
    change Chain k s [⟨sg c.left * k, a, 0, -sg (!c.forward), false⟩] (sg c.left * k) 0 [] e 0 _ _ _ _ at this
    rw [sg_not, neg_neg] at this
    refine ⟨a, { this with hyb := fun hE Ds' rest hr st st' hs hd => ?_ }⟩
    exact this.hyb hE Ds' rest hr st st' hs ⟨hd.1, hd.2.1, by simp⟩

include H in
/-- Last turn, starting with curvature zero. -/
theorem chain_lastT {pm : Bool} {c : SF.Circle} (h : EndOk pm k s c) (ht : AtTan k s c.forward c.left (center c) q e) :
    ∃ b, Chain k s [⟨0, -sg c.forward, kEnd pm k c, b, true⟩] 0 (kEnd pm k c) (turns (SF.HcRs.lastT pm P c q)) e
      (if pm then 0 else e) (SF.HcRs.lastT pm P c q).controls (cfg q) (cfg c.start) (SF.HcRs.lastT pm P c q).length := by
  cases pm
  · have hc := circOk_at H.kappa H.sigma H.clothoid c.start c.left c.forward false
    have hz : center (SF.circleAt c.start c.left c.forward false P) = center c := by
      rw [center_at H, h.cc.cen]
    have := chain_cc H (q := q) (e := e) hc (by rw [hz]; exact ht) false
    rw [direction_from] at this
    exact ⟨_, this⟩
  · have hc := circOk_at H.kappa H.sigma H.clothoid q c.left (!c.forward) false
    have hz : ‖cen 0 (1 / (sg c.left * k)) (cfg (outerOf c)) - center (SF.circleAt q c.left (!c.forward) false P)‖ ≤ e := by
      rw [cen_congr (cfg_outerOf c), ← h.rs.cen, norm_sub_rev]
      exact AtTan.center H (by rwa [Bool.not_not])
    obtain ⟨b, hb⟩ := some_last (SF.hc_turn_controls (SF.circleAt q c.left (!c.forward) false P) (outerOf c) true)
    have := (chain_hc_to H hc hz (b := b) (by intro h; cases h) (fun _ => hb)).congr (SameConfig.refl _) (cfg_outerOf c)
    change Chain k s [⟨0, sg (!c.forward), sg c.left * k, b, false⟩] 0 (sg c.left * k) [] e 0 _ _ _ _ at this
    rw [sg_not] at this
    refine ⟨b, { this with hyb := fun hE Ds' rest hr st st' hs hd => ?_ }⟩
    exact this.hyb hE Ds' rest hr st st' hs ⟨hd.1, hd.2.1, by simp⟩

include H in
/-- First turn, ending with curvature. -/
theorem chain_firstTc {pm : Bool} {c : SF.Circle} (h : EndOk pm k s c) (ht : AtCusp k c.left (center c) q e) :
    Chain k s [⟨kEnd pm k c, sg c.forward, sg c.left * k, sg c.forward, pm⟩] (kEnd pm k c) (sg c.left * k)
      (turns (SF.HcRs.firstTc pm c q)) e
      0 (SF.HcRs.firstTc pm c q).controls (cfg c.start) (cfg q) (SF.HcRs.firstTc pm c q).length := by
  cases pm
  · exact chain_hc_to H h.cc ht (fun _ => rfl) (fun hr => absurd hr (by rw [h.regular]; simp))
  · have := chain_rs H h.rs h.regular ht true
    rw [direction_to] at this
    exact this

include H in
/-- Last turn, starting with curvature. -/
theorem chain_lastcT {pm : Bool} {c : SF.Circle} (h : EndOk pm k s c) (ht : AtCusp k c.left (center c) q e) :
    Chain k s [⟨sg c.left * k, -sg c.forward, kEnd pm k c, -sg c.forward, pm⟩] (sg c.left * k) (kEnd pm k c)
      (turns (SF.HcRs.lastcT pm c q)) e
      0 (SF.HcRs.lastcT pm c q).controls (cfg q) (cfg c.start) (SF.HcRs.lastcT pm c q).length := by
  cases pm
  · exact chain_hc_from H h.cc ht (fun _ => rfl) (fun hr => absurd hr (by rw [h.regular]; simp))
  · have := chain_rs H h.rs h.regular ht false
    rw [direction_from] at this
    exact this

include H in
/-- A middle turn from curvature zero to a cusp. -/
theorem chain_mid_to (h1 : AtTan k s (!f) l z q1 0) (h2 : AtCusp k l z q2 0) :
    Chain k s [⟨0, sg f, sg l * k, sg f, false⟩] 0 (sg l * k) [] 0 0
      (SF.Move.hc (SF.circleAt q1 l f true P) q2 true).controls (cfg q1) (cfg q2)
      ((SF.circleAt q1 l f true P).hc_turn_length q2) := by
  have hz : center (SF.circleAt q1 l f true P) = z :=
    sub_eq_zero.1 (norm_le_zero_iff.1 (AtTan.center H h1))
  exact chain_hc_to H (circOk_at H.kappa H.sigma H.clothoid q1 l f true) (by rw [hz]; exact h2) (fun _ => rfl)
    (fun hr => by cases hr)

include H in
/-- A middle turn from a cusp to curvature zero. -/
theorem chain_mid_from (h1 : AtCusp k l z q1 0) (h2 : AtTan k s (!f) l z q2 0) :
    Chain k s [⟨sg l * k, -sg f, 0, -sg f, false⟩] (sg l * k) 0 [] 0 0
      (SF.Move.hc (SF.circleAt q2 l f true P) q1 false).controls (cfg q1) (cfg q2)
      ((SF.circleAt q2 l f true P).hc_turn_length q1) := by
  have hz : center (SF.circleAt q2 l f true P) = z :=
    sub_eq_zero.1 (norm_le_zero_iff.1 (AtTan.center H h2))
  exact chain_hc_from H (circOk_at H.kappa H.sigma H.clothoid q2 l f true) (by rw [hz]; exact h1) (fun _ => rfl)
    (fun hr => by cases hr)

include H in
/-- A middle turn between two cusps. -/
theorem chain_mid_rs (h1 : AtCusp k l z q1 0) (h2 : AtCusp k l z q2 0) :
    Chain k s [⟨sg l * k, sg f, sg l * k, sg f, true⟩] (sg l * k) (sg l * k) [] 0 0
      (SF.Move.rs (SF.circleAt q1 l f true (SF.rs_circle_param k)) q2 true).controls (cfg q1) (cfg q2)
      ((SF.circleAt q1 l f true (SF.rs_circle_param k)).rs_turn_length q2) := by
  have ho := rsOk_at H.pos q1 l f true
  have hz : center (SF.circleAt q1 l f true (SF.rs_circle_param k)) = z := by
    rw [ho.cen]; exact sub_eq_zero.1 (norm_le_zero_iff.1 h1)
  have := chain_rs H (e := 0) (q := q2) ho rfl (by rw [hz]; exact h2) true
  rw [direction_to] at this
  exact this

include H in
/-- A middle CC turn. -/
theorem chain_mid_cc (h1 : AtTan k s (!f) l z q1 0) (h2 : AtTan k s f l z q2 0) :
    Chain k s [⟨0, sg f, 0, sg f, true⟩] 0 0 (turns (SF.Move.cc (SF.circleAt q1 l f r P) q2 true)) 0 0
      (SF.Move.cc (SF.circleAt q1 l f r P) q2 true).controls (cfg q1) (cfg q2)
      ((SF.circleAt q1 l f r P).cc_turn_length q2) := by
  have hz : center (SF.circleAt q1 l f r P) = z :=
    sub_eq_zero.1 (norm_le_zero_iff.1 (AtTan.center H h1))
  have := chain_cc H (e := 0) (q := q2) (circOk_at H.kappa H.sigma H.clothoid q1 l f r) (by rw [hz]; exact h2) true
  rw [direction_to] at this
  exact this

end

end Spec
