import Verif.Lemmas.Cc00Plan

/-!
# Legs: tracks with the turns they contain

A leg is a list of controls made of CC turns, HC turns, RS turns and lines, together with the facts of
`Track` for every bound on the deflections lost in its CC turns.
-/

noncomputable section

namespace Spec

open Real Props

/-- Curvature and sharpness in the range of the library. -/
structure Rng (k s : ℝ) : Prop where
  kappa : k > SF.epsilon
  sigma : 0 < s
  clothoid : k / s > SF.epsilon

theorem Rng.pos {k s : ℝ} (h : Rng k s) : 0 < k := lt_trans (by norm_num [SF.epsilon]) h.kappa

theorem _root_.Props.InRange.rng {k s : ℝ} (h : InRange k s) : Rng k s := ⟨h.kappa, h.sigma, h.clothoid⟩

/-- The radius of CC circles. -/
def ccR (k s : ℝ) : ℝ := √(ccA k s ^ 2 + ccB k s ^ 2)

theorem ccR_nonneg (k s : ℝ) : 0 ≤ ccR k s := sqrt_nonneg _

/-- Controls that lead from `p` to `q`; `ts` are the CC turns among them. -/
structure Leg (k s k0 k1 : ℝ) (ts : List (SF.Circle × SF.Configuration)) (E : ℝ) (cs : List SF.Control)
    (p q : Config) (len : ℝ) : Prop where
  track : ∀ tau, 0 ≤ tau → (∀ x ∈ ts, tiny x.1 x.2 ≤ tau) →
    Track k s (ccR k s) tau k0 k1 ts.length E cs p q len
  exact : (∀ x ∈ ts, SF.epsilon ≤ SF.Circle.deflection x.1 x.2) → totalLength (cs.map seg) = len
  ne : cs ≠ []

theorem Leg.append {k s k0 k1 k2 E E' : ℝ} {ts ts' : List (SF.Circle × SF.Configuration)}
    {cs ds : List SF.Control} {p q r : Config} {len len' : ℝ}
    (h : Leg k s k0 k1 ts E cs p q len) (h' : Leg k s k1 k2 ts' E' ds q r len') :
    Leg k s k0 k2 (ts ++ ts') (E + E') (cs ++ ds) p r (len + len') where
  track tau ht hb := by
    rw [List.length_append]
    exact (h.track tau ht fun x hx => hb x (List.mem_append_left _ hx)).append
      (h'.track tau ht fun x hx => hb x (List.mem_append_right _ hx)) ht
  exact hb := by
    rw [List.map_append, totalLength_append, h.exact fun x hx => hb x (List.mem_append_left _ hx),
      h'.exact fun x hx => hb x (List.mem_append_right _ hx)]
  ne := by simp [h.ne]

theorem Leg.mono {k s k0 k1 E E' : ℝ} {ts : List (SF.Circle × SF.Configuration)} {cs : List SF.Control}
    {p q : Config} {len : ℝ} (h : Leg k s k0 k1 ts E cs p q len) (hE : E ≤ E') :
    Leg k s k0 k1 ts E' cs p q len :=
  ⟨fun tau ht hb => (h.track tau ht hb).mono hE, h.exact, h.ne⟩

theorem Leg.congr {k s k0 k1 E : ℝ} {ts : List (SF.Circle × SF.Configuration)} {cs : List SF.Control}
    {p q p' q' : Config} {len : ℝ} (h : Leg k s k0 k1 ts E cs p q len) (hp : SameConfig p p')
    (hq : SameConfig q q') : Leg k s k0 k1 ts E cs p' q' len := by
  refine ⟨fun tau ht hb => ?_, h.exact, h.ne⟩
  have := h.track tau ht hb
  exact ⟨this.nonneg, this.leads.congr hp hq, this.cont, this.limitsUp, this.flat⟩

/-- A leg driven in direction `d`. -/
structure DLeg (k s d k0 k1 : ℝ) (ts : List (SF.Circle × SF.Configuration)) (E : ℝ) (cs : List SF.Control)
    (p q : Config) (len : ℝ) : Prop extends Leg k s k0 k1 ts E cs p q len where
  way : E ≤ ccA k s → OneWay d cs

theorem Leg.nonneg {k s k0 k1 E : ℝ} {ts : List (SF.Circle × SF.Configuration)} {cs : List SF.Control}
    {p q : Config} {len : ℝ} (h : Leg k s k0 k1 ts E cs p q len) : 0 ≤ E :=
  (h.track SF.epsilon (by norm_num [SF.epsilon]) fun x _ => tiny_le x.1 x.2).nonneg

theorem DLeg.append {k s d k0 k1 k2 E E' : ℝ} {ts ts' : List (SF.Circle × SF.Configuration)}
    {cs ds : List SF.Control} {p q r : Config} {len len' : ℝ}
    (h : DLeg k s d k0 k1 ts E cs p q len) (h' : DLeg k s d k1 k2 ts' E' ds q r len') :
    DLeg k s d k0 k2 (ts ++ ts') (E + E') (cs ++ ds) p r (len + len') := by
  refine ⟨h.toLeg.append h'.toLeg, fun hE => ?_⟩
  have := h.nonneg
  have := h'.nonneg
  exact (h.way (by linarith)).append (h'.way (by linarith))

theorem DLeg.mono {k s d k0 k1 E E' : ℝ} {ts : List (SF.Circle × SF.Configuration)} {cs : List SF.Control}
    {p q : Config} {len : ℝ} (h : DLeg k s d k0 k1 ts E cs p q len) (hE : E ≤ E') :
    DLeg k s d k0 k1 ts E' cs p q len := ⟨h.toLeg.mono hE, fun h' => h.way (hE.trans h')⟩

theorem DLeg.congr {k s d k0 k1 E : ℝ} {ts : List (SF.Circle × SF.Configuration)} {cs : List SF.Control}
    {p q p' q' : Config} {len : ℝ} (h : DLeg k s d k0 k1 ts E cs p q len) (hp : SameConfig p p')
    (hq : SameConfig q q') : DLeg k s d k0 k1 ts E cs p' q' len := ⟨h.toLeg.congr hp hq, h.way⟩

open CC00 (CircOk cc_turn_ne_nil circOk_at)

section pieces
variable {k s : ℝ} (H : Rng k s)

include H in
/-- A CC turn to a configuration. -/
theorem leg_cc_to {c : SF.Circle} (h : CircOk c k s) (hr : c.regular = true) {q : SF.Configuration} {e : ℝ}
    (he : ‖cen (-(sg c.forward * ccA k s)) (sg c.left * ccB k s) (cfg q) - center c‖ ≤ e) :
    DLeg k s (sg c.forward) 0 0 [(c, q)] e (SF.cc_turn_controls c q true) (cfg c.start) (cfg q)
      (c.cc_turn_length q) := by
  refine ⟨⟨fun tau _ hb => ?_, fun hb => ?_, cc_turn_ne_nil _ _ _⟩, fun hE => ?_⟩
  · have := cc_turn_track_to h.ok H.kappa H.sigma H.clothoid h.cen he (hb (c, q) (by simp))
    rwa [h.ok.radius] at this
  · exact cc_turn_length_eq _ _ _ (hb (c, q) (by simp))
  · have := oneWay_turn h.ok H.kappa H.sigma H.clothoid h.cen he hr hE true
    rwa [direction_to] at this

include H in
/-- A CC turn from a configuration. -/
theorem leg_cc_from {c : SF.Circle} (h : CircOk c k s) (hr : c.regular = true) {q : SF.Configuration} {e : ℝ}
    (he : ‖cen (-(sg c.forward * ccA k s)) (sg c.left * ccB k s) (cfg q) - center c‖ ≤ e) :
    DLeg k s (-sg c.forward) 0 0 [(c, q)] e (SF.cc_turn_controls c q false) (cfg q) (cfg c.start)
      (c.cc_turn_length q) := by
  refine ⟨⟨fun tau _ hb => ?_, fun hb => ?_, cc_turn_ne_nil _ _ _⟩, fun hE => ?_⟩
  · have := cc_turn_track_from h.ok H.kappa H.sigma H.clothoid h.cen he (hb (c, q) (by simp))
    rwa [h.ok.radius] at this
  · exact cc_turn_length_eq _ _ _ (hb (c, q) (by simp))
  · have := oneWay_turn h.ok H.kappa H.sigma H.clothoid h.cen he hr hE false
    rwa [direction_from] at this

include H in
/-- A line. -/
theorem leg_straight {d x : ℝ} (hd : d = 1 ∨ d = -1) (hx : 0 ≤ x) {q1 q2 : SF.Configuration}
    (he : (cfg q2).pos - (cfg q1).pos = cis q1.theta * ((d * x : ℝ) : ℂ)) (hb : q1.theta = q2.theta) :
    DLeg k s d 0 0 [] 0 (SF.straight_controls q1 q2) (cfg q1) (cfg q2) (SF.configuration_distance q1 q2) :=
  ⟨⟨fun _ _ _ => straight_track H.pos H.sigma he hb, fun _ => straight_length _ _, by simp [SF.straight_controls]⟩,
    fun _ => oneWay_straight_exact hd hx he⟩

theorem hc_circular_nonneg {c : SF.Circle} {delta : ℝ} (hr : c.regular = true) (h0 : 0 ≤ delta) :
    0 ≤ c.hc_circular_deflection delta := by
  have b := SF.twopify_lt c.delta_min
  unfold SF.Circle.hc_circular_deflection
  simp only [hr, if_true]
  split_ifs with h <;> linarith

theorem hc_turn_ne_nil (c : SF.Circle) (q : SF.Configuration) (order : Bool) :
    SF.hc_turn_controls c q order ≠ [] := by
  unfold SF.hc_turn_controls; cases order <;> simp

theorem rs_turn_ne_nil (c : SF.Circle) (q : SF.Configuration) (order : Bool) :
    SF.rs_turn_controls c q order ≠ [] := by simp [SF.rs_turn_controls]

theorem one_way_mul {d w : ℝ} (hd : d = 1 ∨ d = -1) (hw : 0 ≤ w) : 0 ≤ d * (d * w) := by
  rcases hd with rfl | rfl <;> linarith

theorem hc_turn_way {c : SF.Circle} (hr : c.regular = true) (q : SF.Configuration) (order : Bool) :
    OneWay (SF.direction c.forward order) (SF.hc_turn_controls c q order) := by
  have hd := direction_pm c.forward order
  have hw := hc_circular_nonneg hr (deflection_spec c q).2.1
  have h1 : 0 ≤ |c.kappa_inv| * c.hc_circular_deflection (c.deflection q) := mul_nonneg (abs_nonneg _) hw
  have h2 : 0 ≤ |c.kappa / c.sigma| := abs_nonneg _
  intro x hx
  unfold SF.hc_turn_controls at hx
  simp only at hx
  cases order
  · simp only [Bool.false_eq_true, if_false, List.nil_append, List.cons_append, List.mem_cons, List.not_mem_nil,
      or_false] at hx
    rcases hx with rfl | rfl
    · simpa [mul_assoc] using one_way_mul hd h1
    · exact one_way_mul hd h2
  · simp only [if_true, List.cons_append, List.nil_append, List.append_nil, List.mem_cons, List.not_mem_nil,
      or_false] at hx
    rcases hx with rfl | rfl
    · exact one_way_mul hd h2
    · simpa [mul_assoc] using one_way_mul hd h1

theorem hc_turn_form {c : SF.Circle} {A B : ℝ} (h : CircleOk c k s A B) (hk : k > SF.epsilon) (hs : 0 < s)
    (q : SF.Configuration) (order : Bool) :
    CurvatureContinuous (if order then 0 else sg c.left * k) ((SF.hc_turn_controls c q order).map seg)
      (if order then sg c.left * k else 0) ∧
    CurvatureAtMost k ((SF.hc_turn_controls c q order).map seg) ∧
    SharpnessAtMost s ((SF.hc_turn_controls c q order).map seg) ∧
    ∀ x ∈ SF.hc_turn_controls c q order, x.sigma = 0 → x.kappa = 0 ∨ |x.kappa| > SF.epsilon := by
  have hk0 : 0 < k := lt_trans (by norm_num [SF.epsilon]) hk
  have hl := sg_pm c.left
  have hd := direction_pm c.forward order
  have hdl : |SF.direction c.forward order * (k / s)| = k / s := abs_pm_mul hd (by positivity)
  have hak : |sg c.left * k| = k := abs_pm_mul hl hk0.le
  have has : |sg c.left * s| = s := abs_pm_mul hl hs.le
  have hls : sg c.left * s ≠ 0 := by intro h0; rw [h0, abs_zero] at has; exact hs.ne has
  unfold SF.hc_turn_controls
  simp only [abs_kappa_sigma h hk0 hs]
  rw [h.kappa, h.sigma]
  generalize SF.direction c.forward order = d at *
  generalize |c.kappa_inv| * c.hc_circular_deflection (c.deflection q) = w at *
  generalize sg c.left = l at *
  have e1 : l * s * (k / s) = l * k := by field_simp
  cases order
  · simp only [Bool.false_eq_true, if_false, List.nil_append, List.cons_append, List.map_cons, List.map_nil, seg]
    refine ⟨?_, ?_, ?_, ?_⟩
    · simp only [CurvatureContinuous, hdl, zero_mul, add_zero, neg_mul, e1, add_neg_cancel, and_self]
    · intro c hc t ht0 ht1
      simp only [List.mem_cons, List.not_mem_nil, or_false] at hc
      rcases hc with rfl | rfl
      · simp [hak]
      · simp only [hdl] at ht1 ⊢
        refine linear_abs_le (L := k / s) hak.le ?_ ht0 ht1
        rw [neg_mul, e1, add_neg_cancel, abs_zero]; exact hk0.le
    · intro c hc
      simp only [List.mem_cons, List.not_mem_nil, or_false] at hc
      rcases hc with rfl | rfl
      · simp [hs.le]
      · simp [has]
    · intro c hc _
      simp only [List.mem_cons, List.not_mem_nil, or_false] at hc
      rcases hc with rfl | rfl <;> right <;> simpa only [hak] using hk
  · simp only [if_true, List.nil_append, List.cons_append, List.append_nil, List.map_cons, List.map_nil, seg]
    refine ⟨?_, ?_, ?_, ?_⟩
    · simp only [CurvatureContinuous, hdl, zero_mul, add_zero, zero_add, e1, and_self]
    · intro c hc t ht0 ht1
      simp only [List.mem_cons, List.not_mem_nil, or_false] at hc
      rcases hc with rfl | rfl
      · simp only [hdl] at ht1 ⊢
        refine linear_abs_le (L := k / s) (by simp [hk0.le]) ?_ ht0 ht1
        rw [e1, zero_add, hak]
      · simp [hak]
    · intro c hc
      simp only [List.mem_cons, List.not_mem_nil, or_false] at hc
      rcases hc with rfl | rfl
      · simp [has]
      · simp [hs.le]
    · intro c hc _
      simp only [List.mem_cons, List.not_mem_nil, or_false] at hc
      rcases hc with rfl | rfl
      · exact .inl rfl
      · right; simpa only [hak] using hk

theorem limits_mono {K K' S S' : ℝ} {cs : List Segment} (hK : K ≤ K') (hS : S ≤ S')
    (h : CurvatureAtMost K cs ∧ SharpnessAtMost S cs) : CurvatureAtMost K' cs ∧ SharpnessAtMost S' cs :=
  ⟨fun c hc t h0 h1 => (h.1 c hc t h0 h1).trans hK, fun c hc => (h.2 c hc).trans hS⟩

theorem limits_up {m : ℝ} {cs : List Segment} (hm : 1 ≤ m) (hk : 0 ≤ k) (hs : 0 ≤ s)
    (h : CurvatureAtMost (k * (1 + 1 / 10 ^ 8)) cs ∧ SharpnessAtMost (s * (1 + 2 / 10 ^ 8)) cs) :
    CurvatureAtMost (m * (k * (1 + 1 / 10 ^ 8))) cs ∧ SharpnessAtMost (m ^ 2 * (s * (1 + 2 / 10 ^ 8))) cs :=
  limits_mono (le_mul_of_one_le_left (by positivity) hm) (le_mul_of_one_le_left (by positivity) (one_le_pow₀ hm)) h

include H in
/-- An HC turn. -/
theorem leg_hc {c : SF.Circle} (h : CircOk c k s) {q : SF.Configuration} {e : ℝ}
    (he : ‖cen 0 (1 / (sg c.left * k)) (cfg q) - center c‖ ≤ e) (order : Bool) :
    Leg k s (if order then 0 else sg c.left * k) (if order then sg c.left * k else 0) [] e
      (SF.hc_turn_controls c q order) (tFrom c q order) (tTo c q order) (c.hc_turn_length q) := by
  obtain ⟨f1, f2⟩ := hc_turn_lib h.ok H.pos H.sigma q order (tFrom c q order)
  obtain ⟨g1, g2, g3, g4⟩ := hc_turn_form h.ok H.kappa H.sigma q order
  have hlen := hc_turn_length_eq c q order
  have ht := f2.trans (turn_angle c q order).symm
  have he0 : 0 ≤ e := (norm_nonneg _).trans he
  have hd : (libAll ((SF.hc_turn_controls c q order).map seg) (tFrom c q order)).dist (tTo c q order) ≤ e := by
    cases order
    · simp only [Bool.false_eq_true, if_false] at f1
      rw [dist_of_cen (a := -(SF.direction c.forward false * ccA k s)) (b := sg c.left * ccB k s) ht, f1,
        direction_from, neg_mul, neg_neg, show tTo c q false = cfg c.start from rfl, ← h.cen]
      exact he
    · simp only [if_true] at f1
      rw [dist_of_cen (a := 0) (b := 1 / (sg c.left * k)) ht, f1, direction_to,
        show tFrom c q true = cfg c.start from rfl, ← h.cen, norm_sub_rev]
      exact he
  refine ⟨fun tau _ _ => ⟨he0, ?_, g1, fun m hm => limits_up hm.1 H.pos.le H.sigma.le (limits_mono ?_ ?_ ⟨g2, g3⟩), g4⟩, fun _ => hlen, hc_turn_ne_nil _ _ _⟩
  · refine leads_of_lib ⟨?_, _, ht, ?_⟩ ?_
    · simp only [List.length_nil, Nat.cast_zero, zero_mul, add_zero]; linarith
    · simp
    · rw [hlen]; simpa using he0
  · have := H.pos; linarith
  · have := H.sigma; linarith

include H in
/-- An HC turn to a configuration with curvature. -/
theorem leg_hc_to {c : SF.Circle} (h : CircOk c k s) (hr : c.regular = true) {q : SF.Configuration} {e : ℝ}
    (he : ‖cen 0 (1 / (sg c.left * k)) (cfg q) - center c‖ ≤ e) :
    DLeg k s (sg c.forward) 0 (sg c.left * k) [] e (SF.hc_turn_controls c q true) (cfg c.start) (cfg q)
      (c.hc_turn_length q) := by
  refine ⟨leg_hc H h he true, fun _ => ?_⟩
  have := hc_turn_way hr q true
  rwa [direction_to] at this

include H in
/-- An HC turn from a configuration with curvature. -/
theorem leg_hc_from {c : SF.Circle} (h : CircOk c k s) (hr : c.regular = true) {q : SF.Configuration} {e : ℝ}
    (he : ‖cen 0 (1 / (sg c.left * k)) (cfg q) - center c‖ ≤ e) :
    DLeg k s (-sg c.forward) (sg c.left * k) 0 [] e (SF.hc_turn_controls c q false) (cfg q) (cfg c.start)
      (c.hc_turn_length q) := by
  refine ⟨leg_hc H h he false, fun _ => ?_⟩
  have := hc_turn_way hr q false
  rwa [direction_from] at this

/-- Circles of constant curvature as the planners create them. -/
structure RsOk (c : SF.Circle) (k : ℝ) : Prop where
  kappa : c.kappa = sg c.left * k
  kappa_inv : c.kappa_inv = sg c.left * (1 / k)
  cen : center c = cen 0 (1 / (sg c.left * k)) (cfg c.start)
  geom : GeomOk c 0 (1 / k)
  radius : c.radius = 1 / k

theorem rs_inv (l : Bool) : sg l * (1 / k) = 1 / (sg l * k) := by
  rcases sg_pm l with e | e <;> rw [e] <;> field_simp

theorem rsOk_at (hk : 0 < k) (q : SF.Configuration) (l f r : Bool) :
    RsOk (SF.circleAt q l f r (SF.rs_circle_param k)) k := by
  have P := rs_param_ok k
  refine ⟨?_, ?_, ?_, ?_, rfl⟩
  · cases l <;> simp [SF.circleAt, sg, P]
  · cases l <;> simp [SF.circleAt, sg, P]
  · rw [circleAt_center (A := 0) (B := 1 / k) (by simp [P]) (by simp [P]), mul_zero]
    congr 1
    exact rs_inv l
  · refine ⟨?_, ?_, ?_, ?_, ?_⟩
    · change 1 / k = _; rw [zero_pow two_ne_zero, zero_add, sqrt_sq (by positivity)]
    · change 1 / k * 0 = _; ring
    · change 1 / k * 1 = _; ring
    · change (0:ℝ) = sin 0; simp
    · change (1:ℝ) = cos 0; simp

include H in
/-- A turn of constant curvature. -/
theorem leg_rs {c : SF.Circle} (h : RsOk c k) {q : SF.Configuration} {e : ℝ}
    (he : ‖cen 0 (1 / (sg c.left * k)) (cfg q) - center c‖ ≤ e) (order : Bool) :
    Leg k s (sg c.left * k) (sg c.left * k) [] e
      (SF.rs_turn_controls c q order) (tFrom c q order) (tTo c q order) (c.rs_turn_length q) := by
  obtain ⟨f1, f2⟩ := rs_turn_lib h.kappa h.kappa_inv H.pos q order (tFrom c q order)
  have hlen := rs_turn_length_eq c q order
  have ht := f2.trans (turn_angle c q order).symm
  have he0 : 0 ≤ e := (norm_nonneg _).trans he
  have hk := H.pos
  have hs := H.sigma
  have hak : |sg c.left * k| = k := abs_pm_mul (sg_pm _) hk.le
  have hd : (libAll ((SF.rs_turn_controls c q order).map seg) (tFrom c q order)).dist (tTo c q order) ≤ e := by
    rw [dist_of_cen (a := 0) (b := 1 / (sg c.left * k)) ht, f1]
    cases order
    · rw [show tTo c q false = cfg c.start from rfl, ← h.cen]; exact he
    · rw [show tFrom c q true = cfg c.start from rfl, ← h.cen, norm_sub_rev]; exact he
  have hx : ∀ x ∈ SF.rs_turn_controls c q order, x.kappa = sg c.left * k ∧ x.sigma = 0 := by
    intro x hx
    simp only [SF.rs_turn_controls, List.mem_singleton] at hx
    rw [hx]; exact ⟨h.kappa, rfl⟩
  refine ⟨fun tau _ _ => ⟨he0, ?_, ?_, fun m hm => limits_up hm.1 hk.le hs.le ⟨?_, ?_⟩, fun x hx' _ => ?_⟩, fun _ => hlen, rs_turn_ne_nil _ _ _⟩
  · refine leads_of_lib ⟨?_, _, ht, ?_⟩ ?_
    · simp only [List.length_nil, Nat.cast_zero, zero_mul, add_zero]; linarith
    · simp
    · rw [hlen]; simpa using he0
  · simp [SF.rs_turn_controls, seg, CurvatureContinuous, h.kappa]
  · intro x hx' t _ _
    obtain ⟨y, hy, rfl⟩ := List.mem_map.1 hx'
    simp only [seg, (hx y hy).1, (hx y hy).2, zero_mul, add_zero, hak]
    linarith
  · intro x hx'
    obtain ⟨y, hy, rfl⟩ := List.mem_map.1 hx'
    simp only [seg, (hx y hy).2, abs_zero]
    linarith
  · right; rw [(hx x hx').1, hak]; exact H.kappa

theorem rs_turn_way {c : SF.Circle} (hr : c.regular = true) (q : SF.Configuration) (order : Bool) :
    OneWay (SF.direction c.forward order) (SF.rs_turn_controls c q order) := by
  have hd := direction_pm c.forward order
  have h0 := (deflection_spec c q).2.1
  intro x hx
  simp only [SF.rs_turn_controls, List.mem_singleton] at hx
  rw [hx]
  have : c.rs_circular_deflection (c.deflection q) = c.deflection q := by
    unfold SF.Circle.rs_circular_deflection; simp [hr]
  simp only [this]
  have := one_way_mul hd (mul_nonneg (abs_nonneg c.kappa_inv) h0)
  simpa [mul_assoc] using this

include H in
theorem leg_rs_to {c : SF.Circle} (h : RsOk c k) (hr : c.regular = true) {q : SF.Configuration} {e : ℝ}
    (he : ‖cen 0 (1 / (sg c.left * k)) (cfg q) - center c‖ ≤ e) :
    DLeg k s (sg c.forward) (sg c.left * k) (sg c.left * k) [] e
      (SF.rs_turn_controls c q true) (cfg c.start) (cfg q) (c.rs_turn_length q) := by
  refine ⟨leg_rs H h he true, fun _ => ?_⟩
  have := rs_turn_way hr q true
  rwa [direction_to] at this

end pieces

end Spec
