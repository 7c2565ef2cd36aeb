import Verif.Lemmas.Piece
import Verif.Spec.Planner
import Verif.Props.Utilities

/-!
# The CC00-Dubins planner
-/

noncomputable section

namespace Spec

open Real Props

theorem set_same (t : SF.Table) (i : ℕ) (r : SF.Row) : t.set i r i = r := if_pos rfl

theorem set_other (t : SF.Table) {i j : ℕ} (r : SF.Row) (h : j ≠ i) : t.set i r j = t j := if_neg h

theorem init_length (i : ℕ) : (SF.Table.init i).length = SF.dblMax := rfl

/-- A finite entry of a table with one assignment is the assigned one. -/
theorem single_entry {i j : ℕ} {r : SF.Row} (h : (SF.Table.init.set i r j).length < SF.dblMax) : j = i := by
  by_contra hne
  rw [set_other _ _ hne, init_length] at h
  exact lt_irrefl _ h

namespace CC00

open SF.CC00

/-- The path found between two circles, by type. -/
inductive Found (sp : SF.HCSpace) (m : SF.Scratch) (c1 c2 : SF.Circle) : ℕ → SF.Row → Prop
  | E (h : SF.configuration_equal c1.start c2.start) : Found sp m c1 c2 0 { length := 0 }
  | S (h : SF.configuration_aligned c1.start c2.start) (hf : sp.forwards = true) :
      Found sp m c1 c2 1 { length := SF.configuration_distance c1.start c2.start }
  | Sb (h : SF.configuration_aligned c2.start c1.start) (hf : sp.forwards = false) :
      Found sp m c1 c2 1 { length := SF.configuration_distance c2.start c1.start }
  | T (h : SF.configuration_on_hc_cc_circle c1 c2.start) :
      Found sp m c1 c2 2 { length := c1.cc_turn_length c2.start, cstart := some c1 }
  | TT (h : TT_exists m c1 c2) :
      Found sp m c1 c2 3
        { length := (TT_path c1 c2).1, qi1 := some (TT_path c1 c2).2,
          cstart := some c1, cend := some c2 }
  | TiST (h : TiST_exists m c1 c2) :
      Found sp m c1 c2 4
        { length := (TiST_path c1 c2).1, qi1 := some (TiST_path c1 c2).2.1,
          qi2 := some (TiST_path c1 c2).2.2, cstart := some c1, cend := some c2 }
  | TeST (h : TeST_exists m c1 c2) :
      Found sp m c1 c2 4
        { length := (TeST_path c1 c2).1, qi1 := some (TeST_path c1 c2).2.1,
          qi2 := some (TeST_path c1 c2).2.2, cstart := some c1, cend := some c2 }
  | TTT (h : TTT_exists m c1 c2) :
      Found sp m c1 c2 5
        { length := (TTT_path sp.param m c1 c2).1,
          qi1 := some (TTT_path sp.param m c1 c2).2.1, qi2 := some (TTT_path sp.param m c1 c2).2.2.1,
          ci1 := some (TTT_path sp.param m c1 c2).2.2.2, cstart := some c1, cend := some c2 }

theorem body_found (sp : SF.HCSpace) (m : SF.Scratch) (c1 c2 : SF.Circle)
    (h : (body sp m c1 c2).length < SF.dblMax) :
    Found sp m c1 c2 (body sp m c1 c2).type (body sp m c1 c2).row := by
  unfold body table at h ⊢
  simp only [SF.CCPath.length, SF.Table.best] at h ⊢
  split_ifs at h ⊢ with h1 h2 h3 h4 h7 h6 h5 h5 h6 h5 h5
  all_goals generalize SF.array_index_min _ SF.nb_cc_dubins_paths = i at h ⊢
  · obtain rfl := single_entry h
    rw [set_same]; exact .E h1
  · obtain rfl := single_entry h
    rw [set_same]; exact .S h2.2 h2.1
  · obtain rfl := single_entry h
    rw [set_same]; exact .Sb h3.2 (by simpa using h3.1)
  · obtain rfl := single_entry h
    rw [set_same]; exact .T h4
  all_goals
    have key : ∀ h6 : TST_exists m c1 c2, Found sp m c1 c2 4 (TST_path m c1 c2) := by
      intro h6
      unfold TST_path
      split_ifs with ha hb
      · exact .TiST ha
      · exact .TeST hb
      · exact absurd h6 (by simp [TST_exists, ha, hb])
  · by_cases e5 : i = 5
    · subst e5; rw [set_same]; exact .TTT h7
    rw [set_other _ _ e5] at h ⊢
    by_cases e4 : i = 4
    · subst e4; rw [set_same]; exact key h6
    rw [set_other _ _ e4] at h ⊢
    obtain rfl := single_entry h
    rw [set_same]; exact .TT h5
  · by_cases e5 : i = 5
    · subst e5; rw [set_same]; exact .TTT h7
    rw [set_other _ _ e5] at h ⊢
    obtain rfl := single_entry h
    rw [set_same]; exact key h6
  · by_cases e5 : i = 5
    · subst e5; rw [set_same]; exact .TTT h7
    rw [set_other _ _ e5] at h ⊢
    obtain rfl := single_entry h
    rw [set_same]; exact .TT h5
  · obtain rfl := single_entry h
    rw [set_same]; exact .TTT h7
  · by_cases e4 : i = 4
    · subst e4; rw [set_same]; exact key h6
    rw [set_other _ _ e4] at h ⊢
    obtain rfl := single_entry h
    rw [set_same]; exact .TT h5
  · obtain rfl := single_entry h
    rw [set_same]; exact key h6
  · obtain rfl := single_entry h
    rw [set_same]; exact .TT h5
  · exact absurd h (lt_irrefl _)

/-- Circles as the planner creates them. -/
structure CircOk (c : SF.Circle) (k s : ℝ) : Prop where
  ok : CircleOk c k s (ccA k s) (ccB k s)
  cen : center c = cen (sg c.forward * ccA k s) (sg c.left * ccB k s) (cfg c.start)

theorem circOk_at {k s : ℝ} (hk : k > SF.epsilon) (hs : 0 < s) (hl : k / s > SF.epsilon)
    (q : SF.Configuration) (l f r : Bool) :
    CircOk (SF.circleAt q l f r (SF.hc_cc_circle_param k s)) k s :=
  ⟨circleAt_ok (hc_param_ok hk hs hl) q l f r,
    circleAt_center (hc_param_ok hk hs hl).sin_mu (hc_param_ok hk hs hl).cos_mu q l f r⟩

theorem mid_dist {R D : ℝ} (hD : D ≤ 4 * R) (hD0 : 0 ≤ D) (g : ℝ) (s : ℝ) (hs : s ^ 2 = 1) :
    ‖cis g * (⟨0.5 * D, s * √((2 * R) ^ 2 - (0.5 * D) ^ 2)⟩ : ℂ)‖ = 2 * R ∧
    ‖(D : ℂ) * cis g - cis g * (⟨0.5 * D, s * √((2 * R) ^ 2 - (0.5 * D) ^ 2)⟩ : ℂ)‖ = 2 * R := by
  have h0 : 0 ≤ (2 * R) ^ 2 - (0.5 * D) ^ 2 := by nlinarith
  have hR : 0 ≤ 2 * R := by linarith
  have hsq := sq_sqrt h0
  generalize √((2 * R) ^ 2 - (0.5 * D) ^ 2) = w at hsq
  have hw : (0.5 * D) ^ 2 + (s * w) ^ 2 = (2 * R) ^ 2 := by rw [mul_pow s, hs, hsq]; ring
  constructor
  · rw [norm_cis_mul, ← sqrt_eq_norm, hw, sqrt_sq hR]
  · have : (D : ℂ) * cis g - cis g * (⟨0.5 * D, s * w⟩ : ℂ)
        = cis g * (⟨0.5 * D, -(s * w)⟩ : ℂ) := by
      rw [mul_comm (D : ℂ), ← mul_sub]; congr 1
      apply Complex.ext
      · simp; ring
      · simp
    rw [this, norm_cis_mul, ← sqrt_eq_norm, neg_sq, hw, sqrt_sq hR]

/-- One middle circle of a `TTT` path. -/
theorem TTT_middle {k s : ℝ} (hk : k > SF.epsilon) (hs : 0 < s) (hl : k / s > SF.epsilon)
    {c1 c2 : SF.Circle} (h1 : CircOk c1 k s) (h2 : CircOk c2 k s)
    (hf : c2.forward = !c1.forward) (hlr : c2.left = c1.left)
    (x y : ℝ) (hd1 : ‖(⟨x, y⟩ : ℂ) - center c1‖ = 2 * c1.radius)
    (hd2 : ‖center c2 - ⟨x, y⟩‖ = 2 * c1.radius) (tau : ℝ)
    (tgt : SF.Circle)
    (htgt : tgt = SF.circleCentered x y (!c1.left) c1.forward c1.regular (SF.hc_cc_circle_param k s))
    (qa qb : SF.Configuration) (hqa : qa = TT_tangent_circles c1 tgt)
    (hqb : qb = TT_tangent_circles tgt c2) (mid : SF.Circle)
    (hmid : mid = SF.circleAt qa (!c1.left) c1.forward c1.regular (SF.hc_cc_circle_param k s))
    (ht1 : tiny c1 qa ≤ tau) (ht2 : tiny mid qb ≤ tau) (ht3 : tiny c2 qb ≤ tau) (cs : List SF.Control)
    (hcs : cs = SF.cc_turn_controls c1 qa true ++ SF.cc_turn_controls mid qb true
      ++ SF.cc_turn_controls c2 qb false) :
    Track k s c1.radius tau 0 0 3 0 cs (cfg c1.start) (cfg c2.start)
      (c1.cc_turn_length qa + mid.cc_turn_length qb + c2.cc_turn_length qb) ∧
    (c1.regular = true → c2.regular = true → OneWay (sg c1.forward) cs) := by
  have hP := hc_param_ok hk hs hl
  have htc : center tgt = ⟨x, y⟩ := by rw [htgt]; rfl
  have htok : CircleOk tgt k s (ccA k s) (ccB k s) := by rw [htgt]; exact circleCentered_ok hP _ _ _ _ _
  have hrad : tgt.radius = c1.radius := by rw [htok.radius, h1.ok.radius]
  have hrad2 : c2.radius = c1.radius := by rw [h2.ok.radius, h1.ok.radius]
  have hmo : CircOk mid k s := by rw [hmid]; exact circOk_at hk hs hl _ _ _ _
  have hradm : mid.radius = c1.radius := by rw [hmo.ok.radius, h1.ok.radius]
  have hR0 : 0 ≤ c1.radius := by rw [h1.ok.radius]; positivity
  have htl : tgt.left = !c1.left := by rw [htgt]; rfl
  have htf : tgt.forward = c1.forward := by rw [htgt]; rfl
  have hml : mid.left = !c1.left := by rw [hmid]; rfl
  have hmf : mid.forward = c1.forward := by rw [hmid]; rfl
  have hms : mid.start = qa := by rw [hmid]; rfl
  have D1 : SF.center_distance c1 tgt = 2 * c1.radius := by rw [center_distance_eq, htc]; exact hd1
  have D2 : SF.center_distance tgt c2 = 2 * c1.radius := by rw [center_distance_eq, htc]; exact hd2
  have S1 := TT_spec h1.ok.geom tgt
  have S2 := TT_spec htok.geom c2
  rw [D1, ← hqa, show 2 * c1.radius / 2 - c1.radius = 0 by ring, Complex.ofReal_zero, zero_mul, neg_zero,
    sub_eq_zero, sub_eq_zero] at S1
  rw [D2, ← hqb, hrad, show 2 * c1.radius / 2 - c1.radius = 0 by ring, Complex.ofReal_zero, zero_mul, neg_zero,
    sub_eq_zero, sub_eq_zero, htl, htf, sg_not, neg_mul, neg_neg] at S2
  have E1 : ‖cen (-(sg c1.forward * ccA k s)) (sg c1.left * ccB k s) (cfg qa) - center c1‖ ≤ 0 := by
    rw [S1.1]; simp
  have E2 : ‖cen (-(sg mid.forward * ccA k s)) (sg mid.left * ccB k s) (cfg qb) - center mid‖ ≤ 0 := by
    rw [hmo.cen, hms, hml, hmf, sg_not, neg_mul, S1.2, S2.1]; simp
  have E3 : ‖cen (-(sg c2.forward * ccA k s)) (sg c2.left * ccB k s) (cfg qb) - center c2‖ ≤ 0 := by
    rw [hf, hlr, sg_not, neg_mul, neg_neg, S2.2]; simp
  have L1 := cc_turn_track_to h1.ok hk hs hl h1.cen E1 ht1
  have L2 := cc_turn_track_to hmo.ok hk hs hl hmo.cen E2 ht2
  have L3 := cc_turn_track_from h2.ok hk hs hl h2.cen E3 ht3
  have htau := (tiny_nonneg c1 qa).trans ht1
  rw [hms, hradm] at L2
  rw [hrad2] at L3
  refine ⟨?_, fun hr1 hr2 => ?_⟩
  · rw [hcs]
    simpa using (L1.append L2 htau).append L3 htau
  · have hA := (ccA_pos hk hs hl).le
    rw [hcs]
    have w1 := oneWay_turn h1.ok hk hs hl h1.cen E1 hr1 hA true
    have w2 := oneWay_turn hmo.ok hk hs hl hmo.cen E2 (by rw [hmid]; exact hr1) hA true
    have w3 := oneWay_turn h2.ok hk hs hl h2.cen E3 hr2 hA false
    rw [direction_to] at w1 w2
    rw [direction_from, hf, sg_not, neg_neg] at w3
    rw [hmf] at w2
    exact (w1.append w2).append w3

/-- Number of turns of a path type. -/
def nTurns : ℕ → ℕ
  | 2 => 1
  | 5 => 3
  | _ => 2

/-- Sum of the errors of the centres. -/
def cenErr (R : ℝ) : ℕ → ℝ
  | 2 => SF.epsilon * (1 + R)
  | 3 => SF.epsilon
  | _ => 0

/-- What is known of a path of type `t`. -/
def PathOk (k s R A tau d : ℝ) (cs : List SF.Control) (p q : Config) (len : ℝ) : ℕ → Prop
  | 0 => cs = SF.empty_controls ∧ Within SF.epsilon SF.epsilon p q ∧ len = 0
  | 1 => (∃ x, cs = [⟨x, 0, 0⟩]) ∧
      Leads (cs.map seg) p q len (4 * SF.epsilon * totalLength (cs.map seg)) SF.epsilon 0 ∧ OneWay d cs
  | t => Track k s R tau 0 0 (nTurns t) (cenErr R t) cs p q len ∧ (cenErr R t ≤ A → OneWay d cs)

/-- A turn, a line and a turn. -/
theorem TST_ok {sp : SF.HCSpace} (hk : sp.kappa > SF.epsilon) (hs : 0 < sp.sigma)
    (hl : sp.kappa / sp.sigma > SF.epsilon) {c1 c2 : SF.Circle} (h1 : CircOk c1 sp.kappa sp.sigma)
    (h2 : CircOk c2 sp.kappa sp.sigma) (hf : c2.forward = !c1.forward)
    (hr1 : c1.regular = true) (hr2 : c2.regular = true) {tau x : ℝ} (htau : 0 ≤ tau)
    {q1 q2 : SF.Configuration} (S3 : q1.theta = q2.theta)
    (S4 : (cfg q2).pos - (cfg q1).pos = cis q1.theta * ((sg c1.forward * x : ℝ) : ℂ)) (hx : 0 ≤ x)
    (E1 : ‖cen (-(sg c1.forward * ccA sp.kappa sp.sigma)) (sg c1.left * ccB sp.kappa sp.sigma)
      (cfg q1) - center c1‖ ≤ 0)
    (E2 : ‖cen (-(sg c2.forward * ccA sp.kappa sp.sigma)) (sg c2.left * ccB sp.kappa sp.sigma)
      (cfg q2) - center c2‖ ≤ 0) (ht1 : tiny c1 q1 ≤ tau) (ht2 : tiny c2 q2 ≤ tau) :
    ∃ cs, path_controls ⟨c1.start, c2.start, 4,
        { length := c1.cc_turn_length q1 + SF.configuration_distance q1 q2 + c2.cc_turn_length q2
          qi1 := some q1
          qi2 := some q2
          cstart := some c1
          cend := some c2 }⟩ = some cs ∧
      PathOk sp.kappa sp.sigma c1.radius (ccA sp.kappa sp.sigma) tau (sg c1.forward) cs (cfg c1.start)
        (cfg c2.start) (c1.cc_turn_length q1 + SF.configuration_distance q1 q2 + c2.cc_turn_length q2) 4 := by
  have hrad2 : c2.radius = c1.radius := by rw [h2.ok.radius, h1.ok.radius]
  have hk0 : 0 < sp.kappa := lt_trans (by norm_num [SF.epsilon]) hk
  have L1 := cc_turn_track_to h1.ok hk hs hl h1.cen E1 ht1
  have L3 := cc_turn_track_from h2.ok hk hs hl h2.cen E2 ht2
  rw [hrad2] at L3
  have L2 := straight_track (R := c1.radius) (tau := tau) hk0 hs S4 S3
  refine ⟨_, rfl, ?_, fun hle => ?_⟩
  · simpa [nTurns, cenErr] using (L1.append L2 htau).append L3 htau
  · have w1 := oneWay_turn h1.ok hk hs hl h1.cen E1 hr1 hle true
    have w2 := oneWay_turn h2.ok hk hs hl h2.cen E2 hr2 hle false
    rw [direction_to] at w1
    rw [direction_from, hf, sg_not, neg_neg] at w2
    exact (w1.append (oneWay_straight_exact (sg_pm _) hx S4)).append w2

/-- Every path found leads to its end. -/
theorem found_ok {sp : SF.HCSpace} (hk : sp.kappa > SF.epsilon) (hs : 0 < sp.sigma)
    (hl : sp.kappa / sp.sigma > SF.epsilon) {c1 c2 : SF.Circle} (h1 : CircOk c1 sp.kappa sp.sigma)
    (h2 : CircOk c2 sp.kappa sp.sigma) (hf : c2.forward = !c1.forward) (hsp : c1.forward = sp.forwards)
    (hr1 : c1.regular = true) (hr2 : c2.regular = true)
    {t : ℕ} {r : SF.Row} (h : Found sp (SF.scratch c1 c2) c1 c2 t r) {tau : ℝ} (htau : 0 ≤ tau)
    (ht : ∀ x ∈ turns t r c2.start, tiny x.1 x.2 ≤ tau) :
    ∃ cs, path_controls ⟨c1.start, c2.start, t, r⟩ = some cs ∧
      PathOk sp.kappa sp.sigma c1.radius (ccA sp.kappa sp.sigma) tau (sg c1.forward) cs (cfg c1.start)
        (cfg c2.start) r.length t := by
  have hR0 : 0 ≤ c1.radius := by rw [h1.ok.radius]; positivity
  have hrad2 : c2.radius = c1.radius := by rw [h2.ok.radius, h1.ok.radius]
  have hk0 : 0 < sp.kappa := lt_trans (by norm_num [SF.epsilon]) hk
  have hA := ccA_pos hk hs hl
  have hB := ccB_pos hk hs hl
  have hlne : ∀ {a b : Bool}, ¬ a = b → b = !a := by decide
  cases h with
  | E h =>
    refine ⟨_, rfl, rfl, ?_, rfl⟩
    unfold SF.configuration_equal at h
    split_ifs at h with ha hb
    push Not at ha hb
    refine ⟨?_, ⟨_, AngleEq.refl _, ?_⟩⟩
    · rw [Config.dist_comm, Config.dist_eq, ← configuration_distance_eq]; exact hb
    · rw [abs_sub_comm]; exact ha
  | S h hfw =>
    refine ⟨_, rfl, ⟨_, rfl⟩, ?_, ?_⟩
    · obtain ⟨ha, hb, _⟩ := aligned_im h
      rw [abs_sub_comm] at ha
      refine (straight_leads hb ⟨_, AngleEq.refl _, ha⟩).mono ?_ le_rfl le_rfl
      rw [straight_length]
      have : 0 ≤ SF.epsilon * SF.configuration_distance c1.start c2.start :=
        mul_nonneg (by norm_num [SF.epsilon]) (sqrt_nonneg _)
      linarith
    · rw [hsp, hfw]
      exact (aligned_way h).1
  | Sb h hfw =>
    obtain ⟨ha, _, hb⟩ := aligned_im h
    have hsym : SF.configuration_distance c2.start c1.start = SF.configuration_distance c1.start c2.start := by
      rw [configuration_distance_eq, configuration_distance_eq, norm_sub_rev]
    rw [hsym] at hb ⊢
    refine ⟨_, rfl, ⟨_, rfl⟩, ?_, ?_⟩
    · refine (straight_leads hb ⟨_, AngleEq.refl _, ha⟩).mono ?_ le_rfl le_rfl
      rw [straight_length]
      linarith
    · rw [hsp, hfw]
      exact (aligned_way h).2
  | T h =>
    refine ⟨_, rfl, ?_, fun hle => ?_⟩
    · exact cc_turn_track_to h1.ok hk hs hl h1.cen (on_circle_center h1.ok.geom h) (ht (c1, c2.start) (by simp [turns]))
    · have := oneWay_turn h1.ok hk hs hl h1.cen (on_circle_center h1.ok.geom h) hr1 hle true
      rwa [direction_to] at this
  | TT h =>
    have ht1 := ht (c1, (TT_path c1 c2).2) (by simp [turns])
    have ht2 := ht (c2, (TT_path c1 c2).2) (by simp [turns])
    unfold TT_exists at h
    split_ifs at h with hlr _
    have hlr' := hlne hlr
    have S := TT_spec h1.ok.geom c2
    have hd : ‖((SF.center_distance c1 c2 / 2 - c1.radius : ℝ) : ℂ)
        * cis (SF.atan2 (c2.yc - c1.yc) (c2.xc - c1.xc))‖ ≤ SF.epsilon / 2 := by
      rw [norm_mul, norm_cis, mul_one, Complex.norm_real, Real.norm_eq_abs]
      have h' := abs_lt.mp h
      simp only [SF.scratch] at h'
      rw [abs_le]; constructor <;> linarith
    have E1 : ‖cen (-(sg c1.forward * ccA sp.kappa sp.sigma)) (sg c1.left * ccB sp.kappa sp.sigma)
        (cfg (TT_path c1 c2).2) - center c1‖ ≤ SF.epsilon / 2 := by
      rw [show (TT_path c1 c2).2 = TT_tangent_circles c1 c2 from rfl, S.1]; exact hd
    have E2 : ‖cen (-(sg c2.forward * ccA sp.kappa sp.sigma)) (sg c2.left * ccB sp.kappa sp.sigma)
        (cfg (TT_path c1 c2).2) - center c2‖ ≤ SF.epsilon / 2 := by
      rw [show (TT_path c1 c2).2 = TT_tangent_circles c1 c2 from rfl, hf, hlr', sg_not, sg_not, neg_mul,
          neg_neg, neg_mul, S.2, norm_neg]; exact hd
    have L1 := cc_turn_track_to h1.ok hk hs hl h1.cen E1 ht1
    have L2 := cc_turn_track_from h2.ok hk hs hl h2.cen E2 ht2
    rw [hrad2] at L2
    refine ⟨_, rfl, ?_, fun hle => ?_⟩
    · have L := L1.append L2 htau
      rw [show SF.epsilon / 2 + SF.epsilon / 2 = SF.epsilon by ring] at L
      exact L
    · have hle' : SF.epsilon / 2 ≤ ccA sp.kappa sp.sigma :=
        le_trans (by norm_num [SF.epsilon]) (show SF.epsilon ≤ _ from hle)
      have w1 := oneWay_turn h1.ok hk hs hl h1.cen E1 hr1 hle' true
      have w2 := oneWay_turn h2.ok hk hs hl h2.cen E2 hr2 hle' false
      rw [direction_to] at w1
      rw [direction_from, hf, sg_not, neg_neg] at w2
      exact w1.append w2
  | TiST h =>
    have ht1 := ht (c1, (TiST_path c1 c2).2.1) (by simp [turns])
    have ht2 := ht (c2, (TiST_path c1 c2).2.2) (by simp [turns])
    unfold TiST_exists at h
    split_ifs at h with hlr _
    have hlr' := hlne hlr
    obtain ⟨S1, S2, S3, S4, S5⟩ := TiST_spec h1.ok.geom c2 hB h
    exact TST_ok hk hs hl h1 h2 hf hr1 hr2 htau S3 S4 (by linarith) (by rw [S1]; simp)
      (by rw [hf, hlr', sg_not, sg_not, neg_mul, neg_neg, neg_mul, S2]; simp) ht1 ht2
  | TeST h =>
    have ht1 := ht (c1, (TeST_path c1 c2).2.1) (by simp [turns])
    have ht2 := ht (c2, (TeST_path c1 c2).2.2) (by simp [turns])
    unfold TeST_exists at h
    split_ifs at h with hlr _
    push Not at hlr
    obtain ⟨S1, S2, S3, S4⟩ := TeST_spec h1.ok.geom c2
    have hd : 2 * c1.radius * c1.sin_mu ≤ SF.center_distance c1 c2 := h
    rw [mul_assoc, h1.ok.sin_mu] at hd
    exact TST_ok hk hs hl h1 h2 hf hr1 hr2 htau S3 S4 (by linarith) (by rw [S1]; simp)
      (by rw [hf, ← hlr, sg_not, neg_mul, neg_neg, S2]; simp) ht1 ht2
  | TTT h =>
    have ht1 := ht (c1, (TTT_path sp.param (SF.scratch c1 c2) c1 c2).2.1) (by simp [turns])
    have ht2 := ht ((TTT_path sp.param (SF.scratch c1 c2) c1 c2).2.2.2,
      (TTT_path sp.param (SF.scratch c1 c2) c1 c2).2.2.1) (by simp [turns])
    have ht3 := ht (c2, (TTT_path sp.param (SF.scratch c1 c2) c1 c2).2.2.1) (by simp [turns])
    simp only at ht1 ht2 ht3
    unfold TTT_exists at h
    split_ifs at h with hlr _
    push Not at hlr
    have hD0 : 0 ≤ SF.center_distance c1 c2 := sqrt_nonneg _
    have hp := center_polar c1 c2
    have e1 : (⟨c1.xc, c1.yc⟩ : ℂ) = center c1 := rfl
    have m1 := mid_dist h hD0 (SF.scratch c1 c2).angle 1 (by norm_num)
    have m2 := mid_dist h hD0 (SF.scratch c1 c2).angle (-1) (by norm_num)
    change center c2 = center c1 + ((SF.scratch c1 c2).distance : ℂ) * cis (SF.scratch c1 c2).angle at hp
    refine ⟨_, rfl, ?_⟩
    unfold TTT_path at ht1 ht2 ht3 ⊢
    simp only at ht1 ht2 ht3 ⊢
    split_ifs at ht1 ht2 ht3 ⊢ with hlt
    · refine (TTT_middle hk hs hl h1 h2 hf hlr.symm _ _ ?_ ?_ tau _ rfl _ _ rfl rfl _ rfl ht1 ht2 ht3 _ rfl).imp
        id fun h _ => h hr1 hr2
      · rw [frame_cis, e1, add_sub_cancel_left]; simpa only [one_mul] using m1.1
      · rw [frame_cis, e1, hp, add_sub_add_left_eq_sub]; simpa only [one_mul] using m1.2
    · refine (TTT_middle hk hs hl h1 h2 hf hlr.symm _ _ ?_ ?_ tau _ rfl _ _ rfl rfl _ rfl ht1 ht2 ht3 _ rfl).imp
        id fun h _ => h hr1 hr2
      · rw [frame_cis, e1, add_sub_cancel_left]; simpa only [neg_one_mul] using m2.1
      · rw [frame_cis, e1, hp, add_sub_add_left_eq_sub]; simpa only [neg_one_mul] using m2.2

end CC00

end Spec
