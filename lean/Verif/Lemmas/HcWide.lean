import Verif.Lemmas.HcPlan
import Verif.Lemmas.AsymWitness
import Verif.Lemmas.Concurrent

/-!
# HC00-Reeds-Shepp: rows have a first and a last turn
-/

noncomputable section

namespace Spec

open Real Props
open CC00 (CircOk circOk_at wideStart wideGoal startOf)

/-! ### First and last turn -/

def IsFirst (P : SF.CircleParam) (c : SF.Circle) (m : SF.Move) : Prop :=
  ∃ q, m = SF.HcRs.firstT false P c q ∨ m = SF.HcRs.firstTc false c q

def IsLast (P : SF.CircleParam) (c : SF.Circle) (m : SF.Move) : Prop :=
  ∃ q, m = SF.HcRs.lastT false P c q ∨ m = SF.HcRs.lastcT false c q

/-- A row that contains a first and a last turn. -/
def HcShape (P : SF.CircleParam) (c1 c2 : SF.Circle) (r : SF.RSRow) : Prop :=
  ∃ f ∈ r.moves, ∃ l ∈ r.moves, IsFirst P c1 f ∧ IsLast P c2 l ∧ f.length + l.length ≤ r.length

theorem HcShape.shorter {P : SF.CircleParam} {c1 c2 : SF.Circle} {a b : SF.RSRow} (ha : HcShape P c1 c2 a) (hb : HcShape P c1 c2 b) :
    HcShape P c1 c2 (a.shorter b) := by
  unfold SF.RSRow.shorter; split_ifs; exacts [ha, hb]

section
variable {P : SF.CircleParam} {c1 c2 : SF.Circle} {f l m1 m2 m3 : SF.Move} {x1 x2 x3 : ℝ}

theorem hcShape2 (hf : IsFirst P c1 f) (hl : IsLast P c2 l) : HcShape P c1 c2 ⟨f.length + l.length, [f, l]⟩ :=
  ⟨f, by simp, l, by simp, hf, hl, le_rfl⟩

theorem hcShape3 (hf : IsFirst P c1 f) (hl : IsLast P c2 l) (h1 : 0 ≤ x1) :
    HcShape P c1 c2 ⟨f.length + x1 + l.length, [f, m1, l]⟩ :=
  ⟨f, by simp, l, by simp, hf, hl, by simp only; linarith⟩

theorem hcShape4 (hf : IsFirst P c1 f) (hl : IsLast P c2 l) (h1 : 0 ≤ x1) (h2 : 0 ≤ x2) :
    HcShape P c1 c2 ⟨f.length + x1 + x2 + l.length, [f, m1, m2, l]⟩ :=
  ⟨f, by simp, l, by simp, hf, hl, by simp only; linarith⟩

theorem hcShape5 (hf : IsFirst P c1 f) (hl : IsLast P c2 l) (h1 : 0 ≤ x1) (h2 : 0 ≤ x2) (h3 : 0 ≤ x3) :
    HcShape P c1 c2 ⟨f.length + x1 + x2 + x3 + l.length, [f, m1, m2, m3, l]⟩ :=
  ⟨f, by simp, l, by simp, hf, hl, by simp only; linarith⟩

end

theorem hc_length_nonneg (c : SF.Circle) (q : SF.Configuration) : 0 ≤ c.hc_turn_length q := by
  unfold SF.Circle.hc_turn_length; positivity

theorem rs_length_nonneg (c : SF.Circle) (q : SF.Configuration) : 0 ≤ c.rs_turn_length q := abs_nonneg _

theorem distance_nonneg (p q : SF.Configuration) : 0 ≤ SF.configuration_distance p q := sqrt_nonneg _

open SF.HcRs in
/-- Every row of HC00 that is not empty has a first and a last turn. -/
theorem hc_family_shape {sp : SF.HCSpace} (H : Rng sp.kappa sp.sigma) (c1 c2 : SF.Circle) (m : SF.Scratch) (i : ℕ) :
    family false false sp m c1 c2 i = {} ∨ HcShape sp.param c1 c2 (family false false sp m c1 c2 i) := by
  have hA := (ccA_pos H.kappa H.sigma H.clothoid).le
  have hm : ∀ q l f r q', 0 ≤ (SF.circleAt q l f r sp.param).cc_turn_length q' := fun q l f r q' =>
    CC00.cc_turn_length_nonneg (circOk_at H.kappa H.sigma H.clothoid q l f r).ok hA q'
  have f1 : ∀ q, IsFirst sp.param c1 (firstT false sp.param c1 q) := fun q => ⟨q, .inl rfl⟩
  have f2 : ∀ q, IsFirst sp.param c1 (firstTc false c1 q) := fun q => ⟨q, .inr rfl⟩
  have l1 : ∀ q, IsLast sp.param c2 (lastT false sp.param c2 q) := fun q => ⟨q, .inl rfl⟩
  have l2 : ∀ q, IsLast sp.param c2 (lastcT false c2 q) := fun q => ⟨q, .inr rfl⟩
  have hc := hc_length_nonneg
  have rs := rs_length_nonneg
  have di := distance_nonneg
  unfold family
  split
  · split_ifs
    · right; exact hcShape2 (f1 _) (l1 _)
    · left; rfl
  · split_ifs
    · right; exact hcShape2 (f2 _) (l2 _)
    · left; rfl
  · split_ifs
    · right; exact (hcShape3 (f2 _) (l2 _) (rs _ _)).shorter (hcShape3 (f2 _) (l2 _) (rs _ _))
    · left; rfl
  · split_ifs
    · unfold TcTT_path
      simp only
      split_ifs
      · left; rfl
      · right; exact (hcShape3 (f2 _) (l1 _) (hc _ _)).shorter (hcShape3 (f2 _) (l1 _) (hc _ _))
    · left; rfl
  · split_ifs
    · unfold TTcT_path
      simp only
      split_ifs
      · left; rfl
      · right; exact (hcShape3 (f1 _) (l2 _) (hc _ _)).shorter (hcShape3 (f1 _) (l2 _) (hc _ _))
    · left; rfl
  · unfold TST_path
    split_ifs
    · right; exact hcShape3 (f1 _) (l1 _) (di _ _)
    · right; exact hcShape3 (f1 _) (l1 _) (di _ _)
    · left; rfl
  · unfold TSTcT_path
    split_ifs
    · right; exact hcShape4 (f1 _) (l2 _) (di _ _) (hc _ _)
    · right; exact hcShape4 (f1 _) (l2 _) (di _ _) (hc _ _)
    · left; rfl
  · unfold TcTST_path
    split_ifs
    · right; exact hcShape4 (f2 _) (l1 _) (hc _ _) (di _ _)
    · right; exact hcShape4 (f2 _) (l1 _) (hc _ _) (di _ _)
    · left; rfl
  · unfold TcTSTcT_path
    split_ifs
    · right; exact hcShape5 (f2 _) (l2 _) (hc _ _) (di _ _) (hc _ _)
    · right; exact hcShape5 (f2 _) (l2 _) (hc _ _) (di _ _) (hc _ _)
    · left; rfl
  · split_ifs
    · unfold TTcTT_path
      simp only
      split_ifs <;> first
        | exact .inl rfl
        | exact .inr ((hcShape4 (f1 _) (l1 _) (hc _ _) (hc _ _)).shorter (hcShape4 (f1 _) (l1 _) (hc _ _) (hc _ _)))
    · left; rfl
  · split_ifs
    · unfold TcTTcT_path
      simp only
      split_ifs <;> first
        | exact .inl rfl
        | exact .inr ((hcShape4 (f2 _) (l2 _) (hc _ _) (hc _ _)).shorter (hcShape4 (f2 _) (l2 _) (hc _ _) (hc _ _)))
    · left; rfl
  · split_ifs
    · right; exact (hcShape3 (f1 _) (l1 _) (hm _ _ _ _ _)).shorter (hcShape3 (f1 _) (l1 _) (hm _ _ _ _ _))
    · left; rfl
  · unfold TcST_path
    split_ifs
    · right; exact hcShape3 (f2 _) (l1 _) (di _ _)
    · right; exact hcShape3 (f2 _) (l1 _) (di _ _)
    · left; rfl
  · unfold TScT_path
    split_ifs
    · right; exact hcShape3 (f1 _) (l2 _) (di _ _)
    · right; exact hcShape3 (f1 _) (l2 _) (di _ _)
    · left; rfl
  · unfold TcScT_path
    split_ifs
    · right; exact hcShape3 (f2 _) (l2 _) (di _ _)
    · right; exact hcShape3 (f2 _) (l2 _) (di _ _)
    · left; rfl
  · left; rfl

/-! ### Lengths -/

section
variable {sp : SF.HCSpace} (hsk : sp.kappa = 1 / 1000) (hss : sp.sigma = 1 / 125)

include hsk hss in
theorem wide_hc {c : SF.Circle} (h : CircOk c sp.kappa sp.sigma) (q : SF.Configuration) : 12 / 100 ≤ c.hc_turn_length q := by
  rw [hsk, hss] at h
  unfold SF.Circle.hc_turn_length
  have := abs_nonneg (c.kappa_inv * c.hc_circular_deflection (c.deflection q))
  have e : |c.kappa / c.sigma| = 1 / 8 := by
    rw [abs_kappa_sigma h.ok (by norm_num) (by norm_num)]; norm_num
  simp only
  rw [e]; linarith

include hsk hss in
theorem wide_at (q : SF.Configuration) (l f r : Bool) : CircOk (SF.circleAt q l f r sp.param) (1 / 1000) (1 / 125) := by
  have hr : InRange sp.kappa sp.sigma := by rw [hsk, hss]; exact wide_range
  have := circOk_at hr.kappa hr.sigma hr.clothoid q l f r
  rw [hsk, hss] at this
  rwa [show sp.param = SF.hc_cc_circle_param sp.kappa sp.sigma from rfl, hsk, hss]

include hsk hss in
/-- Every path with two turns is at least 24 cm long. -/
theorem wide_hc_family {c1 c2 : SF.Circle} (h1 : EndOk false sp.kappa sp.sigma c1) (h2 : EndOk false sp.kappa sp.sigma c2) {i : ℕ}
    (hlt : (SF.HcRs.family false false sp (SF.scratch c1 c2) c1 c2 i).length < SF.dblMax) :
    24 / 100 ≤ (SF.HcRs.family false false sp (SF.scratch c1 c2) c1 c2 i).length := by
  have hr : InRange sp.kappa sp.sigma := by rw [hsk, hss]; exact wide_range
  have H := hr.rng
  rcases hc_family_shape H c1 c2 (SF.scratch c1 c2) i with h0 | ⟨f, hf, l, hl, ⟨qf, ef⟩, ⟨ql, el⟩, hle⟩
  · rw [h0] at hlt; exact absurd hlt (lt_irrefl _)
  by_cases h3 : i = SF.hc_cc_rs.TT
  · subst h3
    have e : SF.HcRs.TT_exists sp.param (SF.scratch c1 c2) c1 c2 := by
      by_contra hne
      simp only [SF.HcRs.family, if_neg hne] at hlt
      exact absurd hlt (lt_irrefl _)
    simp only [SF.HcRs.family, if_pos e]
    unfold SF.HcRs.TT_exists SF.CC00.TT_exists at e
    split_ifs at e with hl hf
    have hl' : c2.left = !c1.left := not_of_ne hl
    have hf' : c2.forward = !c1.forward := not_of_ne hf
    have hd : |‖center c2 - center c1‖ - 2 * ccR sp.kappa sp.sigma| ≤ 2 * SF.epsilon := by
      rw [← scratch_distance, ← radius_param H]
      refine le_trans (le_of_lt e) (by norm_num [SF.epsilon])
    obtain ⟨t1, t2⟩ := TT_at H c1 c2 hd
    rw [← hf', ← hl'] at t2
    have z1 : center (SF.circleAt c1.start c1.left c1.forward false sp.param) = center c1 := by
      rw [show sp.param = SF.hc_cc_circle_param sp.kappa sp.sigma from rfl, center_at H, h1.cc.cen]
    have z2 : center (SF.circleAt c2.start c2.left c2.forward false sp.param) = center c2 := by
      rw [show sp.param = SF.hc_cc_circle_param sp.kappa sp.sigma from rfl, center_at H, h2.cc.cen]
    have E1 := wide_turn (wide_at hsk hss c1.start c1.left c1.forward false)
      (q := SF.HcRs.TT_tangent_circles sp.param c1 c2) (by
        rw [z1]; unfold AtTan at t1; rw [hsk, hss] at t1
        rw [show sp.param = SF.hc_cc_circle_param sp.kappa sp.sigma from rfl, hsk, hss]; exact t1)
    have E2 := wide_turn (wide_at hsk hss c2.start c2.left c2.forward false)
      (q := SF.HcRs.TT_tangent_circles sp.param c1 c2) (by
        rw [z2]; unfold AtTan at t2; rw [hsk, hss] at t2
        rw [show sp.param = SF.hc_cc_circle_param sp.kappa sp.sigma from rfl, hsk, hss]; exact t2)
    change _ ≤ (SF.Circle.cc_turn_length _ _) + (SF.Circle.cc_turn_length _ _)
    linarith
  · obtain ⟨Ds, hch, -⟩ := (family_ok H h1 h2 hlt).chain
    have hs := (hch.limits (by rw [famF, if_neg h3])).2
    rw [hss] at hs
    have gentle : ∀ c q o, CircOk c (1 / 1000) (1 / 125) → SF.Move.cc c q o ∈ (SF.HcRs.family false false sp (SF.scratch c1 c2) c1 c2 i).moves →
        12 / 100 ≤ c.cc_turn_length q := by
      intro c q o hc hm
      refine wide_gentle hc (o := o) fun x hx => ?_
      refine hs x ?_
      rw [List.map_flatMap, List.mem_flatMap]
      exact ⟨_, hm, hx⟩
    have F : 12 / 100 ≤ f.length := by
      rcases ef with e | e
      · rw [e] at hf ⊢; exact gentle _ _ _ (wide_at hsk hss _ _ _ _) hf
      · rw [e]; exact wide_hc hsk hss h1.cc _
    have L : 12 / 100 ≤ l.length := by
      rcases el with e | e
      · rw [e] at hl ⊢; exact gentle _ _ _ (wide_at hsk hss _ _ _ _) hl
      · rw [e]; exact wide_hc hsk hss h2.cc _
    linarith

end

/-! ### The planner -/

namespace HcRs

open SF.HcRs

/-- HC00: the selected pair of circles. -/
theorem best00 (sp : SF.HCSpace) (s1 s2 : SF.State) : ∃ i j, reeds_shepp false false sp s1 s2 =
      some (circles_rs_path false false sp (end_circle false sp s1 i) (end_circle false sp s2 j)) ∧ i < 4 ∧
    ∀ i' < 4, ∀ j' < 4, (circles_rs_path false false sp (end_circle false sp s1 i) (end_circle false sp s2 j)).length ≤
      (circles_rs_path false false sp (end_circle false sp s1 i') (end_circle false sp s2 j')).length := by
  have hp : ∀ n, path false false sp s1 s2 n =
      some (circles_rs_path false false sp (end_circle false sp s1 (n / 4)) (end_circle false sp s2 (n % 4))) := by
    intro n; rw [path_some]; simp
  unfold reeds_shepp
  simp only [hp, Option.map_some, Option.getD_some]
  have h := C04_array_index_min (fun n => (circles_rs_path false false sp (end_circle false sp s1 (n / 4)) (end_circle false sp s2 (n % 4))).length)
    16 (by norm_num)
  generalize SF.array_index_min (fun n => (circles_rs_path false false sp (end_circle false sp s1 (n / 4)) (end_circle false sp s2 (n % 4))).length) 16 = n at h ⊢
  refine ⟨n / 4, n % 4, rfl, by omega, fun i' hi' j' hj' => ?_⟩
  have := h.2.1 (4 * i' + j') (by omega)
  rw [show (4 * i' + j') / 4 = i' by omega, show (4 * i' + j') % 4 = j' by omega] at this
  exact this

section
variable {sp : SF.HCSpace} (hsk : sp.kappa = 1 / 1000) (hss : sp.sigma = 1 / 125)

/-- The single turn, if the states are neither equal nor aligned. -/
theorem shortcut_T {s1 s2 : SF.State} (h1 : ¬ SF.configuration_equal (startOf s1) (startOf s2))
    (h2 : ¬ SF.configuration_aligned (startOf s1) (startOf s2)) (h3 : ¬ SF.configuration_aligned (startOf s2) (startOf s1))
    (m : SF.Scratch) (i j : ℕ) :
    (SF.configuration_on_hc_cc_circle (end_circle false sp s1 i) (startOf s2) →
      shortcut false false sp m (end_circle false sp s1 i) (end_circle false sp s2 j) = some (SF.hc_cc_rs.T,
        { length := (SF.circleAt (startOf s1) (i % 2 = 0) (i < 2) false sp.param).cc_turn_length (startOf s2),
          moves := [.cc (SF.circleAt (startOf s1) (i % 2 = 0) (i < 2) false sp.param) (startOf s2) true] })) ∧
    (¬ SF.configuration_on_hc_cc_circle (end_circle false sp s1 i) (startOf s2) →
      shortcut false false sp m (end_circle false sp s1 i) (end_circle false sp s2 j) = none) := by
  have e1 : (end_circle false sp s1 i).start = startOf s1 := rfl
  have e2 : (end_circle false sp s2 j).start = startOf s2 := rfl
  constructor <;> intro h <;> unfold shortcut <;> rw [e1, e2, if_neg h1] <;> simp only
  · rw [if_neg h2, if_neg h3, if_pos h]; rfl
  · rw [if_neg h2, if_neg h3, if_neg h]

include hsk hss in
theorem wide_ok (s : SF.State) (i : ℕ) : CircOk (end_circle false sp s i) (1 / 1000) (1 / 125) :=
  wide_at hsk hss _ _ _ _

include hsk hss in
theorem wide_end (s : SF.State) (i : ℕ) : EndOk false sp.kappa sp.sigma (end_circle false sp s i) := by
  have hr : InRange sp.kappa sp.sigma := by rw [hsk, hss]; exact wide_range
  exact end_ok hr.rng false s i

include hsk hss in
theorem wide_found : ∃ s0 L, get_controls false false sp wideStart wideGoal = some [⟨L, 0, s0⟩, ⟨L, s0 * L, -s0⟩] ∧
      2 * (1 / 125) < s0 ∧ 3 / 2 * (1 / 1000) < s0 * L := by
  obtain ⟨i, j, hb, hi, hmin⟩ := best00 sp wideStart wideGoal
  have ST := fun i j => shortcut_T (sp := sp) CC00.wide_not.1 CC00.wide_not.2.1 CC00.wide_not.2.2
    (SF.scratch (end_circle false sp wideStart i) (end_circle false sp wideGoal j)) i j
  have hw := CC00.wide_controls (wide_at hsk hss (startOf wideStart) true true false) rfl rfl rfl
  have hd : (circles_rs_path false false sp (end_circle false sp wideStart i) (end_circle false sp wideGoal j)).length ≤ 16 / 100 := by
    refine (hmin 0 (by norm_num) 0 (by norm_num)).trans ((entry_le _ _ sp _ _ (i := 2) (by norm_num)).trans (le_trans (le_of_eq ?_) hw.1))
    unfold table
    rw [(ST 0 0).1 (CC00.wide_on (wide_ok hsk hss wideStart 0) rfl rfl rfl)]
    rfl
  have hlt := hd.trans_lt (lt_of_le_of_lt (by norm_num) SF.dblMax_large)
  rw [get_controls, hb]
  rcases chosen hlt with ⟨t, r, hs, hp⟩ | ⟨n, _, hp⟩
  · by_cases hon : SF.configuration_on_hc_cc_circle (end_circle false sp wideStart i) (startOf wideGoal)
    · rw [(ST i j).1 hon] at hs
      simp only [Option.some.injEq, Prod.mk.injEq] at hs
      obtain ⟨rfl, rfl⟩ := hs
      rw [hp] at hd ⊢
      change (SF.circleAt (startOf wideStart) (i % 2 = 0) (i < 2) false sp.param).cc_turn_length (startOf wideGoal) ≤ _ at hd
      have hon' : SF.configuration_on_hc_cc_circle (SF.circleAt (startOf wideStart) (i % 2 = 0) (i < 2) false sp.param) (startOf wideGoal) := hon
      have h0 : i = 0 := by
        by_contra hne
        have := wide_T (wide_at hsk hss (startOf wideStart) (i % 2 = 0) (i < 2) false) (wide_ok hsk hss wideGoal 0) rfl rfl hon' (by
          rintro ⟨hl, hf⟩
          simp only [SF.circleAt, decide_eq_true_eq] at hl hf
          omega)
        linarith
      subst h0
      obtain ⟨s0, L, hc, q1, q2⟩ := hw.2
      refine ⟨s0, L, ?_, q1, q2⟩
      rw [Option.map_some]
      congr 1
      unfold path_controls
      rw [if_neg (by simp [SF.hc_cc_rs.T, SF.hc_cc_rs.E])]
      simp only [List.flatMap_cons, List.flatMap_nil, List.append_nil, SF.Move.controls]
      exact hc
    · rw [(ST i j).2 hon] at hs
      exact absurd hs (by simp)
  · exfalso
    rw [hp] at hd hlt
    have := wide_hc_family hsk hss (wide_end hsk hss _ _) (wide_end hsk hss _ _) hlt
    change (family _ _ _ _ _ _ _).length ≤ _ at hd
    linarith

include hsk hss in
theorem asym_there : ∃ l, get_distance false false sp wideStart asymGoal = some l ∧ l ≤ 235 / 1000 := by
  obtain ⟨i, j, hb, hi, hmin⟩ := best00 sp wideStart asymGoal
  refine ⟨_, by rw [get_distance, hb]; rfl, ?_⟩
  refine (hmin 0 (by norm_num) 0 (by norm_num)).trans ((entry_le _ _ sp _ _ (i := 2) (by norm_num)).trans
    (le_trans (le_of_eq ?_) (asym_turn (wide_at hsk hss (startOf wideStart) true true false) rfl rfl rfl)))
  unfold table
  rw [(shortcut_T asym_not.1 asym_not.2.1 asym_not.2.2.1 _ 0 0).1 (asym_on (wide_ok hsk hss wideStart 0) rfl rfl rfl)]
  rfl

include hsk hss in
theorem asym_back : ∃ l, get_distance false false sp asymGoal wideStart = some l ∧ 24 / 100 ≤ l := by
  obtain ⟨i, j, hb, hi, hmin⟩ := best00 sp asymGoal wideStart
  refine ⟨_, by rw [get_distance, hb]; rfl, ?_⟩
  by_cases hlt : (circles_rs_path false false sp (end_circle false sp asymGoal i) (end_circle false sp wideStart j)).length < SF.dblMax
  swap
  · push Not at hlt
    exact le_trans (le_trans (by norm_num) SF.dblMax_large.le) hlt
  rcases chosen hlt with ⟨t, r, hs, hp⟩ | ⟨n, _, hp⟩
  · have ST := shortcut_T (sp := sp) asym_not.2.2.2 asym_not.2.2.1 asym_not.2.1
      (SF.scratch (end_circle false sp asymGoal i) (end_circle false sp wideStart j)) i j
    by_cases hon : SF.configuration_on_hc_cc_circle (end_circle false sp asymGoal i) (startOf wideStart)
    · rw [ST.1 hon] at hs
      simp only [Option.some.injEq, Prod.mk.injEq] at hs
      obtain ⟨rfl, rfl⟩ := hs
      rw [hp]
      exact asym_T (wide_at hsk hss (startOf asymGoal) (i % 2 = 0) (i < 2) false) rfl hon
    · rw [ST.2 hon] at hs
      exact absurd hs (by simp)
  · rw [hp] at hlt ⊢
    exact wide_hc_family hsk hss (wide_end hsk hss _ _) (wide_end hsk hss _ _) hlt

end

end HcRs

end Spec
