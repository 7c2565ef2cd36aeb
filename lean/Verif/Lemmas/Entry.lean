import Verif.Spec.Entry
import Verif.Props.Dispatch
import Verif.Lemmas.Representation
import Verif.Props.HcReedsSheppAll
import Verif.Props.CcDubinsAll

/-!
# The planners for any curvature: no longer than every candidate
-/

noncomputable section

namespace Spec

open Real Props

variable {sp : SF.HCSpace} {junk : ℝ}

theorem mapM_mem {α β : Type} {f : α → Option β} {ps : List α} {l : List β} (h : ps.mapM f = some l) {p : α} (hp : p ∈ ps) :
    ∃ y ∈ l, f p = some y := by
  induction ps generalizing l with
  | nil => simp at hp
  | cons q ps ih =>
    rw [List.mapM_cons] at h
    cases hq : f q with
    | none => simp [hq] at h
    | some y =>
      cases hr : ps.mapM f with
      | none => simp [hq, hr] at h
      | some l' =>
        simp [hq, hr] at h
        subst h
        rcases List.mem_cons.1 hp with rfl | hp
        · exact ⟨y, by simp, hq⟩
        · obtain ⟨z, h1, h2⟩ := ih hr hp
          exact ⟨z, by simp [h1], h2⟩

theorem min_distance_le {f : SF.SubPlanners ℝ} {as bs : List SF.Predicted} {m : ℝ} (hm : SF.min_distance f as bs = some m)
    {a b : SF.Predicted} (ha : a ∈ as) (hb : b ∈ bs) {z : ℝ} (hz : SF.pair_distance f a b = some z) : m ≤ z := by
  unfold SF.min_distance at hm
  cases hl : (SF.pairs as bs).mapM (fun p => SF.pair_distance f p.1 p.2) with
  | none => simp [hl] at hm
  | some l =>
    simp only [hl, Option.bind_some] at hm
    obtain ⟨y, h1, h2⟩ := mapM_mem hl (p := (a, b)) (mem_pairs.2 ⟨ha, hb⟩)
    have : y = z := Option.some_inj.1 (h2.symm.trans hz)
    exact this ▸ (List.min?_eq_some_iff.1 hm).2 y h1

theorem pair_distance_le {f : SF.SubPlanners ℝ} {a b : SF.Predicted} {x : ℝ} (hx : f.call a.1 b.1 = some x)
    (hE : SF.state_equal a.1 b.1 → x = 0) :
    ∃ z, SF.pair_distance f a b = some z ∧ z ≤ |a.2.delta_s| + x + |b.2.delta_s| := by
  unfold SF.pair_distance
  by_cases h : SF.state_equal a.1 b.1
  · rw [if_pos h, hE h]
    refine ⟨_, rfl, ?_⟩
    have := abs_sub a.2.delta_s b.2.delta_s
    simp only [SF.subtract_control]
    linarith
  · rw [if_neg h, hx]
    refine ⟨_, rfl, ?_⟩
    have := abs_nonneg a.2.delta_s
    have := abs_nonneg b.2.delta_s
    simp only
    split_ifs <;> linarith

/-- A candidate that belongs to an entry. -/
structure Candidate (s : SF.State) (e : List Segment) (kappa' : ℝ) (a : SF.Predicted) : Prop where
  len : |a.2.delta_s| = totalLength e
  kappa : a.1.kappa = kappa'
  at_ : pose a.1 = libAll e (pose s)

theorem stay_candidate (s : SF.State) : Candidate s [] s.kappa (s, ⟨0, s.kappa, 0⟩) :=
  ⟨by simp [totalLength], rfl, rfl⟩

theorem driven_candidate (s : SF.State) {c : SF.Control} (hs : c.sigma ≠ 0) (hk : c.kappa = s.kappa) :
    Candidate s [seg c] (s.kappa + c.sigma * |c.delta_s|) (SF.predicted junk s c) :=
  ⟨by simp [totalLength, seg, SF.predicted], rfl, by rw [← predicted_lib junk hs hk]; rfl⟩

theorem sgn_side {l kappa : ℝ} (hl : Sign l) (h : 1 / 10000 ≤ l * kappa) : SF.sgn kappa = l ∧ |kappa| = l * kappa := by
  unfold SF.sgn
  rcases hl with rfl | rfl
  · have : 0 ≤ kappa := by linarith
    rw [if_neg (by linarith), abs_of_nonneg this]; simp
  · have : kappa < 0 := by linarith
    rw [if_pos this, abs_of_neg this]; simp

/-- Curvature at the end of an entry. -/
theorem Entry.full_abs {k s d kappa kappa' : ℝ} {f : Bool} {e : List Segment} (h : Entry k s d kappa f kappa' e) (hk : 0 < k) :
    |kappa'| = if f then k else 0 := by
  cases h with
  | zero => simp
  | full h => simpa using h
  | straighten => simp
  | @tighten l hl _ _ => rcases hl with rfl | rfl <;> simp [abs_of_pos hk]

section

variable {s : SF.State} {d l kappa' : ℝ} {f : Bool} {e : List Segment} (H : Rng sp.kappa sp.sigma)

include H in
theorem straighten_candidate (hd : Sign d) (hl : Sign l) (h1 : 1 / 10000 ≤ l * s.kappa) :
    Candidate s [⟨d * (l * s.kappa / sp.sigma), s.kappa, -(l * sp.sigma)⟩] 0
      (SF.predicted junk s ⟨d * (l * s.kappa / sp.sigma), s.kappa, -(l * sp.sigma)⟩) := by
  have hS := H.sigma
  have hl0 : l ≠ 0 := by rcases hl with rfl | rfl <;> norm_num
  have hq : 0 ≤ l * s.kappa / sp.sigma := by positivity
  have := driven_candidate (junk := junk) s (c := ⟨d * (l * s.kappa / sp.sigma), s.kappa, -(l * sp.sigma)⟩) (by simp [hl0, hS.ne']) rfl
  have hz : s.kappa + -(l * sp.sigma) * |d * (l * s.kappa / sp.sigma)| = 0 := by
    rw [abs_pm_mul hd hq]
    have : l * l = 1 := by rcases hl with rfl | rfl <;> norm_num
    field_simp
    linear_combination -s.kappa * this
  rw [hz] at this
  exact this

include H in
theorem tighten_candidate (hd : Sign d) (hl : Sign l) (h2 : l * s.kappa ≤ sp.kappa - 1 / 10000) :
    Candidate s [⟨d * ((sp.kappa - l * s.kappa) / sp.sigma), s.kappa, l * sp.sigma⟩] (l * sp.kappa)
      (SF.predicted junk s ⟨d * ((sp.kappa - l * s.kappa) / sp.sigma), s.kappa, l * sp.sigma⟩) := by
  have hS := H.sigma
  have hl0 : l ≠ 0 := by rcases hl with rfl | rfl <;> norm_num
  have h3 : 0 ≤ sp.kappa - l * s.kappa := by linarith
  have hq : 0 ≤ (sp.kappa - l * s.kappa) / sp.sigma := by positivity
  have := driven_candidate (junk := junk) s (c := ⟨d * ((sp.kappa - l * s.kappa) / sp.sigma), s.kappa, l * sp.sigma⟩) (by simp [hl0, hS.ne']) rfl
  have hz : s.kappa + l * sp.sigma * |d * ((sp.kappa - l * s.kappa) / sp.sigma)| = l * sp.kappa := by
    rw [abs_pm_mul hd hq]
    have : l * l = 1 := by rcases hl with rfl | rfl <;> norm_num
    field_simp
    linear_combination -s.kappa * this
  rw [hz] at this
  exact this

theorem not_stay (hl : Sign l) (h1 : 1 / 10000 ≤ l * s.kappa) (h2 : l * s.kappa ≤ sp.kappa - 1 / 10000) :
    ¬ (|s.kappa| < SF.epsilon ∨ sp.kappa - |s.kappa| < SF.epsilon) := by
  rw [(sgn_side hl h1).2, SF.epsilon]; rintro (h | h) <;> linarith

include H in
theorem entry_hc (hd : Sign d) (h : Entry sp.kappa sp.sigma d s.kappa f kappa' e) :
    ∃ a ∈ SF.HC.predict_state sp junk s, Candidate s e kappa' a := by
  cases h with
  | zero h =>
    rw [HC.predict_stay (Or.inl (zero_small h))]
    exact ⟨_, List.mem_singleton_self _, h ▸ stay_candidate s⟩
  | full h =>
    rw [HC.predict_stay (full_stays h)]
    exact ⟨_, List.mem_singleton_self _, stay_candidate s⟩
  | @straighten l hl h1 h2 =>
    refine ⟨_, ?_, straighten_candidate (junk := junk) H hd hl h1⟩
    rw [SF.HC.predict_state, if_neg (not_stay hl h1 h2), (sgn_side hl h1).1]
    refine List.mem_map.2 ⟨_, ?_, rfl⟩
    rcases hd with rfl | rfl <;> simp
  | @tighten l hl h1 h2 =>
    refine ⟨_, ?_, tighten_candidate (junk := junk) H hd hl h2⟩
    rw [SF.HC.predict_state, if_neg (not_stay hl h1 h2), (sgn_side hl h1).1]
    refine List.mem_map.2 ⟨_, ?_, rfl⟩
    rcases hd with rfl | rfl <;> simp

include H in
theorem entry_cc {fw : Bool} (h : Entry sp.kappa sp.sigma (if fw then 1 else -1) s.kappa f kappa' e) :
    ∃ a ∈ SF.CC.predict_state sp junk s fw, Candidate s e kappa' a := by
  have hd : Sign (if fw then 1 else -1) := by cases fw <;> simp [Sign]
  cases h with
  | zero h =>
    rw [CC.predict_stay (Or.inl (zero_small h))]
    exact ⟨_, List.mem_singleton_self _, h ▸ stay_candidate s⟩
  | full h =>
    rw [CC.predict_stay (full_stays h)]
    exact ⟨_, List.mem_singleton_self _, stay_candidate s⟩
  | @straighten l hl h1 h2 =>
    refine ⟨_, ?_, straighten_candidate (junk := junk) H hd hl h1⟩
    rw [SF.CC.predict_state, if_neg (not_stay hl h1 h2), (sgn_side hl h1).1]
    refine List.mem_map.2 ⟨_, ?_, rfl⟩
    cases fw
    · simp [neg_div, neg_mul]
    · simp
  | @tighten l hl h1 h2 =>
    refine ⟨_, ?_, tighten_candidate (junk := junk) H hd hl h2⟩
    rw [SF.CC.predict_state, if_neg (not_stay hl h1 h2), (sgn_side hl h1).1]
    refine List.mem_map.2 ⟨_, ?_, rfl⟩
    cases fw
    · simp [← neg_div]
    · simp

theorem Candidate.same {a : SF.Predicted} (h : Candidate s e kappa' a) {p : SF.State}
    (hp : SameConfig (libAll e (pose s)) (pose p)) (hk : p.kappa = kappa') : SF.SameState a.1 p := by
  rw [← h.at_] at hp
  exact ⟨hp.1.symm, hp.2.1.symm, hp.2.2.symm, hk.trans h.kappa.symm⟩

end

/-- Which planner is called. -/
theorem call_of {α : Type} (F : SF.SubPlanners α) (hK : 1 / 10000 < sp.kappa) {p1 p2 : SF.State} {f1 f2 : Bool}
    (h1 : |p1.kappa| = if f1 then sp.kappa else 0) (h2 : |p2.kappa| = if f2 then sp.kappa else 0) :
    F.call p1 p2 = (if f1 then (if f2 then F.ppmpm else F.ppm0) else (if f2 then F.p0pm else F.p00)) p1 p2 := by
  have st : ∀ {s : SF.State} {pm : Bool}, |s.kappa| = (if pm then sp.kappa else 0) → (|s.kappa| < SF.epsilon ↔ pm = false) := by
    intro s pm h
    cases pm
    · simp [zero_small (abs_eq_zero.1 h)]
    · simp [not_lt.1 (full_large hK h)]
  rw [SF.SubPlanners.call]
  simp only [st h1, st h2]
  cases f1 <;> cases f2 <;> rfl

end Spec
