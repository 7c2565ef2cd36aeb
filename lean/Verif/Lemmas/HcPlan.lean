import Verif.Lemmas.HcExists
import Verif.Lemmas.Cc00Plan
import Verif.Spec.HcPlanner

/-!
# Hybrid-curvature Reeds-Shepp: summary
-/

noncomputable section

namespace Spec

open Real Props
open CC00 (CircOk circOk_at)

/-- What is known of a path of type `t`. -/
inductive HcOk (pm1 pm2 : Bool) (k s k0 k1 : ℝ) (ts : List (SF.Circle × SF.Configuration)) (cs : List SF.Control)
    (p q : Config) (len : ℝ) : ℕ → Prop
  | empty (hc : cs = SF.empty_controls) (hw : Within SF.epsilon SF.epsilon p q) (hl : len = 0) :
      HcOk pm1 pm2 k s k0 k1 ts cs p q len 0
  | line {x : ℝ} (hc : cs = [⟨x, 0, 0⟩]) (hx : |x| = len) (h0 : k0 = 0) (h1 : k1 = 0)
      (h : Leads (cs.map seg) p q len (4 * SF.epsilon * totalLength (cs.map seg)) SF.epsilon 0) :
      HcOk pm1 pm2 k s k0 k1 ts cs p q len 1
  | chain {t : ℕ} {E F : ℝ} {Ds : List PD} (ht : 2 ≤ t) (hE : E ≤ SF.epsilon * (1 + radiusBound k s))
      (h0 : 5 ≤ t → E = 0) (hF : (t = 2 → pm1 = true ∨ pm2 = true) → (t = 3 → pm1 = true ∧ pm2 = true) → F = 0)
      (hn : ts.length ≤ 3) (h : Chain k s Ds k0 k1 ts E F cs p q len) (hd : HybD none Ds)
      (hF' : F ≤ SF.epsilon * (1 + radiusBound k s)) :
      HcOk pm1 pm2 k s k0 k1 ts cs p q len t

/-- Curvature and sharpness exceed the limits by the factors `m` and `m ^ 2` at most. -/
def WithinFactor (k s m : ℝ) (cs : List SF.Control) : Prop :=
  CurvatureAtMost (m * (k * (1 + 1 / 10 ^ 8))) (cs.map seg) ∧ SharpnessAtMost (m ^ 2 * (s * (1 + 2 / 10 ^ 8))) (cs.map seg)

theorem line_factor {k s m : ℝ} (hm : 1 ≤ m) (hk : 0 ≤ k) (hs : 0 ≤ s) (x : ℝ) :
    WithinFactor k s m ([⟨x, 0, 0⟩] : List SF.Control) := by
  have : 0 ≤ m := zero_le_one.trans hm
  refine ⟨?_, ?_⟩
  · intro c hc t _ _
    simp only [List.map_cons, List.map_nil, List.mem_singleton, seg] at hc
    subst hc; simp only [zero_mul, add_zero, abs_zero]; positivity
  · intro c hc
    simp only [List.map_cons, List.map_nil, List.mem_singleton, seg] at hc
    subst hc; simp only [abs_zero]; positivity

/-- What holds for all paths, also for those that miss the goal. -/
structure HcBasic (pm1 pm2 : Bool) (t : ℕ) (k s : ℝ) (ts : List (SF.Circle × SF.Configuration)) (cs : List SF.Control) (len : ℝ) : Prop where
  ne : cs ≠ []
  exact : (∀ x ∈ ts, SF.epsilon ≤ SF.Circle.deflection x.1 x.2) → totalLength (cs.map seg) = len
  length : |totalLength (cs.map seg) - len| ≤ SF.epsilon * (1 + 4 * radiusBound k s)
  limits : (t = 2 → pm1 = true ∨ pm2 = true) → (t = 3 → pm1 = true ∧ pm2 = true) →
    CurvatureAtMost (k * (1 + 1 / 10 ^ 8)) (cs.map seg) ∧ SharpnessAtMost (s * (1 + 2 / 10 ^ 8)) (cs.map seg)
  limitsUp : ∀ m, Slack k s (SF.epsilon * (1 + radiusBound k s)) m → WithinFactor k s m cs

section
variable {pm1 pm2 : Bool} {k s k0 k1 len : ℝ} {ts : List (SF.Circle × SF.Configuration)} {cs : List SF.Control}
  {p q p' q' : Config} {t : ℕ}

theorem HcOk.congr (h : HcOk pm1 pm2 k s k0 k1 ts cs p q len t) (hp : SameConfig p p') (hq : SameConfig q q') :
    HcOk pm1 pm2 k s k0 k1 ts cs p' q' len t := by
  cases h with
  | empty hc hw hl =>
    refine .empty hc ?_ hl
    have h1 : Near 0 p' p := Near.of_same le_rfl hp.symm
    have h2 : Near 0 q q' := Near.of_same le_rfl hq
    exact ((h1.within.trans hw).trans h2.within).mono (by linarith) (by linarith)
  | line hc hx h0 h1 h => exact .line hc hx h0 h1 (h.congr hp hq)
  | chain ht hE h0 hF hn h hd hF' => exact .chain ht hE h0 hF hn (h.congr hp hq) hd hF'

theorem Rng.radius_nonneg (H : Rng k s) : 0 ≤ radiusBound k s := (ccR_nonneg k s).trans H.ccR_le

theorem HcOk.leads (h : HcOk pm1 pm2 k s k0 k1 ts cs p q len t) (H : Rng k s) :
    Leads (cs.map seg) p q len (SF.epsilon * (2 + 8 * radiusBound k s + 4 * totalLength (cs.map seg)))
      (3 * SF.epsilon) (SF.epsilon * (1 + 4 * radiusBound k s)) := by
  have he : (0:ℝ) < SF.epsilon := by norm_num [SF.epsilon]
  have hL := totalLength_nonneg (cs.map seg)
  have hR := H.ccR_le
  have hR0 := ccR_nonneg k s
  have a5 := mul_nonneg he.le H.radius_nonneg
  have a6 := mul_nonneg he.le hL
  cases h with
  | empty hc hw hl =>
    subst hc hl
    refine (CC00.empty_leads hw).mono ?_ ?_ ?_ <;> linarith
  | line _ _ _ _ h => refine h.mono ?_ ?_ ?_ <;> linarith
  | @chain _ E F Ds ht hE h0 hF hn h hd =>
    have hT := h.leads SF.epsilon he.le fun x _ => tiny_le x.1 x.2
    have hn' : (ts.length : ℝ) ≤ 3 := by exact_mod_cast hn
    have hn0 : (0:ℝ) ≤ ts.length := Nat.cast_nonneg _
    have a1 : (ts.length : ℝ) * (2 * ccR k s * SF.epsilon + SF.epsilon * totalLength (cs.map seg))
        ≤ 3 * (2 * ccR k s * SF.epsilon + SF.epsilon * totalLength (cs.map seg)) :=
      mul_le_mul_of_nonneg_right hn' (by positivity)
    have a2 : (ts.length : ℝ) * (ccR k s * SF.epsilon) ≤ 3 * (ccR k s * SF.epsilon) :=
      mul_le_mul_of_nonneg_right hn' (by positivity)
    have a3 := mul_le_mul_of_nonneg_left hR he.le
    refine hT.mono ?_ ?_ ?_
    · linarith
    · exact mul_le_mul_of_nonneg_right hn' he.le
    · linarith

theorem HcOk.precise (h : HcOk pm1 pm2 k s k0 k1 ts cs p q len t) (h5 : 5 ≤ t)
    (ht : ∀ x ∈ ts, SF.Circle.deflection x.1 x.2 = 0 ∨ SF.epsilon ≤ SF.Circle.deflection x.1 x.2) :
    Leads (cs.map seg) p q len 0 0 0 := by
  cases h with
  | empty => omega
  | line => omega
  | chain _ _ hE _ _ h =>
    have := h.leads 0 le_rfl fun x hx => by
      unfold tiny
      split_ifs with hlt
      · rcases ht x hx with h0 | h0
        · exact h0.le
        · exact absurd hlt (not_lt.2 h0)
      · exact le_rfl
    rw [hE h5] at this
    exact this.mono (by simp) (by simp) (by simp)

theorem HcOk.ne (h : HcOk pm1 pm2 k s k0 k1 ts cs p q len t) : cs ≠ [] := by
  cases h with
  | empty hc => rw [hc]; simp [SF.empty_controls]
  | line hc => rw [hc]; simp
  | chain _ _ _ _ _ h => exact h.ne

theorem HcOk.limitsUp (h : HcOk pm1 pm2 k s k0 k1 ts cs p q len t) (hk : 0 ≤ k) (hs : 0 ≤ s) {m : ℝ}
    (hm : Slack k s (SF.epsilon * (1 + radiusBound k s)) m) : WithinFactor k s m cs := by
  cases h with
  | empty hc => subst hc; exact line_factor hm.1 hk hs 0
  | line hc => subst hc; exact line_factor hm.1 hk hs _
  | chain _ _ _ _ _ h _ hF => exact h.limitsUp m (hm.mono h.nonneg' hF)

theorem HcOk.limits (h : HcOk pm1 pm2 k s k0 k1 ts cs p q len t) (H : Rng k s)
    (h2 : t = 2 → pm1 = true ∨ pm2 = true) (h3 : t = 3 → pm1 = true ∧ pm2 = true) :
    CurvatureAtMost (k * (1 + 1 / 10 ^ 8)) (cs.map seg) ∧ SharpnessAtMost (s * (1 + 2 / 10 ^ 8)) (cs.map seg) := by
  have hk := H.pos
  have hs := H.sigma
  cases h with
  | empty hc =>
    subst hc
    refine ⟨?_, ?_⟩
    · intro c hc t _ _
      simp only [SF.empty_controls, List.map_cons, List.map_nil, List.mem_singleton, seg] at hc
      subst hc; simp only [zero_mul, add_zero, abs_zero]; positivity
    · intro c hc
      simp only [SF.empty_controls, List.map_cons, List.map_nil, List.mem_singleton, seg] at hc
      subst hc; simp only [abs_zero]; positivity
  | line hc =>
    subst hc
    refine ⟨?_, ?_⟩
    · intro c hc t _ _
      simp only [List.map_cons, List.map_nil, List.mem_singleton, seg] at hc
      subst hc; simp only [zero_mul, add_zero, abs_zero]; positivity
    · intro c hc
      simp only [List.map_cons, List.map_nil, List.mem_singleton, seg] at hc
      subst hc; simp only [abs_zero]; positivity
  | chain _ _ _ hF _ h => exact h.limits (hF h2 h3)

theorem HcOk.basic (h : HcOk pm1 pm2 k s k0 k1 ts cs p q len t) (H : Rng k s) : HcBasic pm1 pm2 t k s ts cs len := by
  refine ⟨h.ne, fun ht => ?_, (h.leads H).length, h.limits H, fun m => h.limitsUp H.pos.le H.sigma.le⟩
  cases h with
  | empty hc hw hl => subst hc hl; simp [SF.empty_controls, seg, totalLength]
  | line hc hx => subst hc; simpa [seg, totalLength] using hx
  | chain _ _ _ _ _ h => exact h.exact ht

theorem Chain.basic {Ds : List PD} {E F : ℝ} (H : Rng k s) (h : Chain k s Ds k0 k1 [] E F cs p q len) (hF : F = 0) :
    HcBasic pm1 pm2 t k s ts cs len := by
  have e := h.exact (by simp)
  have hl := h.limits hF
  refine ⟨h.ne, fun _ => e, ?_, fun _ _ => hl, fun m hm => limits_up hm.1 H.pos.le H.sigma.le hl⟩
  have := H.radius_nonneg
  rw [e, sub_self, abs_zero, SF.epsilon]; positivity

theorem HcOk.hybrid (h : HcOk pm1 pm2 k s k0 k1 ts cs p q len t)
    (hA : t = 2 ∨ t = 3 ∨ t = 4 → SF.epsilon * (1 + radiusBound k s) ≤ ccA k s) (hA0 : 0 ≤ ccA k s) :
    HybridCurvature (cs.map seg) := by
  cases h with
  | empty hc => rw [hc]; simp [SF.empty_controls, seg, HybridCurvature, driven]
  | @line x hc =>
    rw [hc, ← hyb_none, List.map_cons, List.map_nil, Hyb]
    split_ifs
    · trivial
    · simp [Hyb]
  | chain ht hE h0 _ _ h hd =>
    refine h.hybrid ?_ hd
    by_cases h5 : 5 ≤ t
    · rw [h0 h5]; exact hA0
    · exact hE.trans (hA (by omega))

theorem HcOk.ends (h : HcOk pm1 pm2 k s k0 k1 ts cs p q len t) (ht : t ≠ 0) :
    StartsWith k0 (cs.map seg) ∧ EndsWith k1 (cs.map seg) := by
  cases h with
  | empty => exact absurd rfl ht
  | line hc _ h0 h1 => subst hc h0 h1; exact ⟨⟨_, rfl, rfl⟩, _, rfl, by simp [seg]⟩
  | chain _ _ _ _ _ h =>
    refine ⟨?_, ?_⟩
    · rcases hh : cs.head? with _ | c
      · exact absurd (List.head?_eq_none_iff.1 hh) h.ne
      · exact ⟨seg c, by rw [List.head?_map, hh]; rfl, h.head c (by rw [hh]; rfl)⟩
    · rcases hh : cs.getLast? with _ | c
      · exact absurd (List.getLast?_eq_none_iff.1 hh) h.ne
      · exact ⟨seg c, by rw [List.getLast?_map, hh]; rfl, h.last c (by rw [hh]; rfl)⟩

theorem HcOk.representable (h : HcOk pm1 pm2 k s k0 k1 ts cs p q len t) (hk : k > SF.epsilon) (hs : Sharp cs) :
    ∃ k', Representable k' (cs.map seg) ∧ ∀ c ∈ cs.head?, c.kappa = k' := by
  cases h with
  | empty hc => subst hc; exact ⟨0, by simp [SF.empty_controls, seg, Representable], by simp [SF.empty_controls]⟩
  | line hc => subst hc; exact ⟨0, by simp [seg, Representable], by simp⟩
  | chain _ _ _ _ _ h => exact ⟨k0, h.representable hk hs, h.head⟩

/-- The last state of the integrated controls. -/
theorem HcOk.integrate (h : HcOk pm1 pm2 k s k0 k1 ts cs p q len t) (hk : k > SF.epsilon) (hs : Sharp cs)
    {disc : ℝ} (hd : 0 < disc) {s1 s2 : SF.State} {a b : ℝ} (hl : LeadsTo cs s1 s2 a b) :
    ∃ l e, SF.hcIntegrate disc s1 cs = some l ∧ l.getLast? = some e ∧
      Within (a + 2 * pathTol (cs.map seg)) b (pose e) (pose s2) := by
  obtain ⟨k', hr, hh⟩ := h.representable hk hs
  have hne := h.ne
  obtain ⟨e, h1, h2⟩ := hl
  cases cs with
  | nil => exact absurd rfl hne
  | cons c cs =>
    have hk : c.kappa = k' := hh c rfl
    rw [← hk] at hr
    obtain ⟨l, e', q, g1, g2, g3, g4⟩ := C11_hc_integrate_end_near hd s1 c cs hr
    refine ⟨l, e', g1, g2, ?_⟩
    rw [drivesAll_iff.1 h1] at h2
    rw [drivesAll_iff.1 g3] at g4
    exact (g4.within.trans h2).mono (by linarith) (by linarith)

end

namespace HcRs

open SF.HcRs

variable {sp : SF.HCSpace} (H : Rng sp.kappa sp.sigma) {pm1 pm2 : Bool} {c1 c2 : SF.Circle}

/-- The chosen row. -/
theorem chosen (hlt : (circles_rs_path pm1 pm2 sp c1 c2).length < SF.dblMax) :
    (∃ t r, shortcut pm1 pm2 sp (SF.scratch c1 c2) c1 c2 = some (t, r) ∧ circles_rs_path pm1 pm2 sp c1 c2 = ⟨t, r⟩) ∨
    (∃ i, 3 ≤ i ∧ circles_rs_path pm1 pm2 sp c1 c2 = ⟨i, family pm1 pm2 sp (SF.scratch c1 c2) c1 c2 i⟩) := by
  obtain ⟨i, hi⟩ : ∃ i, circles_rs_path pm1 pm2 sp c1 c2 = ⟨i, table pm1 pm2 sp (SF.scratch c1 c2) c1 c2 i⟩ := ⟨_, rfl⟩
  rw [hi] at hlt ⊢
  change (table pm1 pm2 sp (SF.scratch c1 c2) c1 c2 i).length < SF.dblMax at hlt
  have hno : ¬ ({} : SF.RSRow).length < SF.dblMax := lt_irrefl _
  unfold table at hlt ⊢
  rcases hs : shortcut pm1 pm2 sp (SF.scratch c1 c2) c1 c2 with _ | ⟨t, r⟩
  · right
    rw [hs] at hlt
    refine ⟨i, ?_, rfl⟩
    by_contra h
    obtain rfl | rfl | rfl : i = 0 ∨ i = 1 ∨ i = 2 := by omega
    all_goals exact hno hlt
  · left
    rw [hs] at hlt
    by_cases h : i = t
    · subst h
      exact ⟨_, r, rfl, by simp⟩
    · simp only [if_neg h] at hlt
      exact absurd hlt hno

/-- The result for a path. -/
def PathOk (pm1 pm2 : Bool) (sp : SF.HCSpace) (c1 c2 : SF.Circle) (p : RSPath) : Prop :=
  HcOk pm1 pm2 sp.kappa sp.sigma (kEnd pm1 sp.kappa c1)
    (kEnd pm2 sp.kappa (if p.type = 2 ∧ pm1 = true ∧ pm2 = true then c1 else c2)) (p.row.moves.flatMap turns)
    (path_controls p) (cfg c1.start) (cfg c2.start) p.length p.type

include H in
/-- Every path found leads to its end, except a single turn of the wrong sense. -/
theorem found (h1 : EndOk pm1 sp.kappa sp.sigma c1) (h2 : EndOk pm2 sp.kappa sp.sigma c2)
    (hlt : (circles_rs_path pm1 pm2 sp c1 c2).length < SF.dblMax) :
    HcBasic pm1 pm2 (circles_rs_path pm1 pm2 sp c1 c2).type sp.kappa sp.sigma ((circles_rs_path pm1 pm2 sp c1 c2).row.moves.flatMap turns)
      (path_controls (circles_rs_path pm1 pm2 sp c1 c2)) (circles_rs_path pm1 pm2 sp c1 c2).length ∧
    ((pm1 ≠ pm2 ∧ c1.left ≠ c2.left ∧ SF.center_distance c1 c2 < SF.epsilon) ∨
      PathOk pm1 pm2 sp c1 c2 (circles_rs_path pm1 pm2 sp c1 c2)) := by
  have he : (0:ℝ) < SF.epsilon := by norm_num [SF.epsilon]
  have hRle := H.ccR_le
  have hR0 := H.radius_nonneg
  have hkle := H.inv_le
  have hkp : 0 < 1 / sp.kappa := by have := H.pos; positivity
  have eps_le : SF.epsilon ≤ SF.epsilon * (1 + radiusBound sp.kappa sp.sigma) := by
    have := mul_nonneg he.le hR0; linarith
  have simple : ∀ p, PathOk pm1 pm2 sp c1 c2 p →
      HcBasic pm1 pm2 p.type sp.kappa sp.sigma (p.row.moves.flatMap turns) (path_controls p) p.length ∧
      ((pm1 ≠ pm2 ∧ c1.left ≠ c2.left ∧ SF.center_distance c1 c2 < SF.epsilon) ∨ PathOk pm1 pm2 sp c1 c2 p) :=
    fun p h => ⟨HcOk.basic h H, .inr h⟩
  rcases chosen hlt with ⟨t, r, hs, hp⟩ | ⟨i, hi, hp⟩
  · rw [hp]
    unfold shortcut at hs
    by_cases h0 : SF.configuration_equal c1.start c2.start
    · rw [if_pos h0] at hs
      simp only [Option.some.injEq, Prod.mk.injEq] at hs
      obtain ⟨rfl, rfl⟩ := hs
      exact simple _ (.empty rfl (equal_within h0) rfl)
    rw [if_neg h0] at hs
    have hz : ∀ r, pm1 = false → center (SF.circleAt c1.start c1.left c1.forward r sp.param) = center c1 := by
      intro r h; subst h
      exact (center_at H _ _ _ _).trans h1.cc.cen.symm
    have hz' : ∀ r, pm2 = false → center (SF.circleAt c2.start c2.left c2.forward r sp.param) = center c2 := by
      intro r h; subst h
      exact (center_at H _ _ _ _).trans h2.cc.cen.symm
    have hok : ∀ q l f r, CircOk (SF.circleAt q l f r sp.param) sp.kappa sp.sigma :=
      fun q l f r => circOk_at H.kappa H.sigma H.clothoid q l f r
    cases pm1 <;> cases pm2 <;> simp only at hs
    · by_cases e1 : SF.configuration_aligned c1.start c2.start
      · rw [if_pos e1] at hs
        simp only [Option.some.injEq, Prod.mk.injEq] at hs
        obtain ⟨rfl, rfl⟩ := hs
        obtain ⟨ha, hb, _⟩ := aligned_im e1
        rw [abs_sub_comm] at ha
        refine simple _ (.line rfl ?_ rfl rfl ?_)
        · exact (abs_pm_mul (SF.sgn_eq _) (sqrt_nonneg _))
        · have := (straight_leads hb ⟨_, AngleEq.refl _, ha⟩).mono
            (a' := 4 * SF.epsilon * totalLength ((SF.straight_controls c1.start c2.start).map seg)) ?_ le_rfl le_rfl
          · simpa [SF.HcRs.path_controls, RSPath.length, SF.Move.controls] using this
          · rw [straight_length]
            have : 0 ≤ SF.epsilon * SF.configuration_distance c1.start c2.start := mul_nonneg he.le (sqrt_nonneg _)
            linarith
      rw [if_neg e1] at hs
      by_cases e2 : SF.configuration_aligned c2.start c1.start
      · rw [if_pos e2] at hs
        simp only [Option.some.injEq, Prod.mk.injEq] at hs
        obtain ⟨rfl, rfl⟩ := hs
        obtain ⟨ha, _, hb⟩ := aligned_im e2
        have hsym : SF.configuration_distance c2.start c1.start = SF.configuration_distance c1.start c2.start := by
          rw [configuration_distance_eq, configuration_distance_eq, norm_sub_rev]
        rw [hsym] at hb ⊢
        refine simple _ (.line rfl ?_ rfl rfl ?_)
        · exact (abs_pm_mul (SF.sgn_eq _) (sqrt_nonneg _))
        · have := (straight_leads hb ⟨_, AngleEq.refl _, ha⟩).mono
            (a' := 4 * SF.epsilon * totalLength ((SF.straight_controls c1.start c2.start).map seg)) ?_ le_rfl le_rfl
          · simpa [SF.HcRs.path_controls, RSPath.length, SF.Move.controls] using this
          · rw [straight_length]
            linarith
      rw [if_neg e2] at hs
      by_cases e3 : SF.configuration_on_hc_cc_circle c1 c2.start
      · rw [if_pos e3] at hs
        simp only [Option.some.injEq, Prod.mk.injEq] at hs
        obtain ⟨rfl, rfl⟩ := hs
        have hc := on_circle_center h1.cc.ok.geom e3
        have := chain_cc H (q := c2.start) (e := SF.epsilon * (1 + c1.radius))
          (hok c1.start c1.left c1.forward false) (by rw [hz false rfl]; exact hc) true
        rw [direction_to] at this
        refine simple _ (.chain (Ds := [⟨0, sg c1.forward, 0, sg c1.forward, true⟩])
          (E := SF.epsilon * (1 + c1.radius)) (F := SF.epsilon * (1 + c1.radius)) (show 2 ≤ 2 from le_rfl) ?_
          (fun h => absurd h (show ¬ 5 ≤ 2 by decide)) (fun h => absurd (h rfl) (by simp)) (by simp [turns]) ?_ ?_ ?_)
        · rw [h1.cc.ok.geom.ccR]
          exact mul_le_mul_of_nonneg_left (by linarith) he.le
        · simp only [SF.HcRs.path_controls, kEnd, turns, List.flatMap_cons, List.flatMap_nil, List.append_nil, SF.Move.controls]
          exact this
        · simp [HybD]
        · rw [h1.cc.ok.geom.ccR]
          exact mul_le_mul_of_nonneg_left (by linarith) he.le
      · rw [if_neg e3] at hs
        exact absurd hs (by simp)
    · by_cases e1 : (SF.scratch c1 c2).distance < SF.epsilon
      · rw [if_pos e1] at hs
        simp only [Option.some.injEq, Prod.mk.injEq] at hs
        obtain ⟨rfl, rfl⟩ := hs
        obtain ⟨b, hb⟩ := some_last (SF.hc_turn_controls (SF.circleAt c1.start c1.left c1.forward false sp.param) c2.start true)
        have main := fun e he => chain_hc_to H (q := c2.start) (e := e) (b := b) (hok c1.start c1.left c1.forward false) he
          (by intro h; cases h) (fun _ => hb)
        by_cases hlr : c1.left = c2.left
        · refine simple _ (.chain (Ds := [⟨0, sg c1.forward, sg c1.left * sp.kappa, b, false⟩])
          (E := SF.epsilon) (F := 0) (show 2 ≤ 2 from le_rfl) eps_le (fun h => absurd h (show ¬ 5 ≤ 2 by decide))
            (fun _ _ => rfl) (by simp [turns]) ?_ ?_ (he.le.trans eps_le))
          · have := main SF.epsilon (by
              rw [hz false rfl]
              change ‖cen 0 (1 / (sg c1.left * sp.kappa)) (cfg c2.start) - center c1‖ ≤ _
              rw [hlr, ← h2.rs.cen, ← center_distance_eq]; exact e1.le)
            simp only [SF.HcRs.path_controls, kEnd, turns, List.flatMap_cons, List.flatMap_nil, List.append_nil, SF.Move.controls]
            change Chain _ _ _ 0 (sg c2.left * sp.kappa) [] _ _ _ _ _ _
            rw [← hlr]
            exact this
          · simp [HybD]
        · refine ⟨?_, .inl ⟨by simp, hlr, e1⟩⟩
          have := Chain.basic (pm1 := false) (pm2 := true) (t := SF.hc_cc_rs.T) (ts := []) H (main _ le_rfl) rfl
          simpa [SF.HcRs.path_controls, RSPath.length, SF.Move.controls, turns] using this
      · rw [if_neg e1] at hs
        exact absurd hs (by simp)
    · by_cases e1 : (SF.scratch c1 c2).distance < SF.epsilon
      · rw [if_pos e1] at hs
        simp only [Option.some.injEq, Prod.mk.injEq] at hs
        obtain ⟨rfl, rfl⟩ := hs
        obtain ⟨a, ha⟩ := some_head (SF.hc_turn_controls (SF.circleAt c2.start c2.left c2.forward false sp.param) c1.start false)
        have main := fun e he => chain_hc_from H (q := c1.start) (e := e) (a := a) (hok c2.start c2.left c2.forward false) he
          (by intro h; cases h) (fun _ => ha)
        by_cases hlr : c1.left = c2.left
        · refine simple _ (.chain (Ds := [⟨sg c2.left * sp.kappa, a, 0, -sg c2.forward, false⟩])
          (E := SF.epsilon) (F := 0) (show 2 ≤ 2 from le_rfl) eps_le (fun h => absurd h (show ¬ 5 ≤ 2 by decide))
            (fun _ _ => rfl) (by simp [turns]) ?_ ?_ (he.le.trans eps_le))
          · have := main SF.epsilon (by
              rw [hz' false rfl]
              change ‖cen 0 (1 / (sg c2.left * sp.kappa)) (cfg c1.start) - center c2‖ ≤ _
              rw [← hlr, ← h1.rs.cen, norm_sub_rev, ← center_distance_eq]; exact e1.le)
            simp only [SF.HcRs.path_controls, kEnd, turns, List.flatMap_cons, List.flatMap_nil, List.append_nil, SF.Move.controls]
            change Chain _ _ _ (sg c1.left * sp.kappa) 0 [] _ _ _ _ _ _
            rw [hlr]
            exact this
          · simp [HybD]
        · refine ⟨?_, .inl ⟨by simp, hlr, e1⟩⟩
          have := Chain.basic (pm1 := true) (pm2 := false) (t := SF.hc_cc_rs.T) (ts := []) H (main _ le_rfl) rfl
          simpa [SF.HcRs.path_controls, RSPath.length, SF.Move.controls, turns] using this
      · rw [if_neg e1] at hs
        exact absurd hs (by simp)
    · by_cases e3 : SF.configuration_on_hc_cc_circle c1 c2.start
      · rw [if_pos e3] at hs
        simp only [Option.some.injEq, Prod.mk.injEq] at hs
        obtain ⟨rfl, rfl⟩ := hs
        have hc := on_circle_center h1.rs.geom e3
        rw [mul_zero, neg_zero, rs_inv, h1.rs.radius] at hc
        have hr := rsOk_at H.pos c1.start c1.left c1.forward true
        have hcz : center (SF.circleAt c1.start c1.left c1.forward true (SF.rs_circle_param sp.kappa)) = center c1 := by
          rw [hr.cen, h1.rs.cen]; rfl
        have := chain_rs H (q := c2.start) (e := SF.epsilon * (1 + 1 / sp.kappa)) hr rfl (by rw [hcz]; exact hc) true
        rw [direction_to] at this
        refine simple _ (.chain (Ds := [⟨sg c1.left * sp.kappa, sg c1.forward, sg c1.left * sp.kappa, sg c1.forward, true⟩])
          (E := SF.epsilon * (1 + 1 / sp.kappa)) (F := 0) (show 2 ≤ 2 from le_rfl) ?_
          (fun h => absurd h (show ¬ 5 ≤ 2 by decide)) (fun _ _ => rfl) (by simp [turns]) ?_ ?_ (he.le.trans eps_le))
        · exact mul_le_mul_of_nonneg_left (by linarith) he.le
        · simp only [SF.HcRs.path_controls, kEnd, turns, List.flatMap_cons, List.flatMap_nil, List.append_nil, SF.Move.controls]
          exact this
        · simp [HybD]
      · rw [if_neg e3] at hs
        exact absurd hs (by simp)
  · rw [hp] at hlt ⊢
    obtain ⟨⟨Ds, hc, hd⟩, ht⟩ := family_ok H h1 h2 hlt
    have hE : famE i ≤ SF.epsilon := by unfold famE; split_ifs <;> linarith
    have hF : famF pm1 pm2 i ≤ SF.epsilon := by unfold famF; split_ifs <;> linarith
    refine simple _ (.chain (E := famE i) (F := famF pm1 pm2 i) (Ds := Ds) (by simp only; omega) (hE.trans eps_le) ?_ ?_ ht ?_ hd (hF.trans eps_le))
    · intro h5
      simp only at h5
      rw [famE, if_neg (by omega)]
    · intro _ h3
      simp only at h3
      unfold famF
      split_ifs with h <;> simp_all
    · have e0 : path_controls ⟨i, family pm1 pm2 sp (SF.scratch c1 c2) c1 c2 i⟩
          = (family pm1 pm2 sp (SF.scratch c1 c2) c1 c2 i).moves.flatMap SF.Move.controls := by
        unfold path_controls
        exact if_neg (by change ¬ i = 0; omega)
      rw [e0, if_neg (by simp only; omega)]
      exact hc

/-! ### The planners -/

theorem not_skip {pm : Bool} {s : SF.State} {i : ℕ} : ¬ skip pm s i ↔ (pm = true → Toward (i % 2 = 0) s.kappa) := by
  unfold skip Toward
  cases pm
  · simp
  · obtain h | h : i % 2 = 0 ∨ i % 2 = 1 := by omega
    · simp [h]
    · simp [h]

theorem path_some {s1 s2 : SF.State} {n : ℕ} {p : RSPath} :
    path pm1 pm2 sp s1 s2 n = some p ↔ (pm1 = true → Toward (n / 4 % 2 = 0) s1.kappa) ∧
      (pm2 = true → Toward (n % 4 % 2 = 0) s2.kappa) ∧
      p = circles_rs_path pm1 pm2 sp (end_circle pm1 sp s1 (n / 4)) (end_circle pm2 sp s2 (n % 4)) := by
  unfold path
  rw [← not_skip, ← not_skip]
  by_cases h : skip pm1 s1 (n / 4) ∨ skip pm2 s2 (n % 4)
  · rw [if_pos h]
    refine ⟨fun h => absurd h (by simp), fun h' => ?_⟩
    rcases h with h | h
    · exact absurd h h'.1
    · exact absurd h h'.2.1
  · rw [if_neg h, Option.some.injEq, eq_comm]
    push Not at h
    exact ⟨fun e => ⟨h.1, h.2, e⟩, fun e => e.2.2⟩

/-- The selection among sixteen paths. -/
theorem best_spec {s1 s2 : SF.State} {n0 : ℕ} (hn0 : n0 < 16) {p0 : RSPath}
    (h0 : path pm1 pm2 sp s1 s2 n0 = some p0) (hlt : p0.length < SF.dblMax) :
    ∃ n p, n < 16 ∧ path pm1 pm2 sp s1 s2 n = some p ∧ reeds_shepp pm1 pm2 sp s1 s2 = some p ∧
      ∀ m < 16, ∀ p', path pm1 pm2 sp s1 s2 m = some p' → p.length ≤ p'.length := by
  unfold reeds_shepp
  have h := C04_array_index_min (fun n => ((path pm1 pm2 sp s1 s2 n).map RSPath.length).getD SF.dblMax) 16 (by norm_num)
  generalize SF.array_index_min (fun n => ((path pm1 pm2 sp s1 s2 n).map RSPath.length).getD SF.dblMax) 16 = n at h ⊢
  have h1 := h.2.1 n0 hn0
  simp only [h0, Option.map_some, Option.getD_some] at h1
  rcases hp : path pm1 pm2 sp s1 s2 n with _ | p
  · simp only [hp, Option.map_none, Option.getD_none] at h1
    exact absurd hlt (not_lt.2 h1)
  · refine ⟨n, p, h.1, hp, rfl, fun m hm p' hp' => ?_⟩
    have := h.2.1 m hm
    simpa only [hp, hp', Option.map_some, Option.getD_some] using this

include H in
theorem end_ok (pm : Bool) (s : SF.State) (i : ℕ) : EndOk pm sp.kappa sp.sigma (end_circle pm sp s i) := by
  refine ⟨rfl, ?_⟩
  cases pm
  · exact circOk_at H.kappa H.sigma H.clothoid _ _ _ _
  · exact rsOk_at H.pos _ _ _ _

theorem end_cfg (pm : Bool) (s : SF.State) (i : ℕ) : SameConfig (cfg (end_circle pm sp s i).start) (pose s) :=
  ⟨rfl, rfl, SF.twopify_angleEq _⟩

theorem end_kEnd (pm : Bool) (s : SF.State) (i : ℕ) : kEnd pm sp.kappa (end_circle pm sp s i)
    = if pm then sideCurvature sp.kappa (decide (i % 2 = 0)) else 0 := by
  unfold kEnd
  cases pm
  · rfl
  · rw [if_pos rfl, if_pos rfl, sideCurvature_eq]; rfl

include H in
theorem end_dist (pm : Bool) (s : SF.State) (i : ℕ) :
    ‖center (end_circle pm sp s i) - (cfg (end_circle pm sp s i).start).pos‖ = if pm then 1 / sp.kappa else ccR sp.kappa sp.sigma := by
  have h := end_ok H pm s i
  cases pm
  · rw [if_neg (by simp)]; exact CircOk_start_dist h.cc
  · rw [if_pos rfl]; exact h.rs.start_dist H.pos

theorem plan (h : InRange sp.kappa sp.sigma) (s1 s2 : SF.State) (hfar : dist2 s1 s2 ≤ 10 ^ 100) :
    ∃ p l1 l2, reeds_shepp pm1 pm2 sp s1 s2 = some p ∧
      p.length ≤ dist2 s1 s2 + 40 * (sp.kappa / sp.sigma) + 60 / sp.kappa ∧
      (pm1 = true → Toward l1 s1.kappa) ∧ (pm2 = true → Toward l2 s2.kappa) ∧
      HcBasic pm1 pm2 p.type sp.kappa sp.sigma (ccTurns p) (path_controls p) p.length ∧
      (Props.HcRs.Opposed pm1 pm2 sp s1 s2 ∨
        HcOk pm1 pm2 sp.kappa sp.sigma (if pm1 then sideCurvature sp.kappa l1 else 0)
          (if pm2 then sideCurvature sp.kappa (if p.type = 2 ∧ pm1 = true ∧ pm2 = true then l1 else l2) else 0)
          (ccTurns p) (path_controls p) (pose s1) (pose s2) p.length p.type) := by
  have H := h.rng
  have hk := H.pos
  have hki : 0 < 1 / sp.kappa := by positivity
  have hR := ccR_nonneg sp.kappa sp.sigma
  have hTB := TB_nonneg H
  have hb0 := bound_le H
  have side : ∀ s : SF.State, ∃ i < 2, Toward (decide (i % 2 = 0)) s.kappa := by
    intro s
    rcases le_total 0 s.kappa with hk | hk
    · exact ⟨0, by norm_num, by simp [Toward, hk]⟩
    · exact ⟨1, by norm_num, by simp [Toward, hk]⟩
  obtain ⟨i1, i2, hi1, hi2, hT1, hT2, hi⟩ : ∃ i1 i2, i1 < 2 ∧ i2 < 2 ∧ (pm1 = true → Toward (decide (i1 % 2 = 0)) s1.kappa) ∧
      (pm2 = true → Toward (decide (i2 % 2 = 0)) s2.kappa) ∧ (i1 = i2 ∨ pm2 = true) := by
    obtain ⟨i1, hi1, hT1⟩ := side s1
    obtain ⟨i2, hi2, hT2⟩ := side s2
    cases pm2
    · exact ⟨i1, i1, hi1, hi1, fun _ => hT1, fun h => absurd h (by simp), .inl rfl⟩
    · exact ⟨i1, i2, hi1, hi2, fun _ => hT1, fun _ => hT2, .inr rfl⟩
  have hbound : ∀ i j, TB sp.kappa sp.sigma + SF.configuration_distance (end_circle pm1 sp s1 i).start (end_circle pm2 sp s2 j).start
        ≤ dist2 s1 s2 + 40 * (sp.kappa / sp.sigma) + 60 / sp.kappa ∧
      4 * TB sp.kappa sp.sigma + SF.center_distance (end_circle pm1 sp s1 i) (end_circle pm2 sp s2 j)
        ≤ dist2 s1 s2 + 40 * (sp.kappa / sp.sigma) + 60 / sp.kappa := by
    intro i j
    have hd : SF.configuration_distance (end_circle pm1 sp s1 i).start (end_circle pm2 sp s2 j).start = dist2 s1 s2 := rfl
    have hc := (centers_le (end_dist H pm1 s1 i) (end_dist H pm2 s2 j)).1
    rw [hd] at hc ⊢
    have e : ∀ pm : Bool, (if pm then 1 / sp.kappa else ccR sp.kappa sp.sigma) ≤ ccR sp.kappa sp.sigma + 1 / sp.kappa := by
      intro pm; cases pm <;> simp only [Bool.false_eq_true, if_true, if_false] <;> linarith
    have := e pm1
    have := e pm2
    constructor <;> linarith
  obtain ⟨n0, hn0, hp0, hlen0⟩ : ∃ n0 < 16, ((pm1 = true → Toward (n0 / 4 % 2 = 0) s1.kappa) ∧
      (pm2 = true → Toward (n0 % 4 % 2 = 0) s2.kappa)) ∧
      (circles_rs_path pm1 pm2 sp (end_circle pm1 sp s1 (n0 / 4)) (end_circle pm2 sp s2 (n0 % 4))).length
        ≤ dist2 s1 s2 + 40 * (sp.kappa / sp.sigma) + 60 / sp.kappa := by
    have back : (4 * i1 + (2 + i2)) / 4 = i1 ∧ (4 * i1 + (2 + i2)) % 4 = 2 + i2 := by omega
    have ahead : (4 * i1 + i2) / 4 = i1 ∧ (4 * i1 + i2) % 4 = i2 := by omega
    have hT2' : pm2 = true → Toward (decide ((2 + i2) % 2 = 0)) s2.kappa := by
      rw [show (2 + i2) % 2 = i2 % 2 by omega]; exact hT2
    have hf : (end_circle pm2 sp s2 (2 + i2)).forward = !(end_circle pm1 sp s1 i1).forward := by
      change decide (2 + i2 < 2) = !decide (i1 < 2)
      rw [decide_eq_true hi1, decide_eq_false (by omega)]; rfl
    have hll : (end_circle pm1 sp s1 i1).left = decide (i1 % 2 = 0) := rfl
    by_cases hs : i1 = i2
    · refine ⟨4 * i1 + (2 + i2), by omega, ?_, ?_⟩ <;> rw [back.1, back.2]
      · exact ⟨hT1, hT2'⟩
      · refine same_side H ?_ hf (hbound _ _).2 (hbound _ _).1
        change decide ((2 + i2) % 2 = 0) = decide (i1 % 2 = 0)
        rw [show (2 + i2) % 2 = i1 % 2 by omega]
    · by_cases hD : SF.center_distance (end_circle pm1 sp s1 i1) (end_circle pm2 sp s2 i2) ≤ 4 * ccR sp.kappa sp.sigma
      · refine ⟨4 * i1 + i2, by omega, ?_, ?_⟩ <;> rw [ahead.1, ahead.2]
        · exact ⟨hT1, hT2⟩
        · refine other_side_near H (end_ok H _ _ _) ?_ ?_ hD (hbound _ _).2 (hbound _ _).1
          · change decide (i2 % 2 = 0) = !decide (i1 % 2 = 0)
            obtain ⟨rfl, rfl⟩ | ⟨rfl, rfl⟩ : (i1 = 0 ∧ i2 = 1) ∨ (i1 = 1 ∧ i2 = 0) := by omega
            all_goals rfl
          · change decide (i2 < 2) = decide (i1 < 2)
            rw [decide_eq_true hi1, decide_eq_true hi2]
      · have hpm := hi.resolve_left hs
        have hz : center (end_circle pm2 sp s2 i2) = center (end_circle pm2 sp s2 (2 + i2)) := by
          subst hpm
          rw [(end_ok H true s2 i2).rs.cen, (end_ok H true s2 (2 + i2)).rs.cen]
          change cen 0 (1 / (sg (decide (i2 % 2 = 0)) * _)) _ = cen 0 (1 / (sg (decide ((2 + i2) % 2 = 0)) * _)) _
          rw [show (2 + i2) % 2 = i2 % 2 by omega]
          rfl
        rw [center_distance_eq, hz, ← center_distance_eq] at hD
        refine ⟨4 * i1 + (2 + i2), by omega, ?_, ?_⟩ <;> rw [back.1, back.2]
        · exact ⟨hT1, hT2'⟩
        · refine other_side_far H ?_ hf (by linarith) (hbound _ _).2 (hbound _ _).1
          change decide ((2 + i2) % 2 = 0) = !decide (i1 % 2 = 0)
          obtain ⟨rfl, rfl⟩ | ⟨rfl, rfl⟩ : (i1 = 0 ∧ i2 = 1) ∨ (i1 = 1 ∧ i2 = 0) := by omega
          all_goals rfl
  have hlt := hlen0.trans_lt (bound_finite h hfar)
  obtain ⟨n, p, hn, hp, hbest, hmin⟩ := best_spec hn0 (path_some.2 ⟨hp0.1, hp0.2, rfl⟩) hlt
  have hle := hmin n0 hn0 _ (path_some.2 ⟨hp0.1, hp0.2, rfl⟩)
  obtain ⟨hT1', hT2', rfl⟩ := path_some.1 hp
  obtain ⟨hb, hok⟩ := found H (end_ok H pm1 s1 (n / 4)) (end_ok H pm2 s2 (n % 4)) (hle.trans_lt hlt)
  refine ⟨_, _, _, hbest, hle.trans hlen0, hT1', hT2', hb, ?_⟩
  rcases hok with ⟨ho, hl, hd⟩ | hok
  · left
    refine ⟨ho, n / 4, n % 4, by omega, by omega, fun e => hl ?_, hT1', hT2', ?_⟩
    · change decide (n / 4 % 2 = 0) = decide (n % 4 % 2 = 0)
      rw [e]
    · rw [SF.epsilon] at hd; exact hd
  · right
    unfold PathOk at hok
    have e : kEnd pm2 sp.kappa (if (circles_rs_path pm1 pm2 sp (end_circle pm1 sp s1 (n / 4)) (end_circle pm2 sp s2 (n % 4))).type = 2
          ∧ pm1 = true ∧ pm2 = true then end_circle pm1 sp s1 (n / 4) else end_circle pm2 sp s2 (n % 4))
        = if pm2 then sideCurvature sp.kappa
          (if (circles_rs_path pm1 pm2 sp (end_circle pm1 sp s1 (n / 4)) (end_circle pm2 sp s2 (n % 4))).type = 2
            ∧ pm1 = true ∧ pm2 = true then decide (n / 4 % 2 = 0) else decide (n % 4 % 2 = 0)) else 0 := by
      split_ifs with h1 h2 h2
      · obtain ⟨_, rfl, rfl⟩ := h1
        rw [end_kEnd, if_pos rfl]
      · exact absurd h1.2.2 h2
      · rw [end_kEnd, if_pos h2]
      · rw [end_kEnd, if_neg h2]
    rw [end_kEnd, e] at hok
    exact HcOk.congr hok (end_cfg _ _ _) (end_cfg _ _ _)

end HcRs

end Spec
