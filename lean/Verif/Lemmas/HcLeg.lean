import Verif.Lemmas.HcTangent
import Verif.Lemmas.Hybrid
import Verif.Lemmas.Planned

/-!
# Chains of pieces with hybrid curvature
-/

noncomputable section

namespace Spec

open Real Props
open CC00 (CircOk cc_turn_ne_nil circOk_at)

/-- The curvatures at the ends of pieces. -/
def Level (k x : ℝ) : Prop := x = 0 ∨ x = k ∨ x = -k

theorem level_zero (k : ℝ) : Level k 0 := .inl rfl

theorem level_side (k : ℝ) (l : Bool) : Level k (sg l * k) := by
  cases l <;> simp [sg, Level]

theorem Level.jump {k x y : ℝ} (hk : k > SF.epsilon) (hx : Level k x) (hy : Level k y) :
    x = y ∨ |x - y| > 1 / 10000 := by
  rw [SF.epsilon] at hk
  have h0 : (0:ℝ) < k := by linarith
  rcases hx with rfl | rfl | rfl <;> rcases hy with rfl | rfl | rfl <;> simp
  all_goals right
  all_goals first
    | (rw [abs_of_pos h0]; linarith)
    | (rw [abs_of_pos (by linarith)]; linarith)
    | (rw [abs_of_neg (by linarith)]; linarith)

/-- Controls `cs` made of the pieces `Ds`, leading from `p` to `q`; `ts` are the CC turns among them, `E` is the sum of the
errors of the centres and `F` that of the CC turns only. -/
structure Chain (k s : ℝ) (Ds : List PD) (k0 k1 : ℝ) (ts : List (SF.Circle × SF.Configuration)) (E F : ℝ)
    (cs : List SF.Control) (p q : Config) (len : ℝ) : Prop where
  nonneg : 0 ≤ E
  nonneg' : 0 ≤ F
  leads : ∀ tau, 0 ≤ tau → (∀ x ∈ ts, tiny x.1 x.2 ≤ tau) →
    Leads (cs.map seg) p q len (2 * E + ts.length * (2 * ccR k s * tau + tau * totalLength (cs.map seg)))
      (ts.length * tau) (E + ts.length * (ccR k s * tau))
  limitsUp : ∀ m, Slack k s F m → CurvatureAtMost (m * (k * (1 + 1 / 10 ^ 8))) (cs.map seg) ∧
    SharpnessAtMost (m ^ 2 * (s * (1 + 2 / 10 ^ 8))) (cs.map seg)
  flat : ∀ c ∈ cs, c.sigma = 0 → c.kappa = 0 ∨ |c.kappa| > SF.epsilon
  exact : (∀ x ∈ ts, SF.epsilon ≤ SF.Circle.deflection x.1 x.2) → totalLength (cs.map seg) = len
  ne : cs ≠ []
  head : ∀ c ∈ cs.head?, c.kappa = k0
  last : ∀ c ∈ cs.getLast?, c.kappa + c.sigma * |c.delta_s| = k1
  lv0 : Level k k0
  lv1 : Level k k1
  rep : k > SF.epsilon → Sharp cs → ∀ rest x, (k0 = x ∨ |k0 - x| > 1 / 10000) → Representable k1 rest →
    Representable x (cs.map seg ++ rest)
  hyb : E ≤ ccA k s → ∀ Ds' rest, (∀ st st', Same st st' → HybD st Ds' → Hyb st' rest) →
    ∀ st st', Same st st' → HybD st (Ds ++ Ds') → Hyb st' (cs.map seg ++ rest)

section
variable {k s k0 k1 k2 k3 E E' F F' len len' : ℝ} {Ds Ds' : List PD}
  {ts ts' : List (SF.Circle × SF.Configuration)} {cs ds : List SF.Control} {p q r p' q' : Config}

theorem Chain.limits (h : Chain k s Ds k0 k1 ts E F cs p q len) (h0 : F = 0) :
    CurvatureAtMost (k * (1 + 1 / 10 ^ 8)) (cs.map seg) ∧ SharpnessAtMost (s * (1 + 2 / 10 ^ 8)) (cs.map seg) := by
  have := h.limitsUp 1 ⟨le_rfl, .inl h0⟩
  simpa only [one_pow, one_mul] using this

theorem Chain.append (h : Chain k s Ds k0 k1 ts E F cs p q len) (h' : Chain k s Ds' k2 k3 ts' E' F' ds q r len') :
    Chain k s (Ds ++ Ds') k0 k3 (ts ++ ts') (E + E') (F + F') (cs ++ ds) p r (len + len') where
  nonneg := add_nonneg h.nonneg h'.nonneg
  nonneg' := add_nonneg h.nonneg' h'.nonneg'
  leads tau ht hb := by
    have l := h.leads tau ht fun x hx => hb x (List.mem_append_left _ hx)
    have l' := h'.leads tau ht fun x hx => hb x (List.mem_append_right _ hx)
    rw [List.map_append, totalLength_append, List.length_append]
    have l1 := mul_nonneg (Nat.cast_nonneg (α := ℝ) ts'.length) (mul_nonneg ht (totalLength_nonneg (cs.map seg)))
    refine (l.append l').mono ?_ ?_ ?_ <;> push_cast <;> linarith
  limitsUp m hm := by
    have e1 := h.limitsUp m (hm.mono h.nonneg' (by linarith [h'.nonneg']))
    have e2 := h'.limitsUp m (hm.mono h'.nonneg' (by linarith [h.nonneg']))
    rw [List.map_append]
    exact ⟨e1.1.append e2.1, e1.2.append e2.2⟩
  flat c hc := (List.mem_append.1 hc).elim (h.flat c) (h'.flat c)
  exact hb := by
    rw [List.map_append, totalLength_append, h.exact fun x hx => hb x (List.mem_append_left _ hx),
      h'.exact fun x hx => hb x (List.mem_append_right _ hx)]
  ne := by simp [h.ne]
  head c hc := by
    rw [List.head?_append_of_ne_nil _ h.ne] at hc
    exact h.head c hc
  last c hc := by
    rw [List.getLast?_append_of_ne_nil _ h'.ne] at hc
    exact h'.last c hc
  lv0 := h.lv0
  lv1 := h'.lv1
  rep hk hs rest x hx hr := by
    rw [List.map_append, List.append_assoc]
    refine h.rep hk (fun c hc => hs c (List.mem_append_left _ hc)) _ x hx ?_
    exact h'.rep hk (fun c hc => hs c (List.mem_append_right _ hc)) _ _ (h'.lv0.jump hk h.lv1) hr
  hyb hE Ds'' rest hr st st' hs hd := by
    rw [List.map_append, List.append_assoc]
    have := h.nonneg
    have := h'.nonneg
    rw [List.append_assoc] at hd
    exact h.hyb (by linarith) _ _ (h'.hyb (by linarith) _ _ hr) st st' hs hd

theorem Chain.mono (h : Chain k s Ds k0 k1 ts E F cs p q len) (hE : E ≤ E') (hF : F ≤ F') :
    Chain k s Ds k0 k1 ts E' F' cs p q len where
  nonneg := h.nonneg.trans hE
  nonneg' := h.nonneg'.trans hF
  leads tau ht hb := (h.leads tau ht hb).mono (by linarith) le_rfl (by linarith)
  limitsUp m hm := h.limitsUp m (hm.mono h.nonneg' hF)
  flat := h.flat
  exact := h.exact
  ne := h.ne
  head := h.head
  last := h.last
  lv0 := h.lv0
  lv1 := h.lv1
  rep := h.rep
  hyb hE' := h.hyb (hE.trans hE')

theorem Chain.congr (h : Chain k s Ds k0 k1 ts E F cs p q len) (hp : SameConfig p p')
    (hq : SameConfig q q') : Chain k s Ds k0 k1 ts E F cs p' q' len :=
  { h with leads := fun tau ht hb => (h.leads tau ht hb).congr hp hq }

/-- The result of a complete chain. -/
theorem Chain.hybrid (h : Chain k s Ds k0 k1 ts E F cs p q len) (hE : E ≤ ccA k s) (hd : HybD none Ds) :
    HybridCurvature (cs.map seg) := by
  have := h.hyb hE [] [] (fun _ _ _ _ => trivial) none none trivial (by rwa [List.append_nil])
  rw [List.append_nil] at this
  exact hyb_none.1 this

theorem Chain.representable (h : Chain k s Ds k0 k1 ts E F cs p q len) (hk : k > SF.epsilon) (hs : Sharp cs) :
    Representable k0 (cs.map seg) := by
  have := h.rep hk hs [] k0 (.inl rfl) trivial
  rwa [List.append_nil] at this

theorem head_of_cont (h : CurvatureContinuous k0 (cs.map seg) k1) : ∀ c ∈ cs.head?, c.kappa = k0 := by
  intro c hc
  cases cs with
  | nil => simp at hc
  | cons a as =>
    obtain rfl : a = c := by simpa using hc
    exact h.1

theorem last_of_cont (h : CurvatureContinuous k0 (cs.map seg) k1) :
    ∀ c ∈ cs.getLast?, c.kappa + c.sigma * |c.delta_s| = k1 := by
  intro c hc
  induction cs generalizing k0 with
  | nil => simp at hc
  | cons a as ih =>
    cases as with
    | nil =>
      obtain rfl : a = c := by simpa using hc
      exact h.2
    | cons b bs => exact ih h.2 (by rwa [List.getLast?_cons_cons] at hc)

theorem rep_of_cont (h : CurvatureContinuous k0 (cs.map seg) k1) (hs : Sharp cs)
    (hf : ∀ c ∈ cs, c.sigma = 0 → c.kappa = 0 ∨ |c.kappa| > SF.epsilon) {rest : List Segment} {x : ℝ}
    (hx : k0 = x ∨ |k0 - x| > 1 / 10000) (hr : Representable k1 rest) (hne : cs ≠ []) :
    Representable x (cs.map seg ++ rest) := by
  induction cs generalizing k0 x with
  | nil => exact absurd rfl hne
  | cons c cs ih =>
    have hx' : c.kappa = x ∨ |c.kappa - x| > 1 / 10000 := by rw [show c.kappa = k0 from h.1]; exact hx
    refine ⟨?_, hx', ?_⟩
    · rcases hs c List.mem_cons_self with h0 | h0
      · exact .inr ⟨h0, hf c List.mem_cons_self h0⟩
      · exact .inl h0
    · cases cs with
      | nil =>
        have := h.2
        rw [List.map_nil, CurvatureContinuous] at this
        rw [this]; exact hr
      | cons b bs =>
        exact ih h.2 (fun c hc => hs c (List.mem_cons_of_mem _ hc)) (fun c hc => hf c (List.mem_cons_of_mem _ hc))
          (.inl rfl) (by simp)

/-- A piece of continuous curvature. -/
theorem Leg.chain (h : Leg k s k0 k1 ts E cs p q len) {a b : ℝ} {mz : Bool} (l0 : Level k k0) (l1 : Level k k1)
    (hF0 : 0 ≤ F) (hF : ∀ m, Slack k s F m → CurvatureAtMost (m * (k * (1 + 1 / 10 ^ 8))) (cs.map seg) ∧
      SharpnessAtMost (m ^ 2 * (s * (1 + 2 / 10 ^ 8))) (cs.map seg))
    (hw : E ≤ ccA k s → (∀ x ∈ (driven (cs.map seg)).head?, 0 < a * x.len) ∧
      (∀ x ∈ (driven (cs.map seg)).getLast?, 0 < b * x.len) ∧ (mz = false → driven (cs.map seg) ≠ [])) :
    Chain k s [⟨k0, a, k1, b, mz⟩] k0 k1 ts E F cs p q len := by
  have T := h.track SF.epsilon (by norm_num [SF.epsilon]) fun x _ => tiny_le x.1 x.2
  refine ⟨h.nonneg, hF0, fun tau ht hb => (h.track tau ht hb).leads, hF, T.flat, h.exact, h.ne,
    head_of_cont T.cont, last_of_cont T.cont, l0, l1, fun hk hs rest x hx hr => rep_of_cont T.cont hs T.flat hx hr h.ne, ?_⟩
  intro hE Ds' rest hr st st' hs hd
  obtain ⟨w1, w2, w3⟩ := hw hE
  exact hybD_piece (D := ⟨k0, a, k1, b, mz⟩) T.cont w1 w2 w3 hr hs hd

end

end Spec
