import Verif.Model.Counter
import Verif.Spec.Counter
import Verif.Spec.Turn
import Verif.Spec.Planner
import Verif.Lemmas.Integrate
import Mathlib.Tactic.Linarith

/-!
# The `int` counters
-/

noncomputable section

namespace Spec.Count

open SF SF.Count Props

/-- The `for` loop without a counter. -/
def pureLoop {α β : Type} (step : α → ℝ → α × β) (disc abs : ℝ) : ℕ → ℝ → α → List β × α
  | 0, _, a => ([], a)
  | n + 1, s, a =>
    let ns := nextStep disc abs s
    let r := step a ns.1
    let t := pureLoop step disc abs n ns.2 r.1
    (r.2 :: t.1, t.2)

theorem pure_plain (ode : State → Control → ℝ → State) (c : Control) (disc abs : ℝ) (n : ℕ) (s : ℝ) (st : State) :
    pureLoop (plainStep ode c) disc abs n s st =
      ((segLoop (fun s h => ode s c h) disc abs n s st).1.map Prod.snd, (segLoop (fun s h => ode s c h) disc abs n s st).2) := by
  induction n generalizing s st with
  | zero => rfl
  | succ n ih =>
    have h := ih (nextStep disc abs s).2 (ode st c (nextStep disc abs s).1)
    simp only [pureLoop, segLoop, List.map_cons]
    rw [show (plainStep ode c st (nextStep disc abs s).1) = (ode st c (nextStep disc abs s).1, ode st c (nextStep disc abs s).1) from rfl]
    simp only
    rw [h]

theorem pure_cov (e : EKF) (ode : State → Control → ℝ → State) (c : Control) (disc abs : ℝ) (n : ℕ) (s : ℝ) (v : CovVars) :
    pureLoop (covStep e ode c) disc abs n s v = covSegLoop e ode c disc abs n s v := by
  induction n generalizing s v with
  | zero => rfl
  | succ n ih => simp only [pureLoop, covSegLoop, covStep, ← ih]

theorem pureLoop_length {α β : Type} (step : α → ℝ → α × β) (disc abs : ℝ) (n : ℕ) (s : ℝ) (a : α) :
    (pureLoop step disc abs n s a).1.length = n := by
  induction n generalizing s a with
  | zero => rfl
  | succ n ih => simp only [pureLoop, List.length_cons, ih]

theorem forLoop_eq {α β : Type} (step : α → ℝ → α × β) (disc abs : ℝ) (n : ℤ) (hn : n ≤ intMax) (m : ℕ) :
    ∀ (i : ℤ), 0 ≤ i → i + m = n → ∀ s a, forLoop step disc abs n i s a = some (pureLoop step disc abs m s a) := by
  induction m with
  | zero =>
    intro i _ hm s a
    rw [forLoop, dif_neg (by simp at hm; omega)]; rfl
  | succ m ih =>
    intro i hi hm s a
    push_cast at hm
    rw [forLoop, dif_pos (by omega)]
    simp only
    rw [if_pos ⟨by unfold intMin; omega, by omega⟩, ih (i + 1) (by omega) (by omega)]
    rfl

theorem ceil_nonneg {disc a : ℝ} (hd : 0 < disc) (ha : 0 ≤ a) : 0 ≤ ⌈a / disc⌉ := Int.ceil_nonneg (div_nonneg ha hd.le)

theorem toInt_cast {n : ℤ} (h0 : 0 ≤ n) : toInt (n : ℝ) = if n ≤ intMax then some n else none := by
  unfold toInt asInt
  rw [if_pos (show (0:ℝ) ≤ (n:ℝ) by exact_mod_cast h0), Int.floor_intCast]
  have : intMin ≤ n := by unfold intMin; omega
  by_cases h : n ≤ intMax
  · rw [if_pos ⟨this, h⟩, if_pos h]
  · rw [if_neg (fun x => h x.2), if_neg h]

theorem segment_eq {α β : Type} (step : α → ℝ → α × β) {disc abs : ℝ} (hd : 0 < disc) (ha : 0 ≤ abs) (h : ⌈abs / disc⌉ ≤ intMax)
    (a : α) : SF.Count.segment step disc abs a = some (pureLoop step disc abs (nSteps disc abs) 0 a) := by
  have h0 := ceil_nonneg hd ha
  unfold SF.Count.segment ceilSteps
  rw [toInt_cast h0, if_pos h, Option.bind_some]
  refine forLoop_eq step disc abs _ h _ 0 le_rfl ?_ _ _
  unfold nSteps
  rw [zero_add, Int.natCast_ceil_eq_ceil (div_nonneg ha hd.le)]

theorem stepsTotal_cons (disc : ℝ) (c : Control) (cs : List Control) :
    stepsTotal disc (c :: cs) = ⌈|c.delta_s| / disc⌉ + stepsTotal disc cs := by simp [stepsTotal]

theorem stepsTotal_nonneg {disc : ℝ} (hd : 0 < disc) (cs : List Control) : 0 ≤ stepsTotal disc cs := by
  induction cs with
  | nil => simp [stepsTotal]
  | cons c cs ih => rw [stepsTotal_cons]; have := ceil_nonneg hd (abs_nonneg c.delta_s); omega

theorem ceil_le_total {disc : ℝ} (hd : 0 < disc) {c : Control} {cs : List Control} (h : c ∈ cs) :
    ⌈|c.delta_s| / disc⌉ ≤ stepsTotal disc cs := by
  induction cs with
  | nil => cases h
  | cons a cs ih =>
    rw [stepsTotal_cons]
    have := ceil_nonneg hd (abs_nonneg a.delta_s)
    have := stepsTotal_nonneg hd cs
    rcases List.mem_cons.1 h with rfl | h
    · omega
    · have := ih h; omega

theorem tally_eq {disc : ℝ} (hd : 0 < disc) (cs : List Control) :
    ∀ n : ℤ, 0 ≤ n → n ≤ intMax → tally disc cs n = if n + stepsTotal disc cs ≤ intMax then some (n + stepsTotal disc cs) else none := by
  induction cs with
  | nil => intro n _ h; simp [tally, stepsTotal, h]
  | cons c cs ih =>
    intro n h0 h1
    have hc := ceil_nonneg hd (abs_nonneg c.delta_s)
    have ht := stepsTotal_nonneg hd cs
    rw [tally, ceilSteps, ← Int.cast_add, toInt_cast (by omega), stepsTotal_cons, ← add_assoc]
    by_cases h : n + ⌈|c.delta_s| / disc⌉ ≤ intMax
    · rw [if_pos h, Option.bind_some, ih _ (by omega) h]
    · rw [if_neg h, Option.bind_none, if_neg (by omega)]

theorem reserve_eq {disc : ℝ} (hd : 0 < disc) {extra : ℤ} (he : 0 ≤ extra) (cs : List Control) :
    reserve disc extra cs = if stepsTotal disc cs + extra ≤ intMax then some (stepsTotal disc cs + extra) else none := by
  have ht := stepsTotal_nonneg hd cs
  rw [reserve, tally_eq hd cs 0 le_rfl (by unfold intMax; norm_num), zero_add]
  by_cases h : stepsTotal disc cs + extra ≤ intMax
  · rw [if_pos (by omega), Option.bind_some, asInt, if_pos ⟨by unfold intMin; omega, h⟩, if_pos h]
  · rw [if_neg h]
    by_cases h' : stepsTotal disc cs ≤ intMax
    · rw [if_pos h', Option.bind_some, asInt, if_neg (fun x => h x.2)]
    · rw [if_neg h', Option.bind_none]

section loops

variable {disc : ℝ} (hd : 0 < disc) {cs : List Control} (hc : ∀ c ∈ cs, ⌈|c.delta_s| / disc⌉ ≤ intMax)

include hd hc

theorem integrateLoop_eq (st : State) : Count.integrateLoop disc cs st = some (SF.integrateLoop disc cs st) := by
  induction cs generalizing st with
  | nil => rfl
  | cons c cs ih =>
    rw [Count.integrateLoop, SF.integrateLoop]
    rw [segment_eq _ hd (abs_nonneg _) (hc c List.mem_cons_self), pure_plain, Option.bind_some,
      ih (fun c h => hc c (List.mem_cons_of_mem _ h))]
    rfl

theorem hcIntegrateLoop_eq (st : State) : Count.hcIntegrateLoop disc cs st = some (SF.hcIntegrateLoop disc cs st) := by
  induction cs generalizing st with
  | nil => rfl
  | cons c cs ih =>
    rw [Count.hcIntegrateLoop, SF.hcIntegrateLoop]
    rw [segment_eq _ hd (abs_nonneg _) (hc c List.mem_cons_self), pure_plain, Option.bind_some,
      ih (fun c h => hc c (List.mem_cons_of_mem _ h))]
    rfl

theorem covLoop_eq (e : EKF) (v : CovVars) : Count.covLoop e disc cs v = some (SF.covLoop e disc cs v) := by
  induction cs generalizing v with
  | nil => rfl
  | cons c cs ih =>
    rw [Count.covLoop, SF.covLoop]
    simp only
    rw [segment_eq _ hd (abs_nonneg _) (hc c List.mem_cons_self), pure_cov, Option.bind_some,
      ih (fun c h => hc c (List.mem_cons_of_mem _ h))]
    rfl

theorem hcCovLoop_eq (e : EKF) (v : CovVars) : Count.hcCovLoop e disc cs v = some (SF.hcCovLoop e disc cs v) := by
  induction cs generalizing v with
  | nil => rfl
  | cons c cs ih =>
    rw [Count.hcCovLoop, SF.hcCovLoop]
    simp only
    rw [segment_eq _ hd (abs_nonneg _) (hc c List.mem_cons_self), pure_cov, Option.bind_some,
      ih (fun c h => hc c (List.mem_cons_of_mem _ h))]
    rfl

theorem interpolateLoop_eq {s_inter : ℝ} (s : ℝ) (hs : s ≤ s_inter) (st : State) :
    Count.interpolateLoop disc s_inter cs s st = some (SF.interpolateLoop disc s_inter cs s st) := by
  induction cs generalizing s st with
  | nil => rfl
  | cons c cs ih =>
    have h1 := hc c List.mem_cons_self
    rw [Count.interpolateLoop, SF.interpolateLoop]
    simp only
    by_cases h : s + |c.delta_s| > s_inter
    · rw [if_pos h, if_pos h, segment_eq _ hd (by linarith) ?_, pure_plain]
      · rfl
      · refine le_trans (Int.ceil_mono ?_) h1
        rw [div_le_div_iff_of_pos_right hd]; linarith
    · rw [if_neg h, if_neg h, segment_eq _ hd (abs_nonneg _) h1, pure_plain, Option.bind_some,
        ih (fun c h => hc c (List.mem_cons_of_mem _ h)) _ (not_lt.1 h)]

theorem hcInterpolateLoop_eq {s_inter : ℝ} (s : ℝ) (hs : s ≤ s_inter) (st : State) :
    Count.hcInterpolateLoop disc s_inter cs s st = some (SF.hcInterpolateLoop disc s_inter cs s st) := by
  induction cs generalizing s st with
  | nil => rfl
  | cons c cs ih =>
    have h1 := hc c List.mem_cons_self
    rw [Count.hcInterpolateLoop, SF.hcInterpolateLoop]
    simp only
    by_cases h : s + |c.delta_s| > s_inter
    · rw [if_pos h, if_pos h, segment_eq _ hd (by linarith) ?_, pure_plain]
      · rfl
      · refine le_trans (Int.ceil_mono ?_) h1
        rw [div_le_div_iff_of_pos_right hd]; linarith
    · rw [if_neg h, if_neg h, segment_eq _ hd (abs_nonneg _) h1, pure_plain, Option.bind_some,
        ih (fun c h => hc c (List.mem_cons_of_mem _ h)) _ (not_lt.1 h)]

end loops

theorem segLoop_length (ode : State → ℝ → State) (disc a : ℝ) (n : ℕ) (s : ℝ) (st : State) :
    (segLoop ode disc a n s st).1.length = n := by
  induction n generalizing s st with
  | zero => rfl
  | succ n ih => simp only [segLoop, List.length_cons, ih]

theorem nSteps_cast {disc a : ℝ} (hd : 0 < disc) (ha : 0 ≤ a) : ((nSteps disc a : ℕ) : ℤ) = ⌈a / disc⌉ := by
  unfold nSteps
  rw [Int.natCast_ceil_eq_ceil (div_nonneg ha hd.le)]

theorem integrateLoop_length {disc : ℝ} (hd : 0 < disc) (cs : List Control) (st : State) :
    ((SF.integrateLoop disc cs st).length : ℤ) = stepsTotal disc cs + cs.length := by
  induction cs generalizing st with
  | nil => simp [SF.integrateLoop, stepsTotal]
  | cons c cs ih =>
    rw [SF.integrateLoop, stepsTotal_cons]
    simp only [List.cons_append, List.length_cons, List.length_append, List.length_map, segLoop_length]
    push_cast
    rw [ih, nSteps_cast hd (abs_nonneg _)]
    ring

theorem stepsTotal_le {disc : ℝ} (cs : List Control) :
    (stepsTotal disc cs : ℝ) ≤ (cs.map fun c => |c.delta_s|).sum / disc + cs.length := by
  induction cs with
  | nil => simp [stepsTotal]
  | cons c cs ih =>
    rw [stepsTotal_cons]
    push_cast [List.map_cons, List.sum_cons, List.length_cons]
    have := Int.ceil_lt_add_one (|c.delta_s| / disc)
    rw [add_div]
    linarith

theorem stepsTotal_ge {disc : ℝ} (cs : List Control) :
    (cs.map fun c => |c.delta_s|).sum / disc ≤ stepsTotal disc cs := by
  induction cs with
  | nil => simp [stepsTotal]
  | cons c cs ih =>
    rw [stepsTotal_cons]
    push_cast [List.map_cons, List.sum_cons]
    have := Int.le_ceil (|c.delta_s| / disc)
    rw [add_div]
    linarith

theorem hcIntegrateLoop_length_le {disc : ℝ} (hd : 0 < disc) (cs : List Control) (st : State) :
    ((SF.hcIntegrateLoop disc cs st).length : ℤ) ≤ stepsTotal disc cs + cs.length := by
  induction cs generalizing st with
  | nil => simp [SF.hcIntegrateLoop, stepsTotal]
  | cons c cs ih =>
    rw [SF.hcIntegrateLoop, stepsTotal_cons]
    simp only [List.length_append, List.length_map, segLoop_length, List.length_cons]
    push_cast
    have h1 := nSteps_cast hd (abs_nonneg c.delta_s)
    have h2 : ∀ st' : State, ((SF.hcIntegrateLoop disc cs st').length : ℤ) ≤ stepsTotal disc cs + cs.length := ih
    have h3 : ∀ (p : Prop) [Decidable p] (x : State), ((if p then [x] else []).length : ℤ) ≤ 1 := by
      intro p _ x; split_ifs <;> simp
    rw [h1]
    linarith [h2 (segLoop (fun s h => hc_integrate_ODE s c h) disc |c.delta_s| (nSteps disc |c.delta_s|) 0
        (if |c.kappa - st.kappa| > epsilon then { st with kappa := c.kappa, d := sgn c.delta_s } else st)).2,
      h3 (|c.kappa - st.kappa| > epsilon)
        (if |c.kappa - st.kappa| > epsilon then { st with kappa := c.kappa, d := sgn c.delta_s } else st)]

theorem hcIntegrateLoop_length_cons {disc : ℝ} (hd : 0 < disc) (c : Control) (cs : List Control) (st : State) (h : st.kappa = c.kappa) :
    ((SF.hcIntegrateLoop disc (c :: cs) st).length : ℤ) ≤ stepsTotal disc (c :: cs) + cs.length := by
  have hn : ¬ |c.kappa - st.kappa| > epsilon := by rw [h, sub_self, abs_zero]; norm_num [epsilon]
  rw [SF.hcIntegrateLoop, stepsTotal_cons]
  simp only [if_neg hn]
  simp only [List.nil_append, List.length_append, List.length_map, segLoop_length]
  push_cast
  rw [nSteps_cast hd (abs_nonneg _)]
  linarith [hcIntegrateLoop_length_le hd cs
    (segLoop (fun s h => hc_integrate_ODE s c h) disc |c.delta_s| (nSteps disc |c.delta_s|) 0 st).2]

theorem ode_kappa {c : Control} (h : c.sigma = 0 ∨ |c.sigma| > 1 / 10000) (st : State) (x : ℝ) :
    (hc_integrate_ODE st c x).kappa = st.kappa + c.sigma * x := by
  unfold hc_integrate_ODE
  simp only
  rcases h with h | h
  · rw [if_neg (by rw [h]; norm_num [epsilon]), h]
    split_ifs <;> simp
  · rw [if_pos (show |c.sigma| > epsilon by unfold epsilon; exact h)]
    rfl

theorem segLoop_kappa {c : Control} (h : c.sigma = 0 ∨ |c.sigma| > 1 / 10000) (disc a : ℝ) (n : ℕ) (s : ℝ) (st : State) :
    (segLoop (fun s h => hc_integrate_ODE s c h) disc a n s st).2.kappa =
      st.kappa + c.sigma * ((segLoop (fun s h => hc_integrate_ODE s c h) disc a n s st).1.map Prod.fst).sum := by
  induction n generalizing s st with
  | zero => simp [segLoop]
  | succ n ih =>
    simp only [segLoop, List.map_cons, List.sum_cons]
    rw [ih, ode_kappa h]
    ring

theorem end_kappa {c : Control} (h : c.sigma = 0 ∨ |c.sigma| > 1 / 10000) {disc : ℝ} (hd : 0 < disc) (st : State) :
    (segLoop (fun s h => hc_integrate_ODE s c h) disc |c.delta_s| (nSteps disc |c.delta_s|) 0 st).2.kappa =
      st.kappa + c.sigma * |c.delta_s| := by
  rw [segLoop_kappa h]
  by_cases h0 : nSteps disc |c.delta_s| = 0
  · have : |c.delta_s| = 0 := by
      have h1 := nSteps_cast hd (abs_nonneg c.delta_s)
      rw [h0] at h1
      have h2 := Int.le_ceil (|c.delta_s| / disc)
      rw [← h1] at h2
      have h3 : |c.delta_s| / disc ≤ 0 := by simpa using h2
      have := (div_le_iff₀ hd).1 h3
      exact le_antisymm (by linarith) (abs_nonneg _)
    rw [h0, this]
    simp [segLoop]
  · have := segLoop_sum (ode := fun s h => hc_integrate_ODE s c h) (a := |c.delta_s|) hd (nSteps disc |c.delta_s|) 0 st (by simp)
      (Or.inl (Nat.pos_of_ne_zero h0))
    simp only [Nat.cast_zero, zero_mul, sub_zero] at this
    rw [this]

theorem hcIntegrateLoop_length {disc : ℝ} (hd : 0 < disc) {k' : ℝ} (cs : List Control)
    (hs : ∀ c ∈ cs, c.sigma = 0 ∨ |c.sigma| > 1 / 10000) (st : State) (hc : CurvatureContinuous st.kappa (cs.map seg) k') :
    ((SF.hcIntegrateLoop disc cs st).length : ℤ) = stepsTotal disc cs := by
  induction cs generalizing st with
  | nil => simp [SF.hcIntegrateLoop, stepsTotal]
  | cons c cs ih =>
    obtain ⟨h1, h2⟩ := hc
    have h1' : c.kappa = st.kappa := h1
    have hn : ¬ |c.kappa - st.kappa| > epsilon := by rw [h1', sub_self, abs_zero]; norm_num [epsilon]
    rw [SF.hcIntegrateLoop, stepsTotal_cons]
    simp only [if_neg hn]
    simp only [List.nil_append, List.length_append, List.length_map, segLoop_length]
    push_cast
    rw [nSteps_cast hd (abs_nonneg _), ih (fun c h => hs c (List.mem_cons_of_mem _ h))]
    rw [end_kappa (hs c List.mem_cons_self) hd, ← h1']
    exact h2

theorem lengthOf_eq (cs : List Control) : lengthOf cs = (cs.map fun c => |c.delta_s|).sum := by
  unfold lengthOf totalLength
  rw [List.map_map]; rfl

theorem fits {disc L : ℝ} (hd : 0 < disc) {cs : List Control} {n : ℕ} (hn : cs.length ≤ n) (hl : lengthOf cs ≤ L) (extra : ℤ)
    (h : L / disc + n + extra ≤ (intMax : ℝ)) : stepsTotal disc cs + extra ≤ intMax := by
  have h1 := stepsTotal_le (disc := disc) cs
  rw [← lengthOf_eq] at h1
  have h2 : lengthOf cs / disc ≤ L / disc := (div_le_div_iff_of_pos_right hd).2 hl
  have h3 : (cs.length : ℝ) ≤ n := by exact_mod_cast hn
  have : ((stepsTotal disc cs + extra : ℤ) : ℝ) ≤ (intMax : ℝ) := by push_cast; linarith
  exact_mod_cast this

end Spec.Count
