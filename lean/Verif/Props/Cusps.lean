import Verif.Props.Replan
import Verif.Props.CcDubins
import Verif.Props.CcDubinsPm
import Verif.Props.CcDubinsAll

/-!
# How often a path changes its driving direction: C129
-/

noncomputable section

namespace Props

open SF Spec Real

/-- The path is made of at most `n + 1` pieces, and in each of them no segment runs against the direction of the piece by more than
`tol`. With `tol = 0`: the driving direction changes at most `n` times (an empty segment has no direction). -/
def AtMostCusps (n : ℕ) (tol : ℝ) (cs : List Segment) : Prop :=
  ∃ pieces : List (List Segment), pieces.length ≤ n + 1 ∧ pieces.flatten = cs ∧
    ∀ p ∈ pieces, ∃ s, IsSign s ∧ ∀ c ∈ p, -tol ≤ s * c.len

theorem rs_zero_nonneg : 0 ≤ RS_ZERO := by unfold RS_ZERO; positivity

/-- The same for the words of the Reeds-Shepp planner. -/
def WordCusps (ws : List (ℝ × ℝ)) : Prop :=
  ∃ pieces : List (List (ℝ × ℝ)), pieces.length ≤ 3 ∧ pieces.flatten = ws ∧
    ∀ p ∈ pieces, ∃ s, IsSign s ∧ ∀ w ∈ p, -RS_ZERO ≤ s * w.2

theorem single_word (w : ℝ × ℝ) : ∃ s, IsSign s ∧ ∀ x ∈ [w], -RS_ZERO ≤ s * x.2 := by
  have h0 := rs_zero_nonneg
  rcases le_total 0 w.2 with h | h
  · exact ⟨1, Or.inl rfl, fun x hx => by obtain rfl : x = w := by simpa using hx
                                         linarith⟩
  · exact ⟨-1, Or.inr rfl, fun x hx => by obtain rfl : x = w := by simpa using hx
                                          linarith⟩

theorem sign_neg {s : ℝ} (h : IsSign s) : IsSign (-s) := by
  rcases h with rfl | rfl
  · exact Or.inr rfl
  · left; ring

theorem sign_sq {s : ℝ} (h : IsSign s) (a : ℝ) : s * (s * a) = a := by rcases h with rfl | rfl <;> ring

theorem words_three (a b c : ℝ × ℝ) : WordCusps [a, b, c] :=
  ⟨[[a], [b], [c]], by simp, rfl, fun p hp => by
    simp only [List.mem_cons, List.not_mem_nil, or_false] at hp
    rcases hp with rfl | rfl | rfl <;> exact single_word _⟩

theorem words_cccc_in {a b c d s t u v : ℝ} (hs : IsSign s) (ht : -RS_ZERO ≤ t) (hu : 0 ≤ u) (hv : v ≤ RS_ZERO) :
    WordCusps [(a, s * t), (b, s * u), (c, -(s * u)), (d, s * v)] := by
  have h0 := rs_zero_nonneg
  refine ⟨[[(a, s * t), (b, s * u)], [(c, -(s * u)), (d, s * v)]], by simp, rfl, fun p hp => ?_⟩
  have q := sign_sq hs t
  have q1 := sign_sq hs u
  have q2 := sign_sq hs v
  simp only [List.mem_cons, List.not_mem_nil, or_false] at hp
  rcases hp with rfl | rfl
  · refine ⟨s, hs, fun w hw => ?_⟩
    simp only [List.mem_cons, List.not_mem_nil, or_false] at hw
    rcases hw with rfl | rfl <;> simp only <;> linarith
  · refine ⟨-s, sign_neg hs, fun w hw => ?_⟩
    simp only [List.mem_cons, List.not_mem_nil, or_false] at hw
    rcases hw with rfl | rfl <;> simp only <;> linarith

theorem words_cccc_out {a b c d s t u v : ℝ} (hs : IsSign s) (hu : u ≤ 0) :
    WordCusps [(a, s * t), (b, s * u), (c, s * u), (d, s * v)] := by
  have h0 := rs_zero_nonneg
  refine ⟨[[(a, s * t)], [(b, s * u), (c, s * u)], [(d, s * v)]], by simp, rfl, fun p hp => ?_⟩
  have q1 := sign_sq hs u
  simp only [List.mem_cons, List.not_mem_nil, or_false] at hp
  rcases hp with rfl | rfl | rfl
  · exact single_word _
  · refine ⟨-s, sign_neg hs, fun w hw => ?_⟩
    simp only [List.mem_cons, List.not_mem_nil, or_false] at hw
    rcases hw with rfl | rfl <;> simp only <;> linarith
  · exact single_word _

theorem words_ccsc {a b c d s t u v : ℝ} (hs : IsSign s) (hu : u ≤ RS_ZERO) (hv : v ≤ RS_ZERO) :
    WordCusps [(a, s * t), (b, -(s * (0.5 * π))), (c, s * u), (d, s * v)] ∧
    WordCusps [(d, s * v), (c, s * u), (b, -(s * (0.5 * π))), (a, s * t)] := by
  have h0 := rs_zero_nonneg
  have hpi := pi_pos
  have q := sign_sq hs (0.5 * π)
  have q1 := sign_sq hs u
  have q2 := sign_sq hs v
  constructor
  · refine ⟨[[(a, s * t)], [(b, -(s * (0.5 * π))), (c, s * u), (d, s * v)]], by simp, rfl, fun p hp => ?_⟩
    simp only [List.mem_cons, List.not_mem_nil, or_false] at hp
    rcases hp with rfl | rfl
    · exact single_word _
    · refine ⟨-s, sign_neg hs, fun w hw => ?_⟩
      simp only [List.mem_cons, List.not_mem_nil, or_false] at hw
      rcases hw with rfl | rfl | rfl <;> simp only <;> linarith
  · refine ⟨[[(d, s * v), (c, s * u), (b, -(s * (0.5 * π)))], [(a, s * t)]], by simp, rfl, fun p hp => ?_⟩
    simp only [List.mem_cons, List.not_mem_nil, or_false] at hp
    rcases hp with rfl | rfl
    · refine ⟨-s, sign_neg hs, fun w hw => ?_⟩
      simp only [List.mem_cons, List.not_mem_nil, or_false] at hw
      rcases hw with rfl | rfl | rfl <;> simp only <;> linarith
    · exact single_word _

theorem words_ccscc {a b c d e s t u v : ℝ} (hs : IsSign s) (hu : u ≤ RS_ZERO) :
    WordCusps [(a, s * t), (b, -(s * (0.5 * π))), (c, s * u), (d, -(s * (0.5 * π))), (e, s * v)] := by
  have h0 := rs_zero_nonneg
  have hpi := pi_pos
  have q := sign_sq hs (0.5 * π)
  have q1 := sign_sq hs u
  refine ⟨[[(a, s * t)], [(b, -(s * (0.5 * π))), (c, s * u), (d, -(s * (0.5 * π)))], [(e, s * v)]], by simp, rfl, fun p hp => ?_⟩
  simp only [List.mem_cons, List.not_mem_nil, or_false] at hp
  rcases hp with rfl | rfl | rfl
  · exact single_word _
  · refine ⟨-s, sign_neg hs, fun w hw => ?_⟩
    simp only [List.mem_cons, List.not_mem_nil, or_false] at hw
    rcases hw with rfl | rfl | rfl <;> simp only <;> linarith
  · exact single_word _

theorem cand_cusps {x y phi : ℝ} {c : RSCand} (hc : c ∈ rsCands x y phi) (ok : c.ok) : WordCusps c.path.word := by
  have p1 : IsSign 1 := Or.inl rfl
  have m1 : IsSign (-1) := Or.inr rfl
  unfold rsCands at hc
  simp only [List.mem_append] at hc
  rcases hc with (((hc | hc) | hc) | hc) | hc
  · simp only [candsCSC, List.mem_cons, List.not_mem_nil, or_false] at hc
    rcases hc with rfl | rfl | rfl | rfl | rfl | rfl | rfl | rfl <;> exact words_three _ _ _
  · simp only [candsCCC, List.mem_cons, List.not_mem_nil, or_false] at hc
    rcases hc with rfl | rfl | rfl | rfl | rfl | rfl | rfl | rfl <;> exact words_three _ _ _
  · simp only [candsCCCC, List.mem_cons, List.not_mem_nil, or_false] at hc
    rcases hc with rfl | rfl | rfl | rfl | rfl | rfl | rfl | rfl
    · exact words_cccc_in p1 ok.2.1 (LpRupLumRm_u _ _ _).1 ok.2.2
    · exact words_cccc_in m1 ok.2.1 (LpRupLumRm_u _ _ _).1 ok.2.2
    · exact words_cccc_in p1 ok.2.1 (LpRupLumRm_u _ _ _).1 ok.2.2
    · exact words_cccc_in m1 ok.2.1 (LpRupLumRm_u _ _ _).1 ok.2.2
    · exact words_cccc_out p1 (LpRumLumRp_u ok).1
    · exact words_cccc_out m1 (LpRumLumRp_u ok).1
    · exact words_cccc_out p1 (LpRumLumRp_u ok).1
    · exact words_cccc_out m1 (LpRumLumRp_u ok).1
  · simp only [candsCCSC, List.mem_cons, List.not_mem_nil, or_false] at hc
    rcases hc with rfl | rfl | rfl | rfl | rfl | rfl | rfl | rfl | rfl | rfl | rfl | rfl | rfl |
      rfl | rfl | rfl
    · exact (words_ccsc p1 ok.2.2.1 ok.2.2.2).1
    · exact (words_ccsc m1 ok.2.2.1 ok.2.2.2).1
    · exact (words_ccsc p1 ok.2.2.1 ok.2.2.2).1
    · exact (words_ccsc m1 ok.2.2.1 ok.2.2.2).1
    · exact (words_ccsc p1 ok.2.2.1 ok.2.2.2).1
    · exact (words_ccsc m1 ok.2.2.1 ok.2.2.2).1
    · exact (words_ccsc p1 ok.2.2.1 ok.2.2.2).1
    · exact (words_ccsc m1 ok.2.2.1 ok.2.2.2).1
    · exact (words_ccsc p1 ok.2.2.1 ok.2.2.2).2
    · exact (words_ccsc m1 ok.2.2.1 ok.2.2.2).2
    · exact (words_ccsc p1 ok.2.2.1 ok.2.2.2).2
    · exact (words_ccsc m1 ok.2.2.1 ok.2.2.2).2
    · exact (words_ccsc p1 ok.2.2.1 ok.2.2.2).2
    · exact (words_ccsc m1 ok.2.2.1 ok.2.2.2).2
    · exact (words_ccsc p1 ok.2.2.1 ok.2.2.2).2
    · exact (words_ccsc m1 ok.2.2.1 ok.2.2.2).2
  · simp only [candsCCSCC, List.mem_cons, List.not_mem_nil, or_false] at hc
    rcases hc with rfl | rfl | rfl | rfl
    · exact words_ccscc p1 ok.2.1
    · exact words_ccscc m1 ok.2.1
    · exact words_ccscc p1 ok.2.1
    · exact words_ccscc m1 ok.2.1

theorem cusps_of_words {k : ℝ} (hk : 0 < k) {ws : List (ℝ × ℝ)} (h : WordCusps ws) :
    AtMostCusps 2 (RS_ZERO / k) (wordSegs k ws) := by
  obtain ⟨ps, hl, rfl, hp⟩ := h
  refine ⟨ps.map (wordSegs k), by simpa using hl, ?_, fun p hpm => ?_⟩
  · unfold wordSegs; rw [List.map_flatten]
  · obtain ⟨q, hq, rfl⟩ := List.mem_map.1 hpm
    obtain ⟨s, hs, hall⟩ := hp q hq
    refine ⟨s, hs, fun c hc => ?_⟩
    obtain ⟨w, hw, rfl⟩ := List.mem_map.1 hc
    have := hall w hw
    rw [← neg_div, ← mul_div_assoc]
    exact div_le_div_of_nonneg_right this hk.le

/-- **C129, Reeds-Shepp.** Every plan changes its driving direction at most twice, up to segments shorter than ten machine epsilons
of the turning radius. -/
theorem C129_rs_cusps {sp : RSSpace} (hv : sp.Valid) (s1 s2 : State) (hfar : sp.kappa * dist2 s1 s2 ≤ 10 ^ 200) :
    AtMostCusps 2 (10 / 2 ^ 52 / sp.kappa) ((sp.get_controls s1 s2).map seg) := by
  have hk := hv.1
  obtain ⟨⟨cand, hcand, ok, hpath⟩, -⟩ := rs_core hk hfar
  have e : (sp.get_controls s1 s2).map seg = wordSegs sp.kappa cand.path.word := by
    unfold RSSpace.get_controls
    rw [loop_seg, hpath]; rfl
  rw [e, show (10:ℝ) / 2 ^ 52 = RS_ZERO by unfold RS_ZERO; norm_num]
  exact cusps_of_words hk (cand_cusps hcand ok)

/-- **C129, Reeds-Shepp, exact.** If every segment is empty or longer than ten machine epsilons of the turning radius, the driving
direction changes at most twice. -/
theorem C129_rs_cusps_exact {sp : RSSpace} (hv : sp.Valid) (s1 s2 : State) (hfar : sp.kappa * dist2 s1 s2 ≤ 10 ^ 200)
    (hcl : ∀ c ∈ sp.get_controls s1 s2, c.delta_s = 0 ∨ 10 / 2 ^ 52 < sp.kappa * |c.delta_s|) :
    AtMostCusps 2 0 ((sp.get_controls s1 s2).map seg) := by
  have hk := hv.1
  obtain ⟨ps, hl, hf, hp⟩ := C129_rs_cusps hv s1 s2 hfar
  refine ⟨ps, hl, hf, fun p hpm => ?_⟩
  obtain ⟨s, hs, hall⟩ := hp p hpm
  refine ⟨s, hs, fun c hc => ?_⟩
  have hm : c ∈ (sp.get_controls s1 s2).map seg := by rw [← hf]; exact List.mem_flatten.2 ⟨p, hpm, hc⟩
  obtain ⟨c', h', rfl⟩ := List.mem_map.1 hm
  have h1 := hall _ hc
  have e1 : (seg c').len = c'.delta_s := rfl
  rw [e1] at h1 ⊢
  rcases hcl c' h' with h | h
  · rw [h]; simp
  · rw [neg_zero]
    by_contra hneg
    push Not at hneg
    have ha : |c'.delta_s| = -(s * c'.delta_s) := by rw [← abs_of_neg hneg, abs_sign_mul hs]
    rw [ha] at h
    have : 10 / 2 ^ 52 / sp.kappa < -(s * c'.delta_s) := by
      rw [div_lt_iff₀ hk]; linarith
    linarith

/-- Parking half a radius to the side meets the hypotheses. (For the exact form see the goal five radii ahead in `Replan.lean`.) -/
example : (⟨1, 0.1⟩ : RSSpace).Valid ∧ (1 : ℝ) * dist2 ⟨0, 0, 0, 0, 0⟩ ⟨0, 1 / 2, 0, 0, 0⟩ ≤ 10 ^ 200 := by
  refine ⟨⟨one_pos, by norm_num⟩, ?_⟩
  unfold dist2
  rw [one_mul]
  apply sqrt_le_iff.2
  constructor <;> norm_num

/-- Three segments of alternating direction have two cusps, not one: the measure is not trivially met. -/
theorem cusps_alternating {a b c : Segment} (ha : 0 < a.len) (hb : b.len < 0) (hc : 0 < c.len) :
    AtMostCusps 2 0 [a, b, c] ∧ ¬ AtMostCusps 1 0 [a, b, c] := by
  constructor
  · refine ⟨[[a], [b], [c]], by simp, rfl, fun p hp => ?_⟩
    simp only [List.mem_cons, List.not_mem_nil, or_false] at hp
    rcases hp with rfl | rfl | rfl
    · exact ⟨1, Or.inl rfl, by simpa using ha.le⟩
    · exact ⟨-1, Or.inr rfl, by simpa using hb.le⟩
    · exact ⟨1, Or.inl rfl, by simpa using hc.le⟩
  · rintro ⟨ps, hl, hf, hp⟩
    have key : ∀ p ∈ ps, ∀ x y : Segment, x ∈ p → y ∈ p → 0 < x.len → y.len < 0 → False := by
      intro p hpm x y hx hy h1 h2
      obtain ⟨s, hs, h⟩ := hp p hpm
      have h3 := h x hx
      have h4 := h y hy
      rcases hs with rfl | rfl <;> linarith
    match ps, hl, hf, key with
    | [], _, hf, _ => simp at hf
    | [p], _, hf, key =>
      obtain rfl : p = [a, b, c] := by simpa using hf
      exact key [a, b, c] (by simp) a b (by simp) (by simp) ha hb
    | [[], q], _, hf, key =>
      obtain rfl : q = [a, b, c] := by simpa using hf
      exact key [a, b, c] (by simp) a b (by simp) (by simp) ha hb
    | [[x], q], _, hf, key =>
      obtain ⟨rfl, rfl⟩ : x = a ∧ q = [b, c] := by simpa using hf
      exact key [b, c] (by simp) c b (by simp) (by simp) hc hb
    | [x :: y :: r, q], _, hf, key =>
      obtain ⟨rfl, rfl, -⟩ : x = a ∧ y = b ∧ r ++ q = [c] := by simpa using hf
      exact key _ (List.mem_cons_self) x y (by simp) (by simp) ha hb
    | _ :: _ :: _ :: _, hl, _, _ => simp at hl

end Props
