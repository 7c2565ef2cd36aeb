import Verif.Lemmas.OptimalOk
import Mathlib.Analysis.Calculus.MeanValue
import Mathlib.Topology.Order.IntermediateValue

/-!
# Forward paths with any number of pieces, and any curve of bounded curvature, against the Dubins words
-/

noncomputable section

namespace Spec

open SF Real Filter Topology Set

/-- A Dubins word of length at most `L` leads from `p` to `q`. -/
def Beat (p q : Config) (L : ℝ) : Prop := ∃ ws, DW ws ∧ SameConfig (uEnd ws p) q ∧ wordLen ws ≤ L

theorem Fwd.beat {ws : List (ℝ × ℝ)} {L : ℝ} (h : Fwd ws L) (p : Config) : Beat p (uEnd ws p) L := by
  obtain ⟨w, h1, h2, h3⟩ := h
  obtain ⟨k1, k2, k3⟩ := h2 _ _ _ ⟨rfl, rfl, AngleEq.refl _⟩
  refine ⟨w, h1, ?_, h3⟩
  rw [uEnd_from w p, uEnd_from ws p]
  refine ⟨?_, ?_, ?_⟩
  · simp only; rw [k1, k2]
  · simp only; rw [k1, k2]
  · exact k3.add_left _

theorem Beat.fwd {ws : List (ℝ × ℝ)} {p : Config} {L : ℝ} (h : Beat p (uEnd ws p) L) : Fwd ws L := by
  obtain ⟨w, h1, ⟨k1, k2, k3⟩, h3⟩ := h
  exact ⟨w, h1, SameEnd.of p k1.symm k2.symm k3.symm, h3⟩

/-! ### The set of ends of the Dubins words is closed -/

/-- Place, direction and bound of the length. -/
def mark (c : Config) (L : ℝ) : ℝ × ℝ × ℝ × ℝ × ℝ := (c.x, c.y, cos c.theta, sin c.theta, L)

/-- All that the Dubins words from `p` reach, up to length `B`. -/
def reach (p : Config) (B : ℝ) : Set (ℝ × ℝ × ℝ × ℝ × ℝ) :=
  {v | ∃ ws L, DW ws ∧ wordLen ws ≤ L ∧ L ≤ B ∧ v = mark (uEnd ws p) L}

/-- Three lengths and a bound of their sum; the middle one from `lo` to `hi`. -/
def kind (lo hi B : ℝ) : Set (ℝ × ℝ × ℝ × ℝ) :=
  {w | 0 ≤ w.1 ∧ lo ≤ w.2.1 ∧ w.2.1 ≤ hi ∧ 0 ≤ w.2.2.1 ∧ w.1 + w.2.1 + w.2.2.1 ≤ w.2.2.2 ∧ w.2.2.2 ≤ B}

theorem kind_compact {lo : ℝ} (hlo : 0 ≤ lo) (hi B : ℝ) : IsCompact (kind lo hi B) := by
  apply IsCompact.of_isClosed_subset (isCompact_Icc (a := ((0, 0, 0, 0) : ℝ × ℝ × ℝ × ℝ)) (b := (B, B, B, B)))
  · unfold kind
    refine IsClosed.and (isClosed_le (by fun_prop) (by fun_prop)) ?_
    refine IsClosed.and (isClosed_le (by fun_prop) (by fun_prop)) ?_
    refine IsClosed.and (isClosed_le (by fun_prop) (by fun_prop)) ?_
    refine IsClosed.and (isClosed_le (by fun_prop) (by fun_prop)) ?_
    exact IsClosed.and (isClosed_le (by fun_prop) (by fun_prop)) (isClosed_le (by fun_prop) (by fun_prop))
  · rintro ⟨t, p, q, L⟩ ⟨h1, h2, h3, h4, h5, h6⟩
    simp only at h1 h2 h3 h4 h5 h6
    simp only [mem_Icc, Prod.mk_le_mk]
    refine ⟨⟨?_, ?_, ?_, ?_⟩, ?_, ?_, ?_, ?_⟩ <;> linarith

theorem mark_continuous (e f g : ℝ) (c : Config) :
    Continuous fun w : ℝ × ℝ × ℝ × ℝ => mark (uEnd [(e, w.1), (f, w.2.1), (g, w.2.2.1)] c) w.2.2.2 := by
  simp only [mark, uEnd, uStep]
  fun_prop

theorem reach_eq (c : Config) (B : ℝ) : reach c B =
    ⋃ e ∈ ({1, -1} : Set ℝ), ((⋃ f ∈ ({1, -1} : Set ℝ),
      (fun w : ℝ × ℝ × ℝ × ℝ => mark (uEnd [(e, w.1), (0, w.2.1), (f, w.2.2.1)] c) w.2.2.2) '' kind 0 B B) ∪
      (fun w : ℝ × ℝ × ℝ × ℝ => mark (uEnd [(e, w.1), (-e, w.2.1), (e, w.2.2.1)] c) w.2.2.2) '' kind π (2 * π) B) := by
  ext v
  simp only [mem_iUnion, mem_union, mem_image, exists_prop, mem_insert_iff, mem_singleton_iff]
  constructor
  · rintro ⟨ws, L, h, hL, hB, rfl⟩
    cases h with
    | @csc e f t p q he hf ht hp hq =>
      rw [wordLen3 ht hp hq] at hL
      exact ⟨e, he, Or.inl ⟨f, hf, (t, p, q, L), ⟨ht, hp, by simp only; linarith, hq, hL, hB⟩, rfl⟩⟩
    | @ccc e t p q he ht hp hp2 hq =>
      rw [wordLen3 ht (by linarith [pi_pos]) hq] at hL
      exact ⟨e, he, Or.inr ⟨(t, p, q, L), ⟨ht, hp, hp2, hq, hL, hB⟩, rfl⟩⟩
  · rintro ⟨e, he, ⟨f, hf, ⟨t, p, q, L⟩, ⟨h1, h2, h3, h4, h5, h6⟩, rfl⟩ | ⟨⟨t, p, q, L⟩, ⟨h1, h2, h3, h4, h5, h6⟩, rfl⟩⟩
    · simp only at h1 h2 h3 h4 h5 h6
      exact ⟨_, L, DW.csc he hf h1 h2 h4, by rw [wordLen3 h1 h2 h4]; exact h5, h6, rfl⟩
    · simp only at h1 h2 h3 h4 h5 h6
      exact ⟨_, L, DW.ccc he h1 h2 h3 h4, by rw [wordLen3 h1 (by linarith [pi_pos]) h4]; exact h5, h6, rfl⟩

theorem reach_closed (c : Config) (B : ℝ) : IsClosed (reach c B) := by
  rw [reach_eq]
  apply IsCompact.isClosed
  apply (Set.toFinite _).isCompact_biUnion
  intro e _
  apply IsCompact.union
  · apply (Set.toFinite _).isCompact_biUnion
    intro f _
    exact (kind_compact le_rfl _ _).image (mark_continuous _ _ _ _)
  · exact (kind_compact pi_pos.le _ _).image (mark_continuous _ _ _ _)

theorem beat_iff (p q : Config) {L B : ℝ} (hB : L ≤ B) : Beat p q L ↔ mark q L ∈ reach p B := by
  constructor
  · rintro ⟨ws, h1, ⟨h2, h3, h4⟩, h5⟩
    exact ⟨ws, L, h1, h5, hB, by simp only [mark]; rw [h2, h3, h4.cos_eq, h4.sin_eq]⟩
  · rintro ⟨ws, L', h1, h2, h3, h4⟩
    simp only [mark, Prod.mk.injEq] at h4
    obtain ⟨k1, k2, k3, k4, rfl⟩ := h4
    exact ⟨ws, h1, ⟨k1.symm, k2.symm, angleEq_iff.2 (Real.Angle.cos_sin_inj k3.symm k4.symm)⟩, h2⟩

/-! ### One more piece of any length -/

theorem uStep_join {g : ℝ} (hg : g = 0 ∨ IsSign g) (q r : ℝ) (c : Config) :
    uStep g r (uStep g q c) = uStep g (q + r) c := by
  rcases hg with rfl | rfl | rfl
  · simp only [uStep, Config.mk.injEq]
    refine ⟨?_, ?_, ?_⟩
    · simp; ring
    · simp; ring
    · ring
  all_goals
    simp only [uStep, Config.mk.injEq]
    norm_num
    refine ⟨?_, ?_, ?_⟩ <;> ring_nf

theorem Fwd.piece {ws : List (ℝ × ℝ)} {L : ℝ} (h : Fwd ws L) {u : ℝ} (hu : u = 0 ∨ IsSign u) {s : ℝ} (hs : 0 ≤ s) :
    Fwd (ws ++ [(u, s)]) (L + s) := by
  obtain ⟨A, hA⟩ : ∃ A : Set ℝ, A = {r | Fwd (ws ++ [(u, r)]) (L + r)} := ⟨_, rfl⟩
  have h0 : (0:ℝ) ∈ A := by
    rw [hA]
    refine h.via ?_ (by linarith)
    apply SameEnd.of ⟨0, 0, 0⟩
    all_goals rw [uEnd_append]; simp [uEnd, uStep]
    exact AngleEq.refl _
  have hcl : IsClosed (A ∩ Icc 0 s) := by
    have e : A ∩ Icc 0 s = (fun r => mark (uEnd (ws ++ [(u, r)]) ⟨0, 0, 0⟩) (L + r)) ⁻¹' reach ⟨0, 0, 0⟩ (L + s) ∩ Icc 0 s := by
      ext r
      simp only [mem_inter_iff, mem_preimage, hA, mem_ofPred_eq]
      refine and_congr_left fun hr => ?_
      rw [← beat_iff _ _ (by linarith [hr.2])]
      exact ⟨fun k => k.beat _, fun k => k.fwd⟩
    rw [e]
    refine IsClosed.inter ((reach_closed _ _).preimage ?_) isClosed_Icc
    simp only [mark, uEnd_append, uEnd, uStep]
    fun_prop
  have hstep : ∀ x ∈ A ∩ Ico 0 s, A ∈ 𝓝[>] x := by
    rintro x ⟨hx, hx0, -⟩
    rw [hA] at hx
    obtain ⟨w, w1, w2, w3⟩ := hx
    obtain ⟨v, v1, v2, v3⟩ := w1.nrm
    have hu' : u = 0 ∨ u = 1 ∨ u = -1 := hu
    have hok := v1.ok hu'
    have ht : Tendsto (fun y => y - x) (𝓝[>] x) (𝓝[>] 0) := by
      apply tendsto_nhdsWithin_of_tendsto_nhds_of_eventually_within
      · have : Tendsto (fun y : ℝ => y - x) (𝓝 x) (𝓝 (x - x)) := (continuous_id.sub continuous_const).tendsto x
        rw [sub_self] at this
        exact this.mono_left nhdsWithin_le_nhds
      · filter_upwards [self_mem_nhdsWithin] with y hy
        have hy' : x < y := hy
        exact sub_pos.2 hy'
    filter_upwards [ht.eventually hok] with y hy
    rw [hA]
    refine hy.via ?_ (by linarith : wordLen v + (y - x) ≤ L + y)
    refine SameEnd.trans ?_ ((w2.trans v2).append _)
    apply SameEnd.of ⟨0, 0, 0⟩
    all_goals
      simp only [uEnd_append, uEnd]
      rw [uStep_join hu, add_sub_cancel]
  have := IsClosed.Icc_subset_of_forall_mem_nhdsWithin hcl h0 hstep (right_mem_Icc.2 hs)
  rwa [hA] at this

/-- A forward path of unit curvature is no shorter than some Dubins word with the same ends. -/
theorem fwd_append {vs : List (ℝ × ℝ)} (hv : UnitW vs) (h0 : ∀ w ∈ vs, 0 ≤ w.2) : ∀ {ws : List (ℝ × ℝ)} {L : ℝ}, Fwd ws L →
    Fwd (ws ++ vs) (L + wordLen vs) := by
  induction vs with
  | nil => intro ws L h; simpa [wordLen] using h
  | cons w vs ih =>
    intro ws L h
    have hw := h0 w (by simp)
    have h1 := ih (fun w' hw' => hv w' (by simp [hw'])) (fun w' hw' => h0 w' (by simp [hw'])) (h.piece (hv w (by simp)) hw)
    have e : L + wordLen (w :: vs) = L + w.2 + wordLen vs := by
      simp only [wordLen, List.map_cons, List.sum_cons, abs_of_nonneg hw]; ring
    rw [e]
    simpa using h1

theorem fwd_all {vs : List (ℝ × ℝ)} (hv : UnitW vs) (h0 : ∀ w ∈ vs, 0 ≤ w.2) : Fwd vs (wordLen vs) := by
  have hn : Fwd [] 0 := by
    refine Fwd.csc (e := 1) (f := 1) (t := 0) (p := 0) (q := 0) one_sign one_sign le_rfl le_rfl le_rfl ?_ (by simp)
    apply SameEnd.of ⟨0, 0, 0⟩ <;> simp [uEnd, uStep]
    exact AngleEq.refl _
  simpa using fwd_append hv h0 hn

end Spec
