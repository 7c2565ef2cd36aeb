import Verif.Lemmas.RSReverse

/-!
# A goal straight ahead of the Reeds-Shepp car
-/

noncomputable section

namespace SF

open Real Spec Props

/-- A path that no accepted statement beats is kept. -/
theorem rsTry_keep {off : ℝ} (cs : List RSCand) (p : RSPath)
    (h : ∀ c ∈ cs, c.ok → p.length - off ≤ c.L) : (cs.foldl rsTry (p, p.length - off)).1 = p := by
  induction cs with
  | nil => rfl
  | cons c cs ih =>
    have : rsTry (p, p.length - off) c = (p, p.length - off) := by
      unfold rsTry
      rw [if_neg]
      rintro ⟨h1, h2⟩
      exact absurd h2 (not_lt.2 (h c List.mem_cons_self h1))
    rw [List.foldl_cons, this]
    exact ih fun c' h' => h c' (List.mem_cons_of_mem _ h')

/-- For a goal straight ahead the first statement (`LpSpLp`) is accepted and kept. -/
theorem reeds_shepp_ahead {d : ℝ} (hd : 0 < d) (hd2 : d < dblMax) :
    reeds_shepp d 0 0 = ⟨reeds_shepp_path_type 14, 0, d, 0, 0, 0⟩ := by
  have hz := RS_ZERO_pos
  have hp : polar d 0 = (d, 0) := by
    have := polar_angle (x := d) (y := 0) (r := d) (t := 0) hd (by simp) (by simp)
    ext
    · exact this.1
    · exact Complex.arg_ofReal_of_nonneg hd.le
  have hp0 : pify 0 = 0 := by
    have := abs_pify_le_abs (AngleEq.refl 0)
    rw [abs_zero] at this
    exact abs_nonpos_iff.1 this
  have hw : LpSpLp d 0 0 = ⟨(0:ℝ) ≥ -RS_ZERO ∧ (0:ℝ) ≥ -RS_ZERO, 0, d, 0⟩ := by
    simp [LpSpLp, hp, hp0]
  obtain ⟨p0, hp0'⟩ : ∃ p : RSPath, p = ⟨reeds_shepp_path_type 14, 0, d, 0, 0, 0⟩ := ⟨_, rfl⟩
  have hl : p0.length = d := by rw [hp0']; simp [RSPath.length, abs_of_pos hd]
  -- no accepted statement is shorter
  have hall : ∀ c ∈ rsCands d 0 0, c.ok → d ≤ c.path.length := by
    intro c hc ok
    obtain ⟨h1, h2⟩ := rsCands_sound hc
    have hpar : (RSSpace.mk 1 1).params ⟨0, 0, 0, 0, 0⟩ ⟨d, 0, 0, 0, 0⟩ = (d, 0, 0) := by
      simp [RSSpace.params]
    have hh := h1 ok
    have hr := (reaches_iff_hits (sp := ⟨1, 1⟩) one_pos (unitW_rsWordOf _) ⟨0, 0, 0, 0, 0⟩ ⟨d, 0, 0, 0, 0⟩).2
      (by rw [hpar]; exact hh)
    obtain ⟨r, r1, r2⟩ := hr
    have hch := r1.chord
    rw [r2.1, r2.2.1, totalLength_wordSegs one_pos] at hch
    simp only [pose, sub_zero, one_div, inv_one, one_mul] at hch
    rw [h2]
    refine le_trans ?_ hch
    rw [show d ^ 2 + 0 ^ 2 = d ^ 2 by ring, sqrt_sq hd.le]
  have hc0 : cand3 (LpSpLp d 0 0) 14 1 = ⟨(0:ℝ) ≥ -RS_ZERO ∧ (0:ℝ) ≥ -RS_ZERO, d, p0⟩ := by
    rw [hw, hp0']; simp [cand3, abs_of_pos hd]
  have e1 : rsCSC d 0 0 RSPath.default = p0 := by
    have hdef : RSPath.default.length = dblMax := by
      have : (0:ℝ) ≤ dblMax := le_trans (by positivity) dblMax_large.le
      simp [RSPath.default, RSPath.length, abs_of_nonneg this]
    have hmem := fun c (hc : c ∈ candsCSC d 0 0) ok => hall c (by unfold rsCands; simp only [List.mem_append]; tauto) ok
    have hsound := fun c (hc : c ∈ candsCSC d 0 0) => (candsCSC_sound c hc).2.1
    unfold rsCSC
    unfold candsCSC at hmem hsound ⊢
    rw [List.foldl_cons, hc0]
    have : rsTry (RSPath.default, RSPath.default.length) ⟨(0:ℝ) ≥ -RS_ZERO ∧ (0:ℝ) ≥ -RS_ZERO, d, p0⟩ = (p0, p0.length - 0) := by
      unfold rsTry
      rw [if_pos ⟨⟨by linarith, by linarith⟩, by rw [hdef]; exact hd2⟩, hl, sub_zero]
    rw [this]
    apply rsTry_keep
    intro c hc ok
    have h1 := hmem c (List.mem_cons_of_mem _ hc) ok
    have h2 := hsound c (List.mem_cons_of_mem _ hc)
    linarith
  have keep : ∀ (cs : List RSCand) (off : ℝ), (∀ c ∈ cs, c ∈ rsCands d 0 0) → (∀ c ∈ cs, c.path.length = c.L + off) →
      (cs.foldl rsTry (p0, p0.length - off)).1 = p0 := by
    intro cs off h1 h2
    apply rsTry_keep
    intro c hc ok
    have := hall c (h1 c hc) ok
    have := h2 c hc
    linarith
  have m : ∀ c, c ∈ rsCands d 0 0 ↔ ((((c ∈ candsCSC d 0 0 ∨ c ∈ candsCCC d 0 0) ∨ c ∈ candsCCCC d 0 0) ∨
      c ∈ candsCCSC d 0 0) ∨ c ∈ candsCCSCC d 0 0) := by
    intro c; unfold rsCands; simp only [List.mem_append]
  have e2 : rsCCC d 0 0 p0 = p0 := by
    have := keep (candsCCC d 0 0) 0 (fun c hc => (m c).2 (by tauto)) (fun c h => (candsCCC_sound c h).2.1)
    rw [sub_zero] at this; exact this
  have e3 : rsCCCC d 0 0 p0 = p0 := by
    have := keep (candsCCCC d 0 0) 0 (fun c hc => (m c).2 (by tauto)) (fun c h => (candsCCCC_sound c h).2.1)
    rw [sub_zero] at this; exact this
  have e4 : rsCCSC d 0 0 p0 = p0 :=
    keep (candsCCSC d 0 0) (0.5 * π) (fun c hc => (m c).2 (by tauto)) (fun c h => (candsCCSC_sound c h).2.1)
  have e5 : rsCCSCC d 0 0 p0 = p0 :=
    keep (candsCCSCC d 0 0) π (fun c hc => (m c).2 (by tauto)) (fun c h => (candsCCSCC_sound c h).2.1)
  unfold reeds_shepp
  simp only
  rw [e1, e2, e3, e4, e5, hp0']

end SF
