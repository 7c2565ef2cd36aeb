import Verif.Lemmas.RSPeriod
import Verif.Lemmas.RSCut

/-!
# The answer of the Reeds-Shepp planner is a Reeds-Shepp path
-/

noncomputable section

namespace SF

open Real Spec Props

/-- Every piece of the word is empty or longer than the tolerance, every turn is at most half a turn. -/
def Clear (ws : List (ℝ × ℝ)) : Prop := ∀ w ∈ ws, (w.2 = 0 ∨ RS_ZERO < |w.2|) ∧ (w.1 ≠ 0 → |w.2| ≤ π)

theorem clear_nonneg {t : ℝ} (h : t = 0 ∨ RS_ZERO < |t|) (h1 : -RS_ZERO ≤ t) : 0 ≤ t := by
  rcases h with h | h
  · exact h.ge
  · by_contra hc
    rw [abs_of_neg (not_le.1 hc)] at h
    linarith

theorem clear_nonpos {t : ℝ} (h : t = 0 ∨ RS_ZERO < |t|) (h1 : t ≤ RS_ZERO) : 0 ≤ -t :=
  clear_nonneg (by rw [neg_eq_zero, abs_neg]; exact h) (by linarith)

theorem abs_sign_mul {s t : ℝ} (hs : IsSign s) : |s * t| = |t| := by rcases hs with rfl | rfl <;> simp

theorem sign_mul_zero {s t : ℝ} (hs : IsSign s) : s * t = 0 ↔ t = 0 := by rcases hs with rfl | rfl <;> simp

theorem clear_sign {s t : ℝ} (hs : IsSign s) (h : s * t = 0 ∨ RS_ZERO < |s * t|) : t = 0 ∨ RS_ZERO < |t| := by
  rwa [abs_sign_mul hs, sign_mul_zero hs] at h

theorem sign_ne {e : ℝ} (he : IsSign e) : e ≠ 0 := by rcases he with rfl | rfl <;> norm_num

theorem out_csc {k e f s t u v : ℝ} (he : IsSign e) (hf : IsSign f) (hs : IsSign s)
    (ht : -RS_ZERO ≤ t) (hu : 0 ≤ u) (hv : -RS_ZERO ≤ v) (h : Clear [(e, s * t), (0, s * u), (f, s * v)]) :
    ReedsSheppPath k (wordSegs k [(e, s * t), (0, s * u), (f, s * v)]) := by
  simp only [Clear, List.mem_cons, List.not_mem_nil, or_false, forall_eq_or_imp, forall_eq, abs_sign_mul hs,
    sign_mul_zero hs] at h
  obtain ⟨⟨h1, h2⟩, -, h5, h6⟩ := h
  have t0 := clear_nonneg h1 ht
  have v0 := clear_nonneg h5 hv
  have t1 := h2 (sign_ne he)
  have v1 := h6 (sign_ne hf)
  rw [abs_of_nonneg t0] at t1
  rw [abs_of_nonneg v0] at v1
  have := ReedsSheppPath.csc (kappa := k) he hf hs ⟨t0, t1⟩ hu ⟨v0, v1⟩
  simpa only [wordSegs, List.map_cons, List.map_nil, rsPiece] using this

theorem sign_split (v : ℝ) : ∃ s' w, IsSign s' ∧ 0 ≤ w ∧ v = s' * w := by
  rcases le_total 0 v with h | h
  · exact ⟨1, v, Or.inl rfl, h, by ring⟩
  · exact ⟨-1, -v, Or.inr rfl, by linarith, by ring⟩

theorem IsSign.mul {a b : ℝ} (ha : IsSign a) (hb : IsSign b) : IsSign (a * b) := by
  rcases ha with rfl | rfl <;> rcases hb with rfl | rfl <;> simp [IsSign]

theorem out_ccc {k e s t u v : ℝ} (he : IsSign e) (hs : IsSign s)
    (ht : -RS_ZERO ≤ t) (hu : u ≤ 0) (hu2 : -π ≤ u) (h : Clear [(e, s * t), (-e, s * u), (e, s * v)]) :
    ReedsSheppPath k (wordSegs k [(e, s * t), (-e, s * u), (e, s * v)]) ∧
    ReedsSheppPath k (wordSegs k [(e, s * v), (-e, s * u), (e, s * t)]) := by
  simp only [Clear, List.mem_cons, List.not_mem_nil, or_false, forall_eq_or_imp, forall_eq, abs_sign_mul hs,
    sign_mul_zero hs] at h
  obtain ⟨⟨h1, h2⟩, -, -⟩ := h
  have t0 := clear_nonneg h1 ht
  have t1 := h2 (sign_ne he)
  rw [abs_of_nonneg t0] at t1
  obtain ⟨s', w, hs', hw, rfl⟩ := sign_split v
  have a := ReedsSheppPath.ccc (kappa := k) (u := -u) he hs (IsSign.mul hs hs') ⟨t0, t1⟩ (by linarith) (by linarith) hw
  have b := ReedsSheppPath.ccc_rev (kappa := k) (u := -u) he hs (IsSign.mul hs hs') ⟨t0, t1⟩ (by linarith) (by linarith) hw
  simp only [rsPiece, neg_mul_neg, mul_assoc] at a b
  simp only [wordSegs, List.map_cons, List.map_nil, neg_mul]
  simp only [neg_mul] at a b
  exact ⟨a, b⟩

theorem out_cccc_in {k e s t u v : ℝ} (he : IsSign e) (hs : IsSign s)
    (ht : -RS_ZERO ≤ t) (hu : 0 ≤ u) (hu2 : u ≤ π / 3) (hv : v ≤ RS_ZERO)
    (h : Clear [(e, s * t), (-e, s * u), (e, -(s * u)), (-e, s * v)]) :
    ReedsSheppPath k (wordSegs k [(e, s * t), (-e, s * u), (e, -(s * u)), (-e, s * v)]) := by
  simp only [Clear, List.mem_cons, List.not_mem_nil, or_false, forall_eq_or_imp, forall_eq, abs_sign_mul hs,
    sign_mul_zero hs] at h
  obtain ⟨⟨h1, h2⟩, -, -, h3, h4⟩ := h
  have t0 := clear_nonneg h1 ht
  have v0 := clear_nonpos h3 hv
  have t1 := h2 (sign_ne he)
  have v1 := h4 (sign_ne he.neg)
  rw [abs_of_nonneg t0] at t1
  rw [← abs_neg, abs_of_nonneg v0] at v1
  have := ReedsSheppPath.cccc_in (kappa := k) he hs ⟨t0, t1⟩ hu hu2 ⟨v0, v1⟩
  simpa only [wordSegs, List.map_cons, List.map_nil, rsPiece, neg_mul, mul_neg, neg_neg] using this

theorem out_cccc_out {k e s t u v : ℝ} (he : IsSign e) (hs : IsSign s)
    (ht : -RS_ZERO ≤ t) (hu : u ≤ 0) (hu2 : -(π / 2) ≤ u) (hv : -RS_ZERO ≤ v)
    (h : Clear [(e, s * t), (-e, s * u), (e, s * u), (-e, s * v)]) :
    ReedsSheppPath k (wordSegs k [(e, s * t), (-e, s * u), (e, s * u), (-e, s * v)]) := by
  simp only [Clear, List.mem_cons, List.not_mem_nil, or_false, forall_eq_or_imp, forall_eq, abs_sign_mul hs,
    sign_mul_zero hs] at h
  obtain ⟨⟨h1, h2⟩, -, -, h3, h4⟩ := h
  have t0 := clear_nonneg h1 ht
  have v0 := clear_nonneg h3 hv
  have t1 := h2 (sign_ne he)
  have v1 := h4 (sign_ne he.neg)
  rw [abs_of_nonneg t0] at t1
  rw [abs_of_nonneg v0] at v1
  have := ReedsSheppPath.cccc_out (kappa := k) (u := -u) he hs ⟨t0, t1⟩ (by linarith) (by linarith) ⟨v0, v1⟩
  simpa only [wordSegs, List.map_cons, List.map_nil, rsPiece, neg_mul, mul_neg, neg_neg] using this

theorem out_ccsc {k e f s t u v : ℝ} (he : IsSign e) (hf : IsSign f) (hs : IsSign s)
    (ht : -RS_ZERO ≤ t) (hu : u ≤ RS_ZERO) (hv : v ≤ RS_ZERO) :
    (Clear [(e, s * t), (-e, -(s * (0.5 * π))), (0, s * u), (f, s * v)] →
      ReedsSheppPath k (wordSegs k [(e, s * t), (-e, -(s * (0.5 * π))), (0, s * u), (f, s * v)])) ∧
    (Clear [(f, s * v), (0, s * u), (-e, -(s * (0.5 * π))), (e, s * t)] →
      ReedsSheppPath k (wordSegs k [(f, s * v), (0, s * u), (-e, -(s * (0.5 * π))), (e, s * t)])) := by
  have hh : (0.5 : ℝ) * π = π / 2 := by ring
  have main : (t = 0 ∨ RS_ZERO < |t|) → |t| ≤ π → (u = 0 ∨ RS_ZERO < |u|) → (v = 0 ∨ RS_ZERO < |v|) → |v| ≤ π →
      IsHalfTurn t ∧ 0 ≤ -u ∧ IsHalfTurn (-v) := by
    intro h1 h2 h3 h4 h5
    have t0 := clear_nonneg h1 ht
    have v0 := clear_nonpos h4 hv
    rw [abs_of_nonneg t0] at h2
    rw [← abs_neg, abs_of_nonneg v0] at h5
    exact ⟨⟨t0, h2⟩, clear_nonpos h3 hu, v0, h5⟩
  constructor
  · intro h
    simp only [Clear, List.mem_cons, List.not_mem_nil, or_false, forall_eq_or_imp, forall_eq, abs_sign_mul hs,
      sign_mul_zero hs] at h
    obtain ⟨⟨h1, h2⟩, -, ⟨h3, -⟩, h4, h5⟩ := h
    obtain ⟨a1, a2, a3⟩ := main h1 (h2 (sign_ne he)) h3 h4 (h5 (sign_ne hf))
    have := ReedsSheppPath.ccsc (kappa := k) he hf hs a1 a2 a3
    simpa only [wordSegs, List.map_cons, List.map_nil, rsPiece, neg_mul, mul_neg, neg_neg, hh] using this
  · intro h
    simp only [Clear, List.mem_cons, List.not_mem_nil, or_false, forall_eq_or_imp, forall_eq, abs_sign_mul hs,
      sign_mul_zero hs] at h
    obtain ⟨⟨h4, h5⟩, ⟨h3, -⟩, -, h1, h2⟩ := h
    obtain ⟨a1, a2, a3⟩ := main h1 (h2 (sign_ne he)) h3 h4 (h5 (sign_ne hf))
    have := ReedsSheppPath.ccsc_rev (kappa := k) he hf hs a1 a2 a3
    simpa only [wordSegs, List.map_cons, List.map_nil, rsPiece, neg_mul, mul_neg, neg_neg, hh] using this

theorem out_ccscc {k e s t u v : ℝ} (he : IsSign e) (hs : IsSign s)
    (ht : -RS_ZERO ≤ t) (hu : u ≤ RS_ZERO) (hv : -RS_ZERO ≤ v)
    (h : Clear [(e, s * t), (-e, -(s * (0.5 * π))), (0, s * u), (e, -(s * (0.5 * π))), (-e, s * v)]) :
    ReedsSheppPath k (wordSegs k
      [(e, s * t), (-e, -(s * (0.5 * π))), (0, s * u), (e, -(s * (0.5 * π))), (-e, s * v)]) := by
  have hh : (0.5 : ℝ) * π = π / 2 := by ring
  simp only [Clear, List.mem_cons, List.not_mem_nil, or_false, forall_eq_or_imp, forall_eq, abs_sign_mul hs,
    sign_mul_zero hs] at h
  obtain ⟨⟨h1, h2⟩, -, ⟨h3, -⟩, -, h4, h5⟩ := h
  have t0 := clear_nonneg h1 ht
  have v0 := clear_nonneg h4 hv
  have t1 := h2 (sign_ne he)
  have v1 := h5 (sign_ne he.neg)
  rw [abs_of_nonneg t0] at t1
  rw [abs_of_nonneg v0] at v1
  have := ReedsSheppPath.ccscc (kappa := k) he hs ⟨t0, t1⟩ (clear_nonpos h3 hu) ⟨v0, v1⟩
  simpa only [wordSegs, List.map_cons, List.map_nil, rsPiece, neg_mul, mul_neg, neg_neg, hh] using this

theorem LpRmL_u (x y phi : ℝ) : (LpRmL x y phi).u ≤ 0 ∧ -π ≤ (LpRmL x y phi).u := by
  simp only [LpRmL]
  have h := polar_nonneg (x - sin phi) (y - 1 + cos phi)
  have h1 : 0 ≤ arcsin (0.25 * (polar (x - sin phi) (y - 1 + cos phi)).1) := arcsin_nonneg.2 (by positivity)
  have h2 := arcsin_le_pi_div_two (0.25 * (polar (x - sin phi) (y - 1 + cos phi)).1)
  constructor <;> linarith

theorem LpRupLumRm_u (x y phi : ℝ) : 0 ≤ (LpRupLumRm x y phi).u ∧ (LpRupLumRm x y phi).u ≤ π / 3 := by
  simp only [LpRupLumRm]
  refine ⟨arccos_nonneg _, ?_⟩
  have hpi := pi_pos
  rw [← arccos_cos (x := π / 3) (by linarith) (by linarith), cos_pi_div_three]
  apply antitone_arccos
  have := sqrt_nonneg ((x + sin phi) * (x + sin phi) + (y - 1 - cos phi) * (y - 1 - cos phi))
  linarith

theorem LpRumLumRp_u {x y phi : ℝ} (h : (LpRumLumRp x y phi).ok) :
    (LpRumLumRp x y phi).u ≤ 0 ∧ -(π / 2) ≤ (LpRumLumRp x y phi).u := by
  have h2 : (LpRumLumRp x y phi).u ≥ -0.5 * π := h.2.1
  refine ⟨?_, by linarith⟩
  simp only [LpRumLumRp]
  linarith [arccos_nonneg ((20 - (x + sin phi) * (x + sin phi) - (y - 1 - cos phi) * (y - 1 - cos phi)) / 16)]

theorem polar_fst_nonneg' (x y : ℝ) : 0 ≤ (polar x y).1 := polar_nonneg x y

/-- An accepted statement whose pieces are clear of the tolerances assigns a Reeds-Shepp path. -/
theorem cand_path {x y phi k : ℝ} {c : RSCand} (hc : c ∈ rsCands x y phi) (ok : c.ok) (hcl : Clear c.path.word) :
    ReedsSheppPath k (wordSegs k c.path.word) := by
  have p1 : IsSign 1 := Or.inl rfl
  have m1 : IsSign (-1) := Or.inr rfl
  unfold rsCands at hc
  simp only [List.mem_append] at hc
  rcases hc with (((hc | hc) | hc) | hc) | hc
  · simp only [candsCSC, List.mem_cons, List.not_mem_nil, or_false] at hc
    have lsl : ∀ {x y phi}, 0 ≤ (LpSpLp x y phi).u := fun {x y phi} => polar_nonneg _ _
    have lsr : ∀ {x y phi}, 0 ≤ (LpSpRp x y phi).u := fun {x y phi} => sqrt_nonneg _
    rcases hc with rfl | rfl | rfl | rfl | rfl | rfl | rfl | rfl
    · exact out_csc p1 p1 p1 ok.1 lsl ok.2 hcl
    · exact out_csc p1 p1 m1 ok.1 lsl ok.2 hcl
    · exact out_csc m1 m1 p1 ok.1 lsl ok.2 hcl
    · exact out_csc m1 m1 m1 ok.1 lsl ok.2 hcl
    · exact out_csc p1 m1 p1 ok.2.1 lsr ok.2.2 hcl
    · exact out_csc p1 m1 m1 ok.2.1 lsr ok.2.2 hcl
    · exact out_csc m1 p1 p1 ok.2.1 lsr ok.2.2 hcl
    · exact out_csc m1 p1 m1 ok.2.1 lsr ok.2.2 hcl
  · simp only [candsCCC, List.mem_cons, List.not_mem_nil, or_false] at hc
    have fwd : ∀ {x y phi e s : ℝ}, IsSign e → IsSign s → (LpRmL x y phi).ok →
        Clear [(e, s * (LpRmL x y phi).t), (-e, s * (LpRmL x y phi).u), (e, s * (LpRmL x y phi).v)] →
        ReedsSheppPath k (wordSegs k [(e, s * (LpRmL x y phi).t), (-e, s * (LpRmL x y phi).u), (e, s * (LpRmL x y phi).v)]) :=
      fun he hs ok h => (out_ccc he hs ok.2.1 (LpRmL_u _ _ _).1 (LpRmL_u _ _ _).2 h).1
    have bwd : ∀ {x y phi e s : ℝ}, IsSign e → IsSign s → (LpRmL x y phi).ok →
        Clear [(e, s * (LpRmL x y phi).v), (-e, s * (LpRmL x y phi).u), (e, s * (LpRmL x y phi).t)] →
        ReedsSheppPath k (wordSegs k [(e, s * (LpRmL x y phi).v), (-e, s * (LpRmL x y phi).u), (e, s * (LpRmL x y phi).t)]) :=
      fun {x y phi e s} he hs ok h => (out_ccc he hs ok.2.1 (LpRmL_u _ _ _).1 (LpRmL_u _ _ _).2 (fun w hw => h w (by
        simp only [List.mem_cons, List.not_mem_nil, or_false] at hw ⊢; tauto))).2
    rcases hc with rfl | rfl | rfl | rfl | rfl | rfl | rfl | rfl
    · exact fwd p1 p1 ok hcl
    · exact fwd p1 m1 ok hcl
    · have := fwd m1 p1 ok; rw [neg_neg] at this; exact this hcl
    · have := fwd m1 m1 ok; rw [neg_neg] at this; exact this hcl
    · exact bwd p1 p1 ok hcl
    · exact bwd p1 m1 ok hcl
    · have := bwd m1 p1 ok; rw [neg_neg] at this; exact this hcl
    · have := bwd m1 m1 ok; rw [neg_neg] at this; exact this hcl
  · simp only [candsCCCC, List.mem_cons, List.not_mem_nil, or_false] at hc
    have cin : ∀ {x y phi e s : ℝ}, IsSign e → IsSign s → (LpRupLumRm x y phi).ok →
        Clear [(e, s * (LpRupLumRm x y phi).t), (-e, s * (LpRupLumRm x y phi).u), (e, -(s * (LpRupLumRm x y phi).u)),
          (-e, s * (LpRupLumRm x y phi).v)] →
        ReedsSheppPath k (wordSegs k [(e, s * (LpRupLumRm x y phi).t), (-e, s * (LpRupLumRm x y phi).u),
          (e, -(s * (LpRupLumRm x y phi).u)), (-e, s * (LpRupLumRm x y phi).v)]) :=
      fun he hs ok h => out_cccc_in he hs ok.2.1 (LpRupLumRm_u _ _ _).1 (LpRupLumRm_u _ _ _).2 ok.2.2 h
    have cout : ∀ {x y phi e s : ℝ}, IsSign e → IsSign s → (LpRumLumRp x y phi).ok →
        Clear [(e, s * (LpRumLumRp x y phi).t), (-e, s * (LpRumLumRp x y phi).u), (e, s * (LpRumLumRp x y phi).u),
          (-e, s * (LpRumLumRp x y phi).v)] →
        ReedsSheppPath k (wordSegs k [(e, s * (LpRumLumRp x y phi).t), (-e, s * (LpRumLumRp x y phi).u),
          (e, s * (LpRumLumRp x y phi).u), (-e, s * (LpRumLumRp x y phi).v)]) :=
      fun he hs ok h => out_cccc_out he hs ok.2.2.1 (LpRumLumRp_u ok).1 (LpRumLumRp_u ok).2 ok.2.2.2 h
    rcases hc with rfl | rfl | rfl | rfl | rfl | rfl | rfl | rfl
    · exact cin p1 p1 ok hcl
    · exact cin p1 m1 ok hcl
    · have := cin m1 p1 ok; rw [neg_neg] at this; exact this hcl
    · have := cin m1 m1 ok; rw [neg_neg] at this; exact this hcl
    · exact cout p1 p1 ok hcl
    · exact cout p1 m1 ok hcl
    · have := cout m1 p1 ok; rw [neg_neg] at this; exact this hcl
    · have := cout m1 m1 ok; rw [neg_neg] at this; exact this hcl
  · simp only [candsCCSC, List.mem_cons, List.not_mem_nil, or_false] at hc
    rcases hc with rfl | rfl | rfl | rfl | rfl | rfl | rfl | rfl | rfl | rfl | rfl | rfl | rfl |
      rfl | rfl | rfl
    · exact (out_ccsc p1 p1 p1 ok.2.1 ok.2.2.1 ok.2.2.2).1 hcl
    · exact (out_ccsc p1 p1 m1 ok.2.1 ok.2.2.1 ok.2.2.2).1 hcl
    · have := (out_ccsc (k := k) m1 m1 p1 ok.2.1 ok.2.2.1 ok.2.2.2).1; rw [neg_neg] at this; exact this hcl
    · have := (out_ccsc (k := k) m1 m1 m1 ok.2.1 ok.2.2.1 ok.2.2.2).1; rw [neg_neg] at this; exact this hcl
    · exact (out_ccsc p1 m1 p1 ok.2.1 ok.2.2.1 ok.2.2.2).1 hcl
    · exact (out_ccsc p1 m1 m1 ok.2.1 ok.2.2.1 ok.2.2.2).1 hcl
    · have := (out_ccsc (k := k) m1 p1 p1 ok.2.1 ok.2.2.1 ok.2.2.2).1; rw [neg_neg] at this; exact this hcl
    · have := (out_ccsc (k := k) m1 p1 m1 ok.2.1 ok.2.2.1 ok.2.2.2).1; rw [neg_neg] at this; exact this hcl
    · exact (out_ccsc p1 p1 p1 ok.2.1 ok.2.2.1 ok.2.2.2).2 hcl
    · exact (out_ccsc p1 p1 m1 ok.2.1 ok.2.2.1 ok.2.2.2).2 hcl
    · have := (out_ccsc (k := k) m1 m1 p1 ok.2.1 ok.2.2.1 ok.2.2.2).2; rw [neg_neg] at this; exact this hcl
    · have := (out_ccsc (k := k) m1 m1 m1 ok.2.1 ok.2.2.1 ok.2.2.2).2; rw [neg_neg] at this; exact this hcl
    · exact (out_ccsc p1 m1 p1 ok.2.1 ok.2.2.1 ok.2.2.2).2 hcl
    · exact (out_ccsc p1 m1 m1 ok.2.1 ok.2.2.1 ok.2.2.2).2 hcl
    · have := (out_ccsc (k := k) m1 p1 p1 ok.2.1 ok.2.2.1 ok.2.2.2).2; rw [neg_neg] at this; exact this hcl
    · have := (out_ccsc (k := k) m1 p1 m1 ok.2.1 ok.2.2.1 ok.2.2.2).2; rw [neg_neg] at this; exact this hcl
  · simp only [candsCCSCC, List.mem_cons, List.not_mem_nil, or_false] at hc
    rcases hc with rfl | rfl | rfl | rfl
    · exact out_ccscc p1 p1 ok.2.2.1 ok.2.1 ok.2.2.2 hcl
    · exact out_ccscc p1 m1 ok.2.2.1 ok.2.1 ok.2.2.2 hcl
    · have := fun h => out_ccscc (k := k) m1 p1 ok.2.2.1 ok.2.1 ok.2.2.2 h
      rw [neg_neg] at this; exact this hcl
    · have := fun h => out_ccscc (k := k) m1 m1 ok.2.2.1 ok.2.1 ok.2.2.2 h
      rw [neg_neg] at this; exact this hcl

end SF
