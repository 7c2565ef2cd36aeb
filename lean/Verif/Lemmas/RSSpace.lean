import Verif.Lemmas.RSWords
import Verif.Lemmas.DubinsStates

/-!
# From the Reeds-Shepp words to the planner
-/

noncomputable section

namespace SF

open Real Spec Props

/-- Curvature sign of a segment type. -/
def RSSeg.sign : RSSeg → ℝ
  | .nop => 0
  | .left => 1
  | .straight => 0
  | .right => -1

/-- Curvature signs and signed lengths up to the first `nop`. -/
def rsWordOf : List (RSSeg × ℝ) → List (ℝ × ℝ)
  | [] => []
  | (.nop, _) :: _ => []
  | (.left, l) :: r => (1, l) :: rsWordOf r
  | (.right, l) :: r => (-1, l) :: rsWordOf r
  | (.straight, l) :: r => (0, l) :: rsWordOf r

/-- The segments driven for a word. -/
def wordSegs (kappa : ℝ) (ws : List (ℝ × ℝ)) : List Segment :=
  ws.map fun w => ⟨w.2 / kappa, w.1 * kappa, 0⟩

theorem loop_seg (sp : RSSpace) (l : List (RSSeg × ℝ)) :
    (sp.loop l).map seg = wordSegs sp.kappa (rsWordOf l) := by
  induction l with
  | nil => rfl
  | cons a r ih =>
    obtain ⟨ty, len⟩ := a
    have e : sp.kappa_inv * len = len / sp.kappa := by unfold RSSpace.kappa_inv; ring
    cases ty
    · rfl
    · simp only [RSSpace.loop, rsWordOf, List.map_cons, wordSegs, seg, e, one_mul, ih]
    · simp only [RSSpace.loop, rsWordOf, List.map_cons, wordSegs, seg, e, zero_mul, ih]
    · simp only [RSSpace.loop, rsWordOf, List.map_cons, wordSegs, seg, e, neg_mul, one_mul, ih]

/-- Coordinates in units of the turning radius. -/
def scaled (kappa : ℝ) (p : Config) : Config := ⟨kappa * p.x, kappa * p.y, p.theta⟩

theorem dir_mul_abs (c : Segment) : c.dir * |c.len| = c.len := by
  unfold Segment.dir
  split_ifs with h
  · rw [abs_of_neg h]; ring
  · rw [abs_of_nonneg (not_lt.1 h)]; ring

theorem scaled_arrive {kappa e l : ℝ} (hk : 0 < kappa) (he : e = 0 ∨ e = 1 ∨ e = -1) (p : Config) :
    scaled kappa (arrive (⟨l / kappa, e * kappa, 0⟩ : Segment).dir (e * kappa) 0 |l / kappa| p)
      = uStep e l (scaled kappa p) := by
  have hd := dir_mul_abs ⟨l / kappa, e * kappa, 0⟩
  set d := (⟨l / kappa, e * kappa, 0⟩ : Segment).dir
  simp only at hd
  have hk' := hk.ne'
  rcases he with rfl | he
  · rw [zero_mul, arrive_line, hd]
    simp only [scaled, uStep]
    ext <;> simp <;> field_simp
  · have hne : e * kappa ≠ 0 := by rcases he with rfl | rfl <;> simp [hk']
    rw [arrive_arc hne, hd]
    simp only [scaled, uStep]
    have h1 : p.theta + l / kappa * (e * kappa) = p.theta + e * l := by field_simp
    have h2 : p.theta + e * kappa * (l / kappa) = p.theta + e * l := by field_simp
    have h3 : kappa * (1 / (e * kappa)) = e := by
      rcases he with rfl | rfl <;> field_simp
    have h4 : e ^ 2 = 1 := by rcases he with rfl | rfl <;> norm_num
    ext
    · simp only [h1, h4]; linear_combination (sin (p.theta + e * l) - sin p.theta) * h3
    · simp only [h1, h4]; linear_combination (cos p.theta - cos (p.theta + e * l)) * h3
    · simp only; linear_combination e * kappa * hd + h2

theorem scaled_arriveAll {kappa : ℝ} (hk : 0 < kappa) {ws : List (ℝ × ℝ)} (hw : UnitW ws)
    (p : Config) : scaled kappa (arriveAll (wordSegs kappa ws) p) = uEnd ws (scaled kappa p) := by
  induction ws generalizing p with
  | nil => rfl
  | cons w ws ih =>
    simp only [wordSegs, List.map_cons, arriveAll, uEnd]
    rw [← scaled_arrive hk (hw w List.mem_cons_self)]
    exact ih (fun w' h' => hw w' (List.mem_cons_of_mem _ h')) _

theorem unitW_rsWordOf (l : List (RSSeg × ℝ)) : UnitW (rsWordOf l) := by
  induction l with
  | nil => intro w hw; cases hw
  | cons a r ih =>
    obtain ⟨ty, len⟩ := a
    cases ty <;> intro w hw
    · cases hw
    · rcases List.mem_cons.1 hw with rfl | h
      · simp
      · exact ih w h
    · rcases List.mem_cons.1 hw with rfl | h
      · simp
      · exact ih w h
    · rcases List.mem_cons.1 hw with rfl | h
      · simp
      · exact ih w h

/-- A word leads from `s1` to `s2` exactly if it hits the normalised goal. -/
theorem reaches_iff_hits {sp : RSSpace} (hk : 0 < sp.kappa) {ws : List (ℝ × ℝ)} (hw : UnitW ws)
    (s1 s2 : State) :
    Reaches (wordSegs sp.kappa ws) (pose s1) (pose s2) ↔
      Hits ws (sp.params s1 s2).1 (sp.params s1 s2).2.1 (sp.params s1 s2).2.2 := by
  have h := scaled_arriveAll hk hw (pose s1)
  rw [uEnd_from] at h
  set r := arriveAll (wordSegs sp.kappa ws) (pose s1) with hr
  set q := uEnd ws ⟨0, 0, 0⟩ with hq
  have hx := congrArg Config.x h
  have hy := congrArg Config.y h
  have ht := congrArg Config.theta h
  simp only [scaled, pose] at hx hy ht
  have hsc := sin_sq_add_cos_sq s1.theta
  have hiff : Reaches (wordSegs sp.kappa ws) (pose s1) (pose s2) ↔ SameConfig r (pose s2) := by
    constructor
    · rintro ⟨r', h1, h2⟩
      rw [drivesAll_iff] at h1; rw [h1] at h2; exact h2
    · intro h'; exact ⟨r, drivesAll_iff.2 rfl, h'⟩
  rw [hiff]
  unfold Hits SameConfig
  simp only [RSSpace.params, pose]
  rw [← hq]
  constructor
  · rintro ⟨a, b, c⟩
    refine ⟨?_, ?_, ?_⟩
    · rw [← a, ← b]
      linear_combination -cos s1.theta * hx - sin s1.theta * hy - q.x * hsc
    · rw [← a, ← b]
      linear_combination sin s1.theta * hx - cos s1.theta * hy - q.y * hsc
    · rw [ht] at c
      have := c.sub (AngleEq.refl s1.theta)
      exact (AngleEq.of_eq (by ring)).trans this
  · rintro ⟨a, b, c⟩
    refine ⟨?_, ?_, ?_⟩
    · apply mul_left_cancel₀ hk.ne'
      rw [hx, a, b]; linear_combination sp.kappa * (s2.x - s1.x) * hsc
    · apply mul_left_cancel₀ hk.ne'
      rw [hy, a, b]; linear_combination sp.kappa * (s2.y - s1.y) * hsc
    · rw [ht]
      exact (c.add_left _).trans (AngleEq.of_eq (by ring))

/-- Unsigned length of a word. -/
def wordLen (ws : List (ℝ × ℝ)) : ℝ := (ws.map fun w => |w.2|).sum

theorem totalLength_wordSegs {kappa : ℝ} (hk : 0 < kappa) (ws : List (ℝ × ℝ)) :
    totalLength (wordSegs kappa ws) = 1 / kappa * wordLen ws := by
  induction ws with
  | nil => simp [totalLength, wordSegs, wordLen]
  | cons w ws ih =>
    simp only [totalLength, wordSegs, wordLen, List.map_cons, List.sum_cons, List.map_map] at ih ⊢
    rw [ih, abs_div, abs_of_pos hk]; ring

/-! ### Candidates -/

/-- All statements executed by `reeds_shepp`, in order. -/
def rsCands (x y phi : ℝ) : List RSCand :=
  candsCSC x y phi ++ candsCCC x y phi ++ candsCCCC x y phi ++ candsCCSC x y phi ++
    candsCCSCC x y phi

/-- The word driven for a path. -/
def RSPath.word (p : RSPath) : List (ℝ × ℝ) := rsWordOf p.segs

/-- What is true of each statement if its word function returned true. -/
def RSCand.Sound (c : RSCand) (off x y phi : ℝ) : Prop :=
  (c.ok → Hits c.path.word x y phi) ∧ c.path.length = c.L + off ∧ c.path.length = wordLen c.path.word

theorem abs_s_mul {s : ℝ} (hs : s = 1 ∨ s = -1) (a : ℝ) : |s * a| = |a| := by
  rcases hs with rfl | rfl <;> simp

theorem Hits.congr {ws ws' : List (ℝ × ℝ)} {x y phi : ℝ} (h : Hits ws x y phi) (e : ws = ws') :
    Hits ws' x y phi := e ▸ h

theorem candsCSC_sound {x y phi : ℝ} : ∀ c ∈ candsCSC x y phi, c.Sound 0 x y phi := by
  have len : ∀ (w : RSWord) (ty : ℕ) (s : ℝ), (s = 1 ∨ s = -1) → 12 ≤ ty → ty ≤ 15 →
      (cand3 w ty s).path.length = (cand3 w ty s).L + 0 ∧
      (cand3 w ty s).path.length = wordLen (cand3 w ty s).path.word := by
    intro w ty s hs h1 h2
    constructor
    · simp only [cand3, RSPath.length, abs_s_mul hs, abs_zero]; ring
    · interval_cases ty <;>
        simp [cand3, RSPath.length, RSPath.word, RSPath.segs, reeds_shepp_path_type, rsWordOf,
          wordLen] <;> ring
  intro c hc
  simp only [candsCSC, List.mem_cons, List.not_mem_nil, or_false] at hc
  rcases hc with rfl | rfl | rfl | rfl | rfl | rfl | rfl | rfl <;>
    refine ⟨fun hok => ?_, len _ _ _ (by simp) (by norm_num) (by norm_num)⟩
  · exact Hits.congr (LpSpLp_hits x y phi) (by
      simp [cand3, RSPath.word, RSPath.segs, reeds_shepp_path_type, rsWordOf])
  · exact Hits.congr (LpSpLp_hits (-x) y (-phi)).flip (by
      simp [cand3, RSPath.word, RSPath.segs, reeds_shepp_path_type, rsWordOf, flipW])
  · exact Hits.congr (LpSpLp_hits x (-y) (-phi)).mirror (by
      simp [cand3, RSPath.word, RSPath.segs, reeds_shepp_path_type, rsWordOf, mirrorW])
  · exact Hits.congr (LpSpLp_hits (-x) (-y) phi).flip_mirror (by
      simp [cand3, RSPath.word, RSPath.segs, reeds_shepp_path_type, rsWordOf, flipW, mirrorW])
  · exact Hits.congr (LpSpRp_hits hok.1) (by
      simp [cand3, RSPath.word, RSPath.segs, reeds_shepp_path_type, rsWordOf])
  · exact Hits.congr (LpSpRp_hits hok.1).flip (by
      simp [cand3, RSPath.word, RSPath.segs, reeds_shepp_path_type, rsWordOf, flipW])
  · exact Hits.congr (LpSpRp_hits hok.1).mirror (by
      simp [cand3, RSPath.word, RSPath.segs, reeds_shepp_path_type, rsWordOf, mirrorW])
  · exact Hits.congr (LpSpRp_hits hok.1).flip_mirror (by
      simp [cand3, RSPath.word, RSPath.segs, reeds_shepp_path_type, rsWordOf, flipW, mirrorW])

theorem Hits.reverse_flip {ws : List (ℝ × ℝ)} {x y phi : ℝ} (hw : UnitW ws)
    (h : Hits ws (-rsXb x y phi) (rsYb x y phi) (-phi)) : Hits (flipW ws.reverse) x y phi := by
  apply Hits.flip
  apply Hits.reverse hw
  have e1 : rsXb (-x) y (-phi) = -rsXb x y phi := by
    unfold rsXb; rw [cos_neg, sin_neg]; ring
  have e2 : rsYb (-x) y (-phi) = rsYb x y phi := by
    unfold rsYb; rw [cos_neg, sin_neg]; ring
  rw [e1, e2]; exact h

theorem Hits.reverse_mirror {ws : List (ℝ × ℝ)} {x y phi : ℝ} (hw : UnitW ws)
    (h : Hits ws (rsXb x y phi) (-rsYb x y phi) (-phi)) : Hits (mirrorW ws.reverse) x y phi := by
  apply Hits.mirror
  apply Hits.reverse hw
  have e1 : rsXb x (-y) (-phi) = rsXb x y phi := by
    unfold rsXb; rw [cos_neg, sin_neg]; ring
  have e2 : rsYb x (-y) (-phi) = -rsYb x y phi := by
    unfold rsYb; rw [cos_neg, sin_neg]; ring
  rw [e1, e2]; exact h

theorem Hits.reverse_flip_mirror {ws : List (ℝ × ℝ)} {x y phi : ℝ} (hw : UnitW ws)
    (h : Hits ws (-rsXb x y phi) (-rsYb x y phi) phi) :
    Hits (flipW (mirrorW ws.reverse)) x y phi := by
  apply Hits.flip_mirror
  apply Hits.reverse hw
  have e1 : rsXb (-x) (-y) phi = -rsXb x y phi := by unfold rsXb; ring
  have e2 : rsYb (-x) (-y) phi = -rsYb x y phi := by unfold rsYb; ring
  rw [e1, e2]; exact h

theorem candsCCC_sound {x y phi : ℝ} : ∀ c ∈ candsCCC x y phi, c.Sound 0 x y phi := by
  have len : ∀ (w : RSWord) (ty : ℕ) (s : ℝ), (s = 1 ∨ s = -1) → ty ≤ 1 →
      (cand3 w ty s).path.length = (cand3 w ty s).L + 0 ∧
      (cand3 w ty s).path.length = wordLen (cand3 w ty s).path.word := by
    intro w ty s hs h2
    constructor
    · simp only [cand3, RSPath.length, abs_s_mul hs, abs_zero]; ring
    · interval_cases ty <;>
        simp [cand3, RSPath.length, RSPath.word, RSPath.segs, reeds_shepp_path_type, rsWordOf,
          wordLen] <;> ring
  have lenb : ∀ (w : RSWord) (ty : ℕ) (s : ℝ), (s = 1 ∨ s = -1) → ty ≤ 1 →
      (cand3b w ty s).path.length = (cand3b w ty s).L + 0 ∧
      (cand3b w ty s).path.length = wordLen (cand3b w ty s).path.word := by
    intro w ty s hs h2
    constructor
    · simp only [cand3b, RSPath.length, abs_s_mul hs, abs_zero]; ring
    · interval_cases ty <;>
        simp [cand3b, RSPath.length, RSPath.word, RSPath.segs, reeds_shepp_path_type, rsWordOf,
          wordLen] <;> ring
  intro c hc
  simp only [candsCCC, List.mem_cons, List.not_mem_nil, or_false] at hc
  rcases hc with rfl | rfl | rfl | rfl | rfl | rfl | rfl | rfl
  · refine ⟨fun hok => ?_, len _ _ _ (by simp) (by norm_num)⟩
    exact Hits.congr (LpRmL_hits hok.1) (by
      simp [cand3, RSPath.word, RSPath.segs, reeds_shepp_path_type, rsWordOf])
  · refine ⟨fun hok => ?_, len _ _ _ (by simp) (by norm_num)⟩
    exact Hits.congr (LpRmL_hits hok.1).flip (by
      simp [cand3, RSPath.word, RSPath.segs, reeds_shepp_path_type, rsWordOf, flipW])
  · refine ⟨fun hok => ?_, len _ _ _ (by simp) (by norm_num)⟩
    exact Hits.congr (LpRmL_hits hok.1).mirror (by
      simp [cand3, RSPath.word, RSPath.segs, reeds_shepp_path_type, rsWordOf, mirrorW])
  · refine ⟨fun hok => ?_, len _ _ _ (by simp) (by norm_num)⟩
    exact Hits.congr (LpRmL_hits hok.1).flip_mirror (by
      simp [cand3, RSPath.word, RSPath.segs, reeds_shepp_path_type, rsWordOf, flipW, mirrorW])
  · refine ⟨fun hok => ?_, lenb _ _ _ (by simp) (by norm_num)⟩
    exact Hits.congr (Hits.reverse (by simp [UnitW]) (LpRmL_hits hok.1)) (by
      simp [cand3b, RSPath.word, RSPath.segs, reeds_shepp_path_type, rsWordOf])
  · refine ⟨fun hok => ?_, lenb _ _ _ (by simp) (by norm_num)⟩
    exact Hits.congr (Hits.reverse_flip (by simp [UnitW]) (LpRmL_hits hok.1)) (by
      simp [cand3b, RSPath.word, RSPath.segs, reeds_shepp_path_type, rsWordOf, flipW])
  · refine ⟨fun hok => ?_, lenb _ _ _ (by simp) (by norm_num)⟩
    exact Hits.congr (Hits.reverse_mirror (by simp [UnitW]) (LpRmL_hits hok.1)) (by
      simp [cand3b, RSPath.word, RSPath.segs, reeds_shepp_path_type, rsWordOf, mirrorW])
  · refine ⟨fun hok => ?_, lenb _ _ _ (by simp) (by norm_num)⟩
    exact Hits.congr (Hits.reverse_flip_mirror (by simp [UnitW]) (LpRmL_hits hok.1)) (by
      simp [cand3b, RSPath.word, RSPath.segs, reeds_shepp_path_type, rsWordOf, flipW, mirrorW])

theorem candsCCCC_sound {x y phi : ℝ} : ∀ c ∈ candsCCCC x y phi, c.Sound 0 x y phi := by
  have len : ∀ (w : RSWord) (ty : ℕ) (s : ℝ), (s = 1 ∨ s = -1) → 2 ≤ ty → ty ≤ 3 →
      (cand4p w ty s).path.length = (cand4p w ty s).L + 0 ∧
      (cand4p w ty s).path.length = wordLen (cand4p w ty s).path.word := by
    intro w ty s hs h1 h2
    constructor
    · simp only [cand4p, RSPath.length, abs_s_mul hs, abs_zero, abs_neg]; ring
    · interval_cases ty <;>
        simp [cand4p, RSPath.length, RSPath.word, RSPath.segs, reeds_shepp_path_type, rsWordOf,
          wordLen] <;> ring
  have lenm : ∀ (w : RSWord) (ty : ℕ) (s : ℝ), (s = 1 ∨ s = -1) → 2 ≤ ty → ty ≤ 3 →
      (cand4m w ty s).path.length = (cand4m w ty s).L + 0 ∧
      (cand4m w ty s).path.length = wordLen (cand4m w ty s).path.word := by
    intro w ty s hs h1 h2
    constructor
    · simp only [cand4m, RSPath.length, abs_s_mul hs, abs_zero]; ring
    · interval_cases ty <;>
        simp [cand4m, RSPath.length, RSPath.word, RSPath.segs, reeds_shepp_path_type, rsWordOf,
          wordLen] <;> ring
  intro c hc
  simp only [candsCCCC, List.mem_cons, List.not_mem_nil, or_false] at hc
  rcases hc with rfl | rfl | rfl | rfl | rfl | rfl | rfl | rfl
  · refine ⟨fun hok => ?_, len _ _ _ (by simp) (by norm_num) (by norm_num)⟩
    exact Hits.congr (LpRupLumRm_hits hok.1) (by
      simp [cand4p, RSPath.word, RSPath.segs, reeds_shepp_path_type, rsWordOf])
  · refine ⟨fun hok => ?_, len _ _ _ (by simp) (by norm_num) (by norm_num)⟩
    exact Hits.congr (LpRupLumRm_hits hok.1).flip (by
      simp [cand4p, RSPath.word, RSPath.segs, reeds_shepp_path_type, rsWordOf, flipW])
  · refine ⟨fun hok => ?_, len _ _ _ (by simp) (by norm_num) (by norm_num)⟩
    exact Hits.congr (LpRupLumRm_hits hok.1).mirror (by
      simp [cand4p, RSPath.word, RSPath.segs, reeds_shepp_path_type, rsWordOf, mirrorW])
  · refine ⟨fun hok => ?_, len _ _ _ (by simp) (by norm_num) (by norm_num)⟩
    exact Hits.congr (LpRupLumRm_hits hok.1).flip_mirror (by
      simp [cand4p, RSPath.word, RSPath.segs, reeds_shepp_path_type, rsWordOf, flipW, mirrorW])
  · refine ⟨fun hok => ?_, lenm _ _ _ (by simp) (by norm_num) (by norm_num)⟩
    exact Hits.congr (LpRumLumRp_hits hok.1) (by
      simp [cand4m, RSPath.word, RSPath.segs, reeds_shepp_path_type, rsWordOf])
  · refine ⟨fun hok => ?_, lenm _ _ _ (by simp) (by norm_num) (by norm_num)⟩
    exact Hits.congr (LpRumLumRp_hits hok.1).flip (by
      simp [cand4m, RSPath.word, RSPath.segs, reeds_shepp_path_type, rsWordOf, flipW])
  · refine ⟨fun hok => ?_, lenm _ _ _ (by simp) (by norm_num) (by norm_num)⟩
    exact Hits.congr (LpRumLumRp_hits hok.1).mirror (by
      simp [cand4m, RSPath.word, RSPath.segs, reeds_shepp_path_type, rsWordOf, mirrorW])
  · refine ⟨fun hok => ?_, lenm _ _ _ (by simp) (by norm_num) (by norm_num)⟩
    exact Hits.congr (LpRumLumRp_hits hok.1).flip_mirror (by
      simp [cand4m, RSPath.word, RSPath.segs, reeds_shepp_path_type, rsWordOf, flipW, mirrorW])

theorem abs_half_pi : |(0.5 : ℝ) * π| = 0.5 * π := abs_of_pos (by have := pi_pos; positivity)

theorem half_pi_eq : (0.5 : ℝ) * π = π / 2 := by ring

theorem candsCCSC_sound {x y phi : ℝ} : ∀ c ∈ candsCCSC x y phi, c.Sound (0.5 * π) x y phi := by
  have len : ∀ (w : RSWord) (ty : ℕ) (s : ℝ), (s = 1 ∨ s = -1) →
      (ty = 4 ∨ ty = 5 ∨ ty = 8 ∨ ty = 9) →
      (cand4h w ty s).path.length = (cand4h w ty s).L + 0.5 * π ∧
      (cand4h w ty s).path.length = wordLen (cand4h w ty s).path.word := by
    intro w ty s hs h1
    constructor
    · simp only [cand4h, RSPath.length, abs_s_mul hs, abs_zero, abs_neg, abs_half_pi]; ring
    · rcases h1 with rfl | rfl | rfl | rfl <;>
        simp [cand4h, RSPath.length, RSPath.word, RSPath.segs, reeds_shepp_path_type, rsWordOf,
          wordLen] <;> ring
  have lenb : ∀ (w : RSWord) (ty : ℕ) (s : ℝ), (s = 1 ∨ s = -1) →
      (ty = 6 ∨ ty = 7 ∨ ty = 10 ∨ ty = 11) →
      (cand4hb w ty s).path.length = (cand4hb w ty s).L + 0.5 * π ∧
      (cand4hb w ty s).path.length = wordLen (cand4hb w ty s).path.word := by
    intro w ty s hs h1
    constructor
    · simp only [cand4hb, RSPath.length, abs_s_mul hs, abs_zero, abs_neg, abs_half_pi]; ring
    · rcases h1 with rfl | rfl | rfl | rfl <;>
        simp [cand4hb, RSPath.length, RSPath.word, RSPath.segs, reeds_shepp_path_type, rsWordOf,
          wordLen] <;> ring
  intro c hc
  simp only [candsCCSC, List.mem_cons, List.not_mem_nil, or_false] at hc
  rcases hc with rfl | rfl | rfl | rfl | rfl | rfl | rfl | rfl |
    rfl | rfl | rfl | rfl | rfl | rfl | rfl | rfl
  · refine ⟨fun hok => ?_, len _ _ _ (by simp) (by simp)⟩
    exact Hits.congr (LpRmSmLm_hits hok.1) (by
      simp [cand4h, RSPath.word, RSPath.segs, reeds_shepp_path_type, rsWordOf, half_pi_eq])
  · refine ⟨fun hok => ?_, len _ _ _ (by simp) (by simp)⟩
    exact Hits.congr (LpRmSmLm_hits hok.1).flip (by
      simp [cand4h, RSPath.word, RSPath.segs, reeds_shepp_path_type, rsWordOf, flipW, half_pi_eq])
  · refine ⟨fun hok => ?_, len _ _ _ (by simp) (by simp)⟩
    exact Hits.congr (LpRmSmLm_hits hok.1).mirror (by
      simp [cand4h, RSPath.word, RSPath.segs, reeds_shepp_path_type, rsWordOf, mirrorW, half_pi_eq])
  · refine ⟨fun hok => ?_, len _ _ _ (by simp) (by simp)⟩
    exact Hits.congr (LpRmSmLm_hits hok.1).flip_mirror (by
      simp [cand4h, RSPath.word, RSPath.segs, reeds_shepp_path_type, rsWordOf, flipW, mirrorW,
        half_pi_eq])
  · refine ⟨fun hok => ?_, len _ _ _ (by simp) (by simp)⟩
    exact Hits.congr (LpRmSmRm_hits _ _ _) (by
      simp [cand4h, RSPath.word, RSPath.segs, reeds_shepp_path_type, rsWordOf, half_pi_eq])
  · refine ⟨fun hok => ?_, len _ _ _ (by simp) (by simp)⟩
    exact Hits.congr (LpRmSmRm_hits _ _ _).flip (by
      simp [cand4h, RSPath.word, RSPath.segs, reeds_shepp_path_type, rsWordOf, flipW, half_pi_eq])
  · refine ⟨fun hok => ?_, len _ _ _ (by simp) (by simp)⟩
    exact Hits.congr (LpRmSmRm_hits _ _ _).mirror (by
      simp [cand4h, RSPath.word, RSPath.segs, reeds_shepp_path_type, rsWordOf, mirrorW, half_pi_eq])
  · refine ⟨fun hok => ?_, len _ _ _ (by simp) (by simp)⟩
    exact Hits.congr (LpRmSmRm_hits _ _ _).flip_mirror (by
      simp [cand4h, RSPath.word, RSPath.segs, reeds_shepp_path_type, rsWordOf, flipW, mirrorW,
        half_pi_eq])
  · refine ⟨fun hok => ?_, lenb _ _ _ (by simp) (by simp)⟩
    exact Hits.congr (Hits.reverse (by simp [UnitW]) (LpRmSmLm_hits hok.1)) (by
      simp [cand4hb, RSPath.word, RSPath.segs, reeds_shepp_path_type, rsWordOf, half_pi_eq])
  · refine ⟨fun hok => ?_, lenb _ _ _ (by simp) (by simp)⟩
    exact Hits.congr (Hits.reverse_flip (by simp [UnitW]) (LpRmSmLm_hits hok.1)) (by
      simp [cand4hb, RSPath.word, RSPath.segs, reeds_shepp_path_type, rsWordOf, flipW, half_pi_eq])
  · refine ⟨fun hok => ?_, lenb _ _ _ (by simp) (by simp)⟩
    exact Hits.congr (Hits.reverse_mirror (by simp [UnitW]) (LpRmSmLm_hits hok.1)) (by
      simp [cand4hb, RSPath.word, RSPath.segs, reeds_shepp_path_type, rsWordOf, mirrorW, half_pi_eq])
  · refine ⟨fun hok => ?_, lenb _ _ _ (by simp) (by simp)⟩
    exact Hits.congr (Hits.reverse_flip_mirror (by simp [UnitW]) (LpRmSmLm_hits hok.1)) (by
      simp [cand4hb, RSPath.word, RSPath.segs, reeds_shepp_path_type, rsWordOf, flipW, mirrorW,
        half_pi_eq])
  · refine ⟨fun hok => ?_, lenb _ _ _ (by simp) (by simp)⟩
    exact Hits.congr (Hits.reverse (by simp [UnitW]) (LpRmSmRm_hits _ _ _)) (by
      simp [cand4hb, RSPath.word, RSPath.segs, reeds_shepp_path_type, rsWordOf, half_pi_eq])
  · refine ⟨fun hok => ?_, lenb _ _ _ (by simp) (by simp)⟩
    exact Hits.congr (Hits.reverse_flip (by simp [UnitW]) (LpRmSmRm_hits _ _ _)) (by
      simp [cand4hb, RSPath.word, RSPath.segs, reeds_shepp_path_type, rsWordOf, flipW, half_pi_eq])
  · refine ⟨fun hok => ?_, lenb _ _ _ (by simp) (by simp)⟩
    exact Hits.congr (Hits.reverse_mirror (by simp [UnitW]) (LpRmSmRm_hits _ _ _)) (by
      simp [cand4hb, RSPath.word, RSPath.segs, reeds_shepp_path_type, rsWordOf, mirrorW, half_pi_eq])
  · refine ⟨fun hok => ?_, lenb _ _ _ (by simp) (by simp)⟩
    exact Hits.congr (Hits.reverse_flip_mirror (by simp [UnitW]) (LpRmSmRm_hits _ _ _)) (by
      simp [cand4hb, RSPath.word, RSPath.segs, reeds_shepp_path_type, rsWordOf, flipW, mirrorW,
        half_pi_eq])

theorem candsCCSCC_sound {x y phi : ℝ} : ∀ c ∈ candsCCSCC x y phi, c.Sound π x y phi := by
  have len : ∀ (w : RSWord) (ty : ℕ) (s : ℝ), (s = 1 ∨ s = -1) → (ty = 16 ∨ ty = 17) →
      (cand5 w ty s).path.length = (cand5 w ty s).L + π ∧
      (cand5 w ty s).path.length = wordLen (cand5 w ty s).path.word := by
    intro w ty s hs h1
    constructor
    · simp only [cand5, RSPath.length, abs_s_mul hs, abs_neg, abs_half_pi]; ring
    · rcases h1 with rfl | rfl <;>
        simp [cand5, RSPath.length, RSPath.word, RSPath.segs, reeds_shepp_path_type, rsWordOf,
          wordLen] <;> ring
  intro c hc
  simp only [candsCCSCC, List.mem_cons, List.not_mem_nil, or_false] at hc
  rcases hc with rfl | rfl | rfl | rfl <;>
    refine ⟨fun hok => ?_, len _ _ _ (by simp) (by simp)⟩
  · exact Hits.congr (LpRmSLmRp_hits hok.1) (by
      simp [cand5, RSPath.word, RSPath.segs, reeds_shepp_path_type, rsWordOf, half_pi_eq])
  · exact Hits.congr (LpRmSLmRp_hits hok.1).flip (by
      simp [cand5, RSPath.word, RSPath.segs, reeds_shepp_path_type, rsWordOf, flipW, half_pi_eq])
  · exact Hits.congr (LpRmSLmRp_hits hok.1).mirror (by
      simp [cand5, RSPath.word, RSPath.segs, reeds_shepp_path_type, rsWordOf, mirrorW, half_pi_eq])
  · exact Hits.congr (LpRmSLmRp_hits hok.1).flip_mirror (by
      simp [cand5, RSPath.word, RSPath.segs, reeds_shepp_path_type, rsWordOf, flipW, mirrorW,
        half_pi_eq])

/-! ### The selection loops -/

/-- The path after executing statements is the old one or an accepted candidate, and no longer
than the old one or any accepted candidate. -/
theorem rsTry_fold {off : ℝ} (cs : List RSCand) (hcs : ∀ c ∈ cs, c.path.length = c.L + off)
    (p : RSPath) :
    let r := (cs.foldl rsTry (p, p.length - off)).1
    (r = p ∨ ∃ c ∈ cs, c.ok ∧ r = c.path) ∧ r.length ≤ p.length ∧
      ∀ c ∈ cs, c.ok → r.length ≤ c.path.length := by
  induction cs generalizing p with
  | nil => exact ⟨Or.inl rfl, le_rfl, fun c hc => by cases hc⟩
  | cons c cs ih =>
    intro r
    have hc := hcs c List.mem_cons_self
    have ih' := ih (fun c' h' => hcs c' (List.mem_cons_of_mem _ h'))
    by_cases h : c.ok ∧ p.length - off > c.L
    · have e : r = (cs.foldl rsTry (c.path, c.path.length - off)).1 := by
        have : rsTry (p, p.length - off) c = (c.path, c.path.length - off) := by
          unfold rsTry; rw [if_pos h, hc]; simp
        simp only [r, List.foldl_cons, this]
      obtain ⟨h1, h2, h3⟩ := ih' c.path
      rw [← e] at h1 h2 h3
      refine ⟨?_, by linarith [h.2], ?_⟩
      · rcases h1 with h1 | ⟨c', m, o, h1⟩
        · exact Or.inr ⟨c, List.mem_cons_self, h.1, h1⟩
        · exact Or.inr ⟨c', List.mem_cons_of_mem _ m, o, h1⟩
      · intro c' m o
        rcases List.mem_cons.1 m with rfl | m
        · exact h2
        · exact h3 c' m o
    · have e : r = (cs.foldl rsTry (p, p.length - off)).1 := by
        have : rsTry (p, p.length - off) c = (p, p.length - off) := by
          unfold rsTry; rw [if_neg h]
        simp only [r, List.foldl_cons, this]
      obtain ⟨h1, h2, h3⟩ := ih' p
      rw [← e] at h1 h2 h3
      refine ⟨?_, h2, ?_⟩
      · rcases h1 with h1 | ⟨c', m, o, h1⟩
        · exact Or.inl h1
        · exact Or.inr ⟨c', List.mem_cons_of_mem _ m, o, h1⟩
      · intro c' m o
        rcases List.mem_cons.1 m with rfl | m
        · have : ¬ (p.length - off > c'.L) := fun h' => h ⟨o, h'⟩
          linarith
        · exact h3 c' m o

/-- The result of `reeds_shepp`: the default path or an accepted candidate, shortest. -/
theorem reeds_shepp_result (x y phi : ℝ) :
    let r := reeds_shepp x y phi
    (r = RSPath.default ∨ ∃ c ∈ rsCands x y phi, c.ok ∧ r = c.path) ∧ r.length ≤ dblMax ∧
      ∀ c ∈ rsCands x y phi, c.ok → r.length ≤ c.path.length := by
  intro r
  obtain ⟨a1, b1, c1⟩ := rsTry_fold (candsCSC x y phi) (fun c h => (candsCSC_sound c h).2.1)
    RSPath.default
  rw [sub_zero] at a1 b1 c1
  set p1 := rsCSC x y phi RSPath.default with hp1
  obtain ⟨a2, b2, c2⟩ := rsTry_fold (candsCCC x y phi) (fun c h => (candsCCC_sound c h).2.1) p1
  rw [sub_zero] at a2 b2 c2
  set p2 := rsCCC x y phi p1 with hp2
  obtain ⟨a3, b3, c3⟩ := rsTry_fold (candsCCCC x y phi) (fun c h => (candsCCCC_sound c h).2.1) p2
  rw [sub_zero] at a3 b3 c3
  set p3 := rsCCCC x y phi p2 with hp3
  obtain ⟨a4, b4, c4⟩ := rsTry_fold (candsCCSC x y phi) (fun c h => (candsCCSC_sound c h).2.1) p3
  set p4 := rsCCSC x y phi p3 with hp4
  obtain ⟨a5, b5, c5⟩ := rsTry_fold (candsCCSCC x y phi) (fun c h => (candsCCSCC_sound c h).2.1) p4
  change (p1 = _ ∨ ∃ c : RSCand, c ∈ _ ∧ c.ok ∧ p1 = c.path) at a1
  change p1.length ≤ _ at b1
  change ∀ c : RSCand, c ∈ _ → c.ok → p1.length ≤ _ at c1
  change (p2 = _ ∨ ∃ c : RSCand, c ∈ _ ∧ c.ok ∧ p2 = c.path) at a2
  change p2.length ≤ _ at b2
  change ∀ c : RSCand, c ∈ _ → c.ok → p2.length ≤ _ at c2
  change (p3 = _ ∨ ∃ c : RSCand, c ∈ _ ∧ c.ok ∧ p3 = c.path) at a3
  change p3.length ≤ _ at b3
  change ∀ c : RSCand, c ∈ _ → c.ok → p3.length ≤ _ at c3
  change (p4 = _ ∨ ∃ c : RSCand, c ∈ _ ∧ c.ok ∧ p4 = c.path) at a4
  change p4.length ≤ _ at b4
  change ∀ c : RSCand, c ∈ _ → c.ok → p4.length ≤ _ at c4
  change (r = _ ∨ ∃ c : RSCand, c ∈ _ ∧ c.ok ∧ r = c.path) at a5
  change r.length ≤ _ at b5
  change ∀ c : RSCand, c ∈ _ → c.ok → r.length ≤ _ at c5
  have hd : RSPath.default.length = dblMax := by
    have : (0:ℝ) ≤ dblMax := le_trans (by positivity) dblMax_large.le
    simp [RSPath.default, RSPath.length, abs_of_nonneg this]
  refine ⟨?_, by linarith, ?_⟩
  · unfold rsCands
    simp only [List.mem_append]
    rcases a5 with a5 | ⟨c, m, o⟩
    · rw [a5]
      rcases a4 with a4 | ⟨c, m, o⟩
      · rw [a4]
        rcases a3 with a3 | ⟨c, m, o⟩
        · rw [a3]
          rcases a2 with a2 | ⟨c, m, o⟩
          · rw [a2]
            rcases a1 with a1 | ⟨c, m, o⟩
            · exact Or.inl a1
            · exact Or.inr ⟨c, by tauto, o⟩
          · exact Or.inr ⟨c, by tauto, o⟩
        · exact Or.inr ⟨c, by tauto, o⟩
      · exact Or.inr ⟨c, by tauto, o⟩
    · exact Or.inr ⟨c, by tauto, o⟩
  · intro c hc ho
    unfold rsCands at hc
    simp only [List.mem_append] at hc
    rcases hc with (((hc | hc) | hc) | hc) | hc
    · linarith [c1 c hc ho]
    · linarith [c2 c hc ho]
    · linarith [c3 c hc ho]
    · linarith [c4 c hc ho]
    · linarith [c5 c hc ho]

theorem rsCands_sound {x y phi : ℝ} {c : RSCand} (hc : c ∈ rsCands x y phi) :
    (c.ok → Hits c.path.word x y phi) ∧ c.path.length = wordLen c.path.word := by
  unfold rsCands at hc
  simp only [List.mem_append] at hc
  rcases hc with (((hc | hc) | hc) | hc) | hc
  · exact ⟨(candsCSC_sound c hc).1, (candsCSC_sound c hc).2.2⟩
  · exact ⟨(candsCCC_sound c hc).1, (candsCCC_sound c hc).2.2⟩
  · exact ⟨(candsCCCC_sound c hc).1, (candsCCCC_sound c hc).2.2⟩
  · exact ⟨(candsCCSC_sound c hc).1, (candsCCSC_sound c hc).2.2⟩
  · exact ⟨(candsCCSCC_sound c hc).1, (candsCCSCC_sound c hc).2.2⟩

end SF
