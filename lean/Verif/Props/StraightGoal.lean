import Verif.Lemmas.StraightGoal
import Verif.Props.Dispatch

/-!
# With curvature zero at both ends a goal straight ahead is reached straight: C137
-/

noncomputable section

namespace Props

open SF Spec Real

variable {sp : HCSpace} {L : ℝ} {s1 s2 : State}

/-- **C137, CC00-Dubins.** If the goal is more than 1e-4 straight ahead in the direction of driving, the planner
returns the straight line and nothing else, and the distance is that of the positions. -/
theorem C137_cc00 (h : StraightTo L s1 s2) (hL : 1 / 10000 < |L|) (hfin : |L| < dblMax)
    (hdir : if sp.forwards then 0 < L else L < 0) :
    CC00.get_distance sp s1 s2 = |L| ∧ CC00.get_controls sp s1 s2 = some [⟨L, 0, 0⟩] := by
  have hL' : epsilon < |L| := by unfold epsilon; norm_num at hL ⊢; exact hL
  obtain ⟨h1, h2, h3, h4⟩ := Spec.StraightGoal.cc00_path (sp := sp) h hL' hfin hdir
    (array_index_min (fun n => (CC00.path sp s1 s2 n).length) 4)
  refine ⟨h2, ?_⟩
  change CC00.path_controls (CC00.path sp s1 s2 _) = _
  unfold CC00.path_controls
  rw [h1, h3, h4]
  exact congrArg some (Spec.StraightGoal.conf_controls h)

/-- **C137, CC00-Reeds-Shepp.** The same for goals straight ahead and straight behind. -/
theorem C137_cc00_rs (h : StraightTo L s1 s2) (hL : 1 / 10000 < |L|) (hfin : |L| < dblMax) :
    CcRs.get_distance sp s1 s2 = |L| ∧ CcRs.get_controls sp s1 s2 = some [⟨L, 0, 0⟩] := by
  have hL' : epsilon < |L| := by unfold epsilon; norm_num at hL ⊢; exact hL
  obtain ⟨p, hp, e⟩ := Spec.StraightGoal.ccrs_path (sp := sp) h hL' hfin
    (array_index_min (fun n => (CcRs.path sp s1 s2 n).length) 16)
  unfold CcRs.get_distance CcRs.get_controls CcRs.reeds_shepp
  rw [e]
  refine ⟨rfl, ?_⟩
  unfold CcRs.path_controls
  rw [if_neg hp, if_neg (show ¬ hc_cc_rs.S = hc_cc_rs.E by decide)]
  simp [Move.controls, Spec.StraightGoal.conf_controls h]

/-- **C137, HC00-Reeds-Shepp.** The same. -/
theorem C137_hc00 (h : StraightTo L s1 s2) (hL : 1 / 10000 < |L|) (hfin : |L| < dblMax) :
    HcRs.get_distance false false sp s1 s2 = some |L| ∧
      HcRs.get_controls false false sp s1 s2 = some [⟨L, 0, 0⟩] := by
  have hL' : epsilon < |L| := by unfold epsilon; norm_num at hL ⊢; exact hL
  have e := Spec.StraightGoal.hc00_path (sp := sp) h hL' hfin
    (array_index_min (fun n => ((HcRs.path false false sp s1 s2 n).map HcRs.RSPath.length).getD dblMax) 16)
  unfold HcRs.get_distance HcRs.get_controls HcRs.reeds_shepp
  rw [e]
  refine ⟨rfl, ?_⟩
  simp only [Option.map_some, HcRs.path_controls]
  rw [if_neg (show ¬ hc_cc_rs.S = hc_cc_rs.E by decide)]
  simp [Move.controls, Spec.StraightGoal.conf_controls h]

theorem only_line (hL : 1 / 10000 < |L|) {I : List Control → Prop} (h : SameControls I (some [⟨L, 0, 0⟩])) :
    (∃ cs, I cs) ∧ ∀ cs, I cs → driven cs = [⟨L, 0, 0⟩] := by
  have h0 : L ≠ 0 := fun e => by rw [e, abs_zero] at hL; norm_num at hL
  have hd : driven [⟨L, 0, 0⟩] = [⟨L, 0, 0⟩] := by simp [driven, h0]
  refine ⟨let ⟨cs, hcs, _⟩ := h.2 _ rfl; ⟨cs, hcs⟩, fun cs hcs => ?_⟩
  obtain ⟨cs', e, hd'⟩ := h.1 cs hcs
  rw [hd', ← Option.some.inj e, hd]

/-- **C137, CC-Dubins.** The same as for CC00 for the planner for any curvature, between states of curvature zero. -/
theorem C137_cc {junk : ℝ} (h1 : s1.kappa = 0) (h2 : s2.kappa = 0) (h : StraightTo L s1 s2) (hL : 1 / 10000 < |L|)
    (hfin : |L| < dblMax) (hdir : if sp.forwards then 0 < L else L < 0) :
    CC.get_distance sp junk s1 s2 = some |L| ∧ (∃ cs, CC.IsControls sp junk s1 s2 cs) ∧
      ∀ cs, CC.IsControls sp junk s1 s2 cs → driven cs = [⟨L, 0, 0⟩] := by
  obtain ⟨d, c⟩ := C137_cc00 (sp := sp) h hL hfin hdir
  obtain ⟨d', c'⟩ := C109_cc_00 (sp := sp) (junk := junk) h1 h2
  rw [d] at d'
  rw [c] at c'
  exact ⟨d', only_line hL c'⟩

/-- **C137, HC-Reeds-Shepp.** The same for the planner for any curvature, between states of curvature zero. -/
theorem C137_hc {junk : ℝ} (hK : 1 / 10000 < sp.kappa) (h1 : s1.kappa = 0) (h2 : s2.kappa = 0) (h : StraightTo L s1 s2)
    (hL : 1 / 10000 < |L|) (hfin : |L| < dblMax) :
    HC.get_distance sp junk s1 s2 = some |L| ∧ (∃ cs, HC.IsControls sp junk s1 s2 cs) ∧
      ∀ cs, HC.IsControls sp junk s1 s2 cs → driven cs = [⟨L, 0, 0⟩] := by
  obtain ⟨d, c⟩ := C137_hc00 (sp := sp) h hL hfin
  obtain ⟨d', c'⟩ := C109_hc (sp := sp) (junk := junk) (s1 := s1) (s2 := s2) (pm1 := false) (pm2 := false) hK (by simp [h1]) (by simp [h2])
  rw [d] at d'
  rw [c] at c'
  exact ⟨d', only_line hL c'⟩

/-- The state 5 behind (1, 2) heading left. -/
example : StraightTo (-5) ⟨1, 2, π, 0, 0⟩ ⟨6, 2, -π, 0, 0⟩ ∧ (1:ℝ) / 10000 < |(-5:ℝ)| := by
  refine ⟨⟨?_, ?_, -1, ?_⟩, by norm_num⟩
  · simp; norm_num
  · simp
  · push_cast; ring

end Props
