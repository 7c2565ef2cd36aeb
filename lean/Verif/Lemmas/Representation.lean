import Verif.Model.PredictHc
import Verif.Model.CcReedsShepp
import Verif.Lemmas.Angle

/-!
# Two representations of one state

The planners with clothoids see a heading only through `configuration`, which wraps it, or through sines, cosines and wrapped
angles.
-/

noncomputable section

namespace SF

open Real Spec

/-- The same position and curvature, and headings that differ by full turns.  The driving direction `d` is free. -/
structure SameState (s s' : State) : Prop where
  x : s'.x = s.x
  y : s'.y = s.y
  theta : AngleEq s'.theta s.theta
  kappa : s'.kappa = s.kappa

namespace SameState

variable {s s' t t' : State} (hs : SameState s s') (ht : SameState t t')

include hs in
theorem configuration (k : ℝ) : configuration s'.x s'.y s'.theta k = configuration s.x s.y s.theta k := by
  unfold SF.configuration
  rw [hs.x, hs.y, twopify_congr hs.theta]

include hs ht in
theorem cc00 (sp : HCSpace) : CC00.cc00_dubins sp s' t' = CC00.cc00_dubins sp s t := by
  have h : CC00.path sp s' t' = CC00.path sp s t := by
    funext n; unfold CC00.path; rw [hs.configuration, ht.configuration]
  unfold CC00.cc00_dubins; rw [h]

include hs ht in
theorem cc0pm (sp : HCSpace) : CC0pm.cc0pm_dubins sp s' t' = CC0pm.cc0pm_dubins sp s t := by
  have h : CC0pm.path sp s' t' = CC0pm.path sp s t := by
    funext n; unfold CC0pm.path CC0pm.end_circle; simp only [hs.configuration, ht.configuration, ht.kappa]
  unfold CC0pm.cc0pm_dubins; rw [h]

include hs ht in
theorem ccpm0 (sp : HCSpace) : CCpm0.ccpm0_dubins sp s' t' = CCpm0.ccpm0_dubins sp s t := by
  have h : CCpm0.path sp s' t' = CCpm0.path sp s t := by
    funext n; unfold CCpm0.path CCpm0.start_circle; simp only [hs.configuration, ht.configuration, hs.kappa]
  unfold CCpm0.ccpm0_dubins; rw [h]

include hs ht in
theorem ccpmpm (sp : HCSpace) : CCpmpm.ccpmpm_dubins sp s' t' = CCpmpm.ccpmpm_dubins sp s t := by
  have h : CCpmpm.path sp s' t' = CCpmpm.path sp s t := by
    funext n; unfold CCpmpm.path CCpmpm.start_circle CCpmpm.end_circle
    simp only [hs.configuration, ht.configuration, hs.kappa, ht.kappa]
  unfold CCpmpm.ccpmpm_dubins; rw [h]

include hs ht in
theorem ccrs (sp : HCSpace) : CcRs.reeds_shepp sp s' t' = CcRs.reeds_shepp sp s t := by
  have h : CcRs.path sp s' t' = CcRs.path sp s t := by
    funext n; unfold CcRs.path CcRs.end_circle; simp only [hs.configuration, ht.configuration]
  unfold CcRs.reeds_shepp; rw [h]

include hs ht in
theorem hcrs (pm1 pm2 : Bool) (sp : HCSpace) : HcRs.reeds_shepp pm1 pm2 sp s' t' = HcRs.reeds_shepp pm1 pm2 sp s t := by
  have h : HcRs.path pm1 pm2 sp s' t' = HcRs.path pm1 pm2 sp s t := by
    funext n; unfold HcRs.path HcRs.end_circle HcRs.skip; simp only [hs.configuration, ht.configuration, hs.kappa, ht.kappa]
  unfold HcRs.reeds_shepp; rw [h]

include hs in
theorem predicted (junk : ℝ) (c : Control) : SameState (SF.predicted junk s c).1 (SF.predicted junk s' c).1 := by
  have e : ∀ a : ℝ, AngleEq (s'.theta - a) (s.theta - a) := fun a => hs.theta.sub (AngleEq.refl a)
  unfold SF.predicted end_of_clothoid
  refine ⟨?_, ?_, ?_, ?_⟩
  · simp only [hs.x, hs.kappa, (e _).sin_eq, (e _).cos_eq]
  · simp only [hs.y, hs.kappa, (e _).sin_eq, (e _).cos_eq]
  · simp only [hs.kappa]
    exact (pify_angleEq _).trans (((hs.theta.add_right _).add_right _).trans (pify_angleEq _).symm)
  · simp only [hs.kappa]

end SameState

/-- Two predictions of one state with one control. -/
def SamePredicted (a b : Predicted) : Prop := SameState a.1 b.1 ∧ b.2 = a.2

theorem SameState.state_equal {s s' t t' : State} (hs : SameState s s') (ht : SameState t t') :
    state_equal s' t' ↔ state_equal s t := by
  unfold SF.state_equal
  rw [hs.kappa, ht.kappa, hs.x, hs.y, ht.x, ht.y, twopify_congr hs.theta, twopify_congr ht.theta]

/-- A planner that does not distinguish representations. -/
def Respects {α : Type} (f : SubPlanners α) : Prop :=
  ∀ s s' t t', SameState s s' → SameState t t' → f.call s' t' = f.call s t

theorem respects_of {α : Type} {f : SubPlanners α}
    (h : ∀ s s' t t', SameState s s' → SameState t t' → f.p00 s' t' = f.p00 s t ∧ f.p0pm s' t' = f.p0pm s t ∧
      f.ppm0 s' t' = f.ppm0 s t ∧ f.ppmpm s' t' = f.ppmpm s t) : Respects f := by
  intro s s' t t' hs ht
  obtain ⟨h1, h2, h3, h4⟩ := h s s' t t' hs ht
  unfold SubPlanners.call
  rw [h1, h2, h3, h4, hs.kappa, ht.kappa]

theorem pairs_same {start_ start' end_ end' : List Predicted} (h1 : List.Forall₂ SamePredicted start_ start')
    (h2 : List.Forall₂ SamePredicted end_ end') :
    List.Forall₂ (fun p q : Predicted × Predicted => SamePredicted p.1 q.1 ∧ SamePredicted p.2 q.2) (pairs start_ end_)
      (pairs start' end') := by
  unfold pairs
  induction h1 with
  | nil => simp
  | cons hab _ ih =>
    simp only [List.flatMap_cons]
    refine List.rel_append ?_ ih
    clear ih
    induction h2 with
    | nil => simp
    | cons hcd _ ih2 => exact List.Forall₂.cons ⟨hab, hcd⟩ ih2

theorem mapM_same {α β : Type} {R : α → α → Prop} {f : α → Option β} {l l' : List α} (h : List.Forall₂ R l l')
    (hf : ∀ a b, R a b → f b = f a) : l'.mapM f = l.mapM f := by
  induction h with
  | nil => rfl
  | cons hab _ ih => simp only [List.mapM_cons, hf _ _ hab, ih]

theorem min_distance_same {f : SubPlanners ℝ} (hf : Respects f) {start_ start' end_ end' : List Predicted}
    (h1 : List.Forall₂ SamePredicted start_ start') (h2 : List.Forall₂ SamePredicted end_ end') :
    min_distance f start' end' = min_distance f start_ end_ := by
  unfold min_distance
  rw [mapM_same (pairs_same h1 h2)]
  rintro ⟨a, b⟩ ⟨a', b'⟩ ⟨⟨ha, ha2⟩, hb, hb2⟩
  simp only at ha ha2 hb hb2 ⊢
  unfold pair_distance
  by_cases he : state_equal a.1 b.1
  · rw [if_pos he, if_pos ((ha.state_equal hb).2 he), ha2, hb2]
  · rw [if_neg he, if_neg (fun h => he ((ha.state_equal hb).1 h)), hf _ _ _ _ ha hb, ha2, hb2]

theorem min_controls_same {f : SubPlanners (List Control)} (hf : Respects f) {start_ start' end_ end' : List Predicted}
    (h1 : List.Forall₂ SamePredicted start_ start') (h2 : List.Forall₂ SamePredicted end_ end') (cs : List Control) :
    IsMinControls f start' end' cs ↔ IsMinControls f start_ end_ cs := by
  unfold IsMinControls
  rw [mapM_same (pairs_same h1 h2)]
  rintro ⟨a, b⟩ ⟨a', b'⟩ ⟨⟨ha, ha2⟩, hb, hb2⟩
  simp only at ha ha2 hb hb2 ⊢
  unfold pair_controls
  by_cases he : state_equal a.1 b.1
  · rw [if_pos he, if_pos ((ha.state_equal hb).2 he), ha2, hb2]
  · rw [if_neg he, if_neg (fun h => he ((ha.state_equal hb).1 h)), hf _ _ _ _ ha hb, ha2, hb2]

theorem map_predicted_same {s s' : State} (hs : SameState s s') (junk : ℝ) (cs : List Control) :
    List.Forall₂ SamePredicted (cs.map (predicted junk s)) (cs.map (predicted junk s')) := by
  induction cs with
  | nil => simp
  | cons c cs ih => exact List.Forall₂.cons ⟨hs.predicted junk c, rfl⟩ ih

theorem cc_predict_same {s s' : State} (hs : SameState s s') (sp : HCSpace) (junk : ℝ) (fw : Bool) :
    List.Forall₂ SamePredicted (CC.predict_state sp junk s fw) (CC.predict_state sp junk s' fw) := by
  unfold CC.predict_state
  rw [hs.kappa]
  split_ifs
  · exact List.Forall₂.cons ⟨hs, rfl⟩ .nil
  · exact map_predicted_same hs _ _
  · exact map_predicted_same hs _ _

theorem hc_predict_same {s s' : State} (hs : SameState s s') (sp : HCSpace) (junk : ℝ) :
    List.Forall₂ SamePredicted (HC.predict_state sp junk s) (HC.predict_state sp junk s') := by
  unfold HC.predict_state
  rw [hs.kappa]
  split_ifs
  · exact List.Forall₂.cons ⟨hs, rfl⟩ .nil
  · exact map_predicted_same hs _ _

theorem cc_distance_respects (sp : HCSpace) : Respects (CC.distance_planners sp) :=
  respects_of fun s s' t t' hs ht => by
    simp only [CC.distance_planners, CC00.get_distance, CC0pm.get_distance, CCpm0.get_distance, CCpmpm.get_distance,
      hs.cc00 ht, hs.cc0pm ht, hs.ccpm0 ht, hs.ccpmpm ht, and_self]

theorem cc_controls_respects (sp : HCSpace) : Respects (CC.controls_planners sp) :=
  respects_of fun s s' t t' hs ht => by
    simp only [CC.controls_planners, CC00.get_controls, CC0pm.get_controls, CCpm0.get_controls, CCpmpm.get_controls,
      hs.cc00 ht, hs.cc0pm ht, hs.ccpm0 ht, hs.ccpmpm ht, and_self]

theorem hc_distance_respects (sp : HCSpace) : Respects (HC.distance_planners sp) :=
  respects_of fun s s' t t' hs ht => by
    simp only [HC.distance_planners, HcRs.get_distance, hs.hcrs ht, and_self]

theorem hc_controls_respects (sp : HCSpace) : Respects (HC.controls_planners sp) :=
  respects_of fun s s' t t' hs ht => by
    simp only [HC.controls_planners, HcRs.get_controls, hs.hcrs ht, and_self]

end SF
