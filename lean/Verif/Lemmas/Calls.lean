import Verif.Spec.Calls
import Verif.Props.Utilities

/-!
# Debug assertions of the turn functions
-/

noncomputable section

namespace Spec.Calls

open Real SF

/-- All calls have fitting arguments. -/
def Fine (l : List Move) : Prop := ∀ mv ∈ l, Suits mv

theorem fine_nil : Fine [] := fun _ h => absurd h List.not_mem_nil

theorem fine_cons {a : Move} {l : List Move} : Fine (a :: l) ↔ Suits a ∧ Fine l := List.forall_mem_cons

theorem fine_append {a b : List Move} : Fine (a ++ b) ↔ Fine a ∧ Fine b := List.forall_mem_append

theorem fine_ite {p : Prop} {_ : Decidable p} {a b : List Move} (ha : Fine a) (hb : Fine b) : Fine (if p then a else b) := by
  split_ifs <;> assumption

theorem fine_if {p : Prop} {_ : Decidable p} {a : List Move} (ha : Fine a) : Fine (if p then a else []) := fine_ite ha fine_nil

theorem eps_pos : (0:ℝ) < SF.epsilon := by norm_num [SF.epsilon]

theorem cc_fine {c : Circle} {q : Configuration} {o : Bool} (h : q.kappa = 0) : Suits (.cc c q o) := h

theorem hc_fine {c : Circle} {q : Configuration} {o : Bool} (h : |q.kappa| = |c.kappa|) : Suits (.hc c q o) := h

theorem rs_fine {c : Circle} {q : Configuration} {o : Bool} (h : |q.kappa| = |c.kappa|) (hs : |c.sigma| = dblMax) :
    Suits (.rs c q o) := ⟨h, hs⟩

theorem line_fine {q1 q2 : Configuration} : Suits (.line q1 q2) := trivial

theorem suits_assertion {mv : Move} (h : Suits mv) : mv.assertion := by
  cases mv with
  | cc c q o =>
    show |q.kappa| < _
    rw [show q.kappa = 0 from h, abs_zero]; exact eps_pos
  | hc c q o =>
    show |(|c.kappa| - |q.kappa|)| < _
    rw [show |q.kappa| = |c.kappa| from h, sub_self, abs_zero]; exact eps_pos
  | rs c q o =>
    obtain ⟨h, hs⟩ := h
    constructor
    · show |(|c.kappa| - |q.kappa|)| < _
      rw [h, sub_self, abs_zero]; exact eps_pos
    · rw [hs, sub_self, abs_zero]; exact eps_pos
  | line q1 q2 => trivial

theorem Fine.ok {l : List Move} (h : Fine l) : CallsOk l := fun mv hmv => ⟨h mv hmv, suits_assertion (h mv hmv)⟩

theorem circleAt_kappa (q : Configuration) (l f r : Bool) (P : CircleParam) : |(circleAt q l f r P).kappa| = |P.kappa| := by
  show |if l then P.kappa else -P.kappa| = _
  cases l <;> simp

theorem circleAt_sigma (q : Configuration) (l f r : Bool) (P : CircleParam) : |(circleAt q l f r P).sigma| = |P.sigma| := by
  show |if l then P.sigma else -P.sigma| = _
  cases l <;> simp

theorem centered_kappa (x y : ℝ) (l f r : Bool) (P : CircleParam) : |(circleCentered x y l f r P).kappa| = |P.kappa| := by
  show |if l then P.kappa else -P.kappa| = _
  cases l <;> simp

theorem rs_sigma (κ : ℝ) : |(rs_circle_param κ).sigma| = dblMax := by
  show |dblMax| = _
  rw [abs_of_nonneg]; unfold dblMax; positivity

/-! ### Tangent configurations -/

theorem TT_kappa (c1 c2 : Circle) : (CC00.TT_tangent_circles c1 c2).kappa = 0 := rfl

theorem TiST_kappa (c1 c2 : Circle) :
    (CC00.TiST_tangent_circles c1 c2).1.kappa = 0 ∧ (CC00.TiST_tangent_circles c1 c2).2.kappa = 0 := by
  unfold CC00.TiST_tangent_circles
  cases c1.left <;> cases c1.forward <;> exact ⟨rfl, rfl⟩

theorem TeST_kappa (c1 c2 : Circle) :
    (CC00.TeST_tangent_circles c1 c2).1.kappa = 0 ∧ (CC00.TeST_tangent_circles c1 c2).2.kappa = 0 := by
  unfold CC00.TeST_tangent_circles
  cases c1.left <;> cases c1.forward <;> exact ⟨rfl, rfl⟩

theorem hc_TciST_kappa (P : CircleParam) (m : Scratch) (c1 c2 : Circle) :
    (HcRs.TciST_tangents P m c1 c2).1.kappa = c1.kappa ∧ (HcRs.TciST_tangents P m c1 c2).2.kappa = 0 := by
  unfold HcRs.TciST_tangents
  cases c1.left <;> cases c1.forward <;> exact ⟨rfl, rfl⟩

theorem hc_TceST_kappa (P : CircleParam) (m : Scratch) (c1 c2 : Circle) :
    (HcRs.TceST_tangents P m c1 c2).1.kappa = c1.kappa ∧ (HcRs.TceST_tangents P m c1 c2).2.kappa = 0 := by
  unfold HcRs.TceST_tangents
  cases c1.left <;> cases c1.forward <;> exact ⟨rfl, rfl⟩

theorem hc_TiScT_kappa (P : CircleParam) (m : Scratch) (c1 c2 : Circle) :
    (HcRs.TiScT_tangents P m c1 c2).1.kappa = 0 ∧ (HcRs.TiScT_tangents P m c1 c2).2.kappa = c2.kappa := by
  unfold HcRs.TiScT_tangents
  cases c1.left <;> cases c1.forward <;> exact ⟨rfl, rfl⟩

theorem hc_TeScT_kappa (P : CircleParam) (m : Scratch) (c1 c2 : Circle) :
    (HcRs.TeScT_tangents P m c1 c2).1.kappa = 0 ∧ (HcRs.TeScT_tangents P m c1 c2).2.kappa = c2.kappa := by
  unfold HcRs.TeScT_tangents
  cases c1.left <;> cases c1.forward <;> exact ⟨rfl, rfl⟩

theorem hc_TciScT_kappa (m : Scratch) (c1 c2 : Circle) :
    (HcRs.TciScT_tangents m c1 c2).1.kappa = c1.kappa ∧ (HcRs.TciScT_tangents m c1 c2).2.kappa = c2.kappa := by
  unfold HcRs.TciScT_tangents
  cases c1.left <;> cases c1.forward <;> exact ⟨rfl, rfl⟩

theorem hc_TceScT_kappa (m : Scratch) (c1 c2 : Circle) :
    (HcRs.TceScT_tangents m c1 c2).1.kappa = c1.kappa ∧ (HcRs.TceScT_tangents m c1 c2).2.kappa = c2.kappa := by
  unfold HcRs.TceScT_tangents
  cases c1.left <;> cases c1.forward <;> exact ⟨rfl, rfl⟩

theorem cc_TciST_kappa (m : Scratch) (c1 c2 : Circle) :
    (CcRs.TciST_tangents m c1 c2).1.kappa = 0 ∧ (CcRs.TciST_tangents m c1 c2).2.kappa = 0 := by
  unfold CcRs.TciST_tangents
  cases c1.left <;> cases c1.forward <;> exact ⟨rfl, rfl⟩

theorem cc_TceST_kappa (m : Scratch) (c1 c2 : Circle) :
    (CcRs.TceST_tangents m c1 c2).1.kappa = 0 ∧ (CcRs.TceST_tangents m c1 c2).2.kappa = 0 := by
  unfold CcRs.TceST_tangents
  cases c1.left <;> cases c1.forward <;> exact ⟨rfl, rfl⟩

theorem cc_TiScT_kappa (m : Scratch) (c1 c2 : Circle) :
    (CcRs.TiScT_tangents m c1 c2).1.kappa = 0 ∧ (CcRs.TiScT_tangents m c1 c2).2.kappa = 0 := by
  unfold CcRs.TiScT_tangents
  cases c1.left <;> cases c1.forward <;> exact ⟨rfl, rfl⟩

theorem cc_TeScT_kappa (m : Scratch) (c1 c2 : Circle) :
    (CcRs.TeScT_tangents m c1 c2).1.kappa = 0 ∧ (CcRs.TeScT_tangents m c1 c2).2.kappa = 0 := by
  unfold CcRs.TeScT_tangents
  cases c1.left <;> cases c1.forward <;> exact ⟨rfl, rfl⟩

theorem cc_TciScT_kappa (m : Scratch) (c1 c2 : Circle) :
    (CcRs.TciScT_tangents m c1 c2).1.kappa = 0 ∧ (CcRs.TciScT_tangents m c1 c2).2.kappa = 0 := by
  unfold CcRs.TciScT_tangents
  cases c1.left <;> cases c1.forward <;> exact ⟨rfl, rfl⟩

theorem cc_TceScT_kappa (m : Scratch) (c1 c2 : Circle) :
    (CcRs.TceScT_tangents m c1 c2).1.kappa = 0 ∧ (CcRs.TceScT_tangents m c1 c2).2.kappa = 0 := by
  unfold CcRs.TceScT_tangents
  cases c1.left <;> cases c1.forward <;> exact ⟨rfl, rfl⟩

/-! ### CC-Reeds-Shepp -/


theorem cc_line_row_fine {c1 c2 : Circle} {q : Configuration × Configuration} (h : q.1.kappa = 0 ∧ q.2.kappa = 0) :
    Fine (CcRs.line_row c1 c2 q).moves :=
  fine_cons.2 ⟨cc_fine h.1, fine_cons.2 ⟨line_fine, fine_cons.2 ⟨cc_fine h.2, fine_nil⟩⟩⟩

theorem f2 {a b : Move} (ha : Suits a) (hb : Suits b) : Fine [a, b] :=
  fine_cons.2 ⟨ha, fine_cons.2 ⟨hb, fine_nil⟩⟩

theorem f3 {a b c : Move} (ha : Suits a) (hb : Suits b) (hc : Suits c) : Fine [a, b, c] :=
  fine_cons.2 ⟨ha, f2 hb hc⟩

theorem f4 {a b c d : Move} (ha : Suits a) (hb : Suits b) (hc : Suits c) (hd : Suits d) : Fine [a, b, c, d] :=
  fine_cons.2 ⟨ha, f3 hb hc hd⟩

theorem f5 {a b c d e : Move} (ha : Suits a) (hb : Suits b) (hc : Suits c) (hd : Suits d) (he : Suits e) :
    Fine [a, b, c, d, e] :=
  fine_cons.2 ⟨ha, f4 hb hc hd he⟩

theorem fine_row_ite {p : Prop} {_ : Decidable p} {a b : RSRow} (ha : Fine a.moves) (hb : Fine b.moves) :
    Fine (if p then a else b).moves := by
  split_ifs <;> assumption

theorem fine_row_nil : Fine ({} : RSRow).moves := fine_nil

theorem cc_family_fine (sp : HCSpace) (m : Scratch) (c1 c2 : Circle) (i : ℕ) : Fine (CcRs.family_calls sp m c1 c2 i) := by
  have z : ∀ x y t, (configuration x y t 0).kappa = 0 := fun _ _ _ => rfl
  unfold CcRs.family_calls
  dsimp only
  split
  · exact fine_if (f2 (cc_fine rfl) (cc_fine rfl))
  · refine fine_if (f2 (cc_fine ?_) (cc_fine ?_)) <;> split_ifs <;> rfl
  · exact fine_if (fine_append.2 ⟨f3 (cc_fine rfl) (cc_fine rfl) (cc_fine rfl), f3 (cc_fine rfl) (cc_fine rfl) (cc_fine rfl)⟩)
  · exact fine_if (fine_append.2 ⟨f3 (cc_fine rfl) (cc_fine rfl) (cc_fine rfl), f3 (cc_fine rfl) (cc_fine rfl) (cc_fine rfl)⟩)
  · exact fine_if (fine_append.2 ⟨f3 (cc_fine rfl) (cc_fine rfl) (cc_fine rfl), f3 (cc_fine rfl) (cc_fine rfl) (cc_fine rfl)⟩)
  · exact fine_row_ite (cc_line_row_fine (TiST_kappa _ _)) (fine_row_ite (cc_line_row_fine (TeST_kappa _ _)) fine_row_nil)
  · exact fine_row_ite (f4 (cc_fine (TiST_kappa _ _).1) line_fine (cc_fine rfl) (cc_fine rfl))
      (fine_row_ite (f4 (cc_fine (TeST_kappa _ _).1) line_fine (cc_fine rfl) (cc_fine rfl)) fine_row_nil)
  · exact fine_row_ite (f4 (cc_fine rfl) (cc_fine (TiST_kappa _ _).1) line_fine (cc_fine (TiST_kappa _ _).2))
      (fine_row_ite (f4 (cc_fine rfl) (cc_fine (TeST_kappa _ _).1) line_fine (cc_fine (TeST_kappa _ _).2)) fine_row_nil)
  · exact fine_row_ite (f5 (cc_fine rfl) (cc_fine (TiST_kappa _ _).1) line_fine (cc_fine rfl) (cc_fine rfl))
      (fine_row_ite (f5 (cc_fine rfl) (cc_fine (TeST_kappa _ _).1) line_fine (cc_fine rfl) (cc_fine rfl)) fine_row_nil)
  · exact fine_if (fine_append.2 ⟨f4 (cc_fine rfl) (cc_fine rfl) (cc_fine rfl) (cc_fine rfl), f4 (cc_fine rfl) (cc_fine rfl) (cc_fine rfl) (cc_fine rfl)⟩)
  · exact fine_if (fine_append.2 ⟨f4 (cc_fine rfl) (cc_fine rfl) (cc_fine rfl) (cc_fine rfl), f4 (cc_fine rfl) (cc_fine rfl) (cc_fine rfl) (cc_fine rfl)⟩)
  · exact fine_if (fine_append.2 ⟨f3 (cc_fine rfl) (cc_fine rfl) (cc_fine rfl), f3 (cc_fine rfl) (cc_fine rfl) (cc_fine rfl)⟩)
  · exact fine_row_ite (cc_line_row_fine (cc_TciST_kappa _ _ _)) (fine_row_ite (cc_line_row_fine (cc_TceST_kappa _ _ _)) fine_row_nil)
  · exact fine_row_ite (cc_line_row_fine (cc_TiScT_kappa _ _ _)) (fine_row_ite (cc_line_row_fine (cc_TeScT_kappa _ _ _)) fine_row_nil)
  · exact fine_row_ite (cc_line_row_fine (cc_TciScT_kappa _ _ _)) (fine_row_ite (cc_line_row_fine (cc_TceScT_kappa _ _ _)) fine_row_nil)
  · exact fine_nil

theorem shorter_sub {a b : RSRow} : (a.shorter b).moves ⊆ a.moves ++ b.moves := by
  unfold RSRow.shorter
  split_ifs
  · exact List.subset_append_left _ _
  · exact List.subset_append_right _ _

theorem sub_if {p : Prop} {_ : Decidable p} {r : RSRow} {l : List Move} (h : r.moves ⊆ l) :
    (if p then r else {}).moves ⊆ if p then l else [] := by
  split_ifs
  · exact h
  · exact List.nil_subset _

theorem sub_nan {p : Prop} {_ : Decidable p} {r : RSRow} {l : List Move} (h : r.moves ⊆ l) : (if p then {} else r).moves ⊆ l := by
  split_ifs
  · exact List.nil_subset _
  · exact h

theorem cc_family_sub (sp : HCSpace) (m : Scratch) (c1 c2 : Circle) (i : ℕ) :
    (CcRs.family sp m c1 c2 i).moves ⊆ CcRs.family_calls sp m c1 c2 i := by
  have e1 : 2 * c1.radius * c1.cos_mu = 2 * (c1.radius * c1.cos_mu) := by ring
  unfold CcRs.family CcRs.family_calls
  dsimp only
  split
  · exact sub_if (List.Subset.refl _)
  · exact sub_if (List.Subset.refl _)
  · unfold CcRs.TcTcT_path; dsimp only; rw [e1]; exact sub_if shorter_sub
  · unfold CcRs.TcTT_path; dsimp only; rw [e1]; exact sub_if (sub_nan shorter_sub)
  · unfold CcRs.TTcT_path; dsimp only; rw [e1]; exact sub_if (sub_nan shorter_sub)
  · exact List.Subset.refl _
  · exact List.Subset.refl _
  · exact List.Subset.refl _
  · exact List.Subset.refl _
  · unfold CcRs.TTcTT_path; dsimp only; rw [e1]; exact sub_if (sub_nan shorter_sub)
  · unfold CcRs.TcTTcT_path; dsimp only; rw [e1]; exact sub_if (sub_nan shorter_sub)
  · unfold CcRs.TTT_path; dsimp only; exact sub_if shorter_sub
  · exact List.Subset.refl _
  · exact List.Subset.refl _
  · exact List.Subset.refl _
  · exact List.nil_subset _

theorem cc_circles_fine (sp : HCSpace) {c1 c2 : Circle} (h : c2.start.kappa = 0) : Fine (CcRs.circles_calls sp c1 c2) := by
  unfold CcRs.circles_calls
  rcases e : CcRs.shortcut c1 c2 with _ | ⟨t, r⟩
  · intro mv hmv
    obtain ⟨i, _, hi⟩ := List.mem_flatMap.1 hmv
    exact cc_family_fine _ _ _ _ _ mv hi
  · dsimp only
    unfold CcRs.shortcut at e
    split_ifs at e <;> (injection e with e; injection e with _ e; rw [← e])
    · exact fine_nil
    · exact fine_cons.2 ⟨line_fine, fine_nil⟩
    · exact fine_cons.2 ⟨line_fine, fine_nil⟩
    · exact fine_cons.2 ⟨cc_fine h, fine_nil⟩

theorem cc_distance_fine (sp : HCSpace) (s1 s2 : State) : Fine (CcRs.distance_calls sp s1 s2) := by
  intro mv hmv
  obtain ⟨n, _, hn⟩ := List.mem_flatMap.1 hmv
  exact cc_circles_fine sp rfl mv hn

theorem cc_control_sub (sp : HCSpace) (s1 s2 : State) : CcRs.control_calls sp s1 s2 ⊆ CcRs.distance_calls sp s1 s2 := by
  have ha := Props.C04_array_index_min (fun n => (CcRs.path sp s1 s2 n).length) 16 (by norm_num)
  intro mv hmv
  refine List.mem_flatMap.2 ⟨_, List.mem_range.2 ha.1, ?_⟩
  have hmv' : mv ∈ (CcRs.path sp s1 s2 (array_index_min (fun n => (CcRs.path sp s1 s2 n).length) 16)).row.moves := hmv
  clear hmv
  generalize array_index_min (fun n => (CcRs.path sp s1 s2 n).length) 16 = n at *
  unfold CcRs.path CcRs.circles_rs_path at hmv'
  unfold CcRs.circles_calls
  generalize CcRs.end_circle sp s1 (n / 4) = c1 at *
  generalize CcRs.end_circle sp s2 (n % 4) = c2 at *
  have hb := Props.C04_array_index_min (fun i => (CcRs.table sp (scratch c1 c2) c1 c2 i).length) nb_hc_cc_rs_paths
    (by norm_num [nb_hc_cc_rs_paths])
  dsimp only at hmv'
  generalize array_index_min (fun i => (CcRs.table sp (scratch c1 c2) c1 c2 i).length) nb_hc_cc_rs_paths = i at *
  unfold CcRs.table at hmv'
  rcases e : CcRs.shortcut c1 c2 with _ | ⟨t, r⟩
  · rw [e] at hmv'
    exact List.mem_flatMap.2 ⟨i, List.mem_range.2 hb.1, cc_family_sub _ _ _ _ _ hmv'⟩
  · rw [e] at hmv'
    dsimp only at hmv' ⊢
    split_ifs at hmv'
    · exact hmv'
    · exact absurd hmv' List.not_mem_nil

/-! ### Hybrid-curvature Reeds-Shepp -/

/-- What the assertions need to know of a start or goal circle. -/
structure EndOk (pm : Bool) (sp : HCSpace) (c : Circle) : Prop where
  kappa : |c.kappa| = |sp.kappa|
  sigma : pm = true → |c.sigma| = dblMax
  start : |c.start.kappa| = if pm then |sp.kappa| else 0

theorem endOk (pm : Bool) (sp : HCSpace) (s : State) (i : ℕ) : EndOk pm sp (HcRs.end_circle pm sp s i) := by
  refine ⟨?_, ?_, ?_⟩
  · refine (circleAt_kappa _ _ _ _ _).trans ?_
    cases pm <;> rfl
  · rintro rfl
    exact (circleAt_sigma _ _ _ _ _).trans (rs_sigma _)
  · show |if pm then (if i % 2 = 0 then sp.kappa else -sp.kappa) else 0| = _
    cases pm
    · simp
    · simp only [if_true]; split_ifs <;> simp

section
variable {pm1 pm2 : Bool} {sp : HCSpace} {c1 c2 : Circle} {q : Configuration}

theorem param_kappa (sp : HCSpace) (q : Configuration) (l f r : Bool) : |(circleAt q l f r sp.param).kappa| = |sp.kappa| :=
  circleAt_kappa _ _ _ _ _

theorem rs_param_kappa (sp : HCSpace) (q : Configuration) (l f r : Bool) : |(circleAt q l f r sp.rs_param).kappa| = |sp.kappa| :=
  circleAt_kappa _ _ _ _ _

theorem firstT_fine (h : EndOk pm1 sp c1) (hq : q.kappa = 0) : Suits (HcRs.firstT pm1 sp.param c1 q) := by
  unfold HcRs.firstT
  split_ifs
  · exact hc_fine (h.kappa.trans (param_kappa _ _ _ _ _).symm)
  · exact cc_fine hq

theorem lastT_fine (h : EndOk pm2 sp c2) (hq : q.kappa = 0) : Suits (HcRs.lastT pm2 sp.param c2 q) := by
  unfold HcRs.lastT
  split_ifs
  · exact hc_fine (h.kappa.trans (param_kappa _ _ _ _ _).symm)
  · exact cc_fine hq

theorem firstTc_fine (h : EndOk pm1 sp c1) (hq : |q.kappa| = |sp.kappa|) : Suits (HcRs.firstTc pm1 c1 q) := by
  unfold HcRs.firstTc
  split_ifs with g
  · exact rs_fine (hq.trans h.kappa.symm) (h.sigma g)
  · exact hc_fine (hq.trans h.kappa.symm)

theorem lastcT_fine (h : EndOk pm2 sp c2) (hq : |q.kappa| = |sp.kappa|) : Suits (HcRs.lastcT pm2 c2 q) := by
  unfold HcRs.lastcT
  split_ifs with g
  · exact rs_fine (hq.trans h.kappa.symm) (h.sigma g)
  · exact hc_fine (hq.trans h.kappa.symm)

theorem mid_fine {q' : Configuration} {l f r o : Bool} (hq : |q.kappa| = |sp.kappa|) :
    Suits (.hc (circleAt q' l f r sp.param) q o) := hc_fine (hq.trans (param_kappa _ _ _ _ _).symm)

variable (h1 : EndOk pm1 sp c1) (h2 : EndOk pm2 sp c2)

include h1 h2 in
theorem hc_family_fine (m : Scratch) (i : ℕ) : Fine (HcRs.family_calls pm1 pm2 sp m c1 c2 i) := by
  have k : ∀ {x y l f r c}, |(HcRs.TcT_tangent_circles (circleCentered x y l f r sp.param) c).kappa| = |sp.kappa| :=
    fun {x y l f r _} => centered_kappa x y l f r _
  have a1 := @firstT_fine pm1 sp c1
  have a2 := @lastT_fine pm2 sp c2
  have a3 := @firstTc_fine pm1 sp c1
  have a4 := @lastcT_fine pm2 sp c2
  unfold HcRs.family_calls
  dsimp only
  split
  · exact fine_if (f2 (a1 h1 rfl) (a2 h2 rfl))
  · exact fine_if (f2 (a3 h1 h1.kappa) (a4 h2 h1.kappa))
  · refine fine_if (fine_append.2 ⟨?_, ?_⟩) <;>
      exact f3 (a3 h1 h1.kappa) (rs_fine (k.trans (rs_param_kappa _ _ _ _ _).symm) ((circleAt_sigma _ _ _ _ _).trans (rs_sigma _)))
        (a4 h2 k)
  · refine fine_if (fine_append.2 ⟨?_, ?_⟩) <;> exact f3 (a3 h1 h1.kappa) (mid_fine h1.kappa) (a2 h2 rfl)
  · refine fine_if (fine_append.2 ⟨?_, ?_⟩) <;> exact f3 (a1 h1 rfl) (mid_fine k) (a4 h2 k)
  · exact fine_row_ite (f3 (a1 h1 (TiST_kappa _ _).1) line_fine (a2 h2 (TiST_kappa _ _).2))
      (fine_row_ite (f3 (a1 h1 (TeST_kappa _ _).1) line_fine (a2 h2 (TeST_kappa _ _).2)) fine_row_nil)
  · exact fine_row_ite (f4 (a1 h1 (TiST_kappa _ _).1) line_fine (mid_fine k) (a4 h2 k))
      (fine_row_ite (f4 (a1 h1 (TeST_kappa _ _).1) line_fine (mid_fine k) (a4 h2 k)) fine_row_nil)
  · exact fine_row_ite (f4 (a3 h1 h1.kappa) (mid_fine h1.kappa) line_fine (a2 h2 (TiST_kappa _ _).2))
      (fine_row_ite (f4 (a3 h1 h1.kappa) (mid_fine h1.kappa) line_fine (a2 h2 (TeST_kappa _ _).2)) fine_row_nil)
  · exact fine_row_ite (f5 (a3 h1 h1.kappa) (mid_fine h1.kappa) line_fine (mid_fine k) (a4 h2 k))
      (fine_row_ite (f5 (a3 h1 h1.kappa) (mid_fine h1.kappa) line_fine (mid_fine k) (a4 h2 k)) fine_row_nil)
  · refine fine_if (fine_append.2 ⟨?_, ?_⟩) <;> exact f4 (a1 h1 rfl) (mid_fine k) (mid_fine k) (a2 h2 rfl)
  · refine fine_if (fine_append.2 ⟨?_, ?_⟩) <;> exact f4 (a3 h1 h1.kappa) (mid_fine h1.kappa) (mid_fine k) (a4 h2 k)
  · refine fine_if (fine_append.2 ⟨?_, ?_⟩) <;> exact f3 (a1 h1 rfl) (cc_fine rfl) (a2 h2 rfl)
  · have hi := hc_TciST_kappa sp.param m c1 c2
    have he := hc_TceST_kappa sp.param m c1 c2
    exact fine_row_ite (f3 (a3 h1 (by rw [hi.1]; exact h1.kappa)) line_fine (a2 h2 hi.2))
      (fine_row_ite (f3 (a3 h1 (by rw [he.1]; exact h1.kappa)) line_fine (a2 h2 he.2)) fine_row_nil)
  · have hi := hc_TiScT_kappa sp.param m c1 c2
    have he := hc_TeScT_kappa sp.param m c1 c2
    exact fine_row_ite (f3 (a1 h1 hi.1) line_fine (a4 h2 (by rw [hi.2]; exact h2.kappa)))
      (fine_row_ite (f3 (a1 h1 he.1) line_fine (a4 h2 (by rw [he.2]; exact h2.kappa))) fine_row_nil)
  · have hi := hc_TciScT_kappa m c1 c2
    have he := hc_TceScT_kappa m c1 c2
    exact fine_row_ite (f3 (a3 h1 (by rw [hi.1]; exact h1.kappa)) line_fine (a4 h2 (by rw [hi.2]; exact h2.kappa)))
      (fine_row_ite (f3 (a3 h1 (by rw [he.1]; exact h1.kappa)) line_fine (a4 h2 (by rw [he.2]; exact h2.kappa))) fine_row_nil)
  · exact fine_nil

include h1 h2 in
theorem hc_circles_fine : Fine (HcRs.circles_calls pm1 pm2 sp c1 c2) := by
  unfold HcRs.circles_calls
  dsimp only
  rcases e : HcRs.shortcut pm1 pm2 sp (scratch c1 c2) c1 c2 with _ | ⟨t, r⟩
  · intro mv hmv
    obtain ⟨i, _, hi⟩ := List.mem_flatMap.1 hmv
    exact hc_family_fine h1 h2 _ _ mv hi
  · dsimp only
    have k1 := h1.start
    have k2 := h2.start
    unfold HcRs.shortcut at e
    cases pm1 <;> cases pm2 <;> simp only [if_true, Bool.false_eq_true, if_false] at k1 k2 <;> dsimp only at e <;> split_ifs at e <;>
      (injection e with e; injection e with _ e; rw [← e])
    · exact fine_nil
    · exact fine_cons.2 ⟨line_fine, fine_nil⟩
    · exact fine_cons.2 ⟨line_fine, fine_nil⟩
    · exact fine_cons.2 ⟨cc_fine (abs_eq_zero.1 k2), fine_nil⟩
    · exact fine_nil
    · exact fine_cons.2 ⟨mid_fine k2, fine_nil⟩
    · exact fine_nil
    · exact fine_cons.2 ⟨mid_fine k1, fine_nil⟩
    · exact fine_nil
    · exact fine_cons.2 ⟨rs_fine (k2.trans (rs_param_kappa _ _ _ _ _).symm) ((circleAt_sigma _ _ _ _ _).trans (rs_sigma _)), fine_nil⟩

end

theorem hc_distance_fine (pm1 pm2 : Bool) (sp : HCSpace) (s1 s2 : State) : Fine (HcRs.distance_calls pm1 pm2 sp s1 s2) := by
  intro mv hmv
  obtain ⟨n, _, hn⟩ := List.mem_flatMap.1 hmv
  split_ifs at hn
  · exact absurd hn List.not_mem_nil
  · exact hc_circles_fine (endOk _ _ _ _) (endOk _ _ _ _) mv hn

theorem hc_family_sub (pm1 pm2 : Bool) (sp : HCSpace) (m : Scratch) (c1 c2 : Circle) (i : ℕ) :
    (HcRs.family pm1 pm2 sp m c1 c2 i).moves ⊆ HcRs.family_calls pm1 pm2 sp m c1 c2 i := by
  unfold HcRs.family HcRs.family_calls
  dsimp only
  split
  · exact sub_if (List.Subset.refl _)
  · exact sub_if (List.Subset.refl _)
  · exact sub_if shorter_sub
  · exact sub_if (sub_nan shorter_sub)
  · exact sub_if (sub_nan shorter_sub)
  · exact List.Subset.refl _
  · exact List.Subset.refl _
  · exact List.Subset.refl _
  · exact List.Subset.refl _
  · exact sub_if (sub_nan shorter_sub)
  · exact sub_if (sub_nan shorter_sub)
  · exact sub_if shorter_sub
  · exact List.Subset.refl _
  · exact List.Subset.refl _
  · exact List.Subset.refl _
  · exact List.nil_subset _

theorem hc_control_sub {pm1 pm2 : Bool} {sp : HCSpace} {s1 s2 : State} {l : List Move}
    (h : HcRs.control_calls pm1 pm2 sp s1 s2 = some l) : l ⊆ HcRs.distance_calls pm1 pm2 sp s1 s2 := by
  have ha := Props.C04_array_index_min (fun n => ((HcRs.path pm1 pm2 sp s1 s2 n).map HcRs.RSPath.length).getD dblMax) 16 (by norm_num)
  obtain ⟨p, hp, rfl⟩ := Option.map_eq_some_iff.1 h
  intro mv hmv
  refine List.mem_flatMap.2 ⟨_, List.mem_range.2 ha.1, ?_⟩
  unfold HcRs.reeds_shepp at hp
  generalize array_index_min (fun n => ((HcRs.path pm1 pm2 sp s1 s2 n).map HcRs.RSPath.length).getD dblMax) 16 = n at *
  unfold HcRs.path at hp
  split_ifs at hp with g
  rw [if_neg g]
  injection hp with hp
  rw [← hp] at hmv
  unfold HcRs.circles_rs_path at hmv
  unfold HcRs.circles_calls
  generalize HcRs.end_circle pm1 sp s1 (n / 4) = c1 at *
  generalize HcRs.end_circle pm2 sp s2 (n % 4) = c2 at *
  have hb := Props.C04_array_index_min (fun i => (HcRs.table pm1 pm2 sp (scratch c1 c2) c1 c2 i).length) nb_hc_cc_rs_paths
    (by norm_num [nb_hc_cc_rs_paths])
  dsimp only at hmv
  generalize array_index_min (fun i => (HcRs.table pm1 pm2 sp (scratch c1 c2) c1 c2 i).length) nb_hc_cc_rs_paths = i at *
  unfold HcRs.table at hmv
  dsimp only
  rcases e : HcRs.shortcut pm1 pm2 sp (scratch c1 c2) c1 c2 with _ | ⟨t, r⟩
  · rw [e] at hmv
    exact List.mem_flatMap.2 ⟨i, List.mem_range.2 hb.1, hc_family_sub _ _ _ _ _ _ _ hmv⟩
  · rw [e] at hmv
    dsimp only at hmv ⊢
    split_ifs at hmv
    · exact hmv
    · exact absurd hmv List.not_mem_nil

/-! ### CC-Dubins -/

theorem cc00_circles_fine (sp : HCSpace) {c1 c2 : Circle} (h : c2.start.kappa = 0) : Fine (CC00.circles_calls sp c1 c2) := by
  unfold CC00.circles_calls
  refine fine_ite fine_nil (fine_ite fine_nil (fine_ite fine_nil (fine_ite (fine_cons.2 ⟨cc_fine h, fine_nil⟩) ?_)))
  refine fine_append.2 ⟨fine_append.2 ⟨fine_if (f2 (cc_fine rfl) (cc_fine rfl)), ?_⟩, fine_if ?_⟩
  · exact fine_ite (f3 (cc_fine (TiST_kappa _ _).1) line_fine (cc_fine (TiST_kappa _ _).2))
      (fine_if (f3 (cc_fine (TeST_kappa _ _).1) line_fine (cc_fine (TeST_kappa _ _).2)))
  · exact fine_cons.2 ⟨cc_fine rfl, f5 (cc_fine rfl) (cc_fine rfl) (cc_fine rfl) (cc_fine rfl) (cc_fine rfl)⟩

theorem cc00_distance_fine (sp : HCSpace) (s1 s2 : State) : Fine (CC00.distance_calls sp s1 s2) := by
  intro mv hmv
  obtain ⟨n, _, hn⟩ := List.mem_flatMap.1 hmv
  exact cc00_circles_fine sp rfl mv hn

theorem cc0pm_circles_fine {sp : HCSpace} {c1 c2 : Circle} (h : EndOk true sp c2) : Fine (CC0pm.circles_calls sp c1 c2) := by
  have k : |(CC0pm.last c2).kappa| = |sp.kappa| := h.kappa
  have k' : |c2.start.kappa| = |sp.kappa| := by simpa using h.start
  unfold CC0pm.circles_calls
  refine fine_ite fine_nil (fine_ite (fine_cons.2 ⟨mid_fine k', fine_nil⟩) ?_)
  refine fine_append.2 ⟨fine_append.2 ⟨fine_if (f2 (cc_fine rfl) (mid_fine k)), ?_⟩, fine_if ?_⟩
  · exact fine_ite (f3 (cc_fine (TiST_kappa _ _).1) line_fine (mid_fine k))
      (fine_if (f3 (cc_fine (TeST_kappa _ _).1) line_fine (mid_fine k)))
  · exact fine_cons.2 ⟨cc_fine rfl, f5 (cc_fine rfl) (mid_fine k) (cc_fine rfl) (cc_fine rfl) (mid_fine k)⟩

theorem ccpm0_circles_fine {sp : HCSpace} {c1 c2 : Circle} (h : EndOk true sp c1) : Fine (CCpm0.circles_calls sp c1 c2) := by
  have k : |(CCpm0.first c1).kappa| = |sp.kappa| := h.kappa
  have k' : |c1.start.kappa| = |sp.kappa| := by simpa using h.start
  unfold CCpm0.circles_calls
  refine fine_ite fine_nil (fine_ite (fine_cons.2 ⟨mid_fine k', fine_nil⟩) ?_)
  refine fine_append.2 ⟨fine_append.2 ⟨fine_if (f2 (mid_fine k) (cc_fine rfl)), ?_⟩, fine_if ?_⟩
  · exact fine_ite (f3 (mid_fine k) line_fine (cc_fine (TiST_kappa _ _).2))
      (fine_if (f3 (mid_fine k) line_fine (cc_fine (TeST_kappa _ _).2)))
  · exact fine_cons.2 ⟨mid_fine k, f5 (cc_fine rfl) (cc_fine rfl) (mid_fine k) (cc_fine rfl) (cc_fine rfl)⟩

theorem ccpmpm_circles_fine {sp : HCSpace} {c1 c2 : Circle} (h1 : EndOk true sp c1) (h2 : EndOk true sp c2) :
    Fine (CCpmpm.circles_calls sp c1 c2) := by
  have k1 : |(CCpmpm.outer c1).kappa| = |sp.kappa| := h1.kappa
  have k2 : |(CCpmpm.outer c2).kappa| = |sp.kappa| := h2.kappa
  have k' : |c2.start.kappa| = |sp.kappa| := by simpa using h2.start
  unfold CCpmpm.circles_calls
  refine fine_ite fine_nil (fine_ite (fine_cons.2 ⟨rs_fine (k'.trans (rs_param_kappa _ _ _ _ _).symm)
    ((circleAt_sigma _ _ _ _ _).trans (rs_sigma _)), fine_nil⟩) ?_)
  refine fine_append.2 ⟨fine_append.2 ⟨fine_append.2 ⟨fine_if (f2 (mid_fine k1) (mid_fine k2)), ?_⟩, fine_if ?_⟩, fine_if ?_⟩
  · exact fine_ite (f3 (mid_fine k1) line_fine (mid_fine k2)) (fine_if (f3 (mid_fine k1) line_fine (mid_fine k2)))
  · exact fine_cons.2 ⟨mid_fine k1, f5 (cc_fine rfl) (mid_fine k2) (mid_fine k1) (cc_fine rfl) (mid_fine k2)⟩
  · exact fine_append.2 ⟨f4 (mid_fine k1) (cc_fine rfl) (cc_fine rfl) (mid_fine k2),
      f4 (mid_fine k1) (cc_fine rfl) (cc_fine rfl) (mid_fine k2)⟩

theorem pm_endOk {sp : HCSpace} {x y t : ℝ} {p : Prop} {_ : Decidable p} {l f r : Bool} :
    EndOk true sp (circleAt (if p then configuration x y t sp.kappa else configuration x y t (-sp.kappa)) l f r sp.rs_param) := by
  refine ⟨rs_param_kappa _ _ _ _ _, fun _ => (circleAt_sigma _ _ _ _ _).trans (rs_sigma _), ?_⟩
  show |(if p then configuration x y t sp.kappa else configuration x y t (-sp.kappa)).kappa| = |sp.kappa|
  split_ifs
  · rfl
  · exact abs_neg _

theorem cc0pm_distance_fine (sp : HCSpace) (s1 s2 : State) : Fine (CC0pm.distance_calls sp s1 s2) := by
  intro mv hmv
  obtain ⟨n, _, hn⟩ := List.mem_flatMap.1 hmv
  split_ifs at hn
  · exact absurd hn List.not_mem_nil
  · exact absurd hn List.not_mem_nil
  · exact cc0pm_circles_fine pm_endOk mv hn

theorem ccpm0_distance_fine (sp : HCSpace) (s1 s2 : State) : Fine (CCpm0.distance_calls sp s1 s2) := by
  intro mv hmv
  obtain ⟨n, _, hn⟩ := List.mem_flatMap.1 hmv
  split_ifs at hn
  · exact absurd hn List.not_mem_nil
  · exact absurd hn List.not_mem_nil
  · exact ccpm0_circles_fine pm_endOk mv hn

theorem ccpmpm_distance_fine (sp : HCSpace) (s1 s2 : State) : Fine (CCpmpm.distance_calls sp s1 s2) := by
  intro mv hmv
  obtain ⟨n, _, hn⟩ := List.mem_flatMap.1 hmv
  split_ifs at hn
  · exact absurd hn List.not_mem_nil
  · exact absurd hn List.not_mem_nil
  · exact absurd hn List.not_mem_nil
  · exact absurd hn List.not_mem_nil
  · exact ccpmpm_circles_fine pm_endOk pm_endOk mv hn

/-! Calls of `get_controls`. -/

/-- The calls for the path of type `i` with column `r` are fine. -/
def ColOk (calls : CCPath → Option (List Move)) (s e : Configuration) (i : ℕ) (r : Row) : Prop :=
  ∀ l, calls ⟨s, e, i, r⟩ = some l → Fine l

section
variable {calls : CCPath → Option (List Move)} {s e : Configuration} {t : Table}

theorem col_set {k : ℕ} {r : Row} (h : ∀ i, ColOk calls s e i (t i)) (hr : ColOk calls s e k r) :
    ∀ i, ColOk calls s e i (t.set k r i) := by
  intro i
  unfold Table.set
  split_ifs with g
  · rw [g]; exact hr
  · exact h i

theorem col_ite {p : Prop} {_ : Decidable p} {t' : Table} (h : ∀ i, ColOk calls s e i (t i)) (h' : ∀ i, ColOk calls s e i (t' i)) :
    ∀ i, ColOk calls s e i ((if p then t else t') i) := by
  split_ifs <;> assumption

theorem col_row_ite {p : Prop} {_ : Decidable p} {r r' : Row} {k : ℕ} (h : ColOk calls s e k r) (h' : ColOk calls s e k r') :
    ColOk calls s e k (if p then r else r') := by
  split_ifs <;> assumption

theorem col_some {r : Row} {k : ℕ} {l : List Move} (h : calls ⟨s, e, k, r⟩ = some l) (hl : Fine l) : ColOk calls s e k r := by
  intro l' h'
  rw [h] at h'
  injection h' with h'
  rwa [← h']

end

theorem col_init00 {s e : Configuration} (i : ℕ) : ColOk CC00.path_calls s e i (Table.init i) := by
  intro l h
  unfold CC00.path_calls at h
  dsimp only at h
  split at h <;> cases h
  · exact fine_cons.2 ⟨line_fine, fine_nil⟩
  · exact fine_nil

theorem col_init0pm {s e : Configuration} (i : ℕ) : ColOk CC0pm.path_calls s e i (Table.init i) := by
  intro l h
  unfold CC0pm.path_calls at h
  dsimp only at h
  split at h <;> cases h
  exact fine_nil

theorem col_initpm0 {s e : Configuration} (i : ℕ) : ColOk CCpm0.path_calls s e i (Table.init i) := by
  intro l h
  unfold CCpm0.path_calls at h
  dsimp only at h
  split at h <;> cases h
  exact fine_nil

theorem col_initpmpm {s e : Configuration} (i : ℕ) : ColOk CCpmpm.path_calls s e i (Table.init i) := by
  intro l h
  unfold CCpmpm.path_calls at h
  dsimp only at h
  split at h <;> cases h
  exact fine_nil

theorem col_none {calls : CCPath → Option (List Move)} {s e : Configuration} {r : Row} {k : ℕ} (h : calls ⟨s, e, k, r⟩ = none) :
    ColOk calls s e k r := by
  intro l' h'
  rw [h] at h'
  cases h'

open Classical in
theorem cc00_cols (sp : HCSpace) (m : Scratch) {c1 c2 : Circle} (h : c2.start.kappa = 0) :
    ∀ i, ColOk CC00.path_calls c1.start c2.start i (CC00.table sp m c1 c2 i) := by
  unfold CC00.table
  refine col_ite (col_set col_init00 (col_some rfl fine_nil)) (col_ite (col_set col_init00 ?_) (col_ite (col_set col_init00 ?_)
    (col_ite (col_set col_init00 ?_) ?_)))
  · exact col_some rfl (fine_cons.2 ⟨line_fine, fine_nil⟩)
  · exact col_some rfl (fine_cons.2 ⟨line_fine, fine_nil⟩)
  · exact col_some rfl (fine_cons.2 ⟨cc_fine h, fine_nil⟩)
  obtain ⟨t, ht⟩ : ∃ t, t = if CC00.TT_exists m c1 c2 then Table.init.set cc_dubins.TT { length := (CC00.TT_path c1 c2).1, qi1 := some (CC00.TT_path c1 c2).2, cstart := some c1, cend := some c2 } else Table.init := ⟨_, rfl⟩
  have hT : ∀ i, ColOk CC00.path_calls c1.start c2.start i (t i) := by
    rw [ht]
    exact col_ite (col_set col_init00 (col_some rfl (f2 (cc_fine rfl) (cc_fine rfl)))) col_init00
  rw [← ht]
  obtain ⟨t', ht'⟩ : ∃ t', t' = if CC00.TST_exists m c1 c2 then t.set cc_dubins.TST (CC00.TST_path m c1 c2) else t := ⟨_, rfl⟩
  have hT' : ∀ i, ColOk CC00.path_calls c1.start c2.start i (t' i) := by
    rw [ht']
    refine col_ite (col_set hT ?_) hT
    unfold CC00.TST_path
    exact col_row_ite (col_some rfl (f3 (cc_fine (TiST_kappa _ _).1) line_fine (cc_fine (TiST_kappa _ _).2)))
      (col_row_ite (col_some rfl (f3 (cc_fine (TeST_kappa _ _).1) line_fine (cc_fine (TeST_kappa _ _).2))) (col_none rfl))
  rw [← ht']
  refine col_ite (col_set hT' ?_) hT'
  unfold CC00.TTT_path
  dsimp only
  split_ifs
  · exact col_some rfl (f3 (cc_fine rfl) (cc_fine rfl) (cc_fine rfl))
  · exact col_some rfl (f3 (cc_fine rfl) (cc_fine rfl) (cc_fine rfl))

open Classical in
theorem cc0pm_cols {sp : HCSpace} (m : Scratch) {c1 c2 : Circle} (h : EndOk true sp c2) :
    ∀ i, ColOk CC0pm.path_calls c1.start c2.start i (CC0pm.table sp m c1 c2 i) := by
  have k : |(CC0pm.last c2).kappa| = |sp.kappa| := h.kappa
  have k' : |c2.start.kappa| = |sp.kappa| := by simpa using h.start
  unfold CC0pm.table
  refine col_ite (col_set col_init0pm (col_some rfl fine_nil)) (col_ite (col_set col_init0pm ?_) ?_)
  · exact col_some rfl (fine_cons.2 ⟨mid_fine k', fine_nil⟩)
  obtain ⟨t, ht⟩ : ∃ t, t = if CC0pm.TT_exists m c1 c2 then Table.init.set cc_dubins.TT (CC0pm.TT_path sp.param c1 c2) else Table.init := ⟨_, rfl⟩
  have hT : ∀ i, ColOk CC0pm.path_calls c1.start c2.start i (t i) := by
    rw [ht]
    exact col_ite (col_set col_init0pm (col_some rfl (f2 (cc_fine rfl) (mid_fine k)))) col_init0pm
  rw [← ht]
  obtain ⟨t', ht'⟩ : ∃ t', t' = if CC0pm.TST_exists m c1 c2 then t.set cc_dubins.TST (CC0pm.TST_path sp.param m c1 c2) else t := ⟨_, rfl⟩
  have hT' : ∀ i, ColOk CC0pm.path_calls c1.start c2.start i (t' i) := by
    rw [ht']
    refine col_ite (col_set hT ?_) hT
    unfold CC0pm.TST_path
    exact col_row_ite (col_some rfl (f3 (cc_fine (TiST_kappa _ _).1) line_fine (mid_fine k)))
      (col_row_ite (col_some rfl (f3 (cc_fine (TeST_kappa _ _).1) line_fine (mid_fine k))) (col_none rfl))
  rw [← ht']
  refine col_ite (col_set hT' ?_) hT'
  unfold CC0pm.TTT_path
  exact col_row_ite (col_some rfl (f3 (cc_fine rfl) (cc_fine rfl) (mid_fine k)))
    (col_some rfl (f3 (cc_fine rfl) (cc_fine rfl) (mid_fine k)))

open Classical in
theorem ccpm0_cols {sp : HCSpace} (m : Scratch) {c1 c2 : Circle} (h : EndOk true sp c1) :
    ∀ i, ColOk CCpm0.path_calls c1.start c2.start i (CCpm0.table sp m c1 c2 i) := by
  have k : |(CCpm0.first c1).kappa| = |sp.kappa| := h.kappa
  have k' : |c1.start.kappa| = |sp.kappa| := by simpa using h.start
  unfold CCpm0.table
  refine col_ite (col_set col_initpm0 (col_some rfl fine_nil)) (col_ite (col_set col_initpm0 ?_) ?_)
  · exact col_some rfl (fine_cons.2 ⟨mid_fine k', fine_nil⟩)
  obtain ⟨t, ht⟩ : ∃ t, t = if CCpm0.TT_exists m c1 c2 then Table.init.set cc_dubins.TT (CCpm0.TT_path sp.param c1 c2) else Table.init := ⟨_, rfl⟩
  have hT : ∀ i, ColOk CCpm0.path_calls c1.start c2.start i (t i) := by
    rw [ht]
    exact col_ite (col_set col_initpm0 (col_some rfl (f2 (mid_fine k) (cc_fine rfl)))) col_initpm0
  rw [← ht]
  obtain ⟨t', ht'⟩ : ∃ t', t' = if CCpm0.TST_exists m c1 c2 then t.set cc_dubins.TST (CCpm0.TST_path sp.param m c1 c2) else t := ⟨_, rfl⟩
  have hT' : ∀ i, ColOk CCpm0.path_calls c1.start c2.start i (t' i) := by
    rw [ht']
    refine col_ite (col_set hT ?_) hT
    unfold CCpm0.TST_path
    exact col_row_ite (col_some rfl (f3 (mid_fine k) line_fine (cc_fine (TiST_kappa _ _).2)))
      (col_row_ite (col_some rfl (f3 (mid_fine k) line_fine (cc_fine (TeST_kappa _ _).2))) (col_none rfl))
  rw [← ht']
  refine col_ite (col_set hT' ?_) hT'
  unfold CCpm0.TTT_path
  exact col_row_ite (col_some rfl (f3 (mid_fine k) (cc_fine rfl) (cc_fine rfl)))
    (col_some rfl (f3 (mid_fine k) (cc_fine rfl) (cc_fine rfl)))

open Classical in
theorem ccpmpm_cols {sp : HCSpace} (m : Scratch) {c1 c2 : Circle} (h1 : EndOk true sp c1) (h2 : EndOk true sp c2) :
    ∀ i, ColOk CCpmpm.path_calls c1.start c2.start i (CCpmpm.table sp m c1 c2 i) := by
  have k1 : |(CCpmpm.outer c1).kappa| = |sp.kappa| := h1.kappa
  have k2 : |(CCpmpm.outer c2).kappa| = |sp.kappa| := h2.kappa
  have k' : |c2.start.kappa| = |sp.kappa| := by simpa using h2.start
  unfold CCpmpm.table
  refine col_ite (col_set col_initpmpm (col_some rfl fine_nil)) (col_ite (col_set col_initpmpm ?_) ?_)
  · exact col_some rfl (fine_cons.2 ⟨rs_fine (k'.trans (rs_param_kappa _ _ _ _ _).symm)
      ((circleAt_sigma _ _ _ _ _).trans (rs_sigma _)), fine_nil⟩)
  obtain ⟨t, ht⟩ : ∃ t, t = if CCpmpm.TT_exists sp.param m c1 c2 then Table.init.set cc_dubins.TT (CCpmpm.TT_path sp.param c1 c2) else Table.init := ⟨_, rfl⟩
  have hT : ∀ i, ColOk CCpmpm.path_calls c1.start c2.start i (t i) := by
    rw [ht]
    exact col_ite (col_set col_initpmpm (col_some rfl (f2 (mid_fine k1) (mid_fine k2)))) col_initpmpm
  rw [← ht]
  obtain ⟨t', ht'⟩ : ∃ t', t' = if CCpmpm.TST_exists sp.param m c1 c2 then t.set cc_dubins.TST (CCpmpm.TST_path sp.param m c1 c2) else t := ⟨_, rfl⟩
  have hT' : ∀ i, ColOk CCpmpm.path_calls c1.start c2.start i (t' i) := by
    rw [ht']
    refine col_ite (col_set hT ?_) hT
    unfold CCpmpm.TST_path
    exact col_row_ite (col_some rfl (f3 (mid_fine k1) line_fine (mid_fine k2)))
      (col_row_ite (col_some rfl (f3 (mid_fine k1) line_fine (mid_fine k2))) (col_none rfl))
  rw [← ht']
  obtain ⟨u, hu⟩ : ∃ u, u = if CCpmpm.TTT_exists sp.param m c1 c2 then t'.set cc_dubins.TTT (CCpmpm.TTT_path sp.param m c1 c2) else t' := ⟨_, rfl⟩
  have hU : ∀ i, ColOk CCpmpm.path_calls c1.start c2.start i (u i) := by
    rw [hu]
    refine col_ite (col_set hT' ?_) hT'
    unfold CCpmpm.TTT_path
    exact col_row_ite (col_some rfl (f3 (mid_fine k1) (cc_fine rfl) (mid_fine k2)))
      (col_some rfl (f3 (mid_fine k1) (cc_fine rfl) (mid_fine k2)))
  rw [← hu]
  refine col_ite (col_set hU ?_) hU
  unfold CCpmpm.TTTT_path
  exact col_row_ite (col_some rfl (f4 (mid_fine k1) (cc_fine rfl) (cc_fine rfl) (mid_fine k2)))
    (col_some rfl (f4 (mid_fine k1) (cc_fine rfl) (cc_fine rfl) (mid_fine k2)))

theorem cc00_control_fine {sp : HCSpace} {s1 s2 : State} {l : List Move} (h : CC00.control_calls sp s1 s2 = some l) : Fine l :=
  cc00_cols sp _ (c2 := CC00.end_circle sp (configuration s2.x s2.y s2.theta 0) _) rfl _ l h

theorem cc0pm_control_fine {sp : HCSpace} {s1 s2 : State} {l : List Move} (h : CC0pm.control_calls sp s1 s2 = some l) : Fine l := by
  obtain ⟨p, hp, hl⟩ := Option.bind_eq_some_iff.1 h
  unfold CC0pm.cc0pm_dubins best_of CC0pm.path at hp
  split_ifs at hp
  injection hp with hp
  rw [← hp] at hl
  exact cc0pm_cols _ (c2 := CC0pm.end_circle sp s2 _) pm_endOk _ l hl

theorem ccpm0_control_fine {sp : HCSpace} {s1 s2 : State} {l : List Move} (h : CCpm0.control_calls sp s1 s2 = some l) : Fine l := by
  obtain ⟨p, hp, hl⟩ := Option.bind_eq_some_iff.1 h
  unfold CCpm0.ccpm0_dubins best_of CCpm0.path at hp
  split_ifs at hp
  injection hp with hp
  rw [← hp] at hl
  exact ccpm0_cols _ (c1 := CCpm0.start_circle sp s1 _) pm_endOk _ l hl

theorem ccpmpm_control_fine {sp : HCSpace} {s1 s2 : State} {l : List Move} (h : CCpmpm.control_calls sp s1 s2 = some l) : Fine l := by
  obtain ⟨p, hp, hl⟩ := Option.bind_eq_some_iff.1 h
  unfold CCpmpm.ccpmpm_dubins best_of CCpmpm.path at hp
  split_ifs at hp
  injection hp with hp
  rw [← hp] at hl
  exact ccpmpm_cols _ (c1 := CCpmpm.start_circle sp s1 _) (c2 := CCpmpm.end_circle sp s2 _) pm_endOk pm_endOk _ l hl

/-! ### The controls come from the calls -/

theorem cc00_link {p : CCPath} (h : p.type ≠ 0) :
    CC00.path_controls p = (CC00.path_calls p).map (·.flatMap Move.controls) := by
  unfold CC00.path_controls CC00.path_calls
  rcases p with ⟨s, e, i, r⟩
  dsimp only at h ⊢
  split
  · exact absurd rfl h
  all_goals simp [Option.map_bind, Function.comp_def, Option.map_map, Move.controls]

theorem cc0pm_link {p : CCPath} (h : p.type ≠ 0) :
    CC0pm.path_controls p = (CC0pm.path_calls p).map (·.flatMap Move.controls) := by
  unfold CC0pm.path_controls CC0pm.path_calls
  rcases p with ⟨s, e, i, r⟩
  dsimp only at h ⊢
  split
  · exact absurd rfl h
  all_goals simp [Option.map_bind, Function.comp_def, Option.map_map, Move.controls]

theorem ccpm0_link {p : CCPath} (h : p.type ≠ 0) :
    CCpm0.path_controls p = (CCpm0.path_calls p).map (·.flatMap Move.controls) := by
  unfold CCpm0.path_controls CCpm0.path_calls
  rcases p with ⟨s, e, i, r⟩
  dsimp only at h ⊢
  split
  · exact absurd rfl h
  all_goals simp [Option.map_bind, Function.comp_def, Option.map_map, Move.controls]

theorem ccpmpm_link {p : CCPath} (h : p.type ≠ 0) :
    CCpmpm.path_controls p = (CCpmpm.path_calls p).map (·.flatMap Move.controls) := by
  unfold CCpmpm.path_controls CCpmpm.path_calls
  rcases p with ⟨s, e, i, r⟩
  dsimp only at h ⊢
  split
  · exact absurd rfl h
  all_goals simp [Option.map_bind, Function.comp_def, Option.map_map, Move.controls]

end Spec.Calls
