import Verif.Model.History
import Verif.Props.Utilities

/-!
# Histories of queries
-/

noncomputable section

namespace SF

/-- `array_index_min` reads the entries below the size only. -/
theorem array_index_min_congr {a b : ℕ → ℝ} {n : ℕ} (hn : 1 ≤ n) (h : ∀ i < n, a i = b i) :
    array_index_min a n = array_index_min b n := by
  obtain ⟨a1, a2, a3⟩ := Props.C04_array_index_min a n hn
  obtain ⟨b1, b2, b3⟩ := Props.C04_array_index_min b n hn
  rcases lt_trichotomy (array_index_min a n) (array_index_min b n) with hl | hl | hl
  · have := b3 _ hl
    rw [← h _ a1, ← h _ b1] at this
    linarith [a2 _ b1]
  · exact hl
  · have := a3 _ hl
    rw [h _ a1, h _ b1] at this
    linarith [b2 _ a1]

namespace History

/-- The results of the calls do not depend on the members before the query. -/
theorem query_snd {α : Type} (rest : Scratch → Circle → Circle → α) (m : Scratch) (cs : List (Option (Circle × Circle))) :
    (query rest m cs).2 = cs.map fun c => c.map fun p => rest (scratch p.1 p.2) p.1 p.2 := by
  induction cs generalizing m with
  | nil => rfl
  | cons c cs ih =>
    match c with
    | none => simp only [query, List.map_cons, Option.map_none, ih]
    | some (c1, c2) => simp only [query, List.map_cons, Option.map_some, ih]

theorem entry_query {α : Type} (rest : Scratch → Circle → Circle → α) (m : Scratch) (calls : ℕ → Option (Circle × Circle)) (k : ℕ)
    {n : ℕ} (hn : n < k) :
    entry (query rest m ((List.range k).map calls)).2 n = (calls n).map fun p => rest (scratch p.1 p.2) p.1 p.2 := by
  unfold entry
  rw [query_snd, List.map_map]
  simp [List.getD, List.getElem?_range hn]

theorem least_congr {α : Type} (length : α → ℝ) {k : ℕ} (hk : 1 ≤ k) {p q : ℕ → Option α} (h : ∀ n < k, p n = q n) :
    least length k p = least length k q := by
  unfold least
  rw [array_index_min_congr (b := fun n => ((q n).map length).getD dblMax) hk fun i hi => by rw [h i hi]]
  exact h _ (Props.C04_array_index_min _ k hk).1

theorem least_query {α : Type} (length : α → ℝ) (rest : Scratch → Circle → Circle → α) (m : Scratch)
    (calls : ℕ → Option (Circle × Circle)) {k : ℕ} (hk : 1 ≤ k) :
    least length k (entry (query rest m ((List.range k).map calls)).2)
      = least length k fun n => (calls n).map fun p => rest (scratch p.1 p.2) p.1 p.2 :=
  least_congr length hk fun _ hn => entry_query rest m calls k hn

theorem least_some {α : Type} (length : α → ℝ) {k : ℕ} (p : ℕ → α) :
    least length k (fun n => some (p n)) = some (p (array_index_min (fun n => length (p n)) k)) := rfl

/-- What an object answers whose members were never used before. -/
def fresh (k : Kind) (sp : HCSpace) (s1 s2 : State) : Answer :=
  match k with
  | .cc00 => ⟨some (CC00.get_distance sp s1 s2), CC00.get_controls sp s1 s2⟩
  | .cc0pm => ⟨CC0pm.get_distance sp s1 s2, CC0pm.get_controls sp s1 s2⟩
  | .ccpm0 => ⟨CCpm0.get_distance sp s1 s2, CCpm0.get_controls sp s1 s2⟩
  | .ccpmpm => ⟨CCpmpm.get_distance sp s1 s2, CCpmpm.get_controls sp s1 s2⟩
  | .hc pm1 pm2 => ⟨HcRs.get_distance pm1 pm2 sp s1 s2, HcRs.get_controls pm1 pm2 sp s1 s2⟩
  | .cc00rs => ⟨some (CcRs.get_distance sp s1 s2), CcRs.get_controls sp s1 s2⟩

theorem ask_snd (k : Kind) (sp : HCSpace) (m : Scratch) (s1 s2 : State) : (ask k sp m s1 s2).2 = fresh k sp s1 s2 := by
  cases k with
  | cc00 =>
    simp only [ask, least_query _ _ _ _ (show 1 ≤ 4 by norm_num)]
    rfl
  | cc0pm =>
    simp only [ask, least_query _ _ _ _ (show 1 ≤ 4 by norm_num)]
    have : (fun n => (calls_cc0pm sp s1 s2 n).map fun p => rest_dubins (CC0pm.table sp) (scratch p.1 p.2) p.1 p.2)
        = CC0pm.path sp s1 s2 := by
      funext n; unfold calls_cc0pm CC0pm.path; split_ifs <;> rfl
    rw [this]; rfl
  | ccpm0 =>
    simp only [ask, least_query _ _ _ _ (show 1 ≤ 4 by norm_num)]
    have : (fun n => (calls_ccpm0 sp s1 s2 n).map fun p => rest_dubins (CCpm0.table sp) (scratch p.1 p.2) p.1 p.2)
        = CCpm0.path sp s1 s2 := by
      funext n; unfold calls_ccpm0 CCpm0.path; split_ifs <;> rfl
    rw [this]; rfl
  | ccpmpm =>
    simp only [ask, least_query _ _ _ _ (show 1 ≤ 4 by norm_num)]
    have : (fun n => (calls_ccpmpm sp s1 s2 n).map fun p => rest_dubins (CCpmpm.table sp) (scratch p.1 p.2) p.1 p.2)
        = CCpmpm.path sp s1 s2 := by
      funext n; unfold calls_ccpmpm CCpmpm.path; split_ifs <;> rfl
    rw [this]; rfl
  | hc pm1 pm2 =>
    simp only [ask, least_query _ _ _ _ (show 1 ≤ 16 by norm_num)]
    have : (fun n => (calls_hc pm1 pm2 sp s1 s2 n).map fun p => rest_hc pm1 pm2 sp (scratch p.1 p.2) p.1 p.2)
        = HcRs.path pm1 pm2 sp s1 s2 := by
      funext n; unfold calls_hc HcRs.path; split_ifs <;> rfl
    rw [this]; rfl
  | cc00rs =>
    simp only [ask, least_query _ _ _ _ (show 1 ≤ 16 by norm_num)]
    rfl

theorem run_eq (sp : HCSpace) (M : Kind → Scratch) (qs : List (Kind × State × State)) :
    run sp M qs = qs.map fun q => fresh q.1 sp q.2.1 q.2.2 := by
  induction qs generalizing M with
  | nil => rfl
  | cons q qs ih =>
    obtain ⟨k, s1, s2⟩ := q
    rw [run, List.map_cons, ask_snd, ih]

end History

end SF
