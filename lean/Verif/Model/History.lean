import Verif.Model.CcDubinsPm
import Verif.Model.CcReedsShepp

/-!
# The members `distance` and `angle` of the nine helper objects over a history of queries

Each state space with clothoids owns a helper object (e.g. `cc00_dubins_`, `hc0pm_reeds_shepp_`) with the members `distance` and `angle`.
A query calls `..._circles_..._path` for several pairs of circles; every call first writes the two members (with the pair of
circles at hand) and then reads them.  Here the members are a state that is handed on from call to call and from query to query.
-/

noncomputable section

namespace SF.History

open Classical

/-- The calls of `..._circles_..._path` of one query: `calls` lists the pairs of circles in the order of the loops, `none` where the loop
continues; `rest` is the part of a call after the two assignments.  Results: the members after the query, and `path[n]`. -/
def query {α : Type} (rest : Scratch → Circle → Circle → α) : Scratch → List (Option (Circle × Circle)) → Scratch × List (Option α)
  | m, [] => (m, [])
  | m, none :: cs => let r := query rest m cs; (r.1, none :: r.2)
  | _, some (c1, c2) :: cs =>
    let m := scratch c1 c2
    let p := rest m c1 c2
    let r := query rest m cs
    (r.1, some p :: r.2)

/-- Entry `n` of the array `path`. -/
def entry {α : Type} (l : List (Option α)) (n : ℕ) : Option α := l.getD n none

/-- Answers to `get_distance` and `get_controls`; `none`: a dereferenced null pointer or controls that are not numbers. -/
structure Answer where
  distance : Option ℝ
  controls : Option (List Control)

/-- The helper classes: `CC00_Dubins`, `CC0pm_Dubins`, `CCpm0_Dubins`, `CCpmpm_Dubins`, `HC00_Reeds_Shepp`, `HC0pm_Reeds_Shepp`, `HCpm0_Reeds_Shepp`,
`HCpmpm_Reeds_Shepp` (with the flags of `SF.HcRs`) and `CC00_Reeds_Shepp`. -/
inductive Kind
  | cc00 | cc0pm | ccpm0 | ccpmpm | hc (pm1 pm2 : Bool) | cc00rs

/-- Pairs of circles of cc00_dubins_state_space.cpp:444-454. -/
def calls_cc00 (sp : HCSpace) (s1 s2 : State) (n : ℕ) : Option (Circle × Circle) :=
  some (CC00.start_circle sp (configuration s1.x s1.y s1.theta 0) (n / 2),
    CC00.end_circle sp (configuration s2.x s2.y s2.theta 0) (n % 2))

/-- Pairs of circles of cc0pm_dubins_state_space.cpp:458-472. -/
def calls_cc0pm (sp : HCSpace) (s1 s2 : State) (n : ℕ) : Option (Circle × Circle) :=
  if n % 2 = 0 ∧ s2.kappa < 0 then none
  else if n % 2 = 1 ∧ s2.kappa > 0 then none
  else some (CC0pm.start_circle sp (configuration s1.x s1.y s1.theta 0) (n / 2), CC0pm.end_circle sp s2 (n % 2))

/-- Pairs of circles of ccpm0_dubins_state_space.cpp:457-471. -/
def calls_ccpm0 (sp : HCSpace) (s1 s2 : State) (n : ℕ) : Option (Circle × Circle) :=
  if n / 2 = 0 ∧ s1.kappa < 0 then none
  else if n / 2 = 1 ∧ s1.kappa > 0 then none
  else some (CCpm0.start_circle sp s1 (n / 2), CCpm0.end_circle sp (configuration s2.x s2.y s2.theta 0) (n % 2))

/-- Pairs of circles of ccpmpm_dubins_state_space.cpp:599-619. -/
def calls_ccpmpm (sp : HCSpace) (s1 s2 : State) (n : ℕ) : Option (Circle × Circle) :=
  if n / 2 = 0 ∧ s1.kappa < 0 then none
  else if n / 2 = 1 ∧ s1.kappa > 0 then none
  else if n % 2 = 0 ∧ s2.kappa < 0 then none
  else if n % 2 = 1 ∧ s2.kappa > 0 then none
  else some (CCpmpm.start_circle sp s1 (n / 2), CCpmpm.end_circle sp s2 (n % 2))

/-- Pairs of circles of hc00:1709-1719 / hc0pm:1731-1751 / hcpm0:1731-1751 / hcpmpm:1773-1803. -/
def calls_hc (pm1 pm2 : Bool) (sp : HCSpace) (s1 s2 : State) (n : ℕ) : Option (Circle × Circle) :=
  if HcRs.skip pm1 s1 (n / 4) ∨ HcRs.skip pm2 s2 (n % 4) then none
  else some (HcRs.end_circle pm1 sp s1 (n / 4), HcRs.end_circle pm2 sp s2 (n % 4))

/-- Pairs of circles of cc00_reeds_shepp_state_space.cpp:1652-1662. -/
def calls_cc00rs (sp : HCSpace) (s1 s2 : State) (n : ℕ) : Option (Circle × Circle) :=
  some (CcRs.end_circle sp s1 (n / 4), CcRs.end_circle sp s2 (n % 4))

/-- `..._circles_dubins_path` after the two assignments (cc00:343-412, cc0pm:369-425, ccpm0:369-424, ccpmpm:493-564). -/
def rest_dubins (table : Scratch → Circle → Circle → Table) (m : Scratch) (c1 c2 : Circle) : CCPath :=
  (table m c1 c2).best nb_cc_dubins_paths c1.start c2.start

/-- `..._circles_rs_path` of the HC planners after the two assignments. -/
def rest_hc (pm1 pm2 : Bool) (sp : HCSpace) (m : Scratch) (c1 c2 : Circle) : HcRs.RSPath :=
  let t := HcRs.table pm1 pm2 sp m c1 c2
  let best_path := array_index_min (fun i => (t i).length) nb_hc_cc_rs_paths
  ⟨best_path, t best_path⟩

/-- `cc00_circles_rs_path` after the two assignments. -/
def rest_cc00rs (sp : HCSpace) (m : Scratch) (c1 c2 : Circle) : CcRs.Path :=
  let t := CcRs.table sp m c1 c2
  let best_path := array_index_min (fun i => (t i).length) nb_hc_cc_rs_paths
  ⟨best_path, t best_path, best_path = hc_cc_rs.TcT ∧ CcRs.TcT_lost c1 c2⟩

/-- The entry with the least length, null pointers counting as `numeric_limits<double>::max()`. -/
def least {α : Type} (length : α → ℝ) (k : ℕ) (path : ℕ → Option α) : Option α :=
  path (array_index_min (fun n => ((path n).map length).getD dblMax) k)

/-- One query of a helper object with members `m`: the members afterwards, and the answer. -/
def ask (k : Kind) (sp : HCSpace) (m : Scratch) (s1 s2 : State) : Scratch × Answer :=
  match k with
  | .cc00 =>
    let r := query (rest_dubins (CC00.table sp)) m ((List.range 4).map (calls_cc00 sp s1 s2))
    let p := least CCPath.length 4 (entry r.2)
    (r.1, ⟨p.map CCPath.length, p.bind CC00.path_controls⟩)
  | .cc0pm =>
    let r := query (rest_dubins (CC0pm.table sp)) m ((List.range 4).map (calls_cc0pm sp s1 s2))
    let p := least CCPath.length 4 (entry r.2)
    (r.1, ⟨p.map CCPath.length, p.bind CC0pm.path_controls⟩)
  | .ccpm0 =>
    let r := query (rest_dubins (CCpm0.table sp)) m ((List.range 4).map (calls_ccpm0 sp s1 s2))
    let p := least CCPath.length 4 (entry r.2)
    (r.1, ⟨p.map CCPath.length, p.bind CCpm0.path_controls⟩)
  | .ccpmpm =>
    let r := query (rest_dubins (CCpmpm.table sp)) m ((List.range 4).map (calls_ccpmpm sp s1 s2))
    let p := least CCPath.length 4 (entry r.2)
    (r.1, ⟨p.map CCPath.length, p.bind CCpmpm.path_controls⟩)
  | .hc pm1 pm2 =>
    let r := query (rest_hc pm1 pm2 sp) m ((List.range 16).map (calls_hc pm1 pm2 sp s1 s2))
    let p := least HcRs.RSPath.length 16 (entry r.2)
    (r.1, ⟨p.map HcRs.RSPath.length, p.map HcRs.path_controls⟩)
  | .cc00rs =>
    let r := query (rest_cc00rs sp) m ((List.range 16).map (calls_cc00rs sp s1 s2))
    let p := least CcRs.Path.length 16 (entry r.2)
    (r.1, ⟨p.map CcRs.Path.length, p.bind CcRs.path_controls⟩)

/-- A history: queries of objects of any kind, one after the other; each kind has its own members.  (The general planners `CC_Dubins_State_Space`
and `HC_Reeds_Shepp_State_Space` own four such objects and query them for several pairs of predicted states.) -/
def run (sp : HCSpace) : (Kind → Scratch) → List (Kind × State × State) → List Answer
  | _, [] => []
  | M, (k, s1, s2) :: qs =>
    let r := ask k sp (M k) s1 s2
    r.2 :: run sp (fun k' => if k' = k then r.1 else M k') qs

end SF.History
