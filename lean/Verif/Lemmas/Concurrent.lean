import Verif.Model.Concurrent
import Verif.Lemmas.Cc00Far

/-!
# Concurrent queries
-/

noncomputable section

namespace Spec.CC00

open Real Props SF.CC00

/-- One undisturbed call. -/
theorem one_call (sp : SF.HCSpace) (m : SF.Scratch) (s1 s2 : SF.State) (l : List SF.CCPath) (hl : l.length < 4) (k : ℕ) :
    ∃ m', runAlone sp (k + 2) m ⟨s1, s2, false, l⟩
      = runAlone sp k m' ⟨s1, s2, false, l ++ [path sp s1 s2 l.length]⟩ := by
  simp only [runAlone, Thread.step, hl, if_true, if_false, Bool.false_eq_true, Thread.c1, Thread.c2]
  exact ⟨_, rfl⟩

theorem alone_paths (sp : SF.HCSpace) (m : SF.Scratch) (s1 s2 : SF.State) :
    (runAlone sp 8 m (.begin s1 s2)).2.paths
      = [path sp s1 s2 0, path sp s1 s2 1, path sp s1 s2 2, path sp s1 s2 3] := by
  obtain ⟨m1, h1⟩ := one_call sp m s1 s2 [] (by simp) 6
  obtain ⟨m2, h2⟩ := one_call sp m1 s1 s2 [path sp s1 s2 0] (by simp) 4
  obtain ⟨m3, h3⟩ := one_call sp m2 s1 s2 [path sp s1 s2 0, path sp s1 s2 1] (by simp) 2
  obtain ⟨m4, h4⟩ := one_call sp m3 s1 s2 [path sp s1 s2 0, path sp s1 s2 1, path sp s1 s2 2] (by simp) 0
  simp only [List.nil_append, List.cons_append, List.length_cons, List.length_nil, zero_add, Nat.reduceAdd] at h1 h2 h3 h4
  rw [Thread.begin, h1, h2, h3, h4, runAlone]

/-- The result of four given paths. -/
theorem result_paths (t : SF.CC00.Thread) (f : ℕ → SF.CCPath) (h : t.paths = [f 0, f 1, f 2, f 3]) :
    t.result = some (f (SF.array_index_min (fun n => (f n).length) 4)) := by
  unfold Thread.result
  rw [h]
  have e : ∀ n < 4, (if n = 0 then f 0 else if n = 1 then f 1 else if n = 2 then f 2 else f 3) = f n := by
    intro n hn
    interval_cases n <;> rfl
  have hi := (C04_array_index_min (fun n => (f n).length) 4 (by norm_num)).1
  have hmin : SF.array_index_min (fun n => (if n = 0 then f 0 else if n = 1 then f 1 else if n = 2 then f 2
      else f 3).length) 4 = SF.array_index_min (fun n => (f n).length) 4 := rfl
  simp only [hmin]
  rw [e _ hi]

theorem runAlone_result (sp : SF.HCSpace) (m : SF.Scratch) (s1 s2 : SF.State) :
    (runAlone sp 8 m (.begin s1 s2)).2.result = some (cc00_dubins sp s1 s2) :=
  result_paths _ (path sp s1 s2) (alone_paths sp m s1 s2)

theorem cc_turn_length_nonneg {c : SF.Circle} {k s : ℝ} (h : CircleOk c k s (ccA k s) (ccB k s))
    (hA : 0 ≤ ccA k s) (q : SF.Configuration) : 0 ≤ c.cc_turn_length q := by
  have h1 : 0 ≤ 2 * c.radius * c.sin_mu := by rw [mul_assoc, h.sin_mu]; linarith
  have h2 : 0 ≤ 2 * |c.kappa / c.sigma| + |c.kappa_inv * c.cc_circular_deflection (c.deflection q)| := by positivity
  unfold SF.Circle.cc_turn_length
  simp only
  split_ifs
  · exact h1
  · split
    · split_ifs
      · positivity
      · exact h2
    · exact h2
  · exact h2

/-- A turn, a line and a turn are not much shorter than the straight line. -/
theorem tst_long {c1 c2 : SF.Circle} {k s : ℝ} (h1 : CircOk c1 k s) (h2 : CircOk c2 k s)
    {q1 q2 : SF.Configuration} {a b : ℝ} (ha : a ^ 2 = ccA k s ^ 2) (hb : b ^ 2 = ccB k s ^ 2)
    (S1 : cen (-(sg c1.forward * ccA k s)) (sg c1.left * ccB k s) (cfg q1) = center c1)
    (S2 : cen a b (cfg q2) = center c2) :
    SF.configuration_distance c1.start c2.start ≤ SF.configuration_distance q1 q2 + 4 * c1.radius := by
  have hrad2 : c2.radius = c1.radius := by rw [h2.ok.radius, h1.ok.radius]
  have n1 := dist_center S1 (A := ccA k s) (B := ccB k s) (by rw [neg_sq, sq_sg_mul])
    (sq_sg_mul _ _) h1.ok.radius
  have n2 := dist_center S2 (A := ccA k s) (B := ccB k s) ha hb h1.ok.radius
  have n3 := center_start h1
  have n4 := center_start h2
  rw [hrad2] at n4
  rw [configuration_distance_eq, configuration_distance_eq]
  have e : (cfg c2.start).pos - (cfg c1.start).pos = ((cfg q2).pos - (cfg q1).pos)
      + ((cfg q1).pos - center c1) - ((cfg q2).pos - center c2) + (center c1 - (cfg c1.start).pos)
      - (center c2 - (cfg c2.start).pos) := by ring
  rw [e]
  refine (norm_sub_le _ _).trans ?_
  have a1 := norm_add_le (((cfg q2).pos - (cfg q1).pos) + ((cfg q1).pos - center c1) - ((cfg q2).pos - center c2))
    (center c1 - (cfg c1.start).pos)
  have a2 := norm_sub_le (((cfg q2).pos - (cfg q1).pos) + ((cfg q1).pos - center c1)) ((cfg q2).pos - center c2)
  have a3 := norm_add_le ((cfg q2).pos - (cfg q1).pos) ((cfg q1).pos - center c1)
  linarith

/-- The undisturbed distance to a goal straight behind. -/
theorem back_length {sp : SF.HCSpace} (hk : sp.kappa = 1) (hs : sp.sigma = 1) (hfw : sp.forwards = true)
    {s1 s2 : SF.State} (e1 : pose s1 = ⟨0, 0, 0⟩) (e2 : pose s2 = ⟨-100, 0, 0⟩) :
    80 ≤ get_distance sp s1 s2 := by
  have h : InRange sp.kappa sp.sigma := by rw [hk, hs]; constructor <;> norm_num
  have hR : sp.param.radius ≤ 5 := by
    have := radius_le' h
    rw [hk, hs, radiusBound] at this
    linarith
  have hd : dist2 s1 s2 = 100 := by
    have h1 : s1.x = 0 := congrArg Config.x e1
    have h2 : s1.y = 0 := congrArg Config.y e1
    have h3 : s2.x = -100 := congrArg Config.x e2
    have h4 : s2.y = 0 := congrArg Config.y e2
    rw [dist2, h1, h2, h3, h4, show ((-100:ℝ) - 0) ^ 2 + (0 - 0) ^ 2 = 100 ^ 2 by norm_num]
    exact sqrt_sq (by norm_num)
  obtain ⟨i, j, t, r, hi, hj, he, hF⟩ := selected s1 s2 h.kappa h.sigma h.clothoid h.finite (by rw [hd]; norm_num)
  have ht := (back_path hk hs hfw e1 e2).1
  rw [get_distance, he]
  rw [he] at ht
  change t = 4 at ht
  have h1 := start_circle_ok h.kappa h.sigma h.clothoid (startOf s1) i
  have h2 := end_circle_ok h.kappa h.sigma h.clothoid (startOf s2) j
  have hA := (ccA_pos h.kappa h.sigma h.clothoid).le
  have hB := ccB_pos h.kappa h.sigma h.clothoid
  have hc : SF.configuration_distance (start_circle sp (startOf s1) i).start (end_circle sp (startOf s2) j).start
      = 100 := hd
  have hR' : (start_circle sp (startOf s1) i).radius ≤ 5 := hR
  generalize start_circle sp (startOf s1) i = C1 at *
  generalize end_circle sp (startOf s2) j = C2 at *
  change 80 ≤ r.length
  cases hF with
  | TiST h =>
    unfold TiST_exists at h
    split_ifs at h with hlr _
    obtain ⟨S1, S2, S3, S4, S5⟩ := TiST_spec h1.ok.geom C2 hB h
    have K := tst_long h1 h2 (sq_sg_mul _ _) (by rw [neg_sq, sq_sg_mul]) S1 S2
    have t1 := cc_turn_length_nonneg h1.ok hA (TiST_tangent_circles C1 C2).1
    have t2 := cc_turn_length_nonneg h2.ok hA (TiST_tangent_circles C1 C2).2
    simp only [TiST_path]
    linarith
  | TeST h =>
    obtain ⟨S1, S2, S3, S4⟩ := TeST_spec h1.ok.geom C2
    have K := tst_long h1 h2 (sq_sg_mul _ _) (sq_sg_mul _ _) S1 S2
    have t1 := cc_turn_length_nonneg h1.ok hA (TeST_tangent_circles C1 C2).1
    have t2 := cc_turn_length_nonneg h2.ok hA (TeST_tangent_circles C1 C2).2
    simp only [TeST_path]
    linarith
  | _ => norm_num at ht

/-- Schedule: both threads write, then the first one goes on. -/
def badSchedule : List Bool := [true, false, true, true, true, true, true, true, true]

theorem runTwo_true (sp : SF.HCSpace) (n : ℕ) (m : SF.Scratch) (a b : Thread) :
    (runTwo sp (List.replicate n true) m a b).1 = (runAlone sp n m a).2 := by
  induction n generalizing m a with
  | zero => rfl
  | succ n ih => rw [List.replicate_succ, runTwo, runAlone]; exact ih _ _

theorem bad_paths (sp : SF.HCSpace) (m : SF.Scratch) (a1 a2 b1 b2 : SF.State) :
    ∃ f : ℕ → SF.CCPath, (runTwo sp badSchedule m (.begin a1 a2) (.begin b1 b2)).1.result
        = some (f (SF.array_index_min (fun n => (f n).length) 4)) ∧
      f 0 = body sp (SF.scratch (start_circle sp (startOf b1) 0) (end_circle sp (startOf b2) 0))
        (start_circle sp (startOf a1) 0) (end_circle sp (startOf a2) 0) := by
  obtain ⟨p0, hp0⟩ : ∃ p0, p0 = body sp (SF.scratch (start_circle sp (startOf b1) 0)
    (end_circle sp (startOf b2) 0)) (start_circle sp (startOf a1) 0) (end_circle sp (startOf a2) 0) := ⟨_, rfl⟩
  obtain ⟨f, hf⟩ : ∃ f : ℕ → SF.CCPath, f = fun n => if n = 0 then p0 else path sp a1 a2 n := ⟨_, rfl⟩
  refine ⟨f, ?_, by rw [hf]; exact hp0⟩
  have hrun : ∃ m' b, runTwo sp badSchedule m (.begin a1 a2) (.begin b1 b2)
      = runTwo sp (List.replicate 6 true) m' ⟨a1, a2, false, [p0]⟩ b := by
    rw [badSchedule, runTwo, runTwo, runTwo]
    simp only [Thread.begin, Thread.step, Thread.c1, Thread.c2, List.length_nil, Nat.zero_lt_succ, if_true, if_false,
      Bool.false_eq_true, List.nil_append, Nat.zero_div, Nat.zero_mod]
    rw [hp0]
    exact ⟨_, _, rfl⟩
  obtain ⟨m', b, hrun⟩ := hrun
  rw [hrun]
  apply result_paths
  rw [runTwo_true]
  obtain ⟨m2, h2⟩ := one_call sp m' a1 a2 [p0] (by simp) 4
  obtain ⟨m3, h3⟩ := one_call sp m2 a1 a2 [p0, path sp a1 a2 1] (by simp) 2
  obtain ⟨m4, h4⟩ := one_call sp m3 a1 a2 [p0, path sp a1 a2 1, path sp a1 a2 2] (by simp) 0
  simp only [List.nil_append, List.cons_append, List.length_cons, List.length_nil, zero_add, Nat.reduceAdd] at h2 h3 h4
  rw [h2, h3, h4, runAlone, hf]
  simp only [if_true, OfNat.ofNat_ne_zero, one_ne_zero, if_false]

/-- Memory of a thread whose circles coincide makes three turns acceptable between any circles. -/
theorem disturbed_le {sp : SF.HCSpace} (hk : sp.kappa > SF.epsilon) (hs : 0 < sp.sigma)
    (hl : sp.kappa / sp.sigma > SF.epsilon) {c1 c2 : SF.Circle} (h1 : CircOk c1 sp.kappa sp.sigma)
    (h2 : CircOk c2 sp.kappa sp.sigma) (hf : c2.forward = !c1.forward) (hlr : c2.left = c1.left)
    {m : SF.Scratch} (hm : m.distance = 0) (e1 : ¬ SF.configuration_equal c1.start c2.start)
    (e2 : ¬ (sp.forwards ∧ SF.configuration_aligned c1.start c2.start)) (e3 : sp.forwards = true)
    (e4 : ¬ SF.configuration_on_hc_cc_circle c1 c2.start) :
    (body sp m c1 c2).length ≤ 3 * turnBound sp.kappa sp.sigma c1.radius := by
  have hk0 : 0 < sp.kappa := lt_trans (by norm_num [SF.epsilon]) hk
  have hR0 : 0 ≤ c1.radius := by rw [h1.ok.radius]; positivity
  have hrad2 : c2.radius = c1.radius := by rw [h2.ok.radius, h1.ok.radius]
  have t1 := fun q => cc_turn_length_le h1.ok hk0 hs q
  have t2 := fun q => cc_turn_length_le h2.ok hk0 hs q
  rw [hrad2] at t2
  have hne : c1.forward ≠ c2.forward := by rw [hf]; cases c1.forward <;> simp
  have e5 : TTT_exists m c1 c2 := by
    unfold TTT_exists
    rw [if_neg (by simp [hlr]), if_neg hne, hm]
    linarith
  have := @body_le sp m c1 c2 5 (by norm_num)
  unfold table at this
  rw [if_neg e1, if_neg e2, if_neg (by simp [e3]), if_neg e4] at this
  simp only [if_pos e5] at this
  rw [set_same] at this
  simp only at this
  refine this.trans ?_
  unfold TTT_path
  simp only
  have tm : ∀ q q', (SF.circleAt q (!c1.left) c1.forward c1.regular sp.param).cc_turn_length q'
      ≤ turnBound sp.kappa sp.sigma c1.radius := by
    intro q q'
    have hm := circOk_at hk hs hl q (!c1.left) c1.forward c1.regular
    have := cc_turn_length_le hm.ok hk0 hs q'
    rw [hm.ok.radius, ← h1.ok.radius] at this
    exact this
  split_ifs
  · exact (add_le_add (add_le_add (t1 _) (tm _ _)) (t2 _)).trans (by linarith)
  · exact (add_le_add (add_le_add (t1 _) (tm _ _)) (t2 _)).trans (by linarith)

end Spec.CC00
