import Verif.Lemmas.EkfPath
import Verif.Lemmas.Jacobi
import Verif.Lemmas.Integrate
import Verif.Spec.Bridge

/-!
# Properties of the filter and of `integrate_with_covariance`: C28-C31, C42, C47-C49
-/

noncomputable section

namespace Props

open SF Spec Real Matrix

/-! ## C31 -/

/-- **C31.** Reading back what was written gives the same matrix. -/
theorem C31_round_trip (M : Matrix (Fin 3) (Fin 3) ℝ) (a : Fin 16 → ℝ) :
    covariance_to_eigen (eigen_to_covariance M a) = M := by
  rw [to_eigen_eq_block, block_from_eigen]

/-- **C31.** Reading takes the entries for x, y, theta of the row-major 4×4 matrix. -/
theorem C31_read (a : Fin 16 → ℝ) (i j : Fin 3) :
    covariance_to_eigen a i j = mat4 a i.castSucc j.castSucc := by
  rw [to_eigen_eq_block]; rfl

/-- **C31.** Writing leaves the entries for the curvature (last row and column) alone. -/
theorem C31_kappa_untouched (M : Matrix (Fin 3) (Fin 3) ℝ) (a : Fin 16 → ℝ) (i : Fin 4) :
    mat4 (eigen_to_covariance M a) i 3 = mat4 a i 3 ∧
    mat4 (eigen_to_covariance M a) 3 i = mat4 a 3 i := by
  constructor
  · refine from_eigen_kappa M a _ ?_; simp only [KappaCell]; simp
  · refine from_eigen_kappa M a _ ?_; simp only [KappaCell]; omega

/-- **C31.** Writing back what was read changes nothing. -/
theorem C31_write_read (a : Fin 16 → ℝ) :
    eigen_to_covariance (covariance_to_eigen a) a = a := by
  funext k
  unfold eigen_to_covariance
  split_ifs with h
  · simp only [covariance_to_eigen, Matrix.of_apply]
    congr 1; ext; simp only; omega
  · rfl

/-! ## C29, C47, C48: one prediction, one update -/

/-- **C48 (partial).** With non-zero measurement noise the matrix inverted by `update` is
never singular, whatever positive semidefinite `Sigma` comes in.  (For zero noise it can be,
see `C48_singular`.) -/
theorem C48_invertible_partial {e : EKF} (he : MeasurementNoiseOk e) (p : StateCov)
    (hp : (mat4 p.Sigma).PosSemidef) : (innovation e p).det ≠ 0 :=
  innovation_invertible he p hp

/-- **C29.** `update` moves covariance from `Sigma` to `Lambda`, and keeps the sum. -/
theorem C29_update_conserves {e : EKF} (he : MeasurementNoiseOk e) (p q : StateCov)
    (hp : (mat4 p.Sigma).PosSemidef) :
    block (update e p q).Sigma + block (update e p q).Lambda
      = block p.Sigma + block p.Lambda :=
  update_conserves he p q hp

/-- **C29.** `update` never increases `Sigma` and never decreases `Lambda`. -/
theorem C29_update_monotone {e : EKF} (he : MeasurementNoiseOk e) (p q : StateCov)
    (hp : (mat4 p.Sigma).PosSemidef) :
    Below (block (update e p q).Sigma) (block p.Sigma) ∧
    Below (block p.Lambda) (block (update e p q).Lambda) :=
  update_monotone he p q hp

/-- **C29.** The reported covariance is the sum of `Sigma` and `Lambda`, after `predict`
and after `update`. -/
theorem C29_covariance_is_sum (e : EKF) (s p q : StateCov) (c : Control) (h : ℝ) :
    block (predict e s c h p).covariance
        = block (predict e s c h p).Sigma + block (predict e s c h p).Lambda ∧
    block (update e p q).covariance
        = block (update e p q).Sigma + block (update e p q).Lambda :=
  covariance_is_sum e s p q c h

/-- **C47.** After `update` the estimate is at least as good as the measurement alone. -/
theorem C47_update_below_noise {e : EKF} (he : MeasurementNoiseOk e) (p q : StateCov)
    (hp : (mat4 p.Sigma).PosSemidef) : Below (block (update e p q).Sigma) (noiseR e) :=
  update_below_noise he p q hp

/-- **C48, counterexample.** With zero measurement noise and a perfectly known start
(`Sigma = 0`), the first update of every path inverts a singular matrix: two noisy inputs
cannot make a 3×3 covariance regular. -/
theorem C48_singular (e : EKF) (s p : StateCov) (c : Control) (h : ℝ)
    (hm : e.measurement_noise = ⟨0, 0, 0⟩) (hS : block s.Sigma = 0) :
    (innovation e (predict e s c h p)).det = 0 := by
  have hR : noiseR e = 0 := by
    ext i j; fin_cases i <;> fin_cases j <;> simp [noiseR, hm]
  rw [innovation_eq, hR]
  simp only [predict, block_from_eigen, to_eigen_eq_block, hS, Matrix.mul_zero, Matrix.zero_mul,
    zero_add, add_zero]
  have key : ∀ (A : Matrix (Fin 3) (Fin 2) ℝ) (B : Matrix (Fin 2) (Fin 3) ℝ), (A * B).det = 0 := by
    intro A B
    simp only [det_fin_three, Matrix.mul_apply, Fin.sum_univ_two]
    ring
  rw [Matrix.mul_assoc]; exact key _ _

/-- Such a filter and state exist. -/
example : ∃ (e : EKF) (s : StateCov), e.measurement_noise = ⟨0, 0, 0⟩ ∧ MotionNoiseOk e ∧
    block s.Sigma = 0 :=
  ⟨⟨⟨1, 1, 1, 1⟩, ⟨0, 0, 0⟩, ⟨1, 1, 1⟩⟩, freshCov ⟨0, 0, 0, 0, 0⟩, rfl,
    ⟨zero_le_one, zero_le_one, zero_le_one, zero_le_one⟩, by ext i j; rfl⟩

/-! ## C28, C47, C42 along paths -/

/-- **C28.** Along every path of `integrate_with_covariance` (Dubins, Reeds-Shepp), for
every control list and discretization, `Sigma`, `Lambda` and the reported covariance stay
symmetric positive semidefinite. -/
theorem C28_psd {e : EKF} (he : MotionNoiseOk e) (hm : MeasurementNoiseOk e) (disc : ℝ)
    (junk : State) (s : StateCov) (hs : CovOk s) (cs : List Control) :
    ∀ t ∈ integrate_with_covariance e disc junk s cs, CovOk t :=
  covLoop_ok he hm disc CovOk (fun _ h _ _ => h) (fun _ _ h => h) cs _
    ⟨hs, fun _ _ => rfl, fun _ _ => rfl, fun _ _ => rfl, fun _ _ => rfl, fun _ _ => rfl,
      fun _ _ => rfl⟩ hs

/-- **C28** for the HC/CC state spaces. -/
theorem C28_hc_psd {e : EKF} (he : MotionNoiseOk e) (hm : MeasurementNoiseOk e) (disc : ℝ)
    (junk : State) (s : StateCov) (hs : CovOk s) (cs : List Control) (l : List StateCov)
    (hl : hcIntegrateWithCovariance e disc junk s cs = some l) : ∀ t ∈ l, CovOk t := by
  cases cs with
  | nil => simp [hcIntegrateWithCovariance, hcFirst] at hl
  | cons c cs =>
    simp only [hcIntegrateWithCovariance, hcFirst, Option.map_some, Option.some.injEq] at hl
    subst hl
    intro t ht
    rw [List.mem_cons] at ht
    rcases ht with rfl | ht
    · exact hs
    · exact hcCovLoop_ok he hm disc CovOk (fun _ h _ _ => h) (fun _ _ h => h) (c :: cs) _
        ⟨hs, fun _ _ => rfl, fun _ _ => rfl, fun _ _ => rfl, fun _ _ => rfl, fun _ _ => rfl,
          fun _ _ => rfl⟩ hs t ht

/-- **C29 along paths.** The reported covariance is `Sigma + Lambda` in every state of a
path that starts with it. -/
theorem C29_path_sum {e : EKF} (he : MotionNoiseOk e) (hm : MeasurementNoiseOk e) (disc : ℝ)
    (junk : State) (s : StateCov) (hs : CovOk s)
    (h0 : block s.covariance = block s.Sigma + block s.Lambda) (cs : List Control) :
    (∀ t ∈ integrate_with_covariance e disc junk s cs,
      block t.covariance = block t.Sigma + block t.Lambda) ∧
    (∀ l, hcIntegrateWithCovariance e disc junk s cs = some l → ∀ t ∈ l,
      block t.covariance = block t.Sigma + block t.Lambda) := by
  constructor
  · exact covLoop_ok he hm disc (fun t => block t.covariance = block t.Sigma + block t.Lambda)
      (fun _ _ _ h => h) (fun _ _ h => h) cs _
      ⟨hs, fun _ _ => rfl, fun _ _ => rfl, fun _ _ => rfl, fun _ _ => rfl, fun _ _ => rfl,
        fun _ _ => rfl⟩ h0
  · intro l hl
    cases cs with
    | nil => simp [hcIntegrateWithCovariance, hcFirst] at hl
    | cons c cs =>
      simp only [hcIntegrateWithCovariance, hcFirst, Option.map_some, Option.some.injEq] at hl
      subst hl
      intro t ht
      rw [List.mem_cons] at ht
      rcases ht with rfl | ht
      · exact h0
      · exact hcCovLoop_ok he hm disc
          (fun t => block t.covariance = block t.Sigma + block t.Lambda)
          (fun _ _ _ h => h) (fun _ _ h => h) (c :: cs) _
          ⟨hs, fun _ _ => rfl, fun _ _ => rfl, fun _ _ => rfl, fun _ _ => rfl, fun _ _ => rfl,
            fun _ _ => rfl⟩ h0 t ht

/-- **C47.** If the start is known at least as well as one measurement, so is every state
of the path: localisation uncertainty does not accumulate. -/
theorem C47_path_below_noise {e : EKF} (he : MotionNoiseOk e) (hm : MeasurementNoiseOk e)
    (disc : ℝ) (junk : State) (s : StateCov) (hs : CovOk s)
    (h0 : Below (block s.Sigma) (noiseR e)) (cs : List Control) :
    (∀ t ∈ integrate_with_covariance e disc junk s cs, Below (block t.Sigma) (noiseR e)) ∧
    (∀ l, hcIntegrateWithCovariance e disc junk s cs = some l → ∀ t ∈ l,
      Below (block t.Sigma) (noiseR e)) := by
  constructor
  · exact covLoop_ok he hm disc (fun t => Below (block t.Sigma) (noiseR e))
      (fun _ _ h _ => h) (fun _ _ h => h) cs _
      ⟨hs, fun _ _ => rfl, fun _ _ => rfl, fun _ _ => rfl, fun _ _ => rfl, fun _ _ => rfl,
        fun _ _ => rfl⟩ h0
  · intro l hl
    cases cs with
    | nil => simp [hcIntegrateWithCovariance, hcFirst] at hl
    | cons c cs =>
      simp only [hcIntegrateWithCovariance, hcFirst, Option.map_some, Option.some.injEq] at hl
      subst hl
      intro t ht
      rw [List.mem_cons] at ht
      rcases ht with rfl | ht
      · exact h0
      · exact hcCovLoop_ok he hm disc (fun t => Below (block t.Sigma) (noiseR e))
          (fun _ _ h _ => h) (fun _ _ h => h) (c :: cs) _
          ⟨hs, fun _ _ => rfl, fun _ _ => rfl, fun _ _ => rfl, fun _ _ => rfl, fun _ _ => rfl,
            fun _ _ => rfl⟩ h0 t ht

/-- A filter and a start state, with correlated non-zero covariance, to which C28, C29 and
C47 apply. -/
example : ∃ (e : EKF) (s : StateCov), MotionNoiseOk e ∧ MeasurementNoiseOk e ∧ CovOk s ∧
    block s.covariance = block s.Sigma + block s.Lambda ∧
    Below (block s.Sigma) (noiseR e) ∧ block s.Sigma 0 0 ≠ 0 := by
  refine ⟨⟨⟨0.1, 0.2, 0, 0.3⟩, ⟨1, 2, 3⟩, ⟨1, -1, 5⟩⟩,
    ⟨⟨0, 0, 0, 0, 0⟩, fun k => if k.1 = 0 then 1 else 0, fun _ => 0,
      fun k => if k.1 = 0 then 1 else 0⟩, ?_, ?_, ?_, ?_, ?_, ?_⟩
  · refine ⟨?_, ?_, ?_, ?_⟩ <;> norm_num
  · refine ⟨?_, ?_, ?_⟩ <;> norm_num
  · have h1 : mat4 (fun k : Fin 16 => if k.1 = 0 then (1:ℝ) else 0) = diagonal ![1, 0, 0, 0] := by
      ext i j; fin_cases i <;> fin_cases j <;> simp [mat4]
    have h2 : mat4 (fun _ : Fin 16 => (0:ℝ)) = 0 := by ext i j; rfl
    have h3 : (diagonal ![(1:ℝ), 0, 0, 0]).PosSemidef := by
      rw [posSemidef_diagonal_iff]; intro i; fin_cases i <;> simp
    refine ⟨?_, ?_, ?_⟩
    · simp only [h1]; exact h3
    · simp only [h2]; exact PosSemidef.zero
    · simp only [h1]; exact h3
  · ext i j; simp [block, mat4]
  · have : noiseR ⟨⟨0.1, 0.2, 0, 0.3⟩, ⟨1, 2, 3⟩, ⟨1, -1, 5⟩⟩
        - block (fun k : Fin 16 => if k.1 = 0 then (1:ℝ) else 0) = diagonal ![0, 4, 9] := by
      ext i j; fin_cases i <;> fin_cases j <;> simp [noiseR, block, mat4] <;> norm_num
    unfold Below
    simp only [this]
    rw [posSemidef_diagonal_iff]; intro i; fin_cases i <;> simp
  · simp [block, mat4]

/-! ## C42 -/

/-- **C42.** `integrate_with_covariance` visits exactly the states of `integrate`
(Dubins, Reeds-Shepp), for all filter parameters. -/
theorem C42_same_states (e : EKF) (disc : ℝ) (junk : State) (s : StateCov) (cs : List Control) :
    (integrate_with_covariance e disc junk s cs).map StateCov.state
      = integrate disc (junk.kappa, junk.d) s.state cs := by
  have gen : ∀ (cs : List Control) (v : CovVars),
      (covLoop e disc cs v).map StateCov.state = integrateLoop disc cs v.curr.state := by
    intro cs
    induction cs with
    | nil => intro v; rfl
    | cons c cs ih =>
      intro v
      simp only [covLoop, integrateLoop, List.map_cons, List.map_append, List.cons_append]
      rw [ih, (covSegLoop_states e integrate_ODE c disc _ _ _ _).1,
        (covSegLoop_states e integrate_ODE c disc _ _ _ _).2]
  exact gen cs _

/-- **C42** for the HC/CC state spaces. -/
theorem C42_hc_same_states (e : EKF) (disc : ℝ) (junk : State) (s : StateCov)
    (cs : List Control) :
    (hcIntegrateWithCovariance e disc junk s cs).map (List.map StateCov.state)
      = hcIntegrate disc s.state cs := by
  have gen : ∀ (cs : List Control) (v : CovVars),
      (hcCovLoop e disc cs v).map StateCov.state = hcIntegrateLoop disc cs v.curr.state := by
    intro cs
    induction cs with
    | nil => intro v; rfl
    | cons c cs ih =>
      intro v
      by_cases hh : |c.kappa - v.curr.state.kappa| > SF.epsilon
      · simp only [hcCovLoop, hcIntegrateLoop, List.map_append, if_pos hh, List.map_cons,
          List.map_nil]
        rw [ih, (covSegLoop_states e hc_integrate_ODE c disc _ _ _ _).1,
          (covSegLoop_states e hc_integrate_ODE c disc _ _ _ _).2]
      · simp only [hcCovLoop, hcIntegrateLoop, List.map_append, if_neg hh, List.map_nil]
        rw [ih, (covSegLoop_states e hc_integrate_ODE c disc _ _ _ _).1,
          (covSegLoop_states e hc_integrate_ODE c disc _ _ _ _).2]
  simp only [hcIntegrateWithCovariance, hcIntegrate, Option.map_map]
  congr 1
  funext st
  simp only [Function.comp, List.map_cons]
  rw [gen]

/-! ## C49 -/

/-- **C49 (negation).** The curvature row and column of the caller's covariance are
silently dropped: for a one-segment path every state after the first has zero curvature
covariance, whatever the start covariance is. -/
theorem C49_kappa_dropped (e : EKF) (disc : ℝ) (junk : State) (s : StateCov) (c : Control)
    (i : Fin 4) :
    ∀ t ∈ (integrate_with_covariance e disc junk s [c]).tail,
      mat4 t.covariance i 3 = 0 ∧ mat4 t.covariance 3 i = 0 := by
  intro t ht
  simp only [integrate_with_covariance, covLoop, List.append_nil, List.tail_cons] at ht
  have := (covSegLoop_kappa e integrate_ODE c disc |c.delta_s| _ 0 _
    (fresh_noKappa junk).2.2).1 t ht
  constructor
  · refine this _ ?_; simp only [KappaCell]; simp
  · refine this _ ?_; simp only [KappaCell]; omega

/-- **C49 (partial).** The first state of the path carries the caller's arrays unchanged. -/
theorem C49_first_partial (e : EKF) (disc : ℝ) (junk : State) (s : StateCov) (c : Control)
    (cs : List Control) :
    ∃ t l, integrate_with_covariance e disc junk s (c :: cs) = t :: l ∧
      t.Sigma = s.Sigma ∧ t.Lambda = s.Lambda ∧ t.covariance = s.covariance :=
  ⟨_, _, rfl, rfl, rfl, rfl⟩

/-- A start covariance that is lost: curvature variance 1. -/
example (e : EKF) (junk : State) : ∃ s : StateCov, mat4 s.covariance 3 3 = 1 ∧
    ∀ t ∈ (integrate_with_covariance e 1 junk s [⟨3, 1, 0⟩]).tail, mat4 t.covariance 3 3 = 0 :=
  ⟨⟨⟨0, 0, 0, 0, 0⟩, fun _ => 0, fun _ => 0, fun _ => 1⟩, rfl,
    fun t ht => (C49_kappa_dropped e 1 junk _ _ 3 t ht).1⟩

/-! ## C30 -/

/-- **C30, circular arcs.** Away from the resolution limit, `F_x` and `F_u` are exactly the
derivatives of the true motion with respect to the start pose, the signed arc length and
the curvature. -/
theorem C30_arc_partial (s : State) (c : Control) (h : ℝ) (hs : c.sigma = 0)
    (hk : |s.kappa| > 1 / 10000) (f : Config → ℝ → ℝ → Config)
    (hf : IsMotion (seg c).dir 0 f) :
    PoseJacobian f (pose s) s.kappa h (get_motion_jacobi s c h).1 ∧
    LengthDeriv (seg c).dir f (pose s) s.kappa h (fun i => (get_motion_jacobi s c h).2 i 0) ∧
    CurvatureDeriv f (pose s) s.kappa h (fun i => (get_motion_jacobi s c h).2 i 1) := by
  have hk0 : s.kappa ≠ 0 := by
    intro h0; rw [h0, abs_zero] at hk; norm_num at hk
  have n1 : ¬ |c.sigma| > SF.epsilon := by
    rw [hs, abs_zero]; exact not_lt.2 epsilon_pos.le
  have n2 : |s.kappa| > SF.epsilon := hk
  have hd := sgn_cases c.delta_s
  have hdd := sgn_mul_self c.delta_s
  rw [isMotion_unique hf, dir_seg]
  simp only [get_motion_jacobi, if_neg n1, if_pos n2]
  generalize sgn c.delta_s = d at *
  refine ⟨⟨?_, ?_, ?_⟩, ?_, ?_⟩
  · refine (arrive_deriv_x d s.kappa 0 h (pose s)).congr ?_
    funext i; fin_cases i <;> rfl
  · refine (arrive_deriv_y d s.kappa 0 h (pose s)).congr ?_
    funext i; fin_cases i <;> rfl
  · refine (arrive_deriv_theta d s.kappa 0 h (pose s)).congr ?_
    rw [integral_arc_sin d h hk0, integral_arc_cos d h hk0]
    funext i; fin_cases i <;> simp [pose] <;> ring
  · refine (arrive_deriv_signed s.kappa 0 h (pose s) hd).congr ?_
    have : heading d s.kappa 0 (pose s).theta h = s.theta + d * h * s.kappa := by
      simp only [heading, pose]; ring
    rw [this]
    funext i; fin_cases i <;> simp
  · refine (arrive_deriv_kappa d s.kappa 0 h (pose s)).congr ?_
    rw [integral_arc_s_sin h hk0 hdd, integral_arc_s_cos h hk0 hdd]
    funext i; fin_cases i <;> simp [pose] <;> ring

/-- **C30, straight lines.** The derivatives with respect to the pose and the signed arc
length are exact. -/
theorem C30_line_partial (s : State) (c : Control) (h : ℝ) (hs : c.sigma = 0)
    (hk : s.kappa = 0) (f : Config → ℝ → ℝ → Config)
    (hf : IsMotion (seg c).dir 0 f) :
    PoseJacobian f (pose s) s.kappa h (get_motion_jacobi s c h).1 ∧
    LengthDeriv (seg c).dir f (pose s) s.kappa h (fun i => (get_motion_jacobi s c h).2 i 0) := by
  have n1 : ¬ |c.sigma| > SF.epsilon := by
    rw [hs, abs_zero]; exact not_lt.2 epsilon_pos.le
  have n2 : ¬ |(0:ℝ)| > SF.epsilon := by
    rw [abs_zero]; exact not_lt.2 epsilon_pos.le
  have hd := sgn_cases c.delta_s
  rw [isMotion_unique hf, dir_seg]
  simp only [get_motion_jacobi, if_neg n1, hk, if_neg n2]
  generalize sgn c.delta_s = d at *
  refine ⟨⟨?_, ?_, ?_⟩, ?_⟩
  · refine (arrive_deriv_x d 0 0 h (pose s)).congr ?_
    funext i; fin_cases i <;> rfl
  · refine (arrive_deriv_y d 0 0 h (pose s)).congr ?_
    funext i; fin_cases i <;> rfl
  · refine (arrive_deriv_theta d 0 0 h (pose s)).congr ?_
    rw [integral_line_sin d h, integral_line_cos d h]
    funext i; fin_cases i <;> simp [pose]
  · refine (arrive_deriv_signed 0 0 h (pose s) hd).congr ?_
    have : heading d 0 0 (pose s).theta h = s.theta := by
      simp only [heading, pose]; ring
    rw [this]
    funext i; fin_cases i <;> simp

/-- **C30, counterexample.** On straight lines the column for the curvature is wrong for
every state and every non-zero step: the code leaves the position entries zero, the true
derivatives are `-h²/2 sin θ` and `h²/2 cos θ`. -/
theorem C30_line_curvature_counterexample (s : State) (c : Control) (h : ℝ) (hh : h ≠ 0)
    (hs : c.sigma = 0) (hk : s.kappa = 0) (f : Config → ℝ → ℝ → Config)
    (hf : IsMotion (seg c).dir 0 f) :
    CurvatureDeriv f (pose s) s.kappa h
      ![-(h ^ 2 / 2 * sin s.theta), h ^ 2 / 2 * cos s.theta, (seg c).dir * h] ∧
    ¬ CurvatureDeriv f (pose s) s.kappa h (fun i => (get_motion_jacobi s c h).2 i 1) := by
  have n1 : ¬ |c.sigma| > SF.epsilon := by
    rw [hs, abs_zero]; exact not_lt.2 epsilon_pos.le
  have n2 : ¬ |(0:ℝ)| > SF.epsilon := by
    rw [abs_zero]; exact not_lt.2 epsilon_pos.le
  have hdd := sgn_mul_self c.delta_s
  rw [isMotion_unique hf, dir_seg]
  simp only [get_motion_jacobi, if_neg n1, hk, if_neg n2]
  generalize sgn c.delta_s = d at *
  have key := arrive_deriv_kappa d 0 0 h (pose s)
  rw [integral_line_s_sin h hdd, integral_line_s_cos h hdd] at key
  refine ⟨key, ?_⟩
  intro h'
  have e := key.unique h'
  have e0 := congrFun e 0
  have e1 := congrFun e 1
  simp [pose] at e0 e1
  have hh2 : h ^ 2 / 2 ≠ 0 := by positivity
  have c0 : sin s.theta = 0 := by
    rcases e0 with e0 | e0
    · exact absurd e0 hh
    · exact e0
  have c1 : cos s.theta = 0 := by
    rcases e1 with e1 | e1
    · exact absurd e1 hh
    · exact e1
  have := sin_sq_add_cos_sq s.theta
  rw [c0, c1] at this; norm_num at this

/-- The motion exists, so the hypothesis `IsMotion` of C30 can be met. -/
example (d sigma : ℝ) : IsMotion d sigma (fun p kappa L => arrive d kappa sigma L p) :=
  fun p kappa L => drives_arrive d kappa sigma L p

end Props
