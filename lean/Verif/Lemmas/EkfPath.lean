import Mathlib.Algebra.Order.Star.Real
import Verif.Lemmas.Ekf
import Verif.Spec.CovarianceBridge
import Verif.Spec.Bridge

/-!
# Lemmas about one filter step and about `integrate_with_covariance`
-/

noncomputable section

namespace Props

open SF Spec Real Matrix

theorem motion_cov_psd {e : EKF} (he : MotionNoiseOk e) (s : State) (h : ℝ) :
    (get_motion_covariance e s h).PosSemidef := by
  obtain ⟨h1, h2, h3, h4⟩ := he
  have : get_motion_covariance e s h = diagonal ![e.motion_noise.alpha1 * h * h
      + e.motion_noise.alpha2 * s.kappa * s.kappa, e.motion_noise.alpha3 * h * h
      + e.motion_noise.alpha4 * s.kappa * s.kappa] := by
    ext i j; fin_cases i <;> fin_cases j <;> simp [get_motion_covariance]
  rw [this, posSemidef_diagonal_iff]
  intro i
  have a1 := mul_nonneg h1 (mul_self_nonneg h)
  have a2 := mul_nonneg h2 (mul_self_nonneg s.kappa)
  have a3 := mul_nonneg h3 (mul_self_nonneg h)
  have a4 := mul_nonneg h4 (mul_self_nonneg s.kappa)
  fin_cases i <;> simp <;> linarith

theorem obs_cov_eq (e : EKF) : get_observation_covariance e = noiseR e := by
  ext i j; fin_cases i <;> fin_cases j <;> simp [get_observation_covariance, noiseR] <;> ring

theorem noiseR_posDef {e : EKF} (he : MeasurementNoiseOk e) : (noiseR e).PosDef := by
  obtain ⟨h1, h2, h3⟩ := he
  unfold noiseR
  rw [posDef_diagonal_iff]
  intro i
  fin_cases i <;> simp <;> positivity

theorem innovation_eq (e : EKF) (s : StateCov) : innovation e s = block s.Sigma + noiseR e := by
  simp [innovation, get_observation_jacobi, to_eigen_eq_block, obs_cov_eq]

/-- The matrices written by `update`. -/
theorem update_blocks (e : EKF) (p q : StateCov) :
    block (update e p q).Sigma
      = (1 - block p.Sigma * (block p.Sigma + noiseR e)⁻¹) * block p.Sigma
          * (1 - block p.Sigma * (block p.Sigma + noiseR e)⁻¹)ᵀ
        + block p.Sigma * (block p.Sigma + noiseR e)⁻¹ * noiseR e
          * (block p.Sigma * (block p.Sigma + noiseR e)⁻¹)ᵀ ∧
    block (update e p q).Lambda
      = block p.Lambda + block p.Sigma * (block p.Sigma + noiseR e)⁻¹ * (block p.Sigma)ᵀ := by
  simp [update, block_from_eigen, innovation_eq, get_observation_jacobi, to_eigen_eq_block,
    obs_cov_eq]

theorem innovation_invertible {e : EKF} (he : MeasurementNoiseOk e) (p : StateCov)
    (hp : (mat4 p.Sigma).PosSemidef) : (innovation e p).det ≠ 0 := by
  rw [innovation_eq]; exact kalman_det (block_psd hp) (noiseR_posDef he)

theorem update_conserves {e : EKF} (he : MeasurementNoiseOk e) (p q : StateCov)
    (hp : (mat4 p.Sigma).PosSemidef) :
    block (update e p q).Sigma + block (update e p q).Lambda
      = block p.Sigma + block p.Lambda := by
  have hS := block_psd hp
  have hR := noiseR_posDef he
  have hd := kalman_det hS hR
  have h1 : (block p.Sigma)ᵀ = block p.Sigma := by
    have := hS.isHermitian.eq; rwa [conjTranspose_eq_transpose_of_trivial] at this
  have h2 : (noiseR e)ᵀ = noiseR e := by
    have := hR.isHermitian.eq; rwa [conjTranspose_eq_transpose_of_trivial] at this
  rw [(update_blocks e p q).1, (update_blocks e p q).2, kalman_joseph h1 h2 hd, h1]
  abel

theorem update_monotone {e : EKF} (he : MeasurementNoiseOk e) (p q : StateCov)
    (hp : (mat4 p.Sigma).PosSemidef) :
    Below (block (update e p q).Sigma) (block p.Sigma) ∧
    Below (block p.Lambda) (block (update e p q).Lambda) := by
  have hS := block_psd hp
  have hR := noiseR_posDef he
  have hd := kalman_det hS hR
  have h1 : (block p.Sigma)ᵀ = block p.Sigma := by
    have := hS.isHermitian.eq; rwa [conjTranspose_eq_transpose_of_trivial] at this
  have h2 : (noiseR e)ᵀ = noiseR e := by
    have := hR.isHermitian.eq; rwa [conjTranspose_eq_transpose_of_trivial] at this
  unfold Below
  rw [(update_blocks e p q).1, (update_blocks e p q).2, kalman_joseph h1 h2 hd, h1]
  have hk := kalman_psd hS hR
  constructor
  · rwa [show block p.Sigma - (block p.Sigma
      - block p.Sigma * (block p.Sigma + noiseR e)⁻¹ * block p.Sigma)
      = block p.Sigma * (block p.Sigma + noiseR e)⁻¹ * block p.Sigma by abel]
  · rwa [add_sub_cancel_left]

theorem covariance_is_sum (e : EKF) (s p q : StateCov) (c : Control) (h : ℝ) :
    block (predict e s c h p).covariance
        = block (predict e s c h p).Sigma + block (predict e s c h p).Lambda ∧
    block (update e p q).covariance
        = block (update e p q).Sigma + block (update e p q).Lambda := by
  simp [predict, update, block_from_eigen]

theorem update_below_noise {e : EKF} (he : MeasurementNoiseOk e) (p q : StateCov)
    (hp : (mat4 p.Sigma).PosSemidef) : Below (block (update e p q).Sigma) (noiseR e) := by
  have hS := block_psd hp
  have hR := noiseR_posDef he
  have hd := kalman_det hS hR
  have h1 : (block p.Sigma)ᵀ = block p.Sigma := by
    have := hS.isHermitian.eq; rwa [conjTranspose_eq_transpose_of_trivial] at this
  have h2 : (noiseR e)ᵀ = noiseR e := by
    have := hR.isHermitian.eq; rwa [conjTranspose_eq_transpose_of_trivial] at this
  unfold Below
  rw [(update_blocks e p q).1, kalman_joseph h1 h2 hd, kalman_swap hd]
  have hk := (hR.posSemidef_add hS).inv.posSemidef.mul_mul_conjTranspose_same (noiseR e)
  rw [hR.isHermitian.eq] at hk
  rwa [show noiseR e - (noiseR e - noiseR e * (block p.Sigma + noiseR e)⁻¹ * noiseR e)
      = noiseR e * (block p.Sigma + noiseR e)⁻¹ * noiseR e by abel]

theorem update_sigma_psd {e : EKF} (p q : StateCov) (hp : (block p.Sigma).PosSemidef) :
    (block (update e p q).Sigma).PosSemidef := by
  have hR : (noiseR e).PosSemidef := by
    unfold noiseR
    rw [posSemidef_diagonal_iff]
    intro i; fin_cases i <;> simp <;> positivity
  rw [(update_blocks e p q).1]
  have a := hp.mul_mul_conjTranspose_same
    (1 - block p.Sigma * (block p.Sigma + noiseR e)⁻¹)
  have b := hR.mul_mul_conjTranspose_same (block p.Sigma * (block p.Sigma + noiseR e)⁻¹)
  rw [conjTranspose_eq_transpose_of_trivial] at a b
  exact a.add b

theorem update_lambda_psd {e : EKF} (he : MeasurementNoiseOk e) (p q : StateCov)
    (hp : (mat4 p.Sigma).PosSemidef) (hl : (block p.Lambda).PosSemidef) :
    (block (update e p q).Lambda).PosSemidef := by
  have := (update_monotone he p q hp).2
  unfold Below at this
  have h := hl.add this
  rwa [add_sub_cancel] at h

theorem predict_psd {e : EKF} (he : MotionNoiseOk e) (s p : StateCov) (c : Control) (h : ℝ)
    (hS : (block s.Sigma).PosSemidef) (hL : (block s.Lambda).PosSemidef) :
    (block (predict e s c h p).Sigma).PosSemidef ∧
    (block (predict e s c h p).Lambda).PosSemidef := by
  simp only [predict, block_from_eigen, to_eigen_eq_block]
  constructor
  · have a := hS.mul_mul_conjTranspose_same (get_motion_jacobi s.state c h).1
    have b := (motion_cov_psd he s.state h).mul_mul_conjTranspose_same
      (get_motion_jacobi s.state c h).2
    rw [conjTranspose_eq_transpose_of_trivial] at a b
    exact a.add b
  · have a := hL.mul_mul_conjTranspose_same ((get_motion_jacobi s.state c h).1
      - (get_motion_jacobi s.state c h).2 * get_controller_gain e c
        * get_rotation_matrix s.state.theta)
    rw [conjTranspose_eq_transpose_of_trivial] at a
    exact a

/-- Loop invariant of `integrate_with_covariance`. -/
structure CovInv (v : CovVars) : Prop where
  ok : CovOk v.curr
  pS : NoKappa v.pred.Sigma
  pL : NoKappa v.pred.Lambda
  pC : NoKappa v.pred.covariance
  nS : NoKappa v.next.Sigma
  nL : NoKappa v.next.Lambda
  nC : NoKappa v.next.covariance

theorem covBody_ok {e : EKF} (he : MotionNoiseOk e) (hm : MeasurementNoiseOk e)
    (ode : State → Control → ℝ → State) (c : Control) (h : ℝ) {v : CovVars} (hv : CovInv v) :
    CovInv (covBody e ode c h v) ∧ CovOk (covBody e ode c h v).next ∧
    Below (block (covBody e ode c h v).next.Sigma) (noiseR e) ∧
    block (covBody e ode c h v).next.covariance
      = block (covBody e ode c h v).next.Sigma + block (covBody e ode c h v).next.Lambda ∧
    (innovation e (covBody e ode c h v).pred).det ≠ 0 := by
  obtain ⟨pr, hpr⟩ : ∃ pr, pr = predict e v.curr c h
    { v.pred with state := ode v.curr.state c h } := ⟨_, rfl⟩
  obtain ⟨nx, hnx⟩ : ∃ nx, nx = update e pr { v.next with state := pr.state } := ⟨_, rfl⟩
  have hb : covBody e ode c h v = ⟨⟨nx.state, nx.Sigma, nx.Lambda, nx.covariance⟩, pr, nx⟩ := by
    rw [hnx, hpr]; rfl
  have hP := predict_psd he v.curr { v.pred with state := ode v.curr.state c h } c h
    (block_psd hv.ok.1) (block_psd hv.ok.2.1)
  rw [← hpr] at hP
  have kS : NoKappa pr.Sigma := by rw [hpr]; exact from_eigen_noKappa _ hv.pS
  have kL : NoKappa pr.Lambda := by rw [hpr]; exact from_eigen_noKappa _ hv.pL
  have kC : NoKappa pr.covariance := by rw [hpr]; exact from_eigen_noKappa _ hv.pC
  have mS : NoKappa nx.Sigma := by rw [hnx]; exact from_eigen_noKappa _ hv.nS
  have mL : NoKappa nx.Lambda := by rw [hnx]; exact from_eigen_noKappa _ hv.nL
  have mC : NoKappa nx.covariance := by rw [hnx]; exact from_eigen_noKappa _ hv.nC
  have hpS := mat4_psd kS hP.1
  have uS : (block nx.Sigma).PosSemidef := by rw [hnx]; exact update_sigma_psd _ _ hP.1
  have uL : (block nx.Lambda).PosSemidef := by
    rw [hnx]; exact update_lambda_psd hm _ _ hpS hP.2
  have uC : block nx.covariance = block nx.Sigma + block nx.Lambda := by
    rw [hnx]; exact (covariance_is_sum e v.curr pr _ c h).2
  have hok : CovOk nx := ⟨mat4_psd mS uS, mat4_psd mL uL, mat4_psd mC (uC ▸ uS.add uL)⟩
  rw [hb]
  refine ⟨⟨hok, kS, kL, kC, mS, mL, mC⟩, hok, ?_, uC, innovation_invertible hm _ hpS⟩
  show Below (block nx.Sigma) _
  rw [hnx]; exact update_below_noise hm _ _ hpS

/-- What holds of every state of a path. -/
structure PathOk (e : EKF) (s : StateCov) : Prop where
  ok : CovOk s
  below : Below (block s.Sigma) (noiseR e)
  sum : block s.covariance = block s.Sigma + block s.Lambda

theorem covSegLoop_ok {e : EKF} (he : MotionNoiseOk e) (hm : MeasurementNoiseOk e)
    (ode : State → Control → ℝ → State) (c : Control) (disc a : ℝ) (P : StateCov → Prop)
    (hP : ∀ s, CovOk s → Below (block s.Sigma) (noiseR e) →
      block s.covariance = block s.Sigma + block s.Lambda → P s) :
    ∀ (n : ℕ) (ss : ℝ) (v : CovVars), CovInv v → P v.curr →
      (∀ s ∈ (covSegLoop e ode c disc a n ss v).1, P s) ∧
      CovInv (covSegLoop e ode c disc a n ss v).2 ∧
      P (covSegLoop e ode c disc a n ss v).2.curr := by
  intro n
  induction n with
  | zero => intro ss v hv hc; exact ⟨by simp [covSegLoop], hv, hc⟩
  | succ n ih =>
    intro ss v hv hc
    have hb := covBody_ok he hm ode c (nextStep disc a ss).1 hv
    have hn := hP _ hb.2.1 hb.2.2.1 hb.2.2.2.1
    have := ih (nextStep disc a ss).2 _ hb.1 hn
    refine ⟨?_, this.2⟩
    intro s hs
    simp only [covSegLoop, List.mem_cons] at hs
    rcases hs with rfl | hs
    · exact hn
    · exact this.1 s hs

theorem fresh_noKappa (junk : State) : NoKappa (freshCov junk).Sigma ∧
    NoKappa (freshCov junk).Lambda ∧ NoKappa (freshCov junk).covariance :=
  ⟨fun _ _ => rfl, fun _ _ => rfl, fun _ _ => rfl⟩

theorem covLoop_ok {e : EKF} (he : MotionNoiseOk e) (hm : MeasurementNoiseOk e) (disc : ℝ)
    (P : StateCov → Prop)
    (hP : ∀ s, CovOk s → Below (block s.Sigma) (noiseR e) →
      block s.covariance = block s.Sigma + block s.Lambda → P s)
    (hP' : ∀ (s : StateCov) (t : State), P s → P { s with state := t }) (cs : List Control) :
    ∀ v : CovVars, CovInv v → P v.curr → ∀ s ∈ covLoop e disc cs v, P s := by
  induction cs with
  | nil => intro v _ _ s hs; simp [covLoop] at hs
  | cons c cs ih =>
    intro v hv hc s hs
    obtain ⟨w, hw⟩ : ∃ w : CovVars, w = { v with curr := { v.curr with
      state := { v.curr.state with kappa := c.kappa, d := sgn c.delta_s } } } := ⟨_, rfl⟩
    have hw1 : CovInv w := by
      rw [hw]; exact ⟨hv.ok, hv.pS, hv.pL, hv.pC, hv.nS, hv.nL, hv.nC⟩
    have hw2 : P w.curr := by rw [hw]; exact hP' _ _ hc
    have hr := covSegLoop_ok he hm integrate_ODE c disc |c.delta_s| P hP
      (nSteps disc |c.delta_s|) 0 w hw1 hw2
    have e1 : covLoop e disc (c :: cs) v = w.curr :: (covSegLoop e integrate_ODE c disc |c.delta_s|
        (nSteps disc |c.delta_s|) 0 w).1 ++ covLoop e disc cs (covSegLoop e integrate_ODE c disc
          |c.delta_s| (nSteps disc |c.delta_s|) 0 w).2 := by rw [hw]; rfl
    rw [e1, List.cons_append, List.mem_cons, List.mem_append] at hs
    rcases hs with rfl | hs | hs
    · exact hw2
    · exact hr.1 s hs
    · exact ih _ hr.2.1 hr.2.2 s hs

theorem hcCovLoop_ok {e : EKF} (he : MotionNoiseOk e) (hm : MeasurementNoiseOk e) (disc : ℝ)
    (P : StateCov → Prop)
    (hP : ∀ s, CovOk s → Below (block s.Sigma) (noiseR e) →
      block s.covariance = block s.Sigma + block s.Lambda → P s)
    (hP' : ∀ (s : StateCov) (t : State), P s → P { s with state := t }) (cs : List Control) :
    ∀ v : CovVars, CovInv v → P v.curr → ∀ s ∈ hcCovLoop e disc cs v, P s := by
  induction cs with
  | nil => intro v _ _ s hs; simp [hcCovLoop] at hs
  | cons c cs ih =>
    intro v hv hc s hs
    obtain ⟨cu, hcu⟩ : ∃ cu : StateCov, cu = if |c.kappa - v.curr.state.kappa| > SF.epsilon then
      { v.curr with state := { v.curr.state with kappa := c.kappa, d := sgn c.delta_s } }
      else v.curr := ⟨_, rfl⟩
    have hw1 : CovInv { v with curr := cu } := by
      rw [hcu]; split_ifs
      · exact ⟨hv.ok, hv.pS, hv.pL, hv.pC, hv.nS, hv.nL, hv.nC⟩
      · exact hv
    have hw2 : P cu := by
      rw [hcu]; split_ifs
      · exact hP' _ _ hc
      · exact hc
    have hr := covSegLoop_ok he hm hc_integrate_ODE c disc |c.delta_s| P hP
      (nSteps disc |c.delta_s|) 0 { v with curr := cu } hw1 hw2
    have e1 : hcCovLoop e disc (c :: cs) v
        = (if |c.kappa - v.curr.state.kappa| > SF.epsilon then [cu] else [])
          ++ (covSegLoop e hc_integrate_ODE c disc |c.delta_s|
            (nSteps disc |c.delta_s|) 0 { v with curr := cu }).1
          ++ hcCovLoop e disc cs (covSegLoop e hc_integrate_ODE c disc
            |c.delta_s| (nSteps disc |c.delta_s|) 0 { v with curr := cu }).2 := by
      rw [hcu]; rfl
    rw [e1, List.mem_append, List.mem_append] at hs
    rcases hs with (hs | hs) | hs
    · split_ifs at hs with hh
      · rw [List.mem_singleton.1 hs]; exact hw2
      · simp at hs
    · exact hr.1 s hs
    · exact ih _ hr.2.1 hr.2.2 s hs

theorem covSegLoop_states (e : EKF) (ode : State → Control → ℝ → State) (c : Control)
    (disc a : ℝ) : ∀ (n : ℕ) (ss : ℝ) (v : CovVars),
      (covSegLoop e ode c disc a n ss v).1.map StateCov.state
        = (segLoop (fun s h => ode s c h) disc a n ss v.curr.state).1.map Prod.snd ∧
      (covSegLoop e ode c disc a n ss v).2.curr.state
        = (segLoop (fun s h => ode s c h) disc a n ss v.curr.state).2 := by
  intro n
  induction n with
  | zero => intro ss v; exact ⟨rfl, rfl⟩
  | succ n ih =>
    intro ss v
    have := ih (nextStep disc a ss).2 (covBody e ode c (nextStep disc a ss).1 v)
    constructor
    · simp only [covSegLoop, segLoop, List.map_cons]
      rw [this.1]; rfl
    · simp only [covSegLoop, segLoop]
      rw [this.2]; rfl

theorem covSegLoop_kappa (e : EKF) (ode : State → Control → ℝ → State) (c : Control)
    (disc a : ℝ) : ∀ (n : ℕ) (ss : ℝ) (v : CovVars), NoKappa v.next.covariance →
      (∀ t ∈ (covSegLoop e ode c disc a n ss v).1, NoKappa t.covariance) ∧
      NoKappa (covSegLoop e ode c disc a n ss v).2.next.covariance := by
  intro n
  induction n with
  | zero => intro ss v hv; exact ⟨by simp [covSegLoop], hv⟩
  | succ n ih =>
    intro ss v hv
    have hb : NoKappa (covBody e ode c (nextStep disc a ss).1 v).next.covariance :=
      from_eigen_noKappa _ hv
    have := ih (nextStep disc a ss).2 _ hb
    refine ⟨?_, this.2⟩
    intro t ht
    simp only [covSegLoop, List.mem_cons] at ht
    rcases ht with rfl | ht
    · exact hb
    · exact this.1 t ht

theorem dir_seg (c : Control) : (seg c).dir = sgn c.delta_s := rfl

theorem sgn_cases (x : ℝ) : sgn x = 1 ∨ sgn x = -1 := by
  unfold sgn; split_ifs <;> simp

theorem sgn_mul_self (x : ℝ) : sgn x * sgn x = 1 := by
  rcases sgn_cases x with h | h <;> rw [h] <;> norm_num

end Props
