import Verif.Lemmas.HcSampling
import Verif.Lemmas.JacobiClothoid
import Verif.Lemmas.EkfPath
import Verif.Props.Integrate

/-!
# Properties C06, C09, and the HC/CC parts of C11-C13 and C30
-/

noncomputable section

namespace Props

open SF Spec Real

/-- **C06.** Both outputs of `fresnel` are within `1e-16` of the Fresnel integrals, for
every real argument. -/
theorem C06_fresnel_accurate (s : ℝ) :
    |(fresnel s).1 - fresnelS s| < 1 / 10 ^ 16 ∧ |(fresnel s).2 - fresnelC s| < 1 / 10 ^ 16 := by
  obtain ⟨h1, h2⟩ := Poly.fresnel_accurate s
  exact ⟨h1.trans_lt (by norm_num), h2.trans_lt (by norm_num)⟩

/-- Both branches of `fresnel` are reached: `s = 1` uses the first, `s = 3` the second table. -/
example : π / 2 * 1 * 1 ≤ 8 ∧ ¬ π / 2 * 3 * 3 ≤ 8 := by
  constructor
  · linarith [pi_lt_four]
  · linarith [pi_gt_three]

/-- The bound of C06 is not trivially met: `S(1/2)` and `C(1/2)` are not zero. -/
example : 0 < fresnelC (1 / 2) := by
  unfold fresnelC
  apply intervalIntegral.intervalIntegral_pos_of_pos_on
  · exact Continuous.intervalIntegrable (by fun_prop) _ _
  · intro u hu
    apply cos_pos_of_mem_Ioo
    have h1 : u ^ 2 < 1 := by nlinarith [hu.1, hu.2]
    have h2 : 0 < u ^ 2 := by have := hu.1; positivity
    constructor <;> nlinarith [pi_pos]
  · norm_num

/-- **C09.** `end_of_clothoid` returns heading and curvature of the exact solution of the equations
of motion, and a position within `5e-16 / √|sigma|` of it. -/
theorem C09_clothoid {sigma d : ℝ} (hs : sigma ≠ 0) (hd : d = 1 ∨ d = -1)
    (x y theta kappa L : ℝ) :
    let e := end_of_clothoid x y theta kappa sigma d L
    ∃ q, Drives d kappa sigma L ⟨x, y, theta⟩ q ∧
      Near (5 / 10 ^ 16 / √|sigma|) ⟨e.x, e.y, e.theta⟩ q ∧ e.kappa = kappa + sigma * L := by
  intro e
  refine ⟨_, drives_arrive d kappa sigma L ⟨x, y, theta⟩, ⟨clothoid_accurate hs hd x y theta kappa L, ?_⟩,
    rfl⟩
  refine (pify_angleEq _).trans ?_
  have : heading d kappa sigma theta L
      = theta + kappa * d * L + 0.5 * sigma * d * L * L := by
    unfold heading; ring
  simp only [arrive, this]
  exact AngleEq.refl _

/-- A backward clothoid from curvature -1 to 1 to which C09 applies. -/
example : ∃ q, Drives (-1) (-1) 1 2 ⟨0, 0, 0⟩ q ∧
    (end_of_clothoid 0 0 0 (-1) 1 (-1) 2).kappa = 1 := by
  obtain ⟨q, h1, _, h3⟩ := C09_clothoid (sigma := 1) (d := -1) one_ne_zero (Or.inr rfl) 0 0 0 (-1) 2
  exact ⟨q, h1, h3.trans (by norm_num)⟩

/-! ## HC/CC sampling -/

/-- **C12 for HC/CC spaces.** The states of `integrate` are: the start, then for each segment
its start if the curvature jumps, and the points of the exact trajectory at arc lengths
`disc, 2 disc, …, |delta_s|`, each with exact heading, curvature and direction and with
a position error of at most the sum of `5e-16 / √|sigma|` over the clothoids driven so far. -/
theorem C12_hc_integrate_samples {disc : ℝ} (hd : 0 < disc) (s : State) (c : Control)
    (cs : List Control) (hR : Representable c.kappa ((c :: cs).map seg)) :
    ∃ l q, hcIntegrate disc s (c :: cs)
        = some (⟨s.x, s.y, s.theta, c.kappa, sgn c.delta_s⟩ :: l) ∧
      SampledNear disc 0 c.kappa ((c :: cs).map seg) (pose s) (l.map smp) q := by
  obtain ⟨q, hq⟩ := hcIntegrateLoop_sampled hd (c :: cs)
    ⟨s.x, s.y, s.theta, c.kappa, sgn c.delta_s⟩ (pose s) 0 le_rfl
    (Near.of_same le_rfl (SameConfig.refl _)) hR
  exact ⟨_, q, rfl, hq⟩

/-- **C13 for HC/CC spaces.** `interpolate` returns, for `0 < t`, the point of the commanded path
at arc length `min t 1 * L` with exact heading and curvature, and position error as in C12. -/
theorem C13_hc_interpolate {disc : ℝ} (hd : 0 < disc) (s : State) (c : Control)
    (cs : List Control) (hR : Representable c.kappa ((c :: cs).map seg)) (t : ℝ) (ht : 0 < t) :
    ∃ i, hcInterpolate disc s (c :: cs) t = some i ∧
      AtNear 0 ((c :: cs).map seg) (pose s) (min t 1 * totalLength ((c :: cs).map seg)) (smp i) := by
  have hL := s_path_nonneg (c :: cs)
  rw [← s_path_eq]
  have key : ∀ si, 0 ≤ si → si ≤ s_path (c :: cs) → AtNear 0 ((c :: cs).map seg) (pose s) si
      (smp (hcInterpolateLoop disc si (c :: cs) 0 ⟨s.x, s.y, s.theta, c.kappa, sgn c.delta_s⟩)) := by
    intro si h1 h2
    have := hcInterpolateLoop_at hd (s_inter := si) (c :: cs) (by simp) 0
      ⟨s.x, s.y, s.theta, c.kappa, sgn c.delta_s⟩ (pose s) 0 le_rfl
      (Near.of_same le_rfl (SameConfig.refl _)) hR h1 (by linarith)
    simpa using this
  refine ⟨_, rfl, ?_⟩
  simp only [not_le.2 ht, if_false]
  by_cases h1 : t > 1
  · rw [if_pos h1, min_eq_right h1.le, one_mul]
    exact key _ hL le_rfl
  · rw [if_neg h1, min_eq_left (not_lt.1 h1)]
    exact key _ (by positivity) (by nlinarith [not_lt.1 h1])

/-- **C11 for HC/CC spaces.** The last state of `integrate` is, for every discretization, the end of
the commanded path up to the position error of the clothoids. -/
theorem C11_hc_integrate_end_near {disc : ℝ} (hd : 0 < disc) (s : State) (c : Control)
    (cs : List Control) (hR : Representable c.kappa ((c :: cs).map seg)) :
    ∃ l e q, hcIntegrate disc s (c :: cs) = some l ∧ l.getLast? = some e ∧
      DrivesAll ((c :: cs).map seg) (pose s) q ∧
      Near (pathTol ((c :: cs).map seg)) (pose e) q := by
  obtain ⟨l, hl⟩ : ∃ l, hcIntegrate disc s (c :: cs) = some l := ⟨_, rfl⟩
  obtain ⟨i, e, hi, he, hie, _⟩ := (C13_hc_interpolate_ends hd hd s (c :: cs) l hl).2 1 le_rfl
  obtain ⟨i', hi', hat⟩ := C13_hc_interpolate hd s c cs hR 1 one_pos
  obtain rfl : i = i' := Option.some.inj (hi.symm.trans hi')
  rw [min_self, one_mul] at hat
  obtain ⟨q, hq1, hq2⟩ := hat.end rfl
  refine ⟨l, e, q, hl, he, hq1, ?_⟩
  rw [zero_add] at hq2
  have h0 : Near 0 (pose e) (pose i) := Near.of_same le_rfl hie.symm
  have := h0.trans hq2
  rwa [zero_add] at this

/-- A path with a clothoid, an arc, a line, a curvature jump and a change of direction to which
the HC/CC statements apply. -/
example : Representable 0 (([⟨1, 0, 1⟩, ⟨2, 1, 0⟩, ⟨-1, -1, 1⟩, ⟨-3, 0, 0⟩] : List Control).map seg) := by
  simp [Representable, seg]; norm_num

/-! ## C30 -/

/-- **C30, clothoids.** `F_x` and the length column of `F_u` and the curvature column of `F_u`
agree with the derivatives of the true motion: the length column exactly, `F_x` up to
`5e-16 / √|sigma|` and the curvature column up to `|kappa| / |sigma|` times that. -/
theorem C30_clothoid_partial (s : State) (c : Control) (h : ℝ) (hs : |c.sigma| > 1 / 10000)
    (f : Config → ℝ → ℝ → Config) (hf : IsMotion (seg c).dir c.sigma f) :
    ∃ Fx v, PoseJacobian f (pose s) s.kappa h Fx ∧
      LengthDeriv (seg c).dir f (pose s) s.kappa h (fun i => (get_motion_jacobi s c h).2 i 0) ∧
      CurvatureDeriv f (pose s) s.kappa h v ∧
      (∀ i j, |(get_motion_jacobi s c h).1 i j - Fx i j| ≤ 5 / 10 ^ 16 / √|c.sigma|) ∧
      ∀ i, |(get_motion_jacobi s c h).2 i 1 - v i|
        ≤ |s.kappa| / |c.sigma| * (5 / 10 ^ 16 / √|c.sigma|) := by
  have hs0 : c.sigma ≠ 0 := by
    intro h0; rw [h0, abs_zero] at hs; norm_num at hs
  have hs' : |c.sigma| > SF.epsilon := hs
  have hd := sgn_cases c.delta_s
  have hdd := sgn_mul_self c.delta_s
  have hgg := Spec.sgn_sq c.sigma
  have hga := Spec.sgn_mul_abs c.sigma
  have ha : 0 < |c.sigma| := abs_pos.2 hs0
  have htol : 0 ≤ 5 / 10 ^ 16 / √|c.sigma| := by positivity
  have hktol : 0 ≤ |s.kappa| / |c.sigma| * (5 / 10 ^ 16 / √|c.sigma|) := by positivity
  rw [isMotion_unique hf, dir_seg]
  have hacc := clothoid_accurate hs0 hd s.x s.y s.theta s.kappa h
  have e0 : fArg s.kappa c.sigma 0 = 1 / √π * (1 / √|c.sigma|) * SF.sgn c.sigma * s.kappa := by
    unfold fArg; ring
  obtain ⟨ex, hex⟩ : ∃ ex, ex = (end_of_clothoid s.x s.y s.theta s.kappa c.sigma (sgn c.delta_s) h).x
    - (arrive (sgn c.delta_s) s.kappa c.sigma h ⟨s.x, s.y, s.theta⟩).x := ⟨_, rfl⟩
  obtain ⟨ey, hey⟩ : ∃ ey, ey = (end_of_clothoid s.x s.y s.theta s.kappa c.sigma (sgn c.delta_s) h).y
    - (arrive (sgn c.delta_s) s.kappa c.sigma h ⟨s.x, s.y, s.theta⟩).y := ⟨_, rfl⟩
  rw [← hex, ← hey] at hacc
  have bx : |ex| ≤ 5 / 10 ^ 16 / √|c.sigma| := by
    refine le_trans ?_ hacc
    rw [← sqrt_sq_eq_abs]; apply sqrt_le_sqrt; nlinarith [sq_nonneg ey]
  have by' : |ey| ≤ 5 / 10 ^ 16 / √|c.sigma| := by
    refine le_trans ?_ hacc
    rw [← sqrt_sq_eq_abs]; apply sqrt_le_sqrt; nlinarith [sq_nonneg ex]
  have hk4 : heading (sgn c.delta_s) s.kappa c.sigma s.theta h
      = s.theta - 0.5 * sgn c.delta_s * s.kappa * s.kappa / c.sigma
        + sgn c.delta_s * sgn c.sigma * (π / 2) * fArg s.kappa c.sigma h * fArg s.kappa c.sigma h := by
    rw [heading_split hs0]; unfold baseAngle; ring
  have hk5 : s.theta
      = s.theta - 0.5 * sgn c.delta_s * s.kappa * s.kappa / c.sigma
        + sgn c.delta_s * sgn c.sigma * (π / 2) * fArg s.kappa c.sigma 0 * fArg s.kappa c.sigma 0 := by
    have := heading_split (d := sgn c.delta_s) hs0 s.theta s.kappa 0
    unfold baseAngle at this
    have h0 : heading (sgn c.delta_s) s.kappa c.sigma s.theta 0 = s.theta := by unfold heading; ring
    rw [h0] at this
    linear_combination this
  -- the integrals in terms of the code
  have jx : (∫ u in (0:ℝ)..h, sgn c.delta_s * cos (heading (sgn c.delta_s) s.kappa c.sigma s.theta u))
      = √π * (1 / √|c.sigma|) *
        (sgn c.delta_s * cos (baseAngle s.theta s.kappa c.sigma (sgn c.delta_s))
            * ((fresnel (fArg s.kappa c.sigma h)).2 - (fresnel (fArg s.kappa c.sigma 0)).2)
          - sgn c.sigma * sin (baseAngle s.theta s.kappa c.sigma (sgn c.delta_s))
            * ((fresnel (fArg s.kappa c.sigma h)).1 - (fresnel (fArg s.kappa c.sigma 0)).1)) - ex := by
    rw [hex, e0]
    simp only [arrive, end_of_clothoid, fArg, baseAngle]
    ring
  have jy : (∫ u in (0:ℝ)..h, sgn c.delta_s * sin (heading (sgn c.delta_s) s.kappa c.sigma s.theta u))
      = √π * (1 / √|c.sigma|) *
        (sgn c.delta_s * sin (baseAngle s.theta s.kappa c.sigma (sgn c.delta_s))
            * ((fresnel (fArg s.kappa c.sigma h)).2 - (fresnel (fArg s.kappa c.sigma 0)).2)
          + sgn c.sigma * cos (baseAngle s.theta s.kappa c.sigma (sgn c.delta_s))
            * ((fresnel (fArg s.kappa c.sigma h)).1 - (fresnel (fArg s.kappa c.sigma 0)).1)) - ey := by
    rw [hey, e0]
    simp only [arrive, end_of_clothoid, fArg, baseAngle]
    ring
  have js := integral_clothoid_s_sin (d := sgn c.delta_s) hs0 s.kappa s.theta h
  have jc := integral_clothoid_s_cos (d := sgn c.delta_s) hs0 s.kappa s.theta h
  have hfc : ∀ L, 1 / √π * (1 / √|c.sigma|) * (|c.sigma| * L + sgn c.sigma * s.kappa)
      = fArg s.kappa c.sigma L := fun L => rfl
  have hb1 : s.theta - 0.5 * sgn c.delta_s * s.kappa * s.kappa / c.sigma
      = baseAngle s.theta s.kappa c.sigma (sgn c.delta_s) := rfl
  have hinv' : 1 / |c.sigma| = sgn c.sigma / c.sigma := by
    rw [div_eq_div_iff ha.ne' hs0, one_mul, hga]
  refine ⟨!![1, 0, -∫ u in (0:ℝ)..h, sgn c.delta_s * sin (heading (sgn c.delta_s) s.kappa c.sigma s.theta u);
      0, 1, ∫ u in (0:ℝ)..h, sgn c.delta_s * cos (heading (sgn c.delta_s) s.kappa c.sigma s.theta u);
      0, 0, 1], _, ⟨?_, ?_, ?_⟩, ?_, arrive_deriv_kappa _ s.kappa c.sigma h (pose s), ?_, ?_⟩
  · refine (arrive_deriv_x (sgn c.delta_s) s.kappa c.sigma h (pose s)).congr ?_
    funext i; fin_cases i <;> rfl
  · refine (arrive_deriv_y (sgn c.delta_s) s.kappa c.sigma h (pose s)).congr ?_
    funext i; fin_cases i <;> rfl
  · refine (arrive_deriv_theta (sgn c.delta_s) s.kappa c.sigma h (pose s)).congr ?_
    funext i; fin_cases i <;> rfl
  · refine (arrive_deriv_signed s.kappa c.sigma h (pose s) hd).congr ?_
    simp only [get_motion_jacobi, if_pos hs', hfc]
    rw [show (pose s).theta = s.theta from rfl, hk4]
    funext i; fin_cases i <;> simp
  · intro i j
    simp only [get_motion_jacobi, if_pos hs', hfc, ← e0, hb1]
    rw [jx, jy]
    fin_cases i <;> fin_cases j
    · simpa using htol
    · simpa using htol
    · rw [show ∀ a b : ℝ, |a - b| = |b - a| from fun a b => abs_sub_comm a b]
      refine le_of_eq_of_le (congrArg _ ?_) by'
      simp only [Fin.zero_eta, Fin.reduceFinMk, Matrix.of_apply, Matrix.cons_val]
      ring
    · simpa using htol
    · simpa using htol
    · refine le_of_eq_of_le (congrArg _ ?_) bx
      simp only [Fin.mk_one, Fin.reduceFinMk, Matrix.of_apply, Matrix.cons_val]
      ring
    · simpa using htol
    · simpa using htol
    · simpa using htol
  · intro i
    have hpth : (pose s).theta = s.theta := rfl
    simp only [get_motion_jacobi, if_pos hs', hfc, ← e0, hb1, hpth]
    rw [js, jc, jx, jy]
    have bk : ∀ z : ℝ, |z| ≤ 5 / 10 ^ 16 / √|c.sigma| →
        |sgn c.delta_s * s.kappa / c.sigma * z| ≤ |s.kappa| / |c.sigma| * (5 / 10 ^ 16 / √|c.sigma|) := by
      intro z hz
      have hab : |sgn c.delta_s| = 1 := by rcases hd with h1 | h1 <;> rw [h1] <;> simp
      rw [abs_mul, abs_div, abs_mul, hab, one_mul]
      exact mul_le_mul_of_nonneg_left hz (by positivity)
    rw [hb1] at hk4 hk5
    fin_cases i
    · refine le_of_eq_of_le (congrArg _ ?_) (bk ey by')
      simp only [Fin.zero_eta, Matrix.of_apply, Matrix.cons_val]
      rw [← hk4, ← hk5]
      generalize cos (heading (sgn c.delta_s) s.kappa c.sigma s.theta h) = c4
      generalize sin (heading (sgn c.delta_s) s.kappa c.sigma s.theta h) = s4
      generalize cos (baseAngle s.theta s.kappa c.sigma (sgn c.delta_s)) = cb
      generalize sin (baseAngle s.theta s.kappa c.sigma (sgn c.delta_s)) = sb
      generalize (fresnel (fArg s.kappa c.sigma h)).2 - (fresnel (fArg s.kappa c.sigma 0)).2 = A
      generalize (fresnel (fArg s.kappa c.sigma h)).1 - (fresnel (fArg s.kappa c.sigma 0)).1 = B
      generalize √π * (1 / √|c.sigma|) = R
      linear_combination (R * s.kappa * (sgn c.sigma * sb * A + sgn c.delta_s * cb * B)) * hinv'
        + (R * s.kappa * sb * A / c.sigma) * hgg - (R * s.kappa * sb * A / c.sigma) * hdd
    · refine le_of_eq_of_le (abs_sub_comm _ _) ?_
      refine le_of_eq_of_le (congrArg _ ?_) (bk ex bx)
      simp only [Fin.mk_one, Matrix.of_apply, Matrix.cons_val]
      rw [← hk4, ← hk5]
      generalize cos (heading (sgn c.delta_s) s.kappa c.sigma s.theta h) = c4
      generalize sin (heading (sgn c.delta_s) s.kappa c.sigma s.theta h) = s4
      generalize cos (baseAngle s.theta s.kappa c.sigma (sgn c.delta_s)) = cb
      generalize sin (baseAngle s.theta s.kappa c.sigma (sgn c.delta_s)) = sb
      generalize (fresnel (fArg s.kappa c.sigma h)).2 - (fresnel (fArg s.kappa c.sigma 0)).2 = A
      generalize (fresnel (fArg s.kappa c.sigma h)).1 - (fresnel (fArg s.kappa c.sigma 0)).1 = B
      generalize √π * (1 / √|c.sigma|) = R
      linear_combination (-(R * s.kappa * (-sgn c.sigma * cb * A + sgn c.delta_s * sb * B))) * hinv'
        + (R * s.kappa * cb * A / c.sigma) * hgg - (R * s.kappa * cb * A / c.sigma) * hdd
    · simpa using hktol

end Props
