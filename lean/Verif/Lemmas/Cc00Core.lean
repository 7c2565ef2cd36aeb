import Verif.Lemmas.Cc00Exists
import Verif.Lemmas.DubinsPick
import Verif.Spec.DubinsStates

/-!
# CC00-Dubins: the whole planner
-/

noncomputable section

namespace Spec

open Real Props

theorem abs_fresnelC_le {s : ℝ} (hs : 0 ≤ s) : |fresnelC s| ≤ s := by
  have := intervalIntegral.norm_integral_le_of_norm_le_const (a := 0) (b := s) (C := 1)
    (f := fun u => cos (π / 2 * u ^ 2)) (fun x _ => by rw [Real.norm_eq_abs]; exact abs_cos_le_one _)
  rw [Real.norm_eq_abs, sub_zero, one_mul, abs_of_nonneg hs] at this
  exact this

theorem abs_fresnelS_le {s : ℝ} (hs : 0 ≤ s) : |fresnelS s| ≤ s := by
  have := intervalIntegral.norm_integral_le_of_norm_le_const (a := 0) (b := s) (C := 1)
    (f := fun u => sin (π / 2 * u ^ 2)) (fun x _ => by rw [Real.norm_eq_abs]; exact abs_sin_le_one _)
  rw [Real.norm_eq_abs, sub_zero, one_mul, abs_of_nonneg hs] at this
  exact this

/-- The radius of CC circles is bounded. -/
theorem radius_le {k s : ℝ} (hk : k > SF.epsilon) (hs : 0 < s) (hl : k / s > SF.epsilon) :
    √(ccA k s ^ 2 + ccB k s ^ 2) ≤ 3 * (k / s) + 2 / k := by
  have hk0 : 0 < k := lt_trans (by norm_num [SF.epsilon]) hk
  have hlow := cArg_full_lower hk hs hl
  have hc := cScale_pos hs
  have hcA : cScale s * cArg s (k / s) = k / s := by
    unfold cScale cArg
    have h1 : √π ≠ 0 := (sqrt_pos.mpr pi_pos).ne'
    have h2 : √s ≠ 0 := (sqrt_pos.mpr hs).ne'
    have h3 : √s * √s = s := mul_self_sqrt hs.le
    field_simp
    rw [sq, h3]
  obtain ⟨f1, f2⟩ := Poly.fresnel_accurate (cArg s (k / s))
  have hx0 : 0 ≤ cArg s (k / s) := le_trans (by norm_num) hlow
  have g1 := abs_fresnelS_le hx0
  have g2 := abs_fresnelC_le hx0
  obtain ⟨x, hx⟩ : ∃ x, x = cArg s (k / s) := ⟨_, rfl⟩
  have b1 : |(SF.fresnel x).1| ≤ 5 / 4 * x := by
    rw [hx] at *
    have := abs_le.mp f1; have := abs_le.mp g1
    rw [abs_le]; constructor <;> linarith
  have b2 : |(SF.fresnel x).2| ≤ 5 / 4 * x := by
    rw [hx] at *
    have := abs_le.mp f2; have := abs_le.mp g2
    rw [abs_le]; constructor <;> linarith
  rw [← hx] at hcA
  have e1 : |cScale s * (SF.fresnel x).1| ≤ 5 / 4 * (k / s) := by
    rw [abs_mul, abs_of_pos hc, ← hcA]; nlinarith
  have e2 : |cScale s * (SF.fresnel x).2| ≤ 5 / 4 * (k / s) := by
    rw [abs_mul, abs_of_pos hc, ← hcA]; nlinarith
  have hA : |ccA k s| ≤ 5 / 4 * (k / s) + 1 / k := by
    unfold ccA
    rw [← hx]
    refine (abs_sub _ _).trans (add_le_add e2 ?_)
    rw [abs_div, abs_of_pos hk0]
    exact div_le_div_of_nonneg_right (abs_sin_le_one _) hk0.le
  have hB : |ccB k s| ≤ 5 / 4 * (k / s) + 1 / k := by
    unfold ccB
    rw [← hx]
    refine (abs_add_le _ _).trans (add_le_add e1 ?_)
    rw [abs_div, abs_of_pos hk0]
    exact div_le_div_of_nonneg_right (abs_cos_le_one _) hk0.le
  have hks : 0 < k / s := by positivity
  have h1k : 0 < 1 / k := by positivity
  rw [show 3 * (k / s) + 2 / k = 3 * (k / s) + 2 * (1 / k) by ring]
  rw [sqrt_le_left (by positivity), ← sq_abs (ccA k s), ← sq_abs (ccB k s)]
  have := abs_nonneg (ccA k s)
  have := abs_nonneg (ccB k s)
  nlinarith

namespace CC00

open SF.CC00

/-- Distance of the centre from the start. -/
theorem center_start {c : SF.Circle} {k s : ℝ} (h : CircOk c k s) :
    ‖center c - (cfg c.start).pos‖ = c.radius := by
  rw [h.cen, Spec.cen, add_sub_cancel_left, norm_cis_mul, ← sqrt_eq_norm, h.ok.radius]
  congr 1
  have := sg_sq c.forward
  have := sg_sq c.left
  rw [mul_pow, mul_pow]
  nlinarith

theorem center_distance_le {c1 c2 : SF.Circle} {k s : ℝ} (h1 : CircOk c1 k s) (h2 : CircOk c2 k s) :
    SF.center_distance c1 c2 ≤ c1.radius + c2.radius + SF.configuration_distance c1.start c2.start := by
  rw [center_distance_eq, configuration_distance_eq]
  have e : center c2 - center c1 = (center c2 - (cfg c2.start).pos)
      - (center c1 - (cfg c1.start).pos) + ((cfg c2.start).pos - (cfg c1.start).pos) := by ring
  rw [e]
  refine (norm_add_le _ _).trans ?_
  have := norm_sub_le (center c2 - (cfg c2.start).pos) (center c1 - (cfg c1.start).pos)
  rw [center_start h1, center_start h2] at this
  linarith

variable {sp : SF.HCSpace} (s1 s2 : SF.State)

/-- Start configuration. -/
def startOf (s : SF.State) : SF.Configuration := SF.configuration s.x s.y s.theta 0

theorem path_eq (n : ℕ) : path sp s1 s2 n
    = circles_dubins_path sp (start_circle sp (startOf s1) (n / 2)) (end_circle sp (startOf s2) (n % 2)) := rfl

theorem cfg_startOf (s : SF.State) : SameConfig (cfg (startOf s)) (pose s) :=
  ⟨rfl, rfl, SF.twopify_angleEq _⟩

theorem start_circle_ok (hk : sp.kappa > SF.epsilon) (hs : 0 < sp.sigma)
    (hl : sp.kappa / sp.sigma > SF.epsilon) (q : SF.Configuration) (i : ℕ) :
    CircOk (start_circle sp q i) sp.kappa sp.sigma := circOk_at hk hs hl _ _ _ _

theorem end_circle_ok (hk : sp.kappa > SF.epsilon) (hs : 0 < sp.sigma)
    (hl : sp.kappa / sp.sigma > SF.epsilon) (q : SF.Configuration) (i : ℕ) :
    CircOk (end_circle sp q i) sp.kappa sp.sigma := circOk_at hk hs hl _ _ _ _

theorem distance_le (hk : sp.kappa > SF.epsilon) (hs : 0 < sp.sigma) (hl : sp.kappa / sp.sigma > SF.epsilon) :
    (cc00_dubins sp s1 s2).length ≤ 3 * turnBound sp.kappa sp.sigma sp.param.radius
      + 2 * sp.param.radius + dist2 s1 s2 := by
  have h := (C04_array_index_min (fun n => (path sp s1 s2 n).length) 4 (by norm_num)).2.1 0 (by norm_num)
  have h1 := start_circle_ok hk hs hl (startOf s1) 0
  have h2 := end_circle_ok hk hs hl (startOf s2) 0
  have r1 : (start_circle sp (startOf s1) 0).radius = sp.param.radius := rfl
  have r2 : (end_circle sp (startOf s2) 0).radius = sp.param.radius := rfl
  have hd : SF.configuration_distance (startOf s1) (startOf s2) = dist2 s1 s2 := rfl
  refine h.trans ?_
  have hk0 : 0 < sp.kappa := lt_trans (by norm_num [SF.epsilon]) hk
  have hR0 : 0 ≤ sp.param.radius := by rw [← r1, h1.ok.radius]; positivity
  have hTB : 0 ≤ turnBound sp.kappa sp.sigma sp.param.radius := by rw [turnBound]; positivity
  refine same_side hk hs hl h1 h2 rfl rfl ?_ ?_
  · have := center_distance_le h1 h2
    rw [r1, r2] at this
    rw [r1]
    change _ ≤ _ + _ + SF.configuration_distance (startOf s1) (startOf s2) at this
    rw [hd] at *
    linarith
  · change SF.configuration_distance (startOf s1) (startOf s2) ≤ _
    rw [hd]
    linarith

theorem distance_finite (hk : sp.kappa > SF.epsilon) (hs : 0 < sp.sigma)
    (hl : sp.kappa / sp.sigma > SF.epsilon) (hsh : sp.kappa / sp.sigma ≤ 10 ^ 100)
    (hfar : dist2 s1 s2 ≤ 10 ^ 100) :
    (cc00_dubins sp s1 s2).length < SF.dblMax := by
  have hk0 : 0 < sp.kappa := lt_trans (by norm_num [SF.epsilon]) hk
  refine (distance_le s1 s2 hk hs hl).trans_lt ?_
  have hr : sp.param.radius ≤ 3 * (sp.kappa / sp.sigma) + 2 / sp.kappa := by
    have := radius_le hk hs hl
    rwa [← (hc_param_ok hk hs hl).radius] at this
  have hb := SF.dblMax_large
  have hki : 1 / sp.kappa ≤ 10 ^ 4 := by
    rw [div_le_iff₀ hk0]; norm_num [SF.epsilon] at hk; linarith
  have e2 : 2 / sp.kappa = 2 * (1 / sp.kappa) := by ring
  have e3 : 2 * π / sp.kappa ≤ 8 * (1 / sp.kappa) := by
    rw [show 2 * π / sp.kappa = 2 * π * (1 / sp.kappa) by ring]
    have : 0 < 1 / sp.kappa := by positivity
    nlinarith [pi_lt_four]
  rw [turnBound]
  have h101 : (10:ℝ) ^ 100 * 10 ^ 3 ≤ 10 ^ 201 := by norm_num
  have h100 : (10:ℝ) ^ 4 * 10 ^ 3 ≤ 10 ^ 100 := by norm_num
  have h1 : (1:ℝ) ≤ 10 ^ 100 := by norm_num
  nlinarith

/-- The selected path is one of the four, and it exists. -/
theorem selected (hk : sp.kappa > SF.epsilon) (hs : 0 < sp.sigma)
    (hl : sp.kappa / sp.sigma > SF.epsilon) (hsh : sp.kappa / sp.sigma ≤ 10 ^ 100)
    (hfar : dist2 s1 s2 ≤ 10 ^ 100) :
    ∃ i j t r, i < 2 ∧ j < 2 ∧
      cc00_dubins sp s1 s2 = ⟨startOf s1, startOf s2, t, r⟩ ∧
      Found sp (SF.scratch (start_circle sp (startOf s1) i) (end_circle sp (startOf s2) j))
        (start_circle sp (startOf s1) i) (end_circle sp (startOf s2) j) t r := by
  have hlt := distance_finite s1 s2 hk hs hl hsh hfar
  have hn := (C04_array_index_min (fun n => (path sp s1 s2 n).length) 4 (by norm_num)).1
  unfold cc00_dubins at hlt ⊢
  simp only at hlt ⊢
  generalize SF.array_index_min (fun n => (path sp s1 s2 n).length) 4 = n at hlt hn ⊢
  refine ⟨n / 2, n % 2, _, _, by omega, by omega, rfl, ?_⟩
  exact body_found sp _ _ _ hlt

end CC00

end Spec
