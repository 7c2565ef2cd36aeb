import Mathlib.Analysis.Matrix.Spectrum
import Verif.Lemmas.Node
import Verif.Props.CcDubins
import Verif.Props.CcDubinsPm
import Verif.Props.CcDubinsAll
import Verif.Props.CcReedsShepp
import Verif.Props.HcReedsShepp
import Verif.Props.HcReedsSheppAll
import Verif.Props.Ekf

/-!
# Properties of the demo node: C121, C122, C123
-/

noncomputable section

namespace Props

open SF Spec SF.Node Real Matrix

/-! ## C121 -/

/-- The wheel with corners `p1`, `p2`, ... drawn at the point `pos` of the car slips sideways by at most `b` per length driven
(times the length of the drawn side): `u` is the velocity of the point of the car where the wheel is mounted, for any motion of
the car that passes through the state `s` with its curvature. -/
def SlipsAtMost (s : State) (pos p1 p2 : ℝ × ℝ) (b : ℝ) : Prop :=
  ∀ (x y theta : ℝ → ℝ) (t v : ℝ), Rolls x y theta t v s.kappa → x t = s.x → y t = s.y → theta t = s.theta →
    ∃ u, Velocity (fun a => worldPoint (x a) (y a) (theta a) pos) u t ∧ |outer (p1 - p2) u| ≤ b * |v|

/-- `points` are the lines of a front wheel mounted at the point `pos` of the car in state `s`: the closed outline of a rectangle
around the mounting point, which rolls without slipping if the curvature is larger than 1e-4. -/
def FrontWheel (r : Robot) (pos : ℝ × ℝ) (s : State) (points : List (ℝ × ℝ)) : Prop :=
  ∃ p1 p2 p3 p4, IsOutline [p1, p2, p3, p4] points ∧
    IsRectangle p1 p2 p3 p4 (worldPoint s.x s.y s.theta pos) r.wheel_radius r.wheel_width ∧
    (1 / 10000 < |s.kappa| → SlipsAtMost s pos p1 p2 0) ∧
    SlipsAtMost s pos p1 p2 (2 * r.wheel_radius * r.wheel_base / 10000)

theorem frontWheel_drawn {r : Robot} (hb : 0 < r.wheel_base) (hr : 0 ≤ r.wheel_radius) {pos : ℝ × ℝ} (hpos : pos.1 = r.wheel_base)
    (s : State) : ∃ new, (∀ pts, polygon_to_marker (oriented_wheel r pos s) pts = some (pts ++ new)) ∧ FrontWheel r pos s new := by
  obtain ⟨p1, p2, p3, p4, he, hrect, hdir⟩ := Spec.Node.wheel_eq r pos s
  have hslip : ∀ b, |2 * r.wheel_radius * ((1 - s.kappa * pos.2) * sin (steer_angle pos s.kappa) -
      s.kappa * pos.1 * cos (steer_angle pos s.kappa))| ≤ b → SlipsAtMost s pos p1 p2 b := by
    intro b hle x y theta t v h h1 h2 h3
    refine ⟨_, Spec.Node.rolls_point h pos, ?_⟩
    rw [hdir, h3]
    generalize steer_angle pos s.kappa = d at hle ⊢
    have : outer (2 * r.wheel_radius * cos (s.theta + d), 2 * r.wheel_radius * sin (s.theta + d))
        (v * ((1 - s.kappa * pos.2) * cos s.theta - s.kappa * pos.1 * sin s.theta),
         v * ((1 - s.kappa * pos.2) * sin s.theta + s.kappa * pos.1 * cos s.theta)) =
        -(2 * r.wheel_radius * ((1 - s.kappa * pos.2) * sin d - s.kappa * pos.1 * cos d)) * v := by
      simp only [outer, cos_add, sin_add]
      linear_combination (exp := 1) -(2 * r.wheel_radius * v * ((1 - s.kappa * pos.2) * sin d - s.kappa * pos.1 * cos d)) *
        sin_sq_add_cos_sq s.theta
    rw [this, abs_mul, abs_neg]
    exact mul_le_mul_of_nonneg_right hle (abs_nonneg _)
  obtain ⟨new, hnew, hout⟩ := Spec.Node.marker_some (l := oriented_wheel r pos s) (pts := []) (by rw [he]; simp)
  refine ⟨new, fun pts => ?_, p1, p2, p3, p4, he ▸ hout, hrect, fun hk => ?_, ?_⟩
  · rw [polygon_to_marker] at hnew ⊢
    cases h : (oriented_wheel r pos s).getLast? with
    | none => rw [h] at hnew; simp at hnew
    | some a =>
      rw [h] at hnew
      simp only [Option.map_some, List.nil_append, Option.some.injEq] at hnew ⊢
      rw [hnew]
  · apply hslip
    rw [Spec.Node.steer_rolls (by norm_num at hk ⊢; exact hk)]
    simp
  · apply hslip
    by_cases hk : (1e-4 : ℝ) < |s.kappa|
    · rw [Spec.Node.steer_rolls hk]
      simp only [sub_self, mul_zero, abs_zero]
      positivity
    · rw [steer_angle, if_neg hk, sin_zero, cos_zero, hpos]
      have e : 2 * r.wheel_radius * ((1 - s.kappa * pos.2) * 0 - s.kappa * r.wheel_base * 1) =
        -(2 * r.wheel_radius * r.wheel_base) * s.kappa := by ring
      rw [e, abs_mul, abs_neg, abs_of_nonneg (by positivity)]
      have : |s.kappa| ≤ 1 / 10000 := by norm_num at hk ⊢; exact hk
      have h0 : 0 ≤ 2 * r.wheel_radius * r.wheel_base := by positivity
      calc 2 * r.wheel_radius * r.wheel_base * |s.kappa| ≤ 2 * r.wheel_radius * r.wheel_base * (1 / 10000) :=
            mul_le_mul_of_nonneg_left this h0
        _ = _ := by ring

/-- **C121.** For every path the node draws, per state, the closed outline of the footprint moved with the car, and closed
rectangles for both front wheels which are mounted on the car and roll without slipping. -/
theorem C121_drawing (r : Robot) (hb : 0 < r.wheel_base) (hr : 0 ≤ r.wheel_radius) (hf : r.footprint ≠ []) (path : List State) :
    ∃ chassis left right : State → List (ℝ × ℝ),
      visualize r path = some (path.flatMap chassis, path.flatMap fun s => left s ++ right s) ∧
      ∀ s, IsOutline (r.footprint.map (worldPoint s.x s.y s.theta)) (chassis s) ∧
        FrontWheel r (r.wheel_base, r.track_width / 2) s (left s) ∧
        FrontWheel r (r.wheel_base, -(r.track_width / 2)) s (right s) := by
  have hne : ∀ s, oriented_footprint r s ≠ [] := by
    intro s h
    rw [oriented_footprint, Spec.Node.transform_eq, List.map_eq_nil_iff] at h
    exact hf h
  have hch : ∀ s, ∃ new, (∀ pts, polygon_to_marker (oriented_footprint r s) pts = some (pts ++ new)) ∧
      IsOutline (r.footprint.map (worldPoint s.x s.y s.theta)) new := by
    intro s
    have hl : (oriented_footprint r s).getLast? = some ((oriented_footprint r s).getLast (hne s)) :=
      List.getLast?_eq_some_getLast (hne s)
    refine ⟨polygon_loop ((oriented_footprint r s).getLast (hne s)) (oriented_footprint r s), fun pts => ?_, ?_⟩
    · rw [polygon_to_marker, hl]; rfl
    · have e : oriented_footprint r s = r.footprint.map (worldPoint s.x s.y s.theta) := by
        rw [oriented_footprint, Spec.Node.transform_eq]
      rw [← e]
      exact Spec.Node.loop_outline hl
  have hwl := fun s => frontWheel_drawn (pos := r.wheel_fl_pos) hb hr rfl s
  have hwr := fun s => frontWheel_drawn (pos := r.wheel_fr_pos) hb hr rfl s
  choose chassis hc1 hc2 using hch
  choose left hl1 hl2 using hwl
  choose right hr1 hr2 using hwr
  refine ⟨chassis, left, right, ?_, fun s => ⟨hc2 s, hl2 s, ?_⟩⟩
  · have key : ∀ (path : List State) (a b : List (ℝ × ℝ)),
        path.foldlM (fun (m : List (ℝ × ℝ) × List (ℝ × ℝ)) state => do
          let chassis ← polygon_to_marker (oriented_footprint r state) m.1
          let wheels ← polygon_to_marker (oriented_wheel r r.wheel_fl_pos state) m.2
          let wheels ← polygon_to_marker (oriented_wheel r r.wheel_fr_pos state) wheels
          pure (chassis, wheels)) (a, b) =
        some (a ++ path.flatMap chassis, b ++ path.flatMap fun s => left s ++ right s) := by
      intro path
      induction path with
      | nil => intro a b; simp
      | cons s path ih =>
        intro a b
        simp only [hc1, hl1, hr1, Option.bind_eq_bind, Option.bind_some, Option.pure_def, List.foldlM_cons,
          List.flatMap_cons, List.append_assoc] at ih ⊢
        rw [ih]
        simp only [List.append_assoc]
    have := key path [] []
    simpa [visualize] using this
  · have e : r.wheel_fr_pos = (r.wheel_base, -(r.track_width / 2)) := by rw [Robot.wheel_fr_pos, neg_div]
    rw [← e]
    exact hr2 s

/-- **C121, missing footprint.** Without a footprint the node reads the last element of an empty vector. -/
theorem C121_no_footprint (r : Robot) (hf : r.footprint = []) (s : State) (path : List State) : visualize r (s :: path) = none := by
  rw [visualize, List.foldlM_cons, oriented_footprint, hf]
  rfl

/-- **C121, orientations.** The orientation of every published pose is a unit quaternion that turns by `theta` about the z-axis. -/
theorem C121_orientation (theta : ℝ) :
    (orientation theta).1 ^ 2 + (orientation theta).2 ^ 2 = 1 ∧
    TurnsBy ⟨(orientation theta).2, 0, 0, (orientation theta).1⟩ theta := by
  refine ⟨sin_sq_add_cos_sq _, fun x y z => ?_⟩
  have hc : cos theta = cos (theta / 2) ^ 2 - sin (theta / 2) ^ 2 := by
    rw [← cos_two_mul']; congr 1; ring
  have hs : sin theta = 2 * sin (theta / 2) * cos (theta / 2) := by
    rw [← sin_two_mul]; congr 1; ring
  have h1 := sin_sq_add_cos_sq (theta / 2)
  rw [hc, hs]
  obtain ⟨q, hq⟩ : ∃ q : Quaternion ℝ, q = ⟨(orientation theta).2, 0, 0, (orientation theta).1⟩ := ⟨_, rfl⟩
  obtain ⟨p, hp⟩ : ∃ p : Quaternion ℝ, p = spacePoint x y z := ⟨_, rfl⟩
  have q0 : q.re = cos (theta / 2) := by rw [hq]; rfl
  have q1 : q.imI = 0 := by rw [hq]
  have q2 : q.imJ = 0 := by rw [hq]
  have q3 : q.imK = sin (theta / 2) := by rw [hq]; rfl
  have p0 : p.re = 0 := by rw [hp]; rfl
  have p1 : p.imI = x := by rw [hp]; rfl
  have p2 : p.imJ = y := by rw [hp]; rfl
  have p3 : p.imK = z := by rw [hp]; rfl
  rw [← hq, ← hp]
  ext
  · simp only [Quaternion.re_mul, Quaternion.imI_mul, Quaternion.imJ_mul, Quaternion.imK_mul, Quaternion.re_star,
      Quaternion.imI_star, Quaternion.imJ_star, Quaternion.imK_star, q0, q1, q2, q3, p0, p1, p2, p3, spacePoint]
    ring
  · simp only [Quaternion.re_mul, Quaternion.imI_mul, Quaternion.imJ_mul, Quaternion.imK_mul, Quaternion.re_star,
      Quaternion.imI_star, Quaternion.imJ_star, Quaternion.imK_star, q0, q1, q2, q3, p0, p1, p2, p3, spacePoint]
    ring
  · simp only [Quaternion.re_mul, Quaternion.imI_mul, Quaternion.imJ_mul, Quaternion.imK_mul, Quaternion.re_star,
      Quaternion.imI_star, Quaternion.imJ_star, Quaternion.imK_star, q0, q1, q2, q3, p0, p1, p2, p3, spacePoint]
    ring
  · simp only [Quaternion.re_mul, Quaternion.imI_mul, Quaternion.imJ_mul, Quaternion.imK_mul, Quaternion.re_star,
      Quaternion.imI_star, Quaternion.imJ_star, Quaternion.imK_star, q0, q1, q2, q3, p0, p1, p2, p3, spacePoint]
    linear_combination (exp := 1) z * h1

/-- A car to which C121 applies, and a motion along a circle that starts in a state with curvature 1. -/
example : (0:ℝ) < (Robot.mk 2 1 (1 / 4) (1 / 10) [(3, 1), (-1, 1), (-1, -1), (3, -1)]).wheel_base ∧
    Rolls (fun t => sin t) (fun t => 1 - cos t) (fun t => t) 0 1 1 := by
  refine ⟨by norm_num, ?_, ?_, ?_⟩
  · simpa using hasDerivAt_sin (0:ℝ)
  · simpa using (hasDerivAt_cos (0:ℝ)).const_sub 1
  · simpa using hasDerivAt_id' (0:ℝ)

/-! ## C122 -/

theorem marker_block (c : Arr16) : marker_covariance c = block c := by
  ext i j
  fin_cases i <;> fin_cases j <;> rfl

/-- **C122.** If the eigenvalues are computed, the marker is a proper rotation of an ellipsoid at the position of the state, and
the ellipsoid consists of exactly the deviations of (x, y, theta) that in every direction stay within three standard deviations;
in every direction some point of it reaches three standard deviations. -/
theorem C122_ellipsoid {s : StateCov} (hs : CovOk s) {r : Solver} (hr : SolverOk (marker_covariance s.covariance) r)
    (hok : r.success = true) :
    (covariance_to_marker s r).x = s.state.x ∧ (covariance_to_marker s r).y = s.state.y ∧
    IsRotation (covariance_to_marker s r).rotation ∧
    (∀ x, x ∈ ellipsoid (covariance_to_marker s r).rotation (covariance_to_marker s r).scale ↔
      ∀ n : Fin 3 → ℝ, n ⬝ᵥ x ≤ 3 * deviation (block s.covariance) n) ∧
    ∀ n : Fin 3 → ℝ, IsGreatest {d | ∃ x ∈ ellipsoid (covariance_to_marker s r).rotation (covariance_to_marker s r).scale,
      d = n ⬝ᵥ x} (3 * deviation (block s.covariance) n) := by
  obtain ⟨hV, hC⟩ := hr hok
  rw [marker_block] at hC
  have hp : (block s.covariance).PosSemidef := hs.2.2.submatrix _
  have hl := Spec.Node.eig_nonneg hV hC hp
  have hdet2 : r.eigenvectors.det ^ 2 = 1 := by
    have := congrArg Matrix.det hV
    rw [det_mul, det_transpose, det_one] at this
    rw [sq]; exact this
  refine ⟨rfl, rfl, ?_⟩
  have hscale : (covariance_to_marker s r).scale = fun i => 2 * 3 * √(r.eigenvalues i) := by
    simp only [covariance_to_marker, hok, if_true]
  obtain ⟨R, hR⟩ : ∃ R, R = (covariance_to_marker s r).rotation := ⟨_, rfl⟩
  have hrot : Rᵀ * R = 1 ∧ R.det = 1 ∧ block s.covariance = R * diagonal r.eigenvalues * Rᵀ := by
    rw [hR]
    simp only [covariance_to_marker, hok, if_true]
    split_ifs with hneg
    · have hD : (diagonal ![(-1 : ℝ), 1, 1]) * diagonal ![(-1 : ℝ), 1, 1] = 1 := by
        rw [diagonal_mul_diagonal, ← diagonal_one]
        congr 1
        funext i
        fin_cases i <;> norm_num
      rw [Spec.Node.flip_eq]
      refine ⟨?_, ?_, ?_⟩
      · rw [transpose_mul, diagonal_transpose, Matrix.mul_assoc, ← Matrix.mul_assoc _ r.eigenvectors, hV, Matrix.one_mul, hD]
      · have h3 : (diagonal ![(-1 : ℝ), 1, 1]).det = -1 := by
          rw [det_diagonal, Fin.prod_univ_three]; simp
        rw [det_mul, h3]
        nlinarith
      · rw [transpose_mul, diagonal_transpose, hC]
        have hcomm : diagonal ![(-1 : ℝ), 1, 1] * diagonal r.eigenvalues * diagonal ![(-1 : ℝ), 1, 1] =
            diagonal r.eigenvalues := by
          rw [diagonal_mul_diagonal, diagonal_mul_diagonal]
          congr 1
          funext i
          fin_cases i <;> simp
        calc r.eigenvectors * diagonal r.eigenvalues * r.eigenvectorsᵀ
            = r.eigenvectors * (diagonal ![(-1 : ℝ), 1, 1] * diagonal r.eigenvalues * diagonal ![(-1 : ℝ), 1, 1]) *
              r.eigenvectorsᵀ := by rw [hcomm]
          _ = _ := by simp only [Matrix.mul_assoc]
    · exact ⟨hV, by nlinarith, hC⟩
  rw [hscale, ← hR]
  exact ⟨⟨hrot.1, hrot.2.1⟩, Spec.Node.mem_ellipsoid hrot.1 hrot.2.2 hl, Spec.Node.ellipsoid_support hrot.2.2 hl⟩

/-- **C122 is false if the solver fails.** Then the matrix of the orientation is zero. -/
theorem C122_failure (s : StateCov) (r : Solver) (h : r.success = false) :
    ¬ IsRotation (covariance_to_marker s r).rotation := by
  have : (covariance_to_marker s r).rotation = 0 := by
    simp [covariance_to_marker, h]
  rw [this]
  rintro ⟨_, hd⟩
  simp at hd

theorem range_tenth (n : ℕ) : ((List.range n).filter fun i => i % 10 = 0) = (List.range ((n + 9) / 10)).map (10 * ·) := by
  induction n with
  | zero => rfl
  | succ n ih =>
    rw [List.range_succ, List.filter_append, ih]
    by_cases h : n % 10 = 0
    · have e : (n + 1 + 9) / 10 = (n + 9) / 10 + 1 := by omega
      have e2 : 10 * ((n + 9) / 10) = n := by omega
      rw [e, List.range_succ, List.map_append]
      simp [h, e2]
    · have e : (n + 1 + 9) / 10 = (n + 9) / 10 := by omega
      rw [e]
      simp [h]

/-- **C122, which states.** The node never reads beyond the path, and marker number `i` is that of state number `10 i`; no other
states are marked. -/
theorem C122_every_tenth (path : List StateCov) : ∃ ms, marked path = some ms ∧ ∀ i : ℕ, ms[i]? = path[10 * i]? := by
  have key : ∀ l : List ℕ, (∀ i ∈ l, i < path.length) →
      ∃ ms, l.mapM (fun i => path[i]?) = some ms ∧ ∀ i : ℕ, ms[i]? = (l[i]?).bind fun j => path[j]? := by
    intro l
    induction l with
    | nil => intro _; exact ⟨[], rfl, fun i => by simp⟩
    | cons a l ih =>
      intro h
      obtain ⟨ms, h1, h2⟩ := ih fun i hi => h i (List.mem_cons_of_mem _ hi)
      have ha := h a List.mem_cons_self
      refine ⟨path[a] :: ms, ?_, ?_⟩
      · rw [List.mapM_cons, h1, List.getElem?_eq_getElem ha]; rfl
      · intro i
        cases i with
        | zero => simp [List.getElem?_eq_getElem ha]
        | succ i => simpa using h2 i
  obtain ⟨ms, h1, h2⟩ := key ((List.range path.length).filter fun i => i % 10 = 0) (by
    intro i hi
    rw [List.mem_filter, List.mem_range] at hi
    exact hi.1)
  refine ⟨ms, h1, fun i => ?_⟩
  rw [h2, range_tenth, List.getElem?_map]
  by_cases hi : i < (path.length + 9) / 10
  · rw [List.getElem?_range hi]; rfl
  · rw [List.getElem?_eq_none (by simpa using hi), List.getElem?_eq_none (by omega)]; rfl

/-- The contract of the solver can be met for every covariance of the filter: C122 is not empty. -/
example {s : StateCov} (hs : CovOk s) : ∃ r, r.success = true ∧ SolverOk (marker_covariance s.covariance) r := by
  have hp : (marker_covariance s.covariance).PosSemidef := by
    rw [marker_block]
    exact hs.2.2.submatrix _
  have hA := hp.isHermitian
  refine ⟨⟨true, hA.eigenvalues, hA.eigenvectorUnitary⟩, rfl, fun _ => ⟨?_, ?_⟩⟩
  · have := Unitary.coe_star_mul_self hA.eigenvectorUnitary
    rwa [star_eq_conjTranspose, conjTranspose_eq_transpose_of_trivial] at this
  · have := hA.spectral_theorem
    rw [Unitary.conjStarAlgAut_apply, star_eq_conjTranspose, conjTranspose_eq_transpose_of_trivial] at this
    exact this

/-! ## C123 -/

/-- The values of `rand()` are between 0 and `RAND_MAX`. -/
structure DrawsOk (rand_max : ℕ) (r : Draws) : Prop where
  pos : 0 < rand_max
  x1 : r.x1 ≤ rand_max
  y1 : r.y1 ≤ rand_max
  theta1 : r.theta1 ≤ rand_max
  kappa1 : r.kappa1 ≤ rand_max
  x2 : r.x2 ≤ rand_max
  y2 : r.y2 ≤ rand_max
  theta2 : r.theta2 ≤ rand_max
  kappa2 : r.kappa2 ≤ rand_max

/-- A state in the operating region: within 10 of the origin in x and y, heading within half a turn, curvature within the limit. -/
def InRegion (kappa_max : ℝ) (s : State) : Prop :=
  |s.x| ≤ 10 ∧ |s.y| ≤ 10 ∧ |s.theta| ≤ π ∧ |s.kappa| ≤ kappa_max

/-- The start of the planner of type `t`. -/
def demoStart (rand_max : ℕ) (r : Draws) (kappa : ℝ) (n : Measurement_Noise) (t : PathType) : StateCov :=
  if t.curved then start rand_max r kappa n else start_wout_curv (start rand_max r kappa n)

/-- The goal of the planner of type `t`. -/
def demoGoal (rand_max : ℕ) (r : Draws) (kappa : ℝ) (t : PathType) : State :=
  if t.curved then goal rand_max r kappa else goal_wout_curv (goal rand_max r kappa)

theorem random_mem {m d : ℕ} (hm : 0 < m) (hd : d ≤ m) {b lo hi : ℝ} (hb : 0 ≤ b) (hlo : lo = -b) (hhi : hi = b) :
    |random m d lo hi| ≤ b := by
  have hm' : (0:ℝ) < m := by exact_mod_cast hm
  have hd' : (d:ℝ) / m ≤ 1 := by rw [div_le_one hm']; exact_mod_cast hd
  have h0 : 0 ≤ (d:ℝ) / m := by positivity
  have e : random m d lo hi = (d:ℝ) / m * (2 * b) - b := by rw [random, hlo, hhi]; ring
  rw [e, abs_le]
  constructor <;> nlinarith

/-- **C123, samples.** Start and goal lie in the operating region and respect the limit of the curvature; for the planners that
do not connect curvatures the same poses with curvature zero are used.  Start position and heading are known as well as the
sensor measures them. -/
theorem C123_samples {m : ℕ} {r : Draws} (hr : DrawsOk m r) {kappa : ℝ} (hk : 0 ≤ kappa) (e : EKF) (t : PathType) :
    InRegion kappa (demoStart m r kappa e.measurement_noise t).state ∧ InRegion kappa (demoGoal m r kappa t) ∧
    pose (demoStart m r kappa e.measurement_noise t).state = pose (start m r kappa e.measurement_noise).state ∧
    pose (demoGoal m r kappa t) = pose (goal m r kappa) ∧
    (t ≠ .CC_Dubins → t ≠ .HC_RS → (demoStart m r kappa e.measurement_noise t).state.kappa = 0 ∧
      (demoGoal m r kappa t).kappa = 0) ∧
    CovOk (demoStart m r kappa e.measurement_noise t) ∧
    block (demoStart m r kappa e.measurement_noise t).Sigma = noiseR e ∧
    block (demoStart m r kappa e.measurement_noise t).covariance = noiseR e := by
  have hpi := pi_pos.le
  have hx1 : |(start m r kappa e.measurement_noise).state.x| ≤ 10 :=
    random_mem hr.pos hr.x1 (by norm_num) (by norm_num [operating_region_x]) (by norm_num [operating_region_x])
  have hy1 : |(start m r kappa e.measurement_noise).state.y| ≤ 10 :=
    random_mem hr.pos hr.y1 (by norm_num) (by norm_num [operating_region_y]) (by norm_num [operating_region_y])
  have ht1 : |(start m r kappa e.measurement_noise).state.theta| ≤ π :=
    random_mem hr.pos hr.theta1 hpi (by rw [operating_region_theta]; ring) (by rw [operating_region_theta]; ring)
  have hk1 : |(start m r kappa e.measurement_noise).state.kappa| ≤ kappa := random_mem hr.pos hr.kappa1 hk rfl rfl
  have hx2 : |(goal m r kappa).x| ≤ 10 :=
    random_mem hr.pos hr.x2 (by norm_num) (by norm_num [operating_region_x]) (by norm_num [operating_region_x])
  have hy2 : |(goal m r kappa).y| ≤ 10 :=
    random_mem hr.pos hr.y2 (by norm_num) (by norm_num [operating_region_y]) (by norm_num [operating_region_y])
  have ht2 : |(goal m r kappa).theta| ≤ π :=
    random_mem hr.pos hr.theta2 hpi (by rw [operating_region_theta]; ring) (by rw [operating_region_theta]; ring)
  have hk2 : |(goal m r kappa).kappa| ≤ kappa := random_mem hr.pos hr.kappa2 hk rfl rfl
  have hcopy : copy15 (diagonalArr e.measurement_noise) = diagonalArr e.measurement_noise := by
    funext i
    rw [copy15]
    split_ifs with h
    · rfl
    · have : i = 15 := by
        apply Fin.ext
        have := i.2
        change i.1 = 15
        omega
      subst this
      simp [diagonalArr]
  have hmat : mat4 (diagonalArr e.measurement_noise) = diagonal ![e.measurement_noise.std_x ^ 2,
      e.measurement_noise.std_y ^ 2, e.measurement_noise.std_theta ^ 2, 0] := by
    ext i j
    fin_cases i <;> fin_cases j <;> simp [mat4, diagonalArr]
  have hblock : block (diagonalArr e.measurement_noise) = noiseR e := by
    ext i j
    fin_cases i <;> fin_cases j <;> simp [block, mat4, diagonalArr, noiseR]
  have hpsd : (mat4 (diagonalArr e.measurement_noise)).PosSemidef := by
    rw [hmat, posSemidef_diagonal_iff]
    intro i
    fin_cases i <;> simp <;> positivity
  have hzero : (mat4 (fun _ : Fin 16 => (0:ℝ))).PosSemidef := by
    have h2 : mat4 (fun _ : Fin 16 => (0:ℝ)) = 0 := by ext i j; rfl
    rw [h2]
    exact PosSemidef.zero
  have hS : (demoStart m r kappa e.measurement_noise t).Sigma = diagonalArr e.measurement_noise := by
    rw [demoStart]
    split_ifs
    · rfl
    · exact hcopy
  have hc : (demoStart m r kappa e.measurement_noise t).covariance = diagonalArr e.measurement_noise := by
    rw [demoStart]
    split_ifs
    · rfl
    · exact hcopy
  have hL : (demoStart m r kappa e.measurement_noise t).Lambda = fun _ => 0 := by
    rw [demoStart]
    split_ifs <;> rfl
  refine ⟨?_, ?_, ?_, ?_, ?_, ⟨by rw [hS]; exact hpsd, by rw [hL]; exact hzero, by rw [hc]; exact hpsd⟩,
    by rw [hS, hblock], by rw [hc, hblock]⟩
  · rw [demoStart]
    split_ifs
    · exact ⟨hx1, hy1, ht1, hk1⟩
    · exact ⟨hx1, hy1, ht1, by rw [start_wout_curv, abs_zero]; exact hk⟩
  · rw [demoGoal]
    split_ifs
    · exact ⟨hx2, hy2, ht2, hk2⟩
    · exact ⟨hx2, hy2, ht2, by rw [goal_wout_curv, abs_zero]; exact hk⟩
  · rw [demoStart]
    split_ifs <;> rfl
  · rw [demoGoal]
    split_ifs <;> rfl
  · intro n1 n2
    have : t.curved = false := by cases t <;> first | rfl | exact absurd rfl n1 | exact absurd rfl n2
    rw [demoStart, demoGoal, this]
    exact ⟨rfl, rfl⟩

theorem region_dist {kappa : ℝ} {s1 s2 : State} (h1 : InRegion kappa s1) (h2 : InRegion kappa s2) : dist2 s1 s2 ≤ 40 := by
  obtain ⟨a1, b1, _⟩ := h1
  obtain ⟨a2, b2, _⟩ := h2
  rw [abs_le] at a1 b1 a2 b2
  rw [dist2, sqrt_le_iff]
  constructor
  · norm_num
  · nlinarith

theorem controls_exist {kappa sigma : ℝ} (h : InRange kappa sigma) (hfin : kappa / sigma ≤ 10 ^ 99)
    (hc : CuspClear kappa sigma) (junk_d : ℝ) {s1 s2 : State} (hd : dist2 s1 s2 ≤ 40) (t : PathType) :
    (∃ cs, SF.Node.IsControls kappa sigma junk_d s1 s2 cs t) ∧
      ∀ cs, SF.Node.IsControls kappa sigma junk_d s1 s2 cs t → t ≠ .RS → cs ≠ [] := by
  have hfar : dist2 s1 s2 ≤ 10 ^ 100 := hd.trans (by norm_num)
  have hreach : InReach ⟨kappa, sigma, discretization, true⟩ s1 s2 := by
    rw [InReach]
    have : (40:ℝ) + 4 * 10 ^ 99 ≤ 10 ^ 100 := by norm_num
    simp only
    linarith
  have some_ne : ∀ {o : Option (List Control)}, (∃ cs, o = some cs ∧ cs ≠ []) → (∃ cs, o = some cs) ∧ ∀ cs, o = some cs → t ≠ .RS → cs ≠ [] := by
    rintro o ⟨cs, ho, hne⟩
    refine ⟨⟨cs, ho⟩, fun cs' h' _ => ?_⟩
    rw [ho] at h'
    cases h'
    exact hne
  cases t with
  | CC_Dubins =>
    obtain ⟨_, h1, h2⟩ := C62_cc_always (sp := ⟨kappa, sigma, discretization, true⟩) (junk := junk_d) h s1 s2 hreach
    exact ⟨h1, fun cs hcs _ => h2 cs hcs⟩
  | CC00_Dubins => exact some_ne (C38_cc00_always (sp := ⟨kappa, sigma, discretization, true⟩) h s1 s2 hfar).2.2
  | CC0pm_Dubins =>
    obtain ⟨_, cs, _, _, _, h1, h2⟩ := C56_cc0pm_always (sp := ⟨kappa, sigma, discretization, true⟩) h s1 s2 hfar
    exact some_ne ⟨cs, h1, h2⟩
  | CCpm0_Dubins =>
    obtain ⟨_, cs, _, _, _, h1, h2⟩ := C56_ccpm0_always (sp := ⟨kappa, sigma, discretization, true⟩) h s1 s2 hfar
    exact some_ne ⟨cs, h1, h2⟩
  | CCpmpm_Dubins =>
    obtain ⟨_, cs, _, _, _, h1, h2⟩ := C56_ccpmpm_always (sp := ⟨kappa, sigma, discretization, true⟩) h s1 s2 hfar
    exact some_ne ⟨cs, h1, h2⟩
  | Dubins =>
    refine ⟨⟨_, rfl⟩, fun cs hcs _ hnil => ?_⟩
    have := congrArg List.length (hcs.trans hnil)
    simp [DubinsSpace.get_controls, DubinsSpace.pathControls] at this
  | CC00_RS =>
    exact some_ne (C85_cc00_rs_controls_partial (sp := ⟨kappa, sigma, discretization, true⟩) h s1 s2 hfar (Or.inl hc))
  | HC_RS =>
    obtain ⟨_, h1, h2⟩ := C78_hcrs_always (sp := ⟨kappa, sigma, discretization, true⟩) (junk := junk_d) h s1 s2 hreach
    exact ⟨h1, fun cs hcs _ => h2 cs hcs⟩
  | HC00_RS =>
    obtain ⟨_, cs, _, _, _, h1, h2⟩ := C72_hc_always (pm1 := false) (pm2 := false) (sp := ⟨kappa, sigma, discretization, true⟩) h s1 s2 hfar
    exact some_ne ⟨cs, h1, h2⟩
  | HC0pm_RS =>
    obtain ⟨_, cs, _, _, _, h1, h2⟩ := C72_hc_always (pm1 := false) (pm2 := true) (sp := ⟨kappa, sigma, discretization, true⟩) h s1 s2 hfar
    exact some_ne ⟨cs, h1, h2⟩
  | HCpm0_RS =>
    obtain ⟨_, cs, _, _, _, h1, h2⟩ := C72_hc_always (pm1 := true) (pm2 := false) (sp := ⟨kappa, sigma, discretization, true⟩) h s1 s2 hfar
    exact some_ne ⟨cs, h1, h2⟩
  | HCpmpm_RS =>
    obtain ⟨_, cs, _, _, _, h1, h2⟩ := C72_hc_always (pm1 := true) (pm2 := true) (sp := ⟨kappa, sigma, discretization, true⟩) h s1 s2 hfar
    exact some_ne ⟨cs, h1, h2⟩
  | RS => exact ⟨⟨_, rfl⟩, fun _ _ hn => absurd rfl hn⟩

/-- The planners derived from `HC_CC_State_Space`. -/
def HcCcType (t : PathType) : Prop := t ≠ .Dubins ∧ t ≠ .RS

/-- **C123, paths.** In every iteration of the demo, whatever `rand()` returns, each of the 13 planners yields a path (no empty
vector is read), and on every state of it the covariances are positive semidefinite and the estimate is at least as good as one
measurement.  The HC/CC paths are not empty and begin with the sampled pose. -/
theorem C123_paths {m : ℕ} {r : Draws} (hr : DrawsOk m r) {kappa sigma : ℝ} (h : InRange kappa sigma)
    (hfin : kappa / sigma ≤ 10 ^ 99) (hc : CuspClear kappa sigma) {e : EKF} (he : MotionNoiseOk e) (hm : MeasurementNoiseOk e)
    (junk_d : ℝ) (junk : State) (t : PathType) :
    (∃ path, IsPath e kappa sigma junk_d junk (demoStart m r kappa e.measurement_noise t) (demoGoal m r kappa t) t path) ∧
    ∀ path, IsPath e kappa sigma junk_d junk (demoStart m r kappa e.measurement_noise t) (demoGoal m r kappa t) t path →
      (∀ s ∈ path, CovOk s ∧ Below (block s.Sigma) (noiseR e)) ∧
      (HcCcType t → ∃ s, path.head? = some s ∧ pose s.state = pose (start m r kappa e.measurement_noise).state) := by
  have hk : 0 ≤ kappa := le_trans (by norm_num) h.kappa.le
  obtain ⟨r1, r2, p1, _, _, hcov, hsig, _⟩ := C123_samples hr hk e t
  have hd := region_dist r1 r2
  obtain ⟨⟨cs, hcs⟩, hne⟩ := controls_exist h hfin hc junk_d hd t
  have hbelow : Below (block (demoStart m r kappa e.measurement_noise t).Sigma) (noiseR e) := by
    rw [hsig, Below, sub_self]
    exact PosSemidef.zero
  obtain ⟨s0, hs0⟩ : ∃ s0, s0 = demoStart m r kappa e.measurement_noise t := ⟨_, rfl⟩
  rw [← hs0] at hcov hbelow hcs hne p1 ⊢
  have hcase : ∀ cs, (t = .Dubins ∨ t = .RS) ∧ integrated e junk s0 cs t = some (integrate_with_covariance e discretization junk s0 cs) ∨
      HcCcType t ∧ integrated e junk s0 cs t = hcIntegrateWithCovariance e discretization junk s0 cs := by
    intro cs
    cases t <;> first
      | exact Or.inl ⟨Or.inl rfl, rfl⟩
      | exact Or.inl ⟨Or.inr rfl, rfl⟩
      | exact Or.inr ⟨⟨by simp, by simp⟩, rfl⟩
  constructor
  · rcases hcase cs with ⟨_, hi⟩ | ⟨⟨_, hrs⟩, hi⟩
    · exact ⟨_, cs, hcs, hi⟩
    · obtain ⟨c, cs', rfl⟩ := List.exists_cons_of_ne_nil (hne cs hcs hrs)
      exact ⟨_, _, hcs, hi.trans rfl⟩
  · rintro path ⟨cs, hcs, hint⟩
    rcases hcase cs with ⟨hty, hi⟩ | ⟨hty, hi⟩
    · rw [hi] at hint
      cases hint
      refine ⟨fun s hs => ⟨C28_psd he hm _ _ _ hcov _ s hs, (C47_path_below_noise he hm _ _ _ hcov hbelow _).1 s hs⟩, fun hn => ?_⟩
      rcases hty with h' | h'
      · exact absurd h' hn.1
      · exact absurd h' hn.2
    · rw [hi] at hint
      refine ⟨fun s hs => ⟨C28_hc_psd he hm _ _ _ hcov _ _ hint s hs, (C47_path_below_noise he hm _ _ _ hcov hbelow _).2 _ hint s hs⟩,
        fun _ => ?_⟩
      obtain ⟨c, cs', rfl⟩ := List.exists_cons_of_ne_nil (hne cs hcs hty.2)
      have hint' := Option.some.inj hint
      rw [← hint']
      exact ⟨_, rfl, p1⟩

/-- The default parameters of the node satisfy the hypotheses of C123. -/
example : DrawsOk 2147483647 ⟨0, 2147483647, 5, 77777, 1000000000, 1, 3, 2000000000⟩ ∧ InRange 1 1 ∧ (1:ℝ) / 1 ≤ 10 ^ 99 ∧
    CuspClear 1 1 ∧ MotionNoiseOk ⟨⟨0.1, 0, 0, 0.1⟩, ⟨0.1, 0.1, 0.01⟩, ⟨1, 1, 1⟩⟩ ∧
    MeasurementNoiseOk ⟨⟨0.1, 0, 0, 0.1⟩, ⟨0.1, 0.1, 0.01⟩, ⟨1, 1, 1⟩⟩ := by
  refine ⟨by constructor <;> norm_num, by constructor <;> norm_num, by norm_num, ?_, ?_, ?_⟩
  · rw [CuspClear, clothoidBound, radiusBound]; norm_num
  · refine ⟨?_, ?_, ?_, ?_⟩ <;> norm_num
  · refine ⟨?_, ?_, ?_⟩ <;> norm_num

end Props
