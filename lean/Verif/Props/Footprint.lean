import Verif.Props.Covers

/-!
# A collision check of the states with enlarged obstacles is sound for the whole vehicle: C134
-/

noncomputable section

namespace Props

open SF Spec Real

/-- Where the point `w` of the body (metres ahead and to the left of the reference point) is when the car is at `c`. -/
def bodyPoint (c : Config) (w : ℝ × ℝ) : ℝ × ℝ :=
  (c.x + w.1 * cos c.theta - w.2 * sin c.theta, c.y + w.1 * sin c.theta + w.2 * cos c.theta)

/-- Euclidean distance of two points. -/
def apart (a b : ℝ × ℝ) : ℝ := √((a.1 - b.1) ^ 2 + (a.2 - b.2) ^ 2)

/-- The car with shape `body` at `c` is more than `r` away from all obstacles. -/
def Clear (r : ℝ) (body obstacles : Set (ℝ × ℝ)) (c : Config) : Prop :=
  ∀ w ∈ body, ∀ o ∈ obstacles, r < apart (bodyPoint c w) o

/-- Every point of the body is at most `R` from the reference point. -/
def BodyRadius (R : ℝ) (body : Set (ℝ × ℝ)) : Prop := ∀ w ∈ body, apart w (0, 0) ≤ R

theorem apart_eq (a b : ℝ × ℝ) : apart a b = ‖(⟨a.1, a.2⟩ : ℂ) - ⟨b.1, b.2⟩‖ := by
  rw [apart, Complex.norm_eq_sqrt_sq_add_sq]; rfl

theorem bodyPoint_eq (c : Config) (w : ℝ × ℝ) : (⟨(bodyPoint c w).1, (bodyPoint c w).2⟩ : ℂ)
    = ⟨c.x, c.y⟩ + ⟨w.1, w.2⟩ * Complex.exp (Complex.I * c.theta) := by
  rw [mul_comm Complex.I, Complex.exp_mul_I, ← Complex.ofReal_cos, ← Complex.ofReal_sin]
  apply Complex.ext
  · simp [bodyPoint, -Complex.ofReal_cos, -Complex.ofReal_sin]; ring
  · simp [bodyPoint, -Complex.ofReal_cos, -Complex.ofReal_sin]; ring

/-- A body point moves at most as far as the reference point plus the turning angle times its distance from it. -/
theorem bodyPoint_near {h e R : ℝ} {p q : Config} (hw : Within h e p q) {w : ℝ × ℝ} (hR : apart w (0, 0) ≤ R) :
    apart (bodyPoint p w) (bodyPoint q w) ≤ h + e * R := by
  obtain ⟨h1, t, ⟨n, ht⟩, h2⟩ := hw
  have hq : Complex.exp (Complex.I * q.theta) = Complex.exp (Complex.I * t) := by
    rw [ht, Complex.exp_eq_exp_iff_exists_int]
    exact ⟨-n, by push_cast; ring⟩
  have hd : ‖Complex.exp (Complex.I * p.theta) - Complex.exp (Complex.I * t)‖ ≤ e := by
    have e1 : Complex.exp (Complex.I * p.theta) - Complex.exp (Complex.I * t)
        = Complex.exp (Complex.I * t) * (Complex.exp (Complex.I * ((p.theta - t : ℝ) : ℂ)) - 1) := by
      rw [mul_sub, ← Complex.exp_add, mul_one]
      congr 2
      push_cast; ring
    rw [e1, norm_mul, Complex.norm_exp_I_mul_ofReal, one_mul]
    exact norm_exp_I_mul_ofReal_sub_one_le.trans h2
  have hp : ‖(⟨p.x, p.y⟩ : ℂ) - ⟨q.x, q.y⟩‖ ≤ h := by
    rw [Complex.norm_eq_sqrt_sq_add_sq]; exact h1
  have hr : ‖(⟨w.1, w.2⟩ : ℂ)‖ ≤ R := by
    rw [apart_eq] at hR
    have : (⟨w.1, w.2⟩ : ℂ) - ⟨((0:ℝ), (0:ℝ)).1, ((0:ℝ), (0:ℝ)).2⟩ = ⟨w.1, w.2⟩ := by apply Complex.ext <;> simp
    rwa [this] at hR
  rw [apart_eq, bodyPoint_eq, bodyPoint_eq, hq]
  have e2 : (⟨p.x, p.y⟩ : ℂ) + ⟨w.1, w.2⟩ * Complex.exp (Complex.I * p.theta)
      - (⟨q.x, q.y⟩ + ⟨w.1, w.2⟩ * Complex.exp (Complex.I * t))
      = (⟨p.x, p.y⟩ - ⟨q.x, q.y⟩) + ⟨w.1, w.2⟩ * (Complex.exp (Complex.I * p.theta) - Complex.exp (Complex.I * t)) := by ring
  rw [e2]
  refine (norm_add_le _ _).trans (add_le_add hp ?_)
  rw [norm_mul, mul_comm e]
  exact mul_le_mul hr hd (norm_nonneg _) ((norm_nonneg _).trans hr)

/-- **C134.** If states cover a path and in each of them the body is more than `r` plus the enlargement away from the obstacles, then it is
more than `r` away from them along the whole path. -/
theorem C134_clear {h e R r : ℝ} {s : State} {cs : List Control} {path : List State} (hcov : Covers h e s cs path)
    {body obstacles : Set (ℝ × ℝ)} (hR : BodyRadius R body)
    (hclear : ∀ x ∈ path, Clear (r + (h + e * R)) body obstacles (pose x)) :
    ∀ u a, At (cs.map seg) (pose s) u a → Clear r body obstacles a.cfg := by
  intro u a ha w hw o ho
  obtain ⟨x, hx, hwi⟩ := hcov u a ha
  have h1 := hclear x hx w hw o ho
  have h2 := bodyPoint_near hwi (hR w hw)
  have h3 : apart (bodyPoint (pose x) w) o ≤ apart (bodyPoint a.cfg w) (bodyPoint (pose x) w) + apart (bodyPoint a.cfg w) o := by
    rw [apart_eq, apart_eq, apart_eq]
    rw [norm_sub_rev (⟨(bodyPoint a.cfg w).1, (bodyPoint a.cfg w).2⟩ : ℂ)]
    exact norm_sub_le_norm_sub_add_norm_sub _ _ _
  linarith

/-- A car of 4 m by 2 m with the reference point at the rear axle, 1 m from its back. -/
example : BodyRadius (16 / 5) (Set.Icc (-1) 3 ×ˢ Set.Icc (-1) 1) := by
  rintro ⟨a, b⟩ ⟨⟨h1, h2⟩, h3, h4⟩
  simp only at h1 h2 h3 h4
  rw [apart, sqrt_le_iff]
  refine ⟨by norm_num, ?_⟩
  simp only
  nlinarith

/-- **C134, Reeds-Shepp.** -/
theorem C134_rs {sp : RSSpace} (hv : sp.Valid) (hk : sp.kappa > 1 / 10000) (junk : ℝ × ℝ) (s1 s2 : State)
    (hfar : sp.kappa * dist2 s1 s2 ≤ 10 ^ 200) {R r : ℝ} {body obstacles : Set (ℝ × ℝ)} (hR : BodyRadius R body)
    (hclear : ∀ x ∈ sp.get_path junk s1 s2, Clear (r + sp.discretization / 2 * (1 + sp.kappa * R)) body obstacles (pose x)) :
    ∀ u a, At ((sp.get_controls s1 s2).map seg) (pose s1) u a → Clear r body obstacles a.cfg :=
  C134_clear (C133_rs hv hk junk s1 s2 hfar) hR (by convert hclear using 4; ring)

/-- **C134, Dubins.** -/
theorem C134_dubins {sp : DubinsSpace} (hv : sp.Valid) (hk : sp.kappa > 1 / 10000) (junk : ℝ × ℝ) (s1 s2 : State)
    (hfar : sp.kappa * dist2 s1 s2 ≤ 10 ^ 200) {R r : ℝ} {body obstacles : Set (ℝ × ℝ)} (hR : BodyRadius R body)
    (hclear : ∀ x ∈ sp.get_path junk s1 s2, Clear (r + sp.discretization / 2 * (1 + sp.kappa * R)) body obstacles (pose x)) :
    ∀ u a, At ((sp.get_controls s1 s2).map seg) (pose s1) u a → Clear r body obstacles a.cfg :=
  C134_clear (C133_dubins hv hk junk s1 s2 hfar) hR (by convert hclear using 4; ring)

/-- The enlargement cannot be smaller than half the discretization: on a straight line of that length an obstacle halfway is hit although
both states are half the discretization away from it. -/
theorem C134_tight {disc : ℝ} (hd : 0 < disc) (junk : ℝ × ℝ) : ∃ (s : State) (cs : List Control) (body obstacles : Set (ℝ × ℝ)),
    BodyRadius 0 body ∧ (∀ r < disc / 2, ∀ x ∈ integrate disc junk s cs, Clear r body obstacles (pose x)) ∧
    ∃ u a, At (cs.map seg) (pose s) u a ∧ ∃ w ∈ body, ∃ o ∈ obstacles, bodyPoint a.cfg w = o := by
  have hdir : (seg ⟨disc, 0, 0⟩).dir = 1 := by rw [Segment.dir, if_neg]; simp only [seg]; linarith
  refine ⟨⟨0, 0, 0, 0, 0⟩, [⟨disc, 0, 0⟩], {(0, 0)}, {(disc / 2, 0)}, ?_, ?_, ?_⟩
  · intro w hw
    rw [Set.mem_singleton_iff.1 hw]
    simp [apart]
  · intro r hr x hx w hw o ho
    rw [Set.mem_singleton_iff.1 hw, Set.mem_singleton_iff.1 ho]
    have hn : nSteps disc |disc| = 1 := by
      rw [nSteps, abs_of_pos hd, div_self hd.ne', Nat.ceil_one]
    have hsg : sgn disc = 1 := by rw [sgn, if_neg (by linarith)]
    have hns : nextStep disc |disc| 0 = (disc, disc) := by
      rw [nextStep, abs_of_pos hd, zero_add, if_neg (lt_irrefl _)]
    have hx' : (pose x).x = 0 ∧ (pose x).y = 0 ∧ (pose x).theta = 0 ∨ (pose x).x = disc ∧ (pose x).y = 0 ∧ (pose x).theta = 0 := by
      simp only [integrate, integrateLoop, hn, segLoop, hns, List.map_cons, List.map_nil, List.mem_cons, List.cons_append,
        List.nil_append, List.not_mem_nil, or_false] at hx
      rcases hx with rfl | rfl
      · left; exact ⟨rfl, rfl, rfl⟩
      · right
        have h0 : ¬ |(0:ℝ)| > SF.epsilon := by norm_num [SF.epsilon]
        simp only [pose, integrate_ODE, if_neg h0]
        simp [end_of_straight_line, hsg]
    have h2 : apart (bodyPoint (pose x) (0, 0)) (disc / 2, 0) = disc / 2 := by
      rcases hx' with ⟨h1, h2, h3⟩ | ⟨h1, h2, h3⟩
      · simp only [apart, bodyPoint, h1, h2, h3]
        rw [show ((0 + 0 * cos 0 - 0 * sin 0 - disc / 2) ^ 2 + (0 + 0 * sin 0 + 0 * cos 0 - 0) ^ 2 : ℝ) = (disc / 2) ^ 2 by ring]
        exact sqrt_sq (by linarith)
      · simp only [apart, bodyPoint, h1, h2, h3]
        rw [show ((disc + 0 * cos 0 - 0 * sin 0 - disc / 2) ^ 2 + (0 + 0 * sin 0 + 0 * cos 0 - 0) ^ 2 : ℝ) = (disc / 2) ^ 2 by ring]
        exact sqrt_sq (by linarith)
    rw [h2]; exact hr
  · refine ⟨disc / 2, ⟨arrive 1 0 0 (disc / 2) ⟨0, 0, 0⟩, 0, 1⟩, ?_, (0, 0), rfl, _, rfl, ?_⟩
    · refine .here (m := arrive 1 0 0 (disc / 2) ⟨0, 0, 0⟩) (by linarith) ?_ ?_ (SameConfig.refl _) (by simp [seg]) hdir.symm
      · simp only [seg]; rw [abs_of_pos hd]; linarith
      · rw [drives_iff, hdir]; rfl
    · rw [arrive_line]
      simp [bodyPoint]

variable {sp : HCSpace}

/-- **C134, CC00-Dubins.** As C133. -/
theorem C134_cc00 (h : InRange sp.kappa sp.sigma) (hd : 0 < sp.discretization) (s1 s2 : State) (hfar : dist2 s1 s2 ≤ 10 ^ 100)
    (hc : CoarseEnough sp.kappa sp.sigma (toleranceRatio sp.kappa sp.sigma))
    (hs : ∀ cs, CC00.get_controls sp s1 s2 = some cs → Sharp cs) :
    ∃ cs path, CC00.get_controls sp s1 s2 = some cs ∧ CC00.get_path sp s1 s2 = some path ∧
      ∀ R r body obstacles, BodyRadius R body →
        (∀ x ∈ path, Clear (r + (sp.discretization / 2 * (1 + curvatureUp sp * R) + pathTol (cs.map seg))) body obstacles (pose x)) →
        ∀ u a, At (cs.map seg) (pose s1) u a → Clear r body obstacles a.cfg := by
  obtain ⟨cs, path, h1, h2, h3⟩ := C133_cc00 h hd s1 s2 hfar hc hs
  exact ⟨cs, path, h1, h2, fun R r body obstacles hR hcl => C134_clear h3 hR (by convert hcl using 4; ring)⟩

/-- **C134, HC00-, HC0pm-, HCpm0- and HCpmpm-Reeds-Shepp.** As C133. -/
theorem C134_hc {pm1 pm2 : Bool} (h : InRange sp.kappa sp.sigma) (hd : 0 < sp.discretization) (s1 s2 : State)
    (hfar : dist2 s1 s2 ≤ 10 ^ 100) (ho : ¬ HcRs.Opposed pm1 pm2 sp s1 s2)
    (hc : CoarseEnough sp.kappa sp.sigma (toleranceRatio sp.kappa sp.sigma))
    (hs : ∀ cs, SF.HcRs.get_controls pm1 pm2 sp s1 s2 = some cs → Sharp cs) :
    ∃ cs path, SF.HcRs.get_controls pm1 pm2 sp s1 s2 = some cs ∧ SF.HcRs.get_path pm1 pm2 sp s1 s2 = some path ∧
      ∀ R r body obstacles, BodyRadius R body →
        (∀ x ∈ path, Clear (r + (sp.discretization / 2 * (1 + curvatureUp sp * R) + pathTol (cs.map seg))) body obstacles (pose x)) →
        ∀ u a, At (cs.map seg) (pose s1) u a → Clear r body obstacles a.cfg := by
  obtain ⟨cs, path, h1, h2, h3⟩ := C133_hc h hd s1 s2 hfar ho hc hs
  exact ⟨cs, path, h1, h2, fun R r body obstacles hR hcl => C134_clear h3 hR (by convert hcl using 4; ring)⟩

end Props
