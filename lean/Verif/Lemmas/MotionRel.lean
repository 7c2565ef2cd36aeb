import Verif.Lemmas.Angle
import Verif.Spec.Motion
import Verif.Model.CcReedsShepp

/-!
# Motions of the plane: circles, turns and tangents
-/

noncomputable section

namespace Spec

open Real

variable {T : Motion}

/-- `p'` is the image of `p`. -/
structure PRel (T : Motion) (a b a' b' : ℝ) : Prop where
  x : a' = T.dx + (cos T.angle * a - sin T.angle * (T.sign * b))
  y : b' = T.dy + (sin T.angle * a + cos T.angle * (T.sign * b))

/-- `a'` is the image of the angle `a`. -/
def ARel (T : Motion) (a a' : ℝ) : Prop := AngleEq a' (T.sign * a + T.angle)

theorem Motion.sign_cases (T : Motion) : (T.mirrored = true ∧ T.sign = -1) ∨ (T.mirrored = false ∧ T.sign = 1) := by
  unfold Motion.sign
  cases T.mirrored <;> simp

theorem Motion.sign_sq (T : Motion) : T.sign ^ 2 = 1 := by
  rcases T.sign_cases with ⟨_, h⟩ | ⟨_, h⟩ <;> rw [h] <;> norm_num

theorem Motion.abs_sign (T : Motion) : |T.sign| = 1 := by
  rcases T.sign_cases with ⟨_, h⟩ | ⟨_, h⟩ <;> rw [h] <;> norm_num

theorem ARel.add {a a' d d' : ℝ} (h : ARel T a a') (hd : d' = T.sign * d) : ARel T (a + d) (a' + d') := by
  obtain ⟨n, hn⟩ := h
  exact ⟨n, by rw [hn, hd]; ring⟩

theorem ARel.sub {a a' d d' : ℝ} (h : ARel T a a') (hd : d' = T.sign * d) : ARel T (a - d) (a' - d') := by
  obtain ⟨n, hn⟩ := h
  exact ⟨n, by rw [hn, hd]; ring⟩

theorem ARel.add_pi {a a' : ℝ} (h : ARel T a a') : ARel T (a + π) (a' + π) := by
  obtain ⟨n, hn⟩ := h
  rcases T.sign_cases with ⟨_, e⟩ | ⟨_, e⟩ <;> rw [e] at hn
  · exact ⟨n + 1, by rw [hn, e]; push_cast; ring⟩
  · exact ⟨n, by rw [hn, e]; ring⟩

theorem ARel.twopify {a a' : ℝ} (h : ARel T a a') : ARel T (SF.twopify a) (SF.twopify a') := by
  obtain ⟨n, hn⟩ := h
  obtain ⟨k, hk⟩ := SF.twopify_angleEq a
  obtain ⟨l, hl⟩ := SF.twopify_angleEq a'
  rcases T.sign_cases with ⟨_, e⟩ | ⟨_, e⟩ <;> rw [e] at hn
  · exact ⟨l + n + k, by rw [hk, hl, hn, e]; push_cast; ring⟩
  · exact ⟨l + n - k, by rw [hk, hl, hn, e]; push_cast; ring⟩

theorem ARel.cos_sin {a a' : ℝ} (h : ARel T a a') :
    cos a' = cos T.angle * cos a - sin T.angle * (T.sign * sin a) ∧
    sin a' = sin T.angle * cos a + cos T.angle * (T.sign * sin a) := by
  have h' : AngleEq a' (T.sign * a + T.angle) := h
  rw [h'.cos_eq, h'.sin_eq]
  rcases T.sign_cases with ⟨_, e⟩ | ⟨_, e⟩ <;> rw [e]
  · rw [cos_add, sin_add, neg_one_mul, cos_neg, sin_neg]; constructor <;> ring
  · rw [cos_add, sin_add, one_mul]; constructor <;> ring

theorem PRel.frame {x y x' y' t t' a b a' b' : ℝ} (h : PRel T x y x' y') (ht : ARel T t t')
    (ha : a' = a) (hb : b' = T.sign * b) :
    PRel T (SF.global_frame_change x y t a b).1 (SF.global_frame_change x y t a b).2
      (SF.global_frame_change x' y' t' a' b').1 (SF.global_frame_change x' y' t' a' b').2 := by
  obtain ⟨hc, hs⟩ := ht.cos_sin
  have e := T.sign_sq
  unfold SF.global_frame_change
  dsimp only
  rw [hc, hs, h.x, h.y, ha, hb]
  constructor
  · linear_combination (-(cos T.angle * b * sin t)) * e
  · linear_combination (-(sin T.angle * b * sin t)) * e

theorem PRel.mid {x y x' y' u v u' v' : ℝ} (h : PRel T x y x' y') (g : PRel T u v u' v') :
    PRel T ((x + u) / 2) ((y + v) / 2) ((x' + u') / 2) ((y' + v') / 2) := by
  constructor
  · rw [h.x, g.x]; ring
  · rw [h.y, g.y]; ring

theorem PRel.sq {x y x' y' u v u' v' : ℝ} (h : PRel T x y x' y') (g : PRel T u v u' v') :
    (u' - x') ^ 2 + (v' - y') ^ 2 = (u - x) ^ 2 + (v - y) ^ 2 := by
  have e := T.sign_sq
  have f := sin_sq_add_cos_sq T.angle
  rw [h.x, h.y, g.x, g.y]
  generalize cos T.angle = c at *
  generalize sin T.angle = s at *
  generalize T.sign = t at *
  linear_combination ((u - x) ^ 2 + t ^ 2 * (v - y) ^ 2) * f + (v - y) ^ 2 * e

theorem PRel.dist {x y x' y' u v u' v' : ℝ} (h : PRel T x y x' y') (g : PRel T u v u' v') :
    SF.point_distance x' y' u' v' = SF.point_distance x y u v := by
  unfold SF.point_distance; rw [h.sq g]

/-- Direction from one point to another. -/
theorem PRel.angle {x y x' y' u v u' v' : ℝ} (h : PRel T x y x' y') (g : PRel T u v u' v') (hne : u ≠ x ∨ v ≠ y) :
    ARel T (SF.atan2 (v - y) (u - x)) (SF.atan2 (v' - y') (u' - x')) := by
  have hr : 0 < √((u - x) ^ 2 + (v - y) ^ 2) := by
    refine sqrt_pos.2 ?_
    rcases hne with hne | hne
    · have := sub_ne_zero.2 hne; positivity
    · have := sub_ne_zero.2 hne; positivity
  have h1 := SF.sqrt_mul_cos_atan2 (v - y) (u - x)
  have h2 := SF.sqrt_mul_sin_atan2 (v - y) (u - x)
  have h3 := SF.sqrt_mul_cos_atan2 (v' - y') (u' - x')
  have h4 := SF.sqrt_mul_sin_atan2 (v' - y') (u' - x')
  rw [h.sq g] at h3 h4
  generalize √((u - x) ^ 2 + (v - y) ^ 2) = r at *
  generalize SF.atan2 (v - y) (u - x) = a at *
  generalize SF.atan2 (v' - y') (u' - x') = b at *
  have e1 : ARel T a (T.sign * a + T.angle) := AngleEq.refl _
  obtain ⟨hc, hs⟩ := e1.cos_sin
  refine AngleEq.of_cos_sin ?_ ?_
  · rw [hc]
    refine mul_left_cancel₀ hr.ne' ?_
    rw [h3, h.x, g.x]
    linear_combination (-cos T.angle) * h1 + (sin T.angle * T.sign) * h2
  · rw [hs]
    refine mul_left_cancel₀ hr.ne' ?_
    rw [h4, h.y, g.y]
    linear_combination (-sin T.angle) * h1 - (cos T.angle * T.sign) * h2

/-- `q'` is the image of `q`. -/
structure CfgRel (T : Motion) (q q' : SF.Configuration) : Prop where
  pos : PRel T q.x q.y q'.x q'.y
  ang : ARel T q.theta q'.theta

theorem CfgRel.of {x y x' y' t t' k k' : ℝ} (h : PRel T x y x' y') (ht : ARel T t t') :
    CfgRel T (SF.configuration x y t k) (SF.configuration x' y' t' k') := ⟨h, ht.twopify⟩

theorem CfgRel.dist {p p' q q' : SF.Configuration} (h : CfgRel T p p') (g : CfgRel T q q') :
    SF.configuration_distance p' q' = SF.configuration_distance p q := h.pos.dist g.pos

/-- `c'` is the image of `c`, without regard to the start configuration. -/
structure DiscRel (T : Motion) (c c' : SF.Circle) : Prop where
  pos : PRel T c.xc c.yc c'.xc c'.yc
  left : c'.left = (c.left ^^ T.mirrored)
  forward : c'.forward = c.forward
  regular : c'.regular = c.regular
  radius : c'.radius = c.radius
  mu : c'.mu = c.mu
  sin_mu : c'.sin_mu = c.sin_mu
  cos_mu : c'.cos_mu = c.cos_mu
  delta_min : c'.delta_min = c.delta_min
  kappa : c'.kappa = T.sign * c.kappa
  kappa_inv : c'.kappa_inv = T.sign * c.kappa_inv
  sigma : c'.sigma = T.sign * c.sigma

/-- `c'` is the image of `c`. -/
structure CircRel (T : Motion) (c c' : SF.Circle) : Prop extends DiscRel T c c' where
  start : CfgRel T c.start c'.start

theorem DiscRel.centered {x y x' y' : ℝ} (h : PRel T x y x' y') {l l' f f' r r' : Bool} (hl : l' = (l ^^ T.mirrored))
    (hf : f' = f) (hr : r' = r) (P : SF.CircleParam) :
    DiscRel T (SF.circleCentered x y l f r P) (SF.circleCentered x' y' l' f' r' P) := by
  subst hf hr hl
  constructor
  case pos => exact h
  all_goals try rfl
  all_goals
    unfold SF.circleCentered
    dsimp only
    rcases T.sign_cases with ⟨m, e⟩ | ⟨m, e⟩ <;> rw [m, e] <;> cases l <;> simp

theorem CircRel.at {q q' : SF.Configuration} (h : CfgRel T q q') {l l' f f' r r' : Bool} (hl : l' = (l ^^ T.mirrored))
    (hf : f' = f) (hr : r' = r) (P : SF.CircleParam) :
    CircRel T (SF.circleAt q l f r P) (SF.circleAt q' l' f' r' P) := by
  subst hf hr hl
  refine ⟨?_, h⟩
  constructor
  case pos =>
    unfold SF.circleAt
    dsimp only
    rcases T.sign_cases with ⟨m, e⟩ | ⟨m, e⟩ <;> rw [m] <;> cases l <;> cases f' <;>
      simp only [Bool.xor_false, Bool.xor_true, Bool.not_false, Bool.not_true, if_true, if_false, Bool.false_eq_true] <;>
      exact h.pos.frame h.ang rfl (by rw [e]; ring)
  all_goals try rfl
  all_goals
    unfold SF.circleAt
    dsimp only
    rcases T.sign_cases with ⟨m, e⟩ | ⟨m, e⟩ <;> rw [m, e] <;> cases l <;> simp

theorem CircRel.deflection {c c' : SF.Circle} (h : CircRel T c c') {q q' : SF.Configuration} (g : CfgRel T q q') :
    c'.deflection q' = c.deflection q := by
  obtain ⟨n, hn⟩ := h.start.ang
  obtain ⟨k, hk⟩ := g.ang
  unfold SF.Circle.deflection
  dsimp only
  rw [h.left, h.forward]
  rcases T.sign_cases with ⟨m, e⟩ | ⟨m, e⟩ <;> rw [m] <;> rw [e] at hn hk <;>
    cases c.left <;> cases c.forward <;> simp <;> refine SF.twopify_congr ?_ <;> rw [hn, hk]
  all_goals first
    | exact ⟨k - n, by push_cast; ring1⟩
    | exact ⟨n - k, by push_cast; ring1⟩

theorem CircRel.cc {c c' : SF.Circle} (h : CircRel T c c') {q q' : SF.Configuration} (g : CfgRel T q q') :
    c'.cc_turn_length q' = c.cc_turn_length q := by
  have e1 : |c'.kappa / c'.sigma| = |c.kappa / c.sigma| := by
    rw [h.kappa, h.sigma, abs_div, abs_div, abs_mul, abs_mul, T.abs_sign, one_mul, one_mul]
  have e2 : ∀ x, |c'.kappa_inv * x| = |c.kappa_inv * x| := by
    intro x
    rw [h.kappa_inv, abs_mul, abs_mul, abs_mul, T.abs_sign, one_mul]
  have e3 : ∀ x, c'.cc_circular_deflection x = c.cc_circular_deflection x := by
    intro x
    unfold SF.Circle.cc_circular_deflection
    rw [h.delta_min, h.regular]
  have e4 := h.start.dist g
  unfold SF.configuration_distance at e4
  unfold SF.Circle.cc_turn_length
  dsimp only
  rw [h.deflection g, e1, e2, e3, h.radius, h.sin_mu, h.delta_min]
  unfold SF.Circle.cc_elementary_sharpness
  dsimp only
  rw [e4]
  generalize c.deflection q = d
  split_ifs <;> dsimp only <;> simp_all

/-! ### Tangents -/

/-- Different centres. -/
def Diff (c1 c2 : SF.Circle) : Prop := c2.xc ≠ c1.xc ∨ c2.yc ≠ c1.yc

theorem DiscRel.dist {c1 c1' c2 c2' : SF.Circle} (h1 : DiscRel T c1 c1') (h2 : DiscRel T c2 c2') :
    SF.center_distance c1' c2' = SF.center_distance c1 c2 := by
  unfold SF.center_distance; rw [h1.pos.sq h2.pos]

theorem DiscRel.angle {c1 c1' c2 c2' : SF.Circle} (h1 : DiscRel T c1 c1') (h2 : DiscRel T c2 c2') (hd : Diff c1 c2) :
    ARel T (SF.atan2 (c2.yc - c1.yc) (c2.xc - c1.xc)) (SF.atan2 (c2'.yc - c1'.yc) (c2'.xc - c1'.xc)) :=
  h1.pos.angle h2.pos hd

/-- Pairs of configurations. -/
def CfgRel2 (T : Motion) (q q' : SF.Configuration × SF.Configuration) : Prop := CfgRel T q.1 q'.1 ∧ CfgRel T q.2 q'.2

/-- Closes goals on angles `a + d` for a related pair `a`. -/
macro "arel" h:ident e:ident : tactic => `(tactic| (
  first
    | exact $h
    | obtain ⟨n, hn⟩ := $h
      exact ⟨n, by rw [hn, $e:ident]; ring1⟩
    | obtain ⟨n, hn⟩ := $h
      exact ⟨n + 1, by rw [hn, $e:ident]; push_cast; ring1⟩))

theorem TT_rel {c1 c1' c2 c2' : SF.Circle} (h1 : DiscRel T c1 c1') (h2 : DiscRel T c2 c2') (hd : Diff c1 c2) :
    CfgRel T (SF.CC00.TT_tangent_circles c1 c2) (SF.CC00.TT_tangent_circles c1' c2') := by
  have ha := h1.angle h2 hd
  unfold SF.CC00.TT_tangent_circles
  dsimp only
  refine CfgRel.of (h1.pos.mid h2.pos) ?_
  rw [h1.left, h1.forward, h1.mu]
  rcases T.sign_cases with ⟨m, e⟩ | ⟨m, e⟩ <;> rw [m] <;> cases c1.left <;> cases c1.forward <;>
      simp only [Bool.xor_false, Bool.xor_true, Bool.not_false, Bool.not_true, if_true, if_false, Bool.false_eq_true]
  all_goals arel ha e

theorem TcT_theta_rel {c1 c1' c2 c2' : SF.Circle} (h1 : DiscRel T c1 c1') (h2 : DiscRel T c2 c2') (hd : Diff c1 c2) :
    ARel T (SF.CcRs.TcT_theta c1 c2) (SF.CcRs.TcT_theta c1' c2') := by
  have ha := h1.angle h2 hd
  unfold SF.CcRs.TcT_theta
  dsimp only
  rw [h1.left]
  rcases T.sign_cases with ⟨m, e⟩ | ⟨m, e⟩ <;> rw [m] <;> cases c1.left <;>
      simp only [Bool.xor_false, Bool.xor_true, Bool.not_false, Bool.not_true, if_true, if_false, Bool.false_eq_true]
  all_goals arel ha e

theorem TcT_rel {c1 c1' c2 c2' : SF.Circle} (h1 : DiscRel T c1 c1') (h2 : DiscRel T c2 c2') (hd : Diff c1 c2) :
    CfgRel T (SF.CcRs.TcT_tangent_circles c1 c2) (SF.CcRs.TcT_tangent_circles c1' c2') := by
  have ha := h1.angle h2 hd
  unfold SF.CcRs.TcT_tangent_circles
  dsimp only
  refine CfgRel.of ?_ (TcT_theta_rel h1 h2 hd)
  rw [h1.left, h1.forward, h1.radius, h1.dist h2]
  rcases T.sign_cases with ⟨m, e⟩ | ⟨m, e⟩ <;> rw [m] <;> cases c1.left <;> cases c1.forward <;>
      simp only [Bool.xor_false, Bool.xor_true, Bool.not_false, Bool.not_true, if_true, if_false, Bool.false_eq_true]
  all_goals exact h1.pos.frame ha rfl (by rw [e]; ring)

theorem TiST_rel {c1 c1' c2 c2' : SF.Circle} (h1 : DiscRel T c1 c1') (h2 : DiscRel T c2 c2') (hd : Diff c1 c2) :
    CfgRel2 T (SF.CC00.TiST_tangent_circles c1 c2) (SF.CC00.TiST_tangent_circles c1' c2') := by
  have ha := h1.angle h2 hd
  unfold SF.CC00.TiST_tangent_circles
  dsimp only
  rw [h1.left, h1.forward, h1.radius, h1.cos_mu, h1.sin_mu, h1.dist h2]
  generalize arcsin (2 * c1.radius * c1.cos_mu / SF.center_distance c1 c2) = x
  generalize SF.atan2 (c2.yc - c1.yc) (c2.xc - c1.xc) = a at *
  generalize SF.atan2 (c2'.yc - c1'.yc) (c2'.xc - c1'.xc) = a' at *
  rcases T.sign_cases with ⟨m, e⟩ | ⟨m, e⟩ <;> rw [m] <;> cases c1.left <;> cases c1.forward <;>
      simp only [Bool.xor_false, Bool.xor_true, Bool.not_false, Bool.not_true, if_true, if_false, Bool.false_eq_true]
  all_goals
    refine ⟨CfgRel.of (h1.pos.frame ?_ rfl (by rw [e]; ring)) ?_, CfgRel.of (h2.pos.frame ?_ rfl (by rw [e]; ring)) ?_⟩ <;> arel ha e

theorem TeST_rel {c1 c1' c2 c2' : SF.Circle} (h1 : DiscRel T c1 c1') (h2 : DiscRel T c2 c2') (hd : Diff c1 c2) :
    CfgRel2 T (SF.CC00.TeST_tangent_circles c1 c2) (SF.CC00.TeST_tangent_circles c1' c2') := by
  have ha := h1.angle h2 hd
  unfold SF.CC00.TeST_tangent_circles
  dsimp only
  rw [h1.left, h1.forward, h1.radius, h1.cos_mu, h1.sin_mu]
  generalize SF.atan2 (c2.yc - c1.yc) (c2.xc - c1.xc) = a at *
  generalize SF.atan2 (c2'.yc - c1'.yc) (c2'.xc - c1'.xc) = a' at *
  rcases T.sign_cases with ⟨m, e⟩ | ⟨m, e⟩ <;> rw [m] <;> cases c1.left <;> cases c1.forward <;>
      simp only [Bool.xor_false, Bool.xor_true, Bool.not_false, Bool.not_true, if_true, if_false, Bool.false_eq_true]
  all_goals
    refine ⟨CfgRel.of (h1.pos.frame ?_ rfl (by rw [e]; ring)) ?_, CfgRel.of (h2.pos.frame ?_ rfl (by rw [e]; ring)) ?_⟩ <;> arel ha e

/-- Distance and direction of the centres of related circles. -/
structure SRel (T : Motion) (m m' : SF.Scratch) : Prop where
  distance : m'.distance = m.distance
  angle : ARel T m.angle m'.angle

theorem DiscRel.scratch {c1 c1' c2 c2' : SF.Circle} (h1 : DiscRel T c1 c1') (h2 : DiscRel T c2 c2') (hd : Diff c1 c2) :
    SRel T (SF.scratch c1 c2) (SF.scratch c1' c2') := ⟨h1.dist h2, h1.angle h2 hd⟩

variable {m m' : SF.Scratch} {c1 c1' c2 c2' : SF.Circle}

theorem TciST_rel (h1 : DiscRel T c1 c1') (h2 : DiscRel T c2 c2') (hm : SRel T m m') :
    CfgRel2 T (SF.CcRs.TciST_tangents m c1 c2) (SF.CcRs.TciST_tangents m' c1' c2') := by
  have ha := hm.angle
  unfold SF.CcRs.TciST_tangents
  dsimp only
  rw [h1.left, h1.forward, h1.radius, h1.cos_mu, h1.sin_mu, hm.distance]
  generalize arcsin (2 * c1.radius * c1.cos_mu / m.distance) = x
  rcases T.sign_cases with ⟨m, e⟩ | ⟨m, e⟩ <;> rw [m] <;> cases c1.left <;> cases c1.forward <;>
      simp only [Bool.xor_false, Bool.xor_true, Bool.not_false, Bool.not_true, if_true, if_false, Bool.false_eq_true]
  all_goals
    refine ⟨CfgRel.of (h1.pos.frame ?_ rfl (by rw [e]; ring)) ?_, CfgRel.of (h2.pos.frame ?_ rfl (by rw [e]; ring)) ?_⟩ <;> arel ha e

theorem TiScT_rel (h1 : DiscRel T c1 c1') (h2 : DiscRel T c2 c2') (hm : SRel T m m') :
    CfgRel2 T (SF.CcRs.TiScT_tangents m c1 c2) (SF.CcRs.TiScT_tangents m' c1' c2') := by
  have ha := hm.angle
  unfold SF.CcRs.TiScT_tangents
  dsimp only
  rw [h1.left, h1.forward, h1.radius, h1.cos_mu, h1.sin_mu, hm.distance]
  generalize arcsin (2 * c1.radius * c1.cos_mu / m.distance) = x
  rcases T.sign_cases with ⟨m, e⟩ | ⟨m, e⟩ <;> rw [m] <;> cases c1.left <;> cases c1.forward <;>
      simp only [Bool.xor_false, Bool.xor_true, Bool.not_false, Bool.not_true, if_true, if_false, Bool.false_eq_true]
  all_goals
    refine ⟨CfgRel.of (h1.pos.frame ?_ rfl (by rw [e]; ring)) ?_, CfgRel.of (h2.pos.frame ?_ rfl (by rw [e]; ring)) ?_⟩ <;> arel ha e

theorem TciScT_rel (h1 : DiscRel T c1 c1') (h2 : DiscRel T c2 c2') (hm : SRel T m m') :
    CfgRel2 T (SF.CcRs.TciScT_tangents m c1 c2) (SF.CcRs.TciScT_tangents m' c1' c2') := by
  have ha := hm.angle
  unfold SF.CcRs.TciScT_tangents
  dsimp only
  rw [h1.left, h1.forward, h1.radius, h1.cos_mu, h1.sin_mu, hm.distance]
  generalize arcsin (2 * c1.radius * c1.cos_mu / m.distance) = x
  rcases T.sign_cases with ⟨m, e⟩ | ⟨m, e⟩ <;> rw [m] <;> cases c1.left <;> cases c1.forward <;>
      simp only [Bool.xor_false, Bool.xor_true, Bool.not_false, Bool.not_true, if_true, if_false, Bool.false_eq_true]
  all_goals
    refine ⟨CfgRel.of (h1.pos.frame ?_ rfl (by rw [e]; ring)) ?_, CfgRel.of (h2.pos.frame ?_ rfl (by rw [e]; ring)) ?_⟩ <;> arel ha e

theorem TceST_rel (h1 : DiscRel T c1 c1') (h2 : DiscRel T c2 c2') (hm : SRel T m m') :
    CfgRel2 T (SF.CcRs.TceST_tangents m c1 c2) (SF.CcRs.TceST_tangents m' c1' c2') := by
  have ha := hm.angle
  unfold SF.CcRs.TceST_tangents
  dsimp only
  rw [h1.left, h1.forward, h1.radius, h1.cos_mu, h1.sin_mu]
  rcases T.sign_cases with ⟨m, e⟩ | ⟨m, e⟩ <;> rw [m] <;> cases c1.left <;> cases c1.forward <;>
      simp only [Bool.xor_false, Bool.xor_true, Bool.not_false, Bool.not_true, if_true, if_false, Bool.false_eq_true]
  all_goals
    refine ⟨CfgRel.of (h1.pos.frame ?_ rfl (by rw [e]; ring)) ?_, CfgRel.of (h2.pos.frame ?_ rfl (by rw [e]; ring)) ?_⟩ <;> arel ha e

theorem TeScT_rel (h1 : DiscRel T c1 c1') (h2 : DiscRel T c2 c2') (hm : SRel T m m') :
    CfgRel2 T (SF.CcRs.TeScT_tangents m c1 c2) (SF.CcRs.TeScT_tangents m' c1' c2') := by
  have ha := hm.angle
  unfold SF.CcRs.TeScT_tangents
  dsimp only
  rw [h1.left, h1.forward, h1.radius, h1.cos_mu, h1.sin_mu]
  rcases T.sign_cases with ⟨m, e⟩ | ⟨m, e⟩ <;> rw [m] <;> cases c1.left <;> cases c1.forward <;>
      simp only [Bool.xor_false, Bool.xor_true, Bool.not_false, Bool.not_true, if_true, if_false, Bool.false_eq_true]
  all_goals
    refine ⟨CfgRel.of (h1.pos.frame ?_ rfl (by rw [e]; ring)) ?_, CfgRel.of (h2.pos.frame ?_ rfl (by rw [e]; ring)) ?_⟩ <;> arel ha e

theorem TceScT_rel (h1 : DiscRel T c1 c1') (h2 : DiscRel T c2 c2') (hm : SRel T m m') :
    CfgRel2 T (SF.CcRs.TceScT_tangents m c1 c2) (SF.CcRs.TceScT_tangents m' c1' c2') := by
  have ha := hm.angle
  unfold SF.CcRs.TceScT_tangents
  dsimp only
  rw [h1.left, h1.forward, h1.radius, h1.cos_mu, h1.sin_mu]
  rcases T.sign_cases with ⟨m, e⟩ | ⟨m, e⟩ <;> rw [m] <;> cases c1.left <;> cases c1.forward <;>
      simp only [Bool.xor_false, Bool.xor_true, Bool.not_false, Bool.not_true, if_true, if_false, Bool.false_eq_true]
  all_goals
    refine ⟨CfgRel.of (h1.pos.frame ?_ rfl (by rw [e]; ring)) ?_, CfgRel.of (h2.pos.frame ?_ rfl (by rw [e]; ring)) ?_⟩ <;> arel ha e

end Spec
