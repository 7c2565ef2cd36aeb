# Formal model of hbanzhaf/steering_functions: design

This file says what is modelled, how each property of `properties.jsonl` is
stated and proved, and what has to be trusted.

## 1. Modelling decisions

* **Arithmetic.** `double` is modelled by the real numbers (Mathlib `ℝ`).
  Floating-point rounding, overflow, NaN and infinities are not modelled there
  (but see the next item). The
  decimal constants `PI`, `HALF_PI`, `TWO_PI`, `SQRT_PI`, `SQRT_PI_INV`,
  `SQRT_TWO_PI_INV` are modelled by the exact numbers they abbreviate. The
  Chebyshev tables of `fresnel.data` are modelled digit by digit as rationals,
  and tolerances (`1e-4`, `1e-6`, `-1e-9`, `10*DBL_EPSILON`, `4.5948`) as the
  exact decimals. `numeric_limits<double>::max()` is the exact rational
  `(2 - 2^-52) * 2^1023`.
* **Library functions.** `sqrt`, `sin`, `cos`, `acos`, `asin`, `atan`, `floor`,
  `ceil`, `fabs` are the Mathlib functions; `atan2 y x` is
  `Complex.arg (x + y i)` (range `(-pi, pi]`, `atan2 0 0 = 0`, as in IEEE 754
  with positive zeros); `fmod x y = x - y * trunc (x / y)`.
* **Double precision.** `Model/Double.lean` is a second model of `twopify`, `pify`, of the whole Dubins planner up to
  `get_distance`, and of the integration steps, in which each operation is followed by a rounding `fl`. `Spec/Double.lean` says what a double is and
  what rounding to nearest means (`Rounds fl`, ties either way); the theorems (C103-C106) hold for every such `fl`, and `exists_rounds` shows there is one.
  Assumptions: correctly rounded `sin`, `cos`, `acos`, `atan2`, `sqrt`; no fused multiply-add and no extended precision; no signed zeros, NaN or infinities.
* **Totalised operations.** Lean's `x / 0 = 0` and `sqrt` of a negative number
  `= 0` are never used silently: theorems either carry the guard the code relies
  on as a hypothesis, or there is a theorem that the guard holds (C19, C83, C85, C117).
* **Undefined or indeterminate behaviour.** Where the C++ reads an
  uninitialised field or calls `front()` on an empty vector, the model returns a
  distinct outcome (`none`), see C14. Failing `assert`s are modelled as separate
  predicates (`...Asserts`) that are proved or refuted.
* **Objects.** Pointers and heap allocation of the HC/CC planners are modelled
  by values, except in the separate model of the memory (`Model/Memory*.lean`, C110). Output parameters become result tuples. The `mutable` scratch
  members `distance`/`angle` of the planner helper objects are modelled
  explicitly for C39.

## 2. Layers

| module | content |
| --- | --- |
| `Verif/Model/*` | function-by-function model of the C++ code, each definition with file and lines |
| `Verif/Spec/*` | specifications that do not mention the model (kinematics as integrals/ODE, Fresnel integrals, angle congruence, Loewner order) |
| `Verif/Lemmas/*` | auxiliary lemmas |
| `Verif/Props/*` | the property theorems, with `example`s showing that the hypotheses are satisfiable |

## 3. Properties, and how each is proved

* **C01, C02** `twopify`, `pify`: real-number model with `Int.floor` / truncated
  division; range, congruence, canonicity. The documented range of `pify` is
  false at odd multiples of pi (`pify pi = pi`): negation with witness, and a
  `_partial` theorem with the closed interval and canonicity away from odd
  multiples.
* **C03** algebra with `sin^2 + cos^2 = 1`.
* **C04** induction over the loop.
* **C05** properties of `Complex.arg`.
* **C06** accuracy of the Chebyshev expansions: for `x <= 8` compare with the
  Taylor series of the Fresnel integrals in the Chebyshev basis (exact rational
  arithmetic), for `x > 8` bound the defect of the differential equation
  satisfied by the auxiliary functions and integrate it from `x = 8`. The value at
  `x = 8` is compared with the first branch (needs 20 digits of pi, sin 8, cos 8). The
  identities between the integer tables are checked by kernel evaluation
  (`decide +kernel`); they are exact polynomial identities, not samples.
* **C07** follows from the sign flip in the code.
* **C08, C09** specification: integrals of `cos`/`sin` of the exact heading.
  Arcs by the fundamental theorem of calculus; clothoids by a change of variable
  to Fresnel integrals plus C06 (error `5e-16 / sqrt |sigma|`).
* **C10** the Fresnel differences telescope and `k1` is invariant, so this holds
  for the approximate tables as well.
* **C11-C14** loop invariants over lists of controls. HC/CC statements use
  `Spec/Near.lean`: exact headings, curvatures and directions, position error at most
  the sum of the clothoid errors; controls must be `Representable` (sharpness,
  curvature, curvature jump zero or above the code's resolution 1e-4); without this C11, C12 and C13 are false,
  witness an arc of curvature 1e-4 turning by a quarter, which `integrate_ODE` drives straight. C14 is false for Dubins
  and Reeds-Shepp (`t <= 0` or empty controls) and for HC/CC with an empty
  vector: negation plus partial.
* **C15-C21** every word formula is verified against the exact kinematics;
  minimality is over all solutions of the word equations. Optimality over *all*
  curvature-bounded curves (Dubins' theorem) is not attempted. States are at most
  `1e200` turning radii apart, so that `DBL_MAX` really is larger than any path.
  The bound of C20 is false in the zone where a left and a right circle are
  almost tangent (the accepted word is then not quite a solution), and C21 is
  false for rotating two states at the same position (the shortcut test compares
  headings without wrap-around): both with witnesses.
* **C22-C26, C43-C46** the eight word formulas are verified against the exact
  kinematics on the unit circle; time flip, reflection and reversal are proved
  once on words. Existence (C24) is a case distinction on the position of the
  goal circles. C25 compares with every solution of the word equations stated in
  `Spec/ReedsShepp.lean` (the formulas are shown to find each solution whose
  outer turns are below half a turn, or another path that is no longer, see C97). Optimality over all curves is not
  attempted.
* **C27** false for `kappa <= 1e-4`: negation with witness, partial for
  `kappa > 1e-4`.
* **C28, C29, C31, C47** Mathlib matrices and `Matrix.PosSemidef`; loop invariants over
  `integrate_with_covariance` of all three families of state spaces. Motion noise
  parameters are assumed non-negative, measurement noise non-zero.
* **C30** the true derivatives come from differentiating the kinematic integrals; the
  code's matrix is compared entry by entry (arcs: exact; clothoids: up to the Fresnel
  error). False on straight lines (curvature column).
* **C48, C49** false: with zero measurement noise and exactly known start the innovation
  covariance is singular (rank at most 2) in the first step of every path; the curvature
  row and column of the start covariance are dropped after the first step.
* **C66, C67** (`Spec/Ekf.lean`, `Props/EkfFrame.lean`) matrix algebra: the feedback law is stated for error
  vectors in the vehicle frame; the Jacobians turn with the frame.
* **C32** the reversed motion solves the same differential equation backwards.
* **C33-C35** geometry of the HC/CC circles (`Lemmas/Frame.lean`, `Param.lean`, `Turn.lean`,
  `TurnAll.lean`): a pose is transported by its circle centre, `cen a b p`. The full
  clothoid computed with the library's own Fresnel functions carries the outer circle to
  the inner one exactly, by construction of the circle parameters; the true motion
  differs from it by the clothoid accuracy. Elementary paths need a lower bound of the chord
  (`Lemmas/D1.lean`). `OnInner`/`EndsCC` of `Spec/Turn.lean` say that a target lies on a
  circle. False for deflections in `(0, 1e-4)` (straight line instead of a turn) and for
  clothoids shorter than `1e-4`: negations with witnesses, error bounds in the `_partial`
  theorems. `C35` for elementary paths holds up to a relative `2e-8` if the target lies on the circle, and is false (negation in
  `Props/Limits.lean`) for targets accepted by the tolerance of `configuration_on_hc_cc_circle` only.
* **C36-C38, C50-C52** CC00-Dubins (`Model/CcDubins.lean`, whole file
  `cc00_dubins_state_space.cpp`): the tangent-circle constructions are checked in complex
  coordinates (`Lemmas/CcTangent.lean`); `Lemmas/Piece.lean` adds up position, heading and length errors over
  a sequence of turns and lines (`Track`); `Lemmas/Cc00*.lean` goes through the cases of the planner. A null
  pointer dereferenced by `get_controls` would be `none`; C38 excludes it. The tolerances are those of the
  code: `configuration_equal`, `configuration_aligned`, `configuration_on_hc_cc_circle` and `TT_exists`
  accept within 1e-4, and turns below 1e-4 become lines. The limits of C51 fail for paths of one turn: `C51_cc00_limits_false`
  (`Props/Limits.lean`, `Lemmas/LimitsWitness.lean`) exhibits `kappa = 1/1000`, `sigma = 1/125` and a goal 0.15 ahead whose heading, 1.2e-4,
  differs from that of the circle by 0.95e-4; the elementary path fitted to it has twice the allowed sharpness. All other paths are
  shown to be longer.
* **C39** history independence: `Model/History.lean` hands the members `distance`/`angle` of all nine helper classes on from call to call and from query to
  query; each call writes them before it reads them (`query_snd`). Concurrency by a step machine with
  shared `distance`/`angle` (`Model/Concurrent.lean`), negation with a schedule.
* **C40, C53-C59** CC0pm-, CCpm0- and CCpmpm-Dubins (`Model/CcDubinsPm.lean`, the three whole files):
  `Lemmas/Leg.lean` and `Tangent.lean` give one lemma per kind of turn and per tangent construction,
  `PmFound.lean` goes through the cases, `PmExists.lean` bounds the length of one family that always
  exists, `PmPlan.lean` puts them together. Cases in which the C++ skips a combination leave null
  pointers (`none`). C40, C53, C59 are false: the single-turn case accepts a goal circle of opposite sense with
  the same centre (`CC0pm.Opposed`), witness in `PmWitness.lean`. C57 is false: coinciding poses give the empty path
  whatever the requested curvature, and CCpmpm ignores the sense of the goal circle in the single-turn
  case (`PmEmpty.lean`). The limits of C57 (`PmLimits.lean`, `Props/Limits.lean`) hold for
  all paths of CCpmpm, whose `T` and `TT` have no elementary turns, and for all but `TT` of CC0pm and CCpm0.
* **C41, C60-C65** CC-Dubins for arbitrary curvatures (`Model/Predict.lean`, whole file
  `cc_dubins_state_space.cpp`). `get_controls` is a relation (`IsControls`), because `std::sort` may return any of
  several shortest candidates; `get_distance` is the minimum. `Lemmas/Predict.lean` treats the predicted states,
  `CcMid.lean` the four planners in between, `CcPair.lean` one pair of predicted states and the minimum over the pairs.
  `subtract_control` keeps the sharpness of the first control, which is zero if `state1` needs no prediction: C41 is
  false (assertion, and a wrong control in builds without assertions). C60, C63, C65 inherit C40 and C57. **C102** (limits) is proved for states far apart (`PmLimits.lean`) and false otherwise: the single turn of C51.
* **C42** loop invariant.
* **C69-C75** HC00-, HC0pm-, HCpm0- and HCpmpm-Reeds-Shepp (`Model/HcReedsShepp.lean`, the four whole files, one model with
  two switches because the files differ only in the first and the last turn). `Lemmas/HcTangent.lean` checks the tangent
  constructions of the 18 families, `HcLeg.lean` chains turns and lines (`Chain`: arrival, length, curvature, driving
  directions), `HcMove.lean` and `HcFamilies.lean` treat the families, `Hybrid.lean` the curvature profile
  (`Spec/Hybrid.lean`), `Kneser.lean` bounds the radius, `HcExists.lean` bounds the length of one family that always exists,
  `HcPlan.lean` puts them together, `HcWitness.lean` has the counterexamples. A length that is not a number (square root of a
  negative number) is replaced by `DBL_MAX`, which `array_index_min` treats in the same way. C70, C75 are false (the single-turn
  case accepts a goal circle of opposite sense with the same centre, `HcRs.Opposed`), C73 is false (coinciding poses; HCpmpm
  ignores the sense of the goal circle in the single-turn case). The limits of C74 fail for single
  turns of HC00, with the same states as for C51 (`Lemmas/HcWide.lean`: every row with two turns is at least 0.24 long, the single turn at most 0.16); hence those of C80 fail, too. Open: `TT` with elementary turns.
* **C76-C82** HC-Reeds-Shepp for arbitrary curvatures (`Model/PredictHc.lean`, whole file
  hc_reeds_shepp_state_space.cpp; `Spec/PredictHc.lean`, `Lemmas/HcAll.lean`, `Lemmas/HcPair.lean`,
  `Props/HcReedsSheppAll.lean`): as C60-C65, with up to four predicted states at each end; `std::sort` is a relation as there. C76, C81
  inherit C70; C79 inherits C73. C82 is false in two ways. (1) The assertion of `subtract_control` fails if one of the
  states lies at curvature zero or `kappa`. (2) With all assertions holding, `subtract_control` keeps the sharpness of the first
  control although the difference of the lengths has changed sign: from curvature 3/4 back to 1/2 on one clothoid (kappa = sigma = 1) the
  pair (forwards, forwards) yields a control whose curvature grows to 1. It ties with the right one; the
  pair comes first in the loops, and an insertion sort as in libstdc++ for up to 16 elements keeps the first of equal elements
  (the latter is a remark, not modelled).
* **C83-C87** CC00-Reeds-Shepp (`Model/CcReedsShepp.lean`, whole file `cc00_reeds_shepp_state_space.cpp`; `Spec/CcRsPlanner.lean`,
  `Lemmas/CcRsTangent.lean`, `CcRsFamilies.lean`, `CcRsPlan.lean`): as C69-C75, with CC turns throughout. `TcT_tangent_circles` takes the square
  root of `radius^2 - (distance / 2)^2`; `TcT_exists` accepts `distance` up to 1e-4 above `2 radius cos mu`, so the argument may be negative if
  `radius sin mu` is below about 1e-2 `sqrt radius`. A not-a-number length is treated as for C69-C75; a path whose length is a number
  although the configuration at the cusp is not (both turns take the shortcut for deflections below 1e-4) is `lost`, and its controls are `none`.
  C85 excludes this under `CuspClear` or for distant states. It does happen (`Lemmas/CuspLost.lean`): with kappa = 1/1000 and sigma = 5 the
  goal 2 cm ahead, 97 micrometres to the right, heading 1.5e-4, has no controls that are numbers; of all families
  only `TcT` consists of two turns that both take the shortcut, hence is the shortest, and its centres are more than `2 radius` apart.
  Negations of C83 and C85.
  The limits of C87 fail for single turns, with the same states as for C51 (`Lemmas/LimitsWitnessRs.lean`).
* **C88** (`Lemmas/CcCompare.lean`): each entry of the CC00-Dubins table is matched with an entry of the Reeds-Shepp table of the
  same pair of circles; a turn that may reverse (`CC_REGULAR` false) is not longer than one that may not.
* **C89, C91** (`Spec/Motion.lean`, `Lemmas/MotionRel.lean`, `MotionFamilies.lean`, `MotionRows.lean`, `MotionPlan.lean`): a motion of the plane
  carries start and goal circles to start and goal circles, tangent circles to tangent circles and every turn to one of equal
  length; a reflection exchanges left and right. Proved for states more than two radii apart and not on a line, so that no test with tolerance
  on headings (`configuration_equal`, `configuration_aligned`) applies. C91 is **false** otherwise (`Lemmas/MotionWitness.lean`): those tests compare headings after wrapping them to
  `[0, 2 pi)`; for kappa 1/2 and sigma 2500 the headings 0 and -5e-5 at one place have positive distance, 1 and 1 - 5e-5 have not.
  C89 is **false** for CC00-Reeds-Shepp (`Lemmas/CcRsMirror.lean`, `MirrorNum.lean`): in `TiSTcT_path`, `TcTiST_path` and `TcTiSTcT_path` the sign of `delta_y`
  does not depend on `c1.left` (cc00_reeds_shepp_state_space.cpp:542-561, 629-648, 716-739; the same text is in hc00_reeds_shepp_state_space.cpp).
  For kappa 1, sigma 1000 the goal (7, 3, -pi/2) has distance at least 8.7 and its mirror image less. The families concerned are still
  connected (C83), they are only not the shortest of their kind. A floating point simulation with kappa = sigma = 1 finds about one goal in seven
  affected, by up to 1.6 m (not part of the proofs). CC00-Dubins has no such family.
* **C68** (`Spec/CcOptimal.lean`, `Lemmas/CcOptimal.lean`, `CcOptimalPlan.lean`, `CcOptimalAll.lean`): competitors are lists of segments, independent of the planner, and
  driven with the library's closed formulas (`libAll`), since the planner itself measures with them. The proof shows that the turn of the planner between the ends of a
  competitor's turn is not longer (`full_le`, `elementary_le`; the straight line replacing a turn without deflection is not longer than two clothoids, `ccA_le`), that
  common tangents and middle circles are unique (`tangent_unique`, `middle_unique`), so that the competitor's are among those the planner tries, and that the existence
  tests accept them. The hypothesis `OffCircles` excludes the shortcut for goals within 1e-4 of a circle of the start.
* **C92** (`Spec/CcRsOptimal.lean`, `Lemmas/CcRsOptimal.lean`): as C68, for every combination of driving directions. The competitor's directions and sides select the pair of circles and the
  family (`line_word`: TT, TcT, TST, TcST, TScT, TcScT; `three_word`: TTT, TcTT, TTcT, TcTcT). For lines with a cusp at both ends the planner asks for
  centres farther apart than necessary, which is the hypothesis `two` in `RSWord`; `one` excludes a line shorter than 1e-4 between a turn and a cusp on the same circle.
  Paths with four or more parts (TcTTcT, TTcTT, TSTcT, TcTST, TcTSTcT) have a free parameter, of which the planner tries one value; they are not competitors.
* **C90** (`Model/Calls.lean`, `Spec/Calls.lean`, `Lemmas/Calls.lean`): the model lists the calls of the turn functions made by each planner, while computing all
  candidates (`distance_calls`) and while generating the controls of the chosen one (`control_calls`), and proves for all parameters and states that every
  call gets a configuration of exactly the curvature required. The controls are what the listed calls append (`C90_controls_of_calls`).
  Constructor assertions are the hypothesis on kappa and sigma elsewhere; the assertion of `subtract_control` is C41, those of Dubins and Reeds-Shepp C19 and C44.
* **C93, C94** (`Lemmas/RevTangent.lean`, `HcReverse.lean`, `HcSymmetry.lean`): for a pair of circles (c1, c2) and the reversed pair (c2, c1) every tangent configuration of one problem is one of
  the other, possibly with the heading turned by pi, and every turn driven backwards has the same length (`rs_rev`, `cc_rev`); so each of the 18 families has the length of a family of
  the reversed problem (`HcPair.family`; TcTT and TTcT, TST-type families with one cusp, TSTcT and TcTST change places) and the minima over 16 pairs agree. For HC0pm/HCpm0 the shortcut for
  coinciding centres is the same turn in both problems, so no hypothesis is needed. For HC00 and HCpmpm the test for a single turn (`configuration_on_hc_cc_circle`) is not symmetric
  within its tolerance, hence the hypothesis `ClearOf`. Without it C94 is **false** for HC00 (`C94_hc00_symmetric_false`, the states of C95).
* **C95, C96** (`Lemmas/CcReverse.lean`, `CcSymmetry.lean`): the same argument with CC turns. The families of CC00-Reeds-Shepp and CC00-Dubins are compared with those of the
  reversed pair of circles (`CcPair.family`); CC00-Dubins forwards is paired with CC00-Dubins backwards. The test for a single turn is again the reason for `ClearOfCc`.
  Without it both are **false** (`Lemmas/AsymWitness.lean`): from the origin a goal at the end of a turn by 1.02e-4, with heading 1.01e-4 (kappa 1/1000, sigma 1/125), passes the test and is reached
  in 0.235; on the way back the heading the test computes is just below 2 pi instead of just below 0, the test fails, and every path has at least 0.24 (two clothoid pairs, or a longer turn).
* **C97** (`Lemmas/RSCorner.lean`, `RSReverse.lean`): `pify` may return `-pi` instead of `pi`, and the words accept turns down to `-RS_ZERO`; so a word with an outer turn of exactly half a turn,
  or with a slightly negative turn, may be accepted in one direction and rejected in the other. For CSC, CCu|CuC, C|CuCu|C and C|CSC|C it is proved that whenever an outer turn is exactly `pi`
  another accepted word is no longer (`half_*`; then a turn may be up to and including `pi`, `closed_*`). All conditions of the words are then symmetric under reversal, where C|CC and CC|C,
  and CSC-type words with a quarter turn, change places; the tolerances are part of the statement. The same lemmas,
  with those of C99 for C|C(pi/2)SC, extend C25 to turns of exactly half a turn in all families (the first turn of C|CC and C|C(pi/2)SC is never `-pi`, `neg_pi_lt_pify`).
* **C98** the set of lengths of accepted words is closed under the two reflections (`RSAny.mirror`, `RSAny.flip`). Together with C45 this is invariance under all isometries of the plane.
* **C99** (`Lemmas/RSPeriod.lean`) at a heading that differs by full turns each word function computes the same `t` and `u`; `v` is the same too unless it is half a turn, when its sign may change. The lemmas for closed half turns (C25, C97) then give another accepted word at most as long; the words CCSC that end with half a turn need their own cases (`end_LRSL`, `end_LRSR`: replaced by CCSCC, CCSC in the other direction, CCC, CSC depending on the first turn and the straight part).
* **C100** (`Lemmas/Representation.lean`) `SameState` relates two representations. The configurations made from them are equal (`twopify_congr`), so the planners for fixed curvature compute the same; `predict_state` of the general planners gives equal lists up to representation (`cc_predict_same`, `hc_predict_same`), and the minimum over pairs of predictions respects this.
* **C101** for Dubins and Reeds-Shepp the normalised parameters are equal, the rest is linear. **False of CC00-Dubins** (`C101_cc00_false`): two states side by side, kappa = 3/4, sigma = 5625, offset 8e-5, are `configuration_equal` (distance 0), in a unit 1.5 times smaller they are not (distance > 0, `Spec.beside_pos`). Away from the tolerances it holds for the distance of CC00-Dubins (`C101_cc00_units_partial`): the minimum is attained by TST or TiST (both tangent lines exist in both units because the circles are far apart), the turns scale (`Spec.Units.turn_scaled`; the elementary-path guard `distance > epsilon` is met in both units by `chord_lower`), and the inequality is applied with c and with 1/c. Hypotheses: states more than six radii apart in both units, not on a line, clothoids longer than 3e-3, kappa² ≤ 2 sigma. Missing: controls, closer states, other planners with clothoids.
* **C103** (`Lemmas/DoubleAngle.lean`, `DoubleDubins.lean`) the quotient is below an integer `n` iff the argument is below `n * TWO_PI` (`below_mul`: neighbouring doubles are far enough apart), and
  `n * TWO_PI` is a double for `|n| <= 4`. **False** in general: `-2^-60` gives `TWO_PI` (`tw_tiny`), and 7295307681779328 * 2^-45 (33 turns) gives `-2^-45` (`twopify_neg`).
* **C104** `fmod` of doubles is a double (`IsDouble.fmod`: an integer combination that is smaller than both arguments is a double), as is the corrected value; hence nothing is rounded.
* **C105** real arithmetic: `alpha = beta = 0`, the word LSL has no turns (`ahead_real`). **False** in double precision (`Spec.Straight.far`): start at the origin, goal at (16777219 * 2^-24, 0), both headings
  2^-60, kappa 1/16. Each of the six words computes some turn as a tiny negative angle, which `twopify` maps to 2 pi, or is a word with a long arc; the distance is above 96
  although the goal is 1.0000002 away, and real arithmetic gives less than 2 (`near_real`). A simulation finds that a third of the goals straight ahead are hit for this
  curvature and headings of about 1e-16, about 4 in 100000 for random poses, and 0.7 to 3.5 in 100 goals at the end of a single turn and a straight line (computed in double precision). Proved in double precision for headings that are exactly 0 (`aligned`): distance at most `L (1 + 1e-13) + 2e-7 / kappa`.
* **C106** (`Lemmas/DoubleSteps.lean`) induction over the loop: `s_seg` follows the sum of the steps with an error of half a unit per step; the cut step has three roundings; the steps after it are about zero.
* **C107** (`Lemmas/Split.lean`, `DubinsCut.lean`) a place on a path without clothoids divides one segment (`At.split`); both parts of a Dubins path are again driven like Dubins paths of the same
  length (`DubinsPath.cut`: a part with fewer segments is filled up with empty ones; a CCC path cut in its middle turn gives CC, which is CSC without a straight line),
  and C18 bounds the distances, for all intermediate states, also those inside the tolerances. Outside the tolerance zones of C15 the plan leads to the goal, which the
  second inequality needs. **False** inside (`C107_dubins_replan_false`): the plan for a goal 6e-7 behind drives 6e-7 ahead.
* **C108** (`Lemmas/RSCut.lean`, `RSOutput.lean`) the plan is a solution of the word equations of C25 (`cand_path`), whose rest is one too, possibly of another word (`ReedsSheppPath.rest`), or the first part,
  by reversal (`ReedsSheppPath.start`). The example needs the result for a goal ahead (`reeds_shepp_ahead`). The hypothesis on the segments keeps them clear of the tolerance of the words, which accept slightly negative lengths.
* **C109** (`Lemmas/Dispatch.lean`) no prediction takes place, so there is one pair (`stay_distance`, `stay_controls`). States that are `state_equal` are also `configuration_equal`, and then the planner
  for fixed curvatures returns the empty path (`equal_plan`); a state without and one with curvature are never `state_equal`, although they may be `configuration_equal` (C40, C53).
* **C110** (`Model/Memory.lean`, `MemoryDubins.lean`, `MemoryReedsShepp.lean`; `Lemmas/Memory.lean`, `MemoryRows.lean`) a model of the pointers only: one operation per `new`, `delete`, pointer assignment
  and read through a pointer, function by function, with a heap that knows the living objects and with distinct outcomes for a read through `nullptr` and for the use of a pointer that is not initialised or whose object is gone.
  Everything the code decides by comparing numbers is an arbitrary outcome, so all runs are covered. The operations of one row of the table depend on eight truth values; each row is checked for all of them on the empty heap,
  by evaluation in the kernel, and `exec_frame` (the operations behave the same on every heap) carries this over to all heaps. The lemmas then follow who owns which object: `fill_ok`, `circlesPath_ok`, `tryPairs_ok`, `plan_ok`.
  That the best pair is not a skipped one and the best row a filled one is part of the properties on the planners themselves (C36 and its relatives), where a missing path is `none`.
* **C111** (`Lemmas/Compare.lean`, `CompareLSL.lean`, `CompareLSR.lean`, `CompareAll.lean`) every Dubins word is replaced by a Reeds-Shepp word with the same end that is not longer (`csc_beaten`,
  `ccc_beaten`), and C25 compares with the latter. Whole turns are dropped (`SameEnd.turns`), mirroring and reversal exchange words. Turns of more than half a turn are replaced by three-point turns when the
  circles are near, by turns with a cusp and a quarter turn (`C|CSC`) or by other straight lines between the circles when they are far; three turns become `C|C|C` or a turn - straight - turn.
  **False** within the tolerance of the Dubins planner (`C111_rs_le_dubins_false`).
* **C112** (`Spec/Curve.lean`; `Lemmas/Optimal*.lean`) Dubins' theorem, proved from scratch. The specification `Curve` is a curve whose place has the derivative given by its heading and whose heading is
  Lipschitz with constant `kappa`; nothing else is assumed. The proof avoids optimal control. (1) After every Dubins word in normal form a short line or turn costs at most its own length, because some
  Dubins word to the new end is at most that much longer (`ok_LSL`, `ok_RSL`, `ok_SL`, `ok_RL`, `ok_LRL`; the circle of the last turn moves by `Shift`); every Dubins word has a normal form that is not longer (`DW.nrm`: three turns
  with too long last turns are replaced). (2) The ends of the Dubins words of bounded length form a closed set (`reach_closed`), so the set of lengths of the added piece for which this holds is closed, contains 0 and
  is open to the right: it is everything (`Fwd.piece`). Induction gives all paths of finitely many lines and turns (`fwd_all`). (3) A curve is followed by `n` turns and lines of the same total length whose end is within
  `2 L^2 / n` of the end of the curve (`follow_end`); the set is closed, so the end of the curve itself is reached (`curve_beat`). (4) The words are compared with the planner by C18, which holds for all states; hence the lower
  bound has no exceptions. That the bound is attained is C15 with C16, outside the tolerance zones; **false** inside (`C112_dubins_attained_false`).
* **C113, C114, C115** (`Props/Optimal.lean`) from C112: curves can be driven one after the other (`Curve.append`), a bound on the curvature can be relaxed (`Curve.mono`), and the words found for a curve are Dubins paths, to
  which C111 applies. C113 and C114 are **false** within the tolerances (`C113_dubins_triangle_false`, `C114_dubins_monotone_false`). The Reeds-Shepp distance is compared with curves without change of direction only.
* **C116** (`Props/Admissible.lean`) The controls of the CC-Dubins planners are a curve of bounded curvature in one direction (limits: C51, C57, C102; directions: C52, C58, C64), so C112 and C115 bound their length from below.
  For CCpmpm this holds for all pairs of states; for the others when the clothoids are long enough for the turning angle (`LongClothoids`) or the states are far apart. The bound is for the state where the path ends. **False** for
  the requested goal (`C116_cc00_false`): a goal 5e-5 m behind counts as reached by CC00, while the Dubins planner drives a loop.
  `C116_*_all` (`Props/Cost.lean`) cover one- and two-turn paths as well, with the slightly greater curvature that C126 allows such paths.
* **C117** (`Model/Domains.lean`, `Spec/Domains.lean`; `Lemmas/Domains*.lean`) the model lists the arguments of all divisions, `sqrt`, `asin` and `acos` of a function, under the same conditions under which the code reaches them;
  the specification says which arguments are allowed. Most guards imply the domain by the triangle inequality; the bounds of the HC families need `1 / kappa < radius` (`inv_lt_ccR`), which uses bounds on the Fresnel integrals.
  **False** for `TcTTcT` of HC-Reeds-Shepp (`C117_hc_counterexample`): `TcTTcT_exists` compares the distance only with an upper bound, so for wide circles (radius at least `2 / kappa`) near each other the triangle with the sides
  `2 / kappa`, `radius`, `distance / 2` does not exist. In the code the length of this candidate becomes NaN, and `array_index_min` never selects it. Nothing else can fail (`C117_hc_only_TcTTcT`).
  CC00-Reeds-Shepp is not part of it: there the undefined case is an outcome of the model (C83, C85). Divisions by literals and square roots of sums of squares are left out.
* **C118** (`Spec/PmOptimal.lean`, `Lemmas/PmOptimal.lean`, `PmOptimalPlan.lean`, `PmOptimalAll.lean`) as C68, with half turns at the curved ends: an arc and one clothoid, so the corner of the path lies on the small circle of the
  turn and not on the large one (`Opened`, `Closed`). A word of the specification determines its circles, these determine the geometry of the tangents, and the code tries this geometry for each pair of circles (`tst_le`, `ttt_le`).
  Excluded, and stated as hypotheses: pairs of circles where the code takes the single-turn shortcut. Not part of the property: paths with four turns. They form a family with one parameter, of which CCpmpm tries two members only.
* **C119** (`Spec/HcRsOptimal.lean`, `Lemmas/HcRsOptimal.lean`, `HcRsOptimalRows.lean`, `HcRsOptimalPlan.lean`, `HcRsOptimalFar.lean` for the example) as C92 and C118, with cusps. A joint of a path is a configuration at a fixed offset from the
  centre of the circle (`AtJoint`: at distance `1/kappa` beside it at a cusp, on the large circle otherwise), so a word with a line or with three turns fixes the distance of the two centres and, given the centres, its joints up to
  full turns (`joint_unique`, `touch`). The distance says that the existence test of the family succeeds (`line_dist`, `three_row`), uniqueness that the code computes the same joints, and the turns between them are compared by
  `First`, `Last` and `MidTurn`. Excluded, and stated as hypotheses: pairs of circles where the code takes the single-turn shortcut. Not part of the property: words of four and five parts, HC00 words whose middle turn has an arc
  driven against the turn, and empty lines between two cusps.
* **C120** (`Spec/Entry.lean`, `Lemmas/Entry.lean`, `Props/Entry.lean`) `Entry` gives the clothoid that brings the curvature to zero or to the maximum, without reference to the planner. `entry_hc` and
`entry_cc`: every such clothoid is among the predicted states, with the same length and the same end. `min_distance_le`: the distance is at most that of every pair. If the two predicted states count as equal, the
code uses the difference of the two lengths, which is at most their sum. The bound for the competitors follows with C68, C118 and C119, since the planners depend only on the configuration and not on the representation of the angle.

* **C121-C123** The demo node (`Model/Node.lean`, the computations of `steering_functions_node.cpp`; `Spec/Node.lean`,
  `Lemmas/Node.lean`). C121: the specification knows moving points and their derivatives (`Rolls`, `Velocity`), not steering angles; the
  velocity of the mounting point in the frame of the car is `v (1 - kappa y, kappa x)`, to which `(cos, sin)` of the drawn angle is
  parallel, also if the turning centre lies beside the wheel (`1 / kappa = y`), where the code divides by zero and gets `pi / 2`.
  C122: the solver of Eigen is a parameter with the contract `SolverOk` (orthogonal eigenvectors and `C = V diag V^T`; by the spectral
  theorem such a result exists for every covariance of the filter, shown as an example); the ellipsoid is determined by its support
  function `3 sqrt (n^T C n)`. If the solver fails the orientation is the zero matrix. C123 combines C28, C38, C47, C56, C62, C72, C78 and
  C85 for all draws of `rand()`; the copy of the covariance leaves out the last of its 16 entries, which is zero in both arrays.
* **C124** (`Spec/HcCompare.lean`, `Lemmas/HcCompare.lean`, `Lemmas/HcCompareAll.lean`, `Props/HcCompare.lean`) Each Dubins family is also a family of the Reeds-Shepp planner for the same pair of circles; there the turns are
  free to go backwards (`irr_turn`, `irr_hc_turn`: never longer), so every entry of the Dubins table bounds the Reeds-Shepp path (`le_0pm`, `le_pm0`, `le_pmpm`). HC0pm and HCpm0 hold for all parameters. CCpmpm has a family
  with four turns that HCpmpm does not have; it is excluded, and cannot occur between states more than eight radii apart (`four_near`), hence partial. For any curvature the states predicted by CC-Dubins are among those predicted by
  HC-Reeds-Shepp (`predict_sub`), and the path lengths are compared pair by pair; the exclusion of C88 applies to the straightened states (`Straightened`).
* **C125** (`Model/Counter.lean`, `Spec/Counter.lean`, `Lemmas/Counter.lean`, `CounterPlan.lean`) the loops of `integrate`, `integrate_with_covariance` and
  `interpolate` once more, with `n_states`, `i` and `n` as 32-bit `int`: every conversion from `double` and every addition that leaves the range is `none`.
  By induction over the controls the sum in `n_states` is `stepsTotal` as long as it fits, the `for` loops then equal the loops of
  `Model/Integrate.lean` and `Model/Ekf.lean` (so all properties of paths apply), and if it does not fit the call is undefined (`iff`). `stepsTotal` is at most length / discretization
  plus the number of controls, of which every planner returns at most 17 (one to three per part); the bounds for the lengths are those of C20, C24, C38, C56, C62, C72, C78 and C85. `C125_overflow_witness`:
  valid planners with discretization 1e-9.
* **C126** (`Spec/LimitsTolerance.lean`, `Lemmas/LimitsUp.lean`, `LimitsFactor.lean`) The controls are those of the planners. `elementary_limits_up` bounds the sharpness fitted by `cc_elementary_controls` to a chord that is
  shorter than the nominal one by at most `E`; `Slack k s E m` says that this costs at most the factor `m`, and every lemma on turns and path families (`TurnShape`, `Track`, `Chain`) carries the limits for any such `m`, so that `E = 0` gives the exact limits of
  C51 etc. and the error accepted by the planners gives `m = 1 + 2 r` (`slack_of`). For opposed circles (C72) the single HC turn respects the limits exactly (`HcBasic.limits`), so C74 needs no such exclusion either. Coinciding predicted states: `join_limits`; not covered where the assertion of `subtract_control` fails or the difference points the wrong way (C41, C82).
* **C127** (`Props/Cost.lean`) `CostsLittle` states the absolute and the relative bound without the model. Both sides are compared with the Euclidean distance: from above by the bounds of C38, C56, C62, C72, C78 and C85, from
  below by C20 and C26.
* **C128** (`Lemmas/Ellipse.lean`) The single steps of both `integrate_ODE` move by at most the step, plus `5e-14` for clothoids (`Slow`), whatever curvature and sharpness are and whether or not they are resolved; since the
  steps are flows (`IsFlow`) the error counts once per control and not once per step. Induction over the controls gives for every state an arc length `t` with distance at most `t` from the start and at most the rest from the end (`OnWay`).
* **C129** (`Props/Cusps.lean`) `AtMostCusps n tol cs` asks for a split into at most `n + 1` groups, each with one direction up to `tol`; `cusps_alternating` shows that it is not met trivially. All 48 statements of the model are gone through: the formulas accept `t`, `u`, `v` down to minus ten machine epsilons, which is where the tolerance comes from. Not stated for HC-/CC-Reeds-Shepp, whose irregular turns may reverse in the middle.
* **C130** the heading along a path differs from the first one by at most kappa times the length driven, and from the last one by at most kappa times the length left; while both are at most pi the progress in the first (last) direction grows at least as fast as that of the path that turns fully one way and back (`Spec.progress`, by comparing derivatives). `Spec.Curve` is the specification of C112, so the theorem covers all paths, not only Dubins words; for the planner the distance is attained by a path (`C112_dubins_attained`). `C130_dubins_sharp`: the goal four radii to the side is exactly one circumference away. **False within the tolerance for equal poses** (`C130_dubins_false`, which also shows the jump of the distance). For the planners with continuous curvature (`Props/BehindCc.lean`) the controls lead to the goal only up to a tolerance and the curvature is that of C126; `C130_controls_near` bounds the loss (the sine lies above its chords), the goal must not be within the tolerance.
* **C24, detour** (`Props/Detour.lean`): left turn, straight line, left turn leads anywhere (explicit, `left_straight_left`) and is a Dubins path, none of which is shorter than the Reeds-Shepp distance (C111).

* **C131** (`Props/TurnCost.lean`).  `TurnedBy phi s1 s2`: the goal's heading is the start's plus `phi`, `|phi| ≤ π`, modulo full turns.
  `heading_change`: along a path of curvature at most `K` the heading changes by at most `K` times the length (segment by segment, the
  mean curvature of a clothoid is that at its middle); `half_turn_least`: full turns only make the angle larger.  With the theorems on
  what the controls reach (C15, C22, C36, C40, C53, C54, C60, C69, C70, C76, C83) and the limits on curvature (C17, C43, C57, C126) this
  bounds the length from below for every planner.  Sharp: `turn_on_the_spot` constructs the three-point turn (forwards, backwards,
  forwards, the middle arc `2 arcsin (sin (phi/2) / 2)`), a Reeds-Shepp word of length exactly `|phi|/kappa`, so that with C25 the
  distance on the spot is exactly that (`C131_rs_spot`).  Partial where C40, C53, C60, C70, C76, C83 are.

* **C132** (`Lemmas/Sideways.lean`, `Props/Sideways.lean`).  `toTheLeft` is the displacement across the heading of the start,
  `SidewaysLimit K tol turn L` says that it is at most `K L²/2`, and at most `K L²/4` for equal headings.  `leftOf_drives`: for every
  place `l` along a path of curvature at most `K`, the heading differs from the reference by at most the difference at the start plus
  `K` times the way from the start, and likewise from the end; integrating (segment by segment, by induction) and taking the middle
  gives the limit.  If the headings agree only up to a full turn, the path is longer than `2π/K` and the limit holds anyway.  From above:
  `parallel_parking` (left and right forwards, left and right backwards on four equal arcs) is a Reeds-Shepp word, and C25.

* **C133** (`Lemmas/Covers.lean`, `Props/Covers.lean`).  `Covers h e s cs path`: for every place `At cs s` of the specification of C13
  one of the states is within `h` and `e`.  From the specification of the samples (`Sampled`, `SampledNear`, C12): `nearest_place`
  finds the sample at arc length at most half the discretization away in the same segment, `arrive_near'` bounds distance and change of
  heading by the arc length between two places of a segment.  For clothoid planners a segment repeats its start only if the curvature
  jumps, so the induction carries the sample before the segment along.  False for curvature at most 1e-4 (`C133_unresolved_false`), as C12.
  The planners: their controls are representable (C12) and have the curvature of C126 or C57; conditions as for the end of `get_path`.

* **C134** (`Props/Footprint.lean`).  Specification: `bodyPoint c w` (where a point of the body is when the car is at `c`), `Clear r body
  obstacles c`, `BodyRadius R body`; sets are arbitrary.  `bodyPoint_near`: a body point is displaced by at most the displacement of the
  reference point plus `R` times the difference of the headings (complex exponentials).  With C133 this gives `C134_clear` and the planners.
  `C134_tight`: on a straight line as long as the discretization an obstacle halfway is hit, though both states are half the discretization
  away, so the enlargement cannot be reduced.

* **C135** (`Props/OneSense.lean`).  `TurnsOnly e K cs`: the heading changes in the sense `e` wherever the car drives, with curvature `K`.
  Then the change of heading is `K` times the length (`turnsOnly_heading`), so up to half a turn C131 is a lower bound equal to the length;
  the upper bound is C25 (Reeds-Shepp) or C18 (Dubins), an arc being a word with two empty parts.

* **C136** (`Lemmas/Aligned.lean`, `Props/Aligned.lean`).  `StraightTo L s1 s2`: `s2` is `L` ahead of `s1` with its heading.  `gain psi`
  measures how far a path leads in direction `psi`; for an arc it is strictly less than its length (`abs_sin_sub_lt`), for a line equal
  only in that direction.  So a path of lines and arcs as long as the distance of its ends is a line (`straight_of_length`).  With C22,
  C23, C43 (C15-C17) this gives one direction; the other is C25 (C18) for a word with empty turns.

* **C137** (`Lemmas/StraightGoal.lean`, `Props/StraightGoal.lean`).  Every pair of circles has the states as its ends, so each table has
  the single entry `S` with the distance of the positions (`cc00_path`, `ccrs_path`, `hc00_path`); `array_index_min` picks it because all
  other entries are the largest double.  `straight_controls` then gives the signed length (`conf_controls`).  No hypothesis on kappa or
  sigma is needed.  For CC-Dubins and HC-Reeds-Shepp between states of curvature zero it follows by C109.

* **C138** (`Props/SelfDistance.lean`).  Reeds-Shepp by C46 and C23, Dubins by its first case, the planners with clothoids by the case `E`
  (`equal_plan`, for CC00-Reeds-Shepp as in C137).  HC-Reeds-Shepp for any curvature: the pair of equal predictions gives a control of
  length zero, the result is a shortest one, and no distance is negative (`Lemmas/HcNonneg.lean`).  **False for CC-Dubins** between curvature zero and the maximum: `predict_state` drives
  forwards from the start and backwards from the goal, so that equal states are predicted apart and every returned path contains both
  changes of curvature, for all states with such curvatures (`C138_cc_false_all`; `C138_cc_false`: distance at least 0.9 and paths of length at least 1 from a state to itself for
  kappa = sigma = 1, curvature 1/2).  `C138_cc_partial`: curvature zero or the maximum, by C109.
* **C139** (`Props/Nonneg.lean`, `Lemmas/HcNonneg.lean`, `Lemmas/CcNonneg.lean`).  Every row of the tables of each planner is a sum of lengths of turns and lines, each
  not negative (a regular elementary turn because `sin_mu` is the positive one of the circle parameters), or the initial `DBL_MAX`; then through the selection of the
  shortest row, the sixteen or four pairs of circles and, for CC-Dubins and HC-Reeds-Shepp, the predicted pairs.  Dubins and Reeds-Shepp by C16 and C23.

## 4. Trusted base

* Lean 4.33.0's kernel and Mathlib. Each property theorem depends at most on the
  axioms `propext`, `Classical.choice`, `Quot.sound`.
* The faithfulness of the definitions under `Verif/Model` to the C++ text (each
  cites file and lines), and the modelling decisions of section 1.
* Modelled completely: `utilities.cpp`, `dubins_state_space.cpp`, `reeds_shepp_state_space.cpp`, `paths.cpp`
  (without printing), `configuration.cpp`, `hc_cc_circle.cpp`, `hc_cc_state_space.cpp`, `ekf.cpp`, `fresnel.data`,
  `cc00_`, `cc0pm_`, `ccpm0_`, `ccpmpm_` and `cc_dubins_state_space.cpp`, `hc00_`, `hc0pm_`, `hcpm0_`,
  `hcpmpm_` and `hc_reeds_shepp_state_space.cpp`, `cc00_reeds_shepp_state_space.cpp`.
* Modelled apart from the values: heap allocation and destructors of the HC/CC planners (C110).
* Not modelled: printing, publishers, parameters, timing and animation of the ROS node, memory held by `std::vector` and `std::unique_ptr`, floating-point
  effects other than those of C103-C106.
