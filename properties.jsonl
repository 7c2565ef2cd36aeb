{"id": "C01", "title": "twopify is a canonical representative", "statement": "For every angle alpha, twopify(alpha) lies in [0, 2*pi), differs from alpha by an integer multiple of 2*pi, and gives the same answer for two angles exactly when they differ by an integer multiple of 2*pi.", "quantifier": "every real angle (and every pair of angles)", "why_tests_cant": "A test can only sample angles; the half-open range and the 'exactly when' hold for a continuum of values including every multiple of 2*pi.", "anchors": ["src/utilities/utilities.cpp:twopify"]}
{"id": "C02", "title": "pify returns a representative in the documented interval", "statement": "The header promises a value in [-pi, pi[ congruent to the argument modulo 2*pi. The result must lie in that interval for every input and be the same for congruent inputs.", "quantifier": "every real angle", "why_tests_cant": "The defect sits only at the odd multiples of pi, a measure-zero set that random tests never hit.", "anchors": ["src/utilities/utilities.cpp:pify", "include/steering_functions/utilities/utilities.hpp:pify"]}
{"id": "C03", "title": "Frame changes are inverse rigid motions", "statement": "Changing a point to a frame and back returns the point, in both orders, and both changes preserve distances between points.", "quantifier": "every frame (x, y, theta) and every point or pair of points", "why_tests_cant": "Sampling cannot show that a map of the plane is an isometry for all frames.", "anchors": ["src/utilities/utilities.cpp:global_frame_change", "src/utilities/utilities.cpp:local_frame_change"]}
{"id": "C04", "title": "array_index_min returns the first minimum", "statement": "For every non-empty array the returned index is in range, its entry is a lower bound of the whole array, and every earlier entry is strictly larger.", "quantifier": "every array length n >= 1 and every content", "why_tests_cant": "All lengths and contents, including ties, cannot be enumerated.", "anchors": ["src/utilities/utilities.cpp:array_index_min"]}
{"id": "C05", "title": "polar gives the polar coordinates", "statement": "For every point, polar returns r >= 0 and theta in (-pi, pi] with r*cos(theta) = x and r*sin(theta) = y.", "quantifier": "every point of the plane", "why_tests_cant": "Continuum of inputs, with branch cuts on the negative axis and at the origin.", "anchors": ["src/utilities/utilities.cpp:polar"]}
{"id": "C06", "title": "fresnel approximates both Fresnel integrals uniformly", "statement": "For every real s (both the |x|<=8 and the x>8 branch) the two outputs of fresnel, evaluated in exact arithmetic, differ from int_0^s sin(pi/2 u^2)du and int_0^s cos(pi/2 u^2)du by less than 1e-16.", "quantifier": "every real s, unbounded", "why_tests_cant": "The test compares against a finite table; a uniform bound on an unbounded domain needs a proof about the Chebyshev tables.", "anchors": ["src/utilities/utilities.cpp:fresnel", "src/utilities/utilities.cpp:fresnel_0_8", "src/utilities/utilities.cpp:fresnel_8_inf", "include/steering_functions/utilities/fresnel.data"]}
{"id": "C07", "title": "fresnel is odd and zero at zero", "statement": "fresnel(-s) = -fresnel(s) in both outputs and fresnel(0) = 0, so driving a clothoid backwards mirrors driving it forwards.", "quantifier": "every real s", "why_tests_cant": "Continuum of inputs; holds across the branch at x = 8.", "anchors": ["src/utilities/utilities.cpp:fresnel"]}
{"id": "C08", "title": "Arcs and lines solve the car's equations of motion", "statement": "end_of_circular_arc and end_of_straight_line return the exact state at arc length s of the solution of x' = d cos(theta), y' = d sin(theta), theta' = d kappa from the given state (heading modulo 2*pi).", "quantifier": "every start pose, every non-zero curvature, both directions, every length", "why_tests_cant": "An equality with the solution of a differential equation for all lengths.", "anchors": ["src/utilities/utilities.cpp:end_of_circular_arc", "src/utilities/utilities.cpp:end_of_straight_line"]}
{"id": "C09", "title": "Clothoids solve the car's equations of motion up to the Fresnel error", "statement": "end_of_clothoid returns heading (mod 2*pi) and curvature exactly, and a position within 5e-16/sqrt|sigma| of the exact solution of the equations of motion.", "quantifier": "every start pose and curvature, every non-zero sharpness, both directions, every length >= 0", "why_tests_cant": "Needs a uniform error bound over an unbounded set of curvatures and lengths.", "anchors": ["src/utilities/utilities.cpp:end_of_clothoid"]}
{"id": "C10", "title": "Splitting a segment does not change where it ends", "statement": "For straight lines, arcs and clothoids: driving length a and then length b gives the same pose and curvature as driving a+b at once (heading modulo 2*pi).", "quantifier": "every start state, every a, b, every curvature, non-zero sharpness, both directions", "why_tests_cant": "Quantifies over all split points; also must hold with the approximate Fresnel tables.", "anchors": ["src/utilities/utilities.cpp:end_of_clothoid", "src/utilities/utilities.cpp:end_of_circular_arc", "src/utilities/utilities.cpp:end_of_straight_line"]}
{"id": "C11", "title": "The sampled path ends where the controls end, for every discretization", "statement": "The last pose of integrate (Dubins, Reeds-Shepp and HC/CC) does not depend on the discretization: it is the pose reached by applying each control in one step (heading modulo 2*pi).", "quantifier": "every start state, every list of controls, every positive discretization", "why_tests_cant": "Ranges over all control lists (unbounded length) and all step sizes.", "anchors": ["src/dubins_state_space/dubins_state_space.cpp:integrate", "src/reeds_shepp_state_space/reeds_shepp_state_space.cpp:integrate", "src/hc_cc_state_space/hc_cc_state_space.cpp:integrate"]}
{"id": "C12", "title": "Samples lie on the path at spacing at most the discretization", "statement": "Every sample produced by integrate is the exact point of the commanded path at its arc length; consecutive samples within a segment are at most one discretization apart in arc length, the steps of a segment are positive and add up to |delta_s|, and the number of samples is sum(1 + ceil(|delta_s|/discretization)).", "quantifier": "every start state, control list and positive discretization", "why_tests_cant": "Loop property over unboundedly many iterations.", "anchors": ["src/dubins_state_space/dubins_state_space.cpp:integrate", "src/reeds_shepp_state_space/reeds_shepp_state_space.cpp:integrate", "src/hc_cc_state_space/hc_cc_state_space.cpp:integrate"]}
{"id": "C13", "title": "interpolate agrees with the path", "statement": "interpolate(t) is the pose at arc length t*L for 0 < t <= 1, the start pose for t <= 0, the end pose for t > 1 and at t = 1 it is the last pose of integrate.", "quantifier": "every t, start state, control list and discretization", "why_tests_cant": "Continuum of t and unbounded control lists.", "anchors": ["src/dubins_state_space/dubins_state_space.cpp:interpolate", "src/reeds_shepp_state_space/reeds_shepp_state_space.cpp:interpolate", "src/hc_cc_state_space/hc_cc_state_space.cpp:interpolate"]}
{"id": "C14", "title": "interpolate returns a fully initialised state", "statement": "Every field of the state returned by interpolate (x, y, theta, kappa, d) is a value computed from the arguments.", "quantifier": "every t, start state and control list", "why_tests_cant": "Reading an indeterminate double usually looks fine in a test run.", "anchors": ["src/dubins_state_space/dubins_state_space.cpp:interpolate", "src/reeds_shepp_state_space/reeds_shepp_state_space.cpp:interpolate", "src/hc_cc_state_space/hc_cc_state_space.cpp:interpolate"]}
{"id": "C15", "title": "Dubins controls reach the goal pose", "statement": "Driving the controls returned by get_controls from state1 (exact kinematics) ends at the position and heading (mod 2*pi) of state2, exactly outside two numerical tolerance zones and within 2.1e-6/kappa and 1e-6 rad inside them; forwards and backwards.", "quantifier": "every pair of states, every kappa > 0, both driving directions", "why_tests_cant": "All start/goal pairs form a 6-dimensional continuum with six word formulas and their degenerate sets.", "anchors": ["src/dubins_state_space/dubins_state_space.cpp:dubinsLSL", "src/dubins_state_space/dubins_state_space.cpp:dubinsRSR", "src/dubins_state_space/dubins_state_space.cpp:dubinsRSL", "src/dubins_state_space/dubins_state_space.cpp:dubinsLSR", "src/dubins_state_space/dubins_state_space.cpp:dubinsRLR", "src/dubins_state_space/dubins_state_space.cpp:dubinsLRL", "src/dubins_state_space/dubins_state_space.cpp:get_controls"]}
{"id": "C16", "title": "Dubins distance is the length of the Dubins controls", "statement": "get_distance(s1, s2) equals the sum of |delta_s| over get_controls(s1, s2).", "quantifier": "every pair of states, kappa > 0, both directions", "why_tests_cant": "All state pairs; relies on the signs of all segment lengths.", "anchors": ["src/dubins_state_space/dubins_state_space.cpp:get_distance", "src/dubins_state_space/dubins_state_space.cpp:get_controls"]}
{"id": "C17", "title": "Dubins controls respect direction and curvature", "statement": "get_controls returns exactly three segments with curvature 0 or +-kappa and sharpness 0, with delta_s >= 0 when driving forwards and <= 0 when driving backwards, and no arc is longer than one full turn.", "quantifier": "every pair of states, kappa > 0, both directions", "why_tests_cant": "Sign conditions for all inputs, including degenerate ones.", "anchors": ["src/dubins_state_space/dubins_state_space.cpp:get_controls", "include/steering_functions/dubins_state_space/dubins_state_space.hpp:Dubins_Path"]}
{"id": "C18", "title": "Dubins path is shortest among all Dubins-word paths", "statement": "Every forward path of word LSL, RSR, RSL, LSR, or RLR/LRL with middle arc longer than pi that reaches the goal has length at least get_distance (outside the tolerance zones).", "quantifier": "every pair of states and every such candidate path", "why_tests_cant": "Minimality over an infinite family of competitors.", "anchors": ["src/dubins_state_space/dubins_state_space.cpp:dubins", "src/dubins_state_space/dubins_state_space.cpp:get_distance"]}
{"id": "C19", "title": "Dubins planning never trips its own assertions or a domain error", "statement": "No assertion in the Dubins planner fails and no square root of a negative number or arc cosine outside [-1, 1] is taken, in exact arithmetic.", "quantifier": "every pair of states and kappa > 0", "why_tests_cant": "Assertions guard measure-zero degenerate configurations that tests do not sample.", "anchors": ["src/dubins_state_space/dubins_state_space.cpp:dubins", "include/steering_functions/dubins_state_space/dubins_state_space.hpp:Dubins_Path"]}
{"id": "C20", "title": "Dubins distance dominates the Euclidean distance and is finite", "statement": "get_distance is never below the straight-line distance and never the 'no path' value.", "quantifier": "every pair of states, kappa > 0, both directions", "why_tests_cant": "Universal lower bound over all pairs.", "anchors": ["src/dubins_state_space/dubins_state_space.cpp:get_distance"]}
{"id": "C21", "title": "Dubins distance is invariant under rigid motions and direction reversal", "statement": "Moving both states by the same rotation and translation, or adding full turns to headings, does not change get_distance; the backwards distance from s1 to s2 is the forwards distance from s2 to s1.", "quantifier": "every pair of states, rigid motion and kappa > 0", "why_tests_cant": "Ranges over the whole group of motions.", "anchors": ["src/dubins_state_space/dubins_state_space.cpp:dubins", "src/dubins_state_space/dubins_state_space.cpp:get_distance"]}
{"id": "C22", "title": "Reeds-Shepp controls reach the goal pose", "statement": "Driving the controls returned by get_controls from state1 ends exactly at the position and heading (mod 2*pi) of state2.", "quantifier": "every pair of states and every kappa > 0", "why_tests_cant": "48 word formulas with symmetries over a continuum of goals.", "anchors": ["src/reeds_shepp_state_space/reeds_shepp_state_space.cpp:reeds_shepp", "src/reeds_shepp_state_space/reeds_shepp_state_space.cpp:get_controls"]}
{"id": "C23", "title": "Reeds-Shepp distance is the length of the Reeds-Shepp controls", "statement": "get_distance(s1, s2) equals the sum of |delta_s| over get_controls(s1, s2).", "quantifier": "every pair of states, kappa > 0", "why_tests_cant": "All pairs.", "anchors": ["src/reeds_shepp_state_space/reeds_shepp_state_space.cpp:get_distance", "src/reeds_shepp_state_space/reeds_shepp_state_space.cpp:get_controls"]}
{"id": "C24", "title": "Reeds-Shepp always finds a path", "statement": "get_distance never returns the 'no path' value: at least one word is accepted for every pair of states. The distance exceeds the Euclidean distance by less than (4 pi + 2)/kappa.", "quantifier": "every pair of states, kappa > 0", "why_tests_cant": "Completeness over a continuum.", "anchors": ["src/reeds_shepp_state_space/reeds_shepp_state_space.cpp:reeds_shepp", "src/reeds_shepp_state_space/reeds_shepp_state_space.cpp:CSC", "src/reeds_shepp_state_space/reeds_shepp_state_space.cpp:CCC"]}
{"id": "C25", "title": "Reeds-Shepp returns the shortest word", "statement": "No path of the Reeds-Shepp families (CSC, C|C|C, C|CC, CC|C, CCu|CuC, C|CuCu|C, C|C(pi/2)SC, CSC(pi/2)|C, C|C(pi/2)SC(pi/2)|C, outer turns at most half a turn, and one outer turn of the three-arc families of any length) that leads from state1 to state2 is shorter than get_distance; nor is any candidate accepted by a word formula under any symmetry.", "quantifier": "every pair of states and every formula/symmetry", "why_tests_cant": "Minimality over all candidates for all inputs; the search keeps a running minimum with offsets (pi/2, pi).", "anchors": ["src/reeds_shepp_state_space/reeds_shepp_state_space.cpp:CSC", "src/reeds_shepp_state_space/reeds_shepp_state_space.cpp:CCC", "src/reeds_shepp_state_space/reeds_shepp_state_space.cpp:CCCC", "src/reeds_shepp_state_space/reeds_shepp_state_space.cpp:CCSC", "src/reeds_shepp_state_space/reeds_shepp_state_space.cpp:CCSCC"]}
{"id": "C26", "title": "Reeds-Shepp distance dominates the Euclidean distance", "statement": "get_distance is never below the straight-line distance between the two positions.", "quantifier": "every pair of states, kappa > 0", "why_tests_cant": "Universal lower bound.", "anchors": ["src/reeds_shepp_state_space/reeds_shepp_state_space.cpp:get_distance"]}
{"id": "C27", "title": "Paths of small curvature reach the goal", "statement": "get_path reaches the goal for every kappa > 0 accepted by the constructor.", "quantifier": "every kappa > 0 and every pair of states", "why_tests_cant": "Fails only for kappa <= 1e-4 where arcs are silently integrated as straight lines; tests use kappa = 1.", "anchors": ["src/dubins_state_space/dubins_state_space.cpp:integrate_ODE", "src/reeds_shepp_state_space/reeds_shepp_state_space.cpp:integrate_ODE", "src/utilities/utilities.cpp:get_epsilon"]}
{"id": "C28", "title": "EKF keeps covariances symmetric positive semidefinite", "statement": "If Sigma and Lambda are symmetric PSD at the start, they and the reported covariance are symmetric PSD after every predict and update of every path, for every history of steps.", "quantifier": "every initial covariance, noise parameters, gains and every sequence of prediction/update steps", "why_tests_cant": "Invariant over unbounded histories.", "anchors": ["src/filter/ekf.cpp:predict", "src/filter/ekf.cpp:update", "src/dubins_state_space/dubins_state_space.cpp:integrate_with_covariance", "src/reeds_shepp_state_space/reeds_shepp_state_space.cpp:integrate_with_covariance", "src/hc_cc_state_space/hc_cc_state_space.cpp:integrate_with_covariance"]}
{"id": "C29", "title": "EKF update conserves total covariance and never increases Sigma", "statement": "update leaves Sigma + Lambda unchanged while Sigma does not increase (Loewner order) and Lambda does not decrease; the reported covariance is always Sigma + Lambda.", "quantifier": "every predicted covariance and positive measurement noise", "why_tests_cant": "Matrix identity for all covariances.", "anchors": ["src/filter/ekf.cpp:update", "src/filter/ekf.cpp:predict"]}
{"id": "C30", "title": "EKF Jacobians are the derivatives of the motion model", "statement": "The entries of F_x and F_u are the partial derivatives of the exact motion model (position and heading with respect to the previous pose and to signed arc length and curvature).", "quantifier": "every state, control and step", "why_tests_cant": "jacobian_test compares finite differences at samples; derivatives are needed everywhere, and the straight-line branch is a limit case.", "anchors": ["src/filter/ekf.cpp:get_motion_jacobi"]}
{"id": "C31", "title": "Covariance arrays round-trip through the filter's matrices", "statement": "Writing a 3x3 covariance to the 16-entry array and reading it back returns the same matrix; entries for curvature are left untouched.", "quantifier": "every matrix / array", "why_tests_cant": "All matrices.", "anchors": ["src/filter/ekf.cpp:covariance_to_eigen", "src/filter/ekf.cpp:eigen_to_covariance"]}
{"id": "C32", "title": "reverse_control retraces the segment", "statement": "Driving a control and then its reverse_control returns to the start pose and curvature, and reversing twice gives the control back.", "quantifier": "every start pose and control", "why_tests_cant": "Continuum of controls.", "anchors": ["src/hc_cc_state_space/paths.cpp:reverse_control"]}
{"id": "C33", "title": "Turn primitives end at their target", "statement": "For every HC/CC circle and every target configuration on it, the controls of rs_turn_controls, hc_turn_controls and cc_turn_controls lead from the circle's start to the target (order = true) and from the target to the circle's start (order = false), under the library's own integration, for regular and irregular turns, left/right, forward/backward.", "quantifier": "every kappa, sigma, start configuration, deflection and flag combination", "why_tests_cant": "Continuum of deflections and parameters, with wrap-around of deflection angles.", "anchors": ["src/hc_cc_state_space/paths.cpp:rs_turn_controls", "src/hc_cc_state_space/paths.cpp:hc_turn_controls", "src/hc_cc_state_space/paths.cpp:cc_turn_controls", "src/hc_cc_state_space/hc_cc_circle.cpp:deflection", "src/hc_cc_state_space/hc_cc_circle.cpp:hc_circular_deflection", "src/hc_cc_state_space/hc_cc_circle.cpp:cc_circular_deflection", "src/hc_cc_state_space/hc_cc_state_space.cpp:HC_CC_State_Space"]}
{"id": "C34", "title": "Turn lengths equal the length of the turn controls", "statement": "rs_turn_length, hc_turn_length and cc_turn_length equal the sum of |delta_s| over the corresponding controls.", "quantifier": "every circle and every target configuration", "why_tests_cant": "All circles/targets, including the short-deflection branches.", "anchors": ["src/hc_cc_state_space/hc_cc_circle.cpp:rs_turn_length", "src/hc_cc_state_space/hc_cc_circle.cpp:hc_turn_length", "src/hc_cc_state_space/hc_cc_circle.cpp:cc_turn_length", "src/hc_cc_state_space/paths.cpp:cc_turn_controls"]}
{"id": "C35", "title": "Turn controls respect curvature and sharpness limits and are curvature continuous", "statement": "Along the controls of any turn primitive |curvature| <= kappa; default turns use sharpness exactly sigma; each segment starts with the curvature at which the previous one ended; a CC turn starts and ends with zero curvature.", "quantifier": "every circle and target", "why_tests_cant": "All circles/targets.", "anchors": ["src/hc_cc_state_space/paths.cpp:hc_turn_controls", "src/hc_cc_state_space/paths.cpp:cc_turn_controls", "src/hc_cc_state_space/hc_cc_circle.cpp:cc_elementary_sharpness"]}
{"id": "C36", "title": "CC00-Dubins controls reach the goal", "statement": "get_controls of CC00_Dubins leads from state1 to state2 (zero curvature at both ends) under exact motion: position error at most 1e-4*(2 + 6 R + 4 L) for radius R and path length L (the library's resolution), heading error at most 3e-4, and exactly (up to the Fresnel error) for TST and TTT paths whose turns are not below 1e-4. The last state of get_path has the same accuracy unless a control's sharpness is below 1e-4.", "quantifier": "every pair of states (up to 1e100 apart), both driving directions, kappa > 1e-4, sigma > 0, kappa/sigma above the library's resolution 1e-4 (and below 1e100)", "why_tests_cant": "Continuum of states with several path families.", "anchors": ["src/hc_cc_state_space/cc00_dubins_state_space.cpp:cc00_circles_dubins_path", "src/hc_cc_state_space/cc00_dubins_state_space.cpp:get_controls"]}
{"id": "C37", "title": "CC00-Dubins distance is the length of its controls", "statement": "get_distance equals the sum of |delta_s| of get_controls, exactly if every turn deflects by at least 1e-4, and otherwise up to 1e-4*(1 + 3 R).", "quantifier": "every pair of states (up to 1e100 apart), both driving directions, kappa > 1e-4, sigma > 0, kappa/sigma above the library's resolution 1e-4 (and below 1e100)", "why_tests_cant": "All pairs of states.", "anchors": ["src/hc_cc_state_space/cc00_dubins_state_space.cpp:get_distance", "src/hc_cc_state_space/cc00_dubins_state_space.cpp:get_controls"]}
{"id": "C38", "title": "CC00-Dubins always finds a path", "statement": "For every pair of states at least one path family applies: get_distance is at most Euclid + 30 kappa/sigma + 40/kappa, never the 'no path' value, and get_controls returns a non-empty list.", "quantifier": "every pair of states (up to 1e100 apart), both driving directions, kappa > 1e-4, sigma > 0, kappa/sigma above the library's resolution 1e-4 (and below 1e100)", "why_tests_cant": "Completeness over a continuum.", "anchors": ["src/hc_cc_state_space/cc00_dubins_state_space.cpp:cc00_dubins"]}
{"id": "C39", "title": "Planner queries are independent of call history and of concurrent queries", "statement": "get_distance/get_controls of one CC/HC state space object give the same answer whatever queries were made before, and also when several threads query the same const object.", "quantifier": "every history of queries and every interleaving of concurrent queries", "why_tests_cant": "Interleavings and histories cannot be enumerated by tests.", "anchors": ["src/hc_cc_state_space/cc00_dubins_state_space.cpp:CC00_Dubins::distance", "src/hc_cc_state_space/cc00_dubins_state_space.cpp:CC00_Dubins::angle"]}
{"id": "C40", "title": "CC0pm-Dubins controls reach the goal", "statement": "get_controls of CC0pm_Dubins leads from state1 (zero curvature) to state2 (curvature +-kappa).", "quantifier": "every pair of states, kappa, sigma > 0", "why_tests_cant": "The failure needs a start and goal circle with the same centre and opposite sense, a measure-zero set.", "anchors": ["src/hc_cc_state_space/cc0pm_dubins_state_space.cpp:cc0pm_circles_dubins_path"]}
{"id": "C41", "title": "CC-Dubins between states on one clothoid is correct", "statement": "When the predicted start and end states coincide, the controls returned by CC_Dubins get_controls lead from state1 to state2 and no assertion fails.", "quantifier": "every pair of states with curvature strictly between 0 and kappa", "why_tests_cant": "Requires two states joined by a single clothoid, a measure-zero set of random tests.", "anchors": ["src/hc_cc_state_space/cc_dubins_state_space.cpp:get_controls", "src/hc_cc_state_space/paths.cpp:subtract_control"]}
{"id": "C42", "title": "Both covariance and plain integration visit the same states", "statement": "The states of integrate_with_covariance equal those of integrate for the same start and controls.", "quantifier": "every start, control list, discretization and filter parameters", "why_tests_cant": "All control lists.", "anchors": ["src/dubins_state_space/dubins_state_space.cpp:integrate_with_covariance", "src/reeds_shepp_state_space/reeds_shepp_state_space.cpp:integrate_with_covariance", "src/hc_cc_state_space/hc_cc_state_space.cpp:integrate_with_covariance"]}
{"id": "C43", "title": "Reeds-Shepp controls respect curvature", "statement": "get_controls returns three to five segments with curvature 0 or +-kappa and sharpness 0, and no arc longer than half a turn.", "quantifier": "all kappa > 0, all pairs of states at most 1e200 turning radii apart", "why_tests_cant": "Holds for 44 candidate formulas over a three-dimensional continuum of goals.", "anchors": ["src/reeds_shepp_state_space/reeds_shepp_state_space.cpp:85-479", "src/reeds_shepp_state_space/reeds_shepp_state_space.cpp:547-578"]}
{"id": "C44", "title": "Reeds-Shepp planning never trips its own assertions or a domain error", "statement": "No assertion in the eight word functions fails and the arguments of asin, acos and sqrt are in their domains whenever they are evaluated, in exact arithmetic.", "quantifier": "all x, y, phi", "why_tests_cant": "Asserts are compiled out in release builds and boundary cases have measure zero.", "anchors": ["src/reeds_shepp_state_space/reeds_shepp_state_space.cpp:76-120", "src/reeds_shepp_state_space/reeds_shepp_state_space.cpp:163-178", "src/reeds_shepp_state_space/reeds_shepp_state_space.cpp:224-255", "src/reeds_shepp_state_space/reeds_shepp_state_space.cpp:299-332", "src/reeds_shepp_state_space/reeds_shepp_state_space.cpp:436-454"]}
{"id": "C45", "title": "Reeds-Shepp planning is invariant under rigid motions", "statement": "Moving both states by the same rotation and translation changes neither get_controls nor get_distance.", "quantifier": "all states, all rotations and translations", "why_tests_cant": "Infinitely many motions; float tests only see approximate equality.", "anchors": ["src/reeds_shepp_state_space/reeds_shepp_state_space.cpp:526-545"]}
{"id": "C46", "title": "Reeds-Shepp distance separates poses", "statement": "get_distance is zero exactly if the two states have the same position and the same heading modulo full turns.", "quantifier": "all kappa > 0, all pairs of states at most 1e200 turning radii apart", "why_tests_cant": "The zero set is a measure-zero subset of the state pairs.", "anchors": ["src/reeds_shepp_state_space/reeds_shepp_state_space.cpp:542-545"]}
{"id": "C47", "title": "Localisation uncertainty never exceeds the measurement noise", "statement": "After every filter update Sigma is below the covariance of one localisation measurement in the Loewner order; along a path that starts that well localised, every state is.", "quantifier": "every start covariance, noise parameters, gains, control list and discretization", "why_tests_cant": "Matrix inequality over unbounded histories of prediction and update.", "anchors": ["src/filter/ekf.cpp:update", "src/dubins_state_space/dubins_state_space.cpp:integrate_with_covariance"]}
{"id": "C48", "title": "The filter never inverts a singular matrix", "statement": "The innovation covariance inverted in update is invertible in every step of every path.", "quantifier": "every start covariance, noise parameters, gains, control list and discretization", "why_tests_cant": "Needs a determinant that is never zero for all inputs; tests use one set of noise parameters.", "anchors": ["src/filter/ekf.cpp:update"]}
{"id": "C49", "title": "The curvature covariance given by the caller is kept along the path", "statement": "The curvature row and column of the 4x4 covariances of the start state are carried along by integrate_with_covariance.", "quantifier": "every start covariance and control list", "why_tests_cant": "The tests only look at the 3x3 part.", "anchors": ["src/dubins_state_space/dubins_state_space.cpp:integrate_with_covariance", "src/filter/ekf.cpp:eigen_to_covariance"]}
{"id": "C50", "title": "CC00-Dubins distance is at least the Euclidean distance", "statement": "get_distance of CC00_Dubins is not below the straight-line distance of the two states, up to the resolution of C36/C37; exactly (up to the Fresnel error) for regular TST and TTT paths.", "quantifier": "every pair of states (up to 1e100 apart), both driving directions, kappa > 1e-4, sigma > 0, kappa/sigma above the library's resolution 1e-4 (and below 1e100)", "why_tests_cant": "A lower bound over a continuum of state pairs; planners use the Euclidean distance as an admissible heuristic.", "anchors": ["src/hc_cc_state_space/cc00_dubins_state_space.cpp:cc00_circles_dubins_path", "src/hc_cc_state_space/cc00_dubins_state_space.cpp:get_controls"]}
{"id": "C51", "title": "CC00-Dubins paths have continuous curvature within the limits", "statement": "Along get_controls the curvature is continuous and starts and ends with zero; |curvature| <= kappa (1+1e-8) and |sharpness| <= sigma (1+2e-8).", "quantifier": "every pair of states (up to 1e100 apart), both driving directions, kappa > 1e-4, sigma > 0, kappa/sigma above the library's resolution 1e-4 (and below 1e100)", "why_tests_cant": "All states and all points of the path; elementary turns use a sharpness computed from approximate Fresnel integrals.", "anchors": ["src/hc_cc_state_space/cc00_dubins_state_space.cpp:cc00_circles_dubins_path", "src/hc_cc_state_space/cc00_dubins_state_space.cpp:get_controls"]}
{"id": "C52", "title": "CC00-Dubins never drives against its direction", "statement": "All controls of a CC00_Dubins planner constructed with forwards = true have delta_s >= 0, with forwards = false delta_s <= 0.", "quantifier": "every pair of states (up to 1e100 apart), both driving directions, kappa > 1e-4, sigma > 0, kappa/sigma above the library's resolution 1e-4 (and below 1e100), with clothoids longer than the tolerance for one- and two-turn paths", "why_tests_cant": "The sign of straight segments is recomputed from positions and could flip for short segments only.", "anchors": ["src/hc_cc_state_space/cc00_dubins_state_space.cpp:cc00_circles_dubins_path", "src/hc_cc_state_space/cc00_dubins_state_space.cpp:get_controls"]}
{"id": "C53", "title": "CCpm0-Dubins controls reach the goal", "statement": "get_controls of CCpm0_Dubins leads from state1 (curvature +-kappa) to state2 (zero curvature).", "quantifier": "every pair of states, kappa, sigma > 0", "why_tests_cant": "The failure needs a start and goal circle with the same centre and opposite sense, a measure-zero set.", "anchors": ["src/hc_cc_state_space/ccpm0_dubins_state_space.cpp:ccpm0_circles_dubins_path"]}
{"id": "C54", "title": "CCpmpm-Dubins controls reach the goal", "statement": "The controls of CCpmpm_Dubins, integrated exactly from state1, end at the position and heading of state2 up to the resolution of the library (1e-4 times radii and length); exactly for three- and four-turn and turn-line-turn paths without tiny turns. The same holds for the last state of get_path.", "quantifier": "every pair of states, kappa, sigma > 0", "why_tests_cant": "Seven tangent constructions (TST, TTT, TTTT, ...) times four circle senses times two directions; random tests rarely reach the rare families and only compare with a sampled integration.", "anchors": ["src/hc_cc_state_space/ccpmpm_dubins_state_space.cpp:ccpmpm_circles_dubins_path", "src/hc_cc_state_space/ccpmpm_dubins_state_space.cpp:get_controls"]}
{"id": "C55", "title": "Distance equals control length (CC-Dubins with curvature at the ends)", "statement": "get_distance of CC0pm_, CCpm0_ and CCpmpm_Dubins equals the summed length of get_controls; exactly if no CC turn is below 1e-4 rad, otherwise within 1e-4 (1 + 4 R).", "quantifier": "every pair of states, kappa, sigma > 0", "why_tests_cant": "Path length is computed by other formulas than the controls; agreement for all path families is not visible from samples.", "anchors": ["src/hc_cc_state_space/cc0pm_dubins_state_space.cpp:get_distance", "src/hc_cc_state_space/ccpm0_dubins_state_space.cpp:get_distance", "src/hc_cc_state_space/ccpmpm_dubins_state_space.cpp:get_distance", "src/hc_cc_state_space/hc_cc_circle.cpp:hc_turn_length"]}
{"id": "C56", "title": "CC-Dubins with curvature at the ends always finds a path", "statement": "For every pair of states CC0pm_, CCpm0_ and CCpmpm_Dubins find a path: no null pointer is dereferenced, the distance is at most Euclid + 40 kappa/sigma + 60/kappa, and there is at least one control. (Combinations whose sense contradicts the requested curvature are skipped and leave null pointers behind.)", "quantifier": "every pair of states at most 1e100 apart, kappa, sigma in a wide range", "why_tests_cant": "Needs an argument that some family exists for every relative position of four circles; a crash would need one unlucky pair.", "anchors": ["src/hc_cc_state_space/cc0pm_dubins_state_space.cpp:cc0pm_dubins", "src/hc_cc_state_space/ccpm0_dubins_state_space.cpp:ccpm0_dubins", "src/hc_cc_state_space/ccpmpm_dubins_state_space.cpp:ccpmpm_dubins"]}
{"id": "C57", "title": "Curvature profile matches the requested end curvatures", "statement": "The controls have continuous curvature, start with the curvature of state1 (0 or +-kappa) and end with that of state2, and never exceed the curvature and sharpness limits.", "quantifier": "every pair of states, kappa, sigma > 0", "why_tests_cant": "Violated on measure-zero sets (coinciding poses, one shared circle) that random tests do not hit.", "anchors": ["src/hc_cc_state_space/cc0pm_dubins_state_space.cpp:get_controls", "src/hc_cc_state_space/ccpm0_dubins_state_space.cpp:get_controls", "src/hc_cc_state_space/ccpmpm_dubins_state_space.cpp:get_controls"]}
{"id": "C58", "title": "CC-Dubins with curvature at the ends never changes direction", "statement": "All controls of the forward planner have delta_s >= 0 and all of the backward planner delta_s <= 0.", "quantifier": "every pair of states; clothoids long compared with the 1e-4 tolerance", "why_tests_cant": "A wrong sign appears only for arcs of deflection near the clothoid's own deflection.", "anchors": ["src/hc_cc_state_space/cc0pm_dubins_state_space.cpp:get_controls", "src/hc_cc_state_space/ccpm0_dubins_state_space.cpp:get_controls", "src/hc_cc_state_space/ccpmpm_dubins_state_space.cpp:get_controls", "src/hc_cc_state_space/paths.cpp:hc_turn_controls"]}
{"id": "C59", "title": "Distance is not below Euclid (CC-Dubins with curvature at the ends)", "statement": "get_distance is at least the Euclidean distance of the states, up to the tolerance of the library; sampling planners rely on it as admissible.", "quantifier": "every pair of states, kappa, sigma > 0", "why_tests_cant": "Fails on a measure-zero set of state pairs.", "anchors": ["src/hc_cc_state_space/cc0pm_dubins_state_space.cpp:get_distance", "src/hc_cc_state_space/ccpm0_dubins_state_space.cpp:get_distance", "src/hc_cc_state_space/ccpmpm_dubins_state_space.cpp:get_distance"]}
{"id": "C60", "title": "CC-Dubins with arbitrary curvatures reaches the goal", "statement": "The controls returned by CC_Dubins get_controls drive the vehicle from state1 to state2, whatever the curvatures of the two states, up to the resolution 1e-4 of the library.", "quantifier": "every pair of states, kappa, sigma > 0", "why_tests_cant": "Fails only where two circles share a centre or two predicted states coincide, measure-zero sets for random tests.", "anchors": ["src/hc_cc_state_space/cc_dubins_state_space.cpp:get_controls", "src/hc_cc_state_space/cc_dubins_state_space.cpp:predict_state"]}
{"id": "C61", "title": "Distance equals control length (CC-Dubins)", "statement": "get_distance of CC_Dubins equals the summed length of get_controls, up to the tolerance of the library, although both minimise separately over up to four candidate paths and std::sort may return any of several shortest candidates.", "quantifier": "every pair of states, kappa, sigma > 0, every possible result of the sort", "why_tests_cant": "The two functions minimise over different quantities; agreement in near-ties cannot be sampled.", "anchors": ["src/hc_cc_state_space/cc_dubins_state_space.cpp:get_distance", "src/hc_cc_state_space/cc_dubins_state_space.cpp:get_controls"]}
{"id": "C62", "title": "CC-Dubins always finds a path", "statement": "For every pair of states CC_Dubins returns at least one control, dereferences no null pointer, and the distance is at most Euclid + 50 kappa/sigma + 60/kappa.", "quantifier": "every pair of states at most 1e99 apart, kappa, sigma in a wide range", "why_tests_cant": "A crash would need one unlucky pair of states.", "anchors": ["src/hc_cc_state_space/cc_dubins_state_space.cpp:get_distance", "src/hc_cc_state_space/cc_dubins_state_space.cpp:get_controls"]}
{"id": "C63", "title": "CC-Dubins curvature profile", "statement": "The curvature along the controls is continuous, starts with the curvature of state1 and ends with that of state2 (up to 1e-4 (1 + sigma)).", "quantifier": "every pair of states with |curvature| <= kappa", "why_tests_cant": "Violated on measure-zero sets (coinciding poses) that random tests do not hit; the tolerance comes from dropped short clothoids.", "anchors": ["src/hc_cc_state_space/cc_dubins_state_space.cpp:get_controls", "src/hc_cc_state_space/cc_dubins_state_space.cpp:predict_state"]}
{"id": "C64", "title": "CC-Dubins never changes direction", "statement": "All controls of the forward planner have delta_s >= 0 and all of the backward planner delta_s <= 0, including the clothoids added for prediction.", "quantifier": "every pair of states; clothoids long compared with the 1e-4 tolerance", "why_tests_cant": "Sign errors appear only in rare configurations.", "anchors": ["src/hc_cc_state_space/cc_dubins_state_space.cpp:get_controls", "src/hc_cc_state_space/cc_dubins_state_space.cpp:predict_state", "src/hc_cc_state_space/paths.cpp:reverse_control", "src/hc_cc_state_space/paths.cpp:subtract_control"]}
{"id": "C65", "title": "Distance is not below Euclid (CC-Dubins)", "statement": "get_distance of CC_Dubins is at least the Euclidean distance of the states, up to the tolerance of the library.", "quantifier": "every pair of states, kappa, sigma > 0", "why_tests_cant": "Fails on a measure-zero set of state pairs.", "anchors": ["src/hc_cc_state_space/cc_dubins_state_space.cpp:get_distance"]}
{"id": "C66", "title": "Closed-loop covariance uses the documented feedback", "statement": "predict propagates Lambda through the linearised motion under the feedback of Controller: k1 on the longitudinal error (distance), k2 on the lateral and k3 on the heading error (curvature) in the vehicle frame, with the sign of the heading term following the driving direction; on straight lines the closed loop is the same forwards and backwards.", "quantifier": "every state, covariance, control, step and controller", "why_tests_cant": "The covariance is a product of five matrices; a wrong sign or transposed rotation leaves it symmetric and positive semi-definite, so plausibility checks pass.", "anchors": ["src/filter/ekf.cpp:predict", "src/filter/ekf.cpp:get_controller_gain", "src/filter/ekf.cpp:get_rotation_matrix", "include/steering_functions/steering_functions.hpp:Controller"]}
{"id": "C67", "title": "EKF does not depend on the world frame", "statement": "Turning the world frame by any angle turns the predicted covariances in the same way; with equal position noise in x and y also the corrected ones.", "quantifier": "every state, covariance, control, step, frame angle", "why_tests_cant": "Equivariance under a continuous group of rotations for all three motion models.", "anchors": ["src/filter/ekf.cpp:predict", "src/filter/ekf.cpp:update", "src/filter/ekf.cpp:get_motion_jacobi"]}
{"id": "C68", "title": "CC00-Dubins returns a shortest path of its families", "statement": "Any path from start to goal that is driven in the direction of the space and consists of a CC-turn, a straight line and a CC-turn, of two CC-turns to opposite sides, of three CC-turns to alternating sides, of one CC-turn or of a straight line is at least as long as get_distance of CC00_Dubins. A CC-turn is a full one (two clothoids and an arc of any length) or an elementary one (two symmetric clothoids). For paths with more than one turn the goal must not lie on a circle of the start within the tolerance 1e-4, where the planner takes the single turn at once; if the goal is straight ahead the bound holds up to the error of the Fresnel integrals.", "quantifier": "every pair of states, every kappa and sigma in range, both driving directions, every competing path of these shapes (arcs longer than a full circle included)", "why_tests_cant": "Quantifies over all competing paths; a family that is missed on one pair of circles, a wrong tangent or the longer of two middle circles still gives a valid path, only a longer one.", "anchors": ["src/hc_cc_state_space/cc00_dubins_state_space.cpp:get_distance", "src/hc_cc_state_space/cc00_dubins_state_space.cpp:TTT_path", "src/hc_cc_state_space/cc00_dubins_state_space.cpp:TST_exists", "src/hc_cc_state_space/hc_cc_circle.cpp:cc_turn_length"]}
{"id": "C69", "title": "HC00- and HCpmpm-Reeds-Shepp paths reach the goal", "statement": "The controls returned by get_controls of HC00_Reeds_Shepp (curvature zero at both ends) and HCpmpm_Reeds_Shepp (curvature +-kappa at both ends), integrated from state1, lead to state2 up to the resolution of the library; without the 1e-4 shortcuts only the error of the Fresnel integrals remains. get_path ends there as well.", "quantifier": "every pair of states up to 1e100 m apart, every kappa and sigma in the supported range", "why_tests_cant": "Eighteen path families, each with left/right and forward/backward variants and tangent constructions; rare families and near-degenerate configurations are practically never sampled.", "anchors": ["src/hc_cc_state_space/hc00_reeds_shepp_state_space.cpp:get_controls", "src/hc_cc_state_space/hcpmpm_reeds_shepp_state_space.cpp:get_controls"]}
{"id": "C70", "title": "HC0pm- and HCpm0-Reeds-Shepp paths reach the goal", "statement": "The same for HC0pm_Reeds_Shepp and HCpm0_Reeds_Shepp (curvature +-kappa at one end only).", "quantifier": "every pair of states up to 1e100 m apart, every kappa and sigma in the supported range", "why_tests_cant": "Fails only on a thin set of goals (a start circle and a goal circle of opposite sense with the same centre).", "anchors": ["src/hc_cc_state_space/hc0pm_reeds_shepp_state_space.cpp:get_controls", "src/hc_cc_state_space/hcpm0_reeds_shepp_state_space.cpp:get_controls"]}
{"id": "C71", "title": "HC-Reeds-Shepp distance is the length of the path", "statement": "get_distance of the four planners equals the sum of |delta_s| of get_controls, exactly unless a CC turn deflects by less than 1e-4, and up to 1e-4 (1 + 4 R) in general.", "quantifier": "every pair of states", "why_tests_cant": "Length and controls are computed by different code for each of the 18 families.", "anchors": ["src/hc_cc_state_space/hc00_reeds_shepp_state_space.cpp:get_distance", "src/hc_cc_state_space/hc0pm_reeds_shepp_state_space.cpp:get_distance", "src/hc_cc_state_space/hcpm0_reeds_shepp_state_space.cpp:get_distance", "src/hc_cc_state_space/hcpmpm_reeds_shepp_state_space.cpp:get_distance"]}
{"id": "C72", "title": "HC-Reeds-Shepp always finds a path", "statement": "get_distance and get_controls always succeed: some family exists for every pair of states, skipped combinations (null pointers) are never dereferenced, and the distance is at most |p2 - p1| + 40 kappa/sigma + 60/kappa.", "quantifier": "every pair of states up to 1e100 m apart", "why_tests_cant": "Absence of a gap between the existence conditions of 18 families for all positions and headings.", "anchors": ["src/hc_cc_state_space/hc00_reeds_shepp_state_space.cpp:get_distance", "src/hc_cc_state_space/hc00_reeds_shepp_state_space.cpp:get_controls", "src/hc_cc_state_space/hc0pm_reeds_shepp_state_space.cpp:get_distance", "src/hc_cc_state_space/hc0pm_reeds_shepp_state_space.cpp:get_controls", "src/hc_cc_state_space/hcpm0_reeds_shepp_state_space.cpp:get_distance", "src/hc_cc_state_space/hcpm0_reeds_shepp_state_space.cpp:get_controls", "src/hc_cc_state_space/hcpmpm_reeds_shepp_state_space.cpp:get_distance", "src/hc_cc_state_space/hcpmpm_reeds_shepp_state_space.cpp:get_controls"]}
{"id": "C73", "title": "HC-Reeds-Shepp curvature profile", "statement": "The curvature starts and ends with the value requested (zero or +-kappa with the sign of the state), and jumps in between only at cusps, where the driving direction changes.", "quantifier": "every pair of states", "why_tests_cant": "Violated on thin sets (coinciding poses; one turn suffices), and otherwise needs every family checked.", "anchors": ["src/hc_cc_state_space/hc00_reeds_shepp_state_space.cpp:get_controls", "src/hc_cc_state_space/hc0pm_reeds_shepp_state_space.cpp:get_controls", "src/hc_cc_state_space/hcpm0_reeds_shepp_state_space.cpp:get_controls", "src/hc_cc_state_space/hcpmpm_reeds_shepp_state_space.cpp:get_controls"]}
{"id": "C74", "title": "HC-Reeds-Shepp respects the limits", "statement": "The curvature never exceeds kappa and the sharpness never exceeds sigma, up to the relative error of the Fresnel integrals.", "quantifier": "every pair of states", "why_tests_cant": "Elementary paths use a sharpness computed from positions; the limits hold by an inequality on all deflections.", "anchors": ["src/hc_cc_state_space/hc00_reeds_shepp_state_space.cpp:get_controls", "src/hc_cc_state_space/hc0pm_reeds_shepp_state_space.cpp:get_controls", "src/hc_cc_state_space/hcpm0_reeds_shepp_state_space.cpp:get_controls", "src/hc_cc_state_space/hcpmpm_reeds_shepp_state_space.cpp:get_controls"]}
{"id": "C75", "title": "HC-Reeds-Shepp distance is not below Euclid", "statement": "get_distance is at least the Euclidean distance of the states, up to the tolerance of the library.", "quantifier": "every pair of states", "why_tests_cant": "Fails on a thin set of state pairs.", "anchors": ["src/hc_cc_state_space/hc00_reeds_shepp_state_space.cpp:get_distance", "src/hc_cc_state_space/hc0pm_reeds_shepp_state_space.cpp:get_distance", "src/hc_cc_state_space/hcpm0_reeds_shepp_state_space.cpp:get_distance", "src/hc_cc_state_space/hcpmpm_reeds_shepp_state_space.cpp:get_distance"]}
{"id": "C76", "title": "HC-Reeds-Shepp reaches the goal from any curvature", "statement": "Driving the controls of HC-Reeds-Shepp from state1 ends at the pose of state2 up to the resolution of the library, whatever the curvatures of the states; so does the last state of the path integrated from them.", "quantifier": "every pair of states with arbitrary curvatures within the limit, every result the unspecified order of the sort allows", "why_tests_cant": "Up to sixteen pairs of predicted states with four planners each; the failing set is thin.", "anchors": ["src/hc_cc_state_space/hc_reeds_shepp_state_space.cpp:get_controls", "src/hc_cc_state_space/hc_reeds_shepp_state_space.cpp:predict_state"]}
{"id": "C77", "title": "HC-Reeds-Shepp distance is the length of the controls", "statement": "get_distance and the summed length of the controls agree up to the tolerance of the library, although the two functions compute the minimum independently.", "quantifier": "every pair of states, every result the sort allows", "why_tests_cant": "Two independent implementations; equal lengths are sorted in unspecified order.", "anchors": ["src/hc_cc_state_space/hc_reeds_shepp_state_space.cpp:get_distance", "src/hc_cc_state_space/hc_reeds_shepp_state_space.cpp:get_controls"]}
{"id": "C78", "title": "HC-Reeds-Shepp always finds a path", "statement": "get_distance and get_controls dereference no null pointer, return at least one control, and the distance is at most the Euclidean distance plus a constant of the space.", "quantifier": "every pair of states", "why_tests_cant": "A gap in one of the planners would show only for special circles.", "anchors": ["src/hc_cc_state_space/hc_reeds_shepp_state_space.cpp:get_distance", "src/hc_cc_state_space/hc_reeds_shepp_state_space.cpp:get_controls"]}
{"id": "C79", "title": "Curvature along HC-Reeds-Shepp paths", "statement": "The curvature agrees with those of state1 and state2 at the ends and jumps only where the driving direction changes.", "quantifier": "every pair of states with curvature within the limit", "why_tests_cant": "Depends on the agreement of predictions, planners and turns for all circle combinations.", "anchors": ["src/hc_cc_state_space/hc_reeds_shepp_state_space.cpp:get_controls", "src/hc_cc_state_space/hc_reeds_shepp_state_space.cpp:predict_state"]}
{"id": "C80", "title": "HC-Reeds-Shepp from any curvature respects the limits", "statement": "Neither the predicted clothoids nor the paths between them exceed the curvature kappa or the sharpness sigma, up to the relative error of the Fresnel integrals.", "quantifier": "every pair of states with curvature within the limit", "why_tests_cant": "An inequality over all deflections and curvatures.", "anchors": ["src/hc_cc_state_space/hc_reeds_shepp_state_space.cpp:get_controls", "src/hc_cc_state_space/hc_reeds_shepp_state_space.cpp:predict_state"]}
{"id": "C81", "title": "HC-Reeds-Shepp distance from any curvature is not below Euclid", "statement": "get_distance is at least the Euclidean distance of the states, up to the tolerance of the library.", "quantifier": "every pair of states", "why_tests_cant": "Fails on a thin set of state pairs.", "anchors": ["src/hc_cc_state_space/hc_reeds_shepp_state_space.cpp:get_distance"]}
{"id": "C82", "title": "States on one clothoid", "statement": "If a predicted start and a predicted end state coincide, the single control that replaces both predictions leads from state1 to state2.", "quantifier": "every pair of states whose predictions coincide", "why_tests_cant": "Needs both states on one clothoid of maximal sharpness; random states never are.", "anchors": ["src/hc_cc_state_space/hc_reeds_shepp_state_space.cpp:get_controls", "src/steering_functions/paths.cpp:subtract_control"]}
{"id": "C83", "title": "CC00-Reeds-Shepp paths reach the goal", "statement": "The controls returned by get_controls of CC00_Reeds_Shepp, integrated from state1, lead to state2 up to the resolution of the library; without the 1e-4 shortcuts only the error of the Fresnel integrals remains. get_path ends there as well.", "quantifier": "every pair of states up to 1e100 m apart, every kappa and sigma in the supported range", "why_tests_cant": "Sixteen pairs of circles times eighteen families, each with its own tangent construction; rare families and near-degenerate configurations are practically never sampled.", "anchors": ["src/hc_cc_state_space/cc00_reeds_shepp_state_space.cpp:get_controls"]}
{"id": "C84", "title": "CC00-Reeds-Shepp distance is the length of the path", "statement": "get_distance equals the sum of |delta_s| of get_controls, exactly unless a turn deflects by less than 1e-4, and up to a multiple of 1e-4 in general.", "quantifier": "every pair of states", "why_tests_cant": "Length and controls are computed by different code for each of the 18 families.", "anchors": ["src/hc_cc_state_space/cc00_reeds_shepp_state_space.cpp:get_distance", "src/hc_cc_state_space/cc00_reeds_shepp_state_space.cpp:get_controls"]}
{"id": "C85", "title": "CC00-Reeds-Shepp always finds a path", "statement": "get_distance is at most |p2 - p1| + 40 kappa/sigma + 60/kappa, hence never the initial value DBL_MAX, and get_controls returns at least one control.", "quantifier": "every pair of states up to 1e100 m apart", "why_tests_cant": "Absence of a gap between the existence conditions of 18 families for all positions and headings.", "anchors": ["src/hc_cc_state_space/cc00_reeds_shepp_state_space.cpp:get_distance", "src/hc_cc_state_space/cc00_reeds_shepp_state_space.cpp:get_controls"]}
{"id": "C86", "title": "CC00-Reeds-Shepp distance is not below Euclid", "statement": "get_distance is at least the Euclidean distance of the states, up to the tolerance of the library.", "quantifier": "every pair of states", "why_tests_cant": "Would fail only on a thin set of state pairs.", "anchors": ["src/hc_cc_state_space/cc00_reeds_shepp_state_space.cpp:get_distance"]}
{"id": "C87", "title": "CC00-Reeds-Shepp curvature is continuous and bounded", "statement": "Along the controls the curvature is continuous, also through the cusps, zero at both ends, never exceeds kappa, and the sharpness never exceeds sigma, up to the relative error of the Fresnel integrals.", "quantifier": "every pair of states", "why_tests_cant": "A jump appears only if a particular family combines turns with mismatched ends; limits of elementary turns hold by an inequality on all deflections.", "anchors": ["src/hc_cc_state_space/cc00_reeds_shepp_state_space.cpp:get_controls"]}
{"id": "C88", "title": "Reversing never makes the path longer", "statement": "The distance of CC00_Reeds_Shepp, and that of HC00_Reeds_Shepp, is at most the distance of CC00_Dubins with the same parameters (forwards or backwards), exactly unless the goal lies straight in the other direction, and up to the tolerance of the library in that case.", "quantifier": "every pair of states, every kappa and sigma", "why_tests_cant": "Compares minima over different sets of families computed by separate code for every pair of states.", "anchors": ["src/hc_cc_state_space/cc00_reeds_shepp_state_space.cpp:get_distance", "src/hc_cc_state_space/hc00_reeds_shepp_state_space.cpp:get_distance", "src/hc_cc_state_space/cc00_dubins_state_space.cpp:get_distance"]}
{"id": "C89", "title": "Mirrored problems have equal distances", "statement": "Reflecting start and goal in the x-axis (negating y, heading and curvature) leaves get_distance of CC00_Dubins and of CC00_Reeds_Shepp unchanged.", "quantifier": "every pair of states, every kappa and sigma", "why_tests_cant": "The lateral offset of each tangent has its own sign for left and right turns in every family; a wrong sign lengthens the path or hides it behind another family without making it invalid.", "anchors": ["src/hc_cc_state_space/cc00_dubins_state_space.cpp:get_distance", "src/hc_cc_state_space/cc00_reeds_shepp_state_space.cpp:get_distance"]}
{"id": "C90", "title": "Planning with clothoids never trips the assertions of the turn functions", "statement": "Whenever the CC-Dubins, HC-Reeds-Shepp and CC-Reeds-Shepp planners call rs_turn_length, hc_turn_length, cc_turn_length or the functions appending the controls of these turns, the configuration has exactly the curvature the turn requires (0 for a CC-turn, that of the circle for HC- and RS-turns, and the circle of an RS-turn has no clothoids), so that no assertion fails.", "quantifier": "every pair of states (also coinciding or with any curvature), every kappa and sigma, every candidate of every family, not only the shortest", "why_tests_cant": "The README builds in Release mode, where the assertions are off; each of about twenty families on up to sixteen circle pairs passes its own tangent configurations, and a wrong curvature in one of them shows only for states where that family exists.", "anchors": ["src/hc_cc_state_space/hc_cc_circle.cpp:rs_turn_length", "src/hc_cc_state_space/hc_cc_circle.cpp:hc_turn_length", "src/hc_cc_state_space/hc_cc_circle.cpp:cc_turn_length", "src/hc_cc_state_space/paths.cpp:rs_turn_controls", "src/hc_cc_state_space/paths.cpp:hc_turn_controls", "src/hc_cc_state_space/paths.cpp:cc_turn_controls"]}
{"id": "C91", "title": "The distance does not depend on the frame", "statement": "Rotating and translating start and goal together leaves get_distance of CC00_Dubins and of CC00_Reeds_Shepp unchanged.", "quantifier": "every pair of states, every rotation and translation, every kappa and sigma", "why_tests_cant": "Depends on the global angle through atan2, twopify and comparisons with tolerance in every family; fails only near the cuts of these functions.", "anchors": ["src/hc_cc_state_space/cc00_dubins_state_space.cpp:get_distance", "src/hc_cc_state_space/cc00_reeds_shepp_state_space.cpp:get_distance", "src/hc_cc_state_space/configuration.cpp:configuration_equal"]}
{"id": "C92", "title": "CC00-Reeds-Shepp returns a path no longer than any with at most three parts", "statement": "Any path from start to goal that consists of a turn, a straight line and a turn, of two turns to opposite sides, of three turns to alternating sides, of one turn or of a straight line is at least as long as get_distance of CC00_Reeds_Shepp, whichever of its parts are driven forwards and which backwards. A turn is a full one (two clothoids and an arc of any length, driven in either direction) or an elementary one. A line with a cusp at both ends must be longer than two full clothoids, and for paths with more than one turn the goal must not lie on a circle of the start within the tolerance 1e-4; if the goal is straight ahead or behind the bound holds up to the error of the Fresnel integrals.", "quantifier": "every pair of states, every kappa and sigma in range, every competing path of these shapes and every combination of driving directions", "why_tests_cant": "Quantifies over all competing paths; a family missing on one of the sixteen circle pairs, a too strict existence test, only one of the two middle circles or the longer way round an arc still gives a valid path, only a longer one.", "anchors": ["src/hc_cc_state_space/cc00_reeds_shepp_state_space.cpp:get_distance", "src/hc_cc_state_space/cc00_reeds_shepp_state_space.cpp:TcTcT_path", "src/hc_cc_state_space/cc00_reeds_shepp_state_space.cpp:TcTT_path", "src/hc_cc_state_space/cc00_reeds_shepp_state_space.cpp:TeScT_path", "src/hc_cc_state_space/hc_cc_circle.cpp:cc_turn_length"]}
{"id": "C93", "title": "HC0pm and HCpm0 Reeds-Shepp are each other's reversal", "statement": "get_distance of HC0pm_Reeds_Shepp from s1 to s2 equals get_distance of HCpm0_Reeds_Shepp from s2 to s1: a car that may reverse can drive every path of one planner backwards as a path of the other.", "quantifier": "every pair of states (at most 1e100 apart), every kappa and sigma in range, every sign of the curvature at the curved end", "why_tests_cant": "Two separately written classes of 1800 lines each have to agree on the minimum over 16 pairs of circles and 18 families; one family with a wrong existence test, offset or turn in one of the two files shows only where that family is the shortest.", "anchors": ["src/hc_cc_state_space/hc0pm_reeds_shepp_state_space.cpp:get_distance", "src/hc_cc_state_space/hcpm0_reeds_shepp_state_space.cpp:get_distance"]}
{"id": "C94", "title": "The HC00 and HCpmpm Reeds-Shepp distances are symmetric", "statement": "get_distance of HC00_Reeds_Shepp and of HCpmpm_Reeds_Shepp from s1 to s2 equals that from s2 to s1, as planners using it as a metric (nearest neighbours, undirected roadmaps) assume.", "quantifier": "every pair of states, every kappa and sigma in range; proved when the goal is on no turning circle of the start within the tolerance 1e-4 and vice versa and no centres coincide, in particular for states more than two turning radii apart", "why_tests_cant": "Symmetry is a statement about all pairs of states; a family whose reversal is missing or computed differently is noticed only for pairs where it is the shortest.", "anchors": ["src/hc_cc_state_space/hc00_reeds_shepp_state_space.cpp:get_distance", "src/hc_cc_state_space/hcpmpm_reeds_shepp_state_space.cpp:get_distance"]}
{"id": "C95", "title": "The CC00-Reeds-Shepp distance is symmetric", "statement": "get_distance of CC00_Reeds_Shepp from s1 to s2 equals that from s2 to s1: a car that may reverse can drive every path backwards.", "quantifier": "every pair of states, every kappa and sigma in range; proved when the goal is on no turning circle of the start within the tolerance 1e-4 and vice versa and no centres coincide, in particular for states more than two turning radii apart", "why_tests_cant": "Symmetry is a statement about all pairs of states; a family whose reversal is missing or computed differently is noticed only for pairs where it is the shortest.", "anchors": ["src/hc_cc_state_space/cc00_reeds_shepp_state_space.cpp:get_distance", "src/hc_cc_state_space/cc00_reeds_shepp_state_space.cpp:cc00_circles_rs_path"]}
{"id": "C96", "title": "CC00-Dubins forwards and backwards are each other's reversal", "statement": "get_distance of a CC00_Dubins space that drives forwards from s1 to s2 equals get_distance of the space that drives backwards from s2 to s1.", "quantifier": "every pair of states, every kappa and sigma in range; proved when the goal is on no turning circle of the start within the tolerance 1e-4 and vice versa and no centres coincide, in particular for states more than two turning radii apart", "why_tests_cant": "The two directions share code through boolean flags at circles, turns and tangent points; one flag used the wrong way round changes only some families in one direction.", "anchors": ["src/hc_cc_state_space/cc00_dubins_state_space.cpp:get_distance", "src/hc_cc_state_space/cc00_dubins_state_space.cpp:cc00_dubins"]}
{"id": "C97", "title": "Reeds-Shepp distance is symmetric", "statement": "For a Reeds_Shepp_State_Space, get_distance(s1, s2) equals get_distance(s2, s1).", "quantifier": "every pair of states, every kappa and discretization > 0", "why_tests_cant": "The word formulas are tried in a fixed order under three symmetries, with tolerances and angle wrapping that treat the two directions differently: a word with a turn of exactly half a turn (or within the tolerance) is accepted in one direction and rejected in the other, and symmetry then depends on another word being as short. Such states have measure zero.", "anchors": ["src/reeds_shepp_state_space/reeds_shepp_state_space.cpp:get_distance", "src/reeds_shepp_state_space/reeds_shepp_state_space.cpp:CSC", "src/reeds_shepp_state_space/reeds_shepp_state_space.cpp:CCCC"]}
{"id": "C98", "title": "Reeds-Shepp distance is invariant under left-right and forward-backward exchange", "statement": "For a Reeds_Shepp_State_Space, get_distance does not change if both states are reflected in the x-axis (left and right exchanged), nor if both are reflected in the y-axis with front and rear exchanged (x and theta negated).", "quantifier": "every pair of states, every kappa", "why_tests_cant": "The search applies these symmetries one by one to every word with hand-written sign changes; forgetting one combination for one word changes the distance only where that word is the shortest.", "anchors": ["src/reeds_shepp_state_space/reeds_shepp_state_space.cpp:get_distance", "src/reeds_shepp_state_space/reeds_shepp_state_space.cpp:reeds_shepp"]}
{"id": "C99", "title": "Reeds-Shepp distance depends on headings only up to full turns", "statement": "For a Reeds_Shepp_State_Space, get_distance gives the same value for any two representations of the same poses: it does not change when multiples of 2*pi are added to the headings of the states (nor when their curvature or direction entries change).", "quantifier": "every pair of states, all multiples, every kappa", "why_tests_cant": "The heading difference is used unwrapped; pify maps an odd multiple of pi to +pi or -pi depending on the sign of its argument, so the same pose written with theta = pi and theta = -pi accepts different words. That the shortest accepted length is nevertheless the same needs, for every such word, another one that is as short, on a measure-zero set of poses.", "anchors": ["src/reeds_shepp_state_space/reeds_shepp_state_space.cpp:get_distance", "src/utilities/utilities.cpp:pify"]}
{"id": "C100", "title": "Clothoid planners depend on headings only up to full turns", "statement": "For every planner with clothoids (CC00, CC0pm, CCpm0, CCpmpm and general CC Dubins; CC00, HC00, HC0pm, HCpm0, HCpmpm and general HC Reeds-Shepp), get_distance and get_controls give the same result for any two representations of the same states: adding multiples of 2*pi to the headings, or changing the driving-direction entry d of the states, changes neither the distance nor the controls.", "quantifier": "every pair of states, all multiples of 2*pi, every space", "why_tests_cant": "Headings pass through dozens of configurations, circles and tangents; one place that compares or subtracts headings without normalising breaks the property only for representations a test would have to guess.", "anchors": ["src/hc_cc_state_space/configuration.cpp", "src/hc_cc_state_space/cc00_dubins_state_space.cpp:get_distance", "src/hc_cc_state_space/hc_reeds_shepp_state_space.cpp:predict_state"]}
{"id": "C101", "title": "Planning does not depend on the unit of length", "statement": "If positions are multiplied by c > 0, the maximum curvature divided by c and the maximum sharpness by c^2, get_distance is multiplied by c and get_controls returns the same controls in the new unit (arc length times c, curvature divided by c, sharpness divided by c^2).", "quantifier": "every pair of states, every space, every c > 0", "why_tests_cant": "Tolerances written as plain numbers mix with lengths, angles and normalised lengths; whether a comparison is in absolute or normalised units shows only near the threshold.", "anchors": ["src/dubins_state_space/dubins_state_space.cpp:get_distance", "src/reeds_shepp_state_space/reeds_shepp_state_space.cpp:get_distance", "src/hc_cc_state_space/configuration.cpp:configuration_equal", "include/steering_functions/utilities/utilities.hpp:epsilon"]}
{"id": "C102", "title": "CC-Dubins from any curvature respects the limits", "statement": "Neither the predicted clothoids nor the paths between them that CC_Dubins returns exceed the curvature kappa or the sharpness sigma, up to the relative error of the Fresnel integrals.", "quantifier": "every pair of states with curvature within the limit", "why_tests_cant": "An inequality over all deflections and curvatures; violated only for single turns between nearly aligned states on wide circles.", "anchors": ["src/hc_cc_state_space/cc_dubins_state_space.cpp:get_controls", "src/hc_cc_state_space/cc_dubins_state_space.cpp:predict_state"]}
{"id": "C103", "title": "twopify in double precision returns an angle in [0, 2pi)", "statement": "Computed in double precision, twopify returns a number that is at least 0 and below 2 pi (as a double) and differs from the argument by a multiple of 2 pi up to rounding.", "quantifier": "every double, every rounding to nearest", "why_tests_cant": "The exceptional arguments are tiny negative angles (of size below 1e-16) and isolated doubles near multiples of 2 pi; random tests never draw them, yet differences of equal headings produce them all the time.", "anchors": ["src/utilities/utilities.cpp:twopify"]}
{"id": "C104", "title": "pify in double precision is exact", "statement": "Computed in double precision, pify returns a double between -pi and pi (as doubles) that differs from the argument by an exact multiple of 2 pi (as a double), without rounding error.", "quantifier": "every finite double, every rounding to nearest", "why_tests_cant": "Exactness of fmod and of the corrective addition is a statement about all 2^64 doubles.", "anchors": ["src/utilities/utilities.cpp:pify"]}
{"id": "C105", "title": "A goal straight ahead is reached straight ahead", "statement": "If the goal lies straight ahead of the start with the same heading, the Dubins distance is the distance of the positions, up to rounding; in particular the path contains no full circle.", "quantifier": "every start, heading and distance; real arithmetic and every rounding to nearest", "why_tests_cant": "All six words have a turn that rounding may push from just above 0 to just below 2 pi; whether all six are hit at once depends on the last bits of the input.", "anchors": ["src/dubins_state_space/dubins_state_space.cpp:get_distance", "src/dubins_state_space/dubins_state_space.cpp:dubins", "src/utilities/utilities.cpp:twopify"]}
{"id": "C106", "title": "Integration steps in double precision add up to the arc length", "statement": "Computed in double precision, the steps by which integrate samples a control are at most the discretization, their number is the rounded-up quotient of length and discretization, and their sum is the length up to a few units in the last place per step.", "quantifier": "every control length and discretization in the normal range, every rounding to nearest", "why_tests_cant": "The accumulated parameter s_seg carries a rounding error per step and the last step is cut by a double subtraction; a bound for all lengths and discretizations needs a proof.", "anchors": ["src/dubins_state_space/dubins_state_space.cpp:integrate", "src/reeds_shepp_state_space/reeds_shepp_state_space.cpp:integrate", "src/hc_cc_state_space/hc_cc_state_space.cpp:integrate"]}
{"id": "C107", "title": "Planning again on the way never makes the Dubins path longer", "statement": "If m is the state at arc length s of the path planned from s1 to s2, then get_distance(m, s2) is at most get_distance(s1, s2) - s, and get_distance(s1, m) is at most s; forwards and backwards, and for the state returned by interpolate.", "quantifier": "every pair of states, every place on the path, kappa > 0, both directions", "why_tests_cant": "Compares two planning problems whose best words may differ, for a continuum of intermediate states including the corners of the words.", "anchors": ["src/dubins_state_space/dubins_state_space.cpp:get_distance", "src/dubins_state_space/dubins_state_space.cpp:get_controls", "src/dubins_state_space/dubins_state_space.cpp:interpolate"]}
{"id": "C108", "title": "Planning again on the way never makes the Reeds-Shepp path longer", "statement": "If m is the state at arc length s of the path planned from s1 to s2, then get_distance(m, s2) is at most get_distance(s1, s2) - s, and get_distance(s1, m) is at most s; also for the state returned by interpolate.", "quantifier": "every pair of states, every place on the path, kappa > 0", "why_tests_cant": "The rest of a word with four or five segments is another word; that it is again found for all places and all words needs the optimality over all words.", "anchors": ["src/reeds_shepp_state_space/reeds_shepp_state_space.cpp:get_distance", "src/reeds_shepp_state_space/reeds_shepp_state_space.cpp:get_controls", "src/reeds_shepp_state_space/reeds_shepp_state_space.cpp:interpolate"]}
{"id": "C109", "title": "The planners for any curvature agree with the planners for fixed curvatures", "statement": "If the curvature of both states is zero or plus/minus the maximum curvature, CC_Dubins_State_Space gives the same distance as the planner for exactly these curvatures (CC00, CC0pm, CCpm0 or CCpmpm), and the same controls up to controls of length zero; likewise HC_Reeds_Shepp_State_Space and HC00, HC0pm, HCpm0, HCpmpm.", "quantifier": "every pair of states with such curvatures, every space with kappa > 1e-4", "why_tests_cant": "The two tests for equal states (one compares curvatures, one does not), the tolerances of the prediction and the choice among planners have to agree for all states; tests compare a planner with its own controls only.", "anchors": ["src/hc_cc_state_space/cc_dubins_state_space.cpp:predict_state", "src/hc_cc_state_space/cc_dubins_state_space.cpp:get_distance", "src/hc_cc_state_space/cc_dubins_state_space.cpp:get_controls", "src/hc_cc_state_space/hc_reeds_shepp_state_space.cpp:get_distance", "src/hc_cc_state_space/paths.cpp:state_equal", "src/hc_cc_state_space/configuration.cpp:configuration_equal"]}
{"id": "C110", "title": "The planners for continuous and hybrid curvature release what they allocate", "statement": "Every call of get_distance and get_controls of the nine planners CC00/CC0pm/CCpm0/CCpmpm-Dubins, CC00/HC00/HC0pm/HCpm0/HCpmpm-Reeds-Shepp releases each configuration, circle and path it allocates exactly once and releases nothing else; it never uses a pointer that is not initialised or whose object has been released, and dereferences nullptr only if no path is found. Hence any number of calls uses up no memory.", "quantifier": "every outcome of every comparison made by the planners (all orientations of the circles, all existing families, all choices of the shortest), every heap, every sequence of calls", "why_tests_cant": "Leaks and double deletions are silent and depend on which families exist and which candidate wins; a run sees one combination out of millions, and two candidates in one family exchange roles by a comparison of lengths.", "anchors": ["src/hc_cc_state_space/hc00_reeds_shepp_state_space.cpp:hc00_circles_rs_path", "src/hc_cc_state_space/cc00_dubins_state_space.cpp:cc00_circles_dubins_path", "src/hc_cc_state_space/hcpmpm_reeds_shepp_state_space.cpp:get_controls", "src/hc_cc_state_space/paths.cpp:~HC_CC_RS_Path"]}
{"id": "C111", "title": "A car that may also reverse never needs a longer path", "statement": "The distance of Reeds_Shepp_State_Space between two states is at most the length of every Dubins path between them with the same maximum curvature, hence at most the distance of Dubins_State_Space, forwards or backwards.", "quantifier": "every pair of states, every Dubins path (any turns, any straight length), kappa > 0", "why_tests_cant": "The Reeds-Shepp words turn by at most half a turn per arc, so a Dubins path with longer turns is not among them; that one of the other words is never longer has to be shown for all such paths, and the two planners share no code.", "anchors": ["src/reeds_shepp_state_space/reeds_shepp_state_space.cpp:get_distance", "src/dubins_state_space/dubins_state_space.cpp:get_distance"]}
{"id": "C112", "title": "The Dubins distance is the length of a shortest path of bounded curvature", "statement": "Dubins_State_Space::get_distance is the least length of any path from state1 to state2 that keeps the driving direction and whose curvature is at most kappa. The competing paths are not restricted to the six words of the planner, nor to lines and arcs: any number of pieces, clothoids, or a curvature that varies in any way.", "quantifier": "every pair of states, every curve whose heading changes by at most kappa per unit length, kappa > 0, forwards and backwards", "why_tests_cant": "A test can compare with the paths it thinks of; that none of the infinitely many admissible curves is shorter is Dubins' theorem combined with the case distinctions of the code.", "anchors": ["src/dubins_state_space/dubins_state_space.cpp:dubins", "src/dubins_state_space/dubins_state_space.cpp:get_distance"]}
{"id": "C113", "title": "Triangle inequality of the Dubins distance", "statement": "The Dubins distance from state1 to state3 is at most the distance from state1 to state2 plus that from state2 to state3.", "quantifier": "all triples of states, kappa > 0, forwards and backwards", "why_tests_cant": "Planners that search over states (RRT*, A* with a Dubins heuristic) rely on it for every triple; sampled triples do not hit the places where the word changes or a tolerance applies.", "anchors": ["src/dubins_state_space/dubins_state_space.cpp:get_distance"]}
{"id": "C114", "title": "A smaller turning radius never lengthens the Dubins path", "statement": "For kappa <= kappa', the distance of Dubins_State_Space with kappa' is at most the distance with kappa.", "quantifier": "every pair of states, every pair of curvatures, forwards and backwards", "why_tests_cant": "The best word changes with kappa, and the words of one curvature are no paths of the planner of the other; the statement compares uncountably many pairs of planners.", "anchors": ["src/dubins_state_space/dubins_state_space.cpp:get_distance"]}
{"id": "C115", "title": "The Reeds-Shepp distance is at most the length of every path without change of direction", "statement": "Reeds_Shepp_State_Space::get_distance is at most the length of every path from state1 to state2 with curvature at most kappa that is driven in one direction, forwards or backwards.", "quantifier": "every pair of states, every curve whose heading changes by at most kappa per unit length", "why_tests_cant": "The competing curves are arbitrary, for instance the continuous curvature paths of the other planners of the library.", "anchors": ["src/reeds_shepp_state_space/reeds_shepp_state_space.cpp:get_distance"]}
{"id": "C116", "title": "The Dubins and Reeds-Shepp distances never overestimate a path with continuous curvature", "statement": "A path of the CC-Dubins planners (CC00, CC0pm, CCpm0, CCpmpm, CC) is never shorter than the distance that Dubins_State_Space with the same driving direction, or Reeds_Shepp_State_Space, reports to the state where the path ends (curvature limit kappa, up to a relative 1e-8).", "quantifier": "every pair of states, every kappa and sigma in range, forwards and backwards", "why_tests_cant": "The Dubins distance is used as an admissible heuristic for the slower planners, which is a lower bound for all pairs of states; it relates different planners and follows from the optimality of the Dubins path among all curves of bounded curvature, of which tests see a few.", "anchors": ["src/hc_cc_state_space/cc_dubins_state_space.cpp:get_controls", "src/hc_cc_state_space/cc00_dubins_state_space.cpp:get_controls", "src/hc_cc_state_space/ccpmpm_dubins_state_space.cpp:get_controls", "src/dubins_state_space/dubins_state_space.cpp:get_distance"]}
{"id": "C117", "title": "No division by zero, no square root or arc function outside its domain", "statement": "Planning divides only by numbers different from zero, takes square roots only of numbers that are not negative, and calls asin and acos only on [-1, 1], in exact arithmetic. This concerns the constructor, all candidates of the CC-Dubins and HC-Reeds-Shepp planners, the turns, the words of Reeds-Shepp and the integration steps. So no NaN or infinity arises, which get_distance or get_controls could return or compare with.", "quantifier": "every pair of states, every kappa and sigma in range, every candidate path, not only the shortest", "why_tests_cant": "The guards of the exists functions and the arguments of the operations are different formulas; that the former imply the latter is an inequality over all distances and circle radii. A NaN in a candidate that is not chosen leaves no trace in the result a test checks.", "anchors": ["src/hc_cc_state_space/cc00_dubins_state_space.cpp:TiST_tangent_circles", "src/hc_cc_state_space/ccpmpm_dubins_state_space.cpp:TTTT_tangent_circles", "src/hc_cc_state_space/hc00_reeds_shepp_state_space.cpp:TcTTcT_tangent_circles", "src/hc_cc_state_space/hc_cc_circle.cpp:cc_elementary_sharpness", "src/utilities/utilities.cpp:end_of_clothoid"]}
{"id": "C118", "title": "CC-Dubins with curvature at the ends is optimal in its family", "statement": "get_distance of CC0pm, CCpm0 and CCpmpm is at most the length of every path of the form turn-line-turn, turn-turn, turn-turn-turn or a single turn that drives from the start to the goal in the driving direction of the space and has the maximum curvature at the curved ends, on a side that the sign of the curvature of the state allows (both if it is zero). The competitor may use any arc lengths and elementary turns in the middle.", "quantifier": "every pair of states, every kappa and sigma in range, forwards and backwards, every competitor whose first and last circle are not within the tolerance 1e-4 in which the planner uses a single turn", "why_tests_cant": "Optimality compares the result with a continuum of competitors for every pair of states; tests compare a few lengths with a reference implementation that would share the error. It fails if one of the four combinations of circles, one of the two middle circles or one of the tangents is missed.", "anchors": ["src/hc_cc_state_space/cc0pm_dubins_state_space.cpp:cc0pm_circles_dubins_path", "src/hc_cc_state_space/ccpm0_dubins_state_space.cpp:ccpm0_circles_dubins_path", "src/hc_cc_state_space/ccpmpm_dubins_state_space.cpp:ccpmpm_circles_dubins_path", "src/hc_cc_state_space/hc_cc_circle.cpp:hc_circular_deflection"]}
{"id": "C119", "title": "HC-Reeds-Shepp is optimal among paths with at most three parts", "statement": "get_distance of HC00, HC0pm, HCpm0 and HCpmpm is at most the length of every path of the form turn-line-turn, turn-turn, turn-turn-turn, or a single turn that drives from the start to the goal, where each joint between two parts is either passed in the same direction with curvature zero or is a cusp, next to which turns have the maximum curvature; curved ends have the maximum curvature on a side that the sign of the curvature of the state allows. For HC00 a straight line to the goal is not shorter either, and if the goal is straight ahead or behind the bound holds up to the position error of the clothoids (5e-16 per clothoid and unit of 1/sqrt(sigma)).", "quantifier": "every pair of states, every kappa and sigma in range, every combination of sides, directions and cusps, every competitor outside the 1e-4 tolerances in which the planner uses a single turn", "why_tests_cant": "Optimality compares the result with a continuum of competitors for every pair of states. It fails if one of the 16 combinations of circles is skipped, one of the families is missing, an existence test is too strict or one of the tangents is wrong, and each of these shows only for goals in a part of the plane.", "anchors": ["src/hc_cc_state_space/hc00_reeds_shepp_state_space.cpp:hc00_circles_rs_path", "src/hc_cc_state_space/hc0pm_reeds_shepp_state_space.cpp:hc0pm_circles_rs_path", "src/hc_cc_state_space/hcpm0_reeds_shepp_state_space.cpp:hcpm0_circles_rs_path", "src/hc_cc_state_space/hcpmpm_reeds_shepp_state_space.cpp:hcpmpm_circles_rs_path"]}
{"id": "C120", "title": "CC-Dubins and HC-Reeds-Shepp for any curvature are not worse than changing the curvature first", "statement": "get_distance of CC_Dubins and HC_Reeds_Shepp is at most the length of a path that first changes the curvature of the start to zero or to the maximum curvature with maximum sharpness, then follows the path of the planner for these fixed curvatures, and finally changes the curvature to that of the goal with maximum sharpness. CC_Dubins drives the first and last part in the direction of the state space, HC_Reeds_Shepp in either direction. Hence the distance is also at most the length of every path whose middle part has at most three turns and lines (C68, C118, C119), up to the position error of the clothoids if the middle part has curvature zero at both ends.", "quantifier": "every pair of states up to 1e100 apart, every curvature of start and goal that is zero, the maximum or at least 1e-4 away from both, every kappa and sigma in range, every choice of the first and last part", "why_tests_cant": "The minimum is taken over up to sixteen pairs of predicted states, each with its own planner. A pair that is skipped, a clothoid whose length is forgotten or a wrong planner for a combination of curvatures changes the result only for those states for which that pair is the best, and no test knows the true minimum.", "anchors": ["src/hc_cc_state_space/cc_dubins_state_space.cpp:predict_state", "src/hc_cc_state_space/cc_dubins_state_space.cpp:get_distance", "src/hc_cc_state_space/hc_reeds_shepp_state_space.cpp:predict_state", "src/hc_cc_state_space/hc_reeds_shepp_state_space.cpp:get_distance"]}
{"id": "C121", "title": "The demo node draws wheels that roll without slipping and closed outlines", "statement": "For every state of a path the node publishes the closed outline of the footprint, moved and turned with the car, and a closed rectangle for each front wheel. The centre of the rectangle is the point where the wheel is mounted on the car. For every motion of the car through this state with the curvature of this state, the velocity of the mounting point is parallel to the long side of the drawn wheel; if the curvature is at most 1e-4, where the wheels are drawn straight, the sideways velocity is at most 1e-4 times the wheel base per length driven. The orientations of all published poses are unit quaternions that turn by theta about the vertical axis.", "quantifier": "every path, every robot with positive wheel base and a footprint, every state and curvature (including a turning centre beside the wheel)", "why_tests_cant": "The node has no tests at all and its output is looked at. A wrong sign of the lateral position of a wheel or the steering angle of the other wheel changes the picture by a few degrees only, depending on curvature and geometry.", "anchors": ["src/steering_functions_node.cpp:RobotClass::visualize", "src/steering_functions_node.cpp:polygon_to_marker", "src/steering_functions_node.cpp:PathClass::visualize"]}
{"id": "C122", "title": "The covariance markers of the demo node are the three-sigma ellipsoids", "statement": "If the eigenvalues can be computed, the marker of a state is at the position of the state, its orientation is a proper rotation (determinant one), and the ellipsoid with the published orientation and diameters contains a deviation of (x, y, theta) if and only if in every direction it is at most three standard deviations of the covariance of the state; every direction has a point of the ellipsoid at exactly three standard deviations. Every tenth state of the path, beginning with the first, gets a marker and no other one, and no element beyond the path is read.", "quantifier": "every state whose covariance is positive semidefinite (which holds for every state of every path, C28), every result of the eigenvalue solver that satisfies its contract, every path length", "why_tests_cant": "The node has no tests. Diameters instead of radii, a transposed matrix of eigenvectors or a reflection instead of a rotation are invisible for diagonal covariances and hard to see otherwise.", "anchors": ["src/steering_functions_node.cpp:covariance_to_marker", "src/steering_functions_node.cpp:PathClass::visualize"]}
{"id": "C123", "title": "Every iteration of the demo node plans all thirteen paths", "statement": "Whatever values rand() returns, start and goal are within the operating region (|x|, |y| at most 10, |theta| at most pi) and their curvature is within the limit; the planners that do not connect curvatures get the same poses with curvature zero and the same covariance, which is that of one measurement. Each of the thirteen planners then returns a path without reading from an empty vector; on every state all covariances are positive semidefinite and the covariance of the estimate does not exceed that of one measurement. The paths of the HC/CC planners are not empty and begin with the sampled pose.", "quantifier": "every eight values of rand(), every kappa and sigma in range whose clothoids are long compared to the tolerance 1e-4, every non-negative motion noise and non-zero measurement noise, all thirteen planners", "why_tests_cant": "The node samples its states at random and is not tested; an iteration that crashes or plans from a state outside the limits may occur once in billions of draws.", "anchors": ["src/steering_functions_node.cpp:main", "src/steering_functions_node.cpp:PathClass"]}
{"id": "C124", "title": "Reversing never makes the path longer, with curvature at the ends", "statement": "The distance of HC0pm_Reeds_Shepp, HCpm0_Reeds_Shepp and HCpmpm_Reeds_Shepp is at most that of CC0pm_Dubins, CCpm0_Dubins and CCpmpm_Dubins with the same parameters, forwards or backwards; and for states of any curvature the distance of HC_Reeds_Shepp is at most that of CC_Dubins.", "quantifier": "every pair of states between which the Dubins space finds a path; HC0pm and HCpm0: every kappa and sigma", "why_tests_cant": "Compares minima over different sets of path families, computed by separate code in six files and combined over up to sixteen pairs of predicted states, for every pair of states.", "anchors": ["src/hc_cc_state_space/hc0pm_reeds_shepp_state_space.cpp:get_distance", "src/hc_cc_state_space/hcpm0_reeds_shepp_state_space.cpp:get_distance", "src/hc_cc_state_space/hcpmpm_reeds_shepp_state_space.cpp:get_distance", "src/hc_cc_state_space/cc0pm_dubins_state_space.cpp:get_distance", "src/hc_cc_state_space/ccpm0_dubins_state_space.cpp:get_distance", "src/hc_cc_state_space/ccpmpm_dubins_state_space.cpp:get_distance", "src/hc_cc_state_space/hc_reeds_shepp_state_space.cpp:get_distance", "src/hc_cc_state_space/cc_dubins_state_space.cpp:get_distance"]}
{"id": "C125", "title": "The step counters do not overflow unless a path has about 2^31 steps", "statement": "get_path, get_path_with_covariance and interpolate count integration steps in variables of type int. With a positive discretization the counters of integrate and integrate_with_covariance overflow exactly if the number of steps (the sum over the controls of ceil(|delta_s| / discretization)) plus the reserved extra of 3 (5 for Reeds_Shepp) exceeds 2^31 - 1; interpolate does not overflow if no single control has more than 2^31 - 1 steps. Without overflow the path is the same as with unbounded counters. For every planner this is the case if its bound for the path length is at most about 2e9 times the discretization. The capacity reserved for the path is exactly its size for Dubins, at least its size for Reeds_Shepp, and at least its size for the other planners whenever the curvature is continuous. With a valid but tiny discretization (1e-9) paths to a goal ten metres away overflow.", "quantifier": "every list of controls, every positive discretization, every state and t; planners: every pair of states whose distance plus a multiple of kappa/sigma and 1/kappa is at most 2e9 discretization steps", "why_tests_cant": "Overflow needs two thousand million steps and hence a path of tens of gigabytes; a test cannot reach the limit, nor show that the limit is exact for all planners.", "anchors": ["src/hc_cc_state_space/hc_cc_state_space.cpp:integrate", "src/hc_cc_state_space/hc_cc_state_space.cpp:integrate_with_covariance", "src/hc_cc_state_space/hc_cc_state_space.cpp:interpolate", "src/dubins_state_space/dubins_state_space.cpp:integrate", "src/reeds_shepp_state_space/reeds_shepp_state_space.cpp:integrate"]}
{"id": "C126", "title": "Curvature and sharpness of every path stay within the limits up to the resolution of the library", "statement": "Paths of a single turn or of two turns are accepted with an error of 1e-4 and may exceed the limits (C51, C57, C74, C80, C87, C102). By how much is bounded for all states: if clothoids turn by at most one radian (kappa^2 <= 2 sigma) and the ratio r of the accepted error to the size of the clothoids is at most 1/2, then the curvature of every path returned by get_controls is at most kappa (1 + 2 r) and its sharpness at most sigma (1 + 2 r)^2, up to the relative error 1e-8 of the Fresnel integrals. For kappa = sigma = 1 and all planners but CC00_Reeds_Shepp r is 1.2 %.", "quantifier": "every pair of states up to 1e100 apart and all parameters with kappa^2 <= 2 sigma and r <= 1/2; CC_Dubins and HC_Reeds_Shepp: states with curvature at most kappa, either more than 4 kappa/sigma apart or (with another 1e-4 of curvature) with coinciding predicted states joined as in C41 and C82", "why_tests_cant": "The limits are exceeded only where a goal lies on a turn circle up to the tolerance, a set that random tests hit with probability close to zero; the bound is over all goals and parameters.", "anchors": ["src/hc_cc_state_space/hc_cc_state_space.cpp:cc_turn_controls", "src/hc_cc_state_space/hc_cc_state_space.cpp:cc_elementary_controls", "src/hc_cc_state_space/cc00_dubins_state_space.cpp:get_controls", "src/hc_cc_state_space/cc0pm_dubins_state_space.cpp:get_controls", "src/hc_cc_state_space/ccpm0_dubins_state_space.cpp:get_controls", "src/hc_cc_state_space/cc_dubins_state_space.cpp:get_controls", "src/hc_cc_state_space/hc00_reeds_shepp_state_space.cpp:get_controls", "src/hc_cc_state_space/hc0pm_reeds_shepp_state_space.cpp:get_controls", "src/hc_cc_state_space/hcpm0_reeds_shepp_state_space.cpp:get_controls", "src/hc_cc_state_space/hc_reeds_shepp_state_space.cpp:get_controls", "src/hc_cc_state_space/cc00_reeds_shepp_state_space.cpp:get_controls"]}
{"id": "C127", "title": "Limiting the change of curvature costs at most a constant", "statement": "The distance reported by every planner with continuous curvature exceeds the distance that Dubins_State_Space (for the CC_Dubins planners, same driving direction) or Reeds_Shepp_State_Space (for the HC planners and CC00_Reeds_Shepp) with the same kappa reports for the same two states by at most 50 kappa/sigma + 61/kappa. Hence for any e > 0 it is at most (1 + e) times that distance once the states are farther apart than (50 kappa/sigma + 61/kappa)/e + 1/kappa.", "quantifier": "every pair of states up to 1e100 (and 1e200 turning radii) apart, every kappa and sigma in range, forwards and backwards; CC_Dubins and HC_Reeds_Shepp also every curvature of the states in reach", "why_tests_cant": "Which planner to use is decided by what smoothness costs; that the cost does not grow with the distance is a statement on all pairs of states and compares different planners, each choosing among many path families.", "anchors": ["src/hc_cc_state_space/cc00_dubins_state_space.cpp:get_distance", "src/hc_cc_state_space/cc0pm_dubins_state_space.cpp:get_distance", "src/hc_cc_state_space/ccpm0_dubins_state_space.cpp:get_distance", "src/hc_cc_state_space/ccpmpm_dubins_state_space.cpp:get_distance", "src/hc_cc_state_space/cc_dubins_state_space.cpp:get_distance", "src/hc_cc_state_space/hc_reeds_shepp_state_space.cpp:get_distance", "src/hc_cc_state_space/cc00_reeds_shepp_state_space.cpp:get_distance", "src/dubins_state_space/dubins_state_space.cpp:get_distance", "src/reeds_shepp_state_space/reeds_shepp_state_space.cpp:get_distance"]}
{"id": "C128", "title": "Paths stay in an ellipse around their ends", "statement": "Every state x of get_path satisfies |x - start| + |x - last state| <= get_distance (planners with clothoids: up to 1e-3 times the resolution of the planner), so the path leaves neither the ellipse nor the disc of that radius around the start, and the planners with clothoids stay within |goal - start| + 50 kappa/sigma + 60/kappa of the start. interpolate(t) is at most t times the length from the start and at most (1 - t) times the length from the end. This holds for arbitrary controls, also those that integration does not resolve (C11).", "quantifier": "every list of controls, every discretization > 0, every t in [0,1]; planners: every pair of states in range", "why_tests_cant": "The size of the map or grid in which a path is checked for collisions is chosen from this bound; tests sample few states and cannot exclude an excursion for other controls or step sizes.", "anchors": ["src/dubins_state_space/dubins_state_space.cpp:integrate", "src/dubins_state_space/dubins_state_space.cpp:interpolate", "src/reeds_shepp_state_space/reeds_shepp_state_space.cpp:integrate", "src/hc_cc_state_space/hc_cc_state_space.cpp:integrate", "src/hc_cc_state_space/hc_cc_state_space.cpp:interpolate", "src/hc_cc_state_space/hc_cc_state_space.cpp:integrate_ODE", "src/utilities/utilities.cpp:end_of_clothoid"]}
{"id": "C129", "title": "A Reeds-Shepp path changes the driving direction at most twice", "statement": "The controls of Reeds_Shepp_State_Space::get_controls split into at most three consecutive groups within each of which no segment runs against the common direction by more than ten machine epsilons of the turning radius. If every segment is empty or longer than that, the driving direction changes at most twice.", "quantifier": "every kappa > 0, discretization > 0, every pair of states at most 1e200 turning radii apart", "why_tests_cant": "A vehicle stops at every change of direction, so users budget stops by this bound; the 48 formulas with their tolerances give up to five segments, and a test sees only the few words its samples hit.", "anchors": ["src/reeds_shepp_state_space/reeds_shepp_state_space.cpp:get_controls", "src/reeds_shepp_state_space/reeds_shepp_state_space.cpp:reeds_shepp", "src/reeds_shepp_state_space/reeds_shepp_state_space.cpp:CCSCC"]}
{"id": "C130", "title": "A goal that is not ahead costs a full circle", "statement": "For a car that does not change its driving direction, the distance to a goal in another place with the same heading that lies beside or behind the start is at least the circumference 2 pi/kappa of the turning circle, however near the goal is. In general, if the headings differ by phi and the distance L is less than (2 pi - |phi|)/kappa, the goal lies at least (2 sin((kappa L + |phi|)/2) - sin|phi|)/kappa ahead, seen from the start and seen from the goal. This holds for get_distance of Dubins_State_Space and for the length of any controls of one direction and curvature at most kappa; for the controls of the CC_Dubins planners up to the accuracy with which they lead to the goal. In particular get_distance is not continuous in the goal.", "quantifier": "every pair of states, every kappa > 0, both driving directions; every path of bounded curvature", "why_tests_cant": "A lower bound over all paths; near the start the distance jumps, so that values at sampled goals say nothing about goals next to them.", "anchors": ["src/dubins_state_space/dubins_state_space.cpp:get_distance", "src/dubins_state_space/dubins_state_space.cpp:dubins", "include/steering_functions/steering_functions.hpp:Control", "src/hc_cc_state_space/cc00_dubins_state_space.cpp:get_controls", "src/hc_cc_state_space/cc_dubins_state_space.cpp:get_controls"]}
{"id": "C131", "title": "Turning costs at least the angle times the turning radius, and Reeds-Shepp turns on the spot for exactly that", "statement": "If the heading of the goal differs from that of the start by an angle phi of at most half a turn, then no planner reports a path shorter than |phi| divided by the largest curvature: get_distance of Reeds-Shepp is at least |phi|/kappa, get_distance of Dubins at least (|phi| - 1e-6)/kappa and at least |phi|/kappa outside its tolerance zones, and the controls of the CC and HC planners have total length at least (|phi| - 3e-4)/kappa up to the relative tolerance on the curvature. If goal and start are at the same position, the Reeds-Shepp distance equals |phi|/kappa.", "quantifier": "for all parameters in range, all start and goal states within reach, all angles phi of at most half a turn", "why_tests_cant": "a bound from below on all results over a continuum of states and angles; an equality for all angles of turns on the spot, which sampled states never hit", "anchors": ["src/reeds_shepp_state_space/reeds_shepp_state_space.cpp:get_distance", "src/reeds_shepp_state_space/reeds_shepp_state_space.cpp:CCC", "src/dubins_state_space/dubins_state_space.cpp:get_distance", "src/hc_cc_state_space/cc00_dubins_state_space.cpp:get_controls", "src/hc_cc_state_space/hc00_reeds_shepp_state_space.cpp:get_controls"]}
{"id": "C132", "title": "Moving sideways costs a square root, and Reeds-Shepp parks at that price", "statement": "A goal that lies w to the side of the start (measured across the heading of the start) has distance at least sqrt(2|w|/kappa), and at least 2 sqrt(|w|/kappa) if it has the heading of the start. In particular get_distance is not Lipschitz continuous: small steps sideways cost much more than their length. For the Reeds-Shepp planner this is the right order: a goal exactly beside the start with the same heading, at most two turning radii away, has distance at most 4 arccos(1 - kappa|w|/4)/kappa, which is at most 5 sqrt(|w|/kappa). The same lower bounds hold for the length of the controls of every other planner, with the largest curvature they use and up to the accuracy with which they lead to the goal.", "quantifier": "every pair of states within reach, every kappa > 0 (sigma in range for the planners with clothoids); every list of controls of bounded curvature, whatever the planner", "why_tests_cant": "A bound from below on all results and from above near a point where the distance has no derivative; sampled goals neither approach that point nor cover all directions.", "anchors": ["src/reeds_shepp_state_space/reeds_shepp_state_space.cpp:get_distance", "src/reeds_shepp_state_space/reeds_shepp_state_space.cpp:CCCC", "src/dubins_state_space/dubins_state_space.cpp:get_distance", "include/steering_functions/steering_functions.hpp:Control", "src/hc_cc_state_space/hc00_reeds_shepp_state_space.cpp:get_controls"]}
{"id": "C133", "title": "Checking the states of a path checks the path", "statement": "Wherever the car is on the way given by the controls, one of the states returned by get_path (integrate) is at most half the discretization away and has a heading that differs by at most half the discretization times the largest curvature. So a collision check of the returned states with obstacles enlarged by half the discretization misses nothing. For Dubins and Reeds-Shepp this holds exactly, for the planners with clothoids up to the error of the Fresnel integrals.", "quantifier": "every list of controls whose curvature and sharpness are zero or above the resolution 1e-4, every start, every discretization, every place along the path; every pair of states for the planners", "why_tests_cant": "A statement about the uncountably many places between the samples, for all paths and all discretizations.", "anchors": ["src/dubins_state_space/dubins_state_space.cpp:integrate", "src/reeds_shepp_state_space/reeds_shepp_state_space.cpp:integrate", "src/hc_cc_state_space/hc_cc_state_space.cpp:integrate", "src/hc_cc_state_space/hc_cc_state_space.cpp:get_path"]}
{"id": "C134", "title": "A collision check of the returned states with enlarged obstacles is sound for the whole vehicle", "statement": "If the body of the vehicle (any shape within R of the reference point) is, in every state returned by get_path, more than r + discretization/2 * (1 + kappa R) away from all obstacles, then it is more than r away from them everywhere along the commanded path. For the planners with clothoids kappa is the largest curvature of their controls and the error of the Fresnel integrals is added. The enlargement by half the discretization cannot be reduced.", "quantifier": "every shape of the vehicle, every set of obstacles, every clearance, every place along the path, every pair of states and all parameters under the conditions of C133; the enlargement is necessary for every discretization", "why_tests_cant": "Between the states lie uncountably many places, and shapes and obstacles are arbitrary sets.", "anchors": ["src/dubins_state_space/dubins_state_space.cpp:integrate", "src/reeds_shepp_state_space/reeds_shepp_state_space.cpp:integrate", "src/hc_cc_state_space/hc_cc_state_space.cpp:integrate", "src/hc_cc_state_space/hc_cc_state_space.cpp:get_path"]}
{"id": "C135", "title": "Turning in one sense is optimal up to half a turn", "statement": "A goal on a turning circle of the start, at most half a circle away, has a distance of exactly that arc: for Reeds-Shepp on the left or right circle, forwards or backwards, and for Dubins in its driving direction (outside the tolerance zones; never more, and less by at most 1e-6 turning radii inside). More generally no Reeds-Shepp path whose heading changes in one sense only, by at most half a turn in total, is improved on: turning in three moves has no shorter alternative.", "quantifier": "every curvature and discretization, every start, every angle up to half a turn, every Reeds-Shepp word of turns in one sense", "why_tests_cant": "A lower bound over all paths the planner could find, for a continuum of goals.", "anchors": ["src/reeds_shepp_state_space/reeds_shepp_state_space.cpp:get_distance", "src/dubins_state_space/dubins_state_space.cpp:get_distance"]}
{"id": "C136", "title": "Only a straight path is as short as the distance of the positions", "statement": "The Reeds-Shepp distance equals the Euclidean distance of the positions exactly if the goal lies straight ahead of or behind the start and has its heading; the Dubins distance exactly if, moreover, it lies in the driving direction (outside the tolerance zones of the library). So for every other goal a heuristic that uses the Euclidean distance is strictly too small.", "quantifier": "every pair of states, every curvature and discretization, both directions of Dubins", "why_tests_cant": "The equality has to be excluded for all goals off the line, and a lower bound holds against all paths the planner could find.", "anchors": ["src/reeds_shepp_state_space/reeds_shepp_state_space.cpp:get_distance", "src/dubins_state_space/dubins_state_space.cpp:get_distance"]}
{"id": "C137", "title": "With curvature zero at both ends a straight goal is reached straight", "statement": "If the goal lies more than 1e-4 straight ahead of the start in the driving direction and has its heading, CC00-Dubins returns exactly one control, the straight line of that length, and get_distance is the Euclidean distance. CC00-Reeds-Shepp and HC00-Reeds-Shepp do so for goals straight ahead and straight behind. Between states of curvature zero the planners for any curvature, CC-Dubins and HC-Reeds-Shepp, do the same up to controls of length zero. The result does not depend on the maximum curvature (HC-Reeds-Shepp: above 1e-4), the sharpness and the discretization.", "quantifier": "every pair of states on one line with equal headings modulo a full turn, every length above the tolerance and below the largest double, every kappa, sigma, discretization and direction", "why_tests_cant": "The planner compares 4 (16) pairs of circles and up to 18 families; that none of them beats or replaces the straight line has to hold for every position, heading and parameter.", "anchors": ["src/hc_cc_state_space/cc00_dubins_state_space.cpp:cc00_circles_dubins_path", "src/hc_cc_state_space/cc00_reeds_shepp_state_space.cpp:cc00_circles_rs_path", "src/hc_cc_state_space/hc00_reeds_shepp_state_space.cpp:hc00_circles_rs_path", "src/hc_cc_state_space/configuration.cpp:configuration_aligned"]}
{"id": "C138", "title": "From a state to itself nothing is driven", "statement": "For every state s the distance from s to s is zero and all returned controls have length zero: for Dubins, Reeds-Shepp, CC00-, CCpmpm- and CC-Dubins, CC00-Reeds-Shepp and the HC-Reeds-Shepp planners whose two ends have the same kind of curvature.", "quantifier": "every state, every curvature, sharpness and direction", "why_tests_cant": "Tests use random pairs of states; that start and goal coincide has probability zero there, and the result has to hold for every curvature of the state.", "anchors": ["src/hc_cc_state_space/cc_dubins_state_space.cpp:get_distance", "src/hc_cc_state_space/cc_dubins_state_space.cpp:predict_state", "src/hc_cc_state_space/hc_reeds_shepp_state_space.cpp:get_distance", "src/dubins_state_space/dubins_state_space.cpp:dubins", "src/reeds_shepp_state_space/reeds_shepp_state_space.cpp:get_distance"]}
{"id": "C139", "title": "No planner returns a negative distance", "statement": "get_distance never returns a negative number: for Dubins, Reeds-Shepp, CC00-, CC0pm-, CCpm0-, CCpmpm- and CC-Dubins, CC00-, HC00-, HC0pm-, HCpm0-, HCpmpm- and HC-Reeds-Shepp.", "quantifier": "every pair of states, every curvature, sharpness and direction", "why_tests_cant": "A length is a sum of up to five terms, each with its own formula and case distinctions (regular and irregular turns, half turns, straight lines); a test meets only some of the combinations, and a negative length would win every comparison of paths.", "anchors": ["src/hc_cc_state_space/hc_cc_circle.cpp:cc_turn_length", "src/hc_cc_state_space/cc_dubins_state_space.cpp:get_distance", "src/hc_cc_state_space/hc_reeds_shepp_state_space.cpp:get_distance"]}
