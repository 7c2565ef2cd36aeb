import Verif.Model.Memory

/-!
# Memory operations of the continuous-curvature Dubins planners

One definition per C++ function, one operation per `new`, `delete`, assignment of a pointer and read through a
pointer, see `Verif.Model.Memory`. All files are in `/repo/src/hc_cc_state_space`.
-/

set_option linter.constructorNameAsVariable false

namespace SF.Mem

namespace CC00Dubins

/-- `CC00_Dubins::TT_tangent_circles` (cc00_dubins_state_space.cpp:66-95). -/
def TT_tangent_circles (_o : Tests) (_c1 _c2 : Sides) (q : Var) : List Op :=
  [.new q []]

/-- `CC00_Dubins::TT_path` (cc00_dubins_state_space.cpp:97-101). -/
def TT_path (o : Tests) (c1 c2 : Sides) (q : Var) : List Op :=
  TT_tangent_circles o c1 c2 q ;; [.read [q]]

/-- `CC00_Dubins::TiST_tangent_circles` (cc00_dubins_state_space.cpp:137-178). -/
def TiST_tangent_circles (_o : Tests) (c1 _c2 : Sides) (q1 q2 : Var) : List Op :=
  (if c1.left && c1.forward then [.new q1 [], .new q2 []] else []) ;; (if c1.left && !c1.forward then [.new q1 [],
    .new q2 []] else []) ;; (if !c1.left && c1.forward then [.new q1 [], .new q2 []] else []) ;; (if !c1.left &&
    !c1.forward then [.new q1 [], .new q2 []] else [])

/-- `CC00_Dubins::TeST_tangent_circles` (cc00_dubins_state_space.cpp:180-215). -/
def TeST_tangent_circles (_o : Tests) (c1 _c2 : Sides) (q1 q2 : Var) : List Op :=
  (if c1.left && c1.forward then [.new q1 [], .new q2 []] else []) ;; (if c1.left && !c1.forward then [.new q1 [],
    .new q2 []] else []) ;; (if !c1.left && c1.forward then [.new q1 [], .new q2 []] else []) ;; (if !c1.left &&
    !c1.forward then [.new q1 [], .new q2 []] else [])

/-- `CC00_Dubins::TiST_path` (cc00_dubins_state_space.cpp:217-221). -/
def TiST_path (o : Tests) (c1 c2 : Sides) (q1 q2 : Var) : List Op :=
  TiST_tangent_circles o c1 c2 q1 q2 ;; [.read [q1, q2]]

/-- `CC00_Dubins::TeST_path` (cc00_dubins_state_space.cpp:223-227). -/
def TeST_path (o : Tests) (c1 c2 : Sides) (q1 q2 : Var) : List Op :=
  TeST_tangent_circles o c1 c2 q1 q2 ;; [.read [q1, q2]]

/-- `CC00_Dubins::TST_path` (cc00_dubins_state_space.cpp:229-240). -/
def TST_path (o : Tests) (c1 c2 : Sides) (q1 q2 : Var) : List Op :=
  (if o.inner then TiST_path o c1 c2 q1 q2 else (if o.outer then TeST_path o c1 c2 q1 q2 else []))

/-- `CC00_Dubins::TTT_tangent_circles` (cc00_dubins_state_space.cpp:256-274). -/
def TTT_tangent_circles (o : Tests) (c1 c2 : Sides) (q1 q2 q3 q4 : Var) : List Op :=
  let tgt1 : Sides := ⟨!c1.left, c1.forward⟩
  let tgt2 : Sides := ⟨!c1.left, c1.forward⟩
  TT_tangent_circles o c1 tgt1 q1 ;; TT_tangent_circles o tgt1 c2 q2 ;; TT_tangent_circles o c1 tgt2 q3 ;;
    TT_tangent_circles o tgt2 c2 q4

/-- `CC00_Dubins::TTT_path` (cc00_dubins_state_space.cpp:276-309). -/
def TTT_path (o : Tests) (c1 c2 : Sides) (q1 q2 ci : Var) : List Op :=
  TTT_tangent_circles o c1 c2 .qa .qb .qc .qd ;; [.new .middle1 [.qa], .new .middle2 [.qc], .read [.qa, .middle1, .qb],
    .read [.qc, .middle2, .qd]] ;; (if o.shorter then [.set q1 .qa, .set q2 .qb, .set ci .middle1, .delete .qc,
    .delete .qd, .delete .middle2] else [.set q1 .qc, .set q2 .qd, .set ci .middle2, .delete .qa, .delete .qb,
    .delete .middle1])

/-- The rows of the table in `cc00_circles_dubins_path` (cc00_dubins_state_space.cpp:323-412) in
the order of the path types, and what `get_controls` (cc00_dubins_state_space.cpp:496-532) reads
for the type of the row. -/
def rows : List Row :=
  [
  -- E: line 344
   ⟨fun o => o.taken, fun _ => [], []⟩,
  -- S: line 350, 356
   ⟨fun o => o.taken, fun _ => [], []⟩,
  -- T: line 362
   ⟨fun o => o.taken, fun _ => [.new .cstart [], .read [.cstart]], [.cstart]⟩,
  -- TT: line 369
   ⟨fun o => o.taken, fun o => [.new .cstart [], .new .cend [], .read [.cstart, .cend]] ;; TT_path o o.c1 o.c2 .qi1,
     [.cstart, .qi1, .cend]⟩,
  -- TST: line 377
   ⟨fun o => o.inner || o.outer, fun o => [.new .cstart [], .new .cend [], .read [.cstart, .cend]] ;; TST_path o o.c1
     o.c2 .qi1 .qi2, [.cstart, .qi1, .qi2, .cend]⟩,
  -- TTT: line 385
   ⟨fun o => o.taken, fun o => [.new .cstart [], .new .cend [], .read [.cstart, .cend]] ;; TTT_path o o.c1 o.c2 .qi1
     .qi2 .ci1, [.cstart, .qi1, .ci1, .qi2, .cend]⟩,
  -- TTTT: never filled
   ⟨fun _ => false, fun _ => [], []⟩]

/-- What else the planner does with memory: `cc00_circles_dubins_path` (cc00_dubins_state_space.cpp:323-412),
the planner (cc00_dubins_state_space.cpp:414-486) and the path class (paths.cpp:47-75). -/
def planner : Planner where
  rows := rows
  passed := [.qi1, .qi2, .cstart, .cend, .ci1]
  cleaned := [.qi1, .qi2, .cstart, .ci1, .cend]
  destroyed := [.qi1, .qi2, .qi3, .qi4, .cstart, .cend, .ci1, .ci2]
  circles := 2

end CC00Dubins

namespace CC0pmDubins

/-- `CC0pm_Dubins::TT_tangent_circles` (cc0pm_dubins_state_space.cpp:66-95). -/
def TT_tangent_circles (_o : Tests) (_c1 _c2 : Sides) (q : Var) : List Op :=
  [.new q []]

/-- `CC0pm_Dubins::TT_path` (cc0pm_dubins_state_space.cpp:97-105). -/
def TT_path (o : Tests) (c1 c2 : Sides) (cstart cend q1 q2 : Var) : List Op :=
  TT_tangent_circles o c1 c2 q1 ;; [.new cstart [], .new cend [q1], .new q2 [], .read [cstart, q1, cend, q2]]

/-- `CC0pm_Dubins::TiST_tangent_circles` (cc0pm_dubins_state_space.cpp:141-182). -/
def TiST_tangent_circles (_o : Tests) (c1 _c2 : Sides) (q1 q2 : Var) : List Op :=
  (if c1.left && c1.forward then [.new q1 [], .new q2 []] else []) ;; (if c1.left && !c1.forward then [.new q1 [],
    .new q2 []] else []) ;; (if !c1.left && c1.forward then [.new q1 [], .new q2 []] else []) ;; (if !c1.left &&
    !c1.forward then [.new q1 [], .new q2 []] else [])

/-- `CC0pm_Dubins::TeST_tangent_circles` (cc0pm_dubins_state_space.cpp:184-219). -/
def TeST_tangent_circles (_o : Tests) (c1 _c2 : Sides) (q1 q2 : Var) : List Op :=
  (if c1.left && c1.forward then [.new q1 [], .new q2 []] else []) ;; (if c1.left && !c1.forward then [.new q1 [],
    .new q2 []] else []) ;; (if !c1.left && c1.forward then [.new q1 [], .new q2 []] else []) ;; (if !c1.left &&
    !c1.forward then [.new q1 [], .new q2 []] else [])

/-- `CC0pm_Dubins::TiST_path` (cc0pm_dubins_state_space.cpp:221-229). -/
def TiST_path (o : Tests) (c1 c2 : Sides) (cstart cend q1 q2 q3 : Var) : List Op :=
  TiST_tangent_circles o c1 c2 q1 q2 ;; [.new cstart [], .new cend [q2], .new q3 [], .read [cstart, q1, q2, cend, q3]]

/-- `CC0pm_Dubins::TeST_path` (cc0pm_dubins_state_space.cpp:231-239). -/
def TeST_path (o : Tests) (c1 c2 : Sides) (cstart cend q1 q2 q3 : Var) : List Op :=
  TeST_tangent_circles o c1 c2 q1 q2 ;; [.new cstart [], .new cend [q2], .new q3 [], .read [cstart, q1, q2, cend, q3]]

/-- `CC0pm_Dubins::TST_path` (cc0pm_dubins_state_space.cpp:241-253). -/
def TST_path (o : Tests) (c1 c2 : Sides) (cstart cend q1 q2 q3 : Var) : List Op :=
  (if o.inner then TiST_path o c1 c2 cstart cend q1 q2 q3 else (if o.outer then TeST_path o c1 c2 cstart cend q1 q2 q3
    else []))

/-- `CC0pm_Dubins::TTT_tangent_circles` (cc0pm_dubins_state_space.cpp:269-287). -/
def TTT_tangent_circles (o : Tests) (c1 c2 : Sides) (q1 q2 q3 q4 : Var) : List Op :=
  let tgt1 : Sides := ⟨!c1.left, c1.forward⟩
  let tgt2 : Sides := ⟨!c1.left, c1.forward⟩
  TT_tangent_circles o c1 tgt1 q1 ;; TT_tangent_circles o tgt1 c2 q2 ;; TT_tangent_circles o c1 tgt2 q3 ;;
    TT_tangent_circles o tgt2 c2 q4

/-- `CC0pm_Dubins::TTT_path` (cc0pm_dubins_state_space.cpp:289-331). -/
def TTT_path (o : Tests) (c1 c2 : Sides) (cstart cend q1 q2 q3 ci : Var) : List Op :=
  TTT_tangent_circles o c1 c2 .qa .qb .qc .qd ;; [.new .middle1 [.qa], .new .end1 [.qb], .new .middle2 [.qc],
    .new .end2 [.qd], .new cstart [], .new q3 [], .read [cstart, .qa, .middle1, .qb, .end1, q3],
    .read [cstart, .qc, .middle2, .qd, .end2, q3]] ;; (if o.shorter then [.set cend .end1, .set q1 .qa, .set q2 .qb,
    .set ci .middle1, .delete .qc, .delete .qd, .delete .middle2, .delete .end2] else [.set cend .end2, .set q1 .qc,
    .set q2 .qd, .set ci .middle2, .delete .qa, .delete .qb, .delete .middle1, .delete .end1])

/-- The rows of the table in `cc0pm_circles_dubins_path` (cc0pm_dubins_state_space.cpp:348-426) in
the order of the path types, and what `get_controls` (cc0pm_dubins_state_space.cpp:516-549) reads
for the type of the row. -/
def rows : List Row :=
  [
  -- E: line 372
   ⟨fun o => o.taken, fun _ => [], []⟩,
  -- S: never filled
   ⟨fun _ => false, fun _ => [], []⟩,
  -- T: line 378
   ⟨fun o => o.taken, fun _ => [.new .cstart [], .read [.cstart]], [.cstart]⟩,
  -- TT: line 385
   ⟨fun o => o.taken, fun o => TT_path o o.c1 o.c2 .cstart .cend .qi1 .qi2, [.cstart, .qi1, .cend, .qi2]⟩,
  -- TST: line 392
   ⟨fun o => o.inner || o.outer, fun o => TST_path o o.c1 o.c2 .cstart .cend .qi1 .qi2 .qi3, [.cstart, .qi1, .qi2,
     .cend, .qi3]⟩,
  -- TTT: line 398
   ⟨fun o => o.taken, fun o => TTT_path o o.c1 o.c2 .cstart .cend .qi1 .qi2 .qi3 .ci1, [.cstart, .qi1, .ci1, .qi2,
     .cend, .qi3]⟩,
  -- TTTT: never filled
   ⟨fun _ => false, fun _ => [], []⟩]

/-- What else the planner does with memory: `cc0pm_circles_dubins_path` (cc0pm_dubins_state_space.cpp:348-426),
the planner (cc0pm_dubins_state_space.cpp:428-506) and the path class (paths.cpp:47-75). -/
def planner : Planner where
  rows := rows
  passed := [.qi1, .qi2, .qi3, .cstart, .cend, .ci1]
  cleaned := [.qi1, .qi2, .qi3, .cstart, .ci1, .cend]
  destroyed := [.qi1, .qi2, .qi3, .qi4, .cstart, .cend, .ci1, .ci2]
  circles := 2

end CC0pmDubins

namespace CCpm0Dubins

/-- `CCpm0_Dubins::TT_tangent_circles` (ccpm0_dubins_state_space.cpp:66-95). -/
def TT_tangent_circles (_o : Tests) (_c1 _c2 : Sides) (q : Var) : List Op :=
  [.new q []]

/-- `CCpm0_Dubins::TT_path` (ccpm0_dubins_state_space.cpp:97-105). -/
def TT_path (o : Tests) (c1 c2 : Sides) (cstart cend q1 q2 : Var) : List Op :=
  TT_tangent_circles o c1 c2 q2 ;; [.new cstart [q2], .new cend [], .new q1 [], .read [cstart, q1, cend, q2]]

/-- `CCpm0_Dubins::TiST_tangent_circles` (ccpm0_dubins_state_space.cpp:141-182). -/
def TiST_tangent_circles (_o : Tests) (c1 _c2 : Sides) (q1 q2 : Var) : List Op :=
  (if c1.left && c1.forward then [.new q1 [], .new q2 []] else []) ;; (if c1.left && !c1.forward then [.new q1 [],
    .new q2 []] else []) ;; (if !c1.left && c1.forward then [.new q1 [], .new q2 []] else []) ;; (if !c1.left &&
    !c1.forward then [.new q1 [], .new q2 []] else [])

/-- `CCpm0_Dubins::TeST_tangent_circles` (ccpm0_dubins_state_space.cpp:184-219). -/
def TeST_tangent_circles (_o : Tests) (c1 _c2 : Sides) (q1 q2 : Var) : List Op :=
  (if c1.left && c1.forward then [.new q1 [], .new q2 []] else []) ;; (if c1.left && !c1.forward then [.new q1 [],
    .new q2 []] else []) ;; (if !c1.left && c1.forward then [.new q1 [], .new q2 []] else []) ;; (if !c1.left &&
    !c1.forward then [.new q1 [], .new q2 []] else [])

/-- `CCpm0_Dubins::TiST_path` (ccpm0_dubins_state_space.cpp:221-229). -/
def TiST_path (o : Tests) (c1 c2 : Sides) (cstart cend q1 q2 q3 : Var) : List Op :=
  TiST_tangent_circles o c1 c2 q2 q3 ;; [.new cstart [q2], .new cend [], .new q1 [], .read [cstart, q1, q2, q3, cend]]

/-- `CCpm0_Dubins::TeST_path` (ccpm0_dubins_state_space.cpp:231-239). -/
def TeST_path (o : Tests) (c1 c2 : Sides) (cstart cend q1 q2 q3 : Var) : List Op :=
  TeST_tangent_circles o c1 c2 q2 q3 ;; [.new cstart [q2], .new cend [], .new q1 [], .read [cstart, q1, q2, q3, cend]]

/-- `CCpm0_Dubins::TST_path` (ccpm0_dubins_state_space.cpp:241-253). -/
def TST_path (o : Tests) (c1 c2 : Sides) (cstart cend q1 q2 q3 : Var) : List Op :=
  (if o.inner then TiST_path o c1 c2 cstart cend q1 q2 q3 else (if o.outer then TeST_path o c1 c2 cstart cend q1 q2 q3
    else []))

/-- `CCpm0_Dubins::TTT_tangent_circles` (ccpm0_dubins_state_space.cpp:269-287). -/
def TTT_tangent_circles (o : Tests) (c1 c2 : Sides) (q1 q2 q3 q4 : Var) : List Op :=
  let tgt1 : Sides := ⟨!c1.left, c1.forward⟩
  let tgt2 : Sides := ⟨!c1.left, c1.forward⟩
  TT_tangent_circles o c1 tgt1 q1 ;; TT_tangent_circles o tgt1 c2 q2 ;; TT_tangent_circles o c1 tgt2 q3 ;;
    TT_tangent_circles o tgt2 c2 q4

/-- `CCpm0_Dubins::TTT_path` (ccpm0_dubins_state_space.cpp:289-331). -/
def TTT_path (o : Tests) (c1 c2 : Sides) (cstart cend q1 q2 ci : Var) : List Op :=
  TTT_tangent_circles o c1 c2 .qa .qb .qc .qd ;; [.new .start1 [.qa], .new .middle1 [.qa], .new .start2 [.qc],
    .new .middle2 [.qc], .new cend [], .new q1 [], .read [.start1, q1, .middle1, .qb, cend],
    .read [.start2, q1, .middle2, .qd, cend]] ;; (if o.shorter then [.set cstart .start1, .set q2 .qb,
    .set ci .middle1, .delete .qa, .delete .qc, .delete .qd, .delete .start2, .delete .middle2] else
    [.set cstart .start2, .set q2 .qd, .set ci .middle2, .delete .qa, .delete .qb, .delete .qc, .delete .start1,
    .delete .middle1])

/-- The rows of the table in `ccpm0_circles_dubins_path` (ccpm0_dubins_state_space.cpp:348-425) in
the order of the path types, and what `get_controls` (ccpm0_dubins_state_space.cpp:515-548) reads
for the type of the row. -/
def rows : List Row :=
  [
  -- E: line 372
   ⟨fun o => o.taken, fun _ => [], []⟩,
  -- S: never filled
   ⟨fun _ => false, fun _ => [], []⟩,
  -- T: line 378
   ⟨fun o => o.taken, fun _ => [.new .cend [], .read [.cend]], [.cend]⟩,
  -- TT: line 385
   ⟨fun o => o.taken, fun o => TT_path o o.c1 o.c2 .cstart .cend .qi1 .qi2, [.cstart, .qi1, .cend, .qi2]⟩,
  -- TST: line 392
   ⟨fun o => o.inner || o.outer, fun o => TST_path o o.c1 o.c2 .cstart .cend .qi1 .qi2 .qi3, [.cstart, .qi1, .qi2,
     .qi3, .cend]⟩,
  -- TTT: line 398
   ⟨fun o => o.taken, fun o => TTT_path o o.c1 o.c2 .cstart .cend .qi1 .qi2 .ci1, [.cstart, .qi1, .ci1, .qi2, .cend]⟩,
  -- TTTT: never filled
   ⟨fun _ => false, fun _ => [], []⟩]

/-- What else the planner does with memory: `ccpm0_circles_dubins_path` (ccpm0_dubins_state_space.cpp:348-425),
the planner (ccpm0_dubins_state_space.cpp:427-505) and the path class (paths.cpp:47-75). -/
def planner : Planner where
  rows := rows
  passed := [.qi1, .qi2, .qi3, .cstart, .cend, .ci1]
  cleaned := [.qi1, .qi2, .qi3, .cstart, .ci1, .cend]
  destroyed := [.qi1, .qi2, .qi3, .qi4, .cstart, .cend, .ci1, .ci2]
  circles := 2

end CCpm0Dubins

namespace CCpmpmDubins

/-- `CCpmpm_Dubins::TT_tangent_circles` (ccpmpm_dubins_state_space.cpp:66-95). -/
def TT_tangent_circles (_o : Tests) (_c1 _c2 : Sides) (q : Var) : List Op :=
  [.new q []]

/-- `CCpmpm_Dubins::TT_path` (ccpmpm_dubins_state_space.cpp:97-106). -/
def TT_path (o : Tests) (c1 c2 : Sides) (cstart cend q1 q2 q3 : Var) : List Op :=
  TT_tangent_circles o c1 c2 q2 ;; [.new cstart [q2], .new cend [q2], .new q1 [], .new q3 [],
    .read [cstart, q1, cend, q3]]

/-- `CCpmpm_Dubins::TiST_tangent_circles` (ccpmpm_dubins_state_space.cpp:142-183). -/
def TiST_tangent_circles (_o : Tests) (c1 _c2 : Sides) (q1 q2 : Var) : List Op :=
  (if c1.left && c1.forward then [.new q1 [], .new q2 []] else []) ;; (if c1.left && !c1.forward then [.new q1 [],
    .new q2 []] else []) ;; (if !c1.left && c1.forward then [.new q1 [], .new q2 []] else []) ;; (if !c1.left &&
    !c1.forward then [.new q1 [], .new q2 []] else [])

/-- `CCpmpm_Dubins::TeST_tangent_circles` (ccpmpm_dubins_state_space.cpp:185-220). -/
def TeST_tangent_circles (_o : Tests) (c1 _c2 : Sides) (q1 q2 : Var) : List Op :=
  (if c1.left && c1.forward then [.new q1 [], .new q2 []] else []) ;; (if c1.left && !c1.forward then [.new q1 [],
    .new q2 []] else []) ;; (if !c1.left && c1.forward then [.new q1 [], .new q2 []] else []) ;; (if !c1.left &&
    !c1.forward then [.new q1 [], .new q2 []] else [])

/-- `CCpmpm_Dubins::TiST_path` (ccpmpm_dubins_state_space.cpp:222-231). -/
def TiST_path (o : Tests) (c1 c2 : Sides) (cstart cend q1 q2 q3 q4 : Var) : List Op :=
  TiST_tangent_circles o c1 c2 q2 q3 ;; [.new cstart [q2], .new cend [q3], .new q1 [], .new q4 [],
    .read [cstart, q1, q2, q3, cend, q4]]

/-- `CCpmpm_Dubins::TeST_path` (ccpmpm_dubins_state_space.cpp:233-242). -/
def TeST_path (o : Tests) (c1 c2 : Sides) (cstart cend q1 q2 q3 q4 : Var) : List Op :=
  TeST_tangent_circles o c1 c2 q2 q3 ;; [.new cstart [q2], .new cend [q3], .new q1 [], .new q4 [],
    .read [cstart, q1, q2, q3, cend, q4]]

/-- `CCpmpm_Dubins::TST_path` (ccpmpm_dubins_state_space.cpp:244-256). -/
def TST_path (o : Tests) (c1 c2 : Sides) (cstart cend q1 q2 q3 q4 : Var) : List Op :=
  (if o.inner then TiST_path o c1 c2 cstart cend q1 q2 q3 q4 else (if o.outer then TeST_path o c1 c2 cstart cend q1 q2
    q3 q4 else []))

/-- `CCpmpm_Dubins::TTT_tangent_circles` (ccpmpm_dubins_state_space.cpp:272-290). -/
def TTT_tangent_circles (o : Tests) (c1 c2 : Sides) (q1 q2 q3 q4 : Var) : List Op :=
  let tgt1 : Sides := ⟨!c1.left, c1.forward⟩
  let tgt2 : Sides := ⟨!c1.left, c1.forward⟩
  TT_tangent_circles o c1 tgt1 q1 ;; TT_tangent_circles o tgt1 c2 q2 ;; TT_tangent_circles o c1 tgt2 q3 ;;
    TT_tangent_circles o tgt2 c2 q4

/-- `CCpmpm_Dubins::TTT_path` (ccpmpm_dubins_state_space.cpp:292-340). -/
def TTT_path (o : Tests) (c1 c2 : Sides) (cstart cend q1 q2 q3 ci : Var) : List Op :=
  TTT_tangent_circles o c1 c2 .qa .qb .qc .qd ;; [.new .start1 [.qa], .new .middle1 [.qa], .new .end1 [.qb],
    .new .start2 [.qc], .new .middle2 [.qc], .new .end2 [.qd], .new q1 [], .new q3 [],
    .read [.start1, q1, .middle1, .qb, .end1, q3], .read [.start2, q1, .middle2, .qd, .end2, q3]] ;; (if o.shorter then
    [.set cstart .start1, .set ci .middle1, .set cend .end1, .set q2 .qb, .delete .qa, .delete .qc, .delete .qd,
    .delete .start2, .delete .middle2, .delete .end2] else [.set cstart .start2, .set ci .middle2, .set cend .end2,
    .set q2 .qd, .delete .qa, .delete .qb, .delete .qc, .delete .start1, .delete .middle1, .delete .end1])

/-- `CCpmpm_Dubins::TTTT_tangent_circles` (ccpmpm_dubins_state_space.cpp:358-392). -/
def TTTT_tangent_circles (o : Tests) (c1 c2 : Sides) (q1 q2 q3 q4 q5 q6 : Var) : List Op :=
  let tgt1 : Sides := ⟨!c1.left, c1.forward⟩
  let tgt2 : Sides := ⟨!c2.left, !c2.forward⟩
  let tgt3 : Sides := ⟨!c1.left, c1.forward⟩
  let tgt4 : Sides := ⟨!c2.left, !c2.forward⟩
  TT_tangent_circles o c1 tgt1 q1 ;; TT_tangent_circles o tgt1 tgt2 q2 ;; TT_tangent_circles o tgt2 c2 q3 ;;
    TT_tangent_circles o c1 tgt3 q4 ;; TT_tangent_circles o tgt3 tgt4 q5 ;; TT_tangent_circles o tgt4 c2 q6

/-- `CCpmpm_Dubins::TTTT_path` (ccpmpm_dubins_state_space.cpp:394-453). -/
def TTTT_path (o : Tests) (c1 c2 : Sides) (cstart cend q1 q2 q3 ci1 ci2 : Var) : List Op :=
  TTTT_tangent_circles o c1 c2 .qa .qb .qc .qd .qe .qf ;; [.new .start1 [.qa], .new .middle1 [.qa],
    .new .middle2 [.qc], .new .end1 [.qc], .new .start2 [.qd], .new .middle3 [.qd], .new .middle4 [.qf],
    .new .end2 [.qf], .new q1 [], .new q3 [], .read [.start1, q1, .middle1, .qb, .middle2, .end1, q3],
    .read [.start2, q1, .middle3, .qe, .middle4, .end2, q3]] ;; (if o.shorter then [.set cstart .start1,
    .set cend .end1, .set ci1 .middle1, .set ci2 .middle2, .set q2 .qb, .delete .qa, .delete .qc, .delete .qd,
    .delete .qe, .delete .qf, .delete .start2, .delete .end2, .delete .middle3, .delete .middle4] else
    [.set cstart .start2, .set cend .end2, .set ci1 .middle3, .set ci2 .middle4, .set q2 .qe, .delete .qa, .delete .qb,
    .delete .qc, .delete .qd, .delete .qf, .delete .start1, .delete .end1, .delete .middle1, .delete .middle2])

/-- The rows of the table in `ccpmpm_circles_dubins_path` (ccpmpm_dubins_state_space.cpp:472-565) in
the order of the path types, and what `get_controls` (ccpmpm_dubins_state_space.cpp:661-701) reads
for the type of the row. -/
def rows : List Row :=
  [
  -- E: line 500
   ⟨fun o => o.taken, fun _ => [], []⟩,
  -- S: never filled
   ⟨fun _ => false, fun _ => [], []⟩,
  -- T: line 506
   ⟨fun o => o.taken, fun _ => [.new .cstart [], .read [.cstart]], [.cstart]⟩,
  -- TT: line 513
   ⟨fun o => o.taken, fun o => TT_path o o.c1 o.c2 .cstart .cend .qi1 .qi2 .qi3, [.cstart, .qi1, .cend, .qi3]⟩,
  -- TST: line 520
   ⟨fun o => o.inner || o.outer, fun o => TST_path o o.c1 o.c2 .cstart .cend .qi1 .qi2 .qi3 .qi4, [.cstart, .qi1, .qi2,
     .qi3, .cend, .qi4]⟩,
  -- TTT: line 527
   ⟨fun o => o.taken, fun o => TTT_path o o.c1 o.c2 .cstart .cend .qi1 .qi2 .qi3 .ci1, [.cstart, .qi1, .ci1, .qi2,
     .cend, .qi3]⟩,
  -- TTTT: line 535
   ⟨fun o => o.taken, fun o => TTTT_path o o.c1 o.c2 .cstart .cend .qi1 .qi2 .qi3 .ci1 .ci2, [.cstart, .qi1, .ci1,
     .qi2, .ci2, .cend, .qi3]⟩]

/-- What else the planner does with memory: `ccpmpm_circles_dubins_path` (ccpmpm_dubins_state_space.cpp:472-565),
the planner (ccpmpm_dubins_state_space.cpp:567-651) and the path class (paths.cpp:47-75). -/
def planner : Planner where
  rows := rows
  passed := [.qi1, .qi2, .qi3, .qi4, .cstart, .cend, .ci1, .ci2]
  cleaned := [.qi1, .qi2, .qi3, .qi4, .cstart, .ci1, .ci2, .cend]
  destroyed := [.qi1, .qi2, .qi3, .qi4, .cstart, .cend, .ci1, .ci2]
  circles := 2

end CCpmpmDubins

end SF.Mem
