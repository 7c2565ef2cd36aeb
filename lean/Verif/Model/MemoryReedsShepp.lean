import Verif.Model.Memory

/-!
# Memory operations of the continuous-curvature and hybrid-curvature Reeds-Shepp planners

One definition per C++ function, one operation per `new`, `delete`, assignment of a pointer and read through a
pointer, see `Verif.Model.Memory`. All files are in `/repo/src/hc_cc_state_space`.
-/

set_option linter.constructorNameAsVariable false

namespace SF.Mem

namespace CC00ReedsShepp

/-- `CC00_Reeds_Shepp::TT_tangent_circles` (cc00_reeds_shepp_state_space.cpp:68-97). -/
def TT_tangent_circles (_o : Tests) (_c1 _c2 : Sides) (q : Var) : List Op :=
  [.new q []]

/-- `CC00_Reeds_Shepp::TT_path` (cc00_reeds_shepp_state_space.cpp:99-103). -/
def TT_path (o : Tests) (c1 c2 : Sides) (q : Var) : List Op :=
  TT_tangent_circles o c1 c2 q ;; [.read [q]]

/-- `CC00_Reeds_Shepp::TcT_tangent_circles` (cc00_reeds_shepp_state_space.cpp:119-153). -/
def TcT_tangent_circles (_o : Tests) (_c1 _c2 : Sides) (q : Var) : List Op :=
  [.new q []]

/-- `CC00_Reeds_Shepp::TcT_path` (cc00_reeds_shepp_state_space.cpp:155-159). -/
def TcT_path (o : Tests) (c1 c2 : Sides) (q : Var) : List Op :=
  TcT_tangent_circles o c1 c2 q ;; [.read [q]]

/-- `CC00_Reeds_Shepp::TcTcT_tangent_circles` (cc00_reeds_shepp_state_space.cpp:177-195). -/
def TcTcT_tangent_circles (o : Tests) (c1 c2 : Sides) (q1 q2 q3 q4 : Var) : List Op :=
  let tgt1 : Sides := ⟨!c1.left, !c1.forward⟩
  let tgt2 : Sides := ⟨!c1.left, !c1.forward⟩
  TcT_tangent_circles o c1 tgt1 q1 ;; TcT_tangent_circles o tgt1 c2 q2 ;; TcT_tangent_circles o c1 tgt2 q3 ;;
    TcT_tangent_circles o tgt2 c2 q4

/-- `CC00_Reeds_Shepp::TcTcT_path` (cc00_reeds_shepp_state_space.cpp:197-230). -/
def TcTcT_path (o : Tests) (c1 c2 : Sides) (q1 q2 ci : Var) : List Op :=
  TcTcT_tangent_circles o c1 c2 .qa .qb .qc .qd ;; [.new .middle1 [.qa], .new .middle2 [.qc],
    .read [.qa, .middle1, .qb], .read [.qc, .middle2, .qd]] ;; (if o.shorter then [.set q1 .qa, .set q2 .qb,
    .set ci .middle1, .delete .qc, .delete .qd, .delete .middle2] else [.set q1 .qc, .set q2 .qd, .set ci .middle2,
    .delete .qa, .delete .qb, .delete .middle1])

/-- `CC00_Reeds_Shepp::TcTT_tangent_circles` (cc00_reeds_shepp_state_space.cpp:246-265). -/
def TcTT_tangent_circles (o : Tests) (c1 c2 : Sides) (q1 q2 q3 q4 : Var) : List Op :=
  let tgt1 : Sides := ⟨!c1.left, !c1.forward⟩
  let tgt2 : Sides := ⟨!c1.left, !c1.forward⟩
  TcT_tangent_circles o c1 tgt1 q1 ;; TT_tangent_circles o tgt1 c2 q2 ;; TcT_tangent_circles o c1 tgt2 q3 ;;
    TT_tangent_circles o tgt2 c2 q4

/-- `CC00_Reeds_Shepp::TcTT_path` (cc00_reeds_shepp_state_space.cpp:267-300). -/
def TcTT_path (o : Tests) (c1 c2 : Sides) (q1 q2 ci : Var) : List Op :=
  TcTT_tangent_circles o c1 c2 .qa .qb .qc .qd ;; [.new .middle1 [.qa], .new .middle2 [.qc],
    .read [.qa, .middle1, .qb], .read [.qc, .middle2, .qd]] ;; (if o.shorter then [.set q1 .qa, .set q2 .qb,
    .set ci .middle1, .delete .qc, .delete .qd, .delete .middle2] else [.set q1 .qc, .set q2 .qd, .set ci .middle2,
    .delete .qa, .delete .qb, .delete .middle1])

/-- `CC00_Reeds_Shepp::TTcT_tangent_circles` (cc00_reeds_shepp_state_space.cpp:316-335). -/
def TTcT_tangent_circles (o : Tests) (c1 c2 : Sides) (q1 q2 q3 q4 : Var) : List Op :=
  let tgt1 : Sides := ⟨!c1.left, c1.forward⟩
  let tgt2 : Sides := ⟨!c1.left, c1.forward⟩
  TT_tangent_circles o c1 tgt1 q1 ;; TcT_tangent_circles o tgt1 c2 q2 ;; TT_tangent_circles o c1 tgt2 q3 ;;
    TcT_tangent_circles o tgt2 c2 q4

/-- `CC00_Reeds_Shepp::TTcT_path` (cc00_reeds_shepp_state_space.cpp:337-370). -/
def TTcT_path (o : Tests) (c1 c2 : Sides) (q1 q2 ci : Var) : List Op :=
  TTcT_tangent_circles o c1 c2 .qa .qb .qc .qd ;; [.new .middle1 [.qa], .new .middle2 [.qc],
    .read [.qa, .middle1, .qb], .read [.qc, .middle2, .qd]] ;; (if o.shorter then [.set q1 .qa, .set q2 .qb,
    .set ci .middle1, .delete .qc, .delete .qd, .delete .middle2] else [.set q1 .qc, .set q2 .qd, .set ci .middle2,
    .delete .qa, .delete .qb, .delete .middle1])

/-- `CC00_Reeds_Shepp::TiST_tangent_circles` (cc00_reeds_shepp_state_space.cpp:405-446). -/
def TiST_tangent_circles (_o : Tests) (c1 _c2 : Sides) (q1 q2 : Var) : List Op :=
  (if c1.left && c1.forward then [.new q1 [], .new q2 []] else []) ;; (if c1.left && !c1.forward then [.new q1 [],
    .new q2 []] else []) ;; (if !c1.left && c1.forward then [.new q1 [], .new q2 []] else []) ;; (if !c1.left &&
    !c1.forward then [.new q1 [], .new q2 []] else [])

/-- `CC00_Reeds_Shepp::TeST_tangent_circles` (cc00_reeds_shepp_state_space.cpp:448-483). -/
def TeST_tangent_circles (_o : Tests) (c1 _c2 : Sides) (q1 q2 : Var) : List Op :=
  (if c1.left && c1.forward then [.new q1 [], .new q2 []] else []) ;; (if c1.left && !c1.forward then [.new q1 [],
    .new q2 []] else []) ;; (if !c1.left && c1.forward then [.new q1 [], .new q2 []] else []) ;; (if !c1.left &&
    !c1.forward then [.new q1 [], .new q2 []] else [])

/-- `CC00_Reeds_Shepp::TiST_path` (cc00_reeds_shepp_state_space.cpp:485-489). -/
def TiST_path (o : Tests) (c1 c2 : Sides) (q1 q2 : Var) : List Op :=
  TiST_tangent_circles o c1 c2 q1 q2 ;; [.read [q1, q2]]

/-- `CC00_Reeds_Shepp::TeST_path` (cc00_reeds_shepp_state_space.cpp:491-495). -/
def TeST_path (o : Tests) (c1 c2 : Sides) (q1 q2 : Var) : List Op :=
  TeST_tangent_circles o c1 c2 q1 q2 ;; [.read [q1, q2]]

/-- `CC00_Reeds_Shepp::TST_path` (cc00_reeds_shepp_state_space.cpp:497-508). -/
def TST_path (o : Tests) (c1 c2 : Sides) (q1 q2 : Var) : List Op :=
  (if o.inner then TiST_path o c1 c2 q1 q2 else (if o.outer then TeST_path o c1 c2 q1 q2 else []))

/-- `CC00_Reeds_Shepp::TiSTcT_path` (cc00_reeds_shepp_state_space.cpp:542-561). -/
def TiSTcT_path (o : Tests) (c1 c2 : Sides) (q1 q2 q3 ci : Var) : List Op :=
  let tgt1 : Sides := ⟨!c2.left, c2.forward⟩
  TiST_tangent_circles o c1 tgt1 q1 q2 ;; TcT_tangent_circles o tgt1 c2 q3 ;; [.new ci [q2], .read [q1, q2, ci, q3]]

/-- `CC00_Reeds_Shepp::TeSTcT_path` (cc00_reeds_shepp_state_space.cpp:563-581). -/
def TeSTcT_path (o : Tests) (c1 c2 : Sides) (q1 q2 q3 ci : Var) : List Op :=
  let tgt1 : Sides := ⟨!c2.left, c2.forward⟩
  TeST_tangent_circles o c1 tgt1 q1 q2 ;; TcT_tangent_circles o tgt1 c2 q3 ;; [.new ci [q2], .read [q1, q2, ci, q3]]

/-- `CC00_Reeds_Shepp::TSTcT_path` (cc00_reeds_shepp_state_space.cpp:583-595). -/
def TSTcT_path (o : Tests) (c1 c2 : Sides) (q1 q2 q3 ci : Var) : List Op :=
  (if o.inner then TiSTcT_path o c1 c2 q1 q2 q3 ci else (if o.outer then TeSTcT_path o c1 c2 q1 q2 q3 ci else []))

/-- `CC00_Reeds_Shepp::TcTiST_path` (cc00_reeds_shepp_state_space.cpp:629-648). -/
def TcTiST_path (o : Tests) (c1 c2 : Sides) (q1 q2 q3 ci : Var) : List Op :=
  let tgt1 : Sides := ⟨!c2.left, !c2.forward⟩
  TcT_tangent_circles o c1 tgt1 q1 ;; TiST_tangent_circles o tgt1 c2 q2 q3 ;; [.new ci [q1], .read [q1, ci, q2, q3]]

/-- `CC00_Reeds_Shepp::TcTeST_path` (cc00_reeds_shepp_state_space.cpp:650-668). -/
def TcTeST_path (o : Tests) (c1 c2 : Sides) (q1 q2 q3 ci : Var) : List Op :=
  let tgt1 : Sides := ⟨c2.left, !c2.forward⟩
  TcT_tangent_circles o c1 tgt1 q1 ;; TeST_tangent_circles o tgt1 c2 q2 q3 ;; [.new ci [q1], .read [q1, ci, q2, q3]]

/-- `CC00_Reeds_Shepp::TcTST_path` (cc00_reeds_shepp_state_space.cpp:670-682). -/
def TcTST_path (o : Tests) (c1 c2 : Sides) (q1 q2 q3 ci : Var) : List Op :=
  (if o.inner then TcTiST_path o c1 c2 q1 q2 q3 ci else (if o.outer then TcTeST_path o c1 c2 q1 q2 q3 ci else []))

/-- `CC00_Reeds_Shepp::TcTiSTcT_path` (cc00_reeds_shepp_state_space.cpp:716-739). -/
def TcTiSTcT_path (o : Tests) (c1 c2 : Sides) (q1 q2 q3 q4 ci1 ci2 : Var) : List Op :=
  let tgt1 : Sides := ⟨!c1.left, !c1.forward⟩
  let tgt2 : Sides := ⟨!c2.left, c2.forward⟩
  TcT_tangent_circles o c1 tgt1 q1 ;; TiST_tangent_circles o tgt1 tgt2 q2 q3 ;; TcT_tangent_circles o tgt2 c2 q4 ;;
    [.new ci1 [q1], .new ci2 [q3], .read [q1, ci1, q2, q3, ci2, q4]]

/-- `CC00_Reeds_Shepp::TcTeSTcT_path` (cc00_reeds_shepp_state_space.cpp:741-763). -/
def TcTeSTcT_path (o : Tests) (c1 c2 : Sides) (q1 q2 q3 q4 ci1 ci2 : Var) : List Op :=
  let tgt1 : Sides := ⟨!c1.left, !c1.forward⟩
  let tgt2 : Sides := ⟨!c2.left, c2.forward⟩
  TcT_tangent_circles o c1 tgt1 q1 ;; TeST_tangent_circles o tgt1 tgt2 q2 q3 ;; TcT_tangent_circles o tgt2 c2 q4 ;;
    [.new ci1 [q1], .new ci2 [q3], .read [q1, ci1, q2, q3, ci2, q4]]

/-- `CC00_Reeds_Shepp::TcTSTcT_path` (cc00_reeds_shepp_state_space.cpp:765-777). -/
def TcTSTcT_path (o : Tests) (c1 c2 : Sides) (q1 q2 q3 q4 ci1 ci2 : Var) : List Op :=
  (if o.inner then TcTiSTcT_path o c1 c2 q1 q2 q3 q4 ci1 ci2 else (if o.outer then TcTeSTcT_path o c1 c2 q1 q2 q3 q4
    ci1 ci2 else []))

/-- `CC00_Reeds_Shepp::TTcTT_tangent_circles` (cc00_reeds_shepp_state_space.cpp:793-828). -/
def TTcTT_tangent_circles (o : Tests) (c1 c2 : Sides) (q1 q2 q3 q4 q5 q6 : Var) : List Op :=
  let tgt1 : Sides := ⟨!c1.left, c1.forward⟩
  let tgt2 : Sides := ⟨!c2.left, !c2.forward⟩
  let tgt3 : Sides := ⟨!c1.left, c1.forward⟩
  let tgt4 : Sides := ⟨!c2.left, !c2.forward⟩
  TT_tangent_circles o c1 tgt1 q1 ;; TcT_tangent_circles o tgt1 tgt2 q2 ;; TT_tangent_circles o tgt2 c2 q3 ;;
    TT_tangent_circles o c1 tgt3 q4 ;; TcT_tangent_circles o tgt3 tgt4 q5 ;; TT_tangent_circles o tgt4 c2 q6

/-- `CC00_Reeds_Shepp::TTcTT_path` (cc00_reeds_shepp_state_space.cpp:830-875). -/
def TTcTT_path (o : Tests) (c1 c2 : Sides) (q1 q2 q3 ci1 ci2 : Var) : List Op :=
  TTcTT_tangent_circles o c1 c2 .qa .qb .qc .qd .qe .qf ;; [.new .middle1 [.qa], .new .middle2 [.qb],
    .new .middle3 [.qd], .new .middle4 [.qe], .read [.qa, .middle1, .qb, .middle2, .qc],
    .read [.qd, .middle3, .qe, .middle4, .qf]] ;; (if o.shorter then [.set q1 .qa, .set q2 .qb, .set q3 .qc,
    .set ci1 .middle1, .set ci2 .middle2, .delete .qd, .delete .qe, .delete .qf, .delete .middle3, .delete .middle4]
    else [.set q1 .qd, .set q2 .qe, .set q3 .qf, .set ci1 .middle3, .set ci2 .middle4, .delete .qa, .delete .qb,
    .delete .qc, .delete .middle1, .delete .middle2])

/-- `CC00_Reeds_Shepp::TcTTcT_tangent_circles` (cc00_reeds_shepp_state_space.cpp:891-918). -/
def TcTTcT_tangent_circles (o : Tests) (c1 c2 : Sides) (q1 q2 q3 q4 q5 q6 : Var) : List Op :=
  let tgt1 : Sides := ⟨!c1.left, !c1.forward⟩
  let tgt2 : Sides := ⟨!c2.left, c2.forward⟩
  let tgt3 : Sides := ⟨!c1.left, !c1.forward⟩
  let tgt4 : Sides := ⟨!c2.left, c2.forward⟩
  TcT_tangent_circles o c1 tgt1 q1 ;; TT_tangent_circles o tgt1 tgt2 q2 ;; TcT_tangent_circles o tgt2 c2 q3 ;;
    TcT_tangent_circles o c1 tgt3 q4 ;; TT_tangent_circles o tgt3 tgt4 q5 ;; TcT_tangent_circles o tgt4 c2 q6

/-- `CC00_Reeds_Shepp::TcTTcT_path` (cc00_reeds_shepp_state_space.cpp:920-965). -/
def TcTTcT_path (o : Tests) (c1 c2 : Sides) (q1 q2 q3 ci1 ci2 : Var) : List Op :=
  TcTTcT_tangent_circles o c1 c2 .qa .qb .qc .qd .qe .qf ;; [.new .middle1 [.qa], .new .middle2 [.qb],
    .new .middle3 [.qd], .new .middle4 [.qe], .read [.qa, .middle1, .qb, .middle2, .qc],
    .read [.qd, .middle3, .qe, .middle4, .qf]] ;; (if o.shorter then [.set q1 .qa, .set q2 .qb, .set q3 .qc,
    .set ci1 .middle1, .set ci2 .middle2, .delete .qd, .delete .qe, .delete .qf, .delete .middle3, .delete .middle4]
    else [.set q1 .qd, .set q2 .qe, .set q3 .qf, .set ci1 .middle3, .set ci2 .middle4, .delete .qa, .delete .qb,
    .delete .qc, .delete .middle1, .delete .middle2])

/-- `CC00_Reeds_Shepp::TTT_tangent_circles` (cc00_reeds_shepp_state_space.cpp:983-1001). -/
def TTT_tangent_circles (o : Tests) (c1 c2 : Sides) (q1 q2 q3 q4 : Var) : List Op :=
  let tgt1 : Sides := ⟨!c1.left, c1.forward⟩
  let tgt2 : Sides := ⟨!c1.left, c1.forward⟩
  TT_tangent_circles o c1 tgt1 q1 ;; TT_tangent_circles o tgt1 c2 q2 ;; TT_tangent_circles o c1 tgt2 q3 ;;
    TT_tangent_circles o tgt2 c2 q4

/-- `CC00_Reeds_Shepp::TTT_path` (cc00_reeds_shepp_state_space.cpp:1003-1036). -/
def TTT_path (o : Tests) (c1 c2 : Sides) (q1 q2 ci : Var) : List Op :=
  TTT_tangent_circles o c1 c2 .qa .qb .qc .qd ;; [.new .middle1 [.qa], .new .middle2 [.qc], .read [.qa, .middle1, .qb],
    .read [.qc, .middle2, .qd]] ;; (if o.shorter then [.set q1 .qa, .set q2 .qb, .set ci .middle1, .delete .qc,
    .delete .qd, .delete .middle2] else [.set q1 .qc, .set q2 .qd, .set ci .middle2, .delete .qa, .delete .qb,
    .delete .middle1])

/-- `CC00_Reeds_Shepp::TciST_path` (cc00_reeds_shepp_state_space.cpp:1070-1109). -/
def TciST_path (_o : Tests) (c1 _c2 : Sides) (q1 q2 : Var) : List Op :=
  (if c1.left && c1.forward then [.new q1 [], .new q2 []] else []) ;; (if c1.left && !c1.forward then [.new q1 [],
    .new q2 []] else []) ;; (if !c1.left && c1.forward then [.new q1 [], .new q2 []] else []) ;; (if !c1.left &&
    !c1.forward then [.new q1 [], .new q2 []] else []) ;; [.read [q1, q2]]

/-- `CC00_Reeds_Shepp::TceST_path` (cc00_reeds_shepp_state_space.cpp:1111-1146). -/
def TceST_path (_o : Tests) (c1 _c2 : Sides) (q1 q2 : Var) : List Op :=
  (if c1.left && c1.forward then [.new q1 [], .new q2 []] else []) ;; (if c1.left && !c1.forward then [.new q1 [],
    .new q2 []] else []) ;; (if !c1.left && c1.forward then [.new q1 [], .new q2 []] else []) ;; (if !c1.left &&
    !c1.forward then [.new q1 [], .new q2 []] else []) ;; [.read [q1, q2]]

/-- `CC00_Reeds_Shepp::TcST_path` (cc00_reeds_shepp_state_space.cpp:1148-1159). -/
def TcST_path (o : Tests) (c1 c2 : Sides) (q1 q2 : Var) : List Op :=
  (if o.inner then TciST_path o c1 c2 q1 q2 else (if o.outer then TceST_path o c1 c2 q1 q2 else []))

/-- `CC00_Reeds_Shepp::TiScT_path` (cc00_reeds_shepp_state_space.cpp:1193-1232). -/
def TiScT_path (_o : Tests) (c1 _c2 : Sides) (q1 q2 : Var) : List Op :=
  (if c1.left && c1.forward then [.new q1 [], .new q2 []] else []) ;; (if c1.left && !c1.forward then [.new q1 [],
    .new q2 []] else []) ;; (if !c1.left && c1.forward then [.new q1 [], .new q2 []] else []) ;; (if !c1.left &&
    !c1.forward then [.new q1 [], .new q2 []] else []) ;; [.read [q1, q2]]

/-- `CC00_Reeds_Shepp::TeScT_path` (cc00_reeds_shepp_state_space.cpp:1234-1269). -/
def TeScT_path (_o : Tests) (c1 _c2 : Sides) (q1 q2 : Var) : List Op :=
  (if c1.left && c1.forward then [.new q1 [], .new q2 []] else []) ;; (if c1.left && !c1.forward then [.new q1 [],
    .new q2 []] else []) ;; (if !c1.left && c1.forward then [.new q1 [], .new q2 []] else []) ;; (if !c1.left &&
    !c1.forward then [.new q1 [], .new q2 []] else []) ;; [.read [q1, q2]]

/-- `CC00_Reeds_Shepp::TScT_path` (cc00_reeds_shepp_state_space.cpp:1271-1282). -/
def TScT_path (o : Tests) (c1 c2 : Sides) (q1 q2 : Var) : List Op :=
  (if o.inner then TiScT_path o c1 c2 q1 q2 else (if o.outer then TeScT_path o c1 c2 q1 q2 else []))

/-- `CC00_Reeds_Shepp::TciScT_path` (cc00_reeds_shepp_state_space.cpp:1316-1355). -/
def TciScT_path (_o : Tests) (c1 _c2 : Sides) (q1 q2 : Var) : List Op :=
  (if c1.left && c1.forward then [.new q1 [], .new q2 []] else []) ;; (if c1.left && !c1.forward then [.new q1 [],
    .new q2 []] else []) ;; (if !c1.left && c1.forward then [.new q1 [], .new q2 []] else []) ;; (if !c1.left &&
    !c1.forward then [.new q1 [], .new q2 []] else []) ;; [.read [q1, q2]]

/-- `CC00_Reeds_Shepp::TceScT_path` (cc00_reeds_shepp_state_space.cpp:1357-1392). -/
def TceScT_path (_o : Tests) (c1 _c2 : Sides) (q1 q2 : Var) : List Op :=
  (if c1.left && c1.forward then [.new q1 [], .new q2 []] else []) ;; (if c1.left && !c1.forward then [.new q1 [],
    .new q2 []] else []) ;; (if !c1.left && c1.forward then [.new q1 [], .new q2 []] else []) ;; (if !c1.left &&
    !c1.forward then [.new q1 [], .new q2 []] else []) ;; [.read [q1, q2]]

/-- `CC00_Reeds_Shepp::TcScT_path` (cc00_reeds_shepp_state_space.cpp:1394-1405). -/
def TcScT_path (o : Tests) (c1 c2 : Sides) (q1 q2 : Var) : List Op :=
  (if o.inner then TciScT_path o c1 c2 q1 q2 else (if o.outer then TceScT_path o c1 c2 q1 q2 else []))

/-- The rows of the table in `cc00_circles_rs_path` (cc00_reeds_shepp_state_space.cpp:1418-1622) in
the order of the path types, and what `get_controls` (cc00_reeds_shepp_state_space.cpp:1705-1783) reads
for the type of the row. -/
def rows : List Row :=
  [
  -- E: line 1445
   ⟨fun o => o.taken, fun _ => [], []⟩,
  -- S: line 1451, 1457
   ⟨fun o => o.taken, fun _ => [], []⟩,
  -- T: line 1463
   ⟨fun o => o.taken, fun _ => [.new .cstart [], .read [.cstart]], [.cstart]⟩,
  -- TT: line 1470
   ⟨fun o => o.taken, fun o => [.new .cstart [], .new .cend [], .read [.cstart, .cend]] ;; TT_path o o.c1 o.c2 .qi1,
     [.cstart, .qi1, .cend]⟩,
  -- TcT: line 1477
   ⟨fun o => o.taken, fun o => [.new .cstart [], .new .cend [], .read [.cstart, .cend]] ;; TcT_path o o.c1 o.c2 .qi1,
     [.cstart, .qi1, .cend]⟩,
  -- TcTcT: line 1486
   ⟨fun o => o.taken, fun o => [.new .cstart [], .new .cend [], .read [.cstart, .cend]] ;; TcTcT_path o o.c1 o.c2 .qi1
     .qi2 .ci1, [.cstart, .qi1, .ci1, .qi2, .cend]⟩,
  -- TcTT: line 1495
   ⟨fun o => o.taken, fun o => [.new .cstart [], .new .cend [], .read [.cstart, .cend]] ;; TcTT_path o o.c1 o.c2 .qi1
     .qi2 .ci1, [.cstart, .qi1, .ci1, .qi2, .cend]⟩,
  -- TTcT: line 1504
   ⟨fun o => o.taken, fun o => [.new .cstart [], .new .cend [], .read [.cstart, .cend]] ;; TTcT_path o o.c1 o.c2 .qi1
     .qi2 .ci1, [.cstart, .qi1, .ci1, .qi2, .cend]⟩,
  -- TST: line 1513
   ⟨fun o => o.inner || o.outer, fun o => [.new .cstart [], .new .cend [], .read [.cstart, .cend]] ;; TST_path o o.c1
     o.c2 .qi1 .qi2, [.cstart, .qi1, .qi2, .cend]⟩,
  -- TSTcT: line 1521
   ⟨fun o => o.inner || o.outer, fun o => [.new .cstart [], .new .cend [], .read [.cstart, .cend]] ;; TSTcT_path o o.c1
     o.c2 .qi1 .qi2 .qi3 .ci1, [.cstart, .qi1, .qi2, .ci1, .qi3, .cend]⟩,
  -- TcTST: line 1530
   ⟨fun o => o.inner || o.outer, fun o => [.new .cstart [], .new .cend [], .read [.cstart, .cend]] ;; TcTST_path o o.c1
     o.c2 .qi1 .qi2 .qi3 .ci1, [.cstart, .qi1, .ci1, .qi2, .qi3, .cend]⟩,
  -- TcTSTcT: line 1539
   ⟨fun o => o.inner || o.outer, fun o => [.new .cstart [], .new .cend [], .read [.cstart, .cend]] ;; TcTSTcT_path o
     o.c1 o.c2 .qi1 .qi2 .qi3 .qi4 .ci1 .ci2, [.cstart, .qi1, .ci1, .qi2, .qi3, .ci2, .qi4, .cend]⟩,
  -- TTcTT: line 1548
   ⟨fun o => o.taken, fun o => [.new .cstart [], .new .cend [], .read [.cstart, .cend]] ;; TTcTT_path o o.c1 o.c2 .qi1
     .qi2 .qi3 .ci1 .ci2, [.cstart, .qi1, .ci1, .qi2, .ci2, .qi3, .cend]⟩,
  -- TcTTcT: line 1557
   ⟨fun o => o.taken, fun o => [.new .cstart [], .new .cend [], .read [.cstart, .cend]] ;; TcTTcT_path o o.c1 o.c2 .qi1
     .qi2 .qi3 .ci1 .ci2, [.cstart, .qi1, .ci1, .qi2, .ci2, .qi3, .cend]⟩,
  -- TTT: line 1567
   ⟨fun o => o.taken, fun o => [.new .cstart [], .new .cend [], .read [.cstart, .cend]] ;; TTT_path o o.c1 o.c2 .qi1
     .qi2 .ci1, [.cstart, .qi1, .ci1, .qi2, .cend]⟩,
  -- TcST: line 1575
   ⟨fun o => o.inner || o.outer, fun o => [.new .cstart [], .new .cend [], .read [.cstart, .cend]] ;; TcST_path o o.c1
     o.c2 .qi1 .qi2, [.cstart, .qi1, .qi2, .cend]⟩,
  -- TScT: line 1583
   ⟨fun o => o.inner || o.outer, fun o => [.new .cstart [], .new .cend [], .read [.cstart, .cend]] ;; TScT_path o o.c1
     o.c2 .qi1 .qi2, [.cstart, .qi1, .qi2, .cend]⟩,
  -- TcScT: line 1591
   ⟨fun o => o.inner || o.outer, fun o => [.new .cstart [], .new .cend [], .read [.cstart, .cend]] ;; TcScT_path o o.c1
     o.c2 .qi1 .qi2, [.cstart, .qi1, .qi2, .cend]⟩]

/-- What else the planner does with memory: `cc00_circles_rs_path` (cc00_reeds_shepp_state_space.cpp:1418-1622),
the planner (cc00_reeds_shepp_state_space.cpp:1624-1695) and the path class (paths.cpp:138-166). -/
def planner : Planner where
  rows := rows
  passed := [.qi1, .qi2, .qi3, .qi4, .cstart, .cend, .ci1, .ci2]
  cleaned := [.qi1, .qi2, .qi3, .qi4, .cstart, .ci1, .ci2, .cend]
  destroyed := [.qi1, .qi2, .qi3, .qi4, .cstart, .ci1, .ci2, .cend]
  circles := 4

end CC00ReedsShepp

namespace HC00

/-- `HC00_Reeds_Shepp::TT_tangent_circles` (hc00_reeds_shepp_state_space.cpp:68-97). -/
def TT_tangent_circles (_o : Tests) (_c1 _c2 : Sides) (q : Var) : List Op :=
  [.new q []]

/-- `HC00_Reeds_Shepp::TT_path` (hc00_reeds_shepp_state_space.cpp:99-106). -/
def TT_path (o : Tests) (c1 c2 : Sides) (cstart cend q : Var) : List Op :=
  TT_tangent_circles o c1 c2 q ;; [.new cstart [], .new cend [], .read [cstart, q, cend]]

/-- `HC00_Reeds_Shepp::TcT_tangent_circles` (hc00_reeds_shepp_state_space.cpp:122-156). -/
def TcT_tangent_circles (_o : Tests) (_c1 _c2 : Sides) (q : Var) : List Op :=
  [.new q []]

/-- `HC00_Reeds_Shepp::TcT_path` (hc00_reeds_shepp_state_space.cpp:158-165). -/
def TcT_path (o : Tests) (c1 c2 : Sides) (cstart cend q : Var) : List Op :=
  TcT_tangent_circles o c1 c2 q ;; [.new cstart [], .new cend [], .read [cstart, q, cend]]

/-- `HC00_Reeds_Shepp::TcTcT_tangent_circles` (hc00_reeds_shepp_state_space.cpp:183-201). -/
def TcTcT_tangent_circles (o : Tests) (c1 c2 : Sides) (q1 q2 q3 q4 : Var) : List Op :=
  let tgt1 : Sides := ⟨!c1.left, !c1.forward⟩
  let tgt2 : Sides := ⟨!c1.left, !c1.forward⟩
  TcT_tangent_circles o c1 tgt1 q1 ;; TcT_tangent_circles o tgt1 c2 q2 ;; TcT_tangent_circles o c1 tgt2 q3 ;;
    TcT_tangent_circles o tgt2 c2 q4

/-- `HC00_Reeds_Shepp::TcTcT_path` (hc00_reeds_shepp_state_space.cpp:203-239). -/
def TcTcT_path (o : Tests) (c1 c2 : Sides) (cstart cend q1 q2 ci : Var) : List Op :=
  TcTcT_tangent_circles o c1 c2 .qa .qb .qc .qd ;; [.new .middle1 [.qa], .new .middle2 [.qc], .new cstart [],
    .new cend [], .read [cstart, .qa, .middle1, .qb, cend], .read [cstart, .qc, .middle2, .qd, cend]] ;; (if o.shorter
    then [.set q1 .qa, .set q2 .qb, .set ci .middle1, .delete .qc, .delete .qd, .delete .middle2] else [.set q1 .qc,
    .set q2 .qd, .set ci .middle2, .delete .qa, .delete .qb, .delete .middle1])

/-- `HC00_Reeds_Shepp::TcTT_tangent_circles` (hc00_reeds_shepp_state_space.cpp:255-274). -/
def TcTT_tangent_circles (o : Tests) (c1 c2 : Sides) (q1 q2 q3 q4 : Var) : List Op :=
  let tgt1 : Sides := ⟨!c1.left, !c1.forward⟩
  let tgt2 : Sides := ⟨!c1.left, !c1.forward⟩
  TcT_tangent_circles o c1 tgt1 q1 ;; TT_tangent_circles o tgt1 c2 q2 ;; TcT_tangent_circles o c1 tgt2 q3 ;;
    TT_tangent_circles o tgt2 c2 q4

/-- `HC00_Reeds_Shepp::TcTT_path` (hc00_reeds_shepp_state_space.cpp:276-312). -/
def TcTT_path (o : Tests) (c1 c2 : Sides) (cstart cend q1 q2 ci : Var) : List Op :=
  TcTT_tangent_circles o c1 c2 .qa .qb .qc .qd ;; [.new .middle1 [.qb], .new .middle2 [.qd], .new cstart [],
    .new cend [], .read [cstart, .qa, .middle1, cend, .qb], .read [cstart, .qc, .middle2, cend, .qd]] ;; (if o.shorter
    then [.set q1 .qa, .set q2 .qb, .set ci .middle1, .delete .qc, .delete .qd, .delete .middle2] else [.set q1 .qc,
    .set q2 .qd, .set ci .middle2, .delete .qa, .delete .qb, .delete .middle1])

/-- `HC00_Reeds_Shepp::TTcT_tangent_circles` (hc00_reeds_shepp_state_space.cpp:328-347). -/
def TTcT_tangent_circles (o : Tests) (c1 c2 : Sides) (q1 q2 q3 q4 : Var) : List Op :=
  let tgt1 : Sides := ⟨!c1.left, c1.forward⟩
  let tgt2 : Sides := ⟨!c1.left, c1.forward⟩
  TT_tangent_circles o c1 tgt1 q1 ;; TcT_tangent_circles o tgt1 c2 q2 ;; TT_tangent_circles o c1 tgt2 q3 ;;
    TcT_tangent_circles o tgt2 c2 q4

/-- `HC00_Reeds_Shepp::TTcT_path` (hc00_reeds_shepp_state_space.cpp:349-385). -/
def TTcT_path (o : Tests) (c1 c2 : Sides) (cstart cend q1 q2 ci : Var) : List Op :=
  TTcT_tangent_circles o c1 c2 .qa .qb .qc .qd ;; [.new .middle1 [.qa], .new .middle2 [.qc], .new cstart [],
    .new cend [], .read [cstart, .qa, .middle1, .qb, cend], .read [cstart, .qc, .middle2, .qd, cend]] ;; (if o.shorter
    then [.set q1 .qa, .set q2 .qb, .set ci .middle1, .delete .qc, .delete .qd, .delete .middle2] else [.set q1 .qc,
    .set q2 .qd, .set ci .middle2, .delete .qa, .delete .qb, .delete .middle1])

/-- `HC00_Reeds_Shepp::TiST_tangent_circles` (hc00_reeds_shepp_state_space.cpp:420-461). -/
def TiST_tangent_circles (_o : Tests) (c1 _c2 : Sides) (q1 q2 : Var) : List Op :=
  (if c1.left && c1.forward then [.new q1 [], .new q2 []] else []) ;; (if c1.left && !c1.forward then [.new q1 [],
    .new q2 []] else []) ;; (if !c1.left && c1.forward then [.new q1 [], .new q2 []] else []) ;; (if !c1.left &&
    !c1.forward then [.new q1 [], .new q2 []] else [])

/-- `HC00_Reeds_Shepp::TeST_tangent_circles` (hc00_reeds_shepp_state_space.cpp:463-498). -/
def TeST_tangent_circles (_o : Tests) (c1 _c2 : Sides) (q1 q2 : Var) : List Op :=
  (if c1.left && c1.forward then [.new q1 [], .new q2 []] else []) ;; (if c1.left && !c1.forward then [.new q1 [],
    .new q2 []] else []) ;; (if !c1.left && c1.forward then [.new q1 [], .new q2 []] else []) ;; (if !c1.left &&
    !c1.forward then [.new q1 [], .new q2 []] else [])

/-- `HC00_Reeds_Shepp::TiST_path` (hc00_reeds_shepp_state_space.cpp:500-507). -/
def TiST_path (o : Tests) (c1 c2 : Sides) (cstart cend q1 q2 : Var) : List Op :=
  TiST_tangent_circles o c1 c2 q1 q2 ;; [.new cstart [], .new cend [], .read [cstart, q1, q2, cend]]

/-- `HC00_Reeds_Shepp::TeST_path` (hc00_reeds_shepp_state_space.cpp:509-516). -/
def TeST_path (o : Tests) (c1 c2 : Sides) (cstart cend q1 q2 : Var) : List Op :=
  TeST_tangent_circles o c1 c2 q1 q2 ;; [.new cstart [], .new cend [], .read [cstart, q1, q2, cend]]

/-- `HC00_Reeds_Shepp::TST_path` (hc00_reeds_shepp_state_space.cpp:518-530). -/
def TST_path (o : Tests) (c1 c2 : Sides) (cstart cend q1 q2 : Var) : List Op :=
  (if o.inner then TiST_path o c1 c2 cstart cend q1 q2 else (if o.outer then TeST_path o c1 c2 cstart cend q1 q2 else
    []))

/-- `HC00_Reeds_Shepp::TiSTcT_path` (hc00_reeds_shepp_state_space.cpp:565-585). -/
def TiSTcT_path (o : Tests) (c1 c2 : Sides) (cstart cend q1 q2 q3 ci : Var) : List Op :=
  let tgt1 : Sides := ⟨!c2.left, c2.forward⟩
  TiST_tangent_circles o c1 tgt1 q1 q2 ;; TcT_tangent_circles o tgt1 c2 q3 ;; [.new cstart [], .new cend [],
    .new ci [q2], .read [cstart, q1, q2, ci, q3, cend]]

/-- `HC00_Reeds_Shepp::TeSTcT_path` (hc00_reeds_shepp_state_space.cpp:587-607). -/
def TeSTcT_path (o : Tests) (c1 c2 : Sides) (cstart cend q1 q2 q3 ci : Var) : List Op :=
  let tgt1 : Sides := ⟨!c2.left, c2.forward⟩
  TeST_tangent_circles o c1 tgt1 q1 q2 ;; TcT_tangent_circles o tgt1 c2 q3 ;; [.new cstart [], .new cend [],
    .new ci [q2], .read [cstart, q1, q2, ci, q3, cend]]

/-- `HC00_Reeds_Shepp::TSTcT_path` (hc00_reeds_shepp_state_space.cpp:609-621). -/
def TSTcT_path (o : Tests) (c1 c2 : Sides) (cstart cend q1 q2 q3 ci : Var) : List Op :=
  (if o.inner then TiSTcT_path o c1 c2 cstart cend q1 q2 q3 ci else (if o.outer then TeSTcT_path o c1 c2 cstart cend q1
    q2 q3 ci else []))

/-- `HC00_Reeds_Shepp::TcTiST_path` (hc00_reeds_shepp_state_space.cpp:656-676). -/
def TcTiST_path (o : Tests) (c1 c2 : Sides) (cstart cend q1 q2 q3 ci : Var) : List Op :=
  let tgt1 : Sides := ⟨!c2.left, !c2.forward⟩
  TcT_tangent_circles o c1 tgt1 q1 ;; TiST_tangent_circles o tgt1 c2 q2 q3 ;; [.new cstart [], .new cend [],
    .new ci [q2], .read [cstart, q1, ci, q2, q3, cend]]

/-- `HC00_Reeds_Shepp::TcTeST_path` (hc00_reeds_shepp_state_space.cpp:678-698). -/
def TcTeST_path (o : Tests) (c1 c2 : Sides) (cstart cend q1 q2 q3 ci : Var) : List Op :=
  let tgt1 : Sides := ⟨c2.left, !c2.forward⟩
  TcT_tangent_circles o c1 tgt1 q1 ;; TeST_tangent_circles o tgt1 c2 q2 q3 ;; [.new cstart [], .new cend [],
    .new ci [q2], .read [cstart, q1, ci, q2, q3, cend]]

/-- `HC00_Reeds_Shepp::TcTST_path` (hc00_reeds_shepp_state_space.cpp:700-712). -/
def TcTST_path (o : Tests) (c1 c2 : Sides) (cstart cend q1 q2 q3 ci : Var) : List Op :=
  (if o.inner then TcTiST_path o c1 c2 cstart cend q1 q2 q3 ci else (if o.outer then TcTeST_path o c1 c2 cstart cend q1
    q2 q3 ci else []))

/-- `HC00_Reeds_Shepp::TcTiSTcT_path` (hc00_reeds_shepp_state_space.cpp:747-772). -/
def TcTiSTcT_path (o : Tests) (c1 c2 : Sides) (cstart cend q1 q2 q3 q4 ci1 ci2 : Var) : List Op :=
  let tgt1 : Sides := ⟨!c1.left, !c1.forward⟩
  let tgt2 : Sides := ⟨!c2.left, c2.forward⟩
  TcT_tangent_circles o c1 tgt1 q1 ;; TiST_tangent_circles o tgt1 tgt2 q2 q3 ;; TcT_tangent_circles o tgt2 c2 q4 ;;
    [.new cstart [], .new cend [], .new ci1 [q2], .new ci2 [q3], .read [cstart, q1, ci1, q2, q3, ci2, q4, cend]]

/-- `HC00_Reeds_Shepp::TcTeSTcT_path` (hc00_reeds_shepp_state_space.cpp:774-799). -/
def TcTeSTcT_path (o : Tests) (c1 c2 : Sides) (cstart cend q1 q2 q3 q4 ci1 ci2 : Var) : List Op :=
  let tgt1 : Sides := ⟨!c1.left, !c1.forward⟩
  let tgt2 : Sides := ⟨!c2.left, c2.forward⟩
  TcT_tangent_circles o c1 tgt1 q1 ;; TeST_tangent_circles o tgt1 tgt2 q2 q3 ;; TcT_tangent_circles o tgt2 c2 q4 ;;
    [.new cstart [], .new cend [], .new ci1 [q2], .new ci2 [q3], .read [cstart, q1, ci1, q2, q3, ci2, q4, cend]]

/-- `HC00_Reeds_Shepp::TcTSTcT_path` (hc00_reeds_shepp_state_space.cpp:801-814). -/
def TcTSTcT_path (o : Tests) (c1 c2 : Sides) (cstart cend q1 q2 q3 q4 ci1 ci2 : Var) : List Op :=
  (if o.inner then TcTiSTcT_path o c1 c2 cstart cend q1 q2 q3 q4 ci1 ci2 else (if o.outer then TcTeSTcT_path o c1 c2
    cstart cend q1 q2 q3 q4 ci1 ci2 else []))

/-- `HC00_Reeds_Shepp::TTcTT_tangent_circles` (hc00_reeds_shepp_state_space.cpp:830-864). -/
def TTcTT_tangent_circles (o : Tests) (c1 c2 : Sides) (q1 q2 q3 q4 q5 q6 : Var) : List Op :=
  let tgt1 : Sides := ⟨!c1.left, c1.forward⟩
  let tgt2 : Sides := ⟨!c2.left, !c2.forward⟩
  let tgt3 : Sides := ⟨!c1.left, c1.forward⟩
  let tgt4 : Sides := ⟨!c2.left, !c2.forward⟩
  TT_tangent_circles o c1 tgt1 q1 ;; TcT_tangent_circles o tgt1 tgt2 q2 ;; TT_tangent_circles o tgt2 c2 q3 ;;
    TT_tangent_circles o c1 tgt3 q4 ;; TcT_tangent_circles o tgt3 tgt4 q5 ;; TT_tangent_circles o tgt4 c2 q6

/-- `HC00_Reeds_Shepp::TTcTT_path` (hc00_reeds_shepp_state_space.cpp:866-915). -/
def TTcTT_path (o : Tests) (c1 c2 : Sides) (cstart cend q1 q2 q3 ci1 ci2 : Var) : List Op :=
  TTcTT_tangent_circles o c1 c2 .qa .qb .qc .qd .qe .qf ;; [.new .middle1 [.qa], .new .middle2 [.qc],
    .new .middle3 [.qd], .new .middle4 [.qf], .new cstart [], .new cend [],
    .read [cstart, .qa, .middle1, .qb, .middle2, cend, .qc], .read [cstart, .qd, .middle3, .qe, .middle4, cend, .qf]]
    ;; (if o.shorter then [.set q1 .qa, .set q2 .qb, .set q3 .qc, .set ci1 .middle1, .set ci2 .middle2, .delete .qd,
    .delete .qe, .delete .qf, .delete .middle3, .delete .middle4] else [.set q1 .qd, .set q2 .qe, .set q3 .qf,
    .set ci1 .middle3, .set ci2 .middle4, .delete .qa, .delete .qb, .delete .qc, .delete .middle1, .delete .middle2])

/-- `HC00_Reeds_Shepp::TcTTcT_tangent_circles` (hc00_reeds_shepp_state_space.cpp:931-958). -/
def TcTTcT_tangent_circles (o : Tests) (c1 c2 : Sides) (q1 q2 q3 q4 q5 q6 : Var) : List Op :=
  let tgt1 : Sides := ⟨!c1.left, !c1.forward⟩
  let tgt2 : Sides := ⟨!c2.left, c2.forward⟩
  let tgt3 : Sides := ⟨!c1.left, !c1.forward⟩
  let tgt4 : Sides := ⟨!c2.left, c2.forward⟩
  TcT_tangent_circles o c1 tgt1 q1 ;; TT_tangent_circles o tgt1 tgt2 q2 ;; TcT_tangent_circles o tgt2 c2 q3 ;;
    TcT_tangent_circles o c1 tgt3 q4 ;; TT_tangent_circles o tgt3 tgt4 q5 ;; TcT_tangent_circles o tgt4 c2 q6

/-- `HC00_Reeds_Shepp::TcTTcT_path` (hc00_reeds_shepp_state_space.cpp:960-1009). -/
def TcTTcT_path (o : Tests) (c1 c2 : Sides) (cstart cend q1 q2 q3 ci1 ci2 : Var) : List Op :=
  TcTTcT_tangent_circles o c1 c2 .qa .qb .qc .qd .qe .qf ;; [.new .middle1 [.qb], .new .middle2 [.qb],
    .new .middle3 [.qe], .new .middle4 [.qe], .new cstart [], .new cend [],
    .read [cstart, .qa, .middle1, .middle2, .qc, cend], .read [cstart, .qd, .middle3, .middle4, .qf, cend]] ;; (if
    o.shorter then [.set q1 .qa, .set q2 .qb, .set q3 .qc, .set ci1 .middle1, .set ci2 .middle2, .delete .qd,
    .delete .qe, .delete .qf, .delete .middle3, .delete .middle4] else [.set q1 .qd, .set q2 .qe, .set q3 .qf,
    .set ci1 .middle3, .set ci2 .middle4, .delete .qa, .delete .qb, .delete .qc, .delete .middle1, .delete .middle2])

/-- `HC00_Reeds_Shepp::TTT_tangent_circles` (hc00_reeds_shepp_state_space.cpp:1027-1045). -/
def TTT_tangent_circles (o : Tests) (c1 c2 : Sides) (q1 q2 q3 q4 : Var) : List Op :=
  let tgt1 : Sides := ⟨!c1.left, c1.forward⟩
  let tgt2 : Sides := ⟨!c1.left, c1.forward⟩
  TT_tangent_circles o c1 tgt1 q1 ;; TT_tangent_circles o tgt1 c2 q2 ;; TT_tangent_circles o c1 tgt2 q3 ;;
    TT_tangent_circles o tgt2 c2 q4

/-- `HC00_Reeds_Shepp::TTT_path` (hc00_reeds_shepp_state_space.cpp:1047-1083). -/
def TTT_path (o : Tests) (c1 c2 : Sides) (cstart cend q1 q2 ci : Var) : List Op :=
  TTT_tangent_circles o c1 c2 .qa .qb .qc .qd ;; [.new .middle1 [.qa], .new .middle2 [.qc], .new cstart [],
    .new cend [], .read [cstart, .qa, .middle1, .qb, cend], .read [cstart, .qc, .middle2, .qd, cend]] ;; (if o.shorter
    then [.set q1 .qa, .set q2 .qb, .set ci .middle1, .delete .qc, .delete .qd, .delete .middle2] else [.set q1 .qc,
    .set q2 .qd, .set ci .middle2, .delete .qa, .delete .qb, .delete .middle1])

/-- `HC00_Reeds_Shepp::TciST_path` (hc00_reeds_shepp_state_space.cpp:1117-1161). -/
def TciST_path (_o : Tests) (c1 _c2 : Sides) (cstart cend q1 q2 : Var) : List Op :=
  (if c1.left && c1.forward then [.new q1 [], .new q2 []] else []) ;; (if c1.left && !c1.forward then [.new q1 [],
    .new q2 []] else []) ;; (if !c1.left && c1.forward then [.new q1 [], .new q2 []] else []) ;; (if !c1.left &&
    !c1.forward then [.new q1 [], .new q2 []] else []) ;; [.new cstart [], .new cend [], .read [cstart, q1, q2, cend]]

/-- `HC00_Reeds_Shepp::TceST_path` (hc00_reeds_shepp_state_space.cpp:1163-1207). -/
def TceST_path (_o : Tests) (c1 _c2 : Sides) (cstart cend q1 q2 : Var) : List Op :=
  (if c1.left && c1.forward then [.new q1 [], .new q2 []] else []) ;; (if c1.left && !c1.forward then [.new q1 [],
    .new q2 []] else []) ;; (if !c1.left && c1.forward then [.new q1 [], .new q2 []] else []) ;; (if !c1.left &&
    !c1.forward then [.new q1 [], .new q2 []] else []) ;; [.new cstart [], .new cend [], .read [cstart, q1, q2, cend]]

/-- `HC00_Reeds_Shepp::TcST_path` (hc00_reeds_shepp_state_space.cpp:1209-1221). -/
def TcST_path (o : Tests) (c1 c2 : Sides) (cstart cend q1 q2 : Var) : List Op :=
  (if o.inner then TciST_path o c1 c2 cstart cend q1 q2 else (if o.outer then TceST_path o c1 c2 cstart cend q1 q2 else
    []))

/-- `HC00_Reeds_Shepp::TiScT_path` (hc00_reeds_shepp_state_space.cpp:1255-1299). -/
def TiScT_path (_o : Tests) (c1 _c2 : Sides) (cstart cend q1 q2 : Var) : List Op :=
  (if c1.left && c1.forward then [.new q1 [], .new q2 []] else []) ;; (if c1.left && !c1.forward then [.new q1 [],
    .new q2 []] else []) ;; (if !c1.left && c1.forward then [.new q1 [], .new q2 []] else []) ;; (if !c1.left &&
    !c1.forward then [.new q1 [], .new q2 []] else []) ;; [.new cstart [], .new cend [], .read [cstart, q1, q2, cend]]

/-- `HC00_Reeds_Shepp::TeScT_path` (hc00_reeds_shepp_state_space.cpp:1301-1345). -/
def TeScT_path (_o : Tests) (c1 _c2 : Sides) (cstart cend q1 q2 : Var) : List Op :=
  (if c1.left && c1.forward then [.new q1 [], .new q2 []] else []) ;; (if c1.left && !c1.forward then [.new q1 [],
    .new q2 []] else []) ;; (if !c1.left && c1.forward then [.new q1 [], .new q2 []] else []) ;; (if !c1.left &&
    !c1.forward then [.new q1 [], .new q2 []] else []) ;; [.new cstart [], .new cend [], .read [cstart, q1, q2, cend]]

/-- `HC00_Reeds_Shepp::TScT_path` (hc00_reeds_shepp_state_space.cpp:1347-1359). -/
def TScT_path (o : Tests) (c1 c2 : Sides) (cstart cend q1 q2 : Var) : List Op :=
  (if o.inner then TiScT_path o c1 c2 cstart cend q1 q2 else (if o.outer then TeScT_path o c1 c2 cstart cend q1 q2 else
    []))

/-- `HC00_Reeds_Shepp::TciScT_path` (hc00_reeds_shepp_state_space.cpp:1393-1435). -/
def TciScT_path (_o : Tests) (c1 _c2 : Sides) (cstart cend q1 q2 : Var) : List Op :=
  (if c1.left && c1.forward then [.new q1 [], .new q2 []] else []) ;; (if c1.left && !c1.forward then [.new q1 [],
    .new q2 []] else []) ;; (if !c1.left && c1.forward then [.new q1 [], .new q2 []] else []) ;; (if !c1.left &&
    !c1.forward then [.new q1 [], .new q2 []] else []) ;; [.new cstart [], .new cend [], .read [cstart, q1, q2, cend]]

/-- `HC00_Reeds_Shepp::TceScT_path` (hc00_reeds_shepp_state_space.cpp:1437-1475). -/
def TceScT_path (_o : Tests) (c1 _c2 : Sides) (cstart cend q1 q2 : Var) : List Op :=
  (if c1.left && c1.forward then [.new q1 [], .new q2 []] else []) ;; (if c1.left && !c1.forward then [.new q1 [],
    .new q2 []] else []) ;; (if !c1.left && c1.forward then [.new q1 [], .new q2 []] else []) ;; (if !c1.left &&
    !c1.forward then [.new q1 [], .new q2 []] else []) ;; [.new cstart [], .new cend [], .read [cstart, q1, q2, cend]]

/-- `HC00_Reeds_Shepp::TcScT_path` (hc00_reeds_shepp_state_space.cpp:1477-1489). -/
def TcScT_path (o : Tests) (c1 c2 : Sides) (cstart cend q1 q2 : Var) : List Op :=
  (if o.inner then TciScT_path o c1 c2 cstart cend q1 q2 else (if o.outer then TceScT_path o c1 c2 cstart cend q1 q2
    else []))

/-- The rows of the table in `hc00_circles_rs_path` (hc00_reeds_shepp_state_space.cpp:1503-1679) in
the order of the path types, and what `get_controls` (hc00_reeds_shepp_state_space.cpp:1762-1864) reads
for the type of the row. -/
def rows : List Row :=
  [
  -- E: line 1530
   ⟨fun o => o.taken, fun _ => [], []⟩,
  -- S: line 1536, 1542
   ⟨fun o => o.taken, fun _ => [], []⟩,
  -- T: line 1548
   ⟨fun o => o.taken, fun _ => [.new .cstart [], .read [.cstart]], [.cstart]⟩,
  -- TT: line 1555
   ⟨fun o => o.taken, fun o => TT_path o o.c1 o.c2 .cstart .cend .qi1, [.cstart, .qi1, .cend]⟩,
  -- TcT: line 1561
   ⟨fun o => o.taken, fun o => TcT_path o o.c1 o.c2 .cstart .cend .qi1, [.cstart, .qi1, .cend]⟩,
  -- TcTcT: line 1568
   ⟨fun o => o.taken, fun o => TcTcT_path o o.c1 o.c2 .cstart .cend .qi1 .qi2 .ci1, [.cstart, .qi1, .ci1, .qi2, .cend]⟩,
  -- TcTT: line 1575
   ⟨fun o => o.taken, fun o => TcTT_path o o.c1 o.c2 .cstart .cend .qi1 .qi2 .ci1, [.cstart, .qi1, .ci1, .cend, .qi2]⟩,
  -- TTcT: line 1582
   ⟨fun o => o.taken, fun o => TTcT_path o o.c1 o.c2 .cstart .cend .qi1 .qi2 .ci1, [.cstart, .qi1, .ci1, .qi2, .cend]⟩,
  -- TST: line 1589
   ⟨fun o => o.inner || o.outer, fun o => TST_path o o.c1 o.c2 .cstart .cend .qi1 .qi2, [.cstart, .qi1, .qi2, .cend]⟩,
  -- TSTcT: line 1596
   ⟨fun o => o.inner || o.outer, fun o => TSTcT_path o o.c1 o.c2 .cstart .cend .qi1 .qi2 .qi3 .ci1, [.cstart, .qi1,
     .qi2, .ci1, .qi3, .cend]⟩,
  -- TcTST: line 1603
   ⟨fun o => o.inner || o.outer, fun o => TcTST_path o o.c1 o.c2 .cstart .cend .qi1 .qi2 .qi3 .ci1, [.cstart, .qi1,
     .ci1, .qi2, .qi3, .cend]⟩,
  -- TcTSTcT: line 1610
   ⟨fun o => o.inner || o.outer, fun o => TcTSTcT_path o o.c1 o.c2 .cstart .cend .qi1 .qi2 .qi3 .qi4 .ci1 .ci2,
     [.cstart, .qi1, .ci1, .qi2, .qi3, .ci2, .qi4, .cend]⟩,
  -- TTcTT: line 1617
   ⟨fun o => o.taken, fun o => TTcTT_path o o.c1 o.c2 .cstart .cend .qi1 .qi2 .qi3 .ci1 .ci2, [.cstart, .qi1, .ci1,
     .qi2, .ci2, .cend, .qi3]⟩,
  -- TcTTcT: line 1624
   ⟨fun o => o.taken, fun o => TcTTcT_path o o.c1 o.c2 .cstart .cend .qi1 .qi2 .qi3 .ci1 .ci2, [.cstart, .qi1, .ci1,
     .ci2, .qi3, .cend]⟩,
  -- TTT: line 1632
   ⟨fun o => o.taken, fun o => TTT_path o o.c1 o.c2 .cstart .cend .qi1 .qi2 .ci1, [.cstart, .qi1, .ci1, .qi2, .cend]⟩,
  -- TcST: line 1638
   ⟨fun o => o.inner || o.outer, fun o => TcST_path o o.c1 o.c2 .cstart .cend .qi1 .qi2, [.cstart, .qi1, .qi2, .cend]⟩,
  -- TScT: line 1644
   ⟨fun o => o.inner || o.outer, fun o => TScT_path o o.c1 o.c2 .cstart .cend .qi1 .qi2, [.cstart, .qi1, .qi2, .cend]⟩,
  -- TcScT: line 1650
   ⟨fun o => o.inner || o.outer, fun o => TcScT_path o o.c1 o.c2 .cstart .cend .qi1 .qi2, [.cstart, .qi1, .qi2, .cend]⟩]

/-- What else the planner does with memory: `hc00_circles_rs_path` (hc00_reeds_shepp_state_space.cpp:1503-1679),
the planner (hc00_reeds_shepp_state_space.cpp:1681-1752) and the path class (paths.cpp:138-166). -/
def planner : Planner where
  rows := rows
  passed := [.qi1, .qi2, .qi3, .qi4, .cstart, .cend, .ci1, .ci2]
  cleaned := [.qi1, .qi2, .qi3, .qi4, .cstart, .ci1, .ci2, .cend]
  destroyed := [.qi1, .qi2, .qi3, .qi4, .cstart, .ci1, .ci2, .cend]
  circles := 4

end HC00

namespace HC0pm

/-- `HC0pm_Reeds_Shepp::TT_tangent_circles` (hc0pm_reeds_shepp_state_space.cpp:69-98). -/
def TT_tangent_circles (_o : Tests) (_c1 _c2 : Sides) (q : Var) : List Op :=
  [.new q []]

/-- `HC0pm_Reeds_Shepp::TT_path` (hc0pm_reeds_shepp_state_space.cpp:100-108). -/
def TT_path (o : Tests) (c1 c2 : Sides) (cstart cend q1 q2 : Var) : List Op :=
  TT_tangent_circles o c1 c2 q1 ;; [.new cstart [], .new cend [q1], .new q2 [], .read [cstart, q1, cend, q2]]

/-- `HC0pm_Reeds_Shepp::TcT_tangent_circles` (hc0pm_reeds_shepp_state_space.cpp:124-158). -/
def TcT_tangent_circles (_o : Tests) (_c1 _c2 : Sides) (q : Var) : List Op :=
  [.new q []]

/-- `HC0pm_Reeds_Shepp::TcT_path` (hc0pm_reeds_shepp_state_space.cpp:160-167). -/
def TcT_path (o : Tests) (c1 c2 : Sides) (cstart cend q : Var) : List Op :=
  TcT_tangent_circles o c1 c2 q ;; [.new cstart [], .new cend [], .read [cstart, q, cend]]

/-- `HC0pm_Reeds_Shepp::TcTcT_tangent_circles` (hc0pm_reeds_shepp_state_space.cpp:185-203). -/
def TcTcT_tangent_circles (o : Tests) (c1 c2 : Sides) (q1 q2 q3 q4 : Var) : List Op :=
  let tgt1 : Sides := ⟨!c2.left, c2.forward⟩
  let tgt2 : Sides := ⟨!c2.left, c2.forward⟩
  TcT_tangent_circles o c1 tgt1 q1 ;; TcT_tangent_circles o tgt1 c2 q2 ;; TcT_tangent_circles o c1 tgt2 q3 ;;
    TcT_tangent_circles o tgt2 c2 q4

/-- `HC0pm_Reeds_Shepp::TcTcT_path` (hc0pm_reeds_shepp_state_space.cpp:205-241). -/
def TcTcT_path (o : Tests) (c1 c2 : Sides) (cstart cend q1 q2 ci : Var) : List Op :=
  TcTcT_tangent_circles o c1 c2 .qa .qb .qc .qd ;; [.new .middle1 [.qa], .new .middle2 [.qc], .new cstart [],
    .new cend [], .read [cstart, .qa, .middle1, .qb, cend], .read [cstart, .qc, .middle2, .qd, cend]] ;; (if o.shorter
    then [.set q1 .qa, .set q2 .qb, .set ci .middle1, .delete .qc, .delete .qd, .delete .middle2] else [.set q1 .qc,
    .set q2 .qd, .set ci .middle2, .delete .qa, .delete .qb, .delete .middle1])

/-- `HC0pm_Reeds_Shepp::TcTT_tangent_circles` (hc0pm_reeds_shepp_state_space.cpp:257-276). -/
def TcTT_tangent_circles (o : Tests) (c1 c2 : Sides) (q1 q2 q3 q4 : Var) : List Op :=
  let tgt1 : Sides := ⟨!c1.left, !c1.forward⟩
  let tgt2 : Sides := ⟨!c1.left, !c1.forward⟩
  TcT_tangent_circles o c1 tgt1 q1 ;; TT_tangent_circles o tgt1 c2 q2 ;; TcT_tangent_circles o c1 tgt2 q3 ;;
    TT_tangent_circles o tgt2 c2 q4

/-- `HC0pm_Reeds_Shepp::TcTT_path` (hc0pm_reeds_shepp_state_space.cpp:278-320). -/
def TcTT_path (o : Tests) (c1 c2 : Sides) (cstart cend q1 q2 ci : Var) : List Op :=
  TcTT_tangent_circles o c1 c2 .qa .qb .qc .qd ;; [.new .middle1 [.qb], .new .middle2 [.qd], .new .end1 [.qb],
    .new .end2 [.qd], .new cstart [], .new q2 [], .read [cstart, .qa, .middle1, .end1, q2],
    .read [cstart, .qc, .middle2, .end2, q2]] ;; (if o.shorter then [.set cend .end1, .set q1 .qa, .set ci .middle1,
    .delete .qb, .delete .qc, .delete .qd, .delete .middle2, .delete .end2] else [.set cend .end2, .set q1 .qc,
    .set ci .middle2, .delete .qa, .delete .qb, .delete .qd, .delete .middle1, .delete .end1])

/-- `HC0pm_Reeds_Shepp::TTcT_tangent_circles` (hc0pm_reeds_shepp_state_space.cpp:336-355). -/
def TTcT_tangent_circles (o : Tests) (c1 c2 : Sides) (q1 q2 q3 q4 : Var) : List Op :=
  let tgt1 : Sides := ⟨!c1.left, c1.forward⟩
  let tgt2 : Sides := ⟨!c1.left, c1.forward⟩
  TT_tangent_circles o c1 tgt1 q1 ;; TcT_tangent_circles o tgt1 c2 q2 ;; TT_tangent_circles o c1 tgt2 q3 ;;
    TcT_tangent_circles o tgt2 c2 q4

/-- `HC0pm_Reeds_Shepp::TTcT_path` (hc0pm_reeds_shepp_state_space.cpp:357-393). -/
def TTcT_path (o : Tests) (c1 c2 : Sides) (cstart cend q1 q2 ci : Var) : List Op :=
  TTcT_tangent_circles o c1 c2 .qa .qb .qc .qd ;; [.new .middle1 [.qa], .new .middle2 [.qc], .new cstart [],
    .new cend [], .read [cstart, .qa, .middle1, .qb, cend], .read [cstart, .qc, .middle2, .qd, cend]] ;; (if o.shorter
    then [.set q1 .qa, .set q2 .qb, .set ci .middle1, .delete .qc, .delete .qd, .delete .middle2] else [.set q1 .qc,
    .set q2 .qd, .set ci .middle2, .delete .qa, .delete .qb, .delete .middle1])

/-- `HC0pm_Reeds_Shepp::TiST_tangent_circles` (hc0pm_reeds_shepp_state_space.cpp:427-468). -/
def TiST_tangent_circles (_o : Tests) (c1 _c2 : Sides) (q1 q2 : Var) : List Op :=
  (if c1.left && c1.forward then [.new q1 [], .new q2 []] else []) ;; (if c1.left && !c1.forward then [.new q1 [],
    .new q2 []] else []) ;; (if !c1.left && c1.forward then [.new q1 [], .new q2 []] else []) ;; (if !c1.left &&
    !c1.forward then [.new q1 [], .new q2 []] else [])

/-- `HC0pm_Reeds_Shepp::TeST_tangent_circles` (hc0pm_reeds_shepp_state_space.cpp:470-505). -/
def TeST_tangent_circles (_o : Tests) (c1 _c2 : Sides) (q1 q2 : Var) : List Op :=
  (if c1.left && c1.forward then [.new q1 [], .new q2 []] else []) ;; (if c1.left && !c1.forward then [.new q1 [],
    .new q2 []] else []) ;; (if !c1.left && c1.forward then [.new q1 [], .new q2 []] else []) ;; (if !c1.left &&
    !c1.forward then [.new q1 [], .new q2 []] else [])

/-- `HC0pm_Reeds_Shepp::TiST_path` (hc0pm_reeds_shepp_state_space.cpp:507-515). -/
def TiST_path (o : Tests) (c1 c2 : Sides) (cstart cend q1 q2 q3 : Var) : List Op :=
  TiST_tangent_circles o c1 c2 q1 q2 ;; [.new cstart [], .new cend [q2], .new q3 [], .read [cstart, q1, q2, cend, q3]]

/-- `HC0pm_Reeds_Shepp::TeST_path` (hc0pm_reeds_shepp_state_space.cpp:517-525). -/
def TeST_path (o : Tests) (c1 c2 : Sides) (cstart cend q1 q2 q3 : Var) : List Op :=
  TeST_tangent_circles o c1 c2 q1 q2 ;; [.new cstart [], .new cend [q2], .new q3 [], .read [cstart, q1, q2, cend, q3]]

/-- `HC0pm_Reeds_Shepp::TST_path` (hc0pm_reeds_shepp_state_space.cpp:527-539). -/
def TST_path (o : Tests) (c1 c2 : Sides) (cstart cend q1 q2 q3 : Var) : List Op :=
  (if o.inner then TiST_path o c1 c2 cstart cend q1 q2 q3 else (if o.outer then TeST_path o c1 c2 cstart cend q1 q2 q3
    else []))

/-- `HC0pm_Reeds_Shepp::TiSTcT_path` (hc0pm_reeds_shepp_state_space.cpp:574-594). -/
def TiSTcT_path (o : Tests) (c1 c2 : Sides) (cstart cend q1 q2 q3 ci : Var) : List Op :=
  let tgt1 : Sides := ⟨!c2.left, c2.forward⟩
  TiST_tangent_circles o c1 tgt1 q1 q2 ;; TcT_tangent_circles o tgt1 c2 q3 ;; [.new cstart [], .new cend [],
    .new ci [q2], .read [cstart, q1, q2, ci, q3, cend]]

/-- `HC0pm_Reeds_Shepp::TeSTcT_path` (hc0pm_reeds_shepp_state_space.cpp:596-616). -/
def TeSTcT_path (o : Tests) (c1 c2 : Sides) (cstart cend q1 q2 q3 ci : Var) : List Op :=
  let tgt1 : Sides := ⟨!c2.left, c2.forward⟩
  TeST_tangent_circles o c1 tgt1 q1 q2 ;; TcT_tangent_circles o tgt1 c2 q3 ;; [.new cstart [], .new cend [],
    .new ci [q2], .read [cstart, q1, q2, ci, q3, cend]]

/-- `HC0pm_Reeds_Shepp::TSTcT_path` (hc0pm_reeds_shepp_state_space.cpp:618-630). -/
def TSTcT_path (o : Tests) (c1 c2 : Sides) (cstart cend q1 q2 q3 ci : Var) : List Op :=
  (if o.inner then TiSTcT_path o c1 c2 cstart cend q1 q2 q3 ci else (if o.outer then TeSTcT_path o c1 c2 cstart cend q1
    q2 q3 ci else []))

/-- `HC0pm_Reeds_Shepp::TcTiST_path` (hc0pm_reeds_shepp_state_space.cpp:665-687). -/
def TcTiST_path (o : Tests) (c1 c2 : Sides) (cstart cend q1 q2 q3 q4 ci : Var) : List Op :=
  let tgt1 : Sides := ⟨!c1.left, !c1.forward⟩
  TcT_tangent_circles o c1 tgt1 q1 ;; TiST_tangent_circles o tgt1 c2 q2 q3 ;; [.new cstart [], .new cend [q3],
    .new q4 [], .new ci [q2], .read [cstart, q1, ci, q2, q3, cend, q4]]

/-- `HC0pm_Reeds_Shepp::TcTeST_path` (hc0pm_reeds_shepp_state_space.cpp:689-711). -/
def TcTeST_path (o : Tests) (c1 c2 : Sides) (cstart cend q1 q2 q3 q4 ci : Var) : List Op :=
  let tgt1 : Sides := ⟨!c1.left, !c1.forward⟩
  TcT_tangent_circles o c1 tgt1 q1 ;; TeST_tangent_circles o tgt1 c2 q2 q3 ;; [.new cstart [], .new cend [q3],
    .new q4 [], .new ci [q2], .read [cstart, q1, ci, q2, q3, cend, q4]]

/-- `HC0pm_Reeds_Shepp::TcTST_path` (hc0pm_reeds_shepp_state_space.cpp:713-726). -/
def TcTST_path (o : Tests) (c1 c2 : Sides) (cstart cend q1 q2 q3 q4 ci : Var) : List Op :=
  (if o.inner then TcTiST_path o c1 c2 cstart cend q1 q2 q3 q4 ci else (if o.outer then TcTeST_path o c1 c2 cstart cend
    q1 q2 q3 q4 ci else []))

/-- `HC0pm_Reeds_Shepp::TcTiSTcT_path` (hc0pm_reeds_shepp_state_space.cpp:761-786). -/
def TcTiSTcT_path (o : Tests) (c1 c2 : Sides) (cstart cend q1 q2 q3 q4 ci1 ci2 : Var) : List Op :=
  let tgt1 : Sides := ⟨!c1.left, !c1.forward⟩
  let tgt2 : Sides := ⟨!c2.left, c2.forward⟩
  TcT_tangent_circles o c1 tgt1 q1 ;; TiST_tangent_circles o tgt1 tgt2 q2 q3 ;; TcT_tangent_circles o tgt2 c2 q4 ;;
    [.new cstart [], .new cend [], .new ci1 [q2], .new ci2 [q3], .read [cstart, q1, ci1, q2, q3, ci2, q4, cend]]

/-- `HC0pm_Reeds_Shepp::TcTeSTcT_path` (hc0pm_reeds_shepp_state_space.cpp:788-813). -/
def TcTeSTcT_path (o : Tests) (c1 c2 : Sides) (cstart cend q1 q2 q3 q4 ci1 ci2 : Var) : List Op :=
  let tgt1 : Sides := ⟨!c1.left, !c1.forward⟩
  let tgt2 : Sides := ⟨!c2.left, c2.forward⟩
  TcT_tangent_circles o c1 tgt1 q1 ;; TeST_tangent_circles o tgt1 tgt2 q2 q3 ;; TcT_tangent_circles o tgt2 c2 q4 ;;
    [.new cstart [], .new cend [], .new ci1 [q2], .new ci2 [q3], .read [cstart, q1, ci1, q2, q3, ci2, q4, cend]]

/-- `HC0pm_Reeds_Shepp::TcTSTcT_path` (hc0pm_reeds_shepp_state_space.cpp:815-828). -/
def TcTSTcT_path (o : Tests) (c1 c2 : Sides) (cstart cend q1 q2 q3 q4 ci1 ci2 : Var) : List Op :=
  (if o.inner then TcTiSTcT_path o c1 c2 cstart cend q1 q2 q3 q4 ci1 ci2 else (if o.outer then TcTeSTcT_path o c1 c2
    cstart cend q1 q2 q3 q4 ci1 ci2 else []))

/-- `HC0pm_Reeds_Shepp::TTcTT_tangent_circles` (hc0pm_reeds_shepp_state_space.cpp:844-879). -/
def TTcTT_tangent_circles (o : Tests) (c1 c2 : Sides) (q1 q2 q3 q4 q5 q6 : Var) : List Op :=
  let tgt1 : Sides := ⟨!c1.left, c1.forward⟩
  let tgt2 : Sides := ⟨!c2.left, !c2.forward⟩
  let tgt3 : Sides := ⟨!c1.left, c1.forward⟩
  let tgt4 : Sides := ⟨!c2.left, !c2.forward⟩
  TT_tangent_circles o c1 tgt1 q1 ;; TcT_tangent_circles o tgt1 tgt2 q2 ;; TT_tangent_circles o tgt2 c2 q3 ;;
    TT_tangent_circles o c1 tgt3 q4 ;; TcT_tangent_circles o tgt3 tgt4 q5 ;; TT_tangent_circles o tgt4 c2 q6

/-- `HC0pm_Reeds_Shepp::TTcTT_path` (hc0pm_reeds_shepp_state_space.cpp:881-936). -/
def TTcTT_path (o : Tests) (c1 c2 : Sides) (cstart cend q1 q2 q3 ci1 ci2 : Var) : List Op :=
  TTcTT_tangent_circles o c1 c2 .qa .qb .qc .qd .qe .qf ;; [.new .middle1 [.qa], .new .middle2 [.qc], .new .end1 [.qc],
    .new .middle3 [.qd], .new .middle4 [.qf], .new .end2 [.qf], .new cstart [], .new q3 [],
    .read [cstart, .qa, .middle1, .qb, .middle2, .end1, q3], .read [cstart, .qd, .middle3, .qe, .middle4, .end2, q3]]
    ;; (if o.shorter then [.set cend .end1, .set q1 .qa, .set q2 .qb, .set ci1 .middle1, .set ci2 .middle2,
    .delete .qc, .delete .qd, .delete .qe, .delete .qf, .delete .middle3, .delete .middle4, .delete .end2] else
    [.set cend .end2, .set q1 .qd, .set q2 .qe, .set ci1 .middle3, .set ci2 .middle4, .delete .qa, .delete .qb,
    .delete .qc, .delete .qf, .delete .middle1, .delete .middle2, .delete .end1])

/-- `HC0pm_Reeds_Shepp::TcTTcT_tangent_circles` (hc0pm_reeds_shepp_state_space.cpp:952-979). -/
def TcTTcT_tangent_circles (o : Tests) (c1 c2 : Sides) (q1 q2 q3 q4 q5 q6 : Var) : List Op :=
  let tgt1 : Sides := ⟨!c1.left, !c1.forward⟩
  let tgt2 : Sides := ⟨!c2.left, c2.forward⟩
  let tgt3 : Sides := ⟨!c1.left, !c1.forward⟩
  let tgt4 : Sides := ⟨!c2.left, c2.forward⟩
  TcT_tangent_circles o c1 tgt1 q1 ;; TT_tangent_circles o tgt1 tgt2 q2 ;; TcT_tangent_circles o tgt2 c2 q3 ;;
    TcT_tangent_circles o c1 tgt3 q4 ;; TT_tangent_circles o tgt3 tgt4 q5 ;; TcT_tangent_circles o tgt4 c2 q6

/-- `HC0pm_Reeds_Shepp::TcTTcT_path` (hc0pm_reeds_shepp_state_space.cpp:981-1029). -/
def TcTTcT_path (o : Tests) (c1 c2 : Sides) (cstart cend q1 q2 ci1 ci2 : Var) : List Op :=
  TcTTcT_tangent_circles o c1 c2 .qa .qb .qc .qd .qe .qf ;; [.new .middle1 [.qb], .new .middle2 [.qb],
    .new .middle3 [.qe], .new .middle4 [.qe], .new cstart [], .new cend [],
    .read [cstart, .qa, .middle1, .middle2, .qc, cend], .read [cstart, .qd, .middle3, .middle4, .qf, cend]] ;; (if
    o.shorter then [.set q1 .qa, .set q2 .qc, .set ci1 .middle1, .set ci2 .middle2, .delete .qb, .delete .qd,
    .delete .qe, .delete .qf, .delete .middle3, .delete .middle4] else [.set q1 .qd, .set q2 .qf, .set ci1 .middle3,
    .set ci2 .middle4, .delete .qa, .delete .qb, .delete .qc, .delete .qe, .delete .middle1, .delete .middle2])

/-- `HC0pm_Reeds_Shepp::TTT_tangent_circles` (hc0pm_reeds_shepp_state_space.cpp:1047-1065). -/
def TTT_tangent_circles (o : Tests) (c1 c2 : Sides) (q1 q2 q3 q4 : Var) : List Op :=
  let tgt1 : Sides := ⟨!c1.left, c1.forward⟩
  let tgt2 : Sides := ⟨!c1.left, c1.forward⟩
  TT_tangent_circles o c1 tgt1 q1 ;; TT_tangent_circles o tgt1 c2 q2 ;; TT_tangent_circles o c1 tgt2 q3 ;;
    TT_tangent_circles o tgt2 c2 q4

/-- `HC0pm_Reeds_Shepp::TTT_path` (hc0pm_reeds_shepp_state_space.cpp:1067-1109). -/
def TTT_path (o : Tests) (c1 c2 : Sides) (cstart cend q1 q2 q3 ci : Var) : List Op :=
  TTT_tangent_circles o c1 c2 .qa .qb .qc .qd ;; [.new .middle1 [.qa], .new .end1 [.qb], .new .middle2 [.qc],
    .new .end2 [.qd], .new cstart [], .new q3 [], .read [cstart, .qa, .middle1, .qb, .end1, q3],
    .read [cstart, .qc, .middle2, .qd, .end2, q3]] ;; (if o.shorter then [.set cend .end1, .set q1 .qa, .set q2 .qb,
    .set ci .middle1, .delete .qc, .delete .qd, .delete .middle2, .delete .end2] else [.set cend .end2, .set q1 .qc,
    .set q2 .qd, .set ci .middle2, .delete .qa, .delete .qb, .delete .middle1, .delete .end1])

/-- `HC0pm_Reeds_Shepp::TciST_path` (hc0pm_reeds_shepp_state_space.cpp:1143-1188). -/
def TciST_path (_o : Tests) (c1 _c2 : Sides) (cstart cend q1 q2 q3 : Var) : List Op :=
  (if c1.left && c1.forward then [.new q1 [], .new q2 []] else []) ;; (if c1.left && !c1.forward then [.new q1 [],
    .new q2 []] else []) ;; (if !c1.left && c1.forward then [.new q1 [], .new q2 []] else []) ;; (if !c1.left &&
    !c1.forward then [.new q1 [], .new q2 []] else []) ;; [.new q3 [], .new cstart [], .new cend [q2],
    .read [cstart, q1, q2, cend, q3]]

/-- `HC0pm_Reeds_Shepp::TceST_path` (hc0pm_reeds_shepp_state_space.cpp:1190-1235). -/
def TceST_path (_o : Tests) (c1 _c2 : Sides) (cstart cend q1 q2 q3 : Var) : List Op :=
  (if c1.left && c1.forward then [.new q1 [], .new q2 []] else []) ;; (if c1.left && !c1.forward then [.new q1 [],
    .new q2 []] else []) ;; (if !c1.left && c1.forward then [.new q1 [], .new q2 []] else []) ;; (if !c1.left &&
    !c1.forward then [.new q1 [], .new q2 []] else []) ;; [.new q3 [], .new cstart [], .new cend [q2],
    .read [cstart, q1, q2, cend, q3]]

/-- `HC0pm_Reeds_Shepp::TcST_path` (hc0pm_reeds_shepp_state_space.cpp:1237-1249). -/
def TcST_path (o : Tests) (c1 c2 : Sides) (cstart cend q1 q2 q3 : Var) : List Op :=
  (if o.inner then TciST_path o c1 c2 cstart cend q1 q2 q3 else (if o.outer then TceST_path o c1 c2 cstart cend q1 q2
    q3 else []))

/-- `HC0pm_Reeds_Shepp::TiScT_path` (hc0pm_reeds_shepp_state_space.cpp:1283-1328). -/
def TiScT_path (_o : Tests) (c1 _c2 : Sides) (cstart cend q1 q2 : Var) : List Op :=
  (if c1.left && c1.forward then [.new q1 [], .new q2 []] else []) ;; (if c1.left && !c1.forward then [.new q1 [],
    .new q2 []] else []) ;; (if !c1.left && c1.forward then [.new q1 [], .new q2 []] else []) ;; (if !c1.left &&
    !c1.forward then [.new q1 [], .new q2 []] else []) ;; [.new cstart [], .new cend [], .read [cstart, q1, q2, cend]]

/-- `HC0pm_Reeds_Shepp::TeScT_path` (hc0pm_reeds_shepp_state_space.cpp:1330-1374). -/
def TeScT_path (_o : Tests) (c1 _c2 : Sides) (cstart cend q1 q2 : Var) : List Op :=
  (if c1.left && c1.forward then [.new q1 [], .new q2 []] else []) ;; (if c1.left && !c1.forward then [.new q1 [],
    .new q2 []] else []) ;; (if !c1.left && c1.forward then [.new q1 [], .new q2 []] else []) ;; (if !c1.left &&
    !c1.forward then [.new q1 [], .new q2 []] else []) ;; [.new cstart [], .new cend [], .read [cstart, q1, q2, cend]]

/-- `HC0pm_Reeds_Shepp::TScT_path` (hc0pm_reeds_shepp_state_space.cpp:1376-1388). -/
def TScT_path (o : Tests) (c1 c2 : Sides) (cstart cend q1 q2 : Var) : List Op :=
  (if o.inner then TiScT_path o c1 c2 cstart cend q1 q2 else (if o.outer then TeScT_path o c1 c2 cstart cend q1 q2 else
    []))

/-- `HC0pm_Reeds_Shepp::TciScT_path` (hc0pm_reeds_shepp_state_space.cpp:1422-1464). -/
def TciScT_path (_o : Tests) (c1 _c2 : Sides) (cstart cend q1 q2 : Var) : List Op :=
  (if c1.left && c1.forward then [.new q1 [], .new q2 []] else []) ;; (if c1.left && !c1.forward then [.new q1 [],
    .new q2 []] else []) ;; (if !c1.left && c1.forward then [.new q1 [], .new q2 []] else []) ;; (if !c1.left &&
    !c1.forward then [.new q1 [], .new q2 []] else []) ;; [.new cstart [], .new cend [], .read [cstart, q1, q2, cend]]

/-- `HC0pm_Reeds_Shepp::TceScT_path` (hc0pm_reeds_shepp_state_space.cpp:1466-1504). -/
def TceScT_path (_o : Tests) (c1 _c2 : Sides) (cstart cend q1 q2 : Var) : List Op :=
  (if c1.left && c1.forward then [.new q1 [], .new q2 []] else []) ;; (if c1.left && !c1.forward then [.new q1 [],
    .new q2 []] else []) ;; (if !c1.left && c1.forward then [.new q1 [], .new q2 []] else []) ;; (if !c1.left &&
    !c1.forward then [.new q1 [], .new q2 []] else []) ;; [.new cstart [], .new cend [], .read [cstart, q1, q2, cend]]

/-- `HC0pm_Reeds_Shepp::TcScT_path` (hc0pm_reeds_shepp_state_space.cpp:1506-1518). -/
def TcScT_path (o : Tests) (c1 c2 : Sides) (cstart cend q1 q2 : Var) : List Op :=
  (if o.inner then TciScT_path o c1 c2 cstart cend q1 q2 else (if o.outer then TceScT_path o c1 c2 cstart cend q1 q2
    else []))

/-- The rows of the table in `hc0pm_circles_rs_path` (hc0pm_reeds_shepp_state_space.cpp:1534-1700) in
the order of the path types, and what `get_controls` (hc0pm_reeds_shepp_state_space.cpp:1793-1891) reads
for the type of the row. -/
def rows : List Row :=
  [
  -- E: line 1562
   ⟨fun o => o.taken, fun _ => [], []⟩,
  -- S: never filled
   ⟨fun _ => false, fun _ => [], []⟩,
  -- T: line 1568
   ⟨fun o => o.taken, fun _ => [.new .cstart [], .read [.cstart]], [.cstart]⟩,
  -- TT: line 1575
   ⟨fun o => o.taken, fun o => TT_path o o.c1 o.c2 .cstart .cend .qi1 .qi2, [.cstart, .qi1, .cend, .qi2]⟩,
  -- TcT: line 1581
   ⟨fun o => o.taken, fun o => TcT_path o o.c1 o.c2 .cstart .cend .qi1, [.cstart, .qi1, .cend]⟩,
  -- TcTcT: line 1588
   ⟨fun o => o.taken, fun o => TcTcT_path o o.c1 o.c2 .cstart .cend .qi1 .qi2 .ci1, [.cstart, .qi1, .ci1, .qi2, .cend]⟩,
  -- TcTT: line 1595
   ⟨fun o => o.taken, fun o => TcTT_path o o.c1 o.c2 .cstart .cend .qi1 .qi2 .ci1, [.cstart, .qi1, .ci1, .cend, .qi2]⟩,
  -- TTcT: line 1602
   ⟨fun o => o.taken, fun o => TTcT_path o o.c1 o.c2 .cstart .cend .qi1 .qi2 .ci1, [.cstart, .qi1, .ci1, .qi2, .cend]⟩,
  -- TST: line 1609
   ⟨fun o => o.inner || o.outer, fun o => TST_path o o.c1 o.c2 .cstart .cend .qi1 .qi2 .qi3, [.cstart, .qi1, .qi2,
     .cend, .qi3]⟩,
  -- TSTcT: line 1615
   ⟨fun o => o.inner || o.outer, fun o => TSTcT_path o o.c1 o.c2 .cstart .cend .qi1 .qi2 .qi3 .ci1, [.cstart, .qi1,
     .qi2, .ci1, .qi3, .cend]⟩,
  -- TcTST: line 1622
   ⟨fun o => o.inner || o.outer, fun o => TcTST_path o o.c1 o.c2 .cstart .cend .qi1 .qi2 .qi3 .qi4 .ci1, [.cstart,
     .qi1, .ci1, .qi2, .qi3, .cend, .qi4]⟩,
  -- TcTSTcT: line 1629
   ⟨fun o => o.inner || o.outer, fun o => TcTSTcT_path o o.c1 o.c2 .cstart .cend .qi1 .qi2 .qi3 .qi4 .ci1 .ci2,
     [.cstart, .qi1, .ci1, .qi2, .qi3, .ci2, .qi4, .cend]⟩,
  -- TTcTT: line 1636
   ⟨fun o => o.taken, fun o => TTcTT_path o o.c1 o.c2 .cstart .cend .qi1 .qi2 .qi3 .ci1 .ci2, [.cstart, .qi1, .ci1,
     .qi2, .ci2, .cend, .qi3]⟩,
  -- TcTTcT: line 1643
   ⟨fun o => o.taken, fun o => TcTTcT_path o o.c1 o.c2 .cstart .cend .qi1 .qi2 .ci1 .ci2, [.cstart, .qi1, .ci1, .ci2,
     .qi2, .cend]⟩,
  -- TTT: line 1651
   ⟨fun o => o.taken, fun o => TTT_path o o.c1 o.c2 .cstart .cend .qi1 .qi2 .qi3 .ci1, [.cstart, .qi1, .ci1, .qi2,
     .cend, .qi3]⟩,
  -- TcST: line 1658
   ⟨fun o => o.inner || o.outer, fun o => TcST_path o o.c1 o.c2 .cstart .cend .qi1 .qi2 .qi3, [.cstart, .qi1, .qi2,
     .cend, .qi3]⟩,
  -- TScT: line 1665
   ⟨fun o => o.inner || o.outer, fun o => TScT_path o o.c1 o.c2 .cstart .cend .qi1 .qi2, [.cstart, .qi1, .qi2, .cend]⟩,
  -- TcScT: line 1671
   ⟨fun o => o.inner || o.outer, fun o => TcScT_path o o.c1 o.c2 .cstart .cend .qi1 .qi2, [.cstart, .qi1, .qi2, .cend]⟩]

/-- What else the planner does with memory: `hc0pm_circles_rs_path` (hc0pm_reeds_shepp_state_space.cpp:1534-1700),
the planner (hc0pm_reeds_shepp_state_space.cpp:1702-1783) and the path class (paths.cpp:138-166). -/
def planner : Planner where
  rows := rows
  passed := [.qi1, .qi2, .qi3, .qi4, .cstart, .cend, .ci1, .ci2]
  cleaned := [.qi1, .qi2, .qi3, .qi4, .cstart, .ci1, .ci2, .cend]
  destroyed := [.qi1, .qi2, .qi3, .qi4, .cstart, .ci1, .ci2, .cend]
  circles := 4

end HC0pm

namespace HCpm0

/-- `HCpm0_Reeds_Shepp::TT_tangent_circles` (hcpm0_reeds_shepp_state_space.cpp:69-98). -/
def TT_tangent_circles (_o : Tests) (_c1 _c2 : Sides) (q : Var) : List Op :=
  [.new q []]

/-- `HCpm0_Reeds_Shepp::TT_path` (hcpm0_reeds_shepp_state_space.cpp:100-108). -/
def TT_path (o : Tests) (c1 c2 : Sides) (cstart cend q1 q2 : Var) : List Op :=
  TT_tangent_circles o c1 c2 q2 ;; [.new cstart [q2], .new cend [], .new q1 [], .read [cstart, q1, cend, q2]]

/-- `HCpm0_Reeds_Shepp::TcT_tangent_circles` (hcpm0_reeds_shepp_state_space.cpp:124-158). -/
def TcT_tangent_circles (_o : Tests) (_c1 _c2 : Sides) (q : Var) : List Op :=
  [.new q []]

/-- `HCpm0_Reeds_Shepp::TcT_path` (hcpm0_reeds_shepp_state_space.cpp:160-167). -/
def TcT_path (o : Tests) (c1 c2 : Sides) (cstart cend q : Var) : List Op :=
  TcT_tangent_circles o c1 c2 q ;; [.new cstart [], .new cend [], .read [cstart, q, cend]]

/-- `HCpm0_Reeds_Shepp::TcTcT_tangent_circles` (hcpm0_reeds_shepp_state_space.cpp:185-203). -/
def TcTcT_tangent_circles (o : Tests) (c1 c2 : Sides) (q1 q2 q3 q4 : Var) : List Op :=
  let tgt1 : Sides := ⟨!c2.left, c2.forward⟩
  let tgt2 : Sides := ⟨!c2.left, c2.forward⟩
  TcT_tangent_circles o c1 tgt1 q1 ;; TcT_tangent_circles o tgt1 c2 q2 ;; TcT_tangent_circles o c1 tgt2 q3 ;;
    TcT_tangent_circles o tgt2 c2 q4

/-- `HCpm0_Reeds_Shepp::TcTcT_path` (hcpm0_reeds_shepp_state_space.cpp:205-241). -/
def TcTcT_path (o : Tests) (c1 c2 : Sides) (cstart cend q1 q2 ci : Var) : List Op :=
  TcTcT_tangent_circles o c1 c2 .qa .qb .qc .qd ;; [.new .middle1 [.qa], .new .middle2 [.qc], .new cstart [],
    .new cend [], .read [cstart, .qa, .middle1, .qb, cend], .read [cstart, .qc, .middle2, .qd, cend]] ;; (if o.shorter
    then [.set q1 .qa, .set q2 .qb, .set ci .middle1, .delete .qc, .delete .qd, .delete .middle2] else [.set q1 .qc,
    .set q2 .qd, .set ci .middle2, .delete .qa, .delete .qb, .delete .middle1])

/-- `HCpm0_Reeds_Shepp::TcTT_tangent_circles` (hcpm0_reeds_shepp_state_space.cpp:257-276). -/
def TcTT_tangent_circles (o : Tests) (c1 c2 : Sides) (q1 q2 q3 q4 : Var) : List Op :=
  let tgt1 : Sides := ⟨!c1.left, !c1.forward⟩
  let tgt2 : Sides := ⟨!c1.left, !c1.forward⟩
  TcT_tangent_circles o c1 tgt1 q1 ;; TT_tangent_circles o tgt1 c2 q2 ;; TcT_tangent_circles o c1 tgt2 q3 ;;
    TT_tangent_circles o tgt2 c2 q4

/-- `HCpm0_Reeds_Shepp::TcTT_path` (hcpm0_reeds_shepp_state_space.cpp:278-314). -/
def TcTT_path (o : Tests) (c1 c2 : Sides) (cstart cend q1 q2 ci : Var) : List Op :=
  TcTT_tangent_circles o c1 c2 .qa .qb .qc .qd ;; [.new .middle1 [.qb], .new .middle2 [.qd], .new cstart [],
    .new cend [], .read [cstart, .qa, .middle1, cend, .qb], .read [cstart, .qc, .middle2, cend, .qd]] ;; (if o.shorter
    then [.set q1 .qa, .set q2 .qb, .set ci .middle1, .delete .qc, .delete .qd, .delete .middle2] else [.set q1 .qc,
    .set q2 .qd, .set ci .middle2, .delete .qa, .delete .qb, .delete .middle1])

/-- `HCpm0_Reeds_Shepp::TTcT_tangent_circles` (hcpm0_reeds_shepp_state_space.cpp:330-349). -/
def TTcT_tangent_circles (o : Tests) (c1 c2 : Sides) (q1 q2 q3 q4 : Var) : List Op :=
  let tgt1 : Sides := ⟨!c1.left, c1.forward⟩
  let tgt2 : Sides := ⟨!c1.left, c1.forward⟩
  TT_tangent_circles o c1 tgt1 q1 ;; TcT_tangent_circles o tgt1 c2 q2 ;; TT_tangent_circles o c1 tgt2 q3 ;;
    TcT_tangent_circles o tgt2 c2 q4

/-- `HCpm0_Reeds_Shepp::TTcT_path` (hcpm0_reeds_shepp_state_space.cpp:351-393). -/
def TTcT_path (o : Tests) (c1 c2 : Sides) (cstart cend q1 q2 ci : Var) : List Op :=
  TTcT_tangent_circles o c1 c2 .qa .qb .qc .qd ;; [.new .start1 [.qa], .new .middle1 [.qa], .new .start2 [.qc],
    .new .middle2 [.qc], .new cend [], .new q1 [], .read [.start1, q1, .middle1, .qb, cend],
    .read [.start2, q1, .middle2, .qd, cend]] ;; (if o.shorter then [.set cstart .start1, .set q2 .qb,
    .set ci .middle1, .delete .qa, .delete .qc, .delete .qd, .delete .start2, .delete .middle2] else
    [.set cstart .start2, .set q2 .qd, .set ci .middle2, .delete .qa, .delete .qb, .delete .qc, .delete .start1,
    .delete .middle1])

/-- `HCpm0_Reeds_Shepp::TiST_tangent_circles` (hcpm0_reeds_shepp_state_space.cpp:427-468). -/
def TiST_tangent_circles (_o : Tests) (c1 _c2 : Sides) (q1 q2 : Var) : List Op :=
  (if c1.left && c1.forward then [.new q1 [], .new q2 []] else []) ;; (if c1.left && !c1.forward then [.new q1 [],
    .new q2 []] else []) ;; (if !c1.left && c1.forward then [.new q1 [], .new q2 []] else []) ;; (if !c1.left &&
    !c1.forward then [.new q1 [], .new q2 []] else [])

/-- `HCpm0_Reeds_Shepp::TeST_tangent_circles` (hcpm0_reeds_shepp_state_space.cpp:470-505). -/
def TeST_tangent_circles (_o : Tests) (c1 _c2 : Sides) (q1 q2 : Var) : List Op :=
  (if c1.left && c1.forward then [.new q1 [], .new q2 []] else []) ;; (if c1.left && !c1.forward then [.new q1 [],
    .new q2 []] else []) ;; (if !c1.left && c1.forward then [.new q1 [], .new q2 []] else []) ;; (if !c1.left &&
    !c1.forward then [.new q1 [], .new q2 []] else [])

/-- `HCpm0_Reeds_Shepp::TiST_path` (hcpm0_reeds_shepp_state_space.cpp:507-515). -/
def TiST_path (o : Tests) (c1 c2 : Sides) (cstart cend q1 q2 q3 : Var) : List Op :=
  TiST_tangent_circles o c1 c2 q2 q3 ;; [.new cstart [q2], .new cend [], .new q1 [], .read [cstart, q1, q2, q3, cend]]

/-- `HCpm0_Reeds_Shepp::TeST_path` (hcpm0_reeds_shepp_state_space.cpp:517-525). -/
def TeST_path (o : Tests) (c1 c2 : Sides) (cstart cend q1 q2 q3 : Var) : List Op :=
  TeST_tangent_circles o c1 c2 q2 q3 ;; [.new cstart [q2], .new cend [], .new q1 [], .read [cstart, q1, q2, q3, cend]]

/-- `HCpm0_Reeds_Shepp::TST_path` (hcpm0_reeds_shepp_state_space.cpp:527-539). -/
def TST_path (o : Tests) (c1 c2 : Sides) (cstart cend q1 q2 q3 : Var) : List Op :=
  (if o.inner then TiST_path o c1 c2 cstart cend q1 q2 q3 else (if o.outer then TeST_path o c1 c2 cstart cend q1 q2 q3
    else []))

/-- `HCpm0_Reeds_Shepp::TiSTcT_path` (hcpm0_reeds_shepp_state_space.cpp:574-596). -/
def TiSTcT_path (o : Tests) (c1 c2 : Sides) (cstart cend q1 q2 q3 q4 ci : Var) : List Op :=
  let tgt1 : Sides := ⟨!c2.left, c2.forward⟩
  TiST_tangent_circles o c1 tgt1 q2 q3 ;; TcT_tangent_circles o tgt1 c2 q4 ;; [.new cstart [q2], .new cend [],
    .new q1 [], .new ci [q3], .read [cstart, q1, q2, q3, ci, q4, cend]]

/-- `HCpm0_Reeds_Shepp::TeSTcT_path` (hcpm0_reeds_shepp_state_space.cpp:598-620). -/
def TeSTcT_path (o : Tests) (c1 c2 : Sides) (cstart cend q1 q2 q3 q4 ci : Var) : List Op :=
  let tgt1 : Sides := ⟨!c2.left, c2.forward⟩
  TeST_tangent_circles o c1 tgt1 q2 q3 ;; TcT_tangent_circles o tgt1 c2 q4 ;; [.new cstart [q2], .new cend [],
    .new q1 [], .new ci [q3], .read [cstart, q1, q2, q3, ci, q4, cend]]

/-- `HCpm0_Reeds_Shepp::TSTcT_path` (hcpm0_reeds_shepp_state_space.cpp:622-635). -/
def TSTcT_path (o : Tests) (c1 c2 : Sides) (cstart cend q1 q2 q3 q4 ci : Var) : List Op :=
  (if o.inner then TiSTcT_path o c1 c2 cstart cend q1 q2 q3 q4 ci else (if o.outer then TeSTcT_path o c1 c2 cstart cend
    q1 q2 q3 q4 ci else []))

/-- `HCpm0_Reeds_Shepp::TcTiST_path` (hcpm0_reeds_shepp_state_space.cpp:670-690). -/
def TcTiST_path (o : Tests) (c1 c2 : Sides) (cstart cend q1 q2 q3 ci : Var) : List Op :=
  let tgt1 : Sides := ⟨!c1.left, !c1.forward⟩
  TcT_tangent_circles o c1 tgt1 q1 ;; TiST_tangent_circles o tgt1 c2 q2 q3 ;; [.new cstart [], .new cend [],
    .new ci [q2], .read [cstart, q1, ci, q2, q3, cend]]

/-- `HCpm0_Reeds_Shepp::TcTeST_path` (hcpm0_reeds_shepp_state_space.cpp:692-712). -/
def TcTeST_path (o : Tests) (c1 c2 : Sides) (cstart cend q1 q2 q3 ci : Var) : List Op :=
  let tgt1 : Sides := ⟨!c1.left, !c1.forward⟩
  TcT_tangent_circles o c1 tgt1 q1 ;; TeST_tangent_circles o tgt1 c2 q2 q3 ;; [.new cstart [], .new cend [],
    .new ci [q2], .read [cstart, q1, ci, q2, q3, cend]]

/-- `HCpm0_Reeds_Shepp::TcTST_path` (hcpm0_reeds_shepp_state_space.cpp:714-726). -/
def TcTST_path (o : Tests) (c1 c2 : Sides) (cstart cend q1 q2 q3 ci : Var) : List Op :=
  (if o.inner then TcTiST_path o c1 c2 cstart cend q1 q2 q3 ci else (if o.outer then TcTeST_path o c1 c2 cstart cend q1
    q2 q3 ci else []))

/-- `HCpm0_Reeds_Shepp::TcTiSTcT_path` (hcpm0_reeds_shepp_state_space.cpp:761-786). -/
def TcTiSTcT_path (o : Tests) (c1 c2 : Sides) (cstart cend q1 q2 q3 q4 ci1 ci2 : Var) : List Op :=
  let tgt1 : Sides := ⟨!c1.left, !c1.forward⟩
  let tgt2 : Sides := ⟨!c2.left, c2.forward⟩
  TcT_tangent_circles o c1 tgt1 q1 ;; TiST_tangent_circles o tgt1 tgt2 q2 q3 ;; TcT_tangent_circles o tgt2 c2 q4 ;;
    [.new cstart [], .new cend [], .new ci1 [q2], .new ci2 [q3], .read [cstart, q1, ci1, q2, q3, ci2, q4, cend]]

/-- `HCpm0_Reeds_Shepp::TcTeSTcT_path` (hcpm0_reeds_shepp_state_space.cpp:788-813). -/
def TcTeSTcT_path (o : Tests) (c1 c2 : Sides) (cstart cend q1 q2 q3 q4 ci1 ci2 : Var) : List Op :=
  let tgt1 : Sides := ⟨!c1.left, !c1.forward⟩
  let tgt2 : Sides := ⟨!c2.left, c2.forward⟩
  TcT_tangent_circles o c1 tgt1 q1 ;; TeST_tangent_circles o tgt1 tgt2 q2 q3 ;; TcT_tangent_circles o tgt2 c2 q4 ;;
    [.new cstart [], .new cend [], .new ci1 [q2], .new ci2 [q3], .read [cstart, q1, ci1, q2, q3, ci2, q4, cend]]

/-- `HCpm0_Reeds_Shepp::TcTSTcT_path` (hcpm0_reeds_shepp_state_space.cpp:815-828). -/
def TcTSTcT_path (o : Tests) (c1 c2 : Sides) (cstart cend q1 q2 q3 q4 ci1 ci2 : Var) : List Op :=
  (if o.inner then TcTiSTcT_path o c1 c2 cstart cend q1 q2 q3 q4 ci1 ci2 else (if o.outer then TcTeSTcT_path o c1 c2
    cstart cend q1 q2 q3 q4 ci1 ci2 else []))

/-- `HCpm0_Reeds_Shepp::TTcTT_tangent_circles` (hcpm0_reeds_shepp_state_space.cpp:844-879). -/
def TTcTT_tangent_circles (o : Tests) (c1 c2 : Sides) (q1 q2 q3 q4 q5 q6 : Var) : List Op :=
  let tgt1 : Sides := ⟨!c1.left, c1.forward⟩
  let tgt2 : Sides := ⟨!c2.left, !c2.forward⟩
  let tgt3 : Sides := ⟨!c1.left, c1.forward⟩
  let tgt4 : Sides := ⟨!c2.left, !c2.forward⟩
  TT_tangent_circles o c1 tgt1 q1 ;; TcT_tangent_circles o tgt1 tgt2 q2 ;; TT_tangent_circles o tgt2 c2 q3 ;;
    TT_tangent_circles o c1 tgt3 q4 ;; TcT_tangent_circles o tgt3 tgt4 q5 ;; TT_tangent_circles o tgt4 c2 q6

/-- `HCpm0_Reeds_Shepp::TTcTT_path` (hcpm0_reeds_shepp_state_space.cpp:881-937). -/
def TTcTT_path (o : Tests) (c1 c2 : Sides) (cstart cend q1 q2 q3 ci1 ci2 : Var) : List Op :=
  TTcTT_tangent_circles o c1 c2 .qa .qb .qc .qd .qe .qf ;; [.new .start1 [.qa], .new .middle1 [.qa],
    .new .middle2 [.qc], .new .start2 [.qd], .new .middle3 [.qd], .new .middle4 [.qf], .new cend [], .new q1 [],
    .read [.start1, q1, .middle1, .qb, .middle2, cend, .qc], .read [.start2, q1, .middle3, .qe, .middle4, cend, .qf]]
    ;; (if o.shorter then [.set cstart .start1, .set q2 .qb, .set q3 .qc, .set ci1 .middle1, .set ci2 .middle2,
    .delete .qa, .delete .qd, .delete .qe, .delete .qf, .delete .start2, .delete .middle3, .delete .middle4] else
    [.set cstart .start2, .set q2 .qe, .set q3 .qf, .set ci1 .middle3, .set ci2 .middle4, .delete .qa, .delete .qb,
    .delete .qc, .delete .qd, .delete .start1, .delete .middle1, .delete .middle2])

/-- `HCpm0_Reeds_Shepp::TcTTcT_tangent_circles` (hcpm0_reeds_shepp_state_space.cpp:953-980). -/
def TcTTcT_tangent_circles (o : Tests) (c1 c2 : Sides) (q1 q2 q3 q4 q5 q6 : Var) : List Op :=
  let tgt1 : Sides := ⟨!c1.left, !c1.forward⟩
  let tgt2 : Sides := ⟨!c2.left, c2.forward⟩
  let tgt3 : Sides := ⟨!c1.left, !c1.forward⟩
  let tgt4 : Sides := ⟨!c2.left, c2.forward⟩
  TcT_tangent_circles o c1 tgt1 q1 ;; TT_tangent_circles o tgt1 tgt2 q2 ;; TcT_tangent_circles o tgt2 c2 q3 ;;
    TcT_tangent_circles o c1 tgt3 q4 ;; TT_tangent_circles o tgt3 tgt4 q5 ;; TcT_tangent_circles o tgt4 c2 q6

/-- `HCpm0_Reeds_Shepp::TcTTcT_path` (hcpm0_reeds_shepp_state_space.cpp:982-1030). -/
def TcTTcT_path (o : Tests) (c1 c2 : Sides) (cstart cend q1 q2 ci1 ci2 : Var) : List Op :=
  TcTTcT_tangent_circles o c1 c2 .qa .qb .qc .qd .qe .qf ;; [.new .middle1 [.qb], .new .middle2 [.qb],
    .new .middle3 [.qe], .new .middle4 [.qe], .new cstart [], .new cend [],
    .read [cstart, .qa, .middle1, .middle2, .qc, cend], .read [cstart, .qd, .middle3, .middle4, .qf, cend]] ;; (if
    o.shorter then [.set q1 .qa, .set q2 .qc, .set ci1 .middle1, .set ci2 .middle2, .delete .qb, .delete .qd,
    .delete .qe, .delete .qf, .delete .middle3, .delete .middle4] else [.set q1 .qd, .set q2 .qf, .set ci1 .middle3,
    .set ci2 .middle4, .delete .qa, .delete .qb, .delete .qc, .delete .qe, .delete .middle1, .delete .middle2])

/-- `HCpm0_Reeds_Shepp::TTT_tangent_circles` (hcpm0_reeds_shepp_state_space.cpp:1048-1066). -/
def TTT_tangent_circles (o : Tests) (c1 c2 : Sides) (q1 q2 q3 q4 : Var) : List Op :=
  let tgt1 : Sides := ⟨!c1.left, c1.forward⟩
  let tgt2 : Sides := ⟨!c1.left, c1.forward⟩
  TT_tangent_circles o c1 tgt1 q1 ;; TT_tangent_circles o tgt1 c2 q2 ;; TT_tangent_circles o c1 tgt2 q3 ;;
    TT_tangent_circles o tgt2 c2 q4

/-- `HCpm0_Reeds_Shepp::TTT_path` (hcpm0_reeds_shepp_state_space.cpp:1068-1110). -/
def TTT_path (o : Tests) (c1 c2 : Sides) (cstart cend q1 q2 ci : Var) : List Op :=
  TTT_tangent_circles o c1 c2 .qa .qb .qc .qd ;; [.new .start1 [.qa], .new .middle1 [.qa], .new .start2 [.qc],
    .new .middle2 [.qc], .new cend [], .new q1 [], .read [.start1, q1, .middle1, .qb, cend],
    .read [.start2, q1, .middle2, .qd, cend]] ;; (if o.shorter then [.set cstart .start1, .set q2 .qb,
    .set ci .middle1, .delete .qa, .delete .qc, .delete .qd, .delete .start2, .delete .middle2] else
    [.set cstart .start2, .set q2 .qd, .set ci .middle2, .delete .qa, .delete .qb, .delete .qc, .delete .start1,
    .delete .middle1])

/-- `HCpm0_Reeds_Shepp::TciST_path` (hcpm0_reeds_shepp_state_space.cpp:1144-1188). -/
def TciST_path (_o : Tests) (c1 _c2 : Sides) (cstart cend q1 q2 : Var) : List Op :=
  (if c1.left && c1.forward then [.new q1 [], .new q2 []] else []) ;; (if c1.left && !c1.forward then [.new q1 [],
    .new q2 []] else []) ;; (if !c1.left && c1.forward then [.new q1 [], .new q2 []] else []) ;; (if !c1.left &&
    !c1.forward then [.new q1 [], .new q2 []] else []) ;; [.new cstart [], .new cend [], .read [cstart, q1, q2, cend]]

/-- `HCpm0_Reeds_Shepp::TceST_path` (hcpm0_reeds_shepp_state_space.cpp:1190-1234). -/
def TceST_path (_o : Tests) (c1 _c2 : Sides) (cstart cend q1 q2 : Var) : List Op :=
  (if c1.left && c1.forward then [.new q1 [], .new q2 []] else []) ;; (if c1.left && !c1.forward then [.new q1 [],
    .new q2 []] else []) ;; (if !c1.left && c1.forward then [.new q1 [], .new q2 []] else []) ;; (if !c1.left &&
    !c1.forward then [.new q1 [], .new q2 []] else []) ;; [.new cstart [], .new cend [], .read [cstart, q1, q2, cend]]

/-- `HCpm0_Reeds_Shepp::TcST_path` (hcpm0_reeds_shepp_state_space.cpp:1236-1248). -/
def TcST_path (o : Tests) (c1 c2 : Sides) (cstart cend q1 q2 : Var) : List Op :=
  (if o.inner then TciST_path o c1 c2 cstart cend q1 q2 else (if o.outer then TceST_path o c1 c2 cstart cend q1 q2 else
    []))

/-- `HCpm0_Reeds_Shepp::TiScT_path` (hcpm0_reeds_shepp_state_space.cpp:1282-1327). -/
def TiScT_path (_o : Tests) (c1 _c2 : Sides) (cstart cend q1 q2 q3 : Var) : List Op :=
  (if c1.left && c1.forward then [.new q2 [], .new q3 []] else []) ;; (if c1.left && !c1.forward then [.new q2 [],
    .new q3 []] else []) ;; (if !c1.left && c1.forward then [.new q2 [], .new q3 []] else []) ;; (if !c1.left &&
    !c1.forward then [.new q2 [], .new q3 []] else []) ;; [.new cstart [q2], .new cend [], .new q1 [],
    .read [cstart, q1, q2, q3, cend]]

/-- `HCpm0_Reeds_Shepp::TeScT_path` (hcpm0_reeds_shepp_state_space.cpp:1329-1374). -/
def TeScT_path (_o : Tests) (c1 _c2 : Sides) (cstart cend q1 q2 q3 : Var) : List Op :=
  (if c1.left && c1.forward then [.new q2 [], .new q3 []] else []) ;; (if c1.left && !c1.forward then [.new q2 [],
    .new q3 []] else []) ;; (if !c1.left && c1.forward then [.new q2 [], .new q3 []] else []) ;; (if !c1.left &&
    !c1.forward then [.new q2 [], .new q3 []] else []) ;; [.new q1 [], .new cstart [q2], .new cend [],
    .read [cstart, q1, q2, q3, cend]]

/-- `HCpm0_Reeds_Shepp::TScT_path` (hcpm0_reeds_shepp_state_space.cpp:1376-1388). -/
def TScT_path (o : Tests) (c1 c2 : Sides) (cstart cend q1 q2 q3 : Var) : List Op :=
  (if o.inner then TiScT_path o c1 c2 cstart cend q1 q2 q3 else (if o.outer then TeScT_path o c1 c2 cstart cend q1 q2
    q3 else []))

/-- `HCpm0_Reeds_Shepp::TciScT_path` (hcpm0_reeds_shepp_state_space.cpp:1422-1464). -/
def TciScT_path (_o : Tests) (c1 _c2 : Sides) (cstart cend q1 q2 : Var) : List Op :=
  (if c1.left && c1.forward then [.new q1 [], .new q2 []] else []) ;; (if c1.left && !c1.forward then [.new q1 [],
    .new q2 []] else []) ;; (if !c1.left && c1.forward then [.new q1 [], .new q2 []] else []) ;; (if !c1.left &&
    !c1.forward then [.new q1 [], .new q2 []] else []) ;; [.new cstart [], .new cend [], .read [cstart, q1, q2, cend]]

/-- `HCpm0_Reeds_Shepp::TceScT_path` (hcpm0_reeds_shepp_state_space.cpp:1466-1504). -/
def TceScT_path (_o : Tests) (c1 _c2 : Sides) (cstart cend q1 q2 : Var) : List Op :=
  (if c1.left && c1.forward then [.new q1 [], .new q2 []] else []) ;; (if c1.left && !c1.forward then [.new q1 [],
    .new q2 []] else []) ;; (if !c1.left && c1.forward then [.new q1 [], .new q2 []] else []) ;; (if !c1.left &&
    !c1.forward then [.new q1 [], .new q2 []] else []) ;; [.new cstart [], .new cend [], .read [cstart, q1, q2, cend]]

/-- `HCpm0_Reeds_Shepp::TcScT_path` (hcpm0_reeds_shepp_state_space.cpp:1506-1518). -/
def TcScT_path (o : Tests) (c1 c2 : Sides) (cstart cend q1 q2 : Var) : List Op :=
  (if o.inner then TciScT_path o c1 c2 cstart cend q1 q2 else (if o.outer then TceScT_path o c1 c2 cstart cend q1 q2
    else []))

/-- The rows of the table in `hcpm0_circles_rs_path` (hcpm0_reeds_shepp_state_space.cpp:1534-1699) in
the order of the path types, and what `get_controls` (hcpm0_reeds_shepp_state_space.cpp:1791-1889) reads
for the type of the row. -/
def rows : List Row :=
  [
  -- E: line 1562
   ⟨fun o => o.taken, fun _ => [], []⟩,
  -- S: never filled
   ⟨fun _ => false, fun _ => [], []⟩,
  -- T: line 1568
   ⟨fun o => o.taken, fun _ => [.new .cend [], .read [.cend]], [.cend]⟩,
  -- TT: line 1575
   ⟨fun o => o.taken, fun o => TT_path o o.c1 o.c2 .cstart .cend .qi1 .qi2, [.cstart, .qi1, .cend, .qi2]⟩,
  -- TcT: line 1581
   ⟨fun o => o.taken, fun o => TcT_path o o.c1 o.c2 .cstart .cend .qi1, [.cstart, .qi1, .cend]⟩,
  -- TcTcT: line 1588
   ⟨fun o => o.taken, fun o => TcTcT_path o o.c1 o.c2 .cstart .cend .qi1 .qi2 .ci1, [.cstart, .qi1, .ci1, .qi2, .cend]⟩,
  -- TcTT: line 1595
   ⟨fun o => o.taken, fun o => TcTT_path o o.c1 o.c2 .cstart .cend .qi1 .qi2 .ci1, [.cstart, .qi1, .ci1, .cend, .qi2]⟩,
  -- TTcT: line 1602
   ⟨fun o => o.taken, fun o => TTcT_path o o.c1 o.c2 .cstart .cend .qi1 .qi2 .ci1, [.cstart, .qi1, .ci1, .qi2, .cend]⟩,
  -- TST: line 1609
   ⟨fun o => o.inner || o.outer, fun o => TST_path o o.c1 o.c2 .cstart .cend .qi1 .qi2 .qi3, [.cstart, .qi1, .qi2,
     .qi3, .cend]⟩,
  -- TSTcT: line 1615
   ⟨fun o => o.inner || o.outer, fun o => TSTcT_path o o.c1 o.c2 .cstart .cend .qi1 .qi2 .qi3 .qi4 .ci1, [.cstart,
     .qi1, .qi2, .qi3, .ci1, .qi4, .cend]⟩,
  -- TcTST: line 1622
   ⟨fun o => o.inner || o.outer, fun o => TcTST_path o o.c1 o.c2 .cstart .cend .qi1 .qi2 .qi3 .ci1, [.cstart, .qi1,
     .ci1, .qi2, .qi3, .cend]⟩,
  -- TcTSTcT: line 1629
   ⟨fun o => o.inner || o.outer, fun o => TcTSTcT_path o o.c1 o.c2 .cstart .cend .qi1 .qi2 .qi3 .qi4 .ci1 .ci2,
     [.cstart, .qi1, .ci1, .qi2, .qi3, .ci2, .qi4, .cend]⟩,
  -- TTcTT: line 1636
   ⟨fun o => o.taken, fun o => TTcTT_path o o.c1 o.c2 .cstart .cend .qi1 .qi2 .qi3 .ci1 .ci2, [.cstart, .qi1, .ci1,
     .qi2, .ci2, .cend, .qi3]⟩,
  -- TcTTcT: line 1643
   ⟨fun o => o.taken, fun o => TcTTcT_path o o.c1 o.c2 .cstart .cend .qi1 .qi2 .ci1 .ci2, [.cstart, .qi1, .ci1, .ci2,
     .qi2, .cend]⟩,
  -- TTT: line 1651
   ⟨fun o => o.taken, fun o => TTT_path o o.c1 o.c2 .cstart .cend .qi1 .qi2 .ci1, [.cstart, .qi1, .ci1, .qi2, .cend]⟩,
  -- TcST: line 1657
   ⟨fun o => o.inner || o.outer, fun o => TcST_path o o.c1 o.c2 .cstart .cend .qi1 .qi2, [.cstart, .qi1, .qi2, .cend]⟩,
  -- TScT: line 1663
   ⟨fun o => o.inner || o.outer, fun o => TScT_path o o.c1 o.c2 .cstart .cend .qi1 .qi2 .qi3, [.cstart, .qi1, .qi2,
     .qi3, .cend]⟩,
  -- TcScT: line 1670
   ⟨fun o => o.inner || o.outer, fun o => TcScT_path o o.c1 o.c2 .cstart .cend .qi1 .qi2, [.cstart, .qi1, .qi2, .cend]⟩]

/-- What else the planner does with memory: `hcpm0_circles_rs_path` (hcpm0_reeds_shepp_state_space.cpp:1534-1699),
the planner (hcpm0_reeds_shepp_state_space.cpp:1701-1781) and the path class (paths.cpp:138-166). -/
def planner : Planner where
  rows := rows
  passed := [.qi1, .qi2, .qi3, .qi4, .cstart, .cend, .ci1, .ci2]
  cleaned := [.qi1, .qi2, .qi3, .qi4, .cstart, .ci1, .ci2, .cend]
  destroyed := [.qi1, .qi2, .qi3, .qi4, .cstart, .ci1, .ci2, .cend]
  circles := 4

end HCpm0

namespace HCpmpm

/-- `HCpmpm_Reeds_Shepp::TT_tangent_circles` (hcpmpm_reeds_shepp_state_space.cpp:69-98). -/
def TT_tangent_circles (_o : Tests) (_c1 _c2 : Sides) (q : Var) : List Op :=
  [.new q []]

/-- `HCpmpm_Reeds_Shepp::TT_path` (hcpmpm_reeds_shepp_state_space.cpp:100-109). -/
def TT_path (o : Tests) (c1 c2 : Sides) (cstart cend q1 q2 q3 : Var) : List Op :=
  TT_tangent_circles o c1 c2 q2 ;; [.new cstart [q2], .new cend [q2], .new q1 [], .new q3 [],
    .read [cstart, q1, cend, q3]]

/-- `HCpmpm_Reeds_Shepp::TcT_tangent_circles` (hcpmpm_reeds_shepp_state_space.cpp:125-159). -/
def TcT_tangent_circles (_o : Tests) (_c1 _c2 : Sides) (q : Var) : List Op :=
  [.new q []]

/-- `HCpmpm_Reeds_Shepp::TcT_path` (hcpmpm_reeds_shepp_state_space.cpp:161-168). -/
def TcT_path (o : Tests) (c1 c2 : Sides) (cstart cend q : Var) : List Op :=
  TcT_tangent_circles o c1 c2 q ;; [.new cstart [], .new cend [], .read [cstart, q, cend]]

/-- `HCpmpm_Reeds_Shepp::TcTcT_tangent_circles` (hcpmpm_reeds_shepp_state_space.cpp:186-204). -/
def TcTcT_tangent_circles (o : Tests) (c1 c2 : Sides) (q1 q2 q3 q4 : Var) : List Op :=
  let tgt1 : Sides := ⟨!c1.left, !c1.forward⟩
  let tgt2 : Sides := ⟨!c1.left, !c1.forward⟩
  TcT_tangent_circles o c1 tgt1 q1 ;; TcT_tangent_circles o tgt1 c2 q2 ;; TcT_tangent_circles o c1 tgt2 q3 ;;
    TcT_tangent_circles o tgt2 c2 q4

/-- `HCpmpm_Reeds_Shepp::TcTcT_path` (hcpmpm_reeds_shepp_state_space.cpp:206-242). -/
def TcTcT_path (o : Tests) (c1 c2 : Sides) (cstart cend q1 q2 ci : Var) : List Op :=
  TcTcT_tangent_circles o c1 c2 .qa .qb .qc .qd ;; [.new .middle1 [.qa], .new .middle2 [.qc], .new cstart [],
    .new cend [], .read [cstart, .qa, .middle1, .qb, cend], .read [cstart, .qc, .middle2, .qd, cend]] ;; (if o.shorter
    then [.set q1 .qa, .set q2 .qb, .set ci .middle1, .delete .qc, .delete .qd, .delete .middle2] else [.set q1 .qc,
    .set q2 .qd, .set ci .middle2, .delete .qa, .delete .qb, .delete .middle1])

/-- `HCpmpm_Reeds_Shepp::TcTT_tangent_circles` (hcpmpm_reeds_shepp_state_space.cpp:259-278). -/
def TcTT_tangent_circles (o : Tests) (c1 c2 : Sides) (q1 q2 q3 q4 : Var) : List Op :=
  let tgt1 : Sides := ⟨!c1.left, !c1.forward⟩
  let tgt2 : Sides := ⟨!c1.left, !c1.forward⟩
  TcT_tangent_circles o c1 tgt1 q1 ;; TT_tangent_circles o tgt1 c2 q2 ;; TcT_tangent_circles o c1 tgt2 q3 ;;
    TT_tangent_circles o tgt2 c2 q4

/-- `HCpmpm_Reeds_Shepp::TcTT_path` (hcpmpm_reeds_shepp_state_space.cpp:280-322). -/
def TcTT_path (o : Tests) (c1 c2 : Sides) (cstart cend q1 q2 ci : Var) : List Op :=
  TcTT_tangent_circles o c1 c2 .qa .qb .qc .qd ;; [.new .end1 [.qb], .new .end2 [.qd], .new .middle1 [.qb],
    .new .middle2 [.qd], .new cstart [], .new q2 [], .read [cstart, .qa, .middle1, .end1, q2],
    .read [cstart, .qc, .middle2, .end2, q2]] ;; (if o.shorter then [.set cend .end1, .set q1 .qa, .set ci .middle1,
    .delete .qb, .delete .qc, .delete .qd, .delete .end2, .delete .middle2] else [.set cend .end2, .set q1 .qc,
    .set ci .middle2, .delete .qa, .delete .qb, .delete .qd, .delete .end1, .delete .middle1])

/-- `HCpmpm_Reeds_Shepp::TTcT_tangent_circles` (hcpmpm_reeds_shepp_state_space.cpp:339-358). -/
def TTcT_tangent_circles (o : Tests) (c1 c2 : Sides) (q1 q2 q3 q4 : Var) : List Op :=
  let tgt1 : Sides := ⟨!c1.left, c1.forward⟩
  let tgt2 : Sides := ⟨!c1.left, c1.forward⟩
  TT_tangent_circles o c1 tgt1 q1 ;; TcT_tangent_circles o tgt1 c2 q2 ;; TT_tangent_circles o c1 tgt2 q3 ;;
    TcT_tangent_circles o tgt2 c2 q4

/-- `HCpmpm_Reeds_Shepp::TTcT_path` (hcpmpm_reeds_shepp_state_space.cpp:360-402). -/
def TTcT_path (o : Tests) (c1 c2 : Sides) (cstart cend q1 q2 ci : Var) : List Op :=
  TTcT_tangent_circles o c1 c2 .qa .qb .qc .qd ;; [.new .start1 [.qa], .new .start2 [.qc], .new .middle1 [.qa],
    .new .middle2 [.qc], .new cend [], .new q1 [], .read [.start1, q1, .middle1, .qb, cend],
    .read [.start2, q1, .middle2, .qd, cend]] ;; (if o.shorter then [.set cstart .start1, .set q2 .qb,
    .set ci .middle1, .delete .qa, .delete .qc, .delete .qd, .delete .start2, .delete .middle2] else
    [.set cstart .start2, .set q2 .qd, .set ci .middle2, .delete .qa, .delete .qb, .delete .qc, .delete .start1,
    .delete .middle1])

/-- `HCpmpm_Reeds_Shepp::TiST_tangent_circles` (hcpmpm_reeds_shepp_state_space.cpp:436-477). -/
def TiST_tangent_circles (_o : Tests) (c1 _c2 : Sides) (q1 q2 : Var) : List Op :=
  (if c1.left && c1.forward then [.new q1 [], .new q2 []] else []) ;; (if c1.left && !c1.forward then [.new q1 [],
    .new q2 []] else []) ;; (if !c1.left && c1.forward then [.new q1 [], .new q2 []] else []) ;; (if !c1.left &&
    !c1.forward then [.new q1 [], .new q2 []] else [])

/-- `HCpmpm_Reeds_Shepp::TeST_tangent_circles` (hcpmpm_reeds_shepp_state_space.cpp:479-514). -/
def TeST_tangent_circles (_o : Tests) (c1 _c2 : Sides) (q1 q2 : Var) : List Op :=
  (if c1.left && c1.forward then [.new q1 [], .new q2 []] else []) ;; (if c1.left && !c1.forward then [.new q1 [],
    .new q2 []] else []) ;; (if !c1.left && c1.forward then [.new q1 [], .new q2 []] else []) ;; (if !c1.left &&
    !c1.forward then [.new q1 [], .new q2 []] else [])

/-- `HCpmpm_Reeds_Shepp::TiST_path` (hcpmpm_reeds_shepp_state_space.cpp:516-525). -/
def TiST_path (o : Tests) (c1 c2 : Sides) (cstart cend q1 q2 q3 q4 : Var) : List Op :=
  TiST_tangent_circles o c1 c2 q2 q3 ;; [.new cstart [q2], .new cend [q3], .new q1 [], .new q4 [],
    .read [cstart, q1, q2, q3, cend, q4]]

/-- `HCpmpm_Reeds_Shepp::TeST_path` (hcpmpm_reeds_shepp_state_space.cpp:527-536). -/
def TeST_path (o : Tests) (c1 c2 : Sides) (cstart cend q1 q2 q3 q4 : Var) : List Op :=
  TeST_tangent_circles o c1 c2 q2 q3 ;; [.new cstart [q2], .new cend [q3], .new q1 [], .new q4 [],
    .read [cstart, q1, q2, q3, cend, q4]]

/-- `HCpmpm_Reeds_Shepp::TST_path` (hcpmpm_reeds_shepp_state_space.cpp:538-550). -/
def TST_path (o : Tests) (c1 c2 : Sides) (cstart cend q1 q2 q3 q4 : Var) : List Op :=
  (if o.inner then TiST_path o c1 c2 cstart cend q1 q2 q3 q4 else (if o.outer then TeST_path o c1 c2 cstart cend q1 q2
    q3 q4 else []))

/-- `HCpmpm_Reeds_Shepp::TiSTcT_path` (hcpmpm_reeds_shepp_state_space.cpp:585-607). -/
def TiSTcT_path (o : Tests) (c1 c2 : Sides) (cstart cend q1 q2 q3 q4 ci : Var) : List Op :=
  let tgt1 : Sides := ⟨!c2.left, c2.forward⟩
  TiST_tangent_circles o c1 tgt1 q2 q3 ;; TcT_tangent_circles o tgt1 c2 q4 ;; [.new cstart [q2], .new cend [],
    .new q1 [], .new ci [q3], .read [cstart, q1, q2, q3, ci, q4, cend]]

/-- `HCpmpm_Reeds_Shepp::TeSTcT_path` (hcpmpm_reeds_shepp_state_space.cpp:609-631). -/
def TeSTcT_path (o : Tests) (c1 c2 : Sides) (cstart cend q1 q2 q3 q4 ci : Var) : List Op :=
  let tgt1 : Sides := ⟨!c2.left, c2.forward⟩
  TeST_tangent_circles o c1 tgt1 q2 q3 ;; TcT_tangent_circles o tgt1 c2 q4 ;; [.new cstart [q2], .new cend [],
    .new q1 [], .new ci [q3], .read [cstart, q1, q2, q3, ci, q4, cend]]

/-- `HCpmpm_Reeds_Shepp::TSTcT_path` (hcpmpm_reeds_shepp_state_space.cpp:633-646). -/
def TSTcT_path (o : Tests) (c1 c2 : Sides) (cstart cend q1 q2 q3 q4 ci : Var) : List Op :=
  (if o.inner then TiSTcT_path o c1 c2 cstart cend q1 q2 q3 q4 ci else (if o.outer then TeSTcT_path o c1 c2 cstart cend
    q1 q2 q3 q4 ci else []))

/-- `HCpmpm_Reeds_Shepp::TcTiST_path` (hcpmpm_reeds_shepp_state_space.cpp:681-703). -/
def TcTiST_path (o : Tests) (c1 c2 : Sides) (cstart cend q1 q2 q3 q4 ci : Var) : List Op :=
  let tgt1 : Sides := ⟨!c2.left, !c2.forward⟩
  TcT_tangent_circles o c1 tgt1 q1 ;; TiST_tangent_circles o tgt1 c2 q2 q3 ;; [.new cstart [], .new cend [q3],
    .new q4 [], .new ci [q2], .read [cstart, q1, ci, q2, q3, cend, q4]]

/-- `HCpmpm_Reeds_Shepp::TcTeST_path` (hcpmpm_reeds_shepp_state_space.cpp:705-727). -/
def TcTeST_path (o : Tests) (c1 c2 : Sides) (cstart cend q1 q2 q3 q4 ci : Var) : List Op :=
  let tgt1 : Sides := ⟨c2.left, !c2.forward⟩
  TcT_tangent_circles o c1 tgt1 q1 ;; TeST_tangent_circles o tgt1 c2 q2 q3 ;; [.new cstart [], .new cend [q3],
    .new q4 [], .new ci [q2], .read [cstart, q1, ci, q2, q3, cend, q4]]

/-- `HCpmpm_Reeds_Shepp::TcTST_path` (hcpmpm_reeds_shepp_state_space.cpp:729-742). -/
def TcTST_path (o : Tests) (c1 c2 : Sides) (cstart cend q1 q2 q3 q4 ci : Var) : List Op :=
  (if o.inner then TcTiST_path o c1 c2 cstart cend q1 q2 q3 q4 ci else (if o.outer then TcTeST_path o c1 c2 cstart cend
    q1 q2 q3 q4 ci else []))

/-- `HCpmpm_Reeds_Shepp::TcTiSTcT_path` (hcpmpm_reeds_shepp_state_space.cpp:777-802). -/
def TcTiSTcT_path (o : Tests) (c1 c2 : Sides) (cstart cend q1 q2 q3 q4 ci1 ci2 : Var) : List Op :=
  let tgt1 : Sides := ⟨!c1.left, !c1.forward⟩
  let tgt2 : Sides := ⟨!c2.left, c2.forward⟩
  TcT_tangent_circles o c1 tgt1 q1 ;; TiST_tangent_circles o tgt1 tgt2 q2 q3 ;; TcT_tangent_circles o tgt2 c2 q4 ;;
    [.new cstart [], .new cend [], .new ci1 [q2], .new ci2 [q3], .read [cstart, q1, ci1, q2, q3, ci2, q4, cend]]

/-- `HCpmpm_Reeds_Shepp::TcTeSTcT_path` (hcpmpm_reeds_shepp_state_space.cpp:804-829). -/
def TcTeSTcT_path (o : Tests) (c1 c2 : Sides) (cstart cend q1 q2 q3 q4 ci1 ci2 : Var) : List Op :=
  let tgt1 : Sides := ⟨!c1.left, !c1.forward⟩
  let tgt2 : Sides := ⟨!c2.left, c2.forward⟩
  TcT_tangent_circles o c1 tgt1 q1 ;; TeST_tangent_circles o tgt1 tgt2 q2 q3 ;; TcT_tangent_circles o tgt2 c2 q4 ;;
    [.new cstart [], .new cend [], .new ci1 [q2], .new ci2 [q3], .read [cstart, q1, ci1, q2, q3, ci2, q4, cend]]

/-- `HCpmpm_Reeds_Shepp::TcTSTcT_path` (hcpmpm_reeds_shepp_state_space.cpp:831-844). -/
def TcTSTcT_path (o : Tests) (c1 c2 : Sides) (cstart cend q1 q2 q3 q4 ci1 ci2 : Var) : List Op :=
  (if o.inner then TcTiSTcT_path o c1 c2 cstart cend q1 q2 q3 q4 ci1 ci2 else (if o.outer then TcTeSTcT_path o c1 c2
    cstart cend q1 q2 q3 q4 ci1 ci2 else []))

/-- `HCpmpm_Reeds_Shepp::TTcTT_tangent_circles` (hcpmpm_reeds_shepp_state_space.cpp:860-895). -/
def TTcTT_tangent_circles (o : Tests) (c1 c2 : Sides) (q1 q2 q3 q4 q5 q6 : Var) : List Op :=
  let tgt1 : Sides := ⟨!c1.left, c1.forward⟩
  let tgt2 : Sides := ⟨!c2.left, !c2.forward⟩
  let tgt3 : Sides := ⟨!c1.left, c1.forward⟩
  let tgt4 : Sides := ⟨!c2.left, !c2.forward⟩
  TT_tangent_circles o c1 tgt1 q1 ;; TcT_tangent_circles o tgt1 tgt2 q2 ;; TT_tangent_circles o tgt2 c2 q3 ;;
    TT_tangent_circles o c1 tgt3 q4 ;; TcT_tangent_circles o tgt3 tgt4 q5 ;; TT_tangent_circles o tgt4 c2 q6

/-- `HCpmpm_Reeds_Shepp::TTcTT_path` (hcpmpm_reeds_shepp_state_space.cpp:897-956). -/
def TTcTT_path (o : Tests) (c1 c2 : Sides) (cstart cend q1 q2 q3 ci1 ci2 : Var) : List Op :=
  TTcTT_tangent_circles o c1 c2 .qa .qb .qc .qd .qe .qf ;; [.new .start1 [.qa], .new .middle1 [.qa],
    .new .middle2 [.qc], .new .end1 [.qc], .new .start2 [.qd], .new .middle3 [.qd], .new .middle4 [.qf],
    .new .end2 [.qf], .new q1 [], .new q3 [], .read [.start1, q1, .middle1, .qb, .middle2, .end1, q3],
    .read [.start2, q1, .middle3, .qe, .middle4, .end2, q3]] ;; (if o.shorter then [.set cstart .start1,
    .set cend .end1, .set ci1 .middle1, .set ci2 .middle2, .set q2 .qb, .delete .qa, .delete .qc, .delete .qd,
    .delete .qe, .delete .qf, .delete .start2, .delete .end2, .delete .middle3, .delete .middle4] else
    [.set cstart .start2, .set cend .end2, .set ci1 .middle3, .set ci2 .middle4, .set q2 .qe, .delete .qa, .delete .qb,
    .delete .qc, .delete .qd, .delete .qf, .delete .start1, .delete .end1, .delete .middle1, .delete .middle2])

/-- `HCpmpm_Reeds_Shepp::TcTTcT_tangent_circles` (hcpmpm_reeds_shepp_state_space.cpp:973-1000). -/
def TcTTcT_tangent_circles (o : Tests) (c1 c2 : Sides) (q1 q2 q3 q4 q5 q6 : Var) : List Op :=
  let tgt1 : Sides := ⟨!c1.left, !c1.forward⟩
  let tgt2 : Sides := ⟨!c2.left, c2.forward⟩
  let tgt3 : Sides := ⟨!c1.left, !c1.forward⟩
  let tgt4 : Sides := ⟨!c2.left, c2.forward⟩
  TcT_tangent_circles o c1 tgt1 q1 ;; TT_tangent_circles o tgt1 tgt2 q2 ;; TcT_tangent_circles o tgt2 c2 q3 ;;
    TcT_tangent_circles o c1 tgt3 q4 ;; TT_tangent_circles o tgt3 tgt4 q5 ;; TcT_tangent_circles o tgt4 c2 q6

/-- `HCpmpm_Reeds_Shepp::TcTTcT_path` (hcpmpm_reeds_shepp_state_space.cpp:1002-1050). -/
def TcTTcT_path (o : Tests) (c1 c2 : Sides) (cstart cend q1 q2 ci1 ci2 : Var) : List Op :=
  TcTTcT_tangent_circles o c1 c2 .qa .qb .qc .qd .qe .qf ;; [.new .middle1 [.qb], .new .middle2 [.qb],
    .new .middle3 [.qe], .new .middle4 [.qe], .new cstart [], .new cend [],
    .read [cstart, .qa, .middle1, .middle2, .qc, cend], .read [cstart, .qd, .middle3, .middle4, .qf, cend]] ;; (if
    o.shorter then [.set q1 .qa, .set q2 .qc, .set ci1 .middle1, .set ci2 .middle2, .delete .qb, .delete .qd,
    .delete .qe, .delete .qf, .delete .middle3, .delete .middle4] else [.set q1 .qd, .set q2 .qf, .set ci1 .middle3,
    .set ci2 .middle4, .delete .qa, .delete .qb, .delete .qc, .delete .qe, .delete .middle1, .delete .middle2])

/-- `HCpmpm_Reeds_Shepp::TTT_tangent_circles` (hcpmpm_reeds_shepp_state_space.cpp:1068-1086). -/
def TTT_tangent_circles (o : Tests) (c1 c2 : Sides) (q1 q2 q3 q4 : Var) : List Op :=
  let tgt1 : Sides := ⟨!c1.left, c1.forward⟩
  let tgt2 : Sides := ⟨!c1.left, c1.forward⟩
  TT_tangent_circles o c1 tgt1 q1 ;; TT_tangent_circles o tgt1 c2 q2 ;; TT_tangent_circles o c1 tgt2 q3 ;;
    TT_tangent_circles o tgt2 c2 q4

/-- `HCpmpm_Reeds_Shepp::TTT_path` (hcpmpm_reeds_shepp_state_space.cpp:1088-1136). -/
def TTT_path (o : Tests) (c1 c2 : Sides) (cstart cend q1 q2 q3 ci : Var) : List Op :=
  TTT_tangent_circles o c1 c2 .qa .qb .qc .qd ;; [.new .start1 [.qa], .new .middle1 [.qa], .new .end1 [.qb],
    .new .start2 [.qc], .new .middle2 [.qc], .new .end2 [.qd], .new q1 [], .new q3 [],
    .read [.start1, q1, .middle1, .qb, .end1, q3], .read [.start2, q1, .middle2, .qd, .end2, q3]] ;; (if o.shorter then
    [.set cstart .start1, .set ci .middle1, .set cend .end1, .set q2 .qb, .delete .qa, .delete .qc, .delete .qd,
    .delete .start2, .delete .middle2, .delete .end2] else [.set cstart .start2, .set ci .middle2, .set cend .end2,
    .set q2 .qd, .delete .qa, .delete .qb, .delete .qc, .delete .start1, .delete .middle1, .delete .end1])

/-- `HCpmpm_Reeds_Shepp::TciST_path` (hcpmpm_reeds_shepp_state_space.cpp:1172-1217). -/
def TciST_path (_o : Tests) (c1 _c2 : Sides) (cstart cend q1 q2 q3 : Var) : List Op :=
  (if c1.left && c1.forward then [.new q1 [], .new q2 []] else []) ;; (if c1.left && !c1.forward then [.new q1 [],
    .new q2 []] else []) ;; (if !c1.left && c1.forward then [.new q1 [], .new q2 []] else []) ;; (if !c1.left &&
    !c1.forward then [.new q1 [], .new q2 []] else []) ;; [.new q3 [], .new cstart [], .new cend [q2],
    .read [cstart, q1, q2, cend, q3]]

/-- `HCpmpm_Reeds_Shepp::TceST_path` (hcpmpm_reeds_shepp_state_space.cpp:1219-1264). -/
def TceST_path (_o : Tests) (c1 _c2 : Sides) (cstart cend q1 q2 q3 : Var) : List Op :=
  (if c1.left && c1.forward then [.new q1 [], .new q2 []] else []) ;; (if c1.left && !c1.forward then [.new q1 [],
    .new q2 []] else []) ;; (if !c1.left && c1.forward then [.new q1 [], .new q2 []] else []) ;; (if !c1.left &&
    !c1.forward then [.new q1 [], .new q2 []] else []) ;; [.new q3 [], .new cstart [], .new cend [q2],
    .read [cstart, q1, q2, cend, q3]]

/-- `HCpmpm_Reeds_Shepp::TcST_path` (hcpmpm_reeds_shepp_state_space.cpp:1266-1278). -/
def TcST_path (o : Tests) (c1 c2 : Sides) (cstart cend q1 q2 q3 : Var) : List Op :=
  (if o.inner then TciST_path o c1 c2 cstart cend q1 q2 q3 else (if o.outer then TceST_path o c1 c2 cstart cend q1 q2
    q3 else []))

/-- `HCpmpm_Reeds_Shepp::TiScT_path` (hcpmpm_reeds_shepp_state_space.cpp:1314-1359). -/
def TiScT_path (_o : Tests) (c1 _c2 : Sides) (cstart cend q1 q2 q3 : Var) : List Op :=
  (if c1.left && c1.forward then [.new q2 [], .new q3 []] else []) ;; (if c1.left && !c1.forward then [.new q2 [],
    .new q3 []] else []) ;; (if !c1.left && c1.forward then [.new q2 [], .new q3 []] else []) ;; (if !c1.left &&
    !c1.forward then [.new q2 [], .new q3 []] else []) ;; [.new q1 [], .new cstart [q2], .new cend [],
    .read [cstart, q1, q2, q3, cend]]

/-- `HCpmpm_Reeds_Shepp::TeScT_path` (hcpmpm_reeds_shepp_state_space.cpp:1361-1406). -/
def TeScT_path (_o : Tests) (c1 _c2 : Sides) (cstart cend q1 q2 q3 : Var) : List Op :=
  (if c1.left && c1.forward then [.new q2 [], .new q3 []] else []) ;; (if c1.left && !c1.forward then [.new q2 [],
    .new q3 []] else []) ;; (if !c1.left && c1.forward then [.new q2 [], .new q3 []] else []) ;; (if !c1.left &&
    !c1.forward then [.new q2 [], .new q3 []] else []) ;; [.new q1 [], .new cstart [q2], .new cend [],
    .read [cstart, q1, q2, q3, cend]]

/-- `HCpmpm_Reeds_Shepp::TScT_path` (hcpmpm_reeds_shepp_state_space.cpp:1408-1420). -/
def TScT_path (o : Tests) (c1 c2 : Sides) (cstart cend q1 q2 q3 : Var) : List Op :=
  (if o.inner then TiScT_path o c1 c2 cstart cend q1 q2 q3 else (if o.outer then TeScT_path o c1 c2 cstart cend q1 q2
    q3 else []))

/-- `HCpmpm_Reeds_Shepp::TciScT_path` (hcpmpm_reeds_shepp_state_space.cpp:1454-1496). -/
def TciScT_path (_o : Tests) (c1 _c2 : Sides) (cstart cend q1 q2 : Var) : List Op :=
  (if c1.left && c1.forward then [.new q1 [], .new q2 []] else []) ;; (if c1.left && !c1.forward then [.new q1 [],
    .new q2 []] else []) ;; (if !c1.left && c1.forward then [.new q1 [], .new q2 []] else []) ;; (if !c1.left &&
    !c1.forward then [.new q1 [], .new q2 []] else []) ;; [.new cstart [], .new cend [], .read [cstart, q1, q2, cend]]

/-- `HCpmpm_Reeds_Shepp::TceScT_path` (hcpmpm_reeds_shepp_state_space.cpp:1498-1536). -/
def TceScT_path (_o : Tests) (c1 _c2 : Sides) (cstart cend q1 q2 : Var) : List Op :=
  (if c1.left && c1.forward then [.new q1 [], .new q2 []] else []) ;; (if c1.left && !c1.forward then [.new q1 [],
    .new q2 []] else []) ;; (if !c1.left && c1.forward then [.new q1 [], .new q2 []] else []) ;; (if !c1.left &&
    !c1.forward then [.new q1 [], .new q2 []] else []) ;; [.new cstart [], .new cend [], .read [cstart, q1, q2, cend]]

/-- `HCpmpm_Reeds_Shepp::TcScT_path` (hcpmpm_reeds_shepp_state_space.cpp:1538-1550). -/
def TcScT_path (o : Tests) (c1 c2 : Sides) (cstart cend q1 q2 : Var) : List Op :=
  (if o.inner then TciScT_path o c1 c2 cstart cend q1 q2 else (if o.outer then TceScT_path o c1 c2 cstart cend q1 q2
    else []))

/-- The rows of the table in `hcpmpm_circles_rs_path` (hcpmpm_reeds_shepp_state_space.cpp:1568-1736) in
the order of the path types, and what `get_controls` (hcpmpm_reeds_shepp_state_space.cpp:1839-1938) reads
for the type of the row. -/
def rows : List Row :=
  [
  -- E: line 1596
   ⟨fun o => o.taken, fun _ => [], []⟩,
  -- S: never filled
   ⟨fun _ => false, fun _ => [], []⟩,
  -- T: line 1602
   ⟨fun o => o.taken, fun _ => [.new .cstart [], .read [.cstart]], [.cstart]⟩,
  -- TT: line 1609
   ⟨fun o => o.taken, fun o => TT_path o o.c1 o.c2 .cstart .cend .qi1 .qi2 .qi3, [.cstart, .qi1, .cend, .qi3]⟩,
  -- TcT: line 1615
   ⟨fun o => o.taken, fun o => TcT_path o o.c1 o.c2 .cstart .cend .qi1, [.cstart, .qi1, .cend]⟩,
  -- TcTcT: line 1622
   ⟨fun o => o.taken, fun o => TcTcT_path o o.c1 o.c2 .cstart .cend .qi1 .qi2 .ci1, [.cstart, .qi1, .ci1, .qi2, .cend]⟩,
  -- TcTT: line 1629
   ⟨fun o => o.taken, fun o => TcTT_path o o.c1 o.c2 .cstart .cend .qi1 .qi2 .ci1, [.cstart, .qi1, .ci1, .cend, .qi2]⟩,
  -- TTcT: line 1636
   ⟨fun o => o.taken, fun o => TTcT_path o o.c1 o.c2 .cstart .cend .qi1 .qi2 .ci1, [.cstart, .qi1, .ci1, .qi2, .cend]⟩,
  -- TST: line 1643
   ⟨fun o => o.inner || o.outer, fun o => TST_path o o.c1 o.c2 .cstart .cend .qi1 .qi2 .qi3 .qi4, [.cstart, .qi1, .qi2,
     .qi3, .cend, .qi4]⟩,
  -- TSTcT: line 1650
   ⟨fun o => o.inner || o.outer, fun o => TSTcT_path o o.c1 o.c2 .cstart .cend .qi1 .qi2 .qi3 .qi4 .ci1, [.cstart,
     .qi1, .qi2, .qi3, .ci1, .qi4, .cend]⟩,
  -- TcTST: line 1657
   ⟨fun o => o.inner || o.outer, fun o => TcTST_path o o.c1 o.c2 .cstart .cend .qi1 .qi2 .qi3 .qi4 .ci1, [.cstart,
     .qi1, .ci1, .qi2, .qi3, .cend, .qi4]⟩,
  -- TcTSTcT: line 1664
   ⟨fun o => o.inner || o.outer, fun o => TcTSTcT_path o o.c1 o.c2 .cstart .cend .qi1 .qi2 .qi3 .qi4 .ci1 .ci2,
     [.cstart, .qi1, .ci1, .qi2, .qi3, .ci2, .qi4, .cend]⟩,
  -- TTcTT: line 1671
   ⟨fun o => o.taken, fun o => TTcTT_path o o.c1 o.c2 .cstart .cend .qi1 .qi2 .qi3 .ci1 .ci2, [.cstart, .qi1, .ci1,
     .qi2, .ci2, .cend, .qi3]⟩,
  -- TcTTcT: line 1678
   ⟨fun o => o.taken, fun o => TcTTcT_path o o.c1 o.c2 .cstart .cend .qi1 .qi2 .ci1 .ci2, [.cstart, .qi1, .ci1, .ci2,
     .qi2, .cend]⟩,
  -- TTT: line 1686
   ⟨fun o => o.taken, fun o => TTT_path o o.c1 o.c2 .cstart .cend .qi1 .qi2 .qi3 .ci1, [.cstart, .qi1, .ci1, .qi2,
     .cend, .qi3]⟩,
  -- TcST: line 1693
   ⟨fun o => o.inner || o.outer, fun o => TcST_path o o.c1 o.c2 .cstart .cend .qi1 .qi2 .qi3, [.cstart, .qi1, .qi2,
     .cend, .qi3]⟩,
  -- TScT: line 1700
   ⟨fun o => o.inner || o.outer, fun o => TScT_path o o.c1 o.c2 .cstart .cend .qi1 .qi2 .qi3, [.cstart, .qi1, .qi2,
     .qi3, .cend]⟩,
  -- TcScT: line 1707
   ⟨fun o => o.inner || o.outer, fun o => TcScT_path o o.c1 o.c2 .cstart .cend .qi1 .qi2, [.cstart, .qi1, .qi2, .cend]⟩]

/-- What else the planner does with memory: `hcpmpm_circles_rs_path` (hcpmpm_reeds_shepp_state_space.cpp:1568-1736),
the planner (hcpmpm_reeds_shepp_state_space.cpp:1738-1829) and the path class (paths.cpp:138-166). -/
def planner : Planner where
  rows := rows
  passed := [.qi1, .qi2, .qi3, .qi4, .cstart, .cend, .ci1, .ci2]
  cleaned := [.qi1, .qi2, .qi3, .qi4, .cstart, .ci1, .ci2, .cend]
  destroyed := [.qi1, .qi2, .qi3, .qi4, .cstart, .ci1, .ci2, .cend]
  circles := 4

end HCpmpm

end SF.Mem
