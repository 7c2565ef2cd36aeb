import Mathlib.Data.Nat.Factorial.Basic
import Mathlib.Data.Rat.Defs
import Verif.Lemmas.Poly
import Verif.Model.Utilities

/-!
# The Chebyshev tables of `fresnel.data` as integers, and exact checks

All checks are identities between lists of integers, evaluated by the kernel.
-/

namespace Poly

/-- `chebev_a` times `10 ^ 20`. -/
def aI : List ℤ :=
  [76435138664186000189, -43135547547660179313, 43288199979726653054, -26973310338387111029,
   8416045320876935378, -1546524484461381958, 187855423439822018, -16264977618887547,
   1057397656383260, -53609339889243, 2181658454933, -72901621186, 2037332548, -48344033,
   986533, -17502, 272, -4]

/-- `chebev_b` times `10 ^ 20`. -/
def bI : List ℤ :=
  [63041404314570539241, -42344511405705333544, 37617172643343656625, -16249489154509567415,
   3822255778633008694, -564563477132190899, 57454951976897367, -4287071532102004,
   245120749923299, -11098841840868, 408249731696, -12449830219, 320048425, -7032416, 133638,
   -2219, 32]

/-- `chebev_e` times `10 ^ 20`. -/
def eI : List ℤ :=
  [97462779093296822410, -2424701873969321371, 103400906842977317, -8052450246908016,
   905962481966582, -131016996757743, 22770820391497, -4558623552026, 1021567537083,
   -251114508133, 66704761275, -18931512852, 5689898935, -1798219359, 594162963, -204285065,
   72797580, -26797428, 10160694, -3958559, 1581262, -646411, 269981, -115038, 49942, -22064,
   9910, -4520, 2092, -982, 467, -225, 110, -54, 27, -14, 7, -4, 2, -1, 1]

/-- `chebev_f` times `10 ^ 20`. -/
def fI : List ℤ :=
  [99461545179407928910, -524276766084297210, 13325864229883909, -770856452642713,
   70848077032045, -8812517411602, 1359784717148, -246858295747, 50925789921, -11653400634,
   2906578309, -779847361, 222802542, -67239338, 21296411, -7041482, 2419805, -861080, 316287,
   -119596, 46444, -18485, 7527, -3131, 1328, -574, 252, -113, 51, -24, 11, -5, 2, -1, 1]

/-- Common denominator for `C`. -/
def NA : ℤ := 9599471396237569806089568628966540102488357037398550082100000000000000000000

/-- Common denominator for `S`. -/
def NB : ℤ := 202270087717086116451942572452328528666532105171941908257360300000000000000000000

/-- Taylor coefficients of `C`, times `NA`. -/
def tA : List ℤ :=
  [19198942792475139612179137257933080204976714074797100164200000000000000000000,
   -122873233871840893517946478450771713311850970078701441050880000000000000000000,
   364068841101750795608730306520805076479558429862819084595200000000000000000000,
   -537701673011816559668278606553804420646732450258932801863680000000000000000000,
   469924151203604388281520799005005544094623317873353036922880000000000000000000,
   -270517183338371203412854301226161921679867814733443441360896000000000000000000,
   110174271032354817389962479044836855375073437273256965208801280000000000000000,
   -33398793795333025355047360074221100530526240931642884489216000000000000000000,
   7826788040926527153910088421433631639476856460748635557068800000000000000000,
   -1460004976367852442064838963616660486007341533748553108684800000000000000000,
   221905762775293618922306717961762004548484258787970074542080000000000000000,
   -28007730712956731892839481862994877341761553393921764098048000000000000000,
   2982189605638693724171018476982595635325098852946416762880000000000000000,
   -271470148135934499825843655843756746368055442752974251622400000000000000,
   21368855993620389478540371313051677426910889766501639782400000000000000,
   -1468882356599343900842571595063360076377820347996947087360000000000000,
   88934812657627769678805823621702198172751405685174960128000000000000,
   -4778847563302223279648560105741315254832801772847759360000000000000,
   229434560116792976765906082049941815235286503901888512000000000000,
   -9901149663461387998100101747033383465844511889948672000000000000,
   386141702607927509137680448000795455204825534929305600000000000,
   -13676016849897494072349084118577055679318272686161920000000000,
   441822051829360570548845627984530862623770122649600000000000,
   -13072663275778078073067501412913032016544567132160000000000,
   355562677384619802820875230357801265639729397760000000000,
   -8920319665401979130781949606228451230921156198400000000]

/-- Taylor coefficients of `S`, times `NB`. -/
def tB : List ℤ :=
  [1078773801157792621077027053079085486221504560917023510705921600000000000000000000,
   -4931537376721337696352123671218676508441163707049250334655641600000000000000000000,
   10042403385323451308935233657754395799007460639809382499662397440000000000000000000,
   -11221987275028110669032388087395388321430559191152071872638615552000000000000000000,
   7875078789493410995812202166593254962407409958703208331676221440000000000000000000,
   -3785018105938335087315271871374465626200557513748261395777978368000000000000000000,
   1322779357061070571825280198163156078292312597397303127869227008000000000000000000,
   -351115626574735783120443038775105023546715233226196590623352422400000000000000000,
   73173676798768465725941070265736172974441493983274583592093614080000000000000000,
   -12288876595384717590801319342873671274760004987444524459910758400000000000000000,
   1698396233780745022516062739745995764219322948430871154592317440000000000000000,
   -196534624311017168529316485568117918725572986043299866177699840000000000000000,
   19319482023775805324711895051924794102173971961380588152369971200000000000000,
   -1633224276757426277644641943783541257433199805282212891202682880000000000000,
   119999779873635728840885439636763488898824065178955276301107200000000000000,
   -7733728772876745384932299369660674758183302101309696591790080000000000000,
   440728098318620496834676490536971967223471761540036983521280000000000000,
   -22367642153985615935934344791366265776473510634201427214336000000000000,
   1017403062539646034163019646966649766649605929147260112732160000000000,
   -41711804952171210338257352409845734296094129212207661056000000000000,
   1549330633545236845946438244080076642675961778555112652800000000000,
   -52379961592853312239326637597238878870525508634594508800000000000,
   1618668143795133991278558764243678974087501565531258880000000000,
   -45898647789390234992971061117655126077635761807556608000000000,
   1198480461758282779999244363685078534288572080455680000000000,
   -28911373332192955241101131880101494739205759382323200000000]

/-- Chebyshev coefficients of Taylor polynomial minus `chebev_a`, times `NA`. -/
def dA : List ℤ :=
  [-14685362697813504278264411192492146772057706583165655169,
   -18180824954829714321859909728314740902065516349031284027,
   22729668060745431478734804035435258474178526277700842666,
   8886760842513542213429801277739690900726795311897654809,
   42692485736772357272669765116780430440014017351017054662,
   44116706429310452417765479521927405142808883004403587518,
   20625532996309447848453619681196691931106142123167123222,
   -24942656091845213207427260724633038011964342826324823913,
   -47840798856124439335984209146265219574550124518620656460,
   -14179352278032941072755646513102743271294788083974431497,
   -7007207939765549616497141118550622107993159031062999993,
   -20710287652918993658755540449412870430968496010966006294,
   13266599816989734072790736436189745023904601257295978092,
   21562072710775357459648997394895107992398803953211951093,
   -46307053707279722169963729566561064321216717758081443593,
   13669919164811201408862035377723526889515889590235369142,
   45962027930547999376350957636933163293317385635943776688,
   23685428871350009146967277530942203771677498135942003284,
   4422696961340897976928217546873725115003043840000000000,
   -48690830918957374585203054187340039842693120000000000,
   483518998486906550588384073764461764149248000000000,
   -4353544761698786352790466694540269977600000000000,
   35677401799148243833160346799712501760000000000,
   -269689994682522054359239168245104640000000000, 1734141232866868617791317747957760000000000,
   -15845670847273359404251546334003200000000]

/-- Chebyshev coefficients of Taylor polynomial minus `chebev_b`, times `NB`. -/
def dB : List ℤ :=
  [87184246532729286559292361544385653435072196442284617744677,
   -906119391189191559441757269945933596636702786275988955160968,
   366408147182945737570351377446934052012121721473446278930125,
   -547022966688758613231807615084276223395139592935867572053755,
   490778949294365352224273500073592093955233650470903406095518,
   527446808281473927632079068582160267558181409265142814239097,
   671883322264381641617625010521584733112299933338190645596699,
   475246733778975302737688918723258017112533038568932633800412,
   795061107016019941031383965413650496022638446189522227923703,
   -757601538106645172336885167114440513648456795622076376592596,
   -490787839623490362311178238007127760324466849223509922020688,
   -97021044748260815361064294410470576456954719054253078890943,
   606635497174237847195894345452511591340436927046189413274725,
   -82903271509399909106549918785336795484971078454156073085152,
   -414928513486845964819173284058294513166154615759612971157714,
   943398104941874425180893773628517787992221782016608230825057,
   925066327159581539524518732448616154336854129189021357644704,
   -852964310959924642642223194577921705468398965620736000000000,
   9908297870655309427340117473882480987097480036352000000000,
   -103530858275497253819599120811562649937812389888000000000,
   978341516581334348807903489348140486614843392000000000,
   -8402408246414456409375514593656417636319232000000000,
   65826944613198856820565329931662908194816000000000,
   -476364010570199483520860384675309289472000000000,
   2948256578508870264965952871043642163200000000, -25678457877547482760417391638531276800000000]

/-- Chebyshev coefficients of the first defect, times `10 ^ 20`. -/
def r1I : List ℤ :=
  [20066, -38109, 37287, -34816, 34066, -31825, 31019, -28670, 27897, -26003, 25289, -23148,
   22549, -20785, 20553, -19607, 19140, -18028, 17458, -15817, 15058, -13181, 12575, -11010,
   10210, -8560, 7698, -6680, 5892, -4938, 4033, -2631, 1954, -1394, 1281, -554, 461, 12, 318,
   161, 163, 0]

/-- Chebyshev coefficients of the second defect, times `10 ^ 20`. -/
def r2I : List ℤ :=
  [116, 231, 232, 237, 241, 243, 245, 253, 250, 237, 238, 257, 273, 299, 312, 273, 231, 188,
   167, 165, 170, 206, 222, 185, 142, 126, 82, 21, -23, -94, -144, -120, -156, -193, -110, -14,
   7, -4, 2, -1, 1]

theorem chebev_a_eq : SF.chebev_a = aI.map fun z : ℤ => (z : ℚ) / 10 ^ 20 := by decide +kernel

theorem chebev_b_eq : SF.chebev_b = bI.map fun z : ℤ => (z : ℚ) / 10 ^ 20 := by decide +kernel

theorem chebev_e_eq : SF.chebev_e = eI.map fun z : ℤ => (z : ℚ) / 10 ^ 20 := by decide +kernel

theorem chebev_f_eq : SF.chebev_f = fI.map fun z : ℤ => (z : ℚ) / 10 ^ 20 := by decide +kernel

theorem tA_spec : ∀ k < 26, tA.getD k 0 * ((Nat.factorial (2 * k) : ℤ) * (4 * k + 1))
    = NA * (2 * (-64) ^ k) := by decide +kernel

theorem tB_spec : ∀ k < 26, tB.getD k 0 * ((Nat.factorial (2 * k + 1) : ℤ) * (4 * k + 3))
    = NB * (16 * (-64) ^ k) := by decide +kernel

theorem dA_spec : padd tA (psmul (-(NA / 10 ^ 20)) (psum aI [1] [-1, 2])) = psum dA [1] [-1, 2] := by
  decide +kernel

theorem dB_spec : padd tB (psmul (-(NB / 10 ^ 20)) (psum bI [1] [-3, 4])) = psum dB [1] [-3, 4] := by
  decide +kernel

theorem NA_dvd : NA / 10 ^ 20 * 10 ^ 20 = NA := by decide +kernel

theorem NB_dvd : NB / 10 ^ 20 * 10 ^ 20 = NB := by decide +kernel

theorem dA_small : (l1 dA : ℤ) * 10 ^ 19 ≤ NA := by decide +kernel

theorem dB_small : (l1 dB : ℤ) * 10 ^ 19 ≤ NB := by decide +kernel

/-- First defect: `256 (F - F(0)) / w + 3 E + 4 w E'`. -/
theorem r1_spec : padd (psmul 256 (psum fI [1] [-1, 2]).tail)
    (padd (psmul 3 (psum eI [1] [-1, 2])) (psmul 4 (0 :: pder (psum eI [1] [-1, 2]))))
    = psum r1I [1] [-1, 2] := by decide +kernel

/-- Second defect: `E - F - 4 w F'`. -/
theorem r2_spec : padd (padd (psum eI [1] [-1, 2]) (psmul (-1) (psum fI [1] [-1, 2])))
    (psmul (-4) (0 :: pder (psum fI [1] [-1, 2]))) = psum r2I [1] [-1, 2] := by decide +kernel

theorem f_head : (psum fI [1] [-1, 2]).head? = some (10 ^ 20 - 1) := by decide +kernel

end Poly
