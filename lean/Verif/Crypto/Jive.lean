import Mathlib.Algebra.Field.ZMod
import Mathlib.Tactic.LinearCombination
import Mathlib.Tactic.Ring
import Mathlib.Tactic.ReduceModChar
import Verif.Algebra.Bls
import Verif.Rescue.Props

/-!
C43: the Anemoi-Jive compression function, crypto/src/basic/jive.rs.

Model of `eval` and `eval_with_trace`, with the constants of `JiveCRH381`; the round equations are the ones the
test of the file checks for one input (jive.rs:661-773), which a circuit for the trace would enforce.
-/

namespace Verif.Jive

open Verif.Rescue (limbs64)

/-- `[F; 2]` -/
abbrev Half (F : Type) := F × F

/-- the two halves `x`, `y` of the state -/
abbrev State (F : Type) := Half F × Half F

/-- the associated constants of the trait `JiveCRH` for `N = 2`, jive.rs:149-177; `NUM_ROUNDS` is the length of the
round key lists (equal by their types) -/
structure Params (F : Type) where
  alpha : Nat
  g : F
  gInv : F
  g2 : F
  rkx : List (Half F)
  rky : List (Half F)
  prkx : List (Half F)
  prky : List (Half F)
  mds : Half (Half F)
  alphaInv : List Nat

/-- models `JiveTrace`, jive.rs:66-81 -/
structure Trace (F : Type) where
  inputX : Half F
  inputY : Half F
  interX : List (Half F)
  interY : List (Half F)
  finalX : Half F
  finalY : Half F
  output : F
deriving DecidableEq

section
variable {F : Type} [Field F]

/-- models `MDSMatrix::from_generator`, jive.rs:32-40 -/
def fromGenerator (g : F) : Half (Half F) := ((1, g), (g, g * g + 1))

/-- one accumulation loop of `permute_in_place`, jive.rs:46-52 and 55-61 -/
def mulMds (m : Half (Half F)) (v : Half F) : Half F :=
  (0 + m.1.1 * v.1 + m.1.2 * v.2, 0 + m.2.1 * v.1 + m.2.2 * v.2)

/-- models `permute_in_place`, jive.rs:42-62; the words of `y` are swapped first -/
def permute (m : Half (Half F)) (s : State F) : State F := (mulMds m s.1, mulMds m (s.2.2, s.2.1))

/-- componentwise sum, jive.rs:186-189 -/
def addHalf (a b : Half F) : Half F := (a.1 + b.1, a.2 + b.2)

variable (p : Params F)

/-- the body of the second inner loop, jive.rs:192-194 and 222-224, on `(x[i], y[i])` -/
def sbox (x y : F) : F × F :=
  let x := x - p.g * (y * y)
  let y := y - x ^ limbs64 p.alphaInv
  let x := x + (p.g * (y * y) + p.gInv)
  (x, y)

/-- one round: the body of the loop of jive.rs:185-196 -/
def round (s : State F) (k : State F) : State F :=
  let s := (addHalf s.1 k.1, addHalf s.2 k.2)
  let s := permute p.mds s
  let u := sbox p s.1.1 s.2.1
  let v := sbox p s.1.2 s.2.2
  ((u.1, v.1), (u.2, v.2))

/-- `x.iter().sum() + y.iter().sum()`, jive.rs:182 and 198 -/
def total (s : State F) : F := (s.1.1 + s.1.2) + (s.2.1 + s.2.2)

/-- models `eval`, jive.rs:179-200 -/
def eval (x y : Half F) : F :=
  let before := total (x, y)
  let s := (p.rkx.zip p.rky).foldl (round p) (x, y)
  let s := permute p.mds s
  before + total s

/-- the body of the loop of `eval_with_trace`, jive.rs:214-228; the array cell `r` is written in round `r`, here by
appending -/
def traceRound (a : State F × List (Half F) × List (Half F)) (k : State F) :
    State F × List (Half F) × List (Half F) :=
  let s := round p a.1 k
  (s, a.2.1 ++ [s.1], a.2.2 ++ [s.2])

/-- models `eval_with_trace`, jive.rs:204-233 -/
def evalWithTrace (x y : Half F) : Trace F :=
  let before := total (x, y)
  let a := (p.rkx.zip p.rky).foldl (traceRound p) ((x, y), [], [])
  let s := permute p.mds a.1
  { inputX := x, inputY := y, interX := a.2.1, interY := a.2.2, finalX := s.1, finalY := s.2,
    output := before + total s }

end

/-! ### the constants of `JiveCRH381` -/

/-- `ROUND_KEYS_X`, jive.rs:246-341 -/
def keysX : List (Nat × Nat) :=
  [(39,
    17756515227822460609684409997111995494590448775258437999344446424780281143353),
   (41362478282768062297187132445775312675360473883834860695283235286481594490621,
    3384073892082712848969991795331397937188893616190315628722966662742467187281),
   (9548818195234740988996233204400874453525674173109474205108603996010297049928,
    51311880822158488881090781617710146800056386303122657365679608608648067582435),
   (25365440569177822667580105183435418073995888230868180942004497015015045856900,
    29347609441914902330741511702270026847909178228078752565372729158237774700914),
   (34023498397393406644117994167986720327178154686105264833093891093045919619309,
    2339620320400167830454536231899316133967303509954474267430948538955691907104),
   (38816051319719761886041858113129205506758421478656182868737326994635468402951,
    27338042530319738113354246208426108832239651080023276643867223794985578055610),
   (35167418087531820804128377095512663922179887277669504047069913414630376083753,
    42192983528513372869128514327443204912824559545179630597589572656156258515752),
   (25885868839756469722325652387535232478219821850603640827385444642154834700231,
    42721818980548514490325424436763032046927347769153393863616095871384405840432),
   (8867588811641202981080659274007552529205713737251862066053445622305818871963,
    23473499332437056484066006746048591864129988909190267521144125882222313735740),
   (36439756010140137556111047750162544185710881404522379792044818039722752946048,
    16497366583607480604161417644040292299204496829635795525393416854929276060989),
   (7788624504122357216765350546787885309160020166693449889975992574536033007374,
    16727395967350522643500778393489915391834352737211416857240725807058479128000),
   (3134147137704626983201116226440762775442116005053282329971088789984415999550,
    46525506418681456193255596516104416743523037046982280449529426136392814992763)]

/-- `ROUND_KEYS_Y`, jive.rs:342-439 -/
def keysY : List (Nat × Nat) :=
  [(14981678621464625851270783002338847382197300714436467949315331057125308909900,
    48720959343719104324739338388885839802998711550637402773896395605948383052052),
   (28253420209785428420233456008091632509255652343634529984400816700490470131093,
    6257781313532096835800460747082714697295034136932481743077166200794135826591),
   (51511939407083344002778208487678590135577660247075600880835916725469990319313,
    4386017178186728799761421274050927732938229436976005221436222062273391481632),
   (46291121544435738125248657675097664742296276807186696922340332893747842754587,
    13820180736478645172746469075181304604729976364812127548341524461074783412926),
   (3650460179273129580093806058710273018999560093475503119057680216309578390988,
    40385222771838099109662234020243831589690223478794847201235014486200724862134),
   (45802223370746268123059159806400152299867771061127345631244786118574025749328,
    50306980075778262214155693291132052551559962723436936231611301042966928400825),
   (11798621276624967315721748990709309216351696098813162382053396097866233042733,
    34806952212038537244506031612074847133207330427265785757809673463434908473570),
   (42372918959432199162670834641599336326433006968669415662488070504036922966492,
    22755759419530071315007011572076166983660942447634027701351681157370705921018),
   (52181371244193189669553521955614617990714056725501643636576377752669773323445,
    30334172084294870556875274308904688414158741457854908094300017436690480001547),
   (23791984554824031672195249524658580601428376029501889159059009332107176394097,
    19832360622723392584029764807971325641132953515557801717644226271356492507876),
   (33342520831620303764059548442834699069640109058400548818586964467754352720368,
    5828182614154296575131381170785760240834851189333374788484657124381010655319),
   (16791548253207744974576845515705461794133799104808996134617754018912057476556,
    23729797853490401568967730686618146850735129707152853256809050789424668284094)]

/-- `PREPROCESSED_ROUND_KEYS_X`, jive.rs:440-537 -/
def preX : List (Nat × Nat) :=
  [(19423856244504843308895388963412036786752036425753790350203807573584805634484,
    48851758589103982813056651724624321326473598754479694805563782039996758215715),
   (12615120352220861760529334504909132397992176696639432273740343225740283617075,
    39254041182502554693227592821509358885443577992138703722301710542985871322293),
   (1680857724460829800497520971070141190086510791274611006640253356976701835382,
    10642009718258107005125687907015169292971409341517296589557723407546399245596),
   (21055205962077377064979725066581742658597925825308897609198966322925144025246,
    19426425651077970347256365643784327945023001503658122361954517318898039324097),
   (50400840640194581457299747791281933264949279255786584705110530865735762969037,
    40530253751005095154866327721757053962468943297294740267582712399474545583285),
   (20438848331453166761730619539368103981673769036708568085393258759780190054169,
    13102355325113334007125361459444939190884376835400339773809059013631164881254),
   (15903051736368288011341534338499303285808489090761091294574969808092698586939,
    48642595332839007989623773680566396238102878179451994014407043912927986255299),
   (10323350652838928277917180395760661780567941231511570937076163542214188476177,
    10113523200168631476850206190715732835521831388679114777941923267006562804645),
   (15874458613322026931199484971789798065043978600000821246251350698046271468604,
    29722959275438864043566920532205246644056734108140740599696263368669051646942),
   (47049571745140120826345490242072658604761254210917672824591418624350523003945,
    31229117748831183511893406289433107506389961302893678361911395025751449981526),
   (20008645925323634762375318284845361376619384326118092245453755824068224534348,
    51916167094363585021232525371035513352788938018982786930209699175658888499410),
   (14197441017717677459303848790055884953960060330763418541055119545102633841813,
    41035843192452817449487057030123679745862354361270934591707945552234089516428)]

/-- `PREPROCESSED_ROUND_KEYS_Y`, jive.rs:538-635 -/
def preY : List (Nat × Nat) :=
  [(48720959343719104324739338388885839802998711550637402773896395605948383052326,
    41413142976741213247759708675423930977044966565732460430968148099132503169104),
   (46724097256651524339091431279166244749012943040791278166071907004411683190703,
    40706849955588955917187031913139550726202938626007650211282213531740765358936),
   (50354341977012993942522437638685263655838536163339384451665686940931836609745,
    36941207020290968244301088401173674862613545886757827284270114412422778295937),
   (23242780496771669172800629751749162774660599011953179069101902517678195587957,
    51682959496458850896509844412783906651848812389276036938242674417679468316747),
   (13502568851623815690871135923029776884996591632595731212035117300429192414537,
    45732566965513648936744017011732745376285149021117983780699842619375344108234),
   (3871417445118805719435628378631357786800492647634890892099192973415040354530,
    20466270311451717679660817948633690969780667094043944053335478232540727046525),
   (12525550798160927495662793530668079972288098117902646786976128748621377403675,
    47041601688625269305913563197199903184677830423604052068282638638277293683945),
   (4750941084798322577016411014155726242548676225154110403146222485997679579384,
    23193631377894266722337971232503454186583188044220550661907969206082098837667),
   (28552644567763864887615744440905253485323271032672948792109050805808824974071,
    42306382518035481965072771009207529037214743952101733890925098593577223403890),
   (29068626981113042851053289956023492338059928220488112363246315496290983713016,
    17528872722110569711777317184079163617085663570808124411368583006389737647157),
   (29482327734991661005757258237884790377553404596026665228178773598907154959843,
    29975314276057168886569394075284368361751731228476654125423744860350112701217),
   (36398885275692235432110168280184447734290618439760550553926011521931908250960,
    9404369307422440602109320936066766745715365680494660899081541172742509310711)]

/-- a decimal constant read by `new_bls12_381!` -/
def scalars (l : List (Nat × Nat)) : List (Half (ZMod Bls.r)) := l.map fun q => ((q.1 : ZMod Bls.r), (q.2 : ZMod Bls.r))

/-- models `JiveCRH381`, jive.rs:239-648 -/
def jive381 : Params (ZMod Bls.r) where
  alpha := 7
  g := 7
  gInv := 14981678621464625851270783002338847382197300714436467949315331057125308909861
  g2 := 50
  rkx := scalars keysX
  rky := scalars keysY
  prkx := scalars preX
  prky := scalars preY
  mds := ((1, 7), (7, 50))
  alphaInv := [3689348813023923405, 2413663763415232921, 16233882818423549954, 3341406743785779740]

/-- the intermediate values for the input `[1, 2], [3, 4]`, for the example at the end -/
def exStates : List ((Nat × Nat) × (Nat × Nat)) :=
  [((10823935700284817338324515753278741347666979707413339497177941833861663786798,
    29257256138071226676123222315728913622012048607009563814511310035213798051495),
    (34962164920458661978580420584607807921050536428761443115983261966471855995538,
     36981339862110619124605687440510687715812675776861606168929156745411300646172)),
   ((18308754381062470358263631900997005387367496280805750692882732237746659794302,
    10764498594433991273935449902800649037121363197384739569516724606693418567569),
    (18867686424721415234643663485337427490583227601907724529596231374323619137805,
     40654750537156122328241482361595664370469528628885038585897540243235478450222)),
   ((46531202341913152603796871897933825524244786958062570787700618912096129715979,
    45968276755497490940962589842915533108639119158331244992304781903940031356344),
    (44281374727457923110341896730125894428228422149457716041628506503069474596130,
     20962506941528395405331142439254200574545993548313932082397519682848779805567)),
   ((26326269036964969807786615046960471783233976028220851455762446094346582077818,
    1906574991060423345860158719312201595793912111029614310431274431595222949992),
    (26292224875750398539543854886395154241549951537520307194039464204722154957298,
     41907747195989844171570573220545681721828920124010621204702525738443306488989)),
   ((46050316665996246130863475881641503360045568114061656660038051055628842306724,
    21172386790137628617753492611658292358119616756017974892325234358111811331939),
    (39050193791838190753254726961115684683373153381531441723824100482088090951317,
     3642244611081770202011004568708717664479049046532892748438919876832758587000)),
   ((37242002618460355225077844165648095832884936978965764071193963927631746178212,
    30145445729697725196501896632535820368398205400510691277986703878224466361632),
    (43677694087991022293947269819440095314633553034140196400801541725463125589106,
     13497067219709006549579875537819705886881899735829326917984059164575050878269)),
   ((37565202332766133002872676270086103239151306175168697816656426379362866771018,
    48584568196015308739948256782531459887454539202674630580898088883470953362845),
    (2937478913392264602480891264220934155541320764528526298525226372714297822604,
     38352901861252723664189956618597674605219217269052096443890106039606697536743)),
   ((30721837772549821137940287085114716123267731793087734024129298084283167697920,
    9990686496688531771599714418399011530996285537129089825595691228983239294623),
    (19160541409469434626826848463506786711228919791752291334512085835343298773605,
     123379420726478530455783697481555227835161931853029923032032476845377883925)),
   ((37669645092404105610588389663901387722718701734771971022102494556248511087927,
    25530531813912253800568638561656446649149624743906264411272283136808135599262),
    (19363929841537744719677840011381617077430684624459004405029675357646302307097,
     9316904556314045466998070349108639685421055280947266256047020726672652118858)),
   ((51771420252856550810559662850630101837365106749566542245747934202618616033128,
    8562702824681081119871963458958534619894329383525740357553857061434062489984),
    (28436059695225248615445635674352846885174063558026021123012476466664686724371,
     22775998568338239272602544351314435740132668578119584635698959117970574787415)),
   ((16343273731518356569505492269971248936504469909361953269731909334932940945411,
    12613163501333870607980407113190259782681426522491135507493515492354398178225),
    (6142848986068797442061946028295653654323332639399338405397610532623548768230,
     33016198130304203305266888809410371614946949723766724705353026333427485125893)),
   ((1084952046249490337065076956250348692436890546641848120715594554426141141249,
    12762194688512191986961134610144743284760749376079110522865447294825417988263),
    (26721655140905667777242583134807390066169101872300815664552716371312748394856,
     21012753341735940434665720146167836125372126373429093131117384114713966412796))]

/-! ### specification -/

section
variable {F : Type} [Field F]

/-- The four equations of one round, as in jive.rs:738-771: `a, b, c, d` before the round, `a', b', c', d'` after it,
`ka, kb, kc, kd` the preprocessed round keys. -/
structure RoundEquations (g g2 gInv : F) (kx ky : Half F) (prev cur : State F) : Prop where
  eq1 : (prev.2.2 + g * prev.2.1 + ky.1 - cur.2.1) ^ 5 + g * (prev.2.2 + g * prev.2.1 + ky.1) ^ 2 =
    prev.1.1 + g * prev.1.2 + kx.1
  eq2 : (g * prev.2.2 + g2 * prev.2.1 + ky.2 - cur.2.2) ^ 5 + g * (g * prev.2.2 + g2 * prev.2.1 + ky.2) ^ 2 =
    g * prev.1.1 + g2 * prev.1.2 + kx.2
  eq3 : (prev.2.2 + g * prev.2.1 + ky.1 - cur.2.1) ^ 5 + g * cur.2.1 ^ 2 + gInv = cur.1.1
  eq4 : (g * prev.2.2 + g2 * prev.2.1 + ky.2 - cur.2.2) ^ 5 + g * cur.2.2 ^ 2 + gInv = cur.1.2

instance [DecidableEq F] (g g2 gInv : F) (kx ky : Half F) (prev cur : State F) :
    Decidable (RoundEquations g g2 gInv kx ky prev cur) :=
  decidable_of_iff
    (((prev.2.2 + g * prev.2.1 + ky.1 - cur.2.1) ^ 5 + g * (prev.2.2 + g * prev.2.1 + ky.1) ^ 2 =
      prev.1.1 + g * prev.1.2 + kx.1) ∧
     ((g * prev.2.2 + g2 * prev.2.1 + ky.2 - cur.2.2) ^ 5 + g * (g * prev.2.2 + g2 * prev.2.1 + ky.2) ^ 2 =
      g * prev.1.1 + g2 * prev.1.2 + kx.2) ∧
     ((prev.2.2 + g * prev.2.1 + ky.1 - cur.2.1) ^ 5 + g * cur.2.1 ^ 2 + gInv = cur.1.1) ∧
     ((g * prev.2.2 + g2 * prev.2.1 + ky.2 - cur.2.2) ^ 5 + g * cur.2.2 ^ 2 + gInv = cur.1.2))
    ⟨fun h => ⟨h.1, h.2.1, h.2.2.1, h.2.2.2⟩, fun h => ⟨h.eq1, h.eq2, h.eq3, h.eq4⟩⟩

/-- the state recorded after round `r`, if there is one -/
def Trace.after (t : Trace F) (r : Nat) : Option (State F) :=
  match t.interX[r]?, t.interY[r]? with
  | some x, some y => some (x, y)
  | _, _ => none

/-- the state before round `r`: the input, or the state after the previous round -/
def Trace.before (t : Trace F) : Nat → Option (State F)
  | 0 => some (t.inputX, t.inputY)
  | r + 1 => t.after r

/-- A trace is right: as many recorded states as rounds, the equations of every round with the preprocessed keys, the
last state put through the linear layer at the end, and the sum of input and final state as the output. -/
structure TraceOk (n : Nat) (g g2 gInv : F) (prkx prky : List (Half F)) (t : Trace F) : Prop where
  lenX : t.interX.length = n
  lenY : t.interY.length = n
  rounds : ∀ r, r < n → ∃ kx ky prev cur, prkx[r]? = some kx ∧ prky[r]? = some ky ∧
    t.before r = some prev ∧ t.after r = some cur ∧ RoundEquations g g2 gInv kx ky prev cur
  final : ∃ last, t.before n = some last ∧
    t.finalX = (last.1.1 + g * last.1.2, g * last.1.1 + g2 * last.1.2) ∧
    t.finalY = (last.2.2 + g * last.2.1, g * last.2.2 + g2 * last.2.1)
  output : t.output = t.inputX.1 + t.inputX.2 + t.inputY.1 + t.inputY.2 +
    (t.finalX.1 + t.finalX.2 + t.finalY.1 + t.finalY.2)

/-! ### proofs -/

variable (p : Params F)

/-- the states after each round -/
def states : List (State F) → State F → List (State F)
  | [], _ => []
  | k :: ks, s => round p s k :: states ks (round p s k)

theorem states_length (ks : List (State F)) (s : State F) : (states p ks s).length = ks.length := by
  induction ks generalizing s with
  | nil => rfl
  | cons k ks ih => simp [states, ih]

theorem trace_fold (ks : List (State F)) (s : State F) (xs ys : List (Half F)) :
    ks.foldl (traceRound p) (s, xs, ys) =
      (ks.foldl (round p) s, xs ++ (states p ks s).map Prod.fst, ys ++ (states p ks s).map Prod.snd) := by
  induction ks generalizing s xs ys with
  | nil => simp [states]
  | cons k ks ih => simp [traceRound, states, ih]

/-- the preprocessing of the round keys, their number, and the exponents -/
structure Good (p : Params F) : Prop where
  mds : p.mds = ((1, p.g), (p.g, p.g2))
  keys : ∀ r : Nat, p.prkx[r]? = (p.rkx[r]?).map (mulMds p.mds) ∧
    p.prky[r]? = (p.rky[r]?).map fun k => mulMds p.mds (k.2, k.1)
  len : p.rky.length = p.rkx.length
  inv : ∀ x : F, (x ^ 5) ^ limbs64 p.alphaInv = x
  inv' : ∀ x : F, (x ^ limbs64 p.alphaInv) ^ 5 = x

theorem round_iff {p : Params F} (h : Good p) (prev cur kx ky : _) :
    RoundEquations p.g p.g2 p.gInv (mulMds p.mds kx) (mulMds p.mds (ky.2, ky.1)) prev cur ↔
      cur = round p prev (kx, ky) := by
  obtain ⟨⟨a, b⟩, ⟨c, d⟩⟩ := prev
  obtain ⟨⟨a', b'⟩, ⟨c', d'⟩⟩ := cur
  obtain ⟨ka, kb⟩ := kx
  obtain ⟨kc, kd⟩ := ky
  have key : ∀ x y z w : F, ((y - w) ^ 5 + p.g * y ^ 2 = x ∧ (y - w) ^ 5 + p.g * w ^ 2 + p.gInv = z) ↔
      (z, w) = sbox p x y := by
    intro x y z w
    simp only [sbox, Prod.mk.injEq]
    constructor
    · rintro ⟨h1, h2⟩
      have hu : x - p.g * (y * y) = (y - w) ^ 5 := by rw [← h1]; ring
      have hw : w = y - (x - p.g * (y * y)) ^ limbs64 p.alphaInv := by rw [hu, h.inv]; ring
      refine ⟨?_, hw⟩
      rw [← hw, ← h2, hu]; ring
    · rintro ⟨h1, h2⟩
      have hu : (y - w) ^ 5 = x - p.g * (y * y) := by
        rw [show y - w = (x - p.g * (y * y)) ^ limbs64 p.alphaInv by rw [h2]; ring, h.inv']
      rw [← h2] at h1
      refine ⟨by rw [hu]; ring, by rw [hu, h1]; ring⟩
  have k1 := key (a + p.g * b + (ka + p.g * kb)) (d + p.g * c + (kd + p.g * kc)) a' c'
  have k2 := key (p.g * a + p.g2 * b + (p.g * ka + p.g2 * kb)) (p.g * d + p.g2 * c + (p.g * kd + p.g2 * kc)) b' d'
  have e1 : permute p.mds (addHalf (a, b) (ka, kb), addHalf (c, d) (kc, kd)) =
      ((a + p.g * b + (ka + p.g * kb), p.g * a + p.g2 * b + (p.g * ka + p.g2 * kb)),
       (d + p.g * c + (kd + p.g * kc), p.g * d + p.g2 * c + (p.g * kd + p.g2 * kc))) := by
    simp only [permute, mulMds, addHalf, h.mds, Prod.mk.injEq]
    refine ⟨⟨?_, ?_⟩, ?_, ?_⟩ <;> ring
  have e2 : mulMds p.mds (ka, kb) = (ka + p.g * kb, p.g * ka + p.g2 * kb) := by
    simp only [mulMds, h.mds, Prod.mk.injEq]; refine ⟨?_, ?_⟩ <;> ring
  have e3 : mulMds p.mds (kd, kc) = (kd + p.g * kc, p.g * kd + p.g2 * kc) := by
    simp only [mulMds, h.mds, Prod.mk.injEq]; refine ⟨?_, ?_⟩ <;> ring
  simp only [round, e1, e2, e3]
  constructor
  · rintro ⟨q1, q2, q3, q4⟩
    rw [← k1.1 ⟨q1, q3⟩, ← k2.1 ⟨q2, q4⟩]
  · intro hh
    simp only [Prod.mk.injEq] at hh
    have r1 := k1.2 (Prod.ext hh.1.1 hh.2.1)
    have r2 := k2.2 (Prod.ext hh.1.2 hh.2.2)
    exact ⟨r1.1, r2.1, r1.2, r2.2⟩

/-- a list in which every element is the round of the previous one is the list of states -/
theorem states_unique (ks : List (State F)) (s : State F) (l : List (State F)) (hl : l.length = ks.length)
    (h : ∀ r, r < ks.length → ∃ k prev cur, ks[r]? = some k ∧ (s :: l)[r]? = some prev ∧ l[r]? = some cur ∧
      cur = round p prev k) : l = states p ks s := by
  induction ks generalizing s l with
  | nil => simpa [states] using hl
  | cons k ks ih =>
    cases l with
    | nil => simp at hl
    | cons x l =>
      obtain ⟨k', prev, cur, h1, h2, h3, h4⟩ := h 0 (by simp)
      simp only [List.getElem?_cons_zero, Option.some.injEq] at h1 h2 h3
      subst h1 h2 h3 h4
      rw [states]
      congr 1
      refine ih _ _ (by simpa using hl) fun r hr => ?_
      obtain ⟨k'', prev, cur, h1, h2, h3, h4⟩ := h (r + 1) (by simpa using hr)
      exact ⟨k'', prev, cur, by simpa using h1, by simpa using h2, by simpa using h3, h4⟩

theorem states_spec (ks : List (State F)) (s : State F) (r : Nat) (hr : r < ks.length) :
    ∃ k prev cur, ks[r]? = some k ∧ (s :: states p ks s)[r]? = some prev ∧ (states p ks s)[r]? = some cur ∧
      cur = round p prev k := by
  induction ks generalizing s r with
  | nil => simp at hr
  | cons k ks ih =>
    cases r with
    | zero => exact ⟨k, s, round p s k, by simp, by simp, by simp [states], rfl⟩
    | succ r =>
      obtain ⟨k', prev, cur, h1, h2, h3, h4⟩ := ih (round p s k) r (by simpa using hr)
      exact ⟨k', prev, cur, by simpa using h1, by simpa [states] using h2, by simpa [states] using h3, h4⟩

theorem foldl_states (ks : List (State F)) (s : State F) :
    (s :: states p ks s)[ks.length]? = some (ks.foldl (round p) s) := by
  induction ks generalizing s with
  | nil => simp
  | cons k ks ih => simpa [states] using ih (round p s k)

theorem after_eq (t : Trace F) (r : Nat) : t.after r = (t.interX.zip t.interY)[r]? := by
  unfold Trace.after
  rw [List.zip, List.getElem?_zipWith]
  cases t.interX[r]? <;> cases t.interY[r]? <;> rfl

theorem before_eq (t : Trace F) (r : Nat) :
    t.before r = ((t.inputX, t.inputY) :: t.interX.zip t.interY)[r]? := by
  cases r with
  | zero => rfl
  | succ r => simp [Trace.before, after_eq]

theorem mulMds_eq {p : Params F} (h : Good p) (v : Half F) :
    mulMds p.mds v = (v.1 + p.g * v.2, p.g * v.1 + p.g2 * v.2) := by
  simp only [mulMds, h.mds, Prod.mk.injEq]
  refine ⟨?_, ?_⟩ <;> ring

theorem total_eq (s : State F) : total s = s.1.1 + s.1.2 + s.2.1 + s.2.2 := by
  simp only [total]; ring

/-- the traces that satisfy the equations are exactly the ones `eval_with_trace` computes -/
theorem traceOk_iff {p : Params F} (h : Good p) (t : Trace F) :
    TraceOk p.rkx.length p.g p.g2 p.gInv p.prkx p.prky t ↔ t = evalWithTrace p t.inputX t.inputY := by
  have hz : (p.rkx.zip p.rky).length = p.rkx.length := by simp [h.len]
  have keyAt : ∀ (r : Nat) (k : State F), (p.rkx.zip p.rky)[r]? = some k →
      p.prkx[r]? = some (mulMds p.mds k.1) ∧ p.prky[r]? = some (mulMds p.mds (k.2.2, k.2.1)) := by
    intro r k hk
    rw [List.getElem?_zip_eq_some] at hk
    rw [(h.keys r).1, (h.keys r).2, hk.1, hk.2]
    exact ⟨rfl, rfl⟩
  constructor
  · intro ⟨lx, ly, hr, hf, ho⟩
    have hst : t.interX.zip t.interY = states p (p.rkx.zip p.rky) (t.inputX, t.inputY) := by
      apply states_unique
      · simp [lx, ly, h.len]
      · intro r hr'
        rw [hz] at hr'
        obtain ⟨kx, ky, prev, cur, h1, h2, h3, h4, h5⟩ := hr r hr'
        have hk : (p.rkx.zip p.rky)[r]? = some ((p.rkx.zip p.rky)[r]'(by rw [hz]; exact hr')) :=
          List.getElem?_eq_getElem _
        refine ⟨_, prev, cur, hk, ?_, ?_, ?_⟩
        · rw [← before_eq]; exact h3
        · rw [← after_eq]; exact h4
        · obtain ⟨q1, q2⟩ := keyAt r _ hk
          rw [h1] at q1
          rw [h2] at q2
          simp only [Option.some.injEq] at q1 q2
          subst q1 q2
          exact (round_iff h _ _ _ _).1 h5
    have hx : t.interX = (states p (p.rkx.zip p.rky) (t.inputX, t.inputY)).map Prod.fst := by
      rw [← hst, List.map_fst_zip (by omega)]
    have hy : t.interY = (states p (p.rkx.zip p.rky) (t.inputX, t.inputY)).map Prod.snd := by
      rw [← hst, List.map_snd_zip (by omega)]
    obtain ⟨last, hl, fx, fy⟩ := hf
    rw [before_eq, hst, ← hz, foldl_states, Option.some.injEq] at hl
    have e : permute p.mds ((p.rkx.zip p.rky).foldl (round p) (t.inputX, t.inputY)) = (t.finalX, t.finalY) := by
      rw [hl, fx, fy, permute, mulMds_eq h, mulMds_eq h]
    obtain ⟨ix, iy, mx, my, fx', fy', o⟩ := t
    simp only at hx hy e ho ⊢
    simp only [evalWithTrace, trace_fold, List.nil_append, e, Trace.mk.injEq, true_and]
    refine ⟨hx, hy, ?_⟩
    rw [ho, total_eq, total_eq]
  · intro he
    have hst : t.interX = (states p (p.rkx.zip p.rky) (t.inputX, t.inputY)).map Prod.fst ∧
        t.interY = (states p (p.rkx.zip p.rky) (t.inputX, t.inputY)).map Prod.snd ∧
        (t.finalX, t.finalY) = permute p.mds ((p.rkx.zip p.rky).foldl (round p) (t.inputX, t.inputY)) ∧
        t.output = total (t.inputX, t.inputY) + total (t.finalX, t.finalY) := by
      generalize t.inputX = x at he
      generalize t.inputY = y at he
      subst he
      simp [evalWithTrace, trace_fold]
    obtain ⟨hx, hy, hf, ho⟩ := hst
    have hzip : t.interX.zip t.interY = states p (p.rkx.zip p.rky) (t.inputX, t.inputY) := by
      rw [hx, hy, ← List.unzip_fst, ← List.unzip_snd, List.zip_unzip]
    refine ⟨by rw [hx, List.length_map, states_length, hz], by rw [hy, List.length_map, states_length, hz], ?_, ?_, ?_⟩
    · intro r hr
      obtain ⟨k, prev, cur, h1, h2, h3, h4⟩ := states_spec p (p.rkx.zip p.rky) (t.inputX, t.inputY) r (by omega)
      obtain ⟨q1, q2⟩ := keyAt r k h1
      refine ⟨_, _, prev, cur, q1, q2, ?_, ?_, (round_iff h _ _ _ _).2 h4⟩
      · rw [before_eq, hzip]; exact h2
      · rw [after_eq, hzip]; exact h3
    · refine ⟨(p.rkx.zip p.rky).foldl (round p) (t.inputX, t.inputY), ?_, ?_⟩
      · rw [before_eq, hzip, ← hz, foldl_states]
      · simp only [permute, mulMds_eq h, Prod.mk.injEq] at hf
        exact hf
    · rw [ho, total_eq, total_eq]

end

/-! ### the constants are consistent -/

theorem alphaInv_eq : limbs64 jive381.alphaInv = limbs64 Rescue.blsParams.alphaInv := by
  norm_num [limbs64, jive381, Rescue.blsParams]

theorem keys_table : ∀ r, r < 12 →
    (preX[r]? = (keysX[r]?).map fun k => ((k.1 + 7 * k.2) % Bls.r, (7 * k.1 + 50 * k.2) % Bls.r)) ∧
    (preY[r]? = (keysY[r]?).map fun k => ((k.2 + 7 * k.1) % Bls.r, (7 * k.2 + 50 * k.1) % Bls.r)) := by
  decide +kernel

theorem good : Good jive381 where
  mds := rfl
  keys := by
    intro r
    by_cases hr : r < 12
    · obtain ⟨h1, h2⟩ := keys_table r hr
      constructor
      · simp only [jive381, scalars, List.getElem?_map, h1, Option.map_map]
        congr 1
        funext k
        simp only [Function.comp, mulMds, ZMod.natCast_mod, Prod.mk.injEq]
        constructor <;> push_cast <;> ring
      · simp only [jive381, scalars, List.getElem?_map, h2, Option.map_map]
        congr 1
        funext k
        simp only [Function.comp, mulMds, ZMod.natCast_mod, Prod.mk.injEq]
        constructor <;> push_cast <;> ring
    · have l1 : jive381.prkx.length = 12 := rfl
      have l2 : jive381.prky.length = 12 := rfl
      have l3 : jive381.rkx.length = 12 := rfl
      have l4 : jive381.rky.length = 12 := rfl
      rw [List.getElem?_eq_none (by omega), List.getElem?_eq_none (by omega), List.getElem?_eq_none (by omega),
        List.getElem?_eq_none (by omega)]
      exact ⟨rfl, rfl⟩
  len := rfl
  inv := by intro x; rw [alphaInv_eq]; exact (Rescue.C42_alpha_inverse x).1
  inv' := by intro x; rw [alphaInv_eq]; exact (Rescue.C42_alpha_inverse x).2.1

/-! ### C43 -/

/-- C43: for every instance and input, the traced evaluation has the output of the plain one and records its input. -/
theorem C43_trace_output {F : Type} [Field F] (p : Params F) (x y : Half F) :
    (evalWithTrace p x y).output = eval p x y ∧
      (evalWithTrace p x y).inputX = x ∧ (evalWithTrace p x y).inputY = y := by
  simp [evalWithTrace, eval, trace_fold]

/-- C43: for every input the trace of the BLS12-381 instance satisfies the equations of all twelve rounds. -/
theorem C43_trace_equations (x y : Half (ZMod Bls.r)) :
    TraceOk 12 7 50 jive381.gInv jive381.prkx jive381.prky (evalWithTrace jive381 x y) :=
  (traceOk_iff good _).2 (by rw [(C43_trace_output jive381 x y).2.1, (C43_trace_output jive381 x y).2.2])

/-- C43: the equations leave no freedom: a trace that satisfies them for some input is the one that is computed from
that input, so a proof about the equations is a proof about the value of the function. -/
theorem C43_equations_determine_output (t : Trace (ZMod Bls.r))
    (h : TraceOk 12 7 50 jive381.gInv jive381.prkx jive381.prky t) :
    t = evalWithTrace jive381 t.inputX t.inputY ∧ t.output = eval jive381 t.inputX t.inputY := by
  have h1 : t = evalWithTrace jive381 t.inputX t.inputY := (traceOk_iff good t).1 h
  exact ⟨h1, by rw [← (C43_trace_output jive381 t.inputX t.inputY).1, ← h1]⟩

/-- C43: the preprocessed round keys are the linear layer applied to the round keys, the matrix is the one built from
the generator and the other constants are what their comments say. -/
theorem C43_constants :
    jive381.g * jive381.gInv = 1 ∧ jive381.g2 = jive381.g ^ 2 + 1 ∧ jive381.mds = fromGenerator jive381.g ∧
    jive381.rkx.length = 12 ∧ jive381.rky.length = 12 ∧
    jive381.prkx.zip jive381.prky = (jive381.rkx.zip jive381.rky).map (permute jive381.mds) := by
  refine ⟨?_, ?_, ?_, rfl, rfl, ?_⟩
  · simp only [jive381]; reduce_mod_char
  · simp only [jive381]; norm_num
  · simp only [jive381, fromGenerator]; norm_num
  · apply List.ext_getElem?
    intro r
    simp only [List.getElem?_map, List.zip, List.getElem?_zipWith]
    rw [(good.keys r).1, (good.keys r).2]
    cases jive381.rkx[r]? <;> cases jive381.rky[r]? <;> rfl

/-- C43 (disagreement with the documentation): `get_alpha_inv` is documented as the inverse of `ALPHA` modulo `r - 1`.
It inverts the exponent 5 on the whole field, not the declared `ALPHA = 7`. -/
theorem C43_alpha_constant_wrong :
    jive381.alpha = 7 ∧ (∀ x : ZMod Bls.r, (x ^ limbs64 jive381.alphaInv) ^ 5 = x) ∧
      ∃ x : ZMod Bls.r, (x ^ limbs64 jive381.alphaInv) ^ jive381.alpha ≠ x := by
  refine ⟨rfl, good.inv', 2 ^ 5, ?_⟩
  rw [good.inv 2]
  show (2 : ZMod Bls.r) ^ 7 ≠ 2 ^ 5
  decide +kernel

/-- the inverse of one S-box: the layer is injective -/
theorem sbox_injective {F : Type} [Field F] (p : Params F) {x y x' y' : F} (h : sbox p x y = sbox p x' y') :
    x = x' ∧ y = y' := by
  simp only [sbox, Prod.mk.injEq] at h
  obtain ⟨h1, h2⟩ := h
  rw [h2] at h1
  have hu : x - p.g * (y * y) = x' - p.g * (y' * y') := by linear_combination h1
  rw [hu] at h2
  have hy : y = y' := by linear_combination h2
  refine ⟨?_, hy⟩
  rw [hy] at hu
  linear_combination hu

theorem permute_injective : Function.Injective (permute jive381.mds) := by
  rintro ⟨⟨a, b⟩, ⟨c, d⟩⟩ ⟨⟨a', b'⟩, ⟨c', d'⟩⟩ h
  simp only [permute, mulMds, jive381, Prod.mk.injEq] at h
  obtain ⟨⟨h1, h2⟩, h3, h4⟩ := h
  have e1 : b = b' := by linear_combination h2 - 7 * h1
  have e2 : c = c' := by linear_combination h4 - 7 * h3
  subst e1 e2
  have e3 : a = a' := by linear_combination h1
  have e4 : d = d' := by linear_combination h3
  rw [e3, e4]

theorem round_injective (k : State (ZMod Bls.r)) : Function.Injective fun s => round jive381 s k := by
  intro s s' h
  simp only [round, Prod.mk.injEq] at h
  obtain ⟨⟨h1, h2⟩, h3, h4⟩ := h
  have q1 := sbox_injective jive381 (Prod.ext h1 h3)
  have q2 := sbox_injective jive381 (Prod.ext h2 h4)
  have q : permute jive381.mds (addHalf s.1 k.1, addHalf s.2 k.2) =
      permute jive381.mds (addHalf s'.1 k.1, addHalf s'.2 k.2) :=
    Prod.ext (Prod.ext q1.1 q2.1) (Prod.ext q1.2 q2.2)
  have q := permute_injective q
  simp only [addHalf, Prod.mk.injEq, add_left_inj] at q
  exact Prod.ext (Prod.ext q.1.1 q.1.2) (Prod.ext q.2.1 q.2.2)

theorem foldl_injective (ks : List (State (ZMod Bls.r))) (s s' : State (ZMod Bls.r))
    (h : ks.foldl (round jive381) s = ks.foldl (round jive381) s') : s = s' := by
  induction ks generalizing s s' with
  | nil => exact h
  | cons k ks ih =>
    rw [List.foldl_cons, List.foldl_cons] at h
    exact round_injective k (ih _ _ h)

/-- C43: the map from the input to the final state, whose sum with the input is the output, is a permutation of the
four-element states, as the Jive mode of compression requires. -/
theorem C43_permutation_bijective :
    Function.Bijective fun s : State (ZMod Bls.r) =>
      ((evalWithTrace jive381 s.1 s.2).finalX, (evalWithTrace jive381 s.1 s.2).finalY) := by
  apply Finite.injective_iff_bijective.1
  intro s s' h
  have e : ∀ s : State (ZMod Bls.r), ((evalWithTrace jive381 s.1 s.2).finalX, (evalWithTrace jive381 s.1 s.2).finalY) =
      permute jive381.mds ((jive381.rkx.zip jive381.rky).foldl (round jive381) s) := by
    intro s; simp [evalWithTrace, trace_fold]
  simp only [e] at h
  have h := permute_injective h
  generalize jive381.rkx.zip jive381.rky = ks at h
  exact foldl_injective _ _ _ h

/-! ### a concrete case: the known answer of jive.rs:658-672, reached through the equations -/

/-- a state of natural numbers as field elements -/
def castState (q : (Nat × Nat) × (Nat × Nat)) : State (ZMod Bls.r) :=
  (((q.1.1 : ZMod Bls.r), (q.1.2 : ZMod Bls.r)), ((q.2.1 : ZMod Bls.r), (q.2.2 : ZMod Bls.r)))

/-- the trace of the known answer -/
def exTrace : Trace (ZMod Bls.r) :=
  { inputX := (1, 2), inputY := (3, 4), interX := exStates.map fun q => (castState q).1,
    interY := exStates.map fun q => (castState q).2,
    finalX := (37984439690708643766345278719077585848071583678667983958170066918265485874577, 16473896647841745954139383102758015032809072624116809117037622222990913187737), finalY := (50756713802697043437020580565261669075484181977951889315175422614087461623249, 14967525533901638480252463534337312730724508214270576112555063770354911466008),
    output := 15310825324896690678862224905062651011708241493951982857730858125821609782555 }

/-- the equations of round `r`, as a check -/
def eqAt (t : Trace (ZMod Bls.r)) (r : Nat) : Bool :=
  match jive381.prkx[r]?, jive381.prky[r]?, t.before r, t.after r with
  | some kx, some ky, some prev, some cur => decide (RoundEquations 7 50 jive381.gInv kx ky prev cur)
  | _, _, _, _ => false

theorem exTrace_rounds : ∀ r, r < 12 → eqAt exTrace r = true := by decide +kernel

theorem exTrace_ok : TraceOk 12 7 50 jive381.gInv jive381.prkx jive381.prky exTrace where
  lenX := rfl
  lenY := rfl
  rounds := by
    intro r hr
    have h := exTrace_rounds r hr
    unfold eqAt at h
    split at h
    · rename_i kx ky prev cur h1 h2 h3 h4
      exact ⟨kx, ky, prev, cur, h1, h2, h3, h4, of_decide_eq_true h⟩
    · cases h
  final := ⟨castState exStates[11], rfl, by decide +kernel, by decide +kernel⟩
  output := by decide +kernel

/-- the known answer of jive.rs:662-668 -/
example : eval jive381 (1, 2) (3, 4) =
    15310825324896690678862224905062651011708241493951982857730858125821609782555 :=
  (C43_equations_determine_output exTrace exTrace_ok).2.symm

end Verif.Jive
