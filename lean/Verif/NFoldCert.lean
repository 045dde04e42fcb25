import Verif.NFoldLemmas
/-
n-fold of 5 bytes to 16 bytes never gives the same result for different inputs. 40 input bits are added into 128 bits with end-around carry, so
this is a statement about a knapsack with 40 weights modulo 2^128 - 1. The proof uses short vectors of the dual lattice:
multiples of the weights that are all small modulo the modulus turn a congruence into an equation between integers.
-/
namespace Verif.NFoldCert
open Verif.NFoldSpec

/-! ### The certificate (found by lattice reduction; everything the proof uses of it is checked by the kernel) -/

/-- (2^128 - 1) / 255 -/
def modulus : Int := 1334440654591915542993625911497130241

/-- weights of the 40 bits, most significant first, divided by 255 -/
def bitWeights : List Int := [709008305383166088077301059272306672, 354504152536233705775387122589988728, 177252036498686257492261357476854716, 88615837275110707515486501294677470, 41701589234055518712833825047367407, 20850794617027759356416914679588856, 10425397308513879678208457339794428, 5212698654256939839104228669897214, 2606349327128469919552114334948607, 668523501959522006456589012916039424, 334261750979761003228294506458019712, 167130875489880501614147253229009856, 83565437744940250807073626614504928, 41782718872470125403536813307252464, 20891359436235062701768958565345272, 10445679718117531351025768682746876, 5222839859058765711682970760378878, 2611419929529392115383608645582079, 668526037260724837997288316011872000, 334263018630362418998644158005936000, 167131509315181209499322079002968000, 83565754657590604749661039501484000, 41782877328795302374830519750742000, 20891438664397651187415259875371000, 10445719332198825593707629937685500, 5222859666099412796853814968842750, 2611429833049706398426907484421375, 668526042213089458048616730262830848, 334263021261894067287430482777505664, 167131550400377629002977358787854272, 83575956174421226472590733563895776, 44394307490708077838421234293919728, 22197153745354038919210617146959864, 11098576872677019459605308573479932, 5549288436338509729802654286739966, 2774644218169254864901327143369983, 668607649405042398929263619320250112, 334303824702521199464631809660125056, 167151912351260599732315904830062528, 83575956175630299866157952415031264]

/-- the same modulo `modulus`, doubling along the runs 5–13, 18–26 and 31–39 -/
def runWeights : List Int := [709008305383166088077301059272306672, 354504152536233705775387122589988728, 177252036498686257492261357476854716, 88615837275110707515486501294677470, 41701589234055518712833825047367407, 10696376031352352103305424206656630784, 5348188015676176051652712103328315392, 2674094007838088025826356051664157696, 1337047003919044012913178025832078848, 668523501959522006456589012916039424, 334261750979761003228294506458019712, 167130875489880501614147253229009856, 83565437744940250807073626614504928, 41782718872470125403536813307252464, 20891359436235062701768958565345272, 10445679718117531351025768682746876, 5222839859058765711682970760378878, 2611419929529392115383608645582079, 668526037260724837997288316011872000, 334263018630362418998644158005936000, 167131509315181209499322079002968000, 83565754657590604749661039501484000, 41782877328795302374830519750742000, 20891438664397651187415259875371000, 10445719332198825593707629937685500, 5222859666099412796853814968842750, 2611429833049706398426907484421375, 668526042213089458048616730262830848, 334263021261894067287430482777505664, 167131550400377629002977358787854272, 83575956174421226472590733563895776, 21395444780961356765736435818248003584, 10697722390480678382868217909124001792, 5348861195240339191434108954562000896, 2674430597620169595717054477281000448, 1337215298810084797858527238640500224, 668607649405042398929263619320250112, 334303824702521199464631809660125056, 167151912351260599732315904830062528, 83575956175630299866157952415031264]

/-- weights of the 16 fields: single bits and the three runs -/
def fieldWeights : List Int := [709008305383166088077301059272306672, 354504152536233705775387122589988728, 177252036498686257492261357476854716, 88615837275110707515486501294677470, 41701589234055518712833825047367407, 41782718872470125403536813307252464, 20891359436235062701768958565345272, 10445679718117531351025768682746876, 5222839859058765711682970760378878, 2611419929529392115383608645582079, 2611429833049706398426907484421375, 668526042213089458048616730262830848, 334263021261894067287430482777505664, 167131550400377629002977358787854272, 83575956174421226472590733563895776, 83575956175630299866157952415031264]

/-- largest value of each field -/
def fieldMax : List Int := [1, 1, 1, 1, 1, 511, 1, 1, 1, 1, 511, 1, 1, 1, 1, 511]

/-- multipliers -/
def multipliers : List Int := [1329227995784915872903807060280344574, 5212658806999670089821054551851522, 1329227995782493280379010685738090239, 15739388465376416728783464933229824, 1329227363195133205549690220858769151, 41700871210658543379223833978601982, 1318802679724386229231325157901007366, 1334379726587526377035946729706420480, 25899923703352211887487438703687937, 1308702673255165079936973856441895167, 20870994698146647946832170541711360, 10323906489619205030255602039719423, 1329329407832934150134453497455901442, 5071078387653672311740936522302209, 1318864241239764130690148042216375554, 827953556287964809286324929595519745]

/-- the multiples of the field weights modulo `modulus`: all of them small -/
def smallRows : List (List Int) := [
  [2596148430481080807677369683869985, 1298074525332383577774626250490128, 649116646178044316488313715359752, 344880502123269224100307927040004, 5374918083828883471224827719712770, 316912650057057385558531047167, 158456325028528691677597990656, 79228162514264063811910565888, 39614081257059833022517346304, 19807040610047002351146893312, 38685607708583891355303936, 18131507591894860074057728, -301026089377706484483096576, -79534024897144255359393660928, -20361946046677155069670637666304, -20361948460100999260486391300032],
  [-5223237787450388505398629130969376, -5228169195630550834356549810392847, -5230634589628788824617541853120007, -5231787903116055219948153846432259, -5212042380825422868843148661948417, 1203957390131999644594930177, 603194741509818068622377216, 612905260372380093488693248, 80001272372258781196185534464, 20441874490156712724855036854272, 20441799390084170663797676580896, 2626771201595648485569075029413647, 3929935591395291206688686693680647, 4581438092691416865993577415574019, 4886787780793380174387754555047937, -716161667801232865358678016577],
  [5222919670838209689988437389352992, 5228010136108414982834309282205455, 5230554748559831281667389299951111, 5231668287761834448080811566596611, 5191580699294360382489380689723393, -20443042033082588838401130308129, -2626771822921897876077537477595151, -3929935903274462345760062575150599, -4581438559938892052718297645384195, -4886867709236859768142380673204225, 636310737818061391540670628353, 318155373659212116931056632064, 159078902876049875610185695232, 79850759327642126837381922816, 119620199405821455684694212608, 79928452943964887296637419584],
  [-44450273650375322783886569162210, -13033589278679807537337637512045297, -1324378474333734526701762244030198, -5844305587503084313410325549078012, 4896716112092436021702975394485507, 9444594000903582784749967663370, -7814027607614157605214594723696891, -3846007497273769843552675243468540, 13694610723890208596206924683521538, 1634646553134415920940877995856894, 3192667238072368751854523217448, 1477646724556825481577370598420, -29645021624437464212783413338614, -7793086827411483232220848957952251, 6528773424755860845027386438285572, 12750735057488572213052597827644],
  [20399590323471684253464926068768, 5232761965303471203267784353894416, 5151641947020445060117264739985159, -15617699444057927595010947240857085, 5192214452229004662372836242013189, -20441799389196989937621233737249, -2626453667547813340198156553211919, -3848488108239135551998682231924231, 16269196978739609954515002071125501, -4886788170385096488761333309963269, 715849598990366948681717317121, 5202835757566762596917074880233728, -4911524711703853827464533770497, -2455761139879415317281833484544, -1227569280976738967329966161920, -2086307288939001984615759808],
  [-13523689656521848136283954773738, -2572327581970195388899831167631093, 9149334796637450805450607462228230, 7180996645860055390007380524060417, 3590458397552732942402393507718400, 6972688680425428926832920507954, -2613063182048693764120674118427879, -3922883050626633902774569453203955, -4527087887541022757417821839480825, 8151314621894573774286543931839748, 5461488036632812760655824125705, -18221133593761338123144249712656891, -3877546196767828142173306544626938, 3273845938587818301384923026142210, 1626741842141853509790082420594688, -7003896991622333266070337748693],
  [5205885396835517544493782660468966, 2572558388608537763791122330314738, -6492104116856309282781302814297351, 7148802172337149691771037098138366, -4224225021744601851974047091708675, 12111663090733511376574373674646, 16156337250262389918556570017738, 2593807629078413557908240379195109, -3976681605378279802924539447290126, -17585553709650161868773225269761030, 6416729448827829745650398636026, 2599555174494697341538361745069307, -1255766407517865599666419163699203, 12373181432303985465466136890848255, -1642498931529788834699013286750211, -13309442907920551521576417321525],
  [2602088135980439012300108185060589, 1270778909914492895107577834562294, -7112491012428765979320133122526981, 14647336730839750221054758493551103, -3101570020426423424168096960644356, -5978525793103713308102088224836, 5189306974840691077083906015513054, -2618164243761006418166951225252882, -1349766712391061132937047765904904, -11090138526898359072982995122238980, -11597983513836684441188718063321, -7773842407525680034954001458812397, 9154946247307481133209648972420619, 7193904117867097658322369411049987, 6182959281595192812039729715917313, -8246088491325451069865500899112],
  [-7781712088229427782501575044341023, 6564924644233309809898923561759474, 11081009355379636412023676272695543, 307563305139769526571880795498746, -5038555128327034179717227362470914, 10481098117737408183423246873052, -2611111372957516576903190405080851, -3871320426715618726333558754423817, 8448893581963690035863507089204988, -6211090790545394817566734046932484, -22351004228183630113845185399063, -2566640114588166810660079149769227, 11738066445300489217074837563838459, 3242341407071978460121187552200187, -3591606788542373267681645283409666, -7133542087564230711828556168254],
  [2559426867729685374717546442489119, -11711328528943733645928224945848817, 4539229736321449339629135493996810, -5518830112581423693565775715430141, 5059651761592621618288053006272515, 9960739730688919440882892336964, 5156593876438801796550888838559266, -13049299970891063866755934625809904, -3867494941977882800533268364435701, 11077616360771465111163340877345285, 1352783715863054678087917750038, 5162470407827091675227100822299148, -10440151299896999296669804049403643, -2593384145659196540808865183499771, 3916005729274225759448043007409922, 7687443794142662220046341372990],
  [19884981104932250655980254544620, 5182075783540774503358149120696822, -7783493695138210966226134620106758, 9109476087660836720405205487683839, -3233827017093235023184339778255875, 24107081183091526686677389451297, -7837397744261392821410641854017521, -11717245906609659617285474159564791, -625681892046096202723097368430842, 4879416144297212020440305924652034, -10871607022579475789574135409124, -2611685513407410706158572098385137, -1285441194152901731795298154854648, 4580079415929276182803251873080324, 4886188445515219565206357769367809, -637329141606657891400108046889],
  [-15587270237409229721762060375444420, 5217491803499180857813439043919137, -2644398493867563069373935920681202, -11686509933009534100908849779247608, 9774518581933661983995652464442886, -1112015955242051443984787570690, 10424642453686104583473365421915648, 5181818228925722258496460536151550, -5217858352373627380248646482330369, 7581201545442369114095900557313, 10195781266689456456169501885441, 5097890619168296335329295302912, 2548941680417583622268003860480, 1273541773568268189593191440384, 398929826810086980349110317056, -237061900156058663313991047048],
  [-5242207026670374321671404396004856, -10419531239522419557662838717735675, 53718364180611123860498835116292, 13038104479280913657435395580365057, 1296211840647271793970336725926142, -7649928242250742205911533552897, -44310555158784709111363859415296, -10386466583220182884708153645252608, 10424381648178618825864986992124418, -348365747490903864904419143682, 118936761019204849842160136134, 7839289854213954336388493412137187, 9101641812595514572429896470067952, -3298631000552210223084623678260489, -9448021765994473001793854396817923, 1828777269429289395105645622034],
  [5232665062515133426876326502478374, 7808748852826666955600874482767890, -1277701843812547522171398984398328, 7190278492183733239750138204669189, 6191287365260344343410652254937601, 1911073803916788671881474395599, -19367106973683664990286156273944, -5212280385651209020009227806903308, -30274634988061519984392970503429, -7813881807040796811628593399071235, 4982233048362526819167814876416, -7745667116682812220774456767774977, 14259640628541576428937226007232513, -21499078915390082196161753109619203, -324141995342379754512088308870908, -553241481331921526945610110900],
  [2590290494555212951900471305472589, -3958157142257561057187181408206042, -12383835700216126018146446808210924, -928433712637422347352563061468148, 12547067744249755233186854687288069, 4143574757278985505826251619090, -28629591638893251709349241250806, -7873867824307829208193840588075259, -14321527317306541192484540715505404, 3264633806105408763778724740757508, 6456088661888806875047986698172, 5236327408383470002905613427788254, 7850946309722745471657790433190894, 9077165578884510114678815859437558, -11068811252550118950706818999831046, 8963607028999310334727464948125],
  [91432054106679479980099824895272203, 77155514434346835207845927856111604, 80442599203496535397947439515002996, 82095611365142079020232178038941234, 85346380376062393803274117091001105, 157666983166155392594812488795697, 75825881428714251467654640059620121, 79767721037162237793703460018323326, 79182386421365462276136275091515703, 91708914884108063782717342399915284, 170252577811655308536312495675617, 86237287883673735199037001404482289, 79801211435814739665515321100579176, 89553302032833817772562302044913965, 78680689014389923036823214423560205, 175428973206388885150825832667416]]

/-- inverse of `smallRows` modulo 1031 -/
def inverse : List (List Int) := [
  [972, 543, 901, 299, 795, 122, 850, 488, 421, 610, 480, 472, 358, 732, 429, 728],
  [1027, 362, 0, 779, 189, 303, 0, 724, 968, 846, 252, 488, 484, 4, 665, 728],
  [303, 791, 496, 850, 177, 791, 669, 783, 71, 551, 964, 181, 181, 909, 846, 728],
  [0, 1027, 492, 850, 236, 122, 972, 728, 724, 118, 4, 488, 736, 59, 905, 728],
  [555, 779, 736, 193, 362, 122, 850, 850, 909, 665, 728, 858, 425, 968, 307, 728],
  [355, 691, 447, 837, 488, 482, 815, 602, 849, 231, 89, 170, 608, 297, 16, 848],
  [358, 480, 165, 413, 917, 972, 972, 980, 1027, 71, 55, 791, 791, 732, 362, 728],
  [248, 905, 0, 795, 173, 846, 362, 59, 909, 354, 964, 850, 846, 905, 181, 728],
  [362, 55, 472, 606, 12, 732, 669, 63, 783, 846, 366, 909, 370, 728, 846, 728],
  [492, 791, 539, 236, 122, 244, 291, 181, 421, 968, 307, 299, 850, 665, 972, 728],
  [852, 240, 241, 93, 583, 881, 956, 283, 869, 419, 912, 311, 985, 816, 531, 848],
  [858, 307, 921, 244, 417, 775, 0, 55, 913, 488, 63, 850, 791, 118, 665, 728],
  [248, 71, 728, 850, 421, 846, 417, 307, 858, 665, 905, 905, 846, 185, 67, 728],
  [665, 244, 303, 909, 429, 429, 366, 4, 669, 787, 728, 909, 181, 114, 429, 728],
  [614, 555, 75, 555, 114, 539, 480, 189, 791, 913, 307, 610, 539, 240, 55, 728],
  [831, 959, 110, 325, 16, 65, 890, 30, 185, 13, 730, 644, 187, 215, 776, 848]]

/-! ### Vectors -/

def dot : List Int → List Int → Int
  | a :: l, b :: m => a * b + dot l m
  | _, _ => 0

/-- elementwise congruence of `m` times the first list with the second -/
def congruent (M m : Int) : List Int → List Int → Bool
  | a :: l, b :: l' => decide ((m * a - b) % M = 0) && congruent M m l l'
  | [], [] => true
  | _, _ => false

theorem dot_congruent {M m : Int} : ∀ {l l' : List Int} (u : List Int), congruent M m l l' = true → M ∣ m * dot l u - dot l' u
  | [], [], u, _ => by cases u <;> simp [dot]
  | a :: l, b :: l', [], _ => by simp [dot]
  | a :: l, b :: l', x :: u, h => by
    simp only [congruent, Bool.and_eq_true, decide_eq_true_eq] at h
    obtain ⟨q, hq⟩ := dot_congruent u h.2
    obtain ⟨c, hc⟩ := Int.dvd_of_emod_eq_zero h.1
    refine ⟨c * x + q, ?_⟩
    have e : m * (a * x + dot l u) - (b * x + dot l' u) = (m * a - b) * x + (m * dot l u - dot l' u) := by
      rw [Int.mul_add, Int.sub_mul, ← Int.mul_assoc]; omega
    show m * (a * x + dot l u) - (b * x + dot l' u) = _
    rw [e, hc, hq, Int.mul_add, Int.mul_assoc]

/-- `|x|` by cases, so that omega understands it -/
def size (x : Int) : Int := if 0 ≤ x then x else -x

def sizeDot : List Int → List Int → Int
  | a :: l, b :: m => size a * b + sizeDot l m
  | _, _ => 0

/-- every entry between minus and plus its bound; same number of entries -/
def Within : List Int → List Int → Prop
  | x :: u, b :: m => -b ≤ x ∧ x ≤ b ∧ Within u m
  | [], [] => True
  | _, _ => False

theorem dot_bound : ∀ {l u m : List Int}, Within u m → -sizeDot l m ≤ dot l u ∧ dot l u ≤ sizeDot l m
  | [], u, m, _ => by cases u <;> cases m <;> simp [dot, sizeDot]
  | a :: l, [], [], _ => by simp [dot, sizeDot]
  | a :: l, x :: u, b :: m, h => by
    obtain ⟨h1, h2, h3⟩ := h
    obtain ⟨i1, i2⟩ := dot_bound (l := l) h3
    have key : -(size a * b) ≤ a * x ∧ a * x ≤ size a * b := by
      unfold size
      split
      · rename_i ha
        have p1 := Int.mul_le_mul_of_nonneg_left h2 ha
        have p2 := Int.mul_le_mul_of_nonneg_left h1 ha
        rw [Int.mul_neg] at p2
        exact ⟨p2, p1⟩
      · rename_i ha
        have ha' : 0 ≤ -a := by omega
        have p1 := Int.mul_le_mul_of_nonneg_left h2 ha'
        have p2 := Int.mul_le_mul_of_nonneg_left h1 ha'
        rw [Int.neg_mul_neg] at p2
        rw [Int.neg_mul] at p1
        rw [Int.neg_mul]
        rw [Int.neg_mul] at p2
        rw [Int.neg_mul] at p1
        constructor <;> omega
    show -(size a * b + sizeDot l m) ≤ a * x + dot l u ∧ a * x + dot l u ≤ size a * b + sizeDot l m
    omega
  | a :: l, [], b :: m, h => h.elim
  | a :: l, x :: u, [], h => h.elim

def addTo : List Int → List Int → List Int
  | a :: l, b :: m => (a + b) :: addTo l m
  | [], m => m
  | l, [] => l

theorem dot_addTo : ∀ (l m u : List Int), dot (addTo l m) u = dot l u + dot m u
  | [], m, u => by cases u <;> simp [addTo, dot]
  | a :: l, [], u => by cases u <;> simp [addTo, dot]
  | a :: l, b :: m, [] => by simp [addTo, dot]
  | a :: l, b :: m, x :: u => by
    show (a + b) * x + dot (addTo l m) u = a * x + dot l u + (b * x + dot m u)
    rw [dot_addTo l m u, Int.add_mul]; omega

theorem dot_map (c : Int) : ∀ (l u : List Int), dot (l.map (c * ·)) u = c * dot l u
  | [], u => by cases u <;> simp [dot]
  | a :: l, [] => by simp [dot]
  | a :: l, x :: u => by
    show c * a * x + dot (l.map (c * ·)) u = c * (a * x + dot l u)
    rw [dot_map c l u, Int.mul_add, Int.mul_assoc]

/-- linear combination of rows -/
def combine : List Int → List (List Int) → List Int
  | c :: cs, r :: rs => addTo (r.map (c * ·)) (combine cs rs)
  | _, _ => []

theorem dot_combine (u : List Int) : ∀ (cs : List Int) (rs : List (List Int)), dot (combine cs rs) u = dot cs (rs.map (dot · u))
  | [], rs => by cases u <;> cases rs <;> simp [combine, dot]
  | c :: cs, [] => by cases u <;> simp [combine, dot]
  | c :: cs, r :: rs => by
    show dot (addTo (r.map (c * ·)) (combine cs rs)) u = c * dot r u + dot cs (rs.map (dot · u))
    rw [dot_addTo, dot_map, dot_combine u cs rs]

/-! ### The certificate proves that the fields are zero, or all at their extreme -/

/-- all rows but the last are multiples of the weights, and small -/
def rowsOk : List Int → List (List Int) → Bool
  | [_], [_] => true
  | m :: ms, r :: rs => congruent modulus m fieldWeights r && decide (sizeDot r fieldMax < modulus) && rowsOk ms rs
  | _, _ => false

theorem rows_zero {u : List Int} (hu : Within u fieldMax) (hd : modulus ∣ dot fieldWeights u) :
    ∀ {ms : List Int} {rs : List (List Int)}, rowsOk ms rs = true →
      ∃ r, rs.getLast? = some r ∧ rs.map (dot · u) = List.replicate (rs.length - 1) 0 ++ [dot r u]
  | [], _, h => by simp [rowsOk] at h
  | [m], [], h => by simp [rowsOk] at h
  | m :: m' :: ms, [], h => by simp [rowsOk] at h
  | [m], [r], _ => ⟨r, rfl, rfl⟩
  | [m], r :: r' :: rs, h => by
    simp only [rowsOk, Bool.and_eq_true] at h
    exact absurd h.2 (by simp)
  | m :: m' :: ms, [r], h => by
    simp only [rowsOk, Bool.and_eq_true] at h
    exact absurd h.2 (by simp)
  | m :: m' :: ms, r :: r' :: rs, h => by
    simp only [rowsOk, Bool.and_eq_true, decide_eq_true_eq] at h
    obtain ⟨⟨h1, h2⟩, h3⟩ := h
    obtain ⟨l, e1, e2⟩ := rows_zero hu hd (ms := m' :: ms) (rs := r' :: rs) h3
    have h0 : dot r u = 0 := by
      have hc := dot_congruent u h1
      have hd' : modulus ∣ m * dot fieldWeights u := Int.dvd_trans hd (Int.dvd_mul_left _ _)
      obtain ⟨q, hq⟩ : modulus ∣ dot r u := by
        have := Int.dvd_sub hd' hc
        rwa [Int.sub_sub_self] at this
      obtain ⟨b1, b2⟩ := dot_bound (l := r) hu
      have hm : modulus = 1334440654591915542993625911497130241 := rfl
      rw [hq] at b1 b2 ⊢
      rw [hm] at b1 b2 h2 ⊢
      omega
    refine ⟨l, by rw [List.getLast?_cons_cons]; exact e1, ?_⟩
    rw [List.map_cons, e2, h0]
    rfl

theorem rows_checked : rowsOk multipliers smallRows = true := by decide +kernel

/-- the combinations of rows given by `inverse` are the unit vectors modulo 1031 -/
def unitVector (n k : Nat) : List Int := (List.range n).map fun i => if i = k then 1 else 0

theorem inverse_checked : ∀ k < 16, congruent 1031 1 (combine (inverse.getD k []) smallRows) (unitVector 16 k) = true := by
  decide +kernel

theorem extreme_checked : ∀ k < 16, ((inverse.getD k []).getD 15 0 * modulus - fieldMax.getD k 0) % 1031 = 0 ∧
    (inverse.getD k []).length = 16 := by decide +kernel

theorem last_checked : congruent modulus (multipliers.getD 15 0) fieldWeights (smallRows.getD 15 []) = true ∧
    sizeDot (smallRows.getD 15 []) fieldMax = modulus := by decide +kernel

theorem dot_unit : ∀ (u : List Int) (f : Nat → Int), dot ((List.range u.length).map f) u = ((List.range u.length).map fun i => f i * u.getD i 0).sum
  | [], f => by simp [dot]
  | x :: u, f => by
    have := dot_unit u (fun i => f (i + 1))
    rw [List.length_cons, List.range_succ_eq_map]
    simp only [List.map_cons, List.map_map, dot, List.sum_cons]
    have e1 : (List.range u.length).map (f ∘ Nat.succ) = (List.range u.length).map fun i => f (i + 1) := rfl
    rw [e1, this]
    rfl

theorem sum_indicator (g : Nat → Int) : ∀ n k, k < n → ((List.range n).map fun i => (if i = k then (1 : Int) else 0) * g i).sum = g k
  | 0, k, h => by omega
  | n + 1, k, h => by
    rw [List.range_succ, List.map_append, List.sum_append]
    by_cases hk : k = n
    · subst hk
      have e : ((List.range k).map fun i => (if i = k then (1 : Int) else 0) * g i) = (List.range k).map fun _ => 0 := by
        apply List.map_congr_left
        intro i hi
        have := List.mem_range.1 hi
        rw [if_neg (by omega), Int.zero_mul]
      rw [e]
      have z : ∀ m : Nat, ((List.range m).map fun _ => (0 : Int)).sum = 0 := by
        intro m; induction m with
        | zero => rfl
        | succ m ih => rw [List.range_succ, List.map_append, List.sum_append, ih]; rfl
      rw [z]; simp
    · rw [sum_indicator g n k (by omega)]
      simp [Ne.symm hk]

theorem dot_replicate (t : Int) : ∀ (cs : List Int) (n : Nat), cs.length = n + 1 →
    dot cs (List.replicate n 0 ++ [t]) = cs.getD n 0 * t
  | [], n, h => by simp at h
  | c :: cs, 0, h => by
    have : cs = [] := by cases cs with
      | nil => rfl
      | cons _ _ => simp at h
    subst this
    simp [dot]
  | c :: cs, n + 1, h => by
    have := dot_replicate t cs n (by simpa using h)
    rw [List.replicate_succ, List.cons_append]
    show c * 0 + dot cs (List.replicate n 0 ++ [t]) = _
    rw [this]; simp

/-- fields whose weighted sum is a multiple of the modulus are all zero, or all at the upper, or all at the lower extreme -/
theorem fields_extreme {u : List Int} (hl : u.length = 16) (hu : Within u fieldMax) (hd : modulus ∣ dot fieldWeights u) :
    ∃ t : Int, (t = 0 ∨ t = 1 ∨ t = -1) ∧ ∀ k < 16, (u.getD k 0 - t * fieldMax.getD k 0) % 1031 = 0 := by
  obtain ⟨r, h1, h2⟩ := rows_zero hu hd rows_checked
  have hr : r = smallRows.getD 15 [] := by
    have : smallRows.getLast? = some (smallRows.getD 15 []) := by decide +kernel
    rw [this] at h1; injection h1 with h1; exact h1.symm
  subst hr
  have hm : modulus = 1334440654591915542993625911497130241 := rfl
  obtain ⟨q, hq⟩ : modulus ∣ dot (smallRows.getD 15 []) u := by
    have hc := dot_congruent u last_checked.1
    have hd' : modulus ∣ multipliers.getD 15 0 * dot fieldWeights u := Int.dvd_trans hd (Int.dvd_mul_left _ _)
    have := Int.dvd_sub hd' hc
    rwa [Int.sub_sub_self] at this
  obtain ⟨b1, b2⟩ := dot_bound (l := smallRows.getD 15 []) hu
  rw [last_checked.2, hq] at b1 b2
  have hq3 : q = 0 ∨ q = 1 ∨ q = -1 := by
    rw [hm] at b1 b2; omega
  refine ⟨q, hq3, fun k hk => ?_⟩
  have hc := dot_congruent u (inverse_checked k hk)
  rw [dot_combine, h2, show smallRows.length - 1 = 15 from rfl, dot_replicate _ _ 15 (extreme_checked k hk).2, hq] at hc
  have e : dot (unitVector 16 k) u = u.getD k 0 := by
    have := dot_unit u (fun i => if i = k then 1 else 0)
    rw [hl] at this
    unfold unitVector
    rw [this]
    exact sum_indicator (fun i => u.getD i 0) 16 k hk
  rw [e, Int.one_mul] at hc
  obtain ⟨c1, hc1⟩ := hc
  obtain ⟨c2, hc2⟩ := Int.dvd_of_emod_eq_zero (extreme_checked k hk).1
  have e2 : (inverse.getD k []).getD 15 0 * (modulus * q) = q * fieldMax.getD k 0 + 1031 * (c2 * q) := by
    rw [← Int.mul_assoc]
    have : (inverse.getD k []).getD 15 0 * modulus = fieldMax.getD k 0 + 1031 * c2 := by omega
    rw [this, Int.add_mul, Int.mul_comm (fieldMax.getD k 0), Int.mul_assoc]
  rw [e2] at hc1
  generalize u.getD k 0 = x at *
  generalize q * fieldMax.getD k 0 = y at *
  generalize c2 * q = z at *
  omega

/-! ### n-fold of 5 bytes as a weighted sum of 40 bits -/

theorem natOfBits_sum (f : Nat → Bool) : ∀ n, natOfBits f n = ((List.range n).map fun j => 2 ^ (n - 1 - j) * (f j).toNat).sum
  | 0 => rfl
  | n + 1 => by
    show 2 * natOfBits f n + (f n).toNat = _
    rw [natOfBits_sum f n, List.range_succ, List.map_append, List.sum_append]
    have e : ∀ l : List Nat, (∀ j ∈ l, j < n) →
        2 * (l.map fun j => 2 ^ (n - 1 - j) * (f j).toNat).sum = (l.map fun j => 2 ^ (n + 1 - 1 - j) * (f j).toNat).sum := by
      intro l
      induction l with
      | nil => intro _; rfl
      | cons a l ih =>
        intro h
        have ha := h a (by simp)
        have e2 : (2 : Nat) ^ (n + 1 - 1 - a) = 2 * 2 ^ (n - 1 - a) := by
          rw [show n + 1 - 1 - a = (n - 1 - a) + 1 by omega, Nat.pow_succ, Nat.mul_comm]
        rw [List.map_cons, List.map_cons, List.sum_cons, List.sum_cons, ← ih (fun j hj => h j (by simp [hj])), e2,
          Nat.mul_add, Nat.mul_assoc]
    rw [e _ (fun j hj => List.mem_range.1 hj)]
    simp

/-- source bit of bit `k` of the expansion of 5 bytes -/
def source (k : Nat) : Nat := (((k % 40 : Int) - 13 * (k / 40)) % 40).toNat

/-- where the 640 bits of the expansion come from and what they weigh -/
def sources : List (Nat × Nat) := (List.range 5).flatMap fun m => (List.range 128).map fun j => (source (m * 128 + j), 2 ^ (128 - 1 - j))

/-- total weight of source bit `j` -/
def weight (l : List (Nat × Nat)) (j : Nat) : Nat := ((l.filter (fun p => p.1 == j)).map (·.2)).sum

theorem sum_add_map (f g : Nat → Nat) : ∀ l : List Nat, (l.map fun j => f j + g j).sum = (l.map f).sum + (l.map g).sum
  | [] => rfl
  | a :: l => by simp only [List.map_cons, List.sum_cons, sum_add_map f g l]; omega

theorem sum_indicator_nat (g : Nat → Nat) (w : Nat) : ∀ n k, k < n →
    ((List.range n).map fun i => (if k = i then w else 0) * g i).sum = w * g k
  | 0, k, h => by omega
  | n + 1, k, h => by
    rw [List.range_succ, List.map_append, List.sum_append]
    by_cases hk : k = n
    · subst hk
      have e : ((List.range k).map fun i => (if k = i then w else 0) * g i) = (List.range k).map fun _ => 0 := by
        apply List.map_congr_left
        intro i hi
        have := List.mem_range.1 hi
        rw [if_neg (by omega), Nat.zero_mul]
      rw [e]
      have z : ∀ m : Nat, ((List.range m).map fun _ => 0).sum = 0 := by
        intro m; induction m with
        | zero => rfl
        | succ m ih => rw [List.range_succ, List.map_append, List.sum_append, ih]; rfl
      rw [z]; simp
    · rw [sum_indicator_nat g w n k (by omega)]
      simp [hk]

theorem collect (b : Nat → Nat) (n : Nat) : ∀ l : List (Nat × Nat), (∀ p ∈ l, p.1 < n) →
    (l.map fun p => p.2 * b p.1).sum = ((List.range n).map fun j => weight l j * b j).sum
  | [], _ => by
    have z : ∀ m : Nat, ((List.range m).map fun j => weight [] j * b j).sum = 0 := by
      intro m; induction m with
      | zero => rfl
      | succ m ih => rw [List.range_succ, List.map_append, List.sum_append, ih]; simp [weight]
    exact (z n).symm
  | (i, w) :: l, h => by
    have hi : i < n := h (i, w) (by simp)
    rw [List.map_cons, List.sum_cons, collect b n l (fun p hp => h p (by simp [hp]))]
    have e : ((List.range n).map fun j => weight ((i, w) :: l) j * b j) =
        (List.range n).map fun j => (if i = j then w else 0) * b j + weight l j * b j := by
      apply List.map_congr_left
      intro j _
      unfold weight
      by_cases hij : i = j
      · subst hij
        simp [Nat.add_mul]
      · simp [hij]
    rw [e, sum_add_map, sum_indicator_nat b w n i hi]

theorem sources_lt : ∀ p ∈ sources, p.1 < 40 := by decide +kernel

theorem weights_checked : (List.range 40).map (fun j => (weight sources j : Int)) = bitWeights.map (255 * ·) := by decide +kernel

/-- the sum of the pieces as a sum over the 40 bits -/
theorem pieces_sum {v : Bytes} (hv : v.length = 5) :
    ((List.range (Nat.lcm 16 v.length / 16)).map (piece v 16)).sum =
      ((List.range 40).map fun j => weight sources j * (bitAt v j).toNat).sum := by
  rw [← collect (fun j => (bitAt v j).toNat) 40 sources sources_lt, hv, show Nat.lcm 16 5 / 16 = 5 by decide]
  have hp : ∀ m, piece v 16 m = ((List.range 128).map fun j => 2 ^ (128 - 1 - j) * (bitAt v (source (m * 128 + j))).toNat).sum := by
    intro m
    unfold piece
    rw [natOfBits_sum]
    simp only [Nat.reduceMul]
    congr 1
    apply List.map_congr_left
    intro j _
    unfold expandedBit source
    rw [hv]
    rfl
  have hs : ∀ l : List Nat, (l.map (piece v 16)).sum =
      ((l.flatMap fun m => (List.range 128).map fun j => (source (m * 128 + j), 2 ^ (128 - 1 - j))).map
        fun p => p.2 * (bitAt v p.1).toNat).sum := by
    intro l
    induction l with
    | nil => rfl
    | cons m l ih =>
      rw [List.map_cons, List.sum_cons, ih, List.flatMap_cons, List.map_append, List.sum_append, hp, List.map_map]
      rfl
  exact hs _

theorem natCast_sum : ∀ l : List Nat, ((l.sum : Nat) : Int) = (l.map fun x : Nat => (x : Int)).sum
  | [] => rfl
  | a :: l => by rw [List.sum_cons, List.map_cons, List.sum_cons, ← natCast_sum l, Int.natCast_add]

theorem dot_range (f g : Nat → Int) : ∀ l : List Nat, dot (l.map f) (l.map g) = (l.map fun j => f j * g j).sum
  | [] => rfl
  | a :: l => by simp only [List.map_cons, dot, List.sum_cons, dot_range f g l]

/-- the difference of two sums of pieces -/
theorem pieces_diff {v v' : Bytes} (hv : v.length = 5) (hv' : v'.length = 5) :
    (((List.range (Nat.lcm 16 v.length / 16)).map (piece v 16)).sum : Int) -
      (((List.range (Nat.lcm 16 v'.length / 16)).map (piece v' 16)).sum : Int) =
      255 * dot bitWeights ((List.range 40).map fun j => ((bitAt v j).toNat : Int) - ((bitAt v' j).toNat : Int)) := by
  rw [pieces_sum hv, pieces_sum hv', natCast_sum, natCast_sum, List.map_map, List.map_map, ← dot_map, ← weights_checked, dot_range]
  generalize List.range 40 = l
  induction l with
  | nil => rfl
  | cons a l ih =>
    simp only [List.map_cons, List.sum_cons, Function.comp, Int.mul_sub, Int.natCast_mul] at ih ⊢
    omega

/-! ### Injectivity -/

/-- the 16 fields of 40 bit differences -/
def fieldsOf (g : Nat → Int) : List Int :=
  [g 0, g 1, g 2, g 3, g 4, 256 * g 5 + 128 * g 6 + 64 * g 7 + 32 * g 8 + 16 * g 9 + 8 * g 10 + 4 * g 11 + 2 * g 12 + g 13, g 14, g 15, g 16, g 17, 256 * g 18 + 128 * g 19 + 64 * g 20 + 32 * g 21 + 16 * g 22 + 8 * g 23 + 4 * g 24 + 2 * g 25 + g 26, g 27, g 28, g 29, g 30, 256 * g 31 + 128 * g 32 + 64 * g 33 + 32 * g 34 + 16 * g 35 + 8 * g 36 + 4 * g 37 + 2 * g 38 + g 39]

theorem range40 (g : Nat → Int) : (List.range 40).map g =
    [g 0, g 1, g 2, g 3, g 4, g 5, g 6, g 7, g 8, g 9, g 10, g 11, g 12, g 13, g 14, g 15, g 16, g 17, g 18, g 19, g 20, g 21, g 22, g 23, g 24, g 25, g 26, g 27, g 28, g 29, g 30, g 31, g 32, g 33, g 34, g 35, g 36, g 37, g 38, g 39] := rfl

theorem runs_checked : congruent modulus 1 bitWeights runWeights = true := by decide +kernel

theorem dot_fields (g : Nat → Int) : dot runWeights ((List.range 40).map g) = dot fieldWeights (fieldsOf g) := by
  rw [range40]
  simp only [runWeights, fieldWeights, fieldsOf, dot]
  omega

/-- a run of nine bit differences -/
theorem run_extreme {a b c d e f g h i t : Int} (ht : t = 0 ∨ t = 1 ∨ t = -1)
    (ha : -1 ≤ a ∧ a ≤ 1) (hb : -1 ≤ b ∧ b ≤ 1) (hc : -1 ≤ c ∧ c ≤ 1) (hd : -1 ≤ d ∧ d ≤ 1) (he : -1 ≤ e ∧ e ≤ 1)
    (hf : -1 ≤ f ∧ f ≤ 1) (hg : -1 ≤ g ∧ g ≤ 1) (hh : -1 ≤ h ∧ h ≤ 1) (hi : -1 ≤ i ∧ i ≤ 1)
    (hs : (256 * a + 128 * b + 64 * c + 32 * d + 16 * e + 8 * f + 4 * g + 2 * h + i - t * 511) % 1031 = 0) :
    a = t ∧ b = t ∧ c = t ∧ d = t ∧ e = t ∧ f = t ∧ g = t ∧ h = t ∧ i = t := by
  have h0 : 256 * a + 128 * b + 64 * c + 32 * d + 16 * e + 8 * f + 4 * g + 2 * h + i = t * 511 := by
    generalize hS : 256 * a + 128 * b + 64 * c + 32 * d + 16 * e + 8 * f + 4 * g + 2 * h + i = S at hs
    have : -511 ≤ S ∧ S ≤ 511 := by omega
    clear hS
    rcases ht with rfl | rfl | rfl <;> omega
  clear hs
  rcases ht with rfl | rfl | rfl
  · have i0 : i = 0 := by omega
    subst i0
    have h1 : 128 * a + 64 * b + 32 * c + 16 * d + 8 * e + 4 * f + 2 * g + h = 0 := by omega
    have h2 : h = 0 := by omega
    subst h2
    have h1 : 64 * a + 32 * b + 16 * c + 8 * d + 4 * e + 2 * f + g = 0 := by omega
    have h2 : g = 0 := by omega
    subst h2
    have h1 : 32 * a + 16 * b + 8 * c + 4 * d + 2 * e + f = 0 := by omega
    have h2 : f = 0 := by omega
    subst h2
    have h1 : 16 * a + 8 * b + 4 * c + 2 * d + e = 0 := by omega
    have h2 : e = 0 := by omega
    subst h2
    have h1 : 8 * a + 4 * b + 2 * c + d = 0 := by omega
    have h2 : d = 0 := by omega
    subst h2
    omega
  · omega
  · omega

theorem bit_extreme {a t : Int} (ht : t = 0 ∨ t = 1 ∨ t = -1) (ha : -1 ≤ a ∧ a ≤ 1) (hs : (a - t * 1) % 1031 = 0) : a = t := by
  rcases ht with rfl | rfl | rfl <;> omega

theorem differences_extreme (g : Nat → Int) (hg : ∀ j < 40, -1 ≤ g j ∧ g j ≤ 1)
    (hd : modulus ∣ dot bitWeights ((List.range 40).map g)) : ∃ t : Int, (t = 0 ∨ t = 1 ∨ t = -1) ∧ ∀ j < 40, g j = t := by
  have hd2 : modulus ∣ dot fieldWeights (fieldsOf g) := by
    have := Int.dvd_sub hd (by simpa using dot_congruent ((List.range 40).map g) runs_checked)
    rw [Int.sub_sub_self, dot_fields] at this
    exact this
  have b0 := hg 0 (by omega)
  have b1 := hg 1 (by omega)
  have b2 := hg 2 (by omega)
  have b3 := hg 3 (by omega)
  have b4 := hg 4 (by omega)
  have b5 := hg 5 (by omega)
  have b6 := hg 6 (by omega)
  have b7 := hg 7 (by omega)
  have b8 := hg 8 (by omega)
  have b9 := hg 9 (by omega)
  have b10 := hg 10 (by omega)
  have b11 := hg 11 (by omega)
  have b12 := hg 12 (by omega)
  have b13 := hg 13 (by omega)
  have b14 := hg 14 (by omega)
  have b15 := hg 15 (by omega)
  have b16 := hg 16 (by omega)
  have b17 := hg 17 (by omega)
  have b18 := hg 18 (by omega)
  have b19 := hg 19 (by omega)
  have b20 := hg 20 (by omega)
  have b21 := hg 21 (by omega)
  have b22 := hg 22 (by omega)
  have b23 := hg 23 (by omega)
  have b24 := hg 24 (by omega)
  have b25 := hg 25 (by omega)
  have b26 := hg 26 (by omega)
  have b27 := hg 27 (by omega)
  have b28 := hg 28 (by omega)
  have b29 := hg 29 (by omega)
  have b30 := hg 30 (by omega)
  have b31 := hg 31 (by omega)
  have b32 := hg 32 (by omega)
  have b33 := hg 33 (by omega)
  have b34 := hg 34 (by omega)
  have b35 := hg 35 (by omega)
  have b36 := hg 36 (by omega)
  have b37 := hg 37 (by omega)
  have b38 := hg 38 (by omega)
  have b39 := hg 39 (by omega)
  have hw : Within (fieldsOf g) fieldMax := by
    simp only [fieldsOf, fieldMax, Within, and_true]
    refine ⟨?_, ?_, ?_, ?_, ?_, ?_, ?_, ?_, ?_, ?_, ?_, ?_, ?_, ?_, ?_, ?_, ?_, ?_, ?_, ?_, ?_, ?_, ?_, ?_, ?_, ?_, ?_, ?_, ?_, ?_, ?_, ?_⟩ <;> omega
  obtain ⟨t, ht, hk⟩ := fields_extreme rfl hw hd2
  refine ⟨t, ht, ?_⟩
  have k0 := hk 0 (by omega)
  have k1 := hk 1 (by omega)
  have k2 := hk 2 (by omega)
  have k3 := hk 3 (by omega)
  have k4 := hk 4 (by omega)
  have k5 := hk 5 (by omega)
  have k6 := hk 6 (by omega)
  have k7 := hk 7 (by omega)
  have k8 := hk 8 (by omega)
  have k9 := hk 9 (by omega)
  have k10 := hk 10 (by omega)
  have k11 := hk 11 (by omega)
  have k12 := hk 12 (by omega)
  have k13 := hk 13 (by omega)
  have k14 := hk 14 (by omega)
  have k15 := hk 15 (by omega)
  simp only [fieldsOf, fieldMax, List.getD_cons_zero, List.getD_cons_succ] at k0 k1 k2 k3 k4 k5 k6 k7 k8 k9 k10 k11 k12 k13 k14 k15
  have hj : g 0 = t ∧ g 1 = t ∧ g 2 = t ∧ g 3 = t ∧ g 4 = t ∧ g 5 = t ∧ g 6 = t ∧ g 7 = t ∧ g 8 = t ∧ g 9 = t ∧ g 10 = t ∧ g 11 = t ∧ g 12 = t ∧ g 13 = t ∧ g 14 = t ∧ g 15 = t ∧ g 16 = t ∧ g 17 = t ∧ g 18 = t ∧ g 19 = t ∧ g 20 = t ∧ g 21 = t ∧ g 22 = t ∧ g 23 = t ∧ g 24 = t ∧ g 25 = t ∧ g 26 = t ∧ g 27 = t ∧ g 28 = t ∧ g 29 = t ∧ g 30 = t ∧ g 31 = t ∧ g 32 = t ∧ g 33 = t ∧ g 34 = t ∧ g 35 = t ∧ g 36 = t ∧ g 37 = t ∧ g 38 = t ∧ g 39 = t := by
    have x0 := bit_extreme ht b0 k0
    have x1 := bit_extreme ht b1 k1
    have x2 := bit_extreme ht b2 k2
    have x3 := bit_extreme ht b3 k3
    have x4 := bit_extreme ht b4 k4
    have ⟨x5, x6, x7, x8, x9, x10, x11, x12, x13⟩ := run_extreme ht b5 b6 b7 b8 b9 b10 b11 b12 b13 k5
    have x14 := bit_extreme ht b14 k6
    have x15 := bit_extreme ht b15 k7
    have x16 := bit_extreme ht b16 k8
    have x17 := bit_extreme ht b17 k9
    have ⟨x18, x19, x20, x21, x22, x23, x24, x25, x26⟩ := run_extreme ht b18 b19 b20 b21 b22 b23 b24 b25 b26 k10
    have x27 := bit_extreme ht b27 k11
    have x28 := bit_extreme ht b28 k12
    have x29 := bit_extreme ht b29 k13
    have x30 := bit_extreme ht b30 k14
    have ⟨x31, x32, x33, x34, x35, x36, x37, x38, x39⟩ := run_extreme ht b31 b32 b33 b34 b35 b36 b37 b38 b39 k15
    exact ⟨x0, x1, x2, x3, x4, x5, x6, x7, x8, x9, x10, x11, x12, x13, x14, x15, x16, x17, x18, x19, x20, x21, x22, x23, x24, x25, x26, x27, x28, x29, x30, x31, x32, x33, x34, x35, x36, x37, x38, x39⟩
  intro j hjl
  obtain ⟨j0, j1, j2, j3, j4, j5, j6, j7, j8, j9, j10, j11, j12, j13, j14, j15, j16, j17, j18, j19, j20, j21, j22, j23, j24, j25, j26, j27, j28, j29, j30, j31, j32, j33, j34, j35, j36, j37, j38, j39⟩ := hj
  have hc : j = 0 ∨ j = 1 ∨ j = 2 ∨ j = 3 ∨ j = 4 ∨ j = 5 ∨ j = 6 ∨ j = 7 ∨ j = 8 ∨ j = 9 ∨ j = 10 ∨ j = 11 ∨ j = 12 ∨ j = 13 ∨ j = 14 ∨ j = 15 ∨ j = 16 ∨ j = 17 ∨ j = 18 ∨ j = 19 ∨ j = 20 ∨ j = 21 ∨ j = 22 ∨ j = 23 ∨ j = 24 ∨ j = 25 ∨ j = 26 ∨ j = 27 ∨ j = 28 ∨ j = 29 ∨ j = 30 ∨ j = 31 ∨ j = 32 ∨ j = 33 ∨ j = 34 ∨ j = 35 ∨ j = 36 ∨ j = 37 ∨ j = 38 ∨ j = 39 := by omega
  rcases hc with rfl | rfl | rfl | rfl | rfl | rfl | rfl | rfl | rfl | rfl | rfl | rfl | rfl | rfl | rfl | rfl | rfl | rfl | rfl | rfl | rfl | rfl | rfl | rfl | rfl | rfl | rfl | rfl | rfl | rfl | rfl | rfl | rfl | rfl | rfl | rfl | rfl | rfl | rfl | rfl <;> assumption

theorem byte_ext {a b : UInt8} (h : ∀ r < 8, a.toNat.testBit (7 - r) = b.toNat.testBit (7 - r)) : a = b := by
  apply UInt8.toNat_inj.1
  apply Nat.eq_of_testBit_eq
  intro i
  by_cases hi : i < 8
  · have := h (7 - i) (by omega)
    rwa [show 7 - (7 - i) = i by omega] at this
  · have h8 : (2 : Nat) ^ 8 ≤ 2 ^ i := Nat.pow_le_pow_right (by omega) (by omega)
    have ha := a.toNat_lt
    have hb := b.toNat_lt
    rw [Nat.testBit_lt_two_pow (by omega), Nat.testBit_lt_two_pow (by omega)]

/-- byte strings of the same length with the same bits are equal -/
theorem bits_ext {v v' : Bytes} (hl : v.length = v'.length) (h : ∀ j < 8 * v.length, bitAt v j = bitAt v' j) : v = v' := by
  apply List.ext_getElem hl
  intro i h1 h2
  apply byte_ext
  intro r hr
  have := h (8 * i + r) (by omega)
  unfold bitAt at this
  rw [show (8 * i + r) / 8 = i by omega, show (8 * i + r) % 8 = r by omega] at this
  simpa [List.getD, h1, h2] using this

theorem onesComplement_congr {s s' : Nat} (h : onesComplement 128 s = onesComplement 128 s') :
    ((2 : Int) ^ 128 - 1) ∣ (s : Int) - (s' : Int) := by
  unfold onesComplement at h
  have e : (2 : Nat) ^ 128 - 1 = 340282366920938463463374607431768211455 := by decide
  have e' : (2 : Int) ^ 128 - 1 = 340282366920938463463374607431768211455 := by decide
  rw [e] at h
  rw [e']
  split at h <;> split at h
  · subst s; subst s'; simp
  · omega
  · omega
  · omega

/-- all bits ones against all bits zeros -/
theorem opposite {v v' : Bytes} (hv : v.length = 5) (hv' : v'.length = 5)
    (h : ∀ j < 40, ((bitAt v j).toNat : Int) - ((bitAt v' j).toNat : Int) = 1) :
    v = [255, 255, 255, 255, 255] ∧ v' = [0, 0, 0, 0, 0] := by
  have h2 : ∀ j < 40, bitAt v j = true ∧ bitAt v' j = false := by
    intro j hj
    have := h j hj
    cases h1 : bitAt v j <;> cases h2 : bitAt v' j <;> rw [h1, h2] at this <;> simp at this ⊢
  constructor
  · apply bits_ext hv
    rw [hv]
    intro j hj
    rw [(h2 j hj).1]
    have : ∀ j < 40, true = bitAt [255, 255, 255, 255, 255] j := by decide +kernel
    exact this j hj
  · apply bits_ext hv'
    rw [hv']
    intro j hj
    rw [(h2 j hj).2]
    have : ∀ j < 40, false = bitAt [0, 0, 0, 0, 0] j := by decide +kernel
    exact this j hj

/-- n-fold to 16 bytes is injective on 5-byte strings -/
theorem nFoldValue_injective {v v' : Bytes} (hv : v.length = 5) (hv' : v'.length = 5)
    (h : nFoldValue v 16 = nFoldValue v' 16) : v = v' := by
  have hd := onesComplement_congr h
  rw [pieces_diff hv hv', show (2 : Int) ^ 128 - 1 = 255 * modulus by decide] at hd
  have hd := Int.dvd_of_mul_dvd_mul_left (by decide : (255 : Int) ≠ 0) hd
  obtain ⟨t, ht, hj⟩ := differences_extreme _ (fun j _ => by
    cases bitAt v j <;> cases bitAt v' j <;> simp) hd
  rcases ht with rfl | rfl | rfl
  · apply bits_ext (hv.trans hv'.symm)
    rw [hv]
    intro j hj'
    have := hj j hj'
    cases h1 : bitAt v j <;> cases h2 : bitAt v' j <;> rw [h1, h2] at this <;> simp at this ⊢
  · obtain ⟨rfl, rfl⟩ := opposite hv hv' hj
    exact absurd h (by decide +kernel)
  · obtain ⟨rfl, rfl⟩ := opposite hv' hv (fun j hj' => by have := hj j hj'; omega)
    exact absurd h (by decide +kernel)

end Verif.NFoldCert
