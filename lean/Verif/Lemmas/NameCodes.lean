import Verif.Props.Abbrev
import Verif.Py.NameLit
/-!
# Names as numbers

Numbers stand for names so that the kernel can compare the functions of the table of abbreviations
with lists of names.
-/
namespace Props.CodesAux
open Model.Abbrev (Str)

/-- The number of a name. -/
def code : Str → Nat
  | [] => 0
  | c :: s => c.toNat + 1 + 2097152 * code s

theorem toNat_lt (c : Char) : c.toNat + 1 < 2097152 := by
  have : c.toNat < 1114112 := by
    have := c.valid
    simp only [UInt32.isValidChar, Nat.isValidChar] at this
    show c.val.toNat < _
    omega
  omega

theorem code_inj : ∀ {s t : Str}, code s = code t → s = t
  | [], [], _ => rfl
  | [], c :: t, h => by simp only [code] at h; omega
  | c :: s, [], h => by simp only [code] at h; omega
  | c :: s, d :: t, h => by
    simp only [code] at h
    have hc := toNat_lt c
    have hd := toNat_lt d
    have h1 : c.toNat = d.toNat := by omega
    have h2 : code s = code t := by omega
    rw [Char.toNat_inj.mp h1, code_inj h2]

theorem code_prefix : ∀ {n k : Str}, n <+: k → code k % 2097152 ^ n.length = code n
  | [], k, _ => by simp [code, Nat.mod_one]
  | c :: n, _, ⟨u, rfl⟩ => by
    have ih := code_prefix (n := n) ⟨u, rfl⟩
    simp only [List.cons_append, code, List.length_cons]
    have hc := toNat_lt c
    rw [Nat.pow_succ, Nat.mul_comm (2097152 ^ _), Nat.mod_mul]
    have h1 : (c.toNat + 1 + 2097152 * code (n ++ u)) % 2097152 = c.toNat + 1 := by omega
    have h2 : (c.toNat + 1 + 2097152 * code (n ++ u)) / 2097152 = code (n ++ u) := by omega
    rw [h1, h2, ih]

/-- The functions with their numbers. -/
def codes : List (Nat × Nat) := [
  (4, 4705521271814412634046509600473186), (4, 91018018938021753015659181868714002065516088258793962471522), (4,
  91018013325858320160037105194886849542271093401417406218338), (4,
  80033090901094704868299433129167387454769670365450965352546), (4, 4664956375236013635213362731155554), (4,
  9868193386793209748125162871719293091938), (4, 9868192737756063745645481580099058794594), (4, 2263110158113374487355326562),
  (5, 43400773317278374217806030357722604918068221948461154), (5,
  3532985971291172126376271242505821701129926436850198626820109353707366585245043129050988642), (5,
  38162748594590138664290542168249240606625081755435106), (4, 38162749308212879100389285780075419584096159540445282), (4,
  4705521001015148944192859457716322), (4, 20695101327358604865800055582645073647882993762), (4,
  40033470511967817882100263113942621230555624284094562), (4,
  839492998959770653685608302684996782932382101155127390000832121540285562880098), (4,
  43400773138872752912252484930329591633411421658677346), (4, 41904193321375134899951448961690730578638410491101282), (4,
  190878608682347808829863257161249761006032814462556616604432466018), (4, 9102557331054371816750112106454785720418), (4,
  87879462832308506905702981417425960558965263305554205343842), (4, 19981476460158889245963787574320723489177206882), (4,
  1953625065281698679155064930), (4, 190878608682350427843473442457185610506101888360338728638184685666), (4,
  2359824242129288895035080802), (4, 200751647795843043799512850847311389763470659951664878438678790242), (4,
  2243767234319027599786901602), (4, 2243767326552783152706748514), (4, 20873506948664482930206648735916882334381506658), (4,
  2243767225095677553181458530), (4, 9357769390198868143984157506571664883810), (4, 2147053159526480830940577890), (4,
  43400772425249757264743633832779086398689121285439586), (4, 2263110195006862634801692770), (4,
  91802655158368481921169514184492129763367770648140381683810), (4, 8677204859180913168182301008702243602530), (4,
  4137613706198174079981947461828706), (4, 9442839819669574474093828075278179500131), (4, 4056484087126481969221426724470883),
  (4, 43774916844405617706413817182691217902007183571157091), (4, 4097048886990796952192942470070371), (4,
  20516693919570300466872728156026491440914759779), (4, 43774915417158265282252949864765922435928574172069987), (4,
  4746086013650583423429800418607203), (4, 2224424541109100380858351715), (4,
  43774915417158265282252949864765977776160795300724835), (4, 4746085820222498401949316739498083), (4,
  9953263937958451071507991740838311886947), (4, 4664956375236068975454379961221219), (4, 4502696982349774014851600164585572),
  (4, 38162751627490379746884490611951497139116489243099236), (4, 19267852358594174679608032845427900854963273828), (4,
  8847346042641382399913988338806375317604), (4, 4867780200473155969147936970899556), (4,
  9442839657410549101423274401661857038436), (6,
  1775721522475049668258704445902709797466062027152126125837787353059693719040718536804), (4,
  4259308279877008902403410140069988), (4, 4664956104436482467592634032455780), (4, 4097048635534364822930626963308644), (4,
  21765535650688542705564480182962051854532345956), (4,
  386497964907328071006806489570650244340020650606718557580992017000824932), (4,
  1745367393404074973971745583451455178043017581773032072797208936525552821770737680484), (4,
  9102557331054371816787005629786568523876), (4, 43774917558029464059393757885919622108305379825811556), (4,
  43774916844405617706251558157318731815734721934000228), (4, 1992310663839184731473182820), (7,
  421006716387325377510003491697146822785623253508596072570659686706053220), (6,
  403752325837783746772697084131830968900686534025644731743815891922452580), (8,
  738174951934987416270156829581341270044942120164369569855908451491744841728100), (4, 4664956259179005825000446026055780), (7,
  817782016736530283563298222452286562724452778104222605772599992670688588595300), (7,
  817782016736530283563298222452286562725473625204985421162990116492983893229668), (9,
  179360083058205591656451583340797387218550946243123213340122284132), (4, 4421567189192846889937208034197604), (4,
  9868192616061548095360681103288768135269), (4, 42278339346185840623867333471180132124305439370248293), (4,
  42278339346185840623867333471180132124358215928381541), (4, 4097048712905644948387402730176613), (5,
  839493030017625923234030703355170326113643246462807791521185304927777478148197), (5,
  38162751449085098724103514005610044603080534824845413), (5, 79248447572007044886198952862642215876850540718674149376101), (5,
  80033090901098272986084997401548827254316106694145454637157), (4,
  167841556649412562502001427293299460699898952686327070059105615973), (4,
  396850599237058071133047993373897366588996857512959313571399956938358885), (4, 8677204737486571603187854966362986250341), (4,
  91802656280801025767711814728079454097096688027711012077669), (4,
  383047106543469881819474462434262574832890567756893661351848666397147237), (7,
  738174913975382508929902380349150229951009327914407416188568398111085112066149), (7,
  164550538903760876428363225090710121052780698929162314934531391589), (4,
  351989256210428854278068017384315869152849548692691384533944935343194213), (5,
  18197417439770378682399975582515692325662883941), (4, 91802658151523121551182479234242018806409429320814454374501), (4,
  8592133902367518457466078335852930400357), (4, 81602364090076287365323074413482493345305104874182801358949), (4,
  80033084540641898480434521375019260686064315698792911339621), (4, 45645639653813870500530646966769479642458631283146853), (4,
  38162748594589032747206521387009647851080974646378597), (4,
  172778070321376180629715176997441861243353895847323591724230508645), (4,
  43774916487595055658539669487963031217419465191850085), (4, 38162750913868575088755112743535059680918229710012517), (4,
  167841551941589254117879324799410203478360499641572115347648020581), (4,
  80033084540642612105642003700949356860505237231049897934950), (4, 2359824279022781440521666662), (4,
  2224424541109091584784203878), (4, 18197418035264196275507971094371826937175736422), (5,
  396850582782007790089448011551090746067098174584436817588132344053629030), (4,
  91802655158368481921169514184492129763376993949808502767718), (4, 8677205345958743655886954809684454801511), (4,
  4137613802912294989384502531326055), (4, 4746085994307834873178001361600615), (4, 8677205102569673669432871885247575228519),
  (4, 1972968016746034133899149415), (4, 4664956375236013635213362731155559), (4, 4259308260534260352160407173988455), (4,
  2243767400339728661225668711), (4, 1953625129845241364462174311), (5, 43026629076529155929763711182368162439129690758185063),
  (4, 4664956181807900943590380217040999), (4, 9272698636209047213719885049366744924263), (4, 2340481290664865479341899879),
  (4, 2089024738631775480807686247), (4, 2224424541109078390632087655), (4,
  78463811351662456854864867708628800562912431448232791375975), (4, 2147053196420026152955936871), (4,
  20873507799370400232398064870996010694030131303), (6, 39285184884960513188551698316593980909696267646402663), (4,
  1953625148292055806928486503), (4, 2243767400339799029988720743), (4, 1953625028388148959078514791), (4,
  2089024757078475574066806887), (4, 1972968072086301539431350375), (4, 1972967952182465060321362023), (4,
  18732635920028931230808114267346265657852297319), (4, 4137613822255052763012736518979687), (4,
  3246527878181761054530437553170573285063685936386032364864273404563186770567242280901541992), (4,
  20516695110558868643949829840565054913999011944), (5,
  7676206656868633613296391295785313953902899072769844398616142464042290820551579900305638418284648), (4,
  4664956259179005825009242085523560), (4, 4827215632722293980943190927081576), (4, 8677204778051274753520279155458869035112),
  (5, 167841556649412562503963892785699360981984757857874516267721818216), (5, 9953263735134548462993298633517776765032), (4,
  9953263937958644499528449617063999176808), (4, 351989228236851379814572147002239050230961971574923333269475028923056232), (4,
  3214698948217901470216881572045214427728703693560394394020928848559619678886123420566683752), (4,
  43774914881940040235232202839032031934393230301331560), (4, 4462132085771347345897944648777832), (5,
  9953263288921421125870100022646024437864), (5, 90233375608935163471625137738418136811169875341717201223784), (4,
  403752329128803846346887541108733284424047730488411190398852804428955752), (8,
  403752343938346431511305043472208230157952515858940603366362441198862440), (8,
  86310193010628124064985887289076595071220917792803288776808), (4, 4664956104436482467592634013581416), (5,
  4097048635534364822930626944434280), (4, 8932416877760628973693116382068080640104), (4, 4664956181807753369589412020617321),
  (4, 1972968007522662097042276458), (4, 43400773674091913735092662397543025272307566092746858), (4,
  80033090901094704867618868111371853447971990591175510720618), (4, 4746086091021789761870698964320362), (4,
  1934282224497682531083092074), (4, 40407615466341563088545967047432734557669528564662378), (4, 2359824140672178897469571178),
  (4, 21587130880087932906648185515833546726455640170), (4, 8677204453532837152036798976563576045674), (4,
  8336922248871194860590678143574931931242), (4, 9187628409562166120872452242917484920938), (4,
  9783122592238840410208620949060940988522), (4, 9953263532310297683999353767252751024234), (4,
  167841558218690989505808931642376460924155284091316656804995268714), (4,
  37788604532245095482026307953498243533897385988063338), (4, 18019010797617846068382700525454450934838984810), (4,
  80033090901098986609846279749193857689430028789211266547818), (4, 9783122186590861108119464684433082155114), (4,
  730937915299794947987027544141566414516229225318260305682720144362063836217450), (4,
  8677205062005241318484041417067327389802), (4, 4421567401963781918722313737470058), (4, 2147053196420026152964325482), (4,
  37788604532245095482026307953498243533950162546196586), (4, 95725842246408372801275023823723081189786267589750504292458), (4,
  1548065062326327419210953201404933507453015529238928375747157005104601429485618724970), (4,
  9783122186590725708436891257584788439146), (5, 38162751984302983488676210125638245027379905885634667), (5,
  9953264140782547108024695975912803401835), (5, 38162750378648648629575242819996015511759569498931307), (5,
  18732635920028931230808114341133272739016081515), (5, 19624664451912050934573272287202041526059270251), (4,
  18732634473829642548094441123996212277882650732), (4, 10378616328702271305469121129607694647405), (4,
  4543261898271170594981541138399341), (4, 167841555080144611545676834688563943186831215098560611902382145645), (4,
  8677204778051274753520279080692099317869), (4, 947798303746928512780468333), (4, 4583826852878221072904522395811949), (4,
  2224424448875393206462709869), (4, 2127710420199689029683249261), (4, 8677205102569673669423648504414665179245), (4,
  6808462146326300615986305152021187243586840529573201043374529435547205835525587379497361758748782), (4,
  2147053362440718418272321646), (4, 20695100221441277456258314739318732160227082350), (4, 4948910167715548692512723838173294),
  (4, 8677204575227023974618568075533059358830), (8, 94941205651916154303539226590822598448305371250262190063726), (4,
  4137613822255163443459586560884846), (4, 1972967961405837097159360622), (4, 2030996456087593508912758894), (4,
  4664956104436482467553051622244462), (4, 4097048635534364822891044553097326), (4, 10208475550889858747023705190167721541742),
  (3, 43774914881940040235232202839032031934406424440864879), (4, 38162752697926829841412761681508905801929250633154671), (4,
  9187627963349425639919296641391606628463), (4, 192524120301405848171992018318840914211386052235652958568107212912), (4,
  4705521252471783987613597482090608), (4, 4421567189192846889875635364167792), (4, 2224424448875309643585290352), (4,
  91018018189733271515436122911527268258557620143724733399153), (4, 9953263735134355034926723919098031374449), (4,
  4746085994307834873178001361600625), (4, 43400773674091913735092662397543025272342750448058481), (4,
  2185738970221646876222947441), (4, 10378616856044727572216850163329862205553), (4,
  190878621236554272758042821147664634160891732807358091145783541873), (4, 4664956104436482467561847715266673), (4,
  4097048635534364822899840646119537), (4, 9357769065680314485437526900130684338289), (4, 4746086032993387313869840145449073),
  (4, 4664956181807864050115426956345457), (4, 9527910451964802382451909873115842216049), (4,
  8677204778051274753520279155458902589553), (4, 9783122186590803079707793249964753158258), (4,
  91802654410078929984241149532315272348489399734870302785651), (4, 8677204859180913168182301083468994445427), (4,
  20873506948665131967352651197151333123885105267), (4, 2166396092544151376818602099), (4,
  8677205345958743655886954787694226440307), (4, 8932416837195635681099421112896638156915), (4,
  19803071264205767009059778992940154738194776179), (4,
  1851607134632697419177573175732638765218086017117324554244294260185533467491683008627), (4,
  38162751627490379746843925792744267585253685680144499), (4, 10378616856044804943543092511076226433139), (4,
  38162750378648988911698774785187210276330630190989427), (4, 2263110102773107081860874355), (4, 2089024738631775480807686259),
  (4, 1953625148292055806928486515), (4, 2127710420199689029683249267), (5,
  40781759885498104094219825354455134554265833275654260), (6, 91018016693157022136369311506519065595687161484124706832500), (6,
  43774915952376490329557650218751805592616371367182452), (6, 91802650294490319259737967501980472786223299201223698153588), (4,
  846729997635359860114993790738663950354294084414247406081940258604710933561460), (4,
  8507063310637361212852690020262194708596), (4, 88664103916532328036024626123752356444751400830175440535668), (4,
  16378140102137927070317246231584575909459840720093643438851909513482474556102735271200630781857679540340), (4,
  1760544530309595663765511102429972718201929590772490219518059489232254357102170996852), (4,
  80033090152805866554536856074052481138134318485411266035828), (4,
  177714570654498611056985776825908712370178271318752463513601441908), (5,
  88664103916532328036024626123752356444862081294617697845364), (5,
  7809705782956088576468108287613189654092712741221424439666212168788139802906692867053671176732788), (4,
  43400770819595847758479622855738023025505878371467380), (4,
  167841555080144611545676834688563943186831215107784076298184294516), (4, 4137613686855324072642141025730676), (4,
  2243767326552796346844184692), (4, 9868192737756102431363942942212915986548), (4, 4746085781536743047037482801561716), (4,
  167841556649412562503963892785699360981984757857874516267721818228), (4,
  403752329128803846346887541108733284424047730488411190398852804428955764), (4, 4664956104436482467575041840119924), (4,
  4097048635534364822913034770972788), (4, 10293545736971901289856140415857179230324), (4, 1972967859948709507393126516), (4,
  2243767428009888752278175860), (4, 91802650294489605636231897132349971435858465425517443022964), (5,
  38162750200243367605739581185064087377506588076015732), (4, 10123404918595017694697315812327034978420), (5,
  9442839657410549101423274401661882204276), (4, 1992310700732747645691363444), (4, 4664956471950088427685364851802228), (4,
  37414460826712826182777818540872955590678791105544308), (6,
  192524123439956715867651677141889276982391345271467913661525262453), (6,
  167841556649412562501109397145076355630955462841782299216389865589), (4, 20873506948665131967352651197151350716062761077),
  (4, 2166396092544168968996257909), (4, 4746085820222387721476078372388981), (4,
  38162749308214325299799662777285219495949209469714549), (4, 41155906623933336735241020001247904265823717121065077), (4,
  19446258490323887078808601690321875202817917045), (4, 18732635920029052925130336587029098463573835893), (4,
  400301480637973001077064014323362700236161791649202684072137802072981622), (4, 2224424448875362420139229302), (4,
  8677204940310861067872591091825469554807), (4, 9442840225317843918342798393546874290295), (4,
  38162750200242772111394645369345100515030022083313784), (4, 9783122186590493594697971966468639686776), (4,
  4097048848305244511448327146963064), (4, 2243767326552796346844184696), (4, 4746086091021789761923475503579256), (4,
  2263110158113374487355326584), (4, 2263110204230173098990633080), (4, 2108367662426021213302161528), (4,
  2321138606678261918748115064), (4, 19624665813041234664399246923069604306226249848), (4,
  19624665813041234664399246830835919122050580600), (4, 4583826736821425400244055270490232), (4,
  9953264019088302257058925615760124412024), (4, 9953263735134355034972840673729220444280), (4, 2243767428009888752278175864),
  (4, 4137613667512649309393025134231672), (4, 18197417354699502998218137778161090608953819256), (4,
  189233111971406391034491023809188263547121452183746233807673491577), (4,
  796070951692309069380370405655392916941717419374881939505436308751194544668793)]

theorem codes_eq : functions.map (fun e => (e.1, code e.2)) = codes := by decide +kernel

theorem mem_functions {n : Str} (h : code n ∈ codes.map Prod.snd) : n ∈ functions.map Prod.snd := by
  rw [← codes_eq, List.map_map] at h
  obtain ⟨e, he, h⟩ := List.mem_map.mp h
  exact List.mem_map.mpr ⟨e, he, code_inj h⟩

theorem not_mem_functions {n : Str} (h : code n ∉ codes.map Prod.snd) : n ∉ functions.map Prod.snd := by
  intro hn
  obtain ⟨e, he, rfl⟩ := List.mem_map.mp hn
  apply h
  rw [← codes_eq, List.map_map]
  exact List.mem_map.mpr ⟨e, he, rfl⟩

/-- `n` is too short for an abbreviation or no beginning, for every function. -/
def noAbbreviation (n : Str) : Bool := codes.all fun e => n.length < e.1 || e.2 % 2097152 ^ n.length != code n

theorem noAbbreviation_spec {n : Str} (h : noAbbreviation n = true) : ∀ e ∈ functions, ¬ Abbreviates e.1 e.2 n := by
  intro e he ⟨h1, h2⟩
  have hm : (e.1, code e.2) ∈ codes := by rw [← codes_eq]; exact List.mem_map.mpr ⟨e, he, rfl⟩
  have := List.all_eq_true.mp h _ hm
  simp only [Bool.or_eq_true, decide_eq_true_eq, bne_iff_ne, ne_eq] at this
  rcases this with h | h
  · omega
  · exact h (code_prefix h1)

/-- Membership in a list of names. -/
def isIn (n : Str) (l : List Str) : Bool := (l.map code).contains (code n)

theorem isIn_iff {n : Str} {l : List Str} : isIn n l = true ↔ n ∈ l := by
  simp only [isIn, List.contains_iff_mem, List.mem_map]
  exact ⟨fun ⟨m, hm, h⟩ => code_inj h ▸ hm, fun h => ⟨n, h, rfl⟩⟩

end Props.CodesAux
