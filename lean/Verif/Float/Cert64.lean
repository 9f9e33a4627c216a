/-!
# Certificates for the `double` tables

For every exponent one pair of denominators of two neighbouring fractions; see `Verif.Float.RtCheck`.  The numbers
carry no meaning of their own: `RtCheck` checks them.
-/
namespace Verif.Float

/-- Part 0: one pair of denominators per exponent, smallest exponent first. -/
def certs64_0 : List (Nat × Nat) := [
  (14320598713610536, 10435797644015877), (17596097000821145, 10435797644015877), (11045100426399927, 13711295931226486),
  (17900748392013170, 6855647965613243), (15806022161619828, 6855647965613243), (11045100426399927, 11616569700833144),
  (16853385276816499, 5808284850416572), (16853385276816499, 2904142425208286), (8140958001191641, 14520712126041430),
  (15401314064212356, 7260356063020715), (7700657032106178, 14961013095126893), (440300969085463, 17809139613514129),
  (440300969085463, 17930739673009056), (9845971774675454, 9405670805589991), (14328656692927718, 9405670805589991),
  (15649559600184107, 4482684918252264), (17890902059310239, 2241342459126132), (17890902059310239, 1120671229563066),
  (16770230829747173, 5603356147815330), (16770230829747173, 2801678073907665), (15389310599642749, 2801678073907665),
  (4182598304012089, 14008390369538325), (9095494336775207, 14008390369538325), (9095494336775207, 11551942353156766),
  (9095494336775207, 14871465513353590), (12415017496972031, 8232419192959942), (16531227093452002, 4116209596479971),
  (8265613546726001, 12381823143205972), (16630810154750179, 4116209596479971), (14489719472095046, 4116209596479971),
  (7244859736047523, 11361069332527494), (17618369611662598, 987559456912419), (8809184805831299, 9796744262743718),
  (13707556937203158, 4898372131371859), (11752150599973438, 16650522731345297), (15662963274432878, 2942965794142139),
  (7831481637216439, 10774447431358578), (13218705352895728, 5387223715679289), (17608513323365039, 5387223715679289),
  (16885092235201453, 5387223715679289), (16523381691119660, 5387223715679289), (5748934259761082, 15438250058874281),
  (2874467129880541, 15438250058874281), (17779759984019034, 14905292854138493), (8889879992009517, 14905292854138493),
  (14638814251770599, 14905292854138493), (14772053552954546, 14905292854138493), (7386026776477273, 14905292854138493),
  (7386026776477273, 15438250058874281), (7386026776477273, 11412138417675777), (7386026776477273, 16785109373553798),
  (7386026776477273, 17451305879473533), (7386026776477273, 12418666327975403), (7386026776477273, 17288373328703611),
  (7386026776477273, 12337200052590442), (17125440777933689, 4951173276113169), (15989480303136598, 4951173276113169),
  (12945913427681468, 17897086703794637), (15217834377275650, 4951173276113169), (17511263740864163, 4951173276113169),
  (16182391784601835, 4951173276113169), (11231218508488666, 13524647872077179), (5615609254244333, 13524647872077179),
  (5615609254244333, 15185737817405089), (5615609254244333, 16016282790069044), (13722853426480531, 4785064281580378),
  (16115385567270720, 2392532140790189), (17627821346796116, 2392532140790189), (15235289206005927, 11962660703950945),
  (15235289206005927, 13598974954978436), (15235289206005927, 6799487477489218), (8435801728516709, 17125833930412672),
  (8435801728516709, 16998718693723045), (12717260211119877, 16998718693723045), (12717260211119877, 14857989452421461),
  (4154343245913541, 14857989452421461), (9506166349167501, 14857989452421461), (12182077900794481, 14857989452421461),
  (16336421146708022, 14857989452421461), (8168210573354011, 14857989452421461), (11513100012887736, 14857989452421461),
  (8168210573354011, 16724447197668625), (8168210573354011, 12446328885511318), (14391375016109670, 6223164442755659),
  (7195687508054835, 13418851950810494), (17308944212007198, 6223164442755659), (14877636548759258, 6223164442755659),
  (7438818274379629, 13661982717135288), (9870125937627569, 13661982717135288), (16701117296195213, 6830991358567644),
  (16701117296195213, 3415495679283822), (6454630258343747, 17077478396419110), (14993369456553302, 8538739198209555),
  (16035423926486206, 8538739198209555), (16556451161452658, 8538739198209555), (15514396691519754, 9059766433176007),
  (16816964778935884, 9059766433176007), (8408482389467942, 17468248822643949), (16165680735227819, 9711050476884072),
  (16165680735227819, 4855525238442036), (16165680735227819, 2427762619221018), (16165680735227819, 12138813096105090),
  (16165680735227819, 6069406548052545), (16165680735227819, 11117543641640182), (14123141826298003, 11117543641640182),
  (14123141826298003, 5558771820820091), (15399728644379138, 5558771820820091), (13258636143009660, 5558771820820091),
  (2141092501369478, 17088396597253065), (1070546250684739, 17088396597253065), (14432202677392597, 13361656426707858),
  (14432202677392597, 9079471423968902), (14432202677392597, 4539735711984451), (14432202677392597, 9485969194688524),
  (15245198218831841, 9485969194688524), (15245198218831841, 4742984597344262), (17616690517503972, 2371492298672131),
  (15922822154768379, 2371492298672131), (17955311008366489, 2371492298672131), (17277878549535703, 2371492298672131),
  (16939162320120310, 2371492298672131), (9824685424103917, 11857461493360655), (10841073458732286, 11857461493360655),
  (5420536729366143, 17277998222726798), (4404148694737774, 13890237562617393), (2202074347368887, 16092311909986280),
  (12450304649730914, 10248230302362027), (16473382627227484, 10248230302362027), (6225152324865457, 13890237562617393),
  (6225152324865457, 16282847268606882), (6225152324865457, 14366575959168898), (4308881015427473, 13890237562617393),
  (13408440304449906, 9099559289022433), (6704220152224953, 15803779441247386), (4308881015427473, 16285576699414873),
  (4308881015427473, 14606109872848646), (11611935951851796, 7303054936424323), (13109022912350221, 7303054936424323),
  (13109022912350221, 10297228857421173), (13109022912350221, 11703125884885697), (13109022912350221, 12406074398617959),
  (13811971426082483, 10297228857421173), (13811971426082483, 12054600141751828), (13811971426082483, 6027300070875914),
  (17326713994743793, 4269928786545259), (10798321390644526, 15068250177189785), (5399160695322263, 15068250177189785),
  (15632866131578287, 10233705436256024), (16762098040355291, 10233705436256024), (16762098040355291, 5116852718128012),
  (16762098040355291, 2558426359064006), (11645245322227279, 12792131795320030), (11645245322227279, 6396065897660015),
  (15416721507603662, 6396065897660015), (16894424746794543, 3771476185376383), (14104426651461846, 17875902836838229),
  (7052213325730923, 17875902836838229), (7052213325730923, 12464058081284576), (15744795221639116, 3771476185376383),
  (7872397610819558, 11643873796195941), (3936198805409779, 15580072601605720), (15909517841672512, 3771476185376383),
  (11726235106212639, 15497711291589022), (11726235106212639, 7748855645794511), (16115421116714257, 3771476185376383),
  (13714924836421703, 17486401021798086), (13714924836421703, 8743200510899043), (11229062673660373, 8743200510899043),
  (13714924836421703, 15000538859036756), (13714924836421703, 7500269429518378), (17465059551180892, 3750134714759189),
  (2464520692144136, 16286152881651809), (1232260346072068, 17518413227723877), (616130173036034, 17518413227723877),
  (3080650865180170, 16902283054687843), (1540325432590085, 16902283054687843), (10761629676229049, 9221304243638964),
  (10761629676229049, 15372281798048531), (7691302986999652, 15372281798048531), (3845651493499826, 15372281798048531),
  (17295107544798444, 15372281798048531), (9614128733749565, 9603804557798792), (14416031012648961, 4801902278899396),
  (16816982152098659, 2400951139449698), (14416031012648961, 12004755697248490), (14416031012648961, 6002377848624245),
  (10209204430636603, 16211582279260848), (10209204430636603, 8105791139630424), (14416031012648961, 3898964557618066),
  (16365513291457994, 1949482278809033), (8182756645728997, 10132238924538030), (4283792088110931, 14031203482156096),
  (11299393829188979, 7015601741078048), (14807194699728003, 3507800870539024), (4283792088110931, 17539004352695120),
  (13053294264458491, 8769502176347560), (13053294264458491, 17438045352632271), (15245669808545381, 17438045352632271),
  (13053294264458491, 10961877720434450), (13053294264458491, 5480938860217225), (13053294264458491, 9267116562337858),
  (9663771948265307, 9267116562337858), (14297330229434236, 4633558281168929), (16415781677054976, 4633558281168929),
  (7148665114717118, 16019126291127527), (3574332557358559, 16019126291127527), (13371061981601602, 9796729424243043),
  (13371061981601602, 8870461176410409), (6685530990800801, 15555992167211210), (6685530990800801, 14463527074406406),
  (6685530990800801, 13917294528004004), (6685530990800801, 16102224713613612), (6685530990800801, 14736643347607607),
  (6685530990800801, 17396618160005005), (6685530990800801, 13442249901216214), (6685530990800801, 13406655941408908),
  (6685530990800801, 13388858961505255), (17997673377536854, 17796979903653), (16704928987050176, 16722725966953829),
  (8352464493525088, 16722725966953829), (4176232246762544, 16722725966953829), (4176232246762544, 16793913886568441),
  (2088116123381272, 16793913886568441), (1044058061690636, 17837971948259077), (5220290308453180, 17837971948259077),
  (2610145154226590, 17837971948259077), (1305072577113295, 17837971948259077), (6525362885566475, 12617681639805897),
  (6525362885566475, 16096885148252661), (6525362885566475, 17836486902476043), (6525362885566475, 12180924894021259),
  (13920526648244641, 4785761131343093), (9353143889793867, 14138905021136960), (9353143889793867, 16422596400362347),
  (16204218027470028, 4785761131343093), (8102109013735014, 12887870145078107), (16938924651945614, 12887870145078107),
  (16938924651945614, 13622576769553693), (8469462325972807, 13622576769553693), (8469462325972807, 11046019547763250),
  (8469462325972807, 13992472099854432), (8469462325972807, 10676124217462511), (8469462325972807, 9572793271717659),
  (8469462325972807, 17490590124818040), (16387259179073188, 9572793271717659), (8193629589536594, 17766422861254253),
  (4096814794768297, 17766422861254253), (6814465907355529, 13669608066485956), (13649269940598507, 6834804033242978),
  (17066671957219996, 3417402016621489), (15368140011852976, 3417402016621489), (5115933961988509, 17087010083107445),
  (16217405984536486, 11101472022547977), (8108702992268243, 11101472022547977), (5115933961988509, 14963845151398670),
  (17713790499676353, 12597856537687844)]

/-- Part 1: one pair of denominators per exponent, smallest exponent first. -/
def certs64_1 : List (Nat × Nat) := [
  (17713790499676353, 6298928268843922), (5115933961988509, 16146839458254083), (5115933961988509, 15747320672109805),
  (10431627317049157, 15747320672109805), (10431627317049157, 13089473994579481), (12889714601507342, 13089473994579481),
  (6444857300753671, 13089473994579481), (9767165647666576, 13089473994579481), (9567406254594437, 13089473994579481),
  (11328440124586959, 13089473994579481), (12208957059583220, 13089473994579481), (10447923189590698, 14850507864572003),
  (5223961594795349, 14850507864572003), (15261196324479025, 10037234729683676), (15261196324479025, 5018617364841838),
  (16082573244293069, 5018617364841838), (16082573244293069, 2509308682420919), (16823867010619751, 2509308682420919),
  (16368000627733942, 2509308682420919), (15711926361129728, 2509308682420919), (17893197910248540, 2509308682420919),
  (15383889227827621, 12546543412104595), (13965216319966108, 12546543412104595), (6982608159983054, 12546543412104595),
  (3491304079991527, 16037847492096122), (17456520399957635, 16037847492096122), (17456520399957635, 8018923746048061),
  (12737722073002848, 8018923746048061), (4718798326954787, 16500627095466370), (4718798326954787, 17687910201642759),
  (11203354264298773, 17687910201642759), (16530961193217139, 1765757610389199), (12679874622581567, 14445632232970766),
  (12679874622581567, 7222816116485383), (17174161486018858, 7222816116485383), (13642646265240460, 7222816116485383),
  (14044139249105613, 7222816116485383), (17856293799280881, 7222816116485383), (14044139249105613, 11034970666660651),
  (12539554957883132, 11034970666660651), (6269777478941566, 17304748145602217), (1504584291222481, 17807628773705501),
  (15674443697353915, 14169859406131434), (15674443697353915, 7084929703065717), (10094098285510679, 12665275114908953),
  (10094098285510679, 11379686700209816), (15783941635615587, 5689843350104908), (15783941635615587, 2844921675052454),
  (10094098285510679, 14224608375262270), (17206402473141814, 7112304187631135), (15715505424202042, 7112304187631135),
  (13075892383390223, 5621407138691363), (14970056899732156, 5621407138691363), (7485028449866078, 13106435588557441),
  (14939513694564938, 5621407138691363), (13091163985973832, 5621407138691363), (6545581992986916, 12166989131678279),
  (15439780128171737, 12166989131678279), (16363954982467290, 12166989131678279), (8181977491233645, 12166989131678279),
  (10174483311455962, 12166989131678279), (6189471671011328, 16152000772122913), (3094735835505664, 16152000772122913),
  (1547367917752832, 17699368689875745), (7736839588764160, 16152000772122913), (3868419794382080, 16152000772122913),
  (1934209897191040, 16152000772122913), (967104948595520, 17119105720718433), (4835524742977600, 17119105720718433),
  (2417762371488800, 17119105720718433), (1208881185744400, 17119105720718433), (6044405928722000, 13492462163485233),
  (3022202964361000, 16514665127846233), (1511101482180500, 16514665127846233), (7555507410902500, 11981360681304733),
  (3777753705451250, 15759114386755983), (1888876852725625, 17647991239481608), (12601749325192054, 10712872472466429),
  (9444384263628125, 10712872472466429), (10078628368047277, 10712872472466429), (10395750420256853, 10712872472466429),
  (10078628368047277, 11664238629095157), (10078628368047277, 10871433498571217), (10475030933309247, 10871433498571217),
  (10078628368047277, 12060641194357127), (10078628368047277, 11069634781202202), (15613445758648378, 5534817390601101),
  (13341540269925290, 5534817390601101), (7806722879324189, 12060641194357127), (7806722879324189, 17740404916164847),
  (7806722879324189, 12773563897744518), (14199409304519300, 4966841018420329), (17033386689100308, 4966841018420329),
  (13483534362970483, 4966841018420329), (13483534362970483, 11350670729131162), (13483534362970483, 5675335364565581),
  (13483534362970483, 9579434863768032), (13483534362970483, 4789717431884016), (13483534362970483, 10465052796449597),
  (13483534362970483, 11974293579710040), (13483534362970483, 5987146789855020), (7496387573115463, 14942958803044174),
  (7496387573115463, 14967866974637550), (14980321060434238, 7483933487318775), (15005229232027614, 7471479401522087),
  (7502614616013807, 14974094017535894), (14989661624781754, 7487047008767947), (14981877821158824, 7487047008767947),
  (14997445428404684, 7479263205145017), (7498722714202342, 14977985919347359), (3749361357101171, 14977985919347359),
  (15016904937462009, 3729901848043846), (16881855861483932, 1864950924021923), (10305878854763889, 12170829778785812),
  (17960277641424831, 1864950924021923), (17372417978811069, 1864950924021923), (13348586299460342, 15213537223482265),
  (6674293149730171, 15213537223482265), (16586907432453548, 1864950924021923), (17618208336336389, 1864950924021923),
  (17618208336336389, 9741579630179156), (17003732442523089, 1864950924021923), (16894145379360198, 1864950924021923),
  (10312023613702022, 12176974537723945), (4717170841636253, 14041925461745868), (11738133572509187, 7020962730872934),
  (15248614937945654, 3510481365436467), (14645270199845761, 3510481365436467), (603344738099893, 17552406827182335),
  (9077875782641114, 17552406827182335), (4538937891320557, 17552406827182335), (9681220520741007, 13013468935861778),
  (16187954988671896, 6506734467930889), (8093977494335948, 14600711962266837), (8093977494335948, 16345717350982549),
  (4046988747167974, 16345717350982549), (2023494373583987, 16345717350982549), (2023494373583987, 17278583356619216),
  (10117471867919935, 9184605862283268), (10117471867919935, 14709774799061569), (12413623333490752, 14709774799061569),
  (16145087356037420, 2296151465570817), (17257149540301978, 2296151465570817), (15517029166863440, 17813180632434257),
  (10924726235721806, 11480757327854085), (5462363117860903, 16943120445714988), (5462363117860903, 13933923340718397),
  (10368695143589527, 8471560222857494), (14604475255018274, 4235780111428747), (15773797850366631, 4235780111428747),
  (10004788980897689, 14240569092326436), (16137704013058469, 4235780111428747), (14422522173672355, 4235780111428747),
  (13564931253979298, 17800711365408045), (5093371031121804, 16085529526021931), (2546685515560902, 16085529526021931),
  (1273342757780451, 17358872283802382), (6366713788902255, 16085529526021931), (17592835446364348, 11226121657462093),
  (8796417723182174, 11226121657462093), (4398208861591087, 15624330519053180), (1968504927311168, 16085529526021931),
  (984252463655584, 17069781989677515), (492126231827792, 17561908221505307), (2460631159138960, 16577655757849723),
  (1230315579569480, 17807971337419203), (615157789784740, 17807971337419203), (3075788948923700, 16577655757849723),
  (1537894474461850, 16577655757849723), (768947237230925, 17346602995080648), (10980143209233099, 10211195972002174),
  (14055932158156799, 10211195972002174), (14055932158156799, 5105597986001087), (14686363058080030, 5105597986001087),
  (17962819130926663, 630430899923231), (12448779515041102, 13079210414964333), (6224389757520551, 13079210414964333),
  (17412307472715191, 6854820657443782), (17412307472715191, 3427410328721891), (17274679558162323, 3427410328721891),
  (17274679558162323, 10351044943442107), (6923634614720216, 17137051643609455), (3461817307360108, 17137051643609455),
  (1730908653680054, 17137051643609455), (8654543268400270, 10213417028889239), (4327271634200135, 14540688663089374),
  (4327271634200135, 15924887599944957), (15750212776311571, 2943072697344552), (17221749124983847, 1471536348672276),
  (17957517299319985, 735768174336138), (17957517299319985, 367884087168069), (17221749124983847, 1839420435840345),
  (11370005216252441, 13209425652092786), (11370005216252441, 17974718042298834), (17221749124983847, 6604712826046393),
  (11913230975515120, 6604712826046393), (12561328313803953, 6604712826046393), (17469228011299973, 648097338288833),
  (15539636057682733, 16187733395971566), (15539636057682733, 8093866697985783), (11816751377834258, 8093866697985783),
  (10520556701256592, 8093866697985783), (13354145048614079, 8093866697985783), (10724005873299931, 8093866697985783),
  (13354145048614079, 13557594220657418), (13354145048614079, 6778797110328709), (10066471079471394, 16845268189800103),
  (16641819017756764, 16845268189800103), (8320909508878382, 16845268189800103), (4160454754439191, 16845268189800103),
  (10502861472119647, 16845268189800103), (10502861472119647, 10706310644162986), (10502861472119647, 15856016794201140),
  (10502861472119647, 7928008397100570), (12874265375095385, 5353155322081493), (14466865670669932, 5353155322081493),
  (7233432835334966, 12586588157416459), (10993987861841912, 12586588157416459), (5496993930920956, 12586588157416459),
  (2748496965460478, 15335085122876937), (1374248482730239, 16709333605607176), (6871242413651195, 16709333605607176),
  (15225909216454783, 8354666802803588), (15225909216454783, 4177333401401794), (17646878462648799, 4177333401401794),
  (17646878462648799, 2088666700700897), (16133772683777539, 2088666700700897), (9867772581674848, 10443333503504485),
  (15377219794341909, 10443333503504485), (12910276648923197, 10443333503504485), (11676805076213841, 10443333503504485),
  (11676805076213841, 17186252288880902), (11676805076213841, 8593126144440451), (11676805076213841, 10134965610327146),
  (14760484007987231, 7051286678553756), (14760484007987231, 3525643339276878), (16523305677625670, 1762821669638439),
  (11234840668710353, 8814108348192195), (10024474508451274, 8814108348192195), (5012237254225637, 13826345602417832),
  (17457444083195069, 3801871093966558), (17457444083195069, 1900935546983279), (11580125362072453, 13481060909055732),
  (11580125362072453, 6740530454527866), (11580125362072453, 10542401548494424), (11580125362072453, 16851326136319665),
  (14215725749196059, 16851326136319665), (14215725749196059, 13178001935618030), (14215725749196059, 6589000967809015),
  (14215725749196059, 10402363358502537), (3813362390693522, 17691555276270987), (1906681195346761, 17691555276270987),
  (1906681195346761, 17425843017195918), (1906681195346761, 16339646289985003), (9533405976733805, 12526283899291481),
  (11029844938012643, 12526283899291481)]

/-- Part 2: one pair of denominators per exponent, smallest exponent first. -/
def certs64_2 : List (Nat × Nat) := [
  (11029844938012643, 11778064418652062), (8785186496094386, 12526283899291481), (16918877147338674, 12526283899291481),
  (8459438573669337, 12526283899291481), (17244625069763723, 12526283899291481), (14885454484527602, 12526283899291481),
  (7442727242263801, 12526283899291481), (17427232813041442, 9984505570777641), (7442727242263801, 12708891642569200),
  (7442727242263801, 13797173063548401), (7442727242263801, 10619950152906101), (11708231573885302, 13797173063548401),
  (5854115786942651, 13797173063548401), (15679760212188177, 9825644425245526), (7736702935582427, 13797173063548401),
  (10766937999565414, 13797173063548401), (5383468999782707, 13797173063548401), (14973790031448261, 9590321031665554),
  (6560085967682567, 13797173063548401), (10178629515615484, 13797173063548401), (5089314757807742, 13797173063548401),
  (11649400725490309, 13797173063548401), (12723286894519355, 13797173063548401), (12723286894519355, 13260229979033878),
  (10575514556461263, 13260229979033878), (17205629545978202, 6630114989516939), (15232929762506040, 6630114989516939),
  (14246579870769959, 6630114989516939), (16219279654242121, 5643765097780858), (16219279654242121, 2821882548890429),
  (12342463650456704, 15164346199347133), (3876816003785417, 17986228748237562), (12869930377904198, 8993114374118781),
  (15428079563070880, 8993114374118781), (3876816003785417, 16667561929618827), (14149004970487539, 10272188966702122),
  (14149004970487539, 5136094483351061), (9642549726919300, 14778644210270361), (14149004970487539, 5765733723133883),
  (14149004970487539, 9957369346810711), (12053187158649125, 9957369346810711), (14149004970487539, 17818920881783008),
  (14149004970487539, 8909460440891504), (14149004970487539, 4454730220445752), (784814309150283, 17564765247327062),
  (11921639860264663, 11136825551114380), (17490052635821853, 5568412775557190), (17490052635821853, 2784206387778595),
  (6353227084707473, 13921031938892975), (10137129511800224, 13921031938892975), (5068564755900112, 13921031938892975),
  (6353227084707473, 12636369610085614), (12671411889750280, 6318184805042807), (6335705944875140, 12653890749917947),
  (6353227084707473, 12618848470253281), (15839264862187850, 9486037777480377), (7919632431093925, 17405670208574302),
  (7919632431093925, 16622467535381076), (15056062188994624, 9486037777480377), (7528031094497312, 17014068871977689),
  (3764015547248656, 17014068871977689), (1806008864265591, 17014068871977689), (9410038868121640, 17014068871977689),
  (4705019434060820, 17014068871977689), (15921067166448051, 7604030003856049), (11762548585152050, 7604030003856049),
  (5881274292576025, 13485304296432074), (5881274292576025, 12623926440792062), (15921067166448051, 6742652148216037),
  (11331859657332044, 6742652148216037), (12408581976882059, 6742652148216037), (10255137337782029, 7819374467766052),
  (14164824571665055, 3909687233883026), (16119668188606568, 1954843616941513), (8300293720840516, 9774218084707565),
  (4150146860420258, 13924364945127823), (15999438375337952, 13924364945127823), (10375367151050645, 7699144654497436),
  (14224939478299363, 3849572327248718), (16149725641923722, 1924786163624359), (9999648984586220, 11924435148210579),
  (4225290493713143, 13849221311834938), (11149901149630612, 6924610655917469), (12499561230732775, 6924610655917469),
  (9800241068528449, 8274270737019632), (13937376437038265, 4137135368509816), (16005944121293173, 2068567684254908),
  (7731673384273541, 10342838421274540), (12903092594910811, 5171419210637270), (15488802200229446, 2585709605318635),
  (10330110705433358, 12915820310751993), (2572981889477453, 15501529916070628), (10323746847512767, 7750764958035314),
  (14199129326530424, 3875382479017657), (2572981889477453, 16803930505610832), (10974947142282869, 8401965252805416),
  (10974947142282869, 15175929768685577), (2572981889477453, 15858949353058634), (15648420344961676, 13075438455484223),
  (7824210172480838, 13075438455484223), (16987543541724642, 13075438455484223), (6485086975717872, 13075438455484223),
  (16317981943343159, 13075438455484223), (14696710199413691, 13075438455484223), (17939253687272627, 9832894967625287),
  (13886074327448957, 9832894967625287), (13886074327448957, 11859484647537122), (10132948399559175, 11859484647537122),
  (16062690723327736, 5929742323768561), (13961087685432429, 5929742323768561), (15875157328369056, 5929742323768561),
  (15875157328369056, 13773554290473749), (7937578664184528, 13773554290473749), (3968789332092264, 17742343622566013),
  (14007971034172099, 5835975626289221), (9921973330230660, 15757948956519881), (4960986665115330, 15757948956519881),
  (17805021636185522, 874988961173891), (12402466662788325, 13277455623962216), (12402466662788325, 6638727811981108),
  (12402466662788325, 15721830568778879), (9083102756797771, 16596819529952770), (9083102756797771, 17381512521774156),
  (17773859017684849, 8690756260887078), (392346495910693, 17951259070240345), (392346495910693, 17803425693110765),
  (11059618574064194, 10667272078153501), (12236658061796273, 10274925582242808), (17374120852917677, 5137462791121404),
  (17374120852917677, 2568731395560702), (17374120852917677, 1284365697780351), (16089755155137326, 6421828488901755),
  (14466706066470418, 6421828488901755), (7233353033235209, 13655181522136964), (8856402121902117, 13655181522136964),
  (15683992882970599, 6827590761068482), (15683992882970599, 3413795380534241), (15683992882970599, 17068976902671205),
  (16376484892820902, 17068976902671205), (8188242446410451, 17068976902671205), (8188242446410451, 12628609674540828),
  (15683992882970599, 12628609674540828), (15683992882970599, 6314304837270414), (15683992882970599, 3157152418635207),
  (6212535627064978, 15785762093176035), (3106267813532489, 15785762093176035), (9446014953354262, 15785762093176035),
  (15531339067662445, 6339747139821773), (17275290243563882, 6339747139821773), (8637645121781941, 14977392261603714),
  (16126341252583798, 7488696130801857), (12084492094722193, 6339747139821773), (15551866757093756, 6339747139821773),
  (7775933378546878, 14115680518368651), (10648305855997088, 14115680518368651), (5324152927998544, 14115680518368651),
  (2662076463999272, 16777756982367923), (13310382319996360, 8791527590370107), (6655191159998180, 15446718750368287),
  (3327595579999090, 15446718750368287), (1663797789999545, 17110516540367832), (8318988949997725, 10455325380369652),
  (13546651640182551, 5227662690184826), (16160482985274964, 2613831345092413), (16160482985274964, 13069156725462065),
  (8080241492637482, 13069156725462065), (4040120746318741, 17109277471780806), (15211688498769122, 4988915232824583),
  (7605844249384561, 12594759482209144), (13903223990489133, 6297379741104572), (17051913861041419, 3148689870552286),
  (10754534119936847, 15743449352761430), (10754534119936847, 7871724676380715), (9313129398158781, 17184854074539496),
  (12195938841714913, 17184854074539496), (12195938841714913, 8592427037269748), (16492152360349787, 4296213518634874),
  (7899725323080039, 13581342270094331), (7899725323080039, 10740533796587185), (9320129559833612, 10740533796587185),
  (17219854882913651, 12160938033340758), (17219854882913651, 6080469016670379), (17730630966462394, 6080469016670379),
  (8865315483231197, 14945784499901576), (13924232332804090, 6080469016670379), (13042585183072424, 6080469016670379),
  (12601761608206591, 6080469016670379), (14365055907669923, 6080469016670379), (16303231478840530, 6080469016670379),
  (14232084756090644, 6080469016670379), (14232084756090644, 16170260327261251), (7116042378045322, 16170260327261251),
  (3558021189022661, 16170260327261251), (3558021189022661, 16980183136187278), (17790105945113305, 13422161947164617),
  (17790105945113305, 15606133946138961), (16698119945626133, 15606133946138961), (5459929997435860, 15606133946138961),
  (2729964998717930, 15606133946138961), (16971116445497926, 15606133946138961), (6824912496794825, 14241151446779996),
  (13945488220184823, 7120575723389998), (17505776081879822, 3560287861694999), (15873463764329909, 3560287861694999),
  (5192600179244912, 17801439308474995), (2596300089622456, 17801439308474995), (1298150044811228, 17801439308474995),
  (1298150044811228, 17608944077757435), (649075022405614, 17608944077757435), (324537511202807, 17933481588960242),
  (1622687556014035, 16635331544149014), (1622687556014035, 16431103552144682), (1622687556014035, 17951677112156551),
  (14655245002127398, 13032557446113363), (16277932558141433, 8164494778071258), (16277932558141433, 4082247389035629),
  (16277932558141433, 10180089973588531), (6097842584552902, 14313394360625243), (3048921292276451, 17362315652901694),
  (3048921292276451, 17827921703280200), (15244606461382255, 5632236534174396), (15244606461382255, 2816118267087198),
  (16652665594925854, 1408059133543599), (8326332797462927, 9734391931006526), (5510214530375729, 12550510198093724),
  (11785469629422591, 6275255099046862), (14923097178946022, 3137627549523431), (5510214530375729, 15688137747617155),
  (10599176138996442, 15688137747617155), (5299588069498221, 15688137747617155), (210626460877508, 17862255451513277),
  (105313230438754, 17967568681952031), (52656615219377, 17967568681952031), (13275298481355241, 13222641866135864),
  (13433268327013372, 13169985250916487), (6716634163506686, 13169985250916487), (3358317081753343, 16528302332669830),
  (16791585408766715, 13169985250916487), (14980785329841601, 13169985250916487), (14075385290379044, 13169985250916487),
  (15886185369304158, 11359185171991373), (7943092684652079, 11359185171991373), (17594231612973805, 9651138928321726),
  (17594231612973805, 4825569464160863), (17295662346125727, 1708046243669647), (9501854294897687, 11209900538567334),
  (15106804564181354, 5604950269283667), (13398758320511707, 7312996512953314), (17055256576988364, 3656498256476657),
  (12184126544970839, 15840624801447496), (1214631775540868, 17067859506842417), (607315887770434, 17675175394612851),
  (303657943885217, 17978833338498068), (10204048444789902, 9900390500904685), (10811364332560336, 9293074613134251),
  (5405682166280168, 14698756779414419)]

/-- Part 3: one pair of denominators per exponent, smallest exponent first. -/
def certs64_3 : List (Nat × Nat) := [
  (2702841083140084, 17401597862554503), (13514205415700420, 9293074613134251), (6757102707850210, 16050177320984461),
  (3378551353925105, 16050177320984461), (16892756769625525, 5914523259209146), (16892756769625525, 2957261629604573),
  (9925009199615049, 12882270829219622), (16366144614224860, 6441135414609811), (17419368925026190, 6441135414609811),
  (15150819877122906, 6441135414609811), (14016545353171264, 6441135414609811), (12112508034368021, 6441135414609811),
  (15717957139098727, 6441135414609811), (17520681691464080, 6441135414609811), (17783880654126231, 1802724552365353),
  (15201476260341851, 17004200812707204), (15201476260341851, 8502100406353602), (15201476260341851, 12107549511084308),
  (15201476260341851, 6053774755542154), (15201476260341851, 3026887377771077), (15201476260341851, 9114181819056464),
  (9147701504799697, 12141069196827541), (10644385350813619, 12141069196827541), (10644385350813619, 11392727273820580),
  (8399359581792736, 12141069196827541), (16340748987723909, 12141069196827541), (16340748987723909, 14240909092275725),
  (2099839895448184, 16608708179725841), (1049919947724092, 17658628127449933), (524959973862046, 17658628127449933),
  (262479986931023, 17921108114380956), (1312399934655115, 17921108114380956), (1312399934655115, 16834953665121168),
  (1312399934655115, 17604276375146389), (6561999673275575, 16291876440491274), (14707937893521212, 8145938220245637),
  (15499907167006243, 8145938220245637), (15499907167006243, 9729876767215699), (15499907167006243, 12614891967110971),
  (15499907167006243, 14057399567058607), (15499907167006243, 14778653367032425), (15499907167006243, 11893638167137153),
  (15499907167006243, 13696772667071698), (15499907167006243, 6848386333535849), (10454655333404939, 11893638167137153),
  (10454655333404939, 11174146750271046), (16041728708540462, 5587073375135523), (10454655333404939, 17480711542272676),
  (10454655333404939, 8740355771136338), (14824833218973108, 4370177885568169), (11782594495054723, 16152772380622892),
  (11782594495054723, 10068294932786122), (11782594495054723, 16816741961447784), (11782594495054723, 8408370980723892),
  (11782594495054723, 6694071418455291), (11782594495054723, 9238332956755007), (11782594495054723, 10510463725904865),
  (15598986802504297, 9238332956755007), (12418659879629652, 9238332956755007), (6209329939814826, 15447662896569833),
  (3104664969907413, 15447662896569833), (3104664969907413, 15145015084700905), (3104664969907413, 15334169967118985),
  (3104664969907413, 15428747408328025), (15523324849537065, 3010087528698373), (15523324849537065, 9266706189117719),
  (15523324849537065, 12395015519327392), (15641546651048365, 9266706189117719), (12454126420083042, 9266706189117719),
  (6227063210041521, 15493769399159240), (13973947909621141, 7746884699579620), (6227063210041521, 13826170657732016),
  (6227063210041521, 13140148538907529), (15910669084516046, 9683605874474525), (17309145392475589, 3456542664433004),
  (17309145392475589, 1728271332216502), (17309145392475589, 864135666108251), (17414873673717865, 864135666108251),
  (17780861330995568, 864135666108251), (17531787326580294, 864135666108251), (17407250324372657, 864135666108251),
  (14814843326047904, 4320678330541255), (11728099993565207, 16048778324106462), (11728099993565207, 8024389162053231),
  (17901586658530601, 616967499029279), (9876244577809219, 10493212076838498), (9876244577809219, 15122850616228468),
  (9876244577809219, 16356785614287026), (9876244577809219, 8178392807143513), (9876244577809219, 9027318692476366),
  (9876244577809219, 14389903924047402), (17785607465378814, 4513659346238183), (17920122425165773, 4513659346238183),
  (15730550231940161, 4513659346238183), (11216890885701978, 11351405845488937), (5608445442850989, 16959851288339926),
  (5608445442850989, 14088371087020952), (11082375925915019, 8479925644169963), (9781150785042491, 8479925644169963),
  (9130538214606227, 17610463858776190), (9130538214606227, 17935770143994322), (9781150785042491, 17935770143994322),
  (9781150785042491, 8967885071997161), (9374517928519826, 8967885071997161), (10594416498087821, 8561252215474496),
  (14875042605825069, 4280626107737248), (17015355659693693, 2140313053868624), (17015355659693693, 10701565269343120),
  (17015355659693693, 5350782634671560), (17015355659693693, 2675391317335780), (17015355659693693, 1337695658667890),
  (11664573025022133, 6688478293339450), (15008812171691858, 3344239146669725), (14192884379185379, 17537123525855104),
  (4160166939176204, 16721195733348625), (2080083469588102, 16721195733348625), (1040041734794051, 17761237468142676),
  (5200208673970255, 17761237468142676), (14080827408041593, 8880618734071338), (14080827408041593, 4440309367035669),
  (14080827408041593, 8120719427136752), (14080827408041593, 4060359713568376), (16111007264825781, 2030179856784188),
  (16111007264825781, 17126097193217875), (16111007264825781, 5075449641960470), (16111007264825781, 2537724820980235),
  (16111007264825781, 9324366042903008), (6786641221922773, 12688624104901175), (6786641221922773, 16524273885334747),
  (6786641221922773, 11655457553628760), (15491107334062332, 2950991441489201), (7745553667031166, 10696545108520367),
  (3872776833515583, 14569321942035950), (11157437804533558, 7284660971017975), (3872776833515583, 17059420687511960),
  (3872776833515583, 16275264010787146), (12010408838909156, 8137632005393573), (3872776833515583, 17451499025874367),
  (3872776833515583, 14534914763210558), (15013011048636445, 11140234215120862), (15969203619488219, 3394680548089696),
  (17666543893533067, 1697340274044848), (17666543893533067, 848670137022424), (17666543893533067, 424335068511212),
  (17666543893533067, 2121675342556060), (17666543893533067, 1060837671278030), (17666543893533067, 530418835639015),
  (15544868550977007, 2652094178195075), (11750575542781116, 14402669720976191), (5875287771390558, 14402669720976191),
  (3223193593195483, 16483664484170858), (14688219428476395, 11465025835280912), (14688219428476395, 5732512917640456),
  (17554475887296623, 2866256458820228), (16115967965977415, 2866256458820228), (17549096195387529, 1433128229410114),
  (17549096195387529, 716564114705057), (14682839736567301, 3582820573525285), (16298471302096863, 3582820573525285),
  (17106287084861644, 3582820573525285), (2775004790760504, 17914102867626425), (1387502395380252, 17914102867626425),
  (693751197690126, 17914102867626425), (346875598845063, 17914102867626425), (1734377994225315, 16526600472246173),
  (10864867227461059, 9130489233235744), (15430111844078931, 4565244616617872), (17164489838304246, 2830866622392557),
  (8582244919152123, 11413111541544680), (14288800689924463, 5706555770772340), (2875689148379783, 17030022260342568),
  (17142078575310633, 14266389426930850), (17142078575310633, 7133194713465425), (17142078575310633, 12137636644388029),
  (16507198524441736, 2128752782542821), (14639857609849331, 16768610392392152), (14639857609849331, 8384305196196076),
  (14509151675874123, 8384305196196076), (14509151675874123, 4192152598098038), (16605227974923142, 2096076299049019),
  (8220922778727066, 10480381495245095), (14590842884608628, 10480381495245095), (17775802937549409, 10480381495245095),
  (17775802937549409, 14128092216397252), (17775802937549409, 17313052269338033), (17775802937549409, 17544427603443721),
  (17775802937549409, 17660115270496565), (115687667052844, 17962474784353673), (57843833526422, 17962474784353673),
  (28921916763211, 17991396701116884), (144609583816055, 17904630950827251), (144609583816055, 17990414463917063),
  (144609583816055, 17888696636645914), (11113492075563782, 10968882491747727), (11113492075563782, 10390444156483507),
  (5556746037781891, 15947190194265398), (5556746037781891, 13530341134914590), (3139896978431083, 15224142275185123),
  (15461813583670269, 12321916605239186), (15461813583670269, 6160958302619593), (15461813583670269, 15342977929427696),
  (15461813583670269, 7671488964713848), (15461813583670269, 3835744482356924), (17379685824848731, 1917872241178462),
  (15461813583670269, 9589361205892310), (15461813583670269, 4794680602946155), (10128247093308212, 14922927696254367),
  (15461813583670269, 4255794715530253), (15461813583670269, 9858804149600261), (12660308866635265, 9858804149600261),
  (2801504717035004, 15675964143581257), (1400752358517502, 17076716502098759), (700376179258751, 17777092681357510),
  (3501880896293755, 16376340322840008), (3501880896293755, 15191931954007514), (3501880896293755, 14599727769591267),
  (9050804332942511, 14599727769591267), (9050804332942511, 9643008517358758), (9050804332942511, 13872308591621890),
  (9050804332942511, 15986958628753456), (2114650037131566, 17763571182002197), (1057325018565783, 17763571182002197),
  (1057325018565783, 17869048248810254), (5286625092828915, 16811723230244471), (11049174161536693, 16811723230244471),
  (11049174161536693, 13930448695890582), (18014398509481984, 6965224347945291), (18014398509481984, 16811723230244471),
  (9007199254740992, 16811723230244471), (4503599627370496, 16811723230244471), (4503599627370496, 16504621740664915),
  (2251799813685248, 16504621740664915), (1125899906842624, 17630521647507539), (1125899906842624, 17220914106452383),
  (562949953421312, 17783864059873695), (281474976710656, 17783864059873695), (140737488355328, 17924601548229023),
  (140737488355328, 17987626168283163), (70368744177664, 17987626168283163), (35184372088832, 17987626168283163),
  (35184372088832, 17986089919754375), (17592186044416, 18003682105798791), (8796093022208, 18012478198820999),
  (8796093022208, 18013593049199267), (4398046511104, 18013593049199267), (2199023255552, 18013593049199267),
  (1099511627776, 18013593049199267), (1099511627776, 18013669742951727), (549755813888, 18014219498765615),
  (274877906944, 18014219498765615), (274877906944, 18014328089620971), (137438953472, 18014328089620971),
  (68719476736, 18014396809097707), (68719476736, 18014390007560599), (34359738368, 18014390007560599),
  (17179869184, 18014390007560599)]

/-- Part 4: one pair of denominators per exponent, smallest exponent first. -/
def certs64_4 : List (Nat × Nat) := [
  (8589934592, 18014390007560599), (8589934592, 18014390359613427), (4294967296, 18014394654580723),
  (2147483648, 18014396802064371), (2147483648, 18014396414844863), (1073741824, 18014397488586687),
  (536870912, 18014398025457599), (536870912, 18014398236843707), (268435456, 18014398505279163),
  (134217728, 18014398505279163), (67108864, 18014398505279163), (67108864, 18014398488467879),
  (33554432, 18014398488467879), (16777216, 18014398505245095), (16777216, 18014398505074755),
  (8388608, 18014398505074755), (4194304, 18014398509269059), (4194304, 18014398508417359),
  (2097152, 18014398508417359), (1048576, 18014398509465935), (524288, 18014398509465935),
  (524288, 18014398509401739), (262144, 18014398509401739), (131072, 18014398509401739),
  (131072, 18014398509473975), (65536, 18014398509473975), (32768, 18014398509473975),
  (32768, 18014398509474707), (16384, 18014398509474707), (8192, 18014398509474707),
  (4096, 18014398509478803), (4096, 18014398509478367), (2048, 18014398509480415),
  (1024, 18014398509481439), (1024, 18014398509481307), (512, 18014398509481819),
  (256, 18014398509481819), (256, 18014398509481927), (128, 18014398509481927),
  (64, 18014398509481927), (32, 18014398509481959), (32, 18014398509481955),
  (16, 18014398509481971), (8, 18014398509481979), (8, 18014398509481983),
  (4, 18014398509481983), (2, 18014398509481983), (2, 18014398509481983),
  (1, 18014398509481984), (1, 18014398509481984), (1, 18014398509481984),
  (1, 18014398509481984), (1, 18014398509481984), (1, 18014398509481984),
  (1, 18014398509481984), (1, 18014398509481984), (1, 18014398509481984),
  (1, 18014398509481984), (1, 18014398509481984), (1, 18014398509481984),
  (5, 18014398509481984), (5, 18014398509481982), (5, 18014398509481981),
  (5, 18014398509481983), (25, 18014398509481963), (25, 18014398509481969),
  (25, 18014398509481972), (125, 18014398509481972), (125, 18014398509481861),
  (125, 18014398509481868), (625, 18014398509481868), (625, 18014398509481559),
  (625, 18014398509481717), (625, 18014398509481796), (3125, 18014398509481171),
  (3125, 18014398509479648), (3125, 18014398509480449), (15625, 18014398509471074),
  (15625, 18014398509469912), (15625, 18014398509469331), (78125, 18014398509469331),
  (78125, 18014398509461228), (78125, 18014398509418114), (78125, 18014398509474682),
  (390625, 18014398509162182), (390625, 18014398509268591), (390625, 18014398509126483),
  (1953125, 18014398508345233), (1953125, 18014398509055429), (1953125, 18014398509410527),
  (9765625, 18014398505504277), (9765625, 18014398505681826), (9765625, 18014398500887788),
  (9765625, 18014398508256394), (48828125, 18014398488725144), (48828125, 18014398463112572),
  (48828125, 18014398499134411), (244140625, 18014398303821911), (244140625, 18014398492731268),
  (244140625, 18014398465115634), (1220703125, 18014397732693759), (1220703125, 18014397963026567),
  (1220703125, 18014398078192971), (1220703125, 18014398135776173), (6103515625, 18014396915073048),
  (6103515625, 18014394502458399), (6103515625, 18014396347908887), (30517578125, 18014378037362012),
  (30517578125, 18014391167118506), (30517578125, 18014397731996753), (152587890625, 18014397731996753),
  (152587890625, 18014385755646814), (152587890625, 18014303473526532), (152587890625, 18014262332466391),
  (762939453125, 18014262332466391), (762939453125, 18014012880100383), (762939453125, 18013888153917379),
  (3814697265625, 18013888153917379), (3814697265625, 18011536972466502), (3814697265625, 18012268730373876),
  (19073486328125, 18012268730373876), (19073486328125, 18008819912061938), (19073486328125, 18007095502905969),
  (19073486328125, 17996696555163922), (95367431640625, 17958549582507672), (95367431640625, 17943813365472586),
  (95367431640625, 17936445256955043), (476837158203125, 17554975530392543), (476837158203125, 17598975191954084),
  (476837158203125, 17859393601836417), (2384185791015625, 16905719285430167), (2384185791015625, 16797509911269771),
  (2384185791015625, 16743405224189573), (2384185791015625, 16716352880649474), (11920928955078125, 9563795507602599),
  (11920928955078125, 10742362231340362), (11920928955078125, 17292110070748306), (14278062402553651, 4192614391932418),
  (16374369598519860, 2096307195966209), (8187184799259930, 10283491995226139), (10085448010621233, 10283491995226139),
  (10184470002923686, 10283491995226139), (15375726996687982, 10283491995226139), (17971355493570130, 10283491995226139),
  (17872333501267677, 10283491995226139), (14077912748246908, 10283491995226139), (17322448369349593, 10283491995226139),
  (17322448369349593, 16772563237431509), (17322448369349593, 17047505803390551), (17322448369349593, 17184977086370072),
  (17322448369349593, 16635091954451988), (17322448369349593, 8317545977225994), (17322448369349593, 4158772988612997),
  (17322448369349593, 3471416573715392), (17322448369349593, 1735708286857696), (17322448369349593, 867854143428848),
  (17756375441064017, 433927071714424), (16888521297635169, 2169635358572120), (16888521297635169, 17973338976921229),
  (17430930137278199, 17973338976921229), (16346112457992139, 2712044198215150), (17702134557099714, 1356022099107575),
  (8851067278549857, 10207089377657432), (6139023080334707, 12919133575872582), (12598589868270998, 6459566787936291),
  (6299294934135499, 12758861722071790), (6299294934135499, 12678725795171394), (6299294934135499, 12999269502772978),
  (6299294934135499, 12798929685521988), (6299294934135499, 12698759776896493), (6199125025510004, 12899099594147483),
  (3099562512755002, 15998662106902485), (1549781256377501, 17548443363279986), (1549781256377501, 18002060279412385),
  (1549781256377501, 17524827049782448), (1549781256377501, 16511319806778729), (16779456813465620, 15229675557088119),
  (7748906281887505, 13679894300710618), (14588853432242814, 6839947150355309), (14134373866476716, 6839947150355309),
  (14134373866476716, 5930988018823113), (7067186933238358, 12998174952061471), (3533593466619179, 16531768418680650),
  (17667967333095895, 2397394552203934), (17667967333095895, 1198697276101967), (17667967333095895, 9433332304598931),
  (13550649818847413, 9433332304598931), (16990495742936509, 1198697276101967), (10293293785621205, 11491991061723172),
  (16039289316482791, 5745995530861586), (14840592040380824, 6944692806963553), (7420296020190412, 14364988827153965),
  (3710148010095206, 14364988827153965), (475603213226859, 17599533624022312), (9275370025238015, 8799766812011156),
  (13675253431243593, 4399883406005578), (15875195134246382, 2199941703002789), (11475311728240804, 10999708515013945),
  (5737655864120402, 16737364379134347), (2868827932060201, 16737364379134347), (14344139660301005, 16737364379134347),
  (15540752019717676, 16737364379134347), (7770376009858838, 16737364379134347), (11950914941467663, 8966988369275509),
  (10458951655371586, 8966988369275509), (5229475827685793, 14196464196961302), (12327707926166444, 7098232098480651),
  (12327707926166444, 10835744640070367), (6163853963083222, 16999598603153589), (3081926981541611, 16999598603153589),
  (15409634907708055, 13917671621611978), (15409634907708055, 6958835810805989), (11184235359257022, 6958835810805989),
  (11184235359257022, 12425708335515901), (5592117679628511, 12425708335515901), (5592117679628511, 14601030687200717),
  (5592117679628511, 15688691863043125), (5592117679628511, 16930164839302004), (5592117679628511, 14057200099279513),
  (5592117679628511, 15416776569082523), (5592117679628511, 15570588369498994), (5592117679628511, 13377411864378008),
  (5592117679628511, 17872941291446026), (16994705872537625, 1096588252560493), (13432000072791031, 14528588325351524),
  (13432000072791031, 7264294162675762), (17064147154128912, 3632147081337881), (13432000072791031, 4728735333898374),
  (15796367739740218, 2364367666949187), (7898183869870109, 10262551536819296), (8703264738892657, 10262551536819296),
  (13834540507302305, 5131275768409648), (16400178391507129, 2565637884204824), (6137626854687833, 12828189421024120),
  (12551721565199893, 6414094710512060), (15758768920455923, 3207047355256030), (17362292598083938, 1603523677628015),
  (14155245242827908, 8017618388140075), (15095241009554029, 8017618388140075), (15095241009554029, 11556429698847052),
  (17694056553534885, 939995766726121), (9317026160130503, 10257021926856624), (9317026160130503, 14445537123558815),
  (9317026160130503, 16325528657011057), (9317026160130503, 12821277408570780), (9317026160130503, 15727664864415893),
  (9317026160130503, 13419141201165944), (9317026160130503, 16026596760713475), (9317026160130503, 12671811460421989),
  (9317026160130503, 10994418810276246), (16956659670115263, 12671811460421989), (14814235565268626, 12671811460421989),
  (7407117782634313, 12671811460421989), (7407117782634313, 11509232823669754), (7407117782634313, 13161734194469190),
  (7407117782634313, 13987984879868908)]

/-- Part 5: one pair of denominators per exponent, smallest exponent first. -/
def certs64_5 : List (Nat × Nat) := [
  (826250685399718, 17205572463578333), (413125342699859, 17618697806278192), (413125342699859, 17898106442535994),
  (9362178563967856, 8949053221267997), (10188429249367574, 8122802535868279), (5094214624683787, 13217017160552066),
  (11702723204959820, 6608508580276033), (16796937829643607, 8122802535868279), (16796937829643607, 12459870182755943),
  (14628404006199775, 12459870182755943), (2168533823443832, 16760140621459243), (1084266911721916, 17844407533181159),
  (542133455860958, 17844407533181159), (271066727930479, 17844407533181159), (271066727930479, 17931488220189818),
  (271066727930479, 17910946131800716), (271066727930479, 17900675087606165), (1355333639652395, 17358541631745207),
  (1355333639652395, 17488939473613171), (1355333639652395, 17554138394547153), (6776668198261975, 16198804754894758),
  (14876070575709354, 8099402377447379), (15537437665302056, 8099402377447379), (7768718832651028, 15868121210098407),
  (14545387030913003, 8099402377447379), (11322394704180191, 8099402377447379), (9710898540813785, 17810300918261164),
  (11322394704180191, 14587308591528352), (11322394704180191, 7293654295764176), (14969221852062279, 3646827147882088),
  (14969221852062279, 3264913887348161), (14969221852062279, 9117067869705220), (14969221852062279, 4558533934852610),
  (17248488819488584, 2279266967426305), (10410687917209669, 11396334837131525), (10410687917209669, 10903511377170597),
  (10657099647190133, 10903511377170597), (17802209118763849, 246411729980464), (17925414983754081, 123205864990232),
  (17987017916249197, 61602932495116), (17982864426950497, 61602932495116), (18013665893198055, 30801466247558),
  (18013665893198055, 15400733123779), (18008561457447853, 15400733123779), (17962359258076516, 77003665618895),
  (17990608506448973, 77003665618895), (17966231297825754, 77003665618895), (17812223966587964, 385018328094475),
  (16606478545183482, 16991496873277957), (8303239272591741, 16991496873277957), (7918220944497266, 17761533529466907),
  (3959110472248633, 17761533529466907), (3959110472248633, 14819432473106403), (9389271472677518, 14819432473106403),
  (9389271472677518, 17761533529466907), (4694635736338759, 17761533529466907), (4694635736338759, 15922720369241592),
  (16939729785129721, 6533448896564074), (16939729785129721, 3266724448282037), (13369951564987916, 16636676013269953),
  (13369951564987916, 16333622241410185), (6684975782493958, 16333622241410185), (3342487891246979, 16333622241410185),
  (3342487891246979, 16523030848822540), (16712439456234895, 6495567175081603), (16712439456234895, 11604003315658249),
  (16712439456234895, 14158221385946572), (12771090351441615, 9049785245369926), (17295982974126578, 4524892622684963),
  (13172884109748252, 17697776732433215), (16090601699206667, 4524892622684963), (14832639783630778, 4524892622684963),
  (16466105137185315, 4524892622684963), (16466105137185315, 10495498879935139), (5970606257250176, 16653856856174639),
  (2985303128625088, 16653856856174639), (1492651564312544, 16653856856174639), (7463257821562720, 13668553727549551),
  (3731628910781360, 17400182638330911), (1865814455390680, 17400182638330911), (9329072276953400, 9936924816768191),
  (4664536138476700, 14601460955244891), (2332268069238350, 16933729024483241), (1166134034619175, 16933729024483241),
  (5830670173095875, 14601460955244891), (5830670173095875, 16046735737266258), (5830670173095875, 13854038041729004),
  (15997164692255851, 2192697695537254), (17093513540024478, 1096348847768627), (16221198704392628, 17317547552161255),
  (15124849856624001, 5481744238843135), (15124849856624001, 10303297047733568), (15124849856624001, 5151648523866784),
  (17835945459901496, 330095714976351), (12549025594690609, 12879121309666960), (12549025594690609, 6439560654833480),
  (15768805922107349, 3219780327416740), (15768805922107349, 16098901637083700), (15768805922107349, 8049450818541850),
  (15768805922107349, 4024725409270925), (3694629694294574, 16428997352060051), (1847314847147287, 16428997352060051),
  (12832785793898243, 10985470946750956), (1847314847147287, 17981057790809040), (1847314847147287, 16379788283993668),
  (15579153530585982, 13731838683438695), (7789576765292991, 13731838683438695), (15178836153882139, 5942261918145704),
  (15178836153882139, 2971130959072852), (16664401633418565, 1485565479536426), (10722139715272861, 7427827397682130),
  (14436053414113926, 3713913698841065), (14645854104739093, 3713913698841065), (10931940405898028, 7637628088307297),
  (5465970202949014, 13103598291256311), (2732985101474507, 15836583392730818), (2732985101474507, 16117247000788930),
  (13664925507372535, 10651276797839916), (13664925507372535, 5325638398919958), (16327744706832514, 2662819199459979),
  (11002106307912556, 13314095997299895), (5501053153956278, 13314095997299895), (2750526576978139, 16064622574278034),
  (13752632884890695, 16064622574278034), (13752632884890695, 8032311287139017), (10892472086014856, 8032311287139017),
  (13478547330146445, 8032311287139017), (2860160798875839, 15790537019533784), (13615590107518570, 10755429308642731),
  (17563224362402016, 10755429308642731), (2860160798875839, 16878010475541391), (15589407234960293, 12729246436084454),
  (15589407234960293, 6364623218042227), (17805266413545583, 3504462419166388), (17805266413545583, 1752231209583194),
  (17805266413545583, 876115604791597), (14597384637918172, 15473500242709769), (11969037823543381, 16349615847501366),
  (11969037823543381, 8174807923750683), (10071922873647032, 8174807923750683), (17660382673232428, 8174807923750683),
  (17004999260366897, 8174807923750683), (12589903592058790, 8174807923750683), (4415095668308107, 14383465608904773),
  (4415095668308107, 13814376306914547), (13529831655919434, 9114735987611327), (6764915827959717, 15879651815571044),
  (17944927324227541, 15879651815571044), (17944927324227541, 7939825907785522), (17944927324227541, 3969912953892761),
  (10005101416442019, 9844463353021786), (14927333092952912, 4922231676510893), (7463666546476456, 12385898222987349),
  (10005101416442019, 17308129899498242), (10005101416442019, 8654064949749121), (9329583183095570, 17983648132844691),
  (4664791591547785, 17983648132844691), (14669893007989804, 8654064949749121), (7334946503994902, 15989011453744023),
  (3667473251997451, 15989011453744023), (2348354806243232, 15989011453744023), (17163188856865639, 15989011453744023),
  (16576100155304831, 15989011453744023), (2935443507804040, 15989011453744023), (17456733207646043, 15989011453744023),
  (16722872330695033, 15989011453744023), (16355941892219528, 15989011453744023), (17456733207646043, 15622081015268518),
  (17456733207646043, 7811040507634259), (12633886857640151, 7811040507634259), (12633886857640151, 13787428822890993),
  (12633886857640151, 13210657840265572), (12633886857640151, 6605328920132786), (5451786954881944, 13787428822890993),
  (2725893477440972, 16513322300331965), (1362946738720486, 17876269039052451), (681473369360243, 17876269039052451),
  (3407366846801215, 17876269039052451), (10641817942926833, 17876269039052451), (10641817942926833, 14259043490989642),
  (10431959241665239, 14259043490989642), (17561480987160060, 7129521745494821), (15910262239074851, 7129521745494821),
  (13734396737835657, 5478302997409612), (16473548236540463, 2739151498704806), (17843123985892866, 1369575749352403),
  (12364820988483254, 6847878746762015), (13030289241003642, 6847878746762015), (6515144620501821, 13363023367263836),
  (6515144620501821, 13196656304133739), (6182410494241627, 13196656304133739), (9689533399187683, 13196656304133739),
  (11443094851660711, 13196656304133739), (6182410494241627, 14950217756606767), (10566314125424197, 14950217756606767),
  (12758265941015482, 14950217756606767), (6182410494241627, 17142169572198052), (14753495280340653, 8571084786099026),
  (14753495280340653, 4285542393049513), (13805061229744596, 4285542393049513), (17598797432128824, 4285542393049513),
  (17370483502163438, 4285542393049513), (17256326537180745, 4285542393049513), (17712954397111517, 4285542393049513),
  (15284790788130028, 4285542393049513), (16213480180164040, 4285542393049513), (7642395394065014, 13785316571182551),
  (3821197697032507, 17606514268215058), (16445652528172543, 12624454831140036), (16445652528172543, 6312227415570018),
  (13954622809635032, 8803257134107529), (6977311404817516, 15780568538925045), (3488655702408758, 15780568538925045),
  (17443278512043790, 12291912836516287), (8721639256021895, 12291912836516287), (8721639256021895, 10506776046269091),
  (15658141721796594, 12291912836516287), (7829070860898297, 12291912836516287), (10060491848707292, 12291912836516287),
  (5030245924353646, 17322158760869933), (17889562709605589, 7261666912162641), (12575614810884115, 7261666912162641),
  (12575614810884115, 9918640861523378), (17889562709605589, 4604692962801904), (17889562709605589, 2302346481400952),
  (17889562709605589, 1151173240700476), (16738389468905113, 5755866203502380), (16738389468905113, 2877933101751190),
  (16738389468905113, 1438966550875595), (10527644560765949, 11966611111641544), (9088678009890354, 16283510764268329),
  (4544339004945177, 16283510764268329), (4544339004945177, 14958263889551930), (17420707525860289, 1325246874716399),
  (12023470949721142, 13348717824437541), (6011735474860571, 13348717824437541), (4686488600144172, 15999211573870339),
  (2343244300072086, 15999211573870339), (1171622150036043, 17170833723906382), (15615149762169449, 14443527612133406),
  (5858110750180215, 13271905462097363), (9565008106138789, 13271905462097363), (11418456784118076, 13271905462097363),
  (11418456784118076, 9267243389896435), (5709228392059038, 14976471781955473), (2854614196029519, 17831085977984992),
  (14273070980147595, 14976471781955473), (14273070980147595, 14624771381051534), (14273070980147595, 7312385690525767),
  (14273070980147595, 10792728335336681), (17753413624958509, 351700400903939), (17753413624958509, 9052557012931224),
  (17753413624958509, 4526278506465612), (17753413624958509, 4877978907369551), (17753413624958509, 11315696266164030),
  (17753413624958509, 5657848133082015)]

/-- Part 6: one pair of denominators per exponent, smallest exponent first. -/
def certs64_6 : List (Nat × Nat) := [
  (12095565491876494, 16193675173533581), (6047782745938247, 16193675173533581), (6047782745938247, 17168511705674161),
  (17655929971744451, 11608147225806204), (6047782745938247, 15706256907463291), (6047782745938247, 16924802572639016),
  (6047782745938247, 14510184032257755), (3633164205556986, 15706256907463291), (1816582102778493, 17522839010241784),
  (12394583710677878, 10578001607899385), (17844330019013357, 8761419505120892), (17844330019013357, 4380709752560446),
  (17844330019013357, 2190354876280223), (14398052200207236, 16588407076487459), (12207697323927013, 10951774381401115),
  (12207697323927013, 11579735852664064), (17997565250259045, 5789867926332032), (14719543208978809, 5789867926332032),
  (17614477172144825, 2894933963166016), (17614477172144825, 1447466981583008), (17146503763156733, 1447466981583008),
  (17870237253948237, 723733490791504), (17870237253948237, 361866745395752), (17870237253948237, 180933372697876),
  (17882504054080165, 180933372697876), (17972970740429103, 90466686348938), (17972970740429103, 45233343174469),
  (17837270710905696, 226166715872345), (17965303990346648, 226166715872345), (17803153914194779, 226166715872345),
  (16898487050705399, 1130833579361725), (16930495370565637, 1130833579361725), (16946499530495756, 1130833579361725),
  (12423165213048856, 5654167896808625), (17519918400141678, 5654167896808625), (14414127096879464, 5654167896808625),
  (12861231445248357, 5654167896808625), (7207063548439732, 13856712387163661), (3603531774219866, 17460244161383527),
  (1801765887109933, 17460244161383527), (9008829435549665, 15658478274273594), (9008829435549665, 16838068572686462),
  (17427863721892896, 8419034286343231), (589795149206434, 17913570314252361), (294897574603217, 17913570314252361),
  (294897574603217, 17951161182524299), (10892414826183060, 10597517251579843), (294897574603217, 17894774880116392),
  (294897574603217, 17794314678154706), (13320620958125608, 13025723383522391), (13320620958125608, 11846133085109523),
  (6660310479062804, 11846133085109523), (3330155239531402, 15176288324640925), (16650776197657010, 11846133085109523),
  (8325388098828505, 11846133085109523), (8325388098828505, 10085760591969014), (8325388098828505, 13368268394813012),
  (14890403704516501, 13368268394813012), (14890403704516501, 6684134197406506), (14890403704516501, 3342067098703253),
  (4864202408406742, 16710335493516265), (2432101204203371, 16710335493516265), (9571218348859818, 16710335493516265),
  (9571218348859818, 16553149025562599), (4785609174429909, 16553149025562599), (4785609174429909, 15454988274426163),
  (4785609174429909, 14905907898857945), (13807747147721509, 10120298724428036), (13807747147721509, 5060149362214018),
  (16337821828828518, 2530074681107009), (13807747147721509, 12650373405535045), (13807747147721509, 13229060276628277),
  (13518403712174893, 13229060276628277), (289343435546616, 17824947646856513), (144671717773308, 17969619364629821),
  (72335858886654, 17969619364629821), (36167929443327, 18005787294073148), (180839647216635, 17897283505743167),
  (180839647216635, 17900204290095016), (16545367328146178, 16364527680929543), (16726206975362813, 15822008739279638),
  (16726206975362813, 7911004369639819), (16726206975362813, 12318605672501316), (14127002144667666, 7911004369639819),
  (14974505441973652, 7911004369639819), (7487252720986826, 15398257090626645), (3743626360493413, 15398257090626645),
  (3743626360493413, 17093263685238617), (3743626360493413, 17905697743852841), (3743626360493413, 14568288412666540),
  (3743626360493413, 16687046655931505), (3743626360493413, 17702589229199285), (3743626360493413, 14466734155339762),
  (3743626360493413, 16179275369297615), (3743626360493413, 17448703585882340), (3743626360493413, 16211604513927996),
  (3743626360493413, 15593054977950824), (10612329545503067, 8105802256963998), (14665230673985066, 4052901128481999),
  (15438417593956531, 4052901128481999), (15438417593956531, 4826088048453464), (15438417593956531, 17851461618183263),
  (15438417593956531, 16644939606069897), (11818851557616433, 17851461618183263), (14835156587899848, 17851461618183263),
  (7417578293949924, 17851461618183263), (3708789146974962, 17851461618183263), (4401273263666509, 14142672471208301),
  (9271972867437405, 14142672471208301), (9271972867437405, 11707322669322853), (17135666714561649, 2435349801885448),
  (17135666714561649, 1217674900942724), (17744504165033011, 608837450471362), (17744504165033011, 3044187252356810),
  (17744504165033011, 1522093626178405), (17243767026497733, 1522093626178405), (12427117578694879, 13949211204873284),
  (9382930326338069, 16993398457230094), (17879629554953116, 8496699228615047), (8939814777476558, 17436514006091605),
  (443115548861511, 17669025406830619), (443115548861511, 17918381455076285), (11396326246276453, 10953210697414942),
  (11396326246276453, 9180748501968898), (11396326246276453, 15986700497260902), (11396326246276453, 7993350248630451),
  (11396326246276453, 17174098750599349), (11396326246276453, 14285212498437901), (11396326246276453, 12840769372357177),
  (12118547809316815, 12840769372357177), (11396326246276453, 15007434061478263), (11396326246276453, 13201880153877358),
  (17997266323215132, 6600940076938679), (4795386169337774, 13823155707342299), (2397693084668887, 16220848792011186),
  (2397693084668887, 17701196734681141), (11988465423344435, 15303503650012254), (11988465423344435, 7651751825006127),
  (17471860449181408, 7651751825006127), (8735930224590704, 16387682049596831), (10904287023759858, 16387682049596831),
  (5452143511879929, 16387682049596831), (10919912780738380, 16387682049596831), (5452143511879929, 16434559320532397),
  (5452143511879929, 16395494928086092), (13649890975922975, 8197747464043046), (8158683071596741, 10943351416206163),
  (9551017243901452, 10943351416206163), (4775508621950726, 15718860038156889), (2387754310975363, 15718860038156889),
  (11938771554876815, 15718860038156889), (11938771554876815, 13828815796516852), (11938771554876815, 6914407898258426),
  (5024363656618389, 14474584864818574), (5024363656618389, 17286019745646065), (11155191701132227, 17286019745646065),
  (12860162194064269, 6130828044513838), (15925576216321188, 3065414022256919), (17159030174931351, 3065414022256919),
  (13177636120851054, 16243050143107973), (3981394054080297, 15327070111284595), (13635626136762743, 9654232082682446),
  (13635626136762743, 4827116041341223), (12789904149501817, 5672838028602149), (9231371089051983, 14904209117654132),
  (9231371089051983, 16683475647879049), (12789904149501817, 16683475647879049), (14736689898690433, 16683475647879049),
  (15710082773284741, 16683475647879049), (16196779210581895, 16683475647879049), (15223386335987587, 17656868522473357),
  (16440127429230472, 17656868522473357), (8220063714615236, 17656868522473357), (5786581528129466, 17656868522473357),
  (2893290764064733, 17656868522473357), (10275079643269045, 17656868522473357), (14466453820323665, 4488498115139579),
  (9477475967731622, 13965974082871201), (4738737983865811, 13965974082871201), (9352356033368506, 13965974082871201),
  (4738737983865811, 13590614279781853), (4738737983865811, 13903414115689643), (14059814033643538, 9321076049777727),
  (14372613869551328, 9321076049777727), (16507382984553391, 9321076049777727), (12914229517165559, 9321076049777727),
  (12914229517165559, 7862691697391958), (12914229517165559, 16845575365861538), (12914229517165559, 8422787682930769),
  (10668508600048164, 8422787682930769), (10668508600048164, 10108412614509353), (5334254300024082, 15442666914533435),
  (2667127150012041, 15442666914533435), (13335635750060205, 7441285464497312), (13335635750060205, 17056278482308861),
  (13335635750060205, 15195957116184533), (16449501864944169, 1860321366124328), (17379662548006333, 930160683062164),
  (17844742889537415, 465080341531082), (17844742889537415, 232540170765541), (17612202718771874, 1162700853827705),
  (16945007336179872, 1162700853827705), (17774110498711576, 1162700853827705), (17774110498711576, 5813504269138525),
  (8887055249355788, 14700559518494313), (4443527624677894, 14700559518494313), (4443527624677894, 15736938471658943),
  (2221763812338947, 17958702283997890), (2221763812338947, 17866406391354733), (2221763812338947, 16709376538863681),
  (11108819061694735, 14487612726524734), (11108819061694735, 7243806363262367), (11108819061694735, 9176312712478551),
  (1932506349216184, 16893968324149995), (966253174608092, 17860221498758087), (483126587304046, 17860221498758087),
  (2415632936520230, 16410841736845949), (1207816468260115, 17618658205106064), (1207816468260115, 17264044380373837),
  (6039082341300575, 16056227912113722), (14067196297357436, 8028113956056861), (7033598148678718, 15061712104735579),
  (3516799074339359, 15061712104735579), (17583995371696795, 8028113956056861), (17583995371696795, 12806054663876828),
  (17583995371696795, 6403027331938414), (15958908747578348, 8028113956056861), (7979454373789174, 16007568329846035),
  (3989727186894587, 16007568329846035), (15910249165310661, 4038386769162274), (17929442549891798, 2019193384581137),
  (10983914659527036, 13003108044108173), (5491957329763518, 13003108044108173), (14456678604709417, 13003108044108173),
  (13729893324408795, 13003108044108173), (13729893324408795, 13366500684258484), (14093285964559106, 12276322763807551),
  (7046642982279553, 12276322763807551), (7046642982279553, 16708125855323105), (4431803091515554, 17506002545335549),
  (2215901545757777, 17506002545335549), (14292755137062217, 12076853591304440), (14292755137062217, 6038426795652220),
  (2215901545757777, 16896724703714438), (2215901545757777, 17311968534888327), (9763935040323052, 17311968534888327),
  (2215901545757777, 17797053561006382), (2215901545757777, 17762132963534299), (12204918800403815, 9989017254646038),
  (2215901545757777, 16706563086863535), (2215901545757777, 16108936953583987), (15810123886944213, 13594222341186436),
  (15810123886944213, 6797111170593218), (15810123886944213, 2365308079077664), (15810123886944213, 16992777926483045),
  (16401450906713629, 16992777926483045)]

/-- Part 7: one pair of denominators per exponent, smallest exponent first. -/
def certs64_7 : List (Nat × Nat) := [
  (16401450906713629, 2956635098847080), (16401450906713629, 17879768456137169), (16401450906713629, 17140609681425399),
  (14923133357290089, 3695793873558850), (14923133357290089, 16771030294069514), (14923133357290089, 8385515147034757),
  (11654324252162423, 8385515147034757), (14923133357290089, 13502221188941848), (14923133357290089, 6751110594470924),
  (14923133357290089, 3375555297235462), (11547578060054627, 16877776486177310), (11547578060054627, 8438888243088655),
  (9993233151571641, 8438888243088655), (13101922968537613, 5330198426122683), (9216060697330148, 14546259123452831),
  (4608030348665074, 14546259123452831), (2304015174332537, 16850274297785368), (11520075871662685, 14546259123452831),
  (11520075871662685, 13033167497557758), (11520075871662685, 6516583748778879), (17452002484943665, 1513091625895073),
  (14021821933104588, 15534913558999661), (7010910966552294, 15534913558999661), (3984727714762148, 15534913558999661),
  (17527277416380735, 15534913558999661), (17527277416380735, 16531095487690198), (17527277416380735, 8265547743845099),
  (996181928690537, 17419372430652607), (996181928690537, 17177232609195868), (10580980161979008, 9584798233288471),
  (10580980161979008, 16181050680505331), (5290490080989504, 16181050680505331), (2645245040494752, 16181050680505331),
  (13226225202473760, 13535805640010579), (6613112601236880, 13535805640010579), (3306556300618440, 16842361940629019),
  (1653278150309220, 16842361940629019), (8266390751546100, 16842361940629019), (4133195375773050, 16842361940629019),
  (2066597687886525, 16842361940629019), (10332988439432625, 12709166564855969), (10332988439432625, 11521077502144297),
  (10332988439432625, 10927032970788461), (9144899376720953, 12115122033500133), (9144899376720953, 10630010705110543),
  (9887455040915748, 10630010705110543), (4943727520457874, 15573738225568417), (13346071232984032, 5686283184652669),
  (12359318801144685, 5686283184652669), (9022800992898677, 14709084177551346), (16682589041230040, 5686283184652669),
  (14027577705267689, 5686283184652669), (9856930444960179, 15543213629612848), (9856930444960179, 8717555033342987),
  (9856930444960179, 9287242739151583), (9856930444960179, 9572086592055881), (9856930444960179, 9714508518508030),
  (10141774297864477, 9429664665603732), (14856606630666343, 4714832332801866), (17214022797067276, 2357416166400933),
  (17214022797067276, 11787080832004665), (8607011398533638, 11787080832004665), (4303505699266819, 16090586531271484),
  (5426941965062611, 16090586531271484), (13472235230698353, 8045293265635742), (17494881863516224, 4022646632817871),
  (15066769926859442, 4022646632817871), (15578678229065463, 4022646632817871), (17845955696577409, 4022646632817871),
  (14956947797515511, 4022646632817871), (17845955696577409, 1133638733755973), (17845955696577409, 9489797215166691),
  (13667876455872050, 9489797215166691), (11400598988360104, 9489797215166691), (15190096709346743, 9489797215166691),
  (12339946962256717, 9489797215166691), (2850149747090026, 16097338857843169), (1425074873545013, 17522413731388182),
  (1425074873545013, 17311656106964169), (13643590110889630, 12218515237344617), (16493739857979656, 9368365490254591),
  (8246869928989828, 17615235419244419), (4123434964494914, 17615235419244419), (3001939403230151, 17615235419244419),
  (10308587411237285, 17615235419244419), (13961911415240852, 17615235419244419), (3001939403230151, 15264680616787684),
  (13636219114854144, 10634279711623993), (17452389269051065, 10634279711623993), (17452389269051065, 14043334490337529),
  (3409054778713536, 15671795992271069), (1704527389356768, 17376323381627837), (852263694678384, 17376323381627837),
  (4261318473391920, 17376323381627837), (2130659236695960, 17376323381627837), (1065329618347980, 17376323381627837),
  (5326648091739900, 14180334526583897), (2663324045869950, 16843658572453847), (1331662022934975, 16843658572453847),
  (1331662022934975, 17077632435304261), (6658310114674875, 14414308389434311), (6658310114674875, 17194619366729468),
  (15255619798039609, 8597309683364734), (16096931206644907, 8597309683364734), (16096931206644907, 4298654841682367),
  (14496447865846004, 4298654841682367), (1600483340798903, 16691824186015126), (11546878774605369, 9946395433806466),
  (16520076491508602, 4973197716903233), (8260038245754301, 13233235962657534), (3286840528851068, 15005466997962961),
  (1643420264425534, 16648887262388495), (821710132212767, 17470597394601262), (4108550661063835, 14183756865750194),
  (4108550661063835, 15308979755002767), (9708765208033301, 15308979755002767), (14942538758349709, 5600214546969466),
  (17742646031834442, 2800107273484733), (17271644836371420, 2800107273484733), (11435929691670443, 14236036965155176),
  (14471537562886687, 14236036965155176), (14471537562886687, 7118018482577588), (14471537562886687, 3559009241288794),
  (10912528321597893, 17795046206443970), (10912528321597893, 8897523103221985), (9905025712409939, 8897523103221985),
  (11920030930785847, 6882517884846077), (9401274407815962, 16283792292662039), (4700637203907981, 16283792292662039),
  (4700637203907981, 15192851952192991), (4700637203907981, 14855976110161202), (4700637203907981, 16829262462896563),
  (4700637203907981, 15465587037310253), (8037598982229652, 15465587037310253), (4018799491114826, 15465587037310253),
  (2009399745557413, 17474986782867666), (10046998727787065, 9437387800638014), (14765692628106072, 4718693900319007),
  (7382846314053036, 12101540214372043), (3691423157026518, 15792963371398561), (17429845041840101, 1027270743292489),
  (9228557892566295, 10255828635858784), (14356472210495687, 5127914317929392), (14356472210495687, 11283099379151273),
  (14356472210495687, 12819785794823480), (14356472210495687, 6409892897411740), (17429845041840101, 4873206481739533),
  (11151525761789817, 16024732243529350), (11151525761789817, 8012366121764675), (9581945941777246, 17594312063541921),
  (14290685401814959, 6442786301752104), (17512078552691011, 3221393150876052), (17512078552691011, 1610696575438026),
  (11069292250938907, 8053482877190130), (15096033689533972, 4026741438595065), (11574758283362051, 15601499721957116),
  (3521275406171921, 16612431786803404), (15348766705745544, 11827491299573623), (7674383352872772, 11827491299573623),
  (3521275406171921, 17244264327332334), (3521275406171921, 15664682976010009), (9592979191090965, 15664682976010009),
  (9592979191090965, 12628831083550487), (3521275406171921, 15179259462297610), (11110905137320726, 7589629731148805),
  (5555452568660363, 13145082299809168), (17606377030859605, 2034177162488442), (17606377030859605, 1017088581244221),
  (13380087131028797, 14397175712273018), (10328821387296134, 15414264293517239), (5164410693648067, 15414264293517239),
  (10289337493582653, 15414264293517239), (10289337493582653, 12851800893549946), (15572199868371163, 2562463399967293),
  (16754721834071107, 2562463399967293), (12221056016986493, 14783519416953786), (12221056016986493, 12812316999836465),
  (12221056016986493, 12516686508411479), (12221056016986493, 12368871262698986), (11629795034136521, 12368871262698986),
  (17814230665486014, 6184435631349493), (15091550964092500, 6184435631349493), (13730211113395743, 6184435631349493),
  (1361339850696757, 17308779649779895), (17503098854418868, 16141759003722111), (8751549427209434, 16141759003722111),
  (14196908829996462, 7390209576512677), (14488663991510908, 7390209576512677), (14634541572268131, 7390209576512677),
  (7098454414998231, 14926296733782577), (7098454414998231, 11012375574390404), (12604642202193433, 5506187787195202),
  (15357736095791034, 2753093893597601), (16220614819807948, 2753093893597601), (16369589090696777, 2753093893597601),
  (17820623172939992, 2753093893597601), (6808247598549588, 13765469467988005), (17169593267262799, 13765469467988005),
  (15467531367625402, 13765469467988005), (1702061899637397, 17765490350818115), (1702061899637397, 16542023723777344),
  (1702061899637397, 16781321360075657), (9241691629856527, 16781321360075657), (1702061899637397, 17273405855446886),
  (1702061899637397, 17147012425910428), (11977630012230008, 10275568112592611), (1702061899637397, 17336602570215115),
  (1702061899637397, 16327579833475844), (14972037515287510, 13269975615650113), (8510309498186985, 11567913716012716),
  (14294266356193343, 5783956858006358), (17186244785196522, 2891978429003179), (17269057679607798, 2891978429003179),
  (17269057679607798, 14459892145015895), (8634528839803899, 14459892145015895), (8634528839803899, 11547210492409897),
  (2809165534591903, 17372573797621893), (12900035200698801, 10090869666106898), (17945470033752250, 5045434833053449),
  (14045827672959515, 5045434833053449), (14591066086059931, 5045434833053449), (14863685292610139, 5045434833053449),
  (14999994895885243, 5045434833053449), (14999994895885243, 10227179269382002), (14999994895885243, 5113589634691001),
  (10056792265288122, 15170381899979123), (14488833883603603, 5113589634691001), (14914801393838303, 5113589634691001),
  (10014195514264652, 15127785148955653), (4687622124456301, 15127785148955653), (9907703636705977, 15127785148955653),
  (12517744392830815, 15127785148955653), (13822764770893234, 15127785148955653), (13822764770893234, 6525101890312095),
  (6911382385446617, 13436484275758712), (6911382385446617, 13629624523325973), (7297662880581139, 13629624523325973),
  (10463643701953556, 13629624523325973), (5231821850976778, 13629624523325973), (7297662880581139, 11563783493721612),
  (13079554627441945, 5781891746860806), (15970500500872348, 2890945873430403), (7985250250436174, 10876196123866577),
  (7985250250436174, 14454729367152015), (3992625125218087, 14454729367152015), (3992625125218087, 17208927496621225),
  (17486271634592681, 1238426995748877), (9362349315170779, 10600776310919656), (14662737470630607, 5300388155459828),
  (17832951807057001, 1238426995748877), (12012543392900693, 13250970388649570), (12012543392900693, 6625485194324785),
  (9319014293612739, 15944499487937524), (9319014293612739, 14489397384398447)]

/-- All pairs. -/
def certs64 : List (Nat × Nat) :=
  certs64_0 ++ certs64_1 ++ certs64_2 ++ certs64_3 ++ certs64_4 ++ certs64_5 ++ certs64_6 ++ certs64_7

end Verif.Float
