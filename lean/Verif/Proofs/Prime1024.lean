import Verif.Proofs.EllipticCert
import Mathlib.Tactic.NormNum.Prime

/-
Generated certificate: the 1024-bit modulus is prime.  One theorem for every step of the chain; each
names a cubic modulo N, a point on it and the (prime) order of that point.
-/

namespace PoS

theorem e1024_33 : Nat.Prime 1579 := by norm_num

theorem e1024_32 : Nat.Prime
    531169 :=
  ecpp 9
    531169
    0
    23943
    85509
    1579
    e1024_33 (by decide +kernel)

theorem e1024_31 : Nat.Prime
    14990872097 :=
  ecpp 18
    14990872097
    8302308843
    11988996357
    10714733269
    531169
    e1024_32 (by decide +kernel)

theorem e1024_30 : Nat.Prime
    808569443475101017 :=
  ecpp 32
    808569443475101017
    633631254870079139
    562524230478575888
    16974161716328916
    14990872097
    e1024_31 (by decide +kernel)

theorem e1024_29 : Nat.Prime
    190211618091298904495948122899697 :=
  ecpp 58
    190211618091298904495948122899697
    103410092296381082004165393194219
    95581595899668820874577088331032
    140678534542826916964299350881262
    808569443475101017
    e1024_30 (by decide +kernel)

theorem e1024_28 : Nat.Prime
    4394725848362046598210717552657694418941479789 :=
  ecpp 106
    4394725848362046598210717552657694418941479789
    0
    1054064694234213850586257816211442304026106762
    2094723680795376097829545871063561432017541858
    190211618091298904495948122899697
    e1024_29 (by decide +kernel)

theorem e1024_27 : Nat.Prime
    85240102554830255818895062211920794808206013464521 :=
  ecpp 150
    85240102554830255818895062211920794808206013464521
    37814554251374961905321937784647549376933239839746
    60089686922104802071910470861191391463855935547567
    20223410646299439795325709386209668373572548088454
    4394725848362046598210717552657694418941479789
    e1024_28 (by decide +kernel)

theorem e1024_26 : Nat.Prime
    17128600366634003739851776873628309564781023184351962550137 :=
  ecpp 164
    17128600366634003739851776873628309564781023184351962550137
    16485180269826259157144646074941765361319001223517422326375
    3965853047990032730404455687237261654397207771656014061838
    11306782221963039784360879245565054486657605070983547093919
    85240102554830255818895062211920794808206013464521
    e1024_27 (by decide +kernel)

theorem e1024_25 : Nat.Prime
    395499382465579146353177528012100972217669552736234611452659849 :=
  ecpp 192
    395499382465579146353177528012100972217669552736234611452659849
    1974699685650615193928574656261431262919477598149719229071928
    1880081759783020859492913529891962663661007860077662789234673
    200528277281121846939025786243126710828156193959113211467884113
    17128600366634003739851776873628309564781023184351962550137
    e1024_26 (by decide +kernel)

theorem e1024_24 : Nat.Prime
    945969798592726061118341656796131290341696352880533230829117918755690849 :=
  ecpp 206
    945969798592726061118341656796131290341696352880533230829117918755690849
    662115539317992858872399433930624534654644665788685198599083927711392207
    715498224833009178976895562870303097356777346622246204111963716976558904
    415638431883841532634394692307914511680425076093132005220504130435039729
    395499382465579146353177528012100972217669552736234611452659849
    e1024_25 (by decide +kernel)

theorem e1024_23 : Nat.Prime
    6222814414466980190311803611027061415366147844636843297402830531097967509518179851 :=
  ecpp 238
    6222814414466980190311803611027061415366147844636843297402830531097967509518179851
    1087714115414160204142918729649752205002009769057366113854777151814006271529004926
    2800809801537746647119093150137305106264485354813063930837964694284456402554934735
    1127710963886352597167884806460256773317428493470872235603772707292366522429192844
    945969798592726061118341656796131290341696352880533230829117918755690849
    e1024_24 (by decide +kernel)

theorem e1024_22 : Nat.Prime
    22210260911848650242032979141475515694898098343327788943363657594678977354841170874695619561 :=
  ecpp 270
    22210260911848650242032979141475515694898098343327788943363657594678977354841170874695619561
    1050606647957632969117057830292503589572981713231840143199043150520731389012555415483115622
    6361428624262169652705615480433145892365717214085809493774702725350702012269894726259317758
    17726064634730355763174158044726761578052516891767529515894446286494695473172999500489990738
    6222814414466980190311803611027061415366147844636843297402830531097967509518179851
    e1024_23 (by decide +kernel)

theorem e1024_21 : Nat.Prime
    373004484887498877170124445647446081814369026316550852805263262865950202807432896629314484807617598741 :=
  ecpp 302
    373004484887498877170124445647446081814369026316550852805263262865950202807432896629314484807617598741
    0
    130134188654970142088547466955051913853886220765209520233765640269000808883275698617780798753215016266
    230282163017104668491865647471475568207370963093247523142174691652011792988099255115149574177213724125
    22210260911848650242032979141475515694898098343327788943363657594678977354841170874695619561
    e1024_22 (by decide +kernel)

theorem e1024_20 : Nat.Prime
    2328167919151876016675433287668729605909638205537015427896675645358992605809003927045610632994720923482328891 :=
  ecpp 336
    2328167919151876016675433287668729605909638205537015427896675645358992605809003927045610632994720923482328891
    694234751197037810617015517530323840701242746472095996827081057184338340559334880076052346293990879895913123
    1694336700745301383088651131001562389448287648091298397458431557346351045436569483365967851093257928544155021
    1422137115460741426304941194829951394685366504294842836258987387632148467739241856242838069101918622495519702
    373004484887498877170124445647446081814369026316550852805263262865950202807432896629314484807617598741
    e1024_21 (by decide +kernel)

theorem e1024_19 : Nat.Prime
    767611094565104915035922668256419573956131228559377312608482669235214252555532465147607360009614440870738290883500184299 :=
  ecpp 358
    767611094565104915035922668256419573956131228559377312608482669235214252555532465147607360009614440870738290883500184299
    628962124184053626572615103780136897793333937165359787945116242884062490961525740589740084232912000509738491392574254895
    289624922566537226301250697636609769051661333410932690457361272406304353172686804677100689680420992572838649539536217154
    627672681109087655698014677331840709662043174291031693308218544196299325716247276740553762814403764779548422845692645131
    2328167919151876016675433287668729605909638205537015427896675645358992605809003927045610632994720923482328891
    e1024_20 (by decide +kernel)

theorem e1024_18 : Nat.Prime
    1103757133588078438599481452453039302835807763156198322864775771847383197355140045017472873162203543501849831154324455894216113133 :=
  ecpp 397
    1103757133588078438599481452453039302835807763156198322864775771847383197355140045017472873162203543501849831154324455894216113133
    0
    660911584968948274555863260145723232986439183827268075538530244480533906557420595632677620571872267672857395955637474096565571915
    493646500651528707581060998819595694753289413124585068201965158988393109650704910247906968802065934857290170985407608289784856050
    767611094565104915035922668256419573956131228559377312608482669235214252555532465147607360009614440870738290883500184299
    e1024_19 (by decide +kernel)

theorem e1024_17 : Nat.Prime
    330492701655953479898993304659887456531771321376075812877426065583002417917232116554964976165629105659069856517449322266000248585232973913737 :=
  ecpp 427
    330492701655953479898993304659887456531771321376075812877426065583002417917232116554964976165629105659069856517449322266000248585232973913737
    218245199580164688098398139116831090646392189770046773678688721698719662455457046165344739013090827332285338793296620694332389855267375383535
    271632429322150177148494519113319361550520616290494005331064843241642862051450954761713833324923528525351175551202299919893364203582856650904
    320531644632152325805350589166984239081282756693756560697836032853683056651770430719047660345850682461555430315791087693076205745976370664508
    1103757133588078438599481452453039302835807763156198322864775771847383197355140045017472873162203543501849831154324455894216113133
    e1024_18 (by decide +kernel)

theorem e1024_16 : Nat.Prime
    91781356576415042912327947072582276345740773288128961143671362507680413105784179530703026763403707495379709997075551766207196596014113175722223779111273 :=
  ecpp 465
    91781356576415042912327947072582276345740773288128961143671362507680413105784179530703026763403707495379709997075551766207196596014113175722223779111273
    57511113859767830248281380406985203103078811589878289030490058046656340131657868662464287157650856986368742898615683157617785893340287789277550702269709
    15590897194870420495708681282440338604810285880018402024640109054152384116302402205952764640594768082923988205104069990733366018698673959548268025133613
    40937449476033260356798801569427043175093220946241814056978047905936172662885855576679653395782577515630270278077928855531694232196651537393717147763183
    330492701655953479898993304659887456531771321376075812877426065583002417917232116554964976165629105659069856517449322266000248585232973913737
    e1024_17 (by decide +kernel)

theorem e1024_15 : Nat.Prime
    10531029563275270535908807248004753061570784056671268281277311807222441434184826263703067224076172609204520215302868264037639671439944633081621029062197203942636919 :=
  ecpp 503
    10531029563275270535908807248004753061570784056671268281277311807222441434184826263703067224076172609204520215302868264037639671439944633081621029062197203942636919
    9048248783539244403500507557434873912622348954316161868302938869274774353921630043259498591151283827980454088361035096949028474312599966218587400097500395845374150
    5203021327160991627790793003385417776817939986005815746530794089669759585581118603591066351509119874438147953871542884842043668311970382044570583497201855948225771
    7336366669532165970736580973367197633677130027048697118501858754553115507055028383116386310540948734363106735008908010196920757905699352131356379324991799936427722
    91781356576415042912327947072582276345740773288128961143671362507680413105784179530703026763403707495379709997075551766207196596014113175722223779111273
    e1024_16 (by decide +kernel)

theorem e1024_14 : Nat.Prime
    3313483141788931121418347112512215503292631495591047852021093387024468972851913735614883941429861478716660883748833978915216299164110399054543559398116678228219665224081 :=
  ecpp 540
    3313483141788931121418347112512215503292631495591047852021093387024468972851913735614883941429861478716660883748833978915216299164110399054543559398116678228219665224081
    1350406599661529583078362406675235870866970431348943400881947304090729742177418874530081392041039082517986199900584215487433581772148680021443512665246388395352845216872
    768469846070286543544422527131062035472709945396411990122648141556075200033999663044871031895573759496424541302943989662468964704229457034262018450107508652835131826292
    644113606196645437313266215051413004946597700660804299422126478273022499477552100099003259347893352953613583726327665932859992268316812498349908006730883472366439877163
    10531029563275270535908807248004753061570784056671268281277311807222441434184826263703067224076172609204520215302868264037639671439944633081621029062197203942636919
    e1024_15 (by decide +kernel)

theorem e1024_13 : Nat.Prime
    97844119531032087543063920588430758636080701036620220236802842274572287092417905301383834663844161541508550698515699976787386457027012339965792940841702372238320188644244260961898683 :=
  ecpp 558
    97844119531032087543063920588430758636080701036620220236802842274572287092417905301383834663844161541508550698515699976787386457027012339965792940841702372238320188644244260961898683
    76775132236671733145686546435626410049289773114710248233149585117714513386046477701527048028610985908816797818672864760539305532890458722444977165828699226329951446606599909146110539
    3558857640046754709116746986972791857504243886620127008932990776007498545834958438038390313537796913945096685119971897529485741462635825218674285282950543892520530524547267935571284
    31167306593408551015375748043660767891763452772030460737413846766054254371165784279868478285030285550339036211241005307614301556083731274228182930016743417584896388097205340989896174
    3313483141788931121418347112512215503292631495591047852021093387024468972851913735614883941429861478716660883748833978915216299164110399054543559398116678228219665224081
    e1024_14 (by decide +kernel)

theorem e1024_12 : Nat.Prime
    281770691146803660622755874525135661819349214261896389219734478662949775384545184011743589689818338883912782835217703943653547862236433132622504994505559988839870187536900703190465320848698673 :=
  ecpp 603
    281770691146803660622755874525135661819349214261896389219734478662949775384545184011743589689818338883912782835217703943653547862236433132622504994505559988839870187536900703190465320848698673
    102436772053946508199241392003135591799307352464133323000141240165735368391897294502114517462809282120377469061595591441930159219540468001697043252421760861938992733844493099362415067939178644
    267291408171611882465467295892330137527687077965670943957712521264856296112824666381394043265277990912691878973595183927834025513341845200347315814142708651759652001713888827891320867035094888
    20209509426648728036967925128187406413685061351926806684423711205657565157277863112182019296098889341727549481831609948285591891161398346132814060263181076796140953146322417538149403133395669
    97844119531032087543063920588430758636080701036620220236802842274572287092417905301383834663844161541508550698515699976787386457027012339965792940841702372238320188644244260961898683
    e1024_13 (by decide +kernel)

theorem e1024_11 : Nat.Prime
    65472489979639874971579812371168222376761311743441009396365855124481413148401888124908431010838961612711133934066768193467627637341635524840707111295152405902199190282671866539217859700784873467839573 :=
  ecpp 634
    65472489979639874971579812371168222376761311743441009396365855124481413148401888124908431010838961612711133934066768193467627637341635524840707111295152405902199190282671866539217859700784873467839573
    55513533171703335541721563204661087492784164945860866813868813197897045726660015706035204150458578571643537457656121249113663356140455455868143718435328537935333984043331110161377986528668711031677549
    5004306654336209944709910765550718006189460534515501968253501066186939209443995310196367819517130768502566348942884568469278017147225327757445335029326780221526444700504316100646873048908773162319316
    35362337262503517985370517105616512735958356959552968539286720296709105048471524967728659115281611446604362708155805370790370223692797828212488535873089975684599220636848962603105248969527268765175
    281770691146803660622755874525135661819349214261896389219734478662949775384545184011743589689818338883912782835217703943653547862236433132622504994505559988839870187536900703190465320848698673
    e1024_12 (by decide +kernel)

theorem e1024_10 : Nat.Prime
    1003428650439458693075967389863390549977352084312141467597319154425253185543702091262789147491643601561645902031606762459434414786152925882940783881582019210096237528163998985541779808671206773909367318085363873 :=
  ecpp 662
    1003428650439458693075967389863390549977352084312141467597319154425253185543702091262789147491643601561645902031606762459434414786152925882940783881582019210096237528163998985541779808671206773909367318085363873
    142612300151658129917081553970050555790649088670644958192830380293558580595221726225542567072894399186718912442435112443290604258718236336504218055325755909594524010227182701412828238524352512850711461097006575
    916686216279000191802381680876876226445810620710553634099559783319644305628151103860874389884328214826935047670657029997512775666020033324750962131289943996023575828744148413755775275166996127232489342106489417
    60179794095521967994780954961795391443189218359779915738770372057758197792015279396555338730120182592432145817401932418671532555241636110830875733074838350925517143019291067650725875123730463367004876247925668
    65472489979639874971579812371168222376761311743441009396365855124481413148401888124908431010838961612711133934066768193467627637341635524840707111295152405902199190282671866539217859700784873467839573
    e1024_11 (by decide +kernel)

theorem e1024_9 : Nat.Prime
    3370517209872817981220611704789677321666357197384622278552852731304962129226522620504922619374077798908893624700346370225537123968768329546768259404955665628031127195254289325885257726414696726364383843711320547319086519837 :=
  ecpp 696
    3370517209872817981220611704789677321666357197384622278552852731304962129226522620504922619374077798908893624700346370225537123968768329546768259404955665628031127195254289325885257726414696726364383843711320547319086519837
    1323108011423058759136843451259960922330539164850902721209992984711733538176655725304160833273550888296891495007718011011616228888108723943298994396516398397630099713915878775719349695433337073213458998451472103036016864521
    2501967023363842660264352278627429006423250608065695870928191737825626920472202376052779304867063595065374330005802007603992801335664833981748988905394296872728347761442167067176241364713546364371377643892241660929350357931
    1835019243183129654505805370963972337699055449680471789444709558031662402501840511580609578334371554089428412400625515713346019129910357909442315654520338389811152292558007542053334366302739801799696535239315004075465132990
    1003428650439458693075967389863390549977352084312141467597319154425253185543702091262789147491643601561645902031606762459434414786152925882940783881582019210096237528163998985541779808671206773909367318085363873
    e1024_10 (by decide +kernel)

theorem e1024_8 : Nat.Prime
    28547971949039189518800278772852033117513963764369076129403323646850802514350999409381374753320822735941120672196911020363765236376665032346288414692869971709382590951772087853689726430288591588402968608522398346986644540140343973271509 :=
  ecpp 738
    28547971949039189518800278772852033117513963764369076129403323646850802514350999409381374753320822735941120672196911020363765236376665032346288414692869971709382590951772087853689726430288591588402968608522398346986644540140343973271509
    3583516832568350686609881459784467424382733800796945365220376866717183511936339614062464803790178247829115464640110878304286481148707756603081221472236576987392951717552450487897194847178607740803730787528109276484296148840862920521379
    25291815271624070787954761000509015316833579512312530663368082703859281859661960695889026781840107129003558502975933886863942467702358307557799929360372638583830217191857004642633801750297826165930450338239128776066820337034168911992485
    27315928868386345801981790757434111976360686624478408661308690755266607422445396200032118241016494731761176638458337249786492586055935225198116293558922239485842732759839974795315904408307789516381711877659369596378910374129783761083624
    3370517209872817981220611704789677321666357197384622278552852731304962129226522620504922619374077798908893624700346370225537123968768329546768259404955665628031127195254289325885257726414696726364383843711320547319086519837
    e1024_9 (by decide +kernel)

theorem e1024_7 : Nat.Prime
    11830251027709891097401316723191109671864669069990780778948607915931325711144539804248232316401395620951264465437727729934561300976933741426739507194737597166816344795442627315017064295406244286210391946709492671121154851363291099502861456517 :=
  ecpp 781
    11830251027709891097401316723191109671864669069990780778948607915931325711144539804248232316401395620951264465437727729934561300976933741426739507194737597166816344795442627315017064295406244286210391946709492671121154851363291099502861456517
    8760160024762275574427389053936944942475905198347939410138804630034003835556776465520120235104280361058793893721411185222836311865438983104182088620508298592048179124372657440008277471509144978160467978971214575620653047403783965739363173775
    3244935480873168021919974245138355984737715959198801713150122452499947232734312842005660214916994888499172416828083548439223282064696356209725732777812988308192654547039874810541717130611514759814007714820676458826825159948735608126849740954
    3814033562228815338005691976637193156994288131355672384470894285082305508954977917035897458181120113122187373749211630271039052758510149312169160331742216497654631455107614571508345995843656946104346631840883633918752486705206596529187885081
    28547971949039189518800278772852033117513963764369076129403323646850802514350999409381374753320822735941120672196911020363765236376665032346288414692869971709382590951772087853689726430288591588402968608522398346986644540140343973271509
    e1024_8 (by decide +kernel)

theorem e1024_6 : Nat.Prime
    3150587268262690647095241041773607115688987576680626322605846913978917430063939697528413460158946287531862924534978012490959361450396077488712973271849616240341642510922125130949150492887950272658238596496841271444710030313364161349140669243308580868934953 :=
  ecpp 799
    3150587268262690647095241041773607115688987576680626322605846913978917430063939697528413460158946287531862924534978012490959361450396077488712973271849616240341642510922125130949150492887950272658238596496841271444710030313364161349140669243308580868934953
    2744934872319499965619184770376680696226811898497991932463242205188305515377115038621152292254992916700774298730247397495864947552032036107073363982301105658732163731624193576387537359548961666045223376460160241885133378881741399264054565884474517458865490
    895908317019528425650744611481641271543108873570750017413413168627688504562546288273477932144357937794049718808321888576197622004566515500549095161835385585910031439865754213461142555112861898717335385603895457479918561648875968272487584082499820656374543
    1936805036521662057569700958177728844606532327481007720089576569803123420671676398313345016058600303887307071671220148655148131923369141569423811405307790513555224887757786949766644802202133378284242857538063946143392418933795542268652330810083786790421852
    11830251027709891097401316723191109671864669069990780778948607915931325711144539804248232316401395620951264465437727729934561300976933741426739507194737597166816344795442627315017064295406244286210391946709492671121154851363291099502861456517
    e1024_7 (by decide +kernel)

theorem e1024_5 : Nat.Prime
    461782070157640276854344742558696023181151182824005491877593340974124558167143482747279610625358319798244005410088013715475623127034419824523847419250729238526508907071992153261886842615118618626585086426569981151671749759783560238058476711995522734535354969579583059 :=
  ecpp 847
    461782070157640276854344742558696023181151182824005491877593340974124558167143482747279610625358319798244005410088013715475623127034419824523847419250729238526508907071992153261886842615118618626585086426569981151671749759783560238058476711995522734535354969579583059
    14664776912511003156384383419125259614812376842899273947956168327682713779596551740570397047758750561339499568211002690553686768076154072064818861612001613546243438753056968612453740319366537793624128020800371383971769364123196168272508749890002927309536750304919195
    313475346422469435290881741505584060827943046409052640386612067964640204300336893744264971559664337758652157524608137323541845522474973792712469368586946220116549492188273362272475964234775366218075385838577212318377934048841810718156607035787587834343064759866179063
    59528178900352929888068708715895135271851164305443413980863028230916010306148794313914369471083326018719004951233350798630229764592385886245776481185236955642989440719058185710225964006577758248189915934719767035759352618925159647318045788456464780404221093284239135
    3150587268262690647095241041773607115688987576680626322605846913978917430063939697528413460158946287531862924534978012490959361450396077488712973271849616240341642510922125130949150492887950272658238596496841271444710030313364161349140669243308580868934953
    e1024_6 (by decide +kernel)

theorem e1024_4 : Nat.Prime
    473470697917470467542081916682341736919912481563646718887998983620861598983470218582578752129507389588977157675028161518641742099625915028833375023135035264589909990345225757569699467226031708315552360507545993998194390227109179289249962192641448086935013936399106546835157 :=
  ecpp 884
    473470697917470467542081916682341736919912481563646718887998983620861598983470218582578752129507389588977157675028161518641742099625915028833375023135035264589909990345225757569699467226031708315552360507545993998194390227109179289249962192641448086935013936399106546835157
    423728140385617600576612636053779694156864572274493239376013874822360522081666323339551172355730591008844048961357265355668261914063981541095747074042122058953171075489885471775621209187832750274730390714610558803316591525881593998014664512533494631510871148544677426285814
    346010940185594591371038463797580959268878325721142837972103928006447851453049884372185690439067025145059771666015829806308442957729055844575087732870390608947378562573226213624650686096826875949206410081481489032601071836065226490174885954614529309289272993340885455355470
    235881574998884611099678355823386739228372680071359014337201564394212338066278899209358209310411955861440689232088600512639446224948074960368541498817790602243487553506318842453599332889974694270971544275604716142755451557758574448360488655356781606963337140681346340615030
    461782070157640276854344742558696023181151182824005491877593340974124558167143482747279610625358319798244005410088013715475623127034419824523847419250729238526508907071992153261886842615118618626585086426569981151671749759783560238058476711995522734535354969579583059
    e1024_5 (by decide +kernel)

theorem e1024_3 : Nat.Prime
    5905881730189870036580575285519274477935535730469895894487749682098261136772219201160561409668862727240117529089442900378122041045183315574036328855528104781947379991411343145250753442182146121706970299007287490964696613741845229769047512674576596795132165931908858245279201876703 :=
  ecpp 904
    5905881730189870036580575285519274477935535730469895894487749682098261136772219201160561409668862727240117529089442900378122041045183315574036328855528104781947379991411343145250753442182146121706970299007287490964696613741845229769047512674576596795132165931908858245279201876703
    5605465785238767619738110449785015787946067407468271650971282276481206667713697509431694632534116777725781474698139194838263143839645012981277122331204777132386403199406263378532424457024075798153003011533564430411948129462755453530625176044425455662558810113594868137864697903311
    3310148183912424542921691549499447777152003358859278179908459836485387786884436517866171007774559610992719190966109085900125865784381439819467790034360701805484024664495450860371353883860769223088837268173583812403132033789234167760217709894831625389433662162845688028017876033948
    4217692530248024405433255678916130597993667810006382561037798317631532571193202428655650193182287750545687646432248743857022279421925539655082610657121324917498224039206255567900956226720397160135257682472952831083770943166265918326163805888842686046444695422040726209771748504393
    473470697917470467542081916682341736919912481563646718887998983620861598983470218582578752129507389588977157675028161518641742099625915028833375023135035264589909990345225757569699467226031708315552360507545993998194390227109179289249962192641448086935013936399106546835157
    e1024_4 (by decide +kernel)

theorem e1024_2 : Nat.Prime
    2068543323610085244307371538819156715847884022396212924097710145453249010832933366704778808069812264060000657205627689497163166126530752206667889933759923893245986271447032311785994421246621291194633053981437322680708384236347778396351934392796977725310018831892305579196409229197941615262587 :=
  ecpp 928
    2068543323610085244307371538819156715847884022396212924097710145453249010832933366704778808069812264060000657205627689497163166126530752206667889933759923893245986271447032311785994421246621291194633053981437322680708384236347778396351934392796977725310018831892305579196409229197941615262587
    1482093274736428522179702042341616746717525561448626661954116138363891854267538659790729893000962543119075738483964414066841684191091557953283833485093137499147995741139648853806503514021237701543303619689343430699081343907952267251280577689835195543595911918747682255213231709665683524799827
    1107749508521717427412647788566349681712690654806453979989005751677506061442484927127648650515766094803106503567515170767128096934154249624929144387615144038937825972738965364418951779560152549509131392976091725022228020631114258892110745148958980507214107355917212901260964364403793595291726
    1298010713233821928813458711222717846966877814816535248298587328250787636631733671067371131836196753463655845313202352514187431827591001346823697592713348475684467599228927355233884177131677367373260479473233350988709115729390846189922991191493871779843637042305189649184044269622219466790136
    5905881730189870036580575285519274477935535730469895894487749682098261136772219201160561409668862727240117529089442900378122041045183315574036328855528104781947379991411343145250753442182146121706970299007287490964696613741845229769047512674576596795132165931908858245279201876703
    e1024_3 (by decide +kernel)

theorem e1024_1 : Nat.Prime
    800747660360485653360565759191441924557271599846367445898867080109565082980725650940054444494066250128030332148917976961381337167474757563858400861955023269624127724469856647967982951779014860156743915207778640957796428579242785799283092227706054979428359772190547540691028415984581349453844873879613 :=
  ecpp 966
    800747660360485653360565759191441924557271599846367445898867080109565082980725650940054444494066250128030332148917976961381337167474757563858400861955023269624127724469856647967982951779014860156743915207778640957796428579242785799283092227706054979428359772190547540691028415984581349453844873879613
    526969825815628272561528932836998602150216917030906920237083757494866125331543385669512146672660680647073533925714864678066446007479351505160112610049652188294482708370261866299323728011881369838765027400028975011297833779142071070205761238056418055585474259532858142666835801804682878045691994733095
    276396041790205756152294637344023040865347406523492844151460767607521609146944412941064311024021050047726396050678303263506141058491313088321836435242390772421731465794709338294497594744274374404946408618004984689692745807809562297517548307008969524412125593716751333608060652695833879002068272547768
    94907494999034671253196885378981019190008181320549159771307524500073235277444287426546552457019383042242707201068951215905171410776856709439341311934345179992232271267955486996528277893055800693171811676179345794067376201239701817318330785027202494522317390453558354760998039905868575598048145181271
    2068543323610085244307371538819156715847884022396212924097710145453249010832933366704778808069812264060000657205627689497163166126530752206667889933759923893245986271447032311785994421246621291194633053981437322680708384236347778396351934392796977725310018831892305579196409229197941615262587
    e1024_2 (by decide +kernel)

theorem e1024_0 : Nat.Prime
    158297696608074679654124946564912202999139663277505984894261981349837992769596165683700437968679604111373729258655046764462137227577322861762501627230418997487671809885760928375348392323002752945263359796693275288611323927303851169352900910708127230034239565388759941444235878668699843286794016470366892082267 :=
  ecpp 995
    158297696608074679654124946564912202999139663277505984894261981349837992769596165683700437968679604111373729258655046764462137227577322861762501627230418997487671809885760928375348392323002752945263359796693275288611323927303851169352900910708127230034239565388759941444235878668699843286794016470366892082267
    152319044671530930104121030449121518693684339323108039129117903923978797639698064185599470108859098575263532512148807411226374966461176806553684989550361884688569366066349199916585740596832817254791425977223572995478290081205003527973351926782089292687624704149009421221946734349051763945555594509861553996038
    22025365221374398799236291413317708921600547605512914165876512040369990913159094220524066614472645984715106792574002894509131207608732246707916682584763454077315405730236853696784349372334298747476629269134101358020091891244775802533028627123120452684557327239488183273012192782531496678941871889068860088780
    73415507945215493233655432829026370651269329546796421841381946707964392859759102521007697455328484687652892233475377042293186249056173191457532875194417146229118930528994406321119534048983309745612160606501854710032113682678869139743140058559844136758655632831834231481595220370145068996282853100476132710744
    800747660360485653360565759191441924557271599846367445898867080109565082980725650940054444494066250128030332148917976961381337167474757563858400861955023269624127724469856647967982951779014860156743915207778640957796428579242785799283092227706054979428359772190547540691028415984581349453844873879613
    e1024_1 (by decide +kernel)

end PoS
