import Verif.Proofs.EllipticCert
import Mathlib.Tactic.NormNum.Prime

/-
Generated certificate: the 2048-bit modulus is prime.  One theorem for every step of the chain; each
names a cubic modulo N, a point on it and the (prime) order of that point.
-/

namespace PoS

theorem e2048_68 : Nat.Prime 1451 := by norm_num

theorem e2048_67 : Nat.Prime
    238991 :=
  ecpp 9
    238991
    181465
    186706
    207567
    1451
    e2048_68 (by decide +kernel)

theorem e2048_66 : Nat.Prime
    291590639 :=
  ecpp 16
    291590639
    82986108
    6391369
    145417385
    238991
    e2048_67 (by decide +kernel)

theorem e2048_65 : Nat.Prime
    95811722380553 :=
  ecpp 27
    95811722380553
    26397469406247
    41647975954029
    25407392046038
    291590639
    e2048_66 (by decide +kernel)

theorem e2048_64 : Nat.Prime
    191948205824093171898552353 :=
  ecpp 45
    191948205824093171898552353
    62364767793440693210476454
    104988207031284862335004788
    41858746202487884423024794
    95811722380553
    e2048_65 (by decide +kernel)

theorem e2048_63 : Nat.Prime
    1989951235252307722540873771665437 :=
  ecpp 86
    1989951235252307722540873771665437
    1542723699105410744774519769927649
    523670742251446108264911914413234
    735913639711323710380564781596012
    191948205824093171898552353
    e2048_64 (by decide +kernel)

theorem e2048_62 : Nat.Prime
    62977976693265034818839486537539723043 :=
  ecpp 109
    62977976693265034818839486537539723043
    35567900524297728503845199620613614992
    37728369070230922546150081739929541552
    6664855603631459771334886683741695510
    1989951235252307722540873771665437
    e2048_63 (by decide +kernel)

theorem e2048_61 : Nat.Prime
    257514601377066416536030000938666548956076242735927705710731 :=
  ecpp 124
    257514601377066416536030000938666548956076242735927705710731
    243543238959613826486249308590932397666829883960318692710947
    245794017284832920527372754640276154858422633858601099012570
    215351527376326214883373425771542591921829529647274827151863
    62977976693265034818839486537539723043
    e2048_62 (by decide +kernel)

theorem e2048_60 : Nat.Prime
    133353534085306492825440506707227015221800158024623983604899480783487 :=
  ecpp 196
    133353534085306492825440506707227015221800158024623983604899480783487
    121064604386773208756098523713590921854873689068835004940179591660261
    70822232320098618869072087397602291189322548016494291198204953368548
    97788181561281651856774047113733178559476724176799511443852172308563
    257514601377066416536030000938666548956076242735927705710731
    e2048_61 (by decide +kernel)

theorem e2048_59 : Nat.Prime
    160572791598302438245911507351096143543211447271978428753469618338530600550731 :=
  ecpp 225
    160572791598302438245911507351096143543211447271978428753469618338530600550731
    9137002352552557343311920976466262436009653798249674312003576825266441747376
    153615139536430232862539783587573051923074135185000073819119845863597940685390
    82803988335670844883111531166502691609635809354138322516334709450610871496397
    133353534085306492825440506707227015221800158024623983604899480783487
    e2048_60 (by decide +kernel)

theorem e2048_58 : Nat.Prime
    52369852543036750419274562653515900639756967887211147868781646829231461968457488209 :=
  ecpp 255
    52369852543036750419274562653515900639756967887211147868781646829231461968457488209
    31689774171817754450884191690903467876425254358848640945619031843384610082005693756
    45285915868589474112007551941002483012070995424417322379976260577543705665645572426
    21893945500662577332800713901371833286251598759844775538482527091680410039359634221
    160572791598302438245911507351096143543211447271978428753469618338530600550731
    e2048_59 (by decide +kernel)

theorem e2048_57 : Nat.Prime
    10202953436098206592401772971076469673204886527949890225119970310332285107153180167918241682802679 :=
  ecpp 273
    10202953436098206592401772971076469673204886527949890225119970310332285107153180167918241682802679
    8993114591697626900374533660114257515943217137758441168605515179753826032974591040236674187596969
    4876718530007566839073617499284688360730080022609982154386460363270753648206502161262134176837613
    6023371192668684129878535796146439323966833725607066365751902069894862395802762050368512576647758
    52369852543036750419274562653515900639756967887211147868781646829231461968457488209
    e2048_58 (by decide +kernel)

theorem e2048_56 : Nat.Prime
    1271803709312382992745173026532620719800491513497069558459383645091621189607534477875196234710033710890369709947 :=
  ecpp 321
    1271803709312382992745173026532620719800491513497069558459383645091621189607534477875196234710033710890369709947
    681085843515542751742906339933638606601881438689776654047582193853005593434292013231676223716739862159643372771
    355192774830509509530760445480150015273264757088307787365692974764466136608827127634926145165083100122904429411
    1088489144076302316364913545311904051794804019627452277052099980223453237609554215492419311742756375878919057655
    10202953436098206592401772971076469673204886527949890225119970310332285107153180167918241682802679
    e2048_57 (by decide +kernel)

theorem e2048_55 : Nat.Prime
    13155038995365082802250531419102983188216276663192438570357031754048576143121962478690079734671570759316065326821353608068846083 :=
  ecpp 368
    13155038995365082802250531419102983188216276663192438570357031754048576143121962478690079734671570759316065326821353608068846083
    10180555377840183513487736497144511967251522853236260923985774445243109036092033180234853221925556006315157981394427571382177626
    7907300624710396433216455742931369963762590068928922595914045156586659291567637135595796272833689939868728494357879639761680232
    5738342363993431117361676123183932234791632212798039890499149823348390420964876552771691433092504590416632980802332248046570366
    1271803709312382992745173026532620719800491513497069558459383645091621189607534477875196234710033710890369709947
    e2048_56 (by decide +kernel)

theorem e2048_54 : Nat.Prime
    63644179716585832991854157894202594213707198373962344447700417108804456560633962010367700249782700384849952677970658610754866510635884369 :=
  ecpp 421
    63644179716585832991854157894202594213707198373962344447700417108804456560633962010367700249782700384849952677970658610754866510635884369
    42067606692689013629314476781992320130016077465288515705220531868998643049303546755893978971356939006840010230421112964304818339193660858
    26403707462034739283125337849832919153855299214423473329002637789309078115160072236312423206952111741272072306898168424874021848493687784
    43008883455674675203424239699652784892124819058558979698895858121043852946921993753078917829796253586704534918292061093425486339872654876
    13155038995365082802250531419102983188216276663192438570357031754048576143121962478690079734671570759316065326821353608068846083
    e2048_55 (by decide +kernel)

theorem e2048_53 : Nat.Prime
    387042668037947916945691752258509627257365608888048889310707878532163883194056366293542217499049383225906683217127778754860311653196857953424780248231191483139 :=
  ecpp 453
    387042668037947916945691752258509627257365608888048889310707878532163883194056366293542217499049383225906683217127778754860311653196857953424780248231191483139
    319954861967952607238080731547733844929427788642451615813049121586058209371279800715831041551477592051003009130829587034358581596772787440961716031672816925662
    72237339073266567393671671074768679716776324485900249164278346618044532137678998927189096756720028235076678617725244271884019129105936765153974933523312837296
    300692618326168652616854632746479897770019586241598981126290434256938697425288908061543400867610589354518823076252433586451420496922864824306858232582505383205
    63644179716585832991854157894202594213707198373962344447700417108804456560633962010367700249782700384849952677970658610754866510635884369
    e2048_54 (by decide +kernel)

theorem e2048_52 : Nat.Prime
    976999421562814712412667428090083579777695770816617393722561955126628261102494275672825329752869491635645263912270568676791230834273133392991763920048827044408471197 :=
  ecpp 525
    976999421562814712412667428090083579777695770816617393722561955126628261102494275672825329752869491635645263912270568676791230834273133392991763920048827044408471197
    77489963297383815063177227374621463024476419947586137742823157333527109749000554515320738852123689398931864678835400947729220491113822100707723796394828218496341166
    451056279099156522987933232662526770037477443854156972621022979807067138926103738629805488807693542205911174656076088837252273354610773971796871292124736153012549701
    565161677605058066613676848750943232949354444872528876088693425563691888587518129067543347510233878430620530687308986864961327275568618077725986038340058027918158059
    387042668037947916945691752258509627257365608888048889310707878532163883194056366293542217499049383225906683217127778754860311653196857953424780248231191483139
    e2048_53 (by decide +kernel)

theorem e2048_51 : Nat.Prime
    193105351227789241260907052340000898131448720989530544420690404570066181631189568029742561207727706004551209347904095059575548537866606372453037430102630018618974818847803797223 :=
  ecpp 547
    193105351227789241260907052340000898131448720989530544420690404570066181631189568029742561207727706004551209347904095059575548537866606372453037430102630018618974818847803797223
    168302371180588386839648503696171515989746153577363947154723406247143837432166523922170514440570347147178643275282895240372465286581340276940596413002051462935485513386153042297
    182960191512635358145454050494898294674438526964464688760177701677978731338556044395720971646952350287909101373836788578307854156715964343946062387378666188080696810755029832653
    25267583576891435029681694578730253394760723678770406888603909849984182063500789438887828273114473450953797775131957365202011247770290151495028337741825343246091391797583524565
    976999421562814712412667428090083579777695770816617393722561955126628261102494275672825329752869491635645263912270568676791230834273133392991763920048827044408471197
    e2048_52 (by decide +kernel)

theorem e2048_50 : Nat.Prime
    10893835406667425891059639465496803864286830145765251577147271114355177707438536261516112710449179966101273513606013590972302111899382222715430653990024836365983923854694431194884584096386289373 :=
  ecpp 584
    10893835406667425891059639465496803864286830145765251577147271114355177707438536261516112710449179966101273513606013590972302111899382222715430653990024836365983923854694431194884584096386289373
    0
    8540852334877644433845260268388383664968326235136267169081653094507795736161014035281014640566311147133444205885406052729697962001062020404064076722960171301825915265442014395676141276174222982
    1965158490173308107864073728712916635690411085192540367338083828979595348804700012411446380202228132950065288570504778578674731237592313301532703109894828456888473366792799228588007872450239655
    193105351227789241260907052340000898131448720989530544420690404570066181631189568029742561207727706004551209347904095059575548537866606372453037430102630018618974818847803797223
    e2048_51 (by decide +kernel)

theorem e2048_49 : Nat.Prime
    7248104449472105142357620521973643483064599569183452484339165363225073935867155716237130430770257401803914420860264527062343309120585927214672608258280282686632867409109367419331178963907536494852631 :=
  ecpp 640
    7248104449472105142357620521973643483064599569183452484339165363225073935867155716237130430770257401803914420860264527062343309120585927214672608258280282686632867409109367419331178963907536494852631
    4091679532491228054568399495495414402147456347775810657951178496013051390952691792461671788706769722502889978344373317892958303176875780352316015280280987210727491166191453661503793977886499463388021
    1686191594643970582160131785420595314700964824980785137858077494701312249659659329381459536938932481630919487091949281371186363256544892024803528760688781497334226487528644288145067649659356567419340
    2209849469504052456868742253522262903681307978022796338158191404085484961285587330928190442697394169743806395686825414825638159392838579653924506206224799763216943925351115215753613717958159785566079
    10893835406667425891059639465496803864286830145765251577147271114355177707438536261516112710449179966101273513606013590972302111899382222715430653990024836365983923854694431194884584096386289373
    e2048_50 (by decide +kernel)

theorem e2048_48 : Nat.Prime
    926013743781751100192414450546998820235052275589320439115423083855535950329761921097787542330775561999491736803003693224432151239056421448895010935974506186313422101356387672882968299809055043862774437761051 :=
  ecpp 659
    926013743781751100192414450546998820235052275589320439115423083855535950329761921097787542330775561999491736803003693224432151239056421448895010935974506186313422101356387672882968299809055043862774437761051
    396377857462353911647829568548010351411924920849052058592191644865533182435245908571774424486563959988709166760799378077583180745606016352786079066120367037230803099277156592886858017153003663565471238836587
    222016160446288119840805224942193821801348333764115989051235012202236969081967323007296961779283179663811467026089842886759753604026259791479468734996986284847166126533789023465975115185340903862763778253942
    701561183366947717841958062589842413898751363093205156139729563178284481465440530925011779010961189666900374561761678301822750742832543347701700272269065357562568319290639386803116273503071556893151932386389
    7248104449472105142357620521973643483064599569183452484339165363225073935867155716237130430770257401803914420860264527062343309120585927214672608258280282686632867409109367419331178963907536494852631
    e2048_49 (by decide +kernel)

theorem e2048_47 : Nat.Prime
    2209890845788273941590360964227380890157029665784737246222877363865101024631271307702919287150911535342503745978218394958609479920758202165637339260870093451720297936906901169593619165176530503752203812444789548465143670433 :=
  ecpp 686
    2209890845788273941590360964227380890157029665784737246222877363865101024631271307702919287150911535342503745978218394958609479920758202165637339260870093451720297936906901169593619165176530503752203812444789548465143670433
    746254020210587518882645856385424932584478038529628011457774524893052128857833753013350720363719934725271664550995023232437076845453626400785440569393889170028228947451346607015025244549240985297881224648545499065031820694
    1117406497736590898659413043577386237440221083927230070933537875486665432021853193412341240166381567807799680056843276096512832186462552450428628089285387701158575071283498113046801592833140293564583282752426115995038727576
    1558560816506956060294310559062373742799022523068293900538346564025435447180278979537090979078026190332515374358579178610659694782287900092398766997923725253778438745913068656629606349209682953397739284934443349935696570461
    926013743781751100192414450546998820235052275589320439115423083855535950329761921097787542330775561999491736803003693224432151239056421448895010935974506186313422101356387672882968299809055043862774437761051
    e2048_48 (by decide +kernel)

theorem e2048_46 : Nat.Prime
    4687422800609275998527042069073035990344752121701158196649716305187718743351805578468586211991793622637151771063941691463813911586584756797204109429611846848238295439788398584035862229403040876477260043841650426654696675832022872001 :=
  ecpp 737
    4687422800609275998527042069073035990344752121701158196649716305187718743351805578468586211991793622637151771063941691463813911586584756797204109429611846848238295439788398584035862229403040876477260043841650426654696675832022872001
    1854765222065327873345089551893899807406411145061309927562394572636560209474459815311755789917424961679502564678929666673519724359618768561237672969757344693208720334844794894267680109172831598658576935360889586230097193480804201027
    2311327963580695230485843536445369486931238588226487717709361350633071656840967381035465636799794282021421286099775996115477085698208218500701154454026324940125918155048332467773181207828596975285037408072580003548303101032876222611
    1600659841284190430462199450922213487690066018833026208572123283189452333096185311326781171135257359512091757330505010522825840024147472094757067103461460809474606332746513944665750694112604680093344559205179060005811128777799607411
    2209890845788273941590360964227380890157029665784737246222877363865101024631271307702919287150911535342503745978218394958609479920758202165637339260870093451720297936906901169593619165176530503752203812444789548465143670433
    e2048_47 (by decide +kernel)

theorem e2048_45 : Nat.Prime
    759362493698702711761380815189831830435849843715587627857254041440410436422992503711910966342670566867218586912358555759002289059659361059266747154933677264982449316870452080009732557555690920443676125468688734837278917753637537933343 :=
  ecpp 768
    759362493698702711761380815189831830435849843715587627857254041440410436422992503711910966342670566867218586912358555759002289059659361059266747154933677264982449316870452080009732557555690920443676125468688734837278917753637537933343
    377273590282811176291265943626630208483251515959674904763389366067853349286518379691922890647999042914329115532838365956338060035489765516782870062649316383781619184134260139844660184142046933097133074404538636084089296808065524714272
    74038119742356501299218120922470753339605378948378115901324741108013677643491703604031355333873479780729693436818670797319576592535168414882221598970492695247047731034777418838599584978497718753113496782182807059729022217096710677910
    190265164296872039167510789428817010724971185079683026466659797713635990809319495044985277437937751069314846047251324115204455583741044564563391965833007566411187883683578852840045938664620443170204096009901744928728623225188213035296
    4687422800609275998527042069073035990344752121701158196649716305187718743351805578468586211991793622637151771063941691463813911586584756797204109429611846848238295439788398584035862229403040876477260043841650426654696675832022872001
    e2048_46 (by decide +kernel)

theorem e2048_44 : Nat.Prime
    19992571571631690684693457711419905440219960313667882941962178507004244623934832201988537630418039326989643985348850993272258089156686101393881244683343129270933715044541647596822286562013943431633035481744456924966523837757325168092828527593581 :=
  ecpp 775
    19992571571631690684693457711419905440219960313667882941962178507004244623934832201988537630418039326989643985348850993272258089156686101393881244683343129270933715044541647596822286562013943431633035481744456924966523837757325168092828527593581
    8294685524758606568862069113204512108687150395106236196818261871043339297107839485371180739872353163567437027367136932644937339847785865916435740169405950794813908761766514653447591917273663215053587516032277386686289456314132382935854032087856
    8920426807431999180481565258439579705893286236890336385421131293769985517128498975554785107079479496432025628562795237908102996377075783050415794944376381251647300457793383848740151636407528020915339313990095526991338153506444998752852008840358
    210898443839407250084029328306978379583500314724971832321296951646531614467149507732294925422673446895280875243478170396425226789785118692953330739652722373238760793250655525464847611358938358981487229214397578584618278713455140302240951055548
    759362493698702711761380815189831830435849843715587627857254041440410436422992503711910966342670566867218586912358555759002289059659361059266747154933677264982449316870452080009732557555690920443676125468688734837278917753637537933343
    e2048_45 (by decide +kernel)

theorem e2048_43 : Nat.Prime
    18534440074130353024544095123696997093931185642057494959881777479066375399958962792272325495029773867176195159441796972142872964966492907663429928998100584603253043728198364035478054167133650923571795664712043351280732285616500877339971352010281756516409 :=
  ecpp 810
    18534440074130353024544095123696997093931185642057494959881777479066375399958962792272325495029773867176195159441796972142872964966492907663429928998100584603253043728198364035478054167133650923571795664712043351280732285616500877339971352010281756516409
    15514195240085710937109634510012051391979669445243002706702918487672949038638151709073790870955263467440779059511612690586478804759678173665211718689853180061638578316531568296967601797373622186834051075953160393549998206091810780354853885337522274842925
    17942330018882871619630547612043434599199943670493408070362723141408850211991753064708828746883048319539847177843617789344818790962313899452568099508695429550977745246069079109374097873328328268003731157128488973405199510856822402665840106407604459853770
    6246000565384171879533701479999623902788499068724037103504406721128693187350396246240768915977506997413116426346911851532433130880657518841723352405036668801358709010484289149802857178468523160920144381141003765150501591125857952352072972000726929213705
    19992571571631690684693457711419905440219960313667882941962178507004244623934832201988537630418039326989643985348850993272258089156686101393881244683343129270933715044541647596822286562013943431633035481744456924966523837757325168092828527593581
    e2048_44 (by decide +kernel)

theorem e2048_42 : Nat.Prime
    120805423080333412544792687621698296691566041653324483766568878731254458489263124035161075348474117761355183491578934624963338126774461988766889847467309701228185683077352332950828064159323692755497743017986852415619611029298384898780460384470706758400262324087 :=
  ecpp 840
    120805423080333412544792687621698296691566041653324483766568878731254458489263124035161075348474117761355183491578934624963338126774461988766889847467309701228185683077352332950828064159323692755497743017986852415619611029298384898780460384470706758400262324087
    98009677092127683061580693042658516864337221881594722846138852736697338959617144214313561452926788989778079147906706010669975708396545771279764125107934008390655872232182671972490615790678736836799868036169602198772236760321102808368380389896290358225889178820
    35940150663640903230765332353371959432945113370074383671184517923638479114789800029902334617656679953014894214672818883139791148607229214336654731474720009225286831602768351904574122621190806050214882679242305826574438908310530319726169791729634373628330828552
    19986082389636953395897828293297944215218626811614453825096783753250154891596383583894216942043630886943421658855105080335261948754979227856271706163179711828444273015614396194970344960165967595974563350963192427712114051789128085241524037494856110716264460908
    18534440074130353024544095123696997093931185642057494959881777479066375399958962792272325495029773867176195159441796972142872964966492907663429928998100584603253043728198364035478054167133650923571795664712043351280732285616500877339971352010281756516409
    e2048_43 (by decide +kernel)

theorem e2048_41 : Nat.Prime
    56065072019044254761563017569104449304775650535057972969162017205902806658116080285974044102774747208338372527340834085837735444607253910207855879961671088864240928717108147310085716132451325253024563134048970790929890912117146992901556965659756595946181017333835289 :=
  ecpp 862
    56065072019044254761563017569104449304775650535057972969162017205902806658116080285974044102774747208338372527340834085837735444607253910207855879961671088864240928717108147310085716132451325253024563134048970790929890912117146992901556965659756595946181017333835289
    11796358445804106842370013738750073439520567231050079820776378038993659751571440687179114078931247047435933568178528951669700426270959770326257129664602114586117215938211129903656358159475076223352120122919763174846601684665282123408118990557802468972447917782451533
    46370095893186190594446566994103935932438941470382097044690573263054289512330111825266045304199147228282488867566112428703656091629379114201222631726363296978758430793131002799910780577631901226246548790023564137221702686372615884692083800545223102183887020314455380
    30186117292194240463594956733682610341181353190204490928695033972763678267193870267882960577242469355668159632027916097603819762259522126043737083867566173891347275882960489990610045347733021893304197148240557400390015365899198688598780056586481925934209606400764593
    120805423080333412544792687621698296691566041653324483766568878731254458489263124035161075348474117761355183491578934624963338126774461988766889847467309701228185683077352332950828064159323692755497743017986852415619611029298384898780460384470706758400262324087
    e2048_42 (by decide +kernel)

theorem e2048_40 : Nat.Prime
    57187014662995001184900021722614685527564906865247617303572436255250493160791767855581042134363138117411657121177941508470697633106548351008378847865841367289529463204446643807692647552783225874019447274959350288998331637116788696563547229777389212454127854009924408449056168887409 :=
  ecpp 881
    57187014662995001184900021722614685527564906865247617303572436255250493160791767855581042134363138117411657121177941508470697633106548351008378847865841367289529463204446643807692647552783225874019447274959350288998331637116788696563547229777389212454127854009924408449056168887409
    32339638702746970915111678137593984856826212883903336477021981941445959617107332243490579277340731053041374505673686145680952988394802659999617274946713017083105084636694958779820640896514490602541000826927550440917181387448498189481444742353337605180280465289160953147885258203181
    18579395712891389254505227336580128761120392720061327214466270847410420076356193626440825683750799470385213345207276019056089282887891529977858239733159882318670900620403912339745426862245970079411370754011286982711131824370495788927434908647468357222682405729169078091908590844210
    24001662187817630548240110274398383077425479040826980608940558073855302494949438266257611835895605962005403180478687249483700656647861215857556159287771959757080440662909250657538986489697811113921396658309160858931292688584334551725155274942301880007806260112324535827088579099711
    56065072019044254761563017569104449304775650535057972969162017205902806658116080285974044102774747208338372527340834085837735444607253910207855879961671088864240928717108147310085716132451325253024563134048970790929890912117146992901556965659756595946181017333835289
    e2048_41 (by decide +kernel)

theorem e2048_39 : Nat.Prime
    532411106512483461031419202237542722261629282915455317096259381536382091326971358735459502270920815873102527798166635443862194964221965147888046180502437315724073876646878800256147237304129042450483096478689126398440707170726330015538749521938806999372897879858963445036322245774034567 :=
  ecpp 931
    532411106512483461031419202237542722261629282915455317096259381536382091326971358735459502270920815873102527798166635443862194964221965147888046180502437315724073876646878800256147237304129042450483096478689126398440707170726330015538749521938806999372897879858963445036322245774034567
    289094372331427337285398613871091468877725350330423569666438872170127823559086572749885179502329673907637240775720886129328189147127213049959767078696114331989174425493887235990799311088334378724293402765598982391619695212132669600278890543483263967950388174194342645135970151559748573
    331512401140913076255811264202915959682937197222838180466606098848443468199538267605311446641926910913451737683091435554201191218176094877273242727328086762839600874610136087628174389274734707833104719642866255433006734955903890209130079990242108402079491496197125391385734723757070382
    206803827547919986155088597023401190128984305408633115855742494881043984379590709662605855294622339798021917634519107974664809734246426151372275862929901039861422311194019240959514342865696659033567264291170655550219769663089226843691712311695472309016348044451729659974343597997974033
    57187014662995001184900021722614685527564906865247617303572436255250493160791767855581042134363138117411657121177941508470697633106548351008378847865841367289529463204446643807692647552783225874019447274959350288998331637116788696563547229777389212454127854009924408449056168887409
    e2048_40 (by decide +kernel)

theorem e2048_38 : Nat.Prime
    281282441358231951144969222082705935715665397427553469821399692984549824825614296098294680609338276491565115335505832267314188453833912409567668985005310343628948516016962908527180022512228528776511141749459750578683390586158248522826022105158231900917657272293387884014106801209712400762217928434277 :=
  ecpp 944
    281282441358231951144969222082705935715665397427553469821399692984549824825614296098294680609338276491565115335505832267314188453833912409567668985005310343628948516016962908527180022512228528776511141749459750578683390586158248522826022105158231900917657272293387884014106801209712400762217928434277
    262377219968756757646854451649371136315874669524133112509367349678754582683960161632347483952436128247054838455294370952812617939709328256051618389153811658123526431955724351115826665142075226555154826676605297028520079427484171983545563180705014823538010457757238700347185647133328509043456260994782
    256481669725834012125453988267864949921837774553470577019689774099294648275233470571303317173298493338054799491065374021103238913207027534103238159818467286690045371683609590232699249873813451556266481378216390544731214574236404197948250912736829528471959464948279962376630019971891723773666219112498
    176037450466634107500727017019196306844665765455334664431843232323150994456075096253458022265196009878861071233790743902217833653247123925286619216410024080970323334077126865555437769127463807987759851981871787580702785254226727350668259110546598539427038303230879496759895027294952273596157586189750
    532411106512483461031419202237542722261629282915455317096259381536382091326971358735459502270920815873102527798166635443862194964221965147888046180502437315724073876646878800256147237304129042450483096478689126398440707170726330015538749521938806999372897879858963445036322245774034567
    e2048_39 (by decide +kernel)

theorem e2048_37 : Nat.Prime
    235517225584364896229780439711405514562855205935295665174518320136577599226837198894509939484837720229834487940188362345757635364018227192706190105806975437045084372694607486300268494373015765301901064171632274709057047730916910995480846435624978144325809496973548685688156870014064328226402054190303098379 :=
  ecpp 993
    235517225584364896229780439711405514562855205935295665174518320136577599226837198894509939484837720229834487940188362345757635364018227192706190105806975437045084372694607486300268494373015765301901064171632274709057047730916910995480846435624978144325809496973548685688156870014064328226402054190303098379
    164974376634538669318239794270552474017998520513744598720481888872106680538817067197473852182672673669755106103592784424531072659710446609326840320853796167200580692486709495358319588977050086876683244717699899079176435435180087105627161265144897426738468907249219986591400849662486013037647134273950132732
    141344473492760073892093241879140096387823829111433167688125986713623677238077239365776814676782427145581293726693176125604992271913717350658306173983930910668729141069241387245732969040121317725583272835500079622357048399541523924787488258679651234319780014194042392161025804212455427486510871476464404877
    109275980293469402761603932743940213482467846085213555265160266858455633044982937874244346175357221844875757503821367358268118656501130738419871424369370384455902850001309914620884065664418415380957568835417774492176076008757591249075196352483662636297499150330438614874326946358656170197832045093333465888
    281282441358231951144969222082705935715665397427553469821399692984549824825614296098294680609338276491565115335505832267314188453833912409567668985005310343628948516016962908527180022512228528776511141749459750578683390586158248522826022105158231900917657272293387884014106801209712400762217928434277
    e2048_38 (by decide +kernel)

theorem e2048_36 : Nat.Prime
    469182376340001123885209907643298262571536216360333499632671594784859590337546698927475731628863891646896072513081732402527719311711771085134498553991585879866456657598192339941725077961640290310466862475479605262421019608661650003916288461891152351420920337496860255639103745424299224879762177323316805863805193991321 :=
  ecpp 1013
    469182376340001123885209907643298262571536216360333499632671594784859590337546698927475731628863891646896072513081732402527719311711771085134498553991585879866456657598192339941725077961640290310466862475479605262421019608661650003916288461891152351420920337496860255639103745424299224879762177323316805863805193991321
    420082740979284670309234779891782000947758839868689577953045785148542169598759122956584358272292950023132606345972166444114568480120055648441950435216192162941697619715090232329234383087197595458594485319067549485346054932575915502492772439514965395958869666759417471433765950154106240835309741897392125160012421172704
    25531908884973335280267729284166430382155679352633506271050494931761235411686688327191932513251467869223326422462830149606762299983893516976600329029738723807375160594677029516408048727127348547730312841366205545356927445127962638972534139220061870077980534510405032347910149458520053138303266505233188004379105302737
    19523446298944898139302312014705173832622641827067703585626843692730048807662360230963054398517137121586761673514240009065070718310577733350203065272806830825595189331776980353167338713992431893857972367839518876903318225464964211173547083755532681054549019318152263688971380417458499038512879628553723211733685239579
    235517225584364896229780439711405514562855205935295665174518320136577599226837198894509939484837720229834487940188362345757635364018227192706190105806975437045084372694607486300268494373015765301901064171632274709057047730916910995480846435624978144325809496973548685688156870014064328226402054190303098379
    e2048_37 (by decide +kernel)

theorem e2048_35 : Nat.Prime
    1008831222090645041928683576241269859616823715136268681083727236702389029614978788036602170936863606845370177084014200153459298193309676721350345958227194216560405015131204686146498509732872217866781727670436285414757336597601206414525201946788546170167705560037399299497450391082494729760667282719360368594750344669672629197922331 :=
  ecpp 1054
    1008831222090645041928683576241269859616823715136268681083727236702389029614978788036602170936863606845370177084014200153459298193309676721350345958227194216560405015131204686146498509732872217866781727670436285414757336597601206414525201946788546170167705560037399299497450391082494729760667282719360368594750344669672629197922331
    0
    94909915467788822063974943061454582101365402682081329075029471322618535825163380367846189926218955347997508285899059240139529602592210973221234561509119063632148325076155308780596409452510170360579739348619027151706926778883388453391431163419546786429600140866309839407429876024609105356064671981940324890859480060588036262105560
    934344049852728638234420671970127763032306849676638125501611022141055188689261344048454379024035880344021907958045775153736814499073580360646630189147738272021601898440736916044425815548674316608661585222668028681151496542904029102956812379284765188188028246903326720153134060786601727175242265630319604595885193242132296591319235
    469182376340001123885209907643298262571536216360333499632671594784859590337546698927475731628863891646896072513081732402527719311711771085134498553991585879866456657598192339941725077961640290310466862475479605262421019608661650003916288461891152351420920337496860255639103745424299224879762177323316805863805193991321
    e2048_36 (by decide +kernel)

theorem e2048_34 : Nat.Prime
    7691242477733978004190677718475884660510736957359410705475763252076657556328051391815283803435947568318913528253295036748760491926148350691377001455771721168353903640524658489114923075404626742028086218685505683486842490376336706982991745900860774785578604412435025958453529853943705959803316997931293313140282901257353440555789488374683 :=
  ecpp 1095
    7691242477733978004190677718475884660510736957359410705475763252076657556328051391815283803435947568318913528253295036748760491926148350691377001455771721168353903640524658489114923075404626742028086218685505683486842490376336706982991745900860774785578604412435025958453529853943705959803316997931293313140282901257353440555789488374683
    7669103870301507252148039477735594179121871486303665617762896703815607736349498895663258344780991285732874816422316298193736347577774647904564381636870197115398493701880434757116326526496165242559277976142178959270737539886678710750553972364961506358183963954758377704614801937036983546417560836056815127011037561664770159738850085496734
    2032080747347770694451667910056255833943932746711484010775773515628035765746214864431976862436496813844822537668121188275280372156462818751355913774280926103861123670134561786526126572122122683635584332220121419947802090922730780036565121997275530661712654772918111114163835939887725419860252896386236133593082767691899345509775965321719
    680038810786150155558266056183995026136977428979492933079419091633389663685656091239945360696197313673611523481701781092461448845247851760900525843491869032444399436295082286839116469591612662627684370649969976951568585654954044695102831365270981013381888492004318956198887509077270829425725664156540854508774749055434481343282268510423
    1008831222090645041928683576241269859616823715136268681083727236702389029614978788036602170936863606845370177084014200153459298193309676721350345958227194216560405015131204686146498509732872217866781727670436285414757336597601206414525201946788546170167705560037399299497450391082494729760667282719360368594750344669672629197922331
    e2048_35 (by decide +kernel)

theorem e2048_33 : Nat.Prime
    26777779320332893697541705850405350351124414631464393395790836672481324994627403043040739940459711071741515821713994849572794026747987505599703065835592511819938560946100903098450166992704829528526795139917930709458992223275154988397320427807555476563135211011947806534986481795671489522606630992707150409339585392548879611643634152775573258525938489 :=
  ecpp 1118
    26777779320332893697541705850405350351124414631464393395790836672481324994627403043040739940459711071741515821713994849572794026747987505599703065835592511819938560946100903098450166992704829528526795139917930709458992223275154988397320427807555476563135211011947806534986481795671489522606630992707150409339585392548879611643634152775573258525938489
    3968793595202386072846199071445764215746777244628761854804861225779501783318610874351027177053918119980102654279057617501956800640697333270648416915670404471479863828473784497910488736186368889935478915534106527090257837895982886714582309409670148234556026049132211358298706861492632898464481813207508502995354129187347519745717069720318778352047234
    22696396342844578280349081636378253367071425177114780201426068758500169639709881807982301982338663196819447684407562085376079286817178475215316195685503055499281702039053511522370325525726543197131778986903981338421108010488924299277431893655977459875315142993452529858267903879710049672871336910042142048425489266203248114434488112279092645638667729
    2936359315208584542879158814427511727023257587204720430009757498816543074138558065783331153525667353468371715680124814380261670109108464865149774259565214669290243920731597558399926658497119068772856960744987702906159249894139692427272576412184572671452838546978106554897456580463614141486450520210099541068092154320853099850820867958620679249185117
    7691242477733978004190677718475884660510736957359410705475763252076657556328051391815283803435947568318913528253295036748760491926148350691377001455771721168353903640524658489114923075404626742028086218685505683486842490376336706982991745900860774785578604412435025958453529853943705959803316997931293313140282901257353440555789488374683
    e2048_34 (by decide +kernel)

theorem e2048_32 : Nat.Prime
    330540449778043535539981794391421728298715866560377723465178802856084384335326282630844467101364206153660070273492942725266048640418026576926889866910232195614806230207473314346215735543619247308980214343578814306562343474178971141621286717515295310935642057734399572597029604527254236831781658699798240185580983582729477033148561235437383257982143739695278313 :=
  ecpp 1159
    330540449778043535539981794391421728298715866560377723465178802856084384335326282630844467101364206153660070273492942725266048640418026576926889866910232195614806230207473314346215735543619247308980214343578814306562343474178971141621286717515295310935642057734399572597029604527254236831781658699798240185580983582729477033148561235437383257982143739695278313
    253240289688626708524732211188343161342916913746935258891384744643602379714113807120773265045674795997836987105817553018729222381925542923161763215311213444368451862830701811638968457135757548252510862832040439033270679005071584672119633310747252510436285058261673518746839030609151158379288978477255921154305849236396875975263774672834409451889748626475426924
    56080109008549268224862904892244018135769293941793002280213344089763791459748311925465314007497487379208322536682827618337959947281416521707483847461893391572010213642480995611529810756610038985066953587599799066607145310589748641106048054470849731672493092256820830368866420988540676745220441743668188033116581777510717925259433110080704525322178383233852753
    109136766748819844359399474499219944243287978309765313103977920289748717140484083907655883059791335856654014707837437766038125811297473126051718934676024354321680839761907925588637116055699183462994836574495573501780519935373279390950144118092024278164512910365830299371254894261797812592720581075752410781529966544034523916269080040482959711996813048748892374
    26777779320332893697541705850405350351124414631464393395790836672481324994627403043040739940459711071741515821713994849572794026747987505599703065835592511819938560946100903098450166992704829528526795139917930709458992223275154988397320427807555476563135211011947806534986481795671489522606630992707150409339585392548879611643634152775573258525938489
    e2048_33 (by decide +kernel)

theorem e2048_31 : Nat.Prime
    2116896068455113560748411324947112962786424362574221952518770935713758314649178207514283501191687650951780563735903980756672168078163907671888573265366811741521293050816771305786558054278704093587679671063685585130977815836983621890308506258021201710918165035729375457376251656914607609623767607414375402216786756047824071615384221311723516040870500783550061038675609 :=
  ecpp 1193
    2116896068455113560748411324947112962786424362574221952518770935713758314649178207514283501191687650951780563735903980756672168078163907671888573265366811741521293050816771305786558054278704093587679671063685585130977815836983621890308506258021201710918165035729375457376251656914607609623767607414375402216786756047824071615384221311723516040870500783550061038675609
    1927507600055549201914461351012236591104143871721057234180034250283819109632008795351015416322072975757116499667782814310258979505208448093984046091392309802008604898526243890929894625640335702351375799186074375791783740222584183981186313117595427289597273665068033408085730259248566214276400276252847440488969504168470723231319495221370460224264550729547637019015239
    857677749997584828215391826342543303517798907926622432930640491564992116085114716448213349264183463140851388455208059125412205727921060552531205345715332726535984121962982843992221150074189494932655132480259056393673728033221006014760943449327461247368982139099919720651085139500393603523200547291479161842353663072893453092773832194677823748401790822523229258960620
    779860722591549141685105206939038294993411369894837671787261405572949183492833305683483229287042214807352732659801261761079476578447567229730075397265054550601129309036348866925592904891316820314042640260100002433237769182264422019064319036066642143213268070448366573330802839279255386971721659812026881877577529129764494990783217872748457944191147250470343593336451
    330540449778043535539981794391421728298715866560377723465178802856084384335326282630844467101364206153660070273492942725266048640418026576926889866910232195614806230207473314346215735543619247308980214343578814306562343474178971141621286717515295310935642057734399572597029604527254236831781658699798240185580983582729477033148561235437383257982143739695278313
    e2048_32 (by decide +kernel)

theorem e2048_30 : Nat.Prime
    364350907274612753381401298059297885301067272932951383156296145726430341249028276080348754172148810639253296810086560242109709025696762751584062150163417605403001072588429059288112604453322936305044820263456367393771637441526220506176457806379495267131443863459131872293587480619495773384890974465396488108098957496805210742770386284817146098522985559665622545596750340153291569 :=
  ecpp 1215
    364350907274612753381401298059297885301067272932951383156296145726430341249028276080348754172148810639253296810086560242109709025696762751584062150163417605403001072588429059288112604453322936305044820263456367393771637441526220506176457806379495267131443863459131872293587480619495773384890974465396488108098957496805210742770386284817146098522985559665622545596750340153291569
    85336394760213901135589981455178599769375338955831342399227854575592706612214699784236643066347400066948494801035086943249956597861614106662243271212760160778595088843949595491623000026576426300814488454914798307816266236784039226004044538628113867813727136113438704575453749093508413665613304244266805659520813594933792338574225065566501692381515147593368643977280165953755614
    154821921189053861329105148028620681603531330372720034426943034310273402959615188770657437472062309756767996272497566817020578831561316086983669963962003291803119675263478213042139766247237819835703594208750653867440300823591730685432918459392638777285579617252491037910890869479380800635489124027530169081756169020635556854930621397729566855504605041177435901876643002838744024
    128475615281620058345446018614410577851915100327427020807762451947652808752360871847123397503292155957517140085720582538602213238269114225725722455754421400130351699870579839486745631906547607515220251007116763407877222898968785481555973273390713365474994090299410023193914794670155283865843797331157470071349159509280130129295897170612609065721235051179791720077497101881598042
    2116896068455113560748411324947112962786424362574221952518770935713758314649178207514283501191687650951780563735903980756672168078163907671888573265366811741521293050816771305786558054278704093587679671063685585130977815836983621890308506258021201710918165035729375457376251656914607609623767607414375402216786756047824071615384221311723516040870500783550061038675609
    e2048_31 (by decide +kernel)

theorem e2048_29 : Nat.Prime
    50108489468157299306763709385234117736665251222919322849662944584263667520051850651718915820057715533071533886040452705979129242295763060163179064130138113431294893423053020862397716228967459932063651491962068339389610293559418024793672238787522920434787517574565774886734405450042816519585891018076704259660563099136408473226190884225546107967663720964802306061542336523003167319802429 :=
  ecpp 1253
    50108489468157299306763709385234117736665251222919322849662944584263667520051850651718915820057715533071533886040452705979129242295763060163179064130138113431294893423053020862397716228967459932063651491962068339389610293559418024793672238787522920434787517574565774886734405450042816519585891018076704259660563099136408473226190884225546107967663720964802306061542336523003167319802429
    11168638560807517331054800775782827170278420861704865473393503426858920449161817408326751377015640805369323288942015502428528505058766827332086152887921106516793598763548872680334430526408142364923334510771057938689823626582786440050609443077047651848878506860095776733007985592785055175145122584046017734173650340344204861533270649719796160162681122764706459390023973484709042209376568
    26057394307759427813815870701460141521606506629883437701947811348167727729014475605180645753776656764862901195318676924206347929995373334696211917752683156030292622679756234724137272346382281825473407653746927077285488721111965136430785865277893481955662642798595131210553642367459249437560314006145871525095540336074255244670853657373830105486520863872628835984273140769055148884961506
    27001680307037655254371441303590838661614168777989213924248833001594219437445470918904615976159833974673793420395377061441605123369258750908785826897818137351452175790868003766059369566378394734936669433994969386453815474963068628371904838509703222640310168278671939817435132112525964254506214589978926022429699914763825651847403621611366046579652804831693267116276510005299458389010150
    364350907274612753381401298059297885301067272932951383156296145726430341249028276080348754172148810639253296810086560242109709025696762751584062150163417605403001072588429059288112604453322936305044820263456367393771637441526220506176457806379495267131443863459131872293587480619495773384890974465396488108098957496805210742770386284817146098522985559665622545596750340153291569
    e2048_30 (by decide +kernel)

theorem e2048_28 : Nat.Prime
    9581038448333985014187703257263240664816774313698669844516300632552289915672838083092719303788776009913100479811397217041919679523172515326234211995965066750684618572918774937817087805390717225121609812286638769974797957205110450370525725562891009005055126634100764967287908047768555353692656378303410967087189271085512164117053789421752592962589103856283723434194432337142873329021413463441688453696729 :=
  ecpp 1280
    9581038448333985014187703257263240664816774313698669844516300632552289915672838083092719303788776009913100479811397217041919679523172515326234211995965066750684618572918774937817087805390717225121609812286638769974797957205110450370525725562891009005055126634100764967287908047768555353692656378303410967087189271085512164117053789421752592962589103856283723434194432337142873329021413463441688453696729
    7994605347560060170256497172806993540537371045640192064866796773043755369554881308746861313659466405320581085107345718966067395924604042772553825477092364458531384453342824971944784569060542976114061596708017631963814998818602939273018466451793094569279988089191219722816771576341442293043136916010202984945501901757132272718581918917276317480943252657100541638595610521996906868622851755254207369090630
    8007938750511153187831608639547658229139519550032263443647583718814962810831017408576888615211086653560869631657702847011792350372658463703813050676467004663540303560259601317030773690070608662271651100499868442129790593491070394311019549455560117188129444754895491318234899703526462111570776296155508755732878751427648916524204357525462070052391778743854956379602156018631139553879344160081096537366320
    9527494063981488807978785393117132925449174873181731068921753093070472093017169509293206476332632427511664778543317976687448375666076574020043355033018066102668653134581763214083864905095319870060703368031804613044195490806601564019120086420610962531746289403490685271315818385007327759631820343317828348399177249882596705332890883039294487771365714945351005223908726326352990645206921424000698669816527
    50108489468157299306763709385234117736665251222919322849662944584263667520051850651718915820057715533071533886040452705979129242295763060163179064130138113431294893423053020862397716228967459932063651491962068339389610293559418024793672238787522920434787517574565774886734405450042816519585891018076704259660563099136408473226190884225546107967663720964802306061542336523003167319802429
    e2048_29 (by decide +kernel)

theorem e2048_27 : Nat.Prime
    27288262345823555103375398034636712390263417082038633106814952298712632599441450080862588623044790342196665780435217638655900786381797621494983263713180573205005305867006284574403308924307328843902893588316717030683190546965504171567765686893186998615124543341888163327291986966149956994104447961320302960083162658817549994386925674355050038828398573096489691520177104078510846426698174485960042473345058740973921 :=
  ecpp 1337
    27288262345823555103375398034636712390263417082038633106814952298712632599441450080862588623044790342196665780435217638655900786381797621494983263713180573205005305867006284574403308924307328843902893588316717030683190546965504171567765686893186998615124543341888163327291986966149956994104447961320302960083162658817549994386925674355050038828398573096489691520177104078510846426698174485960042473345058740973921
    15004339782726143659947863001350356757880765001308229877279701839020061242190999986386239220786827722972907830696371983366161636206777185257103624145347298087067200582035627133274881698873545689076427355910744389173356884693376078097879985132014369918616589496457961964084550121008246663003248698146382935839050992693838988419907068561584470708289756309194083736323694943995573607057412704772796309068298749117394
    8539037152961067198560285386427910266162251825510735033362540894993134764832727827228255857258651596561238081905616313723533595405936566680225285022723562014011396492360808778870274752301353700119221593235394815622416427920093886665656710805806826650797088904176794759761628845199255979993258052662774479797714571668428154399391494800123627096627687708207532212611651287605992002068185536547212176510102276020024
    12343320883545163624149312479639269052103904751617069681163753717081341799086523724558501181443643333907155357304967508944303625844471114961864319942713232124105694994473344324499501382699873920975398235141407638817011186196747485311155416567775821168228983760485298655510320174765160768976384396019330261765631580160736253969623799165713194730699724022421884077623533197819536047862841761711591489569299178258587
    9581038448333985014187703257263240664816774313698669844516300632552289915672838083092719303788776009913100479811397217041919679523172515326234211995965066750684618572918774937817087805390717225121609812286638769974797957205110450370525725562891009005055126634100764967287908047768555353692656378303410967087189271085512164117053789421752592962589103856283723434194432337142873329021413463441688453696729
    e2048_28 (by decide +kernel)

theorem e2048_26 : Nat.Prime
    32678294500895315354504313405234225095013027750917067995339255306658949215748324183734728853045843420168035598718342697078491621509503051287915347928335426385604363892469099916108599309654361051808280935668211251864440658590208018921946844832712651472282190988116270853205123463696167151031216757952768182908265721929398344099997594269099374215480267167479071447655238522272610841380148194601995275907635493214643470667 :=
  ecpp 1369
    32678294500895315354504313405234225095013027750917067995339255306658949215748324183734728853045843420168035598718342697078491621509503051287915347928335426385604363892469099916108599309654361051808280935668211251864440658590208018921946844832712651472282190988116270853205123463696167151031216757952768182908265721929398344099997594269099374215480267167479071447655238522272610841380148194601995275907635493214643470667
    1072694638738316829239163530705174981724111031917540211757073546072939757043987941491317547800579079065484768854056713229164715170481254122324663704305749722699739466095547802436867039324494932867664277169762971383922850337436865659775457095131548210468748105456268969939679777018161329604071390336641331297519044180854945977421735238484567116501743749596921681121872413264415861074282662324462523581879981153897544488
    21271828432105292943257610708322504513123315528647817221859745881019671781534797640894707889610341743750474762587016886241313677709243874626027349328473949934205878864509360584011123953949658105070521339427694521322714711698837272089331605474577414862664835717641932853809417381296470514286116217493225442381547734817432407967900867994494284400698713103145749746492297945010413328085349853659639963278935908813988181065
    29311552993036436478762570513461562811167538085665542775841416499469588212516356649082958330689913504646731455627152049973391101145579298771176840721378238056697590768389011709801483283911452794913897404206936333882373202816155908018081023031589135464326708617174951682950374324336422947827857309388792188568123667355624347030515389815489130398162415272827254645346564126360418091360503041928782355559556915156228023907
    27288262345823555103375398034636712390263417082038633106814952298712632599441450080862588623044790342196665780435217638655900786381797621494983263713180573205005305867006284574403308924307328843902893588316717030683190546965504171567765686893186998615124543341888163327291986966149956994104447961320302960083162658817549994386925674355050038828398573096489691520177104078510846426698174485960042473345058740973921
    e2048_27 (by decide +kernel)

theorem e2048_25 : Nat.Prime
    1455360523891873764628204101815511448831500203914842540240429074337362962272567365846809884199249682560603633424520110357087702855547227892158597935336346549509275950315003833863812578854766623803333599750919456247562828374680421714909862679497675455928291696187743718827668429930578419540413318480415704891331203821471293057136874205495212526085628691868765610232185985792831500272903351200703661089657462479326269307964129 :=
  ecpp 1389
    1455360523891873764628204101815511448831500203914842540240429074337362962272567365846809884199249682560603633424520110357087702855547227892158597935336346549509275950315003833863812578854766623803333599750919456247562828374680421714909862679497675455928291696187743718827668429930578419540413318480415704891331203821471293057136874205495212526085628691868765610232185985792831500272903351200703661089657462479326269307964129
    869662012408325149354642491644120913847109981894036125260319584616741162727653476063015428664646699015151902876560383960486364124600175710745118549322741016599370410414722549189257383573262789460672766862358143198557323780622937705782271839213980640174415332031002018976264507999436495861058817517014479776123791308799516862821949744212803059131583649098936152353875188491095783512282882674880063714650879852496737643222218
    245656630123730820844455407675599550423813253374260192767629820328939216516080408774675764550313510219304056156482048836191423165927139236469735154405988069144396135959663952850637848563704074673561019932215634071238590270496460113561377924140494868718233928317910884758738367548832898491181235764188410765975110558367781439443755181929163451393414367706114034538961812481641560449786455988120015651892791366089740907408940
    498469032285164811109099047562590794148926383124917450584948905351213264491751510912833803858388137893845739871388273577625582113731446894978926096016066589471913523000622562006916406428089310337608754527619497590097987793095669538454635921813332819598624445770885321140729915878372492573040709407968686628709913027406595378847973382990823382288260633229445925258455836078079995223608196960714201462443545433802413038377174
    32678294500895315354504313405234225095013027750917067995339255306658949215748324183734728853045843420168035598718342697078491621509503051287915347928335426385604363892469099916108599309654361051808280935668211251864440658590208018921946844832712651472282190988116270853205123463696167151031216757952768182908265721929398344099997594269099374215480267167479071447655238522272610841380148194601995275907635493214643470667
    e2048_26 (by decide +kernel)

theorem e2048_24 : Nat.Prime
    39294734145080591644961510749018809118450505505700748586491585007108799981359318877863866873379741429136298102462042979641367977099775153088282144254081356836750450658505103514322939629078698842690007193274825318467086913123777613343294078303868708625358664716013415774790439679512100429234593288145329857395246060378956625293310231030281450371840803245793090811742096670215476971806568924437919317853249254723323672843149337 :=
  ecpp 1404
    39294734145080591644961510749018809118450505505700748586491585007108799981359318877863866873379741429136298102462042979641367977099775153088282144254081356836750450658505103514322939629078698842690007193274825318467086913123777613343294078303868708625358664716013415774790439679512100429234593288145329857395246060378956625293310231030281450371840803245793090811742096670215476971806568924437919317853249254723323672843149337
    16175255761444488949405765305808859820211027677774869520110587787359711245042710893211215540648350028028079141957317276128779359279807421611548619579585611822440691291206438111819190841954420276286563066758813785626234463385029238126657043653699980120037307705515865993858841114136647803336629587317971295566378641168282877968702259422884927071496140013369116340071234958252824023109039638321977270256403184434387377590525036
    368864932283620238880900969922731499405787271573942961904419880071860847694188169461037423871758874253815542274089863395648504565781591376247305524679841602963268930819395924779406505204412950216865773164697166166190795627781764917869109691476892007529530399188512330843445834309923793100181775469474507652655782881539902149558325205416474427168676006581801500622376462749083400942400335442440541009721230161077599882442764
    37734377438920607457036724604008984363497421408871930015153139709307914390299870007639107762138927778430816354118458638811428189324102491512206963886126087479716674249607064793823323542983032510811273244789636152238570583906623734213474793919016053001444891493874352174910668425802604608980305712081494692440758806522487267209853350443216028507688480874014402649491083777720452890844029878876279227384024862733117132994126623
    1455360523891873764628204101815511448831500203914842540240429074337362962272567365846809884199249682560603633424520110357087702855547227892158597935336346549509275950315003833863812578854766623803333599750919456247562828374680421714909862679497675455928291696187743718827668429930578419540413318480415704891331203821471293057136874205495212526085628691868765610232185985792831500272903351200703661089657462479326269307964129
    e2048_25 (by decide +kernel)

theorem e2048_23 : Nat.Prime
    52293903737082992328214518042923219400543354133052624627886039226480476320792757874487768401496240450791735150333716341822488200340105971031722936959062518654629540741746493818103139933653481364237973852896456831719519142136004447168865015515990438066548036830566957964907149879168926876739767095555432680805832100684757493550418443352444669624822467939126741831010790013778501640555455836810425415040479536938289336673464845627519 :=
  ecpp 1409
    52293903737082992328214518042923219400543354133052624627886039226480476320792757874487768401496240450791735150333716341822488200340105971031722936959062518654629540741746493818103139933653481364237973852896456831719519142136004447168865015515990438066548036830566957964907149879168926876739767095555432680805832100684757493550418443352444669624822467939126741831010790013778501640555455836810425415040479536938289336673464845627519
    25018456507029548813427858428657200775746238546893898777847244221859111531372625242435316421608311171124781166130611482627908174105696183128995302284992784086359872723074724929419410584284073743706992356706410400302755402940776982706638966212215712048314689454370592037946407800509070590634795185386617670092974522926004452310292553557322324331333408157254897785132138783213716487470354994964750181062389146643120013783912300607511
    28261038850985363319795367627740736479576015166394655308393081695876872715394890739016728365168030970344493069287641982172842118014044133868546234941966849880430427744206406511994516012007756518081262514381666719920025548462312187113283215828941228780167204756457938568037720228609966646880932250000237045545859987503786567126419289973871855186864029270379057686240229374329388313694021535083789967561611674407008436313087866603014
    34489248470790683327623169338392273305215729843784385550192964040995173019910925812332297108127393523215639999075397376301063724553678814055983065478915965348718347242408496749685171087145862520023967586160758306790995385678578165475502569882186840096601761643353084433978655764045860741698658506849107907450174998247029036423966117513750596984639377886616881443102835462984278610255979804874058698423488017311707859227218994574621
    39294734145080591644961510749018809118450505505700748586491585007108799981359318877863866873379741429136298102462042979641367977099775153088282144254081356836750450658505103514322939629078698842690007193274825318467086913123777613343294078303868708625358664716013415774790439679512100429234593288145329857395246060378956625293310231030281450371840803245793090811742096670215476971806568924437919317853249254723323672843149337
    e2048_24 (by decide +kernel)

theorem e2048_22 : Nat.Prime
    55597157356306842567914169387018138177660783431390323476386683920271020498830190240908230223037172803016056354247539431353427392869951074833209230509574073167988166549179979866802716966918884983079154000204066375296947201262059068094207738435413000675477805775542016772879314818974099382323794448479088768213054373542071002884641301021017744654364959452982029287969182403871606011602804346080616403212790667018386123405985341716417930652457 :=
  ecpp 1429
    55597157356306842567914169387018138177660783431390323476386683920271020498830190240908230223037172803016056354247539431353427392869951074833209230509574073167988166549179979866802716966918884983079154000204066375296947201262059068094207738435413000675477805775542016772879314818974099382323794448479088768213054373542071002884641301021017744654364959452982029287969182403871606011602804346080616403212790667018386123405985341716417930652457
    881922895638427378174213756646557956088272177275922305189788996943136741973636876968172201679605660228413032829933952462524171736224622702720441584134143683381712177437420945143073162286695532359983257824308971487808287682611053978204849255721920301621015591741734224302673373584717585477778776063548171529663172327622576402901636701010931609052347322120014386606782019748930174575351483750270710335107832654613184339344290191607237497212
    48581896813658531903587992200218553006891692401515426365626432881947662567587283760564238027977220625127964894900746829483255162583406787904040763014211723384439772307153551618460893926468516118407387034960639922690439155341454795891902819066826194649580665559154739956137532812551468431165681106760803276660955811486740374108623094619560593133972747500295315166238969631051633941295772675780583373863868479322245079026043039056571361244418
    29334941891899236612671658879131369145671482741619849432548544190038539963350702868764644172633375219474379387731342896338900482908184888434985138733014216516032957786383287472101483441711681835898321441489021851103700233447007759579315137928116749622157476246975865112206854583047769436027692172311854119986123668181525453833074134033424077343278188417378230694610999071065925760542179269081903558829395350284769150680905149446607622722075
    52293903737082992328214518042923219400543354133052624627886039226480476320792757874487768401496240450791735150333716341822488200340105971031722936959062518654629540741746493818103139933653481364237973852896456831719519142136004447168865015515990438066548036830566957964907149879168926876739767095555432680805832100684757493550418443352444669624822467939126741831010790013778501640555455836810425415040479536938289336673464845627519
    e2048_23 (by decide +kernel)

theorem e2048_21 : Nat.Prime
    54934840429707148114680602556571178693468156893101391733122360254252558610168053931889382512567859139443051526367561011576231184679008207588153372919707307302337727806523573389525147429078845160754888383696899376646371733394344869587730644262493239740675160409333564973290264185753793061189479477721008707480232077279665199155268477516372558518646707410454426892911707816278731207199254975220610025558261294368649695551033908691957219427660981443181 :=
  ecpp 1459
    54934840429707148114680602556571178693468156893101391733122360254252558610168053931889382512567859139443051526367561011576231184679008207588153372919707307302337727806523573389525147429078845160754888383696899376646371733394344869587730644262493239740675160409333564973290264185753793061189479477721008707480232077279665199155268477516372558518646707410454426892911707816278731207199254975220610025558261294368649695551033908691957219427660981443181
    36867162103617796857610820738083505720167370927312998000537453025175237570916179261648088772833570313196475781663868450807915270238655088948234929629844530284794220198413384604535080381636994648518031269116573225111766005265801138332120379726219250335047768045460974274802107329074498772325660312752280161257709376311149700914785619653863892275560721688567066867317309324065009107888760543699472281806822395280843062782741957245902618686027046396928
    8861115895008163696570752863196848053710894415198749365346657260747190047092171021631608121079417440419162170301184851793624485570743132345756159052192688531229407293346098315349835581878815935241287654293861596058230947226245986791913270115342512947790535114146762210117321701413322995292942335729189939175590164580159160226182437131136669170492513543148584726321975990150539811048782477312868509250484388506389070042660056417687224892406015859932
    35609650835249099709903160392244624766696045297957860406673423074117236560785215769032026354703793267327714619131335636040431806292381806081438989212804556628448440237001444122162492179991854170874576381373435879512146915821521033266536400591613003606869589048384272321552561233095191723662902382254377568698357751061938470300556394450316438669950817547210026439716854873530964335315616865539973384988678588864517737412737369043496732790496125776919
    55597157356306842567914169387018138177660783431390323476386683920271020498830190240908230223037172803016056354247539431353427392869951074833209230509574073167988166549179979866802716966918884983079154000204066375296947201262059068094207738435413000675477805775542016772879314818974099382323794448479088768213054373542071002884641301021017744654364959452982029287969182403871606011602804346080616403212790667018386123405985341716417930652457
    e2048_22 (by decide +kernel)

theorem e2048_20 : Nat.Prime
    3603176183784491844841900721685503610504576410618520283775495609076425319240922657392624598999325880956069749614448326749285003403096148335706979729803602285960331566829881178618954419873281454093913129086679630114235521993335164154952655815098130471929803642135457387630081027225371149997034891131505196168335512985558513412503909517928704625599941000021158218770532684308054567731129216087550882964122072089969812717275448901224107774825463033589009057 :=
  ecpp 1489
    3603176183784491844841900721685503610504576410618520283775495609076425319240922657392624598999325880956069749614448326749285003403096148335706979729803602285960331566829881178618954419873281454093913129086679630114235521993335164154952655815098130471929803642135457387630081027225371149997034891131505196168335512985558513412503909517928704625599941000021158218770532684308054567731129216087550882964122072089969812717275448901224107774825463033589009057
    2247191766162652513198446608376472835565457668823503123703620764968132160137331842612198656389546170706604150592594415458581385429058290343866865352243232742961215718341374290695723007210249488199257086184578019452804477247328181868547468107348777349614711264954055041513782747580033770764684402934130677383832367796360767120728114644736915592191622300438433017369251833233863911239603768988660486942151628451939282369455003783454316646981495350497374139
    1256512489298173808537940167034964913539616760084987577585406901015513948449162665184880482897158686503451141838907580443627112536556379654999604747469535185881181465321016038396937526036324119180572120728250532382023232268467736785750453145894902595634577688181095032284420158672864256514943409084295390846464040072768838760432096572333316342384190730637344920870802692997896000779871685983845792044340230685199978608579177809796260827928009966658293808
    1173067402118486553740755716678702192731443790350339634342401009167911735258023418297568125337144384073905116999072526547709767299681523038254110417218983748038538314786791164935113817989508025180409978842531476042885487982088896613676627182529348963866356886709445622069519882150153722825839556960807996420814217359633505203125751001475593512734046959238698597146850103742307525809694802026890259303889249179224703781881504128009869033687790163405460736
    54934840429707148114680602556571178693468156893101391733122360254252558610168053931889382512567859139443051526367561011576231184679008207588153372919707307302337727806523573389525147429078845160754888383696899376646371733394344869587730644262493239740675160409333564973290264185753793061189479477721008707480232077279665199155268477516372558518646707410454426892911707816278731207199254975220610025558261294368649695551033908691957219427660981443181
    e2048_21 (by decide +kernel)

theorem e2048_19 : Nat.Prime
    9402028576383985162567834227753752643488582022173444022786953133032603945599085513758037027005523547355601041020595845406974176346070249090903435786983470470651853834342936613514799245549212620576560279384247261629285771044889811123563838879112851009770546983846686713936211686474677548837598620383925006427685935172215691418539317659909238908651167418462828104568971272727257020288558382218499390982491347569284241108133592573788085443061645662912524752510815141 :=
  ecpp 1505
    9402028576383985162567834227753752643488582022173444022786953133032603945599085513758037027005523547355601041020595845406974176346070249090903435786983470470651853834342936613514799245549212620576560279384247261629285771044889811123563838879112851009770546983846686713936211686474677548837598620383925006427685935172215691418539317659909238908651167418462828104568971272727257020288558382218499390982491347569284241108133592573788085443061645662912524752510815141
    4338948946377359887038864908559255612620747904836939957745947068539936162829550757995485775301522423807748906291975461789325961466047519712044849024308251189120366401388744781289924537063971474069204526576212749645651547139155115015432220793919327803436333052504466532448263681043257458670410099889587517114476586786170564472380271861788018319746093343969408965512723276880614369580781102810526679593342478040683729855214473941924901115734254740248493293172156521
    2869237052807669672443458714910287777118508960454857934588676100869613550547294532180971590607242722874696966429819904699184075492423226101991620033330309131320146319276057971736212278721009225696529113206389195227113317233371386597187949465022543705184178486155769117546667831210218624076345804637822178468823389029345688718268830529016859907787593908368162606878851331820685731857580833678603011481649335044625747928729973029568533017249725151895033604555244124
    8791285753097229523468431219937537909701549825753111066895297561605637280710349340700317200069678832850310388186656394494356484450399468614251423122879022757537734047074128036449481626542905194914597305843635033272784910982270447202905356476625051567764987226393844887297044642202392094096737144189540243160961952116684964208384690816347252023189046925417684936881675889170567366090365722238062504901208057681844851716012994166016689794785409503255828129499920153
    3603176183784491844841900721685503610504576410618520283775495609076425319240922657392624598999325880956069749614448326749285003403096148335706979729803602285960331566829881178618954419873281454093913129086679630114235521993335164154952655815098130471929803642135457387630081027225371149997034891131505196168335512985558513412503909517928704625599941000021158218770532684308054567731129216087550882964122072089969812717275448901224107774825463033589009057
    e2048_20 (by decide +kernel)

theorem e2048_18 : Nat.Prime
    167460546393061409200893252756618685738460631163789606221812883243382076396291436786779883355994296498493724546530262826894921008110902582144982912373027586767590999043696153060466348960795545300052137404623001475583464830943805274021422541553534922339717298189760389771915434082106221149087732805984028858865908305317797004155699225991728339021197905882717987906186929933374643908610382576691066794216485027565818067558502200620554230704639130960828784609411314374498083 :=
  ecpp 1536
    167460546393061409200893252756618685738460631163789606221812883243382076396291436786779883355994296498493724546530262826894921008110902582144982912373027586767590999043696153060466348960795545300052137404623001475583464830943805274021422541553534922339717298189760389771915434082106221149087732805984028858865908305317797004155699225991728339021197905882717987906186929933374643908610382576691066794216485027565818067558502200620554230704639130960828784609411314374498083
    110034063427524180482096877055211595853018135521381379607607611634276712730944804808901985600098762867390610866642171942443167607765828815153803790028890322674001204033031555976474913949558573900579141771363449487319932285471228031030441926584068521486580802835614287510686853151369925076160059710384576912637438765521306228515390737979237055377227846694877053528773522575548259386767671295502334028686781853881411794298578078979514367345752334920227605835964789812418602
    57858902712793159283351845266743752080083209605782253238941535403391423007966087822761847416414717535711720936103918669834881135885011895818592647662307074656907199124429220523886174136171694758592173631374263179485177178119096952469807312225388365727720003716700109478003213667571577237709597053236217992485278043130504511465534705245428503757409902752238018458841293132906320701993894338582342440630687218824305714108963549802489935118518732105563483738538052058399717
    145696469363770301126460036311307500381850976082043057126181531386576013928236269575754395193928421012684516852162533745783784402588139871174885215131818869597050107740948541500057214522493921038423407062713609710004252596821867224544985025236001040951589825142436109883971950370042866721978705543441996247369859933318696818052456558560273028023034862149256269501740509709746194378274596546615148908127915497023832785861198146195609271758773825380159967451099454442934276
    9402028576383985162567834227753752643488582022173444022786953133032603945599085513758037027005523547355601041020595845406974176346070249090903435786983470470651853834342936613514799245549212620576560279384247261629285771044889811123563838879112851009770546983846686713936211686474677548837598620383925006427685935172215691418539317659909238908651167418462828104568971272727257020288558382218499390982491347569284241108133592573788085443061645662912524752510815141
    e2048_19 (by decide +kernel)

theorem e2048_17 : Nat.Prime
    481950782677045163434533977860537551080546742646861831547952590722920642340221169906605357179018161345478945270015910294752275081659145187802932241877923902606779824883761353723409910443773736191368851241955379754723309449596947803412558031464632798517557113064984963532236632825327379422132712723628536955976325478305428986436566114232015308226983822954968375010882047052871578840024725724591535508187015919300791777233916666164200164196109599182243012427839928110770429609679 :=
  ecpp 1561
    481950782677045163434533977860537551080546742646861831547952590722920642340221169906605357179018161345478945270015910294752275081659145187802932241877923902606779824883761353723409910443773736191368851241955379754723309449596947803412558031464632798517557113064984963532236632825327379422132712723628536955976325478305428986436566114232015308226983822954968375010882047052871578840024725724591535508187015919300791777233916666164200164196109599182243012427839928110770429609679
    373993809039528544580004405402636791269410207044242716240104409988271753025631039125534292124327551774667848496378248014001133158196985094591588568486102842734675980123195669920210698261800421805340988891774784166074829195646105669404215639736702713978698702261809726656569471490538829159070194456560711704560404272991576589447415285784927515600546990053660389749287330995945066760673001039847388375627708620460802785937031183572181328627461360029838468790663293595358891950954
    192414121230630081280707906066670335707787227167112343929453758830741801513082378442246581989748311784297112718277255368785692297975998469894262905405054876978052001985894220696355273554455104649094550394679298638552216089754452969827006084161533346441151248384318294607163863031943140944408006462006011320353917103325387419146853135134736611275896932279701036156265477569694015040939815950747746387743524430371677124526117588387729217112549569299862692901799768277284338663740
    342489533942574403475813933121409422321882709173769239466028547202979624741468772816526787802387443951855939392334071191033943409372613358154620737715263480102462361346521534089956492486180357829686727632167143361069858047448514380782164646925624396295064270367474378198599535131819908054935700909132544330422684573856747948651888038598956533263764783042213060956185670549125498590310503686532366074067311394312645627135604287536617198452290981830565498030157012992943633934871
    167460546393061409200893252756618685738460631163789606221812883243382076396291436786779883355994296498493724546530262826894921008110902582144982912373027586767590999043696153060466348960795545300052137404623001475583464830943805274021422541553534922339717298189760389771915434082106221149087732805984028858865908305317797004155699225991728339021197905882717987906186929933374643908610382576691066794216485027565818067558502200620554230704639130960828784609411314374498083
    e2048_18 (by decide +kernel)

theorem e2048_16 : Nat.Prime
    675592653905424216256467695610220744711361768741384310654597619588068747673964989415399129492000613684261090778657354980303334759993309662428836873785234492597579779021913872351311472642887208170143056725418125954328476043463739682237692236208269831084149677295719135091388911530007978193611116054082562381930169737044038582223792928991336036230384371755710469872077981431623441922019894932061609101023448130852412077714014815445460372268177228137124892996271781825222864296248572586510507 :=
  ecpp 1582
    675592653905424216256467695610220744711361768741384310654597619588068747673964989415399129492000613684261090778657354980303334759993309662428836873785234492597579779021913872351311472642887208170143056725418125954328476043463739682237692236208269831084149677295719135091388911530007978193611116054082562381930169737044038582223792928991336036230384371755710469872077981431623441922019894932061609101023448130852412077714014815445460372268177228137124892996271781825222864296248572586510507
    464822694127870102487001531927320422371970543195721929696367971734363475165158517988489634025011119341274027350146512909534300594501574349717732850962534570139875039390994887384201414401702891211090509241577276291019486474408756452481338685876185348441576916427201230542364975556172960915683931548252995822587881840368172659530848756091940062607518561971839010535353016192662799763390913497592446837414367545753492655725991240510517936383468303863703116660276923702732202546559675061148847
    76069824037552349896705599516606966317171047517206827893473736655436945064186863142204589556718221497932473412731047869943036109847457209825066898296089228214758421091563048932232121566218889291176843631778226665475067769603151052838000525112343046121968316283181358192689219730645989751981643014629513457833941424999346194215094886561561685834938964276094150996938856158626420964194428427801182959411688761512311423198227527737692911030624883224124000729050237856218625854014842382808894
    306558635453756060567360688593535288974059438577499151934403557427980172110628291359402273548575664803996303570078392574728809563646808560997876253637944917736049506690138994815088161565196277629888859500115642612170943806918953500407084099745585457943947652290664647276370868052723031026572726628971318805987327559101374630633400958391211251276410570961415671198892146302637412704088693251524787985770194457024531718252447473480144644407970498119735455818033646518106210356487283269851178
    481950782677045163434533977860537551080546742646861831547952590722920642340221169906605357179018161345478945270015910294752275081659145187802932241877923902606779824883761353723409910443773736191368851241955379754723309449596947803412558031464632798517557113064984963532236632825327379422132712723628536955976325478305428986436566114232015308226983822954968375010882047052871578840024725724591535508187015919300791777233916666164200164196109599182243012427839928110770429609679
    e2048_17 (by decide +kernel)

theorem e2048_15 : Nat.Prime
    3612393920432303284323332768427850321971651377460181909070133471937403593812690798404139145393727281369744052393480877079681930961684226765006990764129648831919259078430173475462462444221517902085754924310810719477794361404400616080924940387005622578523402707630812705120863237935141175186349262212131438026296735613671998396873992382764437530486028320491619527249674072475411459723026519890647727236818264693472890079775010979797605814202854832496075078089486450289730842454600308184455975501 :=
  ecpp 1622
    3612393920432303284323332768427850321971651377460181909070133471937403593812690798404139145393727281369744052393480877079681930961684226765006990764129648831919259078430173475462462444221517902085754924310810719477794361404400616080924940387005622578523402707630812705120863237935141175186349262212131438026296735613671998396873992382764437530486028320491619527249674072475411459723026519890647727236818264693472890079775010979797605814202854832496075078089486450289730842454600308184455975501
    0
    1365611797874921127960688846073796816158097183676443576012820154797555193713344972348686120953319245352398485226269129195073787196255087551552325787366095756493585072089627031340508250703770554317980023063146128797678174687545198582654067981346390555725437442224085311343665587297593409533410392307704294032636494193257346548582898806006483683310305880403094168051121414592595907981126997330601090156017990674926241734586007433348327848944665244115007968628128660378251751222679493035849377955
    2015156753579358440021092213850372128719348220543261820893464615369864098116742502458784642420949015231836645684363840819983455386038951419177104073720029552037690675763816692463035722073464003381154745520472693710671888035774881013151176899796001044561807518899812393861944838100711924031680231739506971464423640696746660869773981264488863741881540693722303607417999007082552437104704903329710600901068020048951841473419896380718273284913116650427017191522164460032741984944809226460808436108
    675592653905424216256467695610220744711361768741384310654597619588068747673964989415399129492000613684261090778657354980303334759993309662428836873785234492597579779021913872351311472642887208170143056725418125954328476043463739682237692236208269831084149677295719135091388911530007978193611116054082562381930169737044038582223792928991336036230384371755710469872077981431623441922019894932061609101023448130852412077714014815445460372268177228137124892996271781825222864296248572586510507
    e2048_16 (by decide +kernel)

theorem e2048_14 : Nat.Prime
    48032465646906934470894415905420700749134089114406580639705193478730826602567510466206161806311057465738243294479516123024436206429646619743036443460043596887723893500437435482628696326057575519899995737562883121787317836631495503479995804745330491972049705740984243994704394595333677970440633648777651865589458962990511506325726252767019769311209006823863890830990946192011041778354036839961616263657141635718435287316907781021828261932603083817251969580439228211401708586617559106609257402287200745894841 :=
  ecpp 1635
    48032465646906934470894415905420700749134089114406580639705193478730826602567510466206161806311057465738243294479516123024436206429646619743036443460043596887723893500437435482628696326057575519899995737562883121787317836631495503479995804745330491972049705740984243994704394595333677970440633648777651865589458962990511506325726252767019769311209006823863890830990946192011041778354036839961616263657141635718435287316907781021828261932603083817251969580439228211401708586617559106609257402287200745894841
    3467945538816479978596310773887288993990760747939089049636841621820035863466534557840050225728569814557687962951856759399378977578862088639825342161399062043235387300740688017440634991658578394226507379810752835552076877930291361213807114563930919821651706476527073348321888251037404377712049485725754780374061110953796699149172339160820395901705685686547261763791107334271559360290957472018878305409114735077562002481620837630721998620454708161486730899556710102827723194415743821609189989272590611214745
    16812282437938005217629377333362674311610537793664504013610466855501119152057830327374403289656662264897485251719433915258830475823702916577423953594621653466248785239995364650141319001641897555888236771327170916657771970917509596399608246625062607243391385102539947715008272790822697929526278257898956706587097314850619027045005934417074145069094829219480907888679267123479449176337138613226046446445837673661796309099014319997053391167621697754539489617105215955583988214205675660502948279848073156742500
    14757482191684867666029335129715477826540879283359030389595887147989671042934949580523112341205330638861643666323247148658208749220954399288553136844594506725047962820308531347842011872248165862450310546568360507460968649846172420005878378073105224466438068974925140745044538873504034477730275565821144780767287407042462276038103403095889477868758610889475096241770350843825336626149911275773726399895433922807618612749060074777364988096893538765315125933918848935992447411876064194277460003129044002675775
    3612393920432303284323332768427850321971651377460181909070133471937403593812690798404139145393727281369744052393480877079681930961684226765006990764129648831919259078430173475462462444221517902085754924310810719477794361404400616080924940387005622578523402707630812705120863237935141175186349262212131438026296735613671998396873992382764437530486028320491619527249674072475411459723026519890647727236818264693472890079775010979797605814202854832496075078089486450289730842454600308184455975501
    e2048_15 (by decide +kernel)

theorem e2048_13 : Nat.Prime
    5056340913813673107946184928135469521025272473495408222907576343032982887369930862632016005636583191459303581853738385440948285757150980980685342980159542511019075160012520998618178651291391540934599827796505470624962781364052508557278996168750310712071313956624143687644958549607568364821515315326591110911036500532208990048634631809246208743404863584018681016786772887936976015997970622093230054399765379832945995955022489807766479854045415256181845755527426646764615794408094768930052188922874472822733465973467 :=
  ecpp 1678
    5056340913813673107946184928135469521025272473495408222907576343032982887369930862632016005636583191459303581853738385440948285757150980980685342980159542511019075160012520998618178651291391540934599827796505470624962781364052508557278996168750310712071313956624143687644958549607568364821515315326591110911036500532208990048634631809246208743404863584018681016786772887936976015997970622093230054399765379832945995955022489807766479854045415256181845755527426646764615794408094768930052188922874472822733465973467
    2856176944147213030026021509056786686516838455347914624146264809481957655580402704521132194190930981340114081585014602703000297829708636556357160378750768885303006045188640742230894697357755510844877152217601210199182858002142781752145439925327415835347965886709042175179773539522977848460577426073924589595781706505575664776428827563829896903160937636529903605033166941984060604658604197761527424944013141810917634113647073200830039167060504833736119678829641548325155618749865186219948569411154374027421065693825
    67248166320464938058479862223207265420400099460765350190617238965613964212608345655928633502023460438383958040596390220186618060109581364820543672615300848109837458983998751421369441910047407986543716985891536875266086909615340061735360548330623823090139206303024489288827331827015569180753487245696641836946267318610298720048417675144212187215653985162416844491432581823120405501671185326522058472943156425685379207436532293240694293013186778166226421639463133595748204519657828119333810999190418740777559531398
    3529057907302469046401494429758040227820046330646441621840914201806468470185514661767688390789708812183821535187260490324663563276910565391939525773568437813616523013057959367961392938627056088711591100592399491880949396613303133613797494884418823414314031554797119616959948481043841643593961329824242516276814908263319469506473532764103842729588085612157382081672178378749284066350754063060076292362014469129649553546168097565930373237583920630893568436628302361836325533756962088606054530030473276465649638081857
    48032465646906934470894415905420700749134089114406580639705193478730826602567510466206161806311057465738243294479516123024436206429646619743036443460043596887723893500437435482628696326057575519899995737562883121787317836631495503479995804745330491972049705740984243994704394595333677970440633648777651865589458962990511506325726252767019769311209006823863890830990946192011041778354036839961616263657141635718435287316907781021828261932603083817251969580439228211401708586617559106609257402287200745894841
    e2048_14 (by decide +kernel)

theorem e2048_12 : Nat.Prime
    25382831387344639001889848339240056995546867816946949278996033242025574094597052930412720348295647621125703980905766694913560394500897924523040421760400903405315757303262855413063256829482785535491691135538457462537313162447543592957540560767126559774597996070041779801970080132470439263450668737451040820445526197078122162465862763411701047337079501634798225087210248297925097393738384416675725074380749538052697116741490369513876646218417079092854933054442596337161921166943243971022628840048091604652157448988145553 :=
  ecpp 1705
    25382831387344639001889848339240056995546867816946949278996033242025574094597052930412720348295647621125703980905766694913560394500897924523040421760400903405315757303262855413063256829482785535491691135538457462537313162447543592957540560767126559774597996070041779801970080132470439263450668737451040820445526197078122162465862763411701047337079501634798225087210248297925097393738384416675725074380749538052697116741490369513876646218417079092854933054442596337161921166943243971022628840048091604652157448988145553
    19374326276098014382674642617061030818127011072327757784678258441854635632680603091630816235097856757068582049683760637767554174838764513177163842292928276316260950774241618209762670130150375115644850155120607197595459733137794389030346733939228712901952564564841499171911107853915526004951499029108736238529869360714824338523232483905093993165301740389959725549679964293800864954897091266864522736517447159798834949334088499870021107720175940557165859801567589132938549336495635575573434155774298275253794170776568312
    22394164946632984170150276236867833957067072142784352876496326840012634661079139461500899891871356689279719619140346081681746348626141605170662595071951723222014443500819864929862968097361795289775439461443612965779560724386095090690155795440830320579616998463593656941524155245123354479045418301747272319577691578870205108301923832620318742430926244135941977723839915500567597939391894791856229761894922895825048070141662371787895225776313595366368088463541139647228698617942858108426836769139676362951029335478310986
    7663156364846065522240993951084123561166986129325129653086638801195121355941899435227544846493656507521368454707405656176150956752611683824430739628000607786247278383544765889994394610189039852188996522969977517321573091017339996776447447332540121456324482476716482168163703259841215115550440247105559902715313071291503480619928215621748690216148802387625429577707472334071660626380942470783134538344233857137447932318897502989762417907733997825280238855690400143934249345320647354536887268646373030284221064977374574
    5056340913813673107946184928135469521025272473495408222907576343032982887369930862632016005636583191459303581853738385440948285757150980980685342980159542511019075160012520998618178651291391540934599827796505470624962781364052508557278996168750310712071313956624143687644958549607568364821515315326591110911036500532208990048634631809246208743404863584018681016786772887936976015997970622093230054399765379832945995955022489807766479854045415256181845755527426646764615794408094768930052188922874472822733465973467
    e2048_13 (by decide +kernel)

theorem e2048_11 : Nat.Prime
    139496629518081031319798054636748295150882885836537884728172731856465883756269780566092630519891176996601500373495669271370013168541740730984669430192009328051821049937600100596415045063843180329685970907107784984526012245368264904165499320132383571565736403786074365018214540459931987707892582736336308482473801496611664344862997161956836551039833844788244905396431406196905658830528347563126880652882796880070453802634284504051194732689847257530499418015000859267333928634006192828334567802589623228476035283869298655194739 :=
  ecpp 1717
    139496629518081031319798054636748295150882885836537884728172731856465883756269780566092630519891176996601500373495669271370013168541740730984669430192009328051821049937600100596415045063843180329685970907107784984526012245368264904165499320132383571565736403786074365018214540459931987707892582736336308482473801496611664344862997161956836551039833844788244905396431406196905658830528347563126880652882796880070453802634284504051194732689847257530499418015000859267333928634006192828334567802589623228476035283869298655194739
    73329070959994165334402956033294927393698220888621128760125300716862945722721386785441420565557832810916856699001097785722311685699805293479753754800417971139162366612196690396321067880202210226372736842462764889429450050308129316761655757948755972581401986406631892265341683069755672274431878455318189129229867570478725669919872021864878945701714368129987894662395066064736298984273676955766339486463655795718629937401178256296230070951158469482321372932397590553882441741634059113590647209485747745316587644397287887857981
    11268217478050919319393566548973237565921465805582807072228224370141340033279667597688632983445200784425203168684069259058940041641712878275081696080024033382183470832825786998012006703024409861065380791311509016612607337135223809986684151298712996299533477903409244052990461302789982962299567948238769489122924571596757854146743623042982209501715199298462656574729669697681829076066535247765215405069375455415199972998081903711289487831032924054598222258519332199557601046608794675415995232647153352388112755704651912693848
    45896731675779845852115193094095774633306972264372150314100128949669877998500084815121689215282057966953338657180086149717352520165971201370792858967581237966613453412317506369343849006807927918822521811021342052104787117659973421127798596674414390754769610615202941112720056623790257209503549478119308998466290097622190433670500056097301753008708991594560215338213836776241796603711041019106216436620303923722136141751733569410100673607975272468175063511433751935091572984395688574041537705429179818374103072725647640185773
    25382831387344639001889848339240056995546867816946949278996033242025574094597052930412720348295647621125703980905766694913560394500897924523040421760400903405315757303262855413063256829482785535491691135538457462537313162447543592957540560767126559774597996070041779801970080132470439263450668737451040820445526197078122162465862763411701047337079501634798225087210248297925097393738384416675725074380749538052697116741490369513876646218417079092854933054442596337161921166943243971022628840048091604652157448988145553
    e2048_12 (by decide +kernel)

theorem e2048_10 : Nat.Prime
    26560576750131182606383508997000785641613554111934322865898272663666673664845035029125735128878839773683915475614695916276664617329853060401674013516849152089050883371268871953859213825290933064313197918626043584408706309554853742547823567051166229176830908490079914523354411370922166397076541856710702460732713544602094503070470084623518602441135503843254774211816879540792494397777348158216448296683751719553523259000496384962883830163630979683817814863963821970646862400640675204821390454357220999962715466916876608110005974927 :=
  ecpp 1740
    26560576750131182606383508997000785641613554111934322865898272663666673664845035029125735128878839773683915475614695916276664617329853060401674013516849152089050883371268871953859213825290933064313197918626043584408706309554853742547823567051166229176830908490079914523354411370922166397076541856710702460732713544602094503070470084623518602441135503843254774211816879540792494397777348158216448296683751719553523259000496384962883830163630979683817814863963821970646862400640675204821390454357220999962715466916876608110005974927
    363336486405064933340661852486226654730168677990243617353350620330756272944431218060091874197292127295457488913916644705084703430968916668806620640009716201987928035367315184395705907184587114947983886422671931092186819387225888178639795103569625782855576389928678640975202703619196670413559210546411655215666926722279298914586569868729213849391788281299484229048399298587984000276739592196579313370895120680517744707047485783153457216865841843656267487553997445813790321046687384257166271808348310046095345871750382684415416375
    21755826293374627113550053463946152717642234309733391504895532101809914731128780324684735490221726000100987308264575340173286793903408478624371970047208184071580955819545925046056525919872552074920704530258885684205831859857441006949444197190568711455986161866994321874891975475833282184068304538875350100632773523181687018915061459097532120040967684572567224053171428140563389016623291498935854309257866651098108233641000757537967649487199121643326086412267614452195003673883974624394451930673625008203694759731625325606756187853
    7278482331296706767981231923363014846775427819186553992014442906457614275339094212735249878036624678058755441660991091736097882762957689553563755808178501427711412077049754665515015625215142800819616162468697048489842457910630572435738788516489959786329360092186162403147358690806365421957974539669072112365049288597087944264027332096750202088168506029611368929490904536376277559140101126551022852448935107324124941784541817045078629448092942845192968034821046403636618269837217099181339053911132744071371293354622585530492144142
    139496629518081031319798054636748295150882885836537884728172731856465883756269780566092630519891176996601500373495669271370013168541740730984669430192009328051821049937600100596415045063843180329685970907107784984526012245368264904165499320132383571565736403786074365018214540459931987707892582736336308482473801496611664344862997161956836551039833844788244905396431406196905658830528347563126880652882796880070453802634284504051194732689847257530499418015000859267333928634006192828334567802589623228476035283869298655194739
    e2048_11 (by decide +kernel)

theorem e2048_9 : Nat.Prime
    5410502865685510549912106182186732396162424749974360376573190796671654995170807431259064437574234879375124125186360200257025200710902867611245826977804376952132706074782200956076643002608303611834499623946147317324402424804183109878428433787374294633514901198504117407582787797995360489446451503020444919478787116792680566615934737376232503260352997871476012904736944753647847938635515722258991928038217287430885709418661864607383647849607225972936919271949799075405000794176082034949004056877660539085534147073078484985121468414232388186827 :=
  ecpp 1757
    5410502865685510549912106182186732396162424749974360376573190796671654995170807431259064437574234879375124125186360200257025200710902867611245826977804376952132706074782200956076643002608303611834499623946147317324402424804183109878428433787374294633514901198504117407582787797995360489446451503020444919478787116792680566615934737376232503260352997871476012904736944753647847938635515722258991928038217287430885709418661864607383647849607225972936919271949799075405000794176082034949004056877660539085534147073078484985121468414232388186827
    0
    1701909277099301242904339460650813867005353940943265750915616320791156963489997620910945484137338696397284427419018641088274600270849843556487473073780431465410368805653337512546135333257368771554404771679747331897241824593178659582468787964938296723524388990099483023646142840930198091759326087333541290194009786662153844678578857180383391893509147509773790686474597811599953190139254839888676297275814816116101704950359249559707500970956585797790744366012220109311693811971786156835724572633989047868464909122634972554104436784176828615176
    4091008501182335441216188280181649820088503144533572305442377577676827707290384991283517576043830165436992431458113499289388658564301013117033032885568754113474902900030100782173893588851453648637284609983221815796996106770895447410242084757027738990159818954409727320572805829152809621211897403508964898983025021548997379936474483432544556751017219252339693334733712460737214007594264956363601082725094863520171597305423126274435429481916701565230155824694963405814035652117126051162975828037466110257098139243388358328918355641956421773450
    26560576750131182606383508997000785641613554111934322865898272663666673664845035029125735128878839773683915475614695916276664617329853060401674013516849152089050883371268871953859213825290933064313197918626043584408706309554853742547823567051166229176830908490079914523354411370922166397076541856710702460732713544602094503070470084623518602441135503843254774211816879540792494397777348158216448296683751719553523259000496384962883830163630979683817814863963821970646862400640675204821390454357220999962715466916876608110005974927
    e2048_10 (by decide +kernel)

theorem e2048_8 : Nat.Prime
    9506609156541797813432995185017231589604315249558917496397927632436781461054631243553018012605283562372244656110935120934835771401448664616641269965717887430985474351897210364331102761174064884573014497264663568909848158703527253403844847508512612208723353073197709563751923798029830658226226334633803336927961416736785795649576608940893936994470106658049807316408606724318552714920335153153947849874458133804632854929779424928583585238817309549377251466495676515937473470697649501150657610168239931002090112124232580317746976394944938919274000022993 :=
  ecpp 1795
    9506609156541797813432995185017231589604315249558917496397927632436781461054631243553018012605283562372244656110935120934835771401448664616641269965717887430985474351897210364331102761174064884573014497264663568909848158703527253403844847508512612208723353073197709563751923798029830658226226334633803336927961416736785795649576608940893936994470106658049807316408606724318552714920335153153947849874458133804632854929779424928583585238817309549377251466495676515937473470697649501150657610168239931002090112124232580317746976394944938919274000022993
    8797735327793434295214657578796859785751407826305650233801903483843018512758966549979067997621815367858857177511942974680756645461274019733485118280773092503087941289477974782958563386190079374198262163850109777973571019185084608148929222095780740919778391348125861047871583724614746682323747423480733655199836311928214299409862997181505658429442673525186502735982598438537862336364939998672615897956334420557658150198450312296405432252864935143228965685291391036833312700023637180323641053837636321504419335112355942147073893036733337024380049326680
    580903369976806492125634022511453838762400537116704553868310955136289364755700014551229590417358524289059905298115227595184744682184689056563962107152996631202497257308322264781517518327127813323300773026561958358143133793116366437973962777435897700228664447273681480704612386465977477785778260823505771886858143801823015175013249740607669040967746294968296849569377892460866700267008998198529191494797633524866888746269007862400527816040196552733218148931680424344435276736154974603125492906239609252474251267818863104434693580225065614621937698292
    1989329004311889943420220284464964716663947519389628041847341318535733529566529579697406665069996428349948276083078438690065975828508616760956378841122528746711458420898672482921270523687567511643191530308595168572553346353469426527276663427299177635962124748419991938550362209685795403083916835180454156475962225706658480711564886410496906402458165555986226885512964388308917855538037108355483369055472593205164243763545675791001210037390418801606165835179753186955377241183695883366213446468416574198852123960525456624331928137145852093116488355425
    5410502865685510549912106182186732396162424749974360376573190796671654995170807431259064437574234879375124125186360200257025200710902867611245826977804376952132706074782200956076643002608303611834499623946147317324402424804183109878428433787374294633514901198504117407582787797995360489446451503020444919478787116792680566615934737376232503260352997871476012904736944753647847938635515722258991928038217287430885709418661864607383647849607225972936919271949799075405000794176082034949004056877660539085534147073078484985121468414232388186827
    e2048_9 (by decide +kernel)

theorem e2048_7 : Nat.Prime
    492754917814335725749244402360866954271149451707091681161146010450988878758862693240009790646225995951541340026340126138123034761377180384331151925817535382841405824034057118194380880678842755049544699274962584979384388371201357264889509577144314624740979585974379433809731529424667093463648802853519022772116776300082407463712228929142799900560245402737909482928397811919531548227261691270544636584553959862585868300678193185273858050151698742642172167354585808214354123804312244186802572653843775251975763093947852123591628113815445875055981533550438928927699 :=
  ecpp 1825
    492754917814335725749244402360866954271149451707091681161146010450988878758862693240009790646225995951541340026340126138123034761377180384331151925817535382841405824034057118194380880678842755049544699274962584979384388371201357264889509577144314624740979585974379433809731529424667093463648802853519022772116776300082407463712228929142799900560245402737909482928397811919531548227261691270544636584553959862585868300678193185273858050151698742642172167354585808214354123804312244186802572653843775251975763093947852123591628113815445875055981533550438928927699
    289803508106039729167217994517972875915808927613005965468894320307117335271827940407548966196063280148722171497758731106877967374876511864573373682790014292331256610815459621605754174761903319667293417764049063125809482757776795610876883981238897967195051377770092660780810786760186998157223412450357938696788959818897460062220688983832041107577268154945216199753414603571070726181428662248851485072344396350470372937750783970824893378483770720239722573577374895505438677250647567327241228807988686301130006020747605922156746881868569843273038976219223375693410
    144509028553368160741059649832684879312797006604634096306507123892205540159463692462435081506387393206975099453896485693123468714790069617193018981565041435046527237611702522327150397309479307724619645524118910043280890054492490546221454261143288327415078311442815791282354061315440344708911447583855842627424786211825438005471793660505760387973646403698472347123768848504613639725114131412938713085676896843183960242582015352502566446232466927658402816668123525387061333350890035199765715778060450279715600594344755243359521199301221326326431679489359558206333
    337972046157213402920365454534778788580647436858892770299615440205763538677065816372352258272616397391855485797789800867398396833179570224891032228290024498410013142871270404857977196379511329286687679254145037916671383284260933481577315562583392327599754373552045161584684050542675697584832980321887655937569318973886943417125770524325492842473270982304759652834964233295168984695245349547952311556599811686325563644863840428506719471887987495710581652555409684063823445036493669465147060037054767576123288103826508771422976266662001009569592122194992383953007
    9506609156541797813432995185017231589604315249558917496397927632436781461054631243553018012605283562372244656110935120934835771401448664616641269965717887430985474351897210364331102761174064884573014497264663568909848158703527253403844847508512612208723353073197709563751923798029830658226226334633803336927961416736785795649576608940893936994470106658049807316408606724318552714920335153153947849874458133804632854929779424928583585238817309549377251466495676515937473470697649501150657610168239931002090112124232580317746976394944938919274000022993
    e2048_8 (by decide +kernel)

theorem e2048_6 : Nat.Prime
    593349223963060946911800898572131027672398054156686269094579933859396104525828728101676281054657201158493734955618256809688632921834731579166860597268691659542847697296376935575101478232710445034785747719868966125197998629000917264481161298401028347761656914929762030949998530954074720462306216802590958929115936127214642108038754586798408080775400872538644176138517553095074645180503305770442203515973357428045688130514373425156612163612356136257808208302254545788962345841385246561277618250762734723782302595907714059956170052587514784285298236611221009131580996736749 :=
  ecpp 1861
    593349223963060946911800898572131027672398054156686269094579933859396104525828728101676281054657201158493734955618256809688632921834731579166860597268691659542847697296376935575101478232710445034785747719868966125197998629000917264481161298401028347761656914929762030949998530954074720462306216802590958929115936127214642108038754586798408080775400872538644176138517553095074645180503305770442203515973357428045688130514373425156612163612356136257808208302254545788962345841385246561277618250762734723782302595907714059956170052587514784285298236611221009131580996736749
    176231798936854195303305547427292813791403894178094190204443751295952660660440835158171952139137371106060877203051060244901183665389098398758923338965242911374669677187935666371266783488371279360977480455561449847456325252106850735077998437967904423628804625958596838445611058127965726112497326987221476250341617573035558341148841146202078102769566648958953520065850572090116327393560380162676159073159749468954693808741921834413517547941211474099522371904380013996395977465404389649126550493568329820812410697616556461571160574191136764750565983144468398371341373665645
    334410011668254716674319274879010067765221736437521705659863676728935746920476086407528682393166698050091642842494623375649023444167484074735250662804352351475497043340400367547750347373258703885187588734540645531960576171633435197580371172821353152357971077433146997487473333932800500950534655155461546830911646220013277563761211660757038194543473955004958426350257651910266900120534629389164614904400118316452283821240989786311761447363637904959632966257977854041560996720303649232971767898553022907838969501937595266735806440604958613739967651973020420752549210986619
    264941289795921702287871729430335313609015858098923327100203798448207067011472646187378920898026077416986870609645555482074429320211156809109391986972866595334119060239226249746166574435218279765507510896384369041363355227802169401915444546779296668994370789842221954368516865269794832049873916052952607648754140510930705870543773823498926212080580045595100187108952662202374385267837356751659937044475771864695726214088126083345931759859650157918047161207557748299547837730091144147650476342958184223355668010847843654500253488513496642716727270393765662778628276625422
    492754917814335725749244402360866954271149451707091681161146010450988878758862693240009790646225995951541340026340126138123034761377180384331151925817535382841405824034057118194380880678842755049544699274962584979384388371201357264889509577144314624740979585974379433809731529424667093463648802853519022772116776300082407463712228929142799900560245402737909482928397811919531548227261691270544636584553959862585868300678193185273858050151698742642172167354585808214354123804312244186802572653843775251975763093947852123591628113815445875055981533550438928927699
    e2048_7 (by decide +kernel)

theorem e2048_5 : Nat.Prime
    806241694599648277350965803094581724659701507740497614721192703080142657562835957672560593198471192335103110526527616139306996754019689303044392518962216514570644288002940660109307353071762213130234625542645948123432875863957152559075108370899287785754800105668679261500702175128994311476598851390315704174747517108192950221313490995944606793228024254180500377208538842448475002265024074761469930434309697356155689652568634835894150091553134498083942283881626679499425824749235061421993831184276551733195340090808686466847976725544227746962120249448276391292475531090039793055778009 :=
  ecpp 1891
    806241694599648277350965803094581724659701507740497614721192703080142657562835957672560593198471192335103110526527616139306996754019689303044392518962216514570644288002940660109307353071762213130234625542645948123432875863957152559075108370899287785754800105668679261500702175128994311476598851390315704174747517108192950221313490995944606793228024254180500377208538842448475002265024074761469930434309697356155689652568634835894150091553134498083942283881626679499425824749235061421993831184276551733195340090808686466847976725544227746962120249448276391292475531090039793055778009
    705362208715382718998713986730683008082456199921911893202696637772229096765363056528098171334235022993484213124665488885544927737275357133835932924763001531422581963821507060705670525139764266564721688739470398667260164969562521671832048108869851538575043285086883229495598468467801633198510804546443485194913644953972699054767419830212362323412932111007634669870425554908220406125757873955410593749218730404687709988809232722555972780618848988099082323991353680625959322563845666652857665337521354773932725625845096161722027883282610136112725031333217298643322563766575539610868371
    303684461633382409589845856750400275632609810317181906329865211167034417360854443051445877871508673866545593302637352473593778522934404131294395832707048511340528865544846884310824189853528585399522182546920132099741494549523566792159921129523319033648401300997337088169113883787397972464882268641415411727105266314339915981412471024531602179616138854547419815100387628655638839950247279494559759866799613127610143440553699090953161683669832912596923332512860752405676117139909625065071929508366211078678345364809160142692514199918481985232164547262897903316883419169997436946817440
    102256297818666385114975150167310535347965320281224358147234708497839328699742890771975336746740975792157967747794052536561273866722943645513877617155053769091029833428568008624628481575262598106050881023135657576162483724567268230739870845493116662815164510631095744882383780105349129623398834230046664669929280846882302643779960819856372435835365981748917388823558150011608521870763755504547286006459949475179682987744085401210254776145004021025184943726346250699976186355133882163183971994471878957950524870579070925862800923519932141622004196989113230187615864593648420383104220
    593349223963060946911800898572131027672398054156686269094579933859396104525828728101676281054657201158493734955618256809688632921834731579166860597268691659542847697296376935575101478232710445034785747719868966125197998629000917264481161298401028347761656914929762030949998530954074720462306216802590958929115936127214642108038754586798408080775400872538644176138517553095074645180503305770442203515973357428045688130514373425156612163612356136257808208302254545788962345841385246561277618250762734723782302595907714059956170052587514784285298236611221009131580996736749
    e2048_6 (by decide +kernel)

theorem e2048_4 : Nat.Prime
    21370503579367327525506561289745185838308837907458137697027103454278059247581580252919176992950873728700559621023951588336100391428994187045828854490788654693360218386555258089631176116102524472187053180652049318246903799901828207848273962814168693418459316156088249157418338081473865014155647573690129849531974251587673199924537510657557538003059704697704596350154429982473856357992513920350375013931908815901607035817722770260613399119779332401847049218533132663230921617270416169391142406841444281062177598350167091347715789343118085906653763687405144165263028673070135163406532714157837 :=
  ecpp 1932
    21370503579367327525506561289745185838308837907458137697027103454278059247581580252919176992950873728700559621023951588336100391428994187045828854490788654693360218386555258089631176116102524472187053180652049318246903799901828207848273962814168693418459316156088249157418338081473865014155647573690129849531974251587673199924537510657557538003059704697704596350154429982473856357992513920350375013931908815901607035817722770260613399119779332401847049218533132663230921617270416169391142406841444281062177598350167091347715789343118085906653763687405144165263028673070135163406532714157837
    12879706745555114241641023812036504106163427639855742638791539213651974671206618912301712621448411805658293061358185113924367810681516558185031100100647711093674056290926994496855366912332549958697526264060669507993242702709875222884310936992012458663213038761234297116033242310028645450800295917534459474829609462199913876848572480785043669190490445902188684301971803263835101820085753488707206641697113414670328924850016571049390917756358619002817465692760324931505121188168051851071041861970756100147354725589365678225335495839489293007510496951094414190618428676846821243277630411503797
    20196326012362754866360759481038076185278129868704010721566532980829069661269857340681942054319537685418603509053489492891515744079565776924584394043533318182250769456008364632331098814312794742385793095837016814600910843237986141813795114773828903826261937538865420075108036460822402170166778207916306871673343128402169237941193656542299964009287347843848687494641588927079415849636379220730799533204006920137732217318340173607749449904198965445713774481856102347066246255014075922431287137507977291419802350292579043307274522678153428482715204534486694614667052521016839147761621752301307
    2287685035618858286622728418748337264838725163488842678224169232636218495673110937775733619413649659027985844863712026798011114999226326895731790476779152535425250697489421795936511171671300731685008890897282325757815724598332363215987103576127746745361491879807927466591384677977744035014270042071504442687668004073921788755542982809101449128706443554987254424252631648048779435738825927336449762955774789134243471606767005797268207672329987144405162181776850794444900626172701458565103253710067121244812681853967804744570645773962302356687751993237718200390108536607730815883476868079082
    806241694599648277350965803094581724659701507740497614721192703080142657562835957672560593198471192335103110526527616139306996754019689303044392518962216514570644288002940660109307353071762213130234625542645948123432875863957152559075108370899287785754800105668679261500702175128994311476598851390315704174747517108192950221313490995944606793228024254180500377208538842448475002265024074761469930434309697356155689652568634835894150091553134498083942283881626679499425824749235061421993831184276551733195340090808686466847976725544227746962120249448276391292475531090039793055778009
    e2048_5 (by decide +kernel)

theorem e2048_3 : Nat.Prime
    15265189351155552846415814061034908828794259312090260342010122699055091643635140518166852474514289386817738136446696594015863458830801635384922291533588434684374164747075143515990636011075721747373992999762627169458500247444609392581619133313503443530604893465477351410622259782178137598261992138003189211107690953572860195739482529560508816844258822843935169625209481467474197936946230241934985232148077959375353208593451788792894312981382983624863069784428589633366949068202806411644072616537171240940128756724838974429221627201365678712067115487086796919081913716664200649026062540445448753748571 :=
  ecpp 1956
    15265189351155552846415814061034908828794259312090260342010122699055091643635140518166852474514289386817738136446696594015863458830801635384922291533588434684374164747075143515990636011075721747373992999762627169458500247444609392581619133313503443530604893465477351410622259782178137598261992138003189211107690953572860195739482529560508816844258822843935169625209481467474197936946230241934985232148077959375353208593451788792894312981382983624863069784428589633366949068202806411644072616537171240940128756724838974429221627201365678712067115487086796919081913716664200649026062540445448753748571
    2974904759474957487944447375536029225173132454923659877362200886501255818858778168302989482366508820603213795670921513762338199569247723758966763242374195657532193481759589893327102613400183301607234429208494693253259823617635069720002383575139961909025062301466595827850444553812241146224030372604691037232697933213195352217927400479896068588876821469684649006250281605881010728976689909542386918842247665922351612763892773870651169728658720685619286905266072866280356626435933401654694054575584799315789928659334603775276883609297181242011440923091513978039682355196612276895077315908134842466915
    550511486809320699120539115026664553944219368555915383907218825595532095566904139750034002987842960700976037009587666497397176537255050466184562794315792518917222450514182111773760254018149636417449608656634085402318076555773556152298886866943858127219383476005869263948603137963248053388428706683026973472818269846004705369936269764869235859133566716350504319515630435064913720046569353247796047447919246562023434763067545195949378147510574757282200688495547797287725250693735757054757053102740576139529638869182567184882724545297731005729181101023035892154372012672264612623315525104967838168977
    9801651308902314463563293198879282811049382249473801674673968145831019360109739948323410401246548319485624159500720077947195119546069866938484797805661008738959218694362283262695795869935111291951783215565817281751162810057217561724061357351403604396146802337637855380775048613098270741610834184670267033942253206235508269457335803788478328587021772188534114690956463306066199246038220388589464185921562676922037038195552985470757092568130364273257396879928750410121328383653802243171595808657315040919793710543249785555744532860736564024421255679329984576100327743144866559329512874277054182066169
    21370503579367327525506561289745185838308837907458137697027103454278059247581580252919176992950873728700559621023951588336100391428994187045828854490788654693360218386555258089631176116102524472187053180652049318246903799901828207848273962814168693418459316156088249157418338081473865014155647573690129849531974251587673199924537510657557538003059704697704596350154429982473856357992513920350375013931908815901607035817722770260613399119779332401847049218533132663230921617270416169391142406841444281062177598350167091347715789343118085906653763687405144165263028673070135163406532714157837
    e2048_4 (by decide +kernel)

theorem e2048_2 : Nat.Prime
    118702112394585578933729370138607451052704160410813864419470714107852392620906852669265444841823114271894731749009512715067354255868313516753155738965183668105693505073256315980343185622124812307580169566154188869709297924129282636714670380645802776893983651587551884568998692066217197964085250865112786256022252434964530796771835331398412187533978547438492461850428421748141123090327767092801286099045991018272474334527563291344194431645710650939475557601577206955830088475680142807965071371124790555212445492133531522941530744655130040762998104472810203303364659109877285275499423194789195484944596969 :=
  ecpp 1986
    118702112394585578933729370138607451052704160410813864419470714107852392620906852669265444841823114271894731749009512715067354255868313516753155738965183668105693505073256315980343185622124812307580169566154188869709297924129282636714670380645802776893983651587551884568998692066217197964085250865112786256022252434964530796771835331398412187533978547438492461850428421748141123090327767092801286099045991018272474334527563291344194431645710650939475557601577206955830088475680142807965071371124790555212445492133531522941530744655130040762998104472810203303364659109877285275499423194789195484944596969
    90873510131289608803339102839368774505739190817369604452476988740921292957814984348003660257807258683280317087028357456937467715659767294413624235932190078365840949311654176351573343698921122254813542586342339861035901171507357418220941735095243662903786304754853825633848379376147361388786488757709557714284491293596057413210885439985268170703416503524608635251516858797820204766440379250811102035293403378806341488342801241215185493611849379770503370625524330579907024964779743392859637200418135553413284471531454156731157447624636209207540068872924616467476544145604005657187649420754941111772000499
    37922063040005717437475357441159335218758009407877520150499193906131778055666888226379996726882121422924627680168139251438521155411114202229747399429556385976835240167257317159833759243513723325119811510005820849138283215435021093660205668505700996979532134074339323117135487327595114695824085797708475997453949589614761415062295496127129233093726807581847679747460159608908032913014463020875984228062743136543799353888506135849976670148743929448542423630024058586548668430810690826105682284130856136003791522719656521002531709354569306225452343016742102256872137671726442737625668175365597549504637544
    20058320393339868906462330943729314151696719847793864647591127507060577707377652009706705797436265934016015227769371827660085027885553980745265132582155956274229802071614356490131420219091187198132016333841182109351736119819816507372774962740775951203186452094039255340195303905088738800397491049838439405976246974924527443833960937557092512596723647293465075155321120831212555463993381605935814838526225331312652101720837314611357305681650438328994746020425601197352736627889886809388554804697839365176032227464706425920291184052006712257798007139259952509150467837924955283107433429894970059015335011
    15265189351155552846415814061034908828794259312090260342010122699055091643635140518166852474514289386817738136446696594015863458830801635384922291533588434684374164747075143515990636011075721747373992999762627169458500247444609392581619133313503443530604893465477351410622259782178137598261992138003189211107690953572860195739482529560508816844258822843935169625209481467474197936946230241934985232148077959375353208593451788792894312981382983624863069784428589633366949068202806411644072616537171240940128756724838974429221627201365678712067115487086796919081913716664200649026062540445448753748571
    e2048_3 (by decide +kernel)

theorem e2048_1 : Nat.Prime
    155691589850536758698742381543719750519943620061390037594408500155284923799863362470651265701652665848845480477708861029285782919664973901589707117718558342026117292350164156140873807752948857819619071685680892588532630506054753174837149105981125255018579261160658452630851788493123536324861640398695772281402843391793733551435808587305343818880494513316319337376325003185861367524702478874486364517060499741847329645333184044073805336533347787816898771247680216897418382885950850495699776856307345674299123903085215536743011550945314032700372104392911848455539145134809466877026883334132116994690610129008977 :=
  ecpp 1999
    155691589850536758698742381543719750519943620061390037594408500155284923799863362470651265701652665848845480477708861029285782919664973901589707117718558342026117292350164156140873807752948857819619071685680892588532630506054753174837149105981125255018579261160658452630851788493123536324861640398695772281402843391793733551435808587305343818880494513316319337376325003185861367524702478874486364517060499741847329645333184044073805336533347787816898771247680216897418382885950850495699776856307345674299123903085215536743011550945314032700372104392911848455539145134809466877026883334132116994690610129008977
    114566870132512538072668748886604509938166594915927146478890222453562120148190862272857078063148353371496221937405591988570445545139471260868396020866120056389091976376790887166589524454117087858835814172125564478791525049921375246412193063198790283052759053199132964007186784916050706655890201781958862578724671682390984699066100472819344611086620259521256267592057984221098237476034860506750599672819945493116935165974704575781187279738041016315319968137695104377623984797932195747252797272073655402242743718811914835528908347968985181759726310859568472379664380469089757200188776366634328594733748904031947
    47858862493300683826550891499022767033361390311112229547883763793763804794126504505791537194018014031475936174662555103147107959538147575876333098986015931006640444625191834636897585443753020819547094471387863674812141449683887012859355902290409914287486521052711324079352972983526311163655357573535811171493751559183723609448421350884521206898781718204849168316945748726200716382441750150945977563486097281500474360798686067701217926798077555177829706995279326981079028395012635977955265970229780305610184815207508549275803083277038558784572445360989327190072989193982414704308785217717069128169701356529693
    43513148339605131854514771507434444280000004905381115341072556719172941518089247023326756286398871810418269609522706015670077453860105634703826004147612915218555188888601792673374926800051999914755677624545675203885294651875389098256861339883099423050218608262844616808466428774094296524803555374807680569268640623978379456991276706311828925067662134796485953607016824726305648151452968105421775102818273943684894053474156326187095477801365896246724297376023086926670292405554051875302659950541501163489737416249277328990996179414521820334590045530125647041728605503755218980879352206694546426847877365466944
    118702112394585578933729370138607451052704160410813864419470714107852392620906852669265444841823114271894731749009512715067354255868313516753155738965183668105693505073256315980343185622124812307580169566154188869709297924129282636714670380645802776893983651587551884568998692066217197964085250865112786256022252434964530796771835331398412187533978547438492461850428421748141123090327767092801286099045991018272474334527563291344194431645710650939475557601577206955830088475680142807965071371124790555212445492133531522941530744655130040762998104472810203303364659109877285275499423194789195484944596969
    e2048_2 (by decide +kernel)

theorem e2048_0 : Nat.Prime
    22287360226908822233992819736392944434475043692265646916055930477587645696682024041890820611728835974780990571065838330253841354283867699159271588286101147370436450708147936416639540332373863814027801664774471436354150618315722661359913455362721373024713389259210331115681727749894367904502907551083219287819263090154675250911168607561882294815102877332366368477130120481174929478405004375083454233478408080520257325818925705871467706311605717341130286381719809389913520035118471758580658821155908577746981648167876884576360004782560776732442189914352788858257527373771629598261282997979720455015240977446412661775607 :=
  ecpp 2019
    22287360226908822233992819736392944434475043692265646916055930477587645696682024041890820611728835974780990571065838330253841354283867699159271588286101147370436450708147936416639540332373863814027801664774471436354150618315722661359913455362721373024713389259210331115681727749894367904502907551083219287819263090154675250911168607561882294815102877332366368477130120481174929478405004375083454233478408080520257325818925705871467706311605717341130286381719809389913520035118471758580658821155908577746981648167876884576360004782560776732442189914352788858257527373771629598261282997979720455015240977446412661775607
    6074378258363600116942746658354679372936216516450601659553668815776482638216013349460628493401166965668213453627716266057544370521011554983197768376219863929350675873053072522333666196124907985348597216563169741211189735463032893092679041626322596107429785482710446545304470674367899334443302662335300219515391158807655897875147131882069939753478714203700953785291777527082025358755165245002925090516830922005475950868972782462578527303809965974662107695092220298880035052368895638834868194450641177870382769391968383330510065000536326966173769029861705806774622143690086598250515044628965659257510444513163129620459
    864718295282716418470370278325426493986125967658965946968184924704086023179312422660928544309724682383341161670332717099690585536925041002516621504616111994881368205999991248215671105089894575864660196918632530210005377344930145758165349246358214080552249325313034626702864074728958398006088574467707223932078995282517119010836128641636531102146416016178098228631345208395928279436710152081683620407816749669773160355282025905481304118327399853075756470300222435556579281661933473843254059707920367033677568289810718155220395119283651917602903365670636148841539304611803077459165814094661393500004214478730317318082
    21437482307366271913367862582047503310731493652726755235202934823765833043626799999053331470428338597190769201661632451567255515002441795501625463530854904440997644591497890680035773305740047399102788175154602785062654423143633580840396224369117175887385281783196562275251724586691239830952631706839950258827079051213944915735084601547539413339937963210246708247785288189995322033550801511472269540778583473439502547359511977348965348477637182226587968785908162015838572290095728156969266783264881017897794900830994308825670276016736026890854930345056334574529359214508605692300084334611739873372771125220258884208124
    155691589850536758698742381543719750519943620061390037594408500155284923799863362470651265701652665848845480477708861029285782919664973901589707117718558342026117292350164156140873807752948857819619071685680892588532630506054753174837149105981125255018579261160658452630851788493123536324861640398695772281402843391793733551435808587305343818880494513316319337376325003185861367524702478874486364517060499741847329645333184044073805336533347787816898771247680216897418382885950850495699776856307345674299123903085215536743011550945314032700372104392911848455539145134809466877026883334132116994690610129008977
    e2048_1 (by decide +kernel)

end PoS
