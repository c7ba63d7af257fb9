import Verif.Model.Lobatto.N512
import Verif.Lemmas.Lobatto
/-! # The checks of tabulated Gauss-Lobatto rules, evaluated by the kernel -/
set_option autoImplicit false

namespace Fenris.Lobatto

theorem shape_512 : shape 512 lobatto512 = true := by decide +kernel

/-- Weights and absolute values of the negative points. -/
def neg512 : List (Nat × Nat) := [
    (76443248534190890000000000, 10000000000000000000000000000000), (471241697282980300000000000, 9999719416929437000000000000000),
    (848687753020022600000000000, 9999059410073272000000000000000), (1225903968046551000000000000, 9998022106585162000000000000000),
    (1603046822601291500000000000, 9996607625796287000000000000000), (1980122472008754000000000000, 9994816035223137000000000000000),
    (2357121140292953500000000000, 9992647406485913000000000000000), (2734029947805711000000000000, 9990101822888319000000000000000),
    (3110835174008278300000000000, 9987179381114661000000000000000), (3487522817768307300000000000, 9983880191733372000000000000000),
    (3864078770893452300000000000, 9980204379375551000000000000000), (4240488881147259700000000000, 9976152082805686000000000000000),
    (4616738978276830300000000000, 9971723454950902000000000000000), (4992814885948820000000000000, 9966918662912292000000000000000),
    (5368702427782336000000000000, 9961737887967663000000000000000), (5744387430722119000000000000, 9956181325569756000000000000000),
    (6119855727063165000000000000, 9950249185341833000000000000000), (6495093155887986000000000000, 9943941691071556000000000000000),
    (6870085564077654000000000000, 9937259080703693000000000000000), (7244818807196668000000000000, 9930201606331852000000000000000),
    (7619278750141891000000000000, 9922769534189467000000000000000), (7993451267880445000000000000, 9914963144640089000000000000000),
    (8367322246034365000000000000, 9906782732167029000000000000000), (8740877581438444000000000000, 9898228605362412000000000000000),
    (9114103182764525000000000000, 9889301086915658000000000000000), (9486984971029656000000000000, 9880000513601388000000000000000),
    (9859508880189552000000000000, 9870327236266787000000000000000), (10231660857643117000000000000, 9860281619818404000000000000000),
    (10603426864776080000000000000, 9849864043208441000000000000000), (10974792877554485000000000000, 9839074899420467000000000000000),
    (11345744886966110000000000000, 9827914595454627000000000000000), (11716268899631317000000000000, 9816383552312293000000000000000),
    (12086350938301492000000000000, 9804482204980210000000000000000), (12455977042373292000000000000, 9792211002414083000000000000000),
    (12825133268464853000000000000, 9779570407521659000000000000000), (13193805690874260000000000000, 9766560897145267000000000000000),
    (13561980402176045000000000000, 9753182962043830000000000000000), (13929643513729080000000000000, 9739437106874370000000000000000),
    (14296781156147274000000000000, 9725323850172964000000000000000), (14663379479894422000000000000, 9710843724335185000000000000000),
    (15029424655755325000000000000, 9695997275596036000000000000000), (15394902875402830000000000000, 9680785064009313000000000000000),
    (15759800351875825000000000000, 9665207663426529000000000000000), (16124103320133414000000000000, 9649265661475219000000000000000),
    (16487798037540474000000000000, 9632959659536804000000000000000), (16850870784435004000000000000, 9616290272723899000000000000000),
    (17213307864596104000000000000, 9599258129857103000000000000000), (17575095605789862000000000000, 9581863873441291000000000000000),
    (17936220360270341000000000000, 9564108159641365000000000000000), (18296668505307870000000000000, 9545991658257514000000000000000),
    (18656426443681559000000000000, 9527515052699933000000000000000), (19015480604227559000000000000, 9508679039963056000000000000000),
    (19373817442323168000000000000, 9489484330599256000000000000000), (19731423440400337000000000000, 9469931648692052000000000000000),
    (20088285108455827000000000000, 9450021731828777000000000000000), (20444388984583330000000000000, 9429755331072764000000000000000),
    (20799721635441010000000000000, 9409133210935021000000000000000), (21154269656796314000000000000, 9388156149345377000000000000000),
    (21508019673998086000000000000, 9366824937623148000000000000000), (21860958342521290000000000000, 9345140380447274000000000000000),
    (22213072348429646000000000000, 9323103295825983000000000000000), (22564348408901564000000000000, 9300714515065909000000000000000),
    (22914773272718760000000000000, 9277974882740756000000000000000), (23264333720782395000000000000, 9254885256659418000000000000000),
    (23613016566598945000000000000, 9231446507833638000000000000000), (23960808656780490000000000000, 9207659520445142000000000000000),
    (24307696871526980000000000000, 9183525191812276000000000000000), (24653668125172120000000000000, 9159044432356174000000000000000),
    (24998709366591670000000000000, 9134218165566403000000000000000), (25342807579786892000000000000, 9109047327966131000000000000000),
    (25685949784300167000000000000, 9083532869076798000000000000000), (26028123035763888000000000000, 9057675751382288000000000000000),
    (26369314426350540000000000000, 9031476950292636000000000000000), (26709511085265210000000000000, 9004937454107229000000000000000),
    (27048700179252575000000000000, 8978058263977509000000000000000), (27386868913039720000000000000, 8950840393869224000000000000000),
    (27724004529879220000000000000, 8923284870524182000000000000000), (28060094311969748000000000000, 8895392733421494000000000000000),
    (28395125580975094000000000000, 8867165034738382000000000000000), (28729085698483440000000000000, 8838602839310492000000000000000),
    (29061962066488270000000000000, 8809707224591707000000000000000), (29393742127874064000000000000, 8780479280613511000000000000000),
    (29724413366880066000000000000, 8750920109943885000000000000000), (30053963309563360000000000000, 8721030827645666000000000000000),
    (30382379524287353000000000000, 8690812561234542000000000000000), (30709649622183656000000000000, 8660266450636502000000000000000),
    (31035761257619160000000000000, 8629393648144814000000000000000), (31360702128645475000000000000, 8598195318376562000000000000000),
    (31684459977521103000000000000, 8566672638228727000000000000000), (32007022591076725000000000000, 8534826796833790000000000000000),
    (32328377801276050000000000000, 8502658995514860000000000000000), (32648513485608933000000000000, 8470170447740368000000000000000),
    (32967417567563550000000000000, 8437362379078288000000000000000), (33285078017102473000000000000, 8404236027149905000000000000000),
    (33601482851099410000000000000, 8370792641583127000000000000000), (33916620133785700000000000000, 8337033483965344000000000000000),
    (34230477977218177000000000000, 8302959827795846000000000000000), (34543044541706274000000000000, 8268572958437768000000000000000),
    (34854308036286466000000000000, 8233874173069615000000000000000), (35164256719146070000000000000, 8198864780636324000000000000000),
    (35472878898043267000000000000, 8163546101799881000000000000000), (35780162930812600000000000000, 8127919468889511000000000000000),
    (36086097225779485000000000000, 8091986225851411000000000000000), (36390670242133563000000000000, 8055747728198062000000000000000),
    (36693870490439075000000000000, 8019205342957076000000000000000), (36995686533075806000000000000, 7982360448619654000000000000000),
    (37296106984589534000000000000, 7945214435088555000000000000000), (37595120512206866000000000000, 7907768703625699000000000000000),
    (37892715836223030000000000000, 7870024666799269000000000000000), (38188881730417163000000000000, 7831983748430460000000000000000),
    (38483607022502067000000000000, 7793647383539744000000000000000), (38776880594541210000000000000, 7755017018292740000000000000000),
    (39068691383342890000000000000, 7716094109945679000000000000000), (39359028380917625000000000000, 7676880126790404000000000000000),
    (39647880634853660000000000000, 7637376548099006000000000000000), (39935237248756960000000000000, 7597584864068003000000000000000),
    (40221087382637210000000000000, 7557506575762134000000000000000), (40505420253382560000000000000, 7517143195057738000000000000000),
    (40788225135051650000000000000, 7476496244585709000000000000000), (41069491359377040000000000000, 7435567257674067000000000000000),
    (41349208316146720000000000000, 7394357778290119000000000000000), (41627365453568745000000000000, 7352869360982208000000000000000),
    (41903952278696780000000000000, 7311103570821071000000000000000), (42178958357829640000000000000, 7269061983340805000000000000000),
    (42452373316888240000000000000, 7226746184479433000000000000000), (42724186841826065000000000000, 7184157770519071000000000000000),
    (42994388678996240000000000000, 7141298348025711000000000000000), (43262968635547750000000000000, 7098169533788632000000000000000),
    (43529916579829260000000000000, 7054772954759385000000000000000), (43795222441736950000000000000, 7011110247990446000000000000000),
    (44058876213117530000000000000, 6967183060573441000000000000000), (44320867948151000000000000000, 6922993049577018000000000000000),
    (44581187763681170000000000000, 6878541881984346000000000000000), (44839825839658030000000000000, 6833831234630214000000000000000),
    (45096772419457100000000000000, 6788862794137795000000000000000), (45352017810265000000000000000, 6743638256855007000000000000000),
    (45605552383433870000000000000, 6698159328790529000000000000000), (45857366574863280000000000000, 6652427725549446000000000000000),
    (46107450885335130000000000000, 6606445172268520000000000000000), (46355795880923450000000000000, 6560213403551127000000000000000),
    (46602392193275930000000000000, 6513734163401816000000000000000), (46847230520020960000000000000, 6467009205160512000000000000000),
    (47090301625110350000000000000, 6420040291436395000000000000000), (47331596339152580000000000000, 6372829194041387000000000000000),
    (47571105559758180000000000000, 6325377693923324000000000000000), (47808820251914515000000000000, 6277687581098776000000000000000),
    (48044731448289545000000000000, 6229760654585514000000000000000), (48278830249586090000000000000, 6181598722334656000000000000000),
    (48511107824869410000000000000, 6133203601162451000000000000000), (48741555411925515000000000000, 6084577116681762000000000000000),
    (48970164317569310000000000000, 6035721103233174000000000000000), (49196925917951000000000000000, 5986637403815827000000000000000),
    (49421831658927360000000000000, 5937327870017863000000000000000), (49644873056374425000000000000, 5887794361946597000000000000000),
    (49866041696480030000000000000, 5838038748158341000000000000000), (50085329236077070000000000000, 5788062905587921000000000000000),
    (50302727402975490000000000000, 5737868719477870000000000000000), (50518227996237630000000000000, 5687458083307306000000000000000),
    (50731822886523940000000000000, 5636832898720514000000000000000), (50943504016374060000000000000, 5585995075455206000000000000000),
    (51153263400527770000000000000, 5534946531270470000000000000000), (51361093126208820000000000000, 5483689191874450000000000000000),
    (51566985353446200000000000000, 5432224990851677000000000000000), (51770932315359690000000000000, 5380555869590142000000000000000),
    (51972926318424520000000000000, 5328683777208059000000000000000), (52172959742819980000000000000, 5276610670480331000000000000000),
    (52371025042671790000000000000, 5224338513764752000000000000000), (52567114746329465000000000000, 5171869278927885000000000000000),
    (52761221456701500000000000000, 5119204945270686000000000000000), (52953337851487930000000000000, 5066347499453843000000000000000),
    (53143456683451660000000000000, 5013298935422830000000000000000), (53331570780733980000000000000, 4960061254332679400000000000000),
    (53517673047098000000000000000, 4906636464472509000000000000000), (53701756462189380000000000000, 4853026581189752000000000000000),
    (53883814081811110000000000000, 4799233626814136700000000000000), (54063839038199430000000000000, 4745259630581393000000000000000),
    (54241824540243830000000000000, 4691106628556709300000000000000), (54417763873800965000000000000, 4636776663557922000000000000000),
    (54591650401891330000000000000, 4582271785078455600000000000000), (54763477564973260000000000000, 4527594049210013000000000000000),
    (54933238881199220000000000000, 4472745518565000000000000000000), (55100927946658950000000000000, 4417728262198734600000000000000),
    (55266538435602860000000000000, 4362544355531388000000000000000), (55430064100689600000000000000, 4307195880269692000000000000000),
    (55591498773224310000000000000, 4251684924328407000000000000000), (55750836363399980000000000000, 4196013581751574000000000000000),
    (55908070860518430000000000000, 4140183952633507000000000000000), (56063196333196825000000000000, 4084198143039570000000000000000),
    (56216206929636640000000000000, 4028058264926746000000000000000), (56367096877802030000000000000, 3971766436063944000000000000000),
    (56515860485662840000000000000, 3915324779952134000000000000000), (56662492141392560000000000000, 3858735425744224000000000000000),
    (56806986313598035000000000000, 3802000508164749000000000000000), (56949337551520570000000000000, 3745122167429346700000000000000),
    (57089540485224840000000000000, 3688102549164014000000000000000), (57227589825829634000000000000, 3630943804324169300000000000000),
    (57363480365680660000000000000, 3573648089113517000000000000000), (57497206978573670000000000000, 3516217564902704000000000000000),
    (57628764619937490000000000000, 3458654398147784600000000000000), (57758148327005530000000000000, 3400960760308502400000000000000),
    (57885353219025070000000000000, 3343138827766372000000000000000), (58010374497436350000000000000, 3285190781742573000000000000000),
    (58133207446054130000000000000, 3227118808215676500000000000000), (58253847431251615000000000000, 3168925097839186000000000000000),
    (58372289902099910000000000000, 3110611845858884000000000000000), (58488530390589260000000000000, 3052181252030037300000000000000),
    (58602564511778810000000000000, 2993635520534403400000000000000), (58714387963936700000000000000, 2934976859897087000000000000000),
    (58823996528751690000000000000, 2876207482903234700000000000000), (58931386071456900000000000000, 2817329606514542600000000000000),
    (59036552540966350000000000000, 2758345451785653000000000000000), (59139491970100090000000000000, 2699257243780335000000000000000),
    (59240200475644740000000000000, 2640067211487589000000000000000), (59338674258580720000000000000, 2580777587737519400000000000000),
    (59434909604169840000000000000, 2521390609117147000000000000000), (59528902882117820000000000000, 2461908515885997700000000000000),
    (59620650546713650000000000000, 2402333551891631000000000000000), (59710149136945325000000000000, 2342667964484968000000000000000),
    (59797395276654924000000000000, 2282914004435523400000000000000), (59882385674652230000000000000, 2223073925846503800000000000000),
    (59965117124836835000000000000, 2163149986069767800000000000000), (60045586506315350000000000000, 2103144445620683800000000000000),
    (60123790783546200000000000000, 2043059568092835400000000000000), (60199727006416320000000000000, 1982897620072659000000000000000),
    (60273392310385220000000000000, 1922660871053916100000000000000), (60344783916565550000000000000, 1862351593352098400000000000000),
    (60413899131846530000000000000, 1801972062018704000000000000000), (60480735348992344000000000000, 1741524554755404800000000000000),
    (60545290046733246000000000000, 1681011351828143300000000000000), (60607560789864440000000000000, 1620434735981104400000000000000),
    (60667545229345270000000000000, 1559796992350592800000000000000), (60725241102377240000000000000, 1499100408378855000000000000000),
    (60780646232495295000000000000, 1438347273727767000000000000000), (60833758529651874000000000000, 1377539880192475400000000000000),
    (60884575990277720000000000000, 1316680521614937000000000000000), (60933096697392510000000000000, 1255771493797384000000000000000),
    (60979318820637840000000000000, 1194815094415737600000000000000), (61023240616374710000000000000, 1133813622932913200000000000000),
    (61064860427740800000000000000, 1072769380512079700000000000000), (61104176684709540000000000000, 1011684669929868700000000000000),
    (61141187904142640000000000000, 950561795489477400000000000000), (61175892689870860000000000000, 889403062933789000000000000000),
    (61208289732714140000000000000, 828210779358336000000000000000), (61238377810574890000000000000, 766987253124316000000000000000),
    (61266155788419810000000000000, 705734793771488600000000000000), (61291622618386285000000000000, 644455711931066800000000000000),
    (61314777339785410000000000000, 583152319238535700000000000000), (61335619079148750000000000000, 521826928246476000000000000000),
    (61354147050262904000000000000, 460481852337288900000000000000), (61370360554196726000000000000, 399119405635974800000000000000),
    (61384258979327770000000000000, 337741902922796800000000000000), (61395841801359940000000000000, 276351659545983620000000000000),
    (61405108583360260000000000000, 214950991334388330000000000000), (61412058975753850000000000000, 153542214510109520000000000000),
    (61416692716338445000000000000, 92127645601125520000000000000), (61419009630338020000000000000, 30709601353922090000000000000)]
/-- Weights and values of the other points. -/
def pos512 : List (Nat × Nat) := [
    (61419009630338750000000000000, 30709601353918760000000000000), (61416692716341950000000000000, 92127645601124400000000000000),
    (61412058975754280000000000000, 153542214510107300000000000000), (61405108583356730000000000000, 214950991334386100000000000000),
    (61395841801357770000000000000, 276351659545985840000000000000), (61384258979328380000000000000, 337741902922793500000000000000),
    (61370360554197760000000000000, 399119405635971500000000000000), (61354147050267410000000000000, 460481852337286700000000000000),
    (61335619079148215000000000000, 521826928246472700000000000000), (61314777339787280000000000000, 583152319238534600000000000000),
    (61291622618385565000000000000, 644455711931066800000000000000), (61266155788419180000000000000, 705734793771486400000000000000),
    (61238377810577520000000000000, 766987253124311600000000000000), (61208289732717905000000000000, 828210779358334900000000000000),
    (61175892689870600000000000000, 889403062933785700000000000000), (61141187904141880000000000000, 950561795489479600000000000000),
    (61104176684708500000000000000, 1011684669929866500000000000000), (61064860427739720000000000000, 1072769380512079700000000000000),
    (61023240616375430000000000000, 1133813622932915400000000000000), (60979318820637480000000000000, 1194815094415741000000000000000),
    (60933096697390570000000000000, 1255771493797386300000000000000), (60884575990278560000000000000, 1316680521614939000000000000000),
    (60833758529651850000000000000, 1377539880192478700000000000000), (60780646232494960000000000000, 1438347273727771400000000000000),
    (60725241102380400000000000000, 1499100408378857300000000000000), (60667545229346160000000000000, 1559796992350595000000000000000),
    (60607560789866285000000000000, 1620434735981103300000000000000), (60545290046731810000000000000, 1681011351828147800000000000000),
    (60480735348990900000000000000, 1741524554755407000000000000000), (60413899131845080000000000000, 1801972062018705200000000000000),
    (60344783916568350000000000000, 1862351593352104000000000000000), (60273392310384620000000000000, 1922660871053919500000000000000),
    (60199727006418220000000000000, 1982897620072662200000000000000), (60123790783544690000000000000, 2043059568092839800000000000000),
    (60045586506318185000000000000, 2103144445620685000000000000000), (59965117124836330000000000000, 2163149986069772300000000000000),
    (59882385674653125000000000000, 2223073925846506000000000000000), (59797395276656820000000000000, 2282914004435527800000000000000),
    (59710149136947870000000000000, 2342667964484969000000000000000), (59620650546711780000000000000, 2402333551891632200000000000000),
    (59528902882119260000000000000, 2461908515885998800000000000000), (59434909604171880000000000000, 2521390609117145600000000000000),
    (59338674258580350000000000000, 2580777587737521600000000000000), (59240200475647120000000000000, 2640067211487590000000000000000),
    (59139491970095970000000000000, 2699257243780336400000000000000), (59036552540968415000000000000, 2758345451785656500000000000000),
    (58931386071455150000000000000, 2817329606514545000000000000000), (58823996528754960000000000000, 2876207482903234700000000000000),
    (58714387963939800000000000000, 2934976859897089300000000000000), (58602564511779340000000000000, 2993635520534403400000000000000),
    (58488530390587700000000000000, 3052181252030040600000000000000), (58372289902098020000000000000, 3110611845858885000000000000000),
    (58253847431245770000000000000, 3168925097839187000000000000000), (58133207446054710000000000000, 3227118808215680000000000000000),
    (58010374497439220000000000000, 3285190781742574000000000000000), (57885353219026150000000000000, 3343138827766373000000000000000),
    (57758148327004145000000000000, 3400960760308505700000000000000), (57628764619937350000000000000, 3458654398147787000000000000000),
    (57497206978574400000000000000, 3516217564902705000000000000000), (57363480365679115000000000000, 3573648089113518000000000000000),
    (57227589825824820000000000000, 3630943804324170400000000000000), (57089540485221350000000000000, 3688102549164014000000000000000),
    (56949337551518145000000000000, 3745122167429350000000000000000), (56806986313601650000000000000, 3802000508164752300000000000000),
    (56662492141395100000000000000, 3858735425744226300000000000000), (56515860485663210000000000000, 3915324779952137300000000000000),
    (56367096877802060000000000000, 3971766436063947000000000000000), (56216206929637080000000000000, 4028058264926748000000000000000),
    (56063196333198940000000000000, 4084198143039573500000000000000), (55908070860518230000000000000, 4140183952633508000000000000000),
    (55750836363402880000000000000, 4196013581751576500000000000000), (55591498773222340000000000000, 4251684924328409400000000000000),
    (55430064100686570000000000000, 4307195880269691000000000000000), (55266538435601480000000000000, 4362544355531391400000000000000),
    (55100927946661260000000000000, 4417728262198735700000000000000), (54933238881201970000000000000, 4472745518565000000000000000000),
    (54763477564970270000000000000, 4527594049210014000000000000000), (54591650401886600000000000000, 4582271785078458000000000000000),
    (54417763873797955000000000000, 4636776663557925500000000000000), (54241824540244910000000000000, 4691106628556712700000000000000),
    (54063839038195460000000000000, 4745259630581393000000000000000), (53883814081811030000000000000, 4799233626814139000000000000000),
    (53701756462190160000000000000, 4853026581189755500000000000000), (53517673047097040000000000000, 4906636464472510000000000000000),
    (53331570780736510000000000000, 4960061254332683000000000000000), (53143456683453440000000000000, 5013298935422832000000000000000),
    (52953337851482520000000000000, 5066347499453845000000000000000), (52761221456701060000000000000, 5119204945270688000000000000000),
    (52567114746330250000000000000, 5171869278927885000000000000000), (52371025042667710000000000000, 5224338513764754000000000000000),
    (52172959742820920000000000000, 5276610670480335000000000000000), (51972926318428010000000000000, 5328683777208060000000000000000),
    (51770932315358610000000000000, 5380555869590146000000000000000), (51566985353449080000000000000, 5432224990851680000000000000000),
    (51361093126210150000000000000, 5483689191874452000000000000000), (51153263400526850000000000000, 5534946531270473000000000000000),
    (50943504016373060000000000000, 5585995075455208000000000000000), (50731822886523750000000000000, 5636832898720516000000000000000),
    (50518227996238980000000000000, 5687458083307309000000000000000), (50302727402976170000000000000, 5737868719477872000000000000000),
    (50085329236081810000000000000, 5788062905587925000000000000000), (49866041696481620000000000000, 5838038748158342000000000000000),
    (49644873056377105000000000000, 5887794361946596000000000000000), (49421831658929090000000000000, 5937327870017863000000000000000),
    (49196925917946480000000000000, 5986637403815827000000000000000), (48970164317561566000000000000, 6035721103233176000000000000000),
    (48741555411927180000000000000, 6084577116681763000000000000000), (48511107824870010000000000000, 6133203601162455000000000000000),
    (48278830249581730000000000000, 6181598722334656000000000000000), (48044731448285730000000000000, 6229760654585517000000000000000),
    (47808820251913220000000000000, 6277687581098776000000000000000), (47571105559757310000000000000, 6325377693923325000000000000000),
    (47331596339148730000000000000, 6372829194041387000000000000000), (47090301625109730000000000000, 6420040291436395000000000000000),
    (46847230520021725000000000000, 6467009205160514000000000000000), (46602392193277940000000000000, 6513734163401816000000000000000),
    (46355795880924150000000000000, 6560213403551127000000000000000), (46107450885340420000000000000, 6606445172268522000000000000000),
    (45857366574858700000000000000, 6652427725549447000000000000000), (45605552383430120000000000000, 6698159328790532000000000000000),
    (45352017810262340000000000000, 6743638256855007000000000000000), (45096772419457380000000000000, 6788862794137795000000000000000),
    (44839825839661350000000000000, 6833831234630214000000000000000), (44581187763681840000000000000, 6878541881984346000000000000000),
    (44320867948145150000000000000, 6922993049577020000000000000000), (44058876213120230000000000000, 6967183060573443000000000000000),
    (43795222441740400000000000000, 7011110247990446000000000000000), (43529916579830490000000000000, 7054772954759385000000000000000),
    (43262968635551220000000000000, 7098169533788631000000000000000), (42994388678994250000000000000, 7141298348025711000000000000000),
    (42724186841828020000000000000, 7184157770519071000000000000000), (42452373316891195000000000000, 7226746184479435000000000000000),
    (42178958357829880000000000000, 7269061983340808000000000000000), (41903952278698800000000000000, 7311103570821071000000000000000),
    (41627365453569440000000000000, 7352869360982209000000000000000), (41349208316149340000000000000, 7394357778290120000000000000000),
    (41069491359378570000000000000, 7435567257674067000000000000000), (40788225135049500000000000000, 7476496244585709000000000000000),
    (40505420253377990000000000000, 7517143195057737000000000000000), (40221087382642465000000000000, 7557506575762136000000000000000),
    (39935237248754200000000000000, 7597584864068003000000000000000), (39647880634853430000000000000, 7637376548099009000000000000000),
    (39359028380918680000000000000, 7676880126790406000000000000000), (39068691383347140000000000000, 7716094109945680000000000000000),
    (38776880594543974000000000000, 7755017018292740000000000000000), (38483607022506755000000000000, 7793647383539742000000000000000),
    (38188881730417480000000000000, 7831983748430460000000000000000), (37892715836222140000000000000, 7870024666799271000000000000000),
    (37595120512209997000000000000, 7907768703625698000000000000000), (37296106984588536000000000000, 7945214435088557000000000000000),
    (36995686533072430000000000000, 7982360448619653000000000000000), (36693870490440445000000000000, 8019205342957078000000000000000),
    (36390670242128055000000000000, 8055747728198062000000000000000), (36086097225776735000000000000, 8091986225851413000000000000000),
    (35780162930821144000000000000, 8127919468889512000000000000000), (35472878898042143000000000000, 8163546101799881000000000000000),
    (35164256719138110000000000000, 8198864780636324000000000000000), (34854308036286236000000000000, 8233874173069616000000000000000),
    (34543044541707184000000000000, 8268572958437769000000000000000), (34230477977216143000000000000, 8302959827795845000000000000000),
    (33916620133784513000000000000, 8337033483965345000000000000000), (33601482851097850000000000000, 8370792641583127000000000000000),
    (33285078017102520000000000000, 8404236027149905000000000000000), (32967417567561904000000000000, 8437362379078290000000000000000),
    (32648513485605880000000000000, 8470170447740370000000000000000), (32328377801277347000000000000, 8502658995514862000000000000000),
    (32007022591079943000000000000, 8534826796833792000000000000000), (31684459977520244000000000000, 8566672638228730000000000000000),
    (31360702128652037000000000000, 8598195318376562000000000000000), (31035761257616980000000000000, 8629393648144814000000000000000),
    (30709649622184060000000000000, 8660266450636506000000000000000), (30382379524288740000000000000, 8690812561234542000000000000000),
    (30053963309564480000000000000, 8721030827645659000000000000000), (29724413366881930000000000000, 8750920109943877000000000000000),
    (29393742127878843000000000000, 8780479280613512000000000000000), (29061962066491360000000000000, 8809707224591707000000000000000),
    (28729085698482930000000000000, 8838602839310493000000000000000), (28395125580974803000000000000, 8867165034738383000000000000000),
    (28060094311970260000000000000, 8895392733421493000000000000000), (27724004529877710000000000000, 8923284870524183000000000000000),
    (27386868913038868000000000000, 8950840393869227000000000000000), (27048700179247024000000000000, 8978058263977509000000000000000),
    (26709511085265130000000000000, 9004937454107229000000000000000), (26369314426349776000000000000, 9031476950292640000000000000000),
    (26028123035764577000000000000, 9057675751382289000000000000000), (25685949784300705000000000000, 9083532869076798000000000000000),
    (25342807579781437000000000000, 9109047327966133000000000000000), (24998709366589756000000000000, 9134218165566405000000000000000),
    (24653668125166595000000000000, 9159044432356174000000000000000), (24307696871528830000000000000, 9183525191812276000000000000000),
    (23960808656775675000000000000, 9207659520445142000000000000000), (23613016566597506000000000000, 9231446507833642000000000000000),
    (23264333720782685000000000000, 9254885256659420000000000000000), (22914773272718018000000000000, 9277974882740756000000000000000),
    (22564348408900445000000000000, 9300714515065911000000000000000), (22213072348431400000000000000, 9323103295825984000000000000000),
    (21860958342523806000000000000, 9345140380447277000000000000000), (21508019674001790000000000000, 9366824937623148000000000000000),
    (21154269656794788000000000000, 9388156149345378000000000000000), (20799721635442020000000000000, 9409133210935021000000000000000),
    (20444388984582613000000000000, 9429755331072764000000000000000), (20088285108458745000000000000, 9450021731828776000000000000000),
    (19731423440399972000000000000, 9469931648692053000000000000000), (19373817442323927000000000000, 9489484330599258000000000000000),
    (19015480604230180000000000000, 9508679039963056000000000000000), (18656426443681778000000000000, 9527515052699933000000000000000),
    (18296668505304353000000000000, 9545991658257514000000000000000), (17936220360271570000000000000, 9564108159641368000000000000000),
    (17575095605793100000000000000, 9581863873441293000000000000000), (17213307864601570000000000000, 9599258129857104000000000000000),
    (16850870784439428000000000000, 9616290272723900000000000000000), (16487798037543991000000000000, 9632959659536805000000000000000),
    (16124103320130595000000000000, 9649265661475220000000000000000), (15759800351876198000000000000, 9665207663426530000000000000000),
    (15394902875402510000000000000, 9680785064009316000000000000000), (15029424655758432000000000000, 9695997275596034000000000000000),
    (14663379479893553000000000000, 9710843724335187000000000000000), (14296781156150798000000000000, 9725323850172964000000000000000),
    (13929643513731080000000000000, 9739437106874371000000000000000), (13561980402182945000000000000, 9753182962043830000000000000000),
    (13193805690870232000000000000, 9766560897145267000000000000000), (12825133268455319000000000000, 9779570407521662000000000000000),
    (12455977042371570000000000000, 9792211002414085000000000000000), (12086350938298916000000000000, 9804482204980212000000000000000),
    (11716268899633567000000000000, 9816383552312294000000000000000), (11345744886967553000000000000, 9827914595454627000000000000000),
    (10974792877553635000000000000, 9839074899420468000000000000000), (10603426864780434000000000000, 9849864043208441000000000000000),
    (10231660857638342000000000000, 9860281619818404000000000000000), (9859508880188810000000000000, 9870327236266786000000000000000),
    (9486984971029955000000000000, 9880000513601389000000000000000), (9114103182759545000000000000, 9889301086915660000000000000000),
    (8740877581434287000000000000, 9898228605362414000000000000000), (8367322246028243000000000000, 9906782732167030000000000000000),
    (7993451267880745000000000000, 9914963144640091000000000000000), (7619278750140725000000000000, 9922769534189470000000000000000),
    (7244818807195778000000000000, 9930201606331853000000000000000), (6870085564086150000000000000, 9937259080703694000000000000000),
    (6495093155889407000000000000, 9943941691071558000000000000000), (6119855727062846000000000000, 9950249185341833000000000000000),
    (5744387430719162000000000000, 9956181325569757000000000000000), (5368702427781797000000000000, 9961737887967664000000000000000),
    (4992814885944765000000000000, 9966918662912293000000000000000), (4616738978274303600000000000, 9971723454950904000000000000000),
    (4240488881148030600000000000, 9976152082805687000000000000000), (3864078770896823000000000000, 9980204379375552000000000000000),
    (3487522817771284600000000000, 9983880191733374000000000000000), (3110835174007751400000000000, 9987179381114664000000000000000),
    (2734029947813005000000000000, 9990101822888319000000000000000), (2357121140291395000000000000, 9992647406485913000000000000000),
    (1980122472010747300000000000, 9994816035223140000000000000000), (1603046822601719400000000000, 9996607625796288000000000000000),
    (1225903968044563500000000000, 9998022106585163000000000000000), (848687753022740300000000000, 9999059410073272000000000000000),
    (471241697281203640000000000, 9999719416929438000000000000000), (76443248532238400000000000, 10000000000000000000000000000000)]
theorem negatives_512 : negatives lobatto512 = neg512 := by decide +kernel
theorem positives_512 : positives lobatto512 = pos512 := by decide +kernel

/-- Rounded powers after the chunk. -/
def stateN512_1 : List Nat := [
    10000000000000000000000000000000, 9964149280817408114604589219002, 9880320748761846340249662899212, 9749983115201198166227690236528, 9574998096527734013203203075198,
    9357827313045987268576316861437, 9101482207832491736159233150320, 8809455922712550290699632496728, 8485644773220110574136289172777, 8134262390006431057675158255676,
    7759749268492670198158570612140, 7366680446126772757545402832695, 6959673966460274431657392525469, 6543302646599047276789786590795, 6122011438915341132283098503743,
    5700042379958053977560400127886, 5281368764474150384351959049332, 4869639787857540070874707281036, 4468136484636987256419502649720, 4079739372130605668948705383122,
    3706907804453209693609888784350, 3351670668071508624130688120759, 3015627719038470249349275483165, 2699960583896265568496106893281, 2405452227815113130577354495247,
    2132513538365985233157929687005, 1881215581778884351225265416903, 1651326058097458152306822649967, 1442348507316407670055314644814, 1253562893388777194986183009873,
    1084066308506262571741762357280, 932812686984199476086691593199, 798650586825503712131624532037, 680358278162646636075957860201, 576675562488928518871525736415,
    486331927052043850960092257018, 408070808390912299502437173588, 340669892519855556347157315612, 282957512916703909501501815482, 233825318888209334555134354990,
    192237475026245044773732578417, 157236717471328075339083406159, 127947635695332980863226294525, 103577571409079064585105449113, 83415531466346151650599341112,
    66829502091404472861067587966, 53262530382547875163883758528, 42227908802542964297817583625, 33303762072024242761798498624, 26127296089094172862708652774, 20388927431583256480566457790,
    15826471508183265284246675942, 12219528972018635804423946087, 9384174675398846418435949540, 7168021952008460657355527229, 5445707770894779498712971294, 4114821453956998116163189427,
    3092281105602213531492865387, 2311147422917609816407658606, 1717853771682851143575483721, 1269823887714893921530993235, 933443817324293457706305380, 682352262071721809564016458,
    496012876566963274660838386, 358532854258252965145187179, 257693942331742670336125735, 184164523364910719422835799, 130864313642182592203094009, 92456335139276833789608912,
    64943949202341935106619706, 45353768704505005577571874, 31488104369932844004732483, 21733194586461284317521588, 14911786810515584400421050, 10170673019810996295943878,
    6895536767276976856472676, 4646960685039824918605117, 3112692794622150847098271, 2072303319261889689012332, 1371207829717476538570882, 901714139891291261969739,
    589294612309777953041032, 382715487403710345895693, 246991025325958016887746, 158390479859876579259498, 100925412712946543469577, 63896332378854410935931, 40191593128061992826877,
    25116431299373553074971, 15592765547314028274642, 9616333287058749167336, 5891083540001453861682, 3584741777083897988944, 2166580439635288074461, 1300537068095757556875,
    775314411241027833942, 459003392319565985710, 269843546893481048839, 157521894589147088180, 91301236260387043700, 52540325412163747950, 30016646765862968105, 17023829466256177684,
    9584065210112229469, 5355632827965733055, 2970372027347503774, 1635007465152105823, 893113447560376964, 484105453968748419, 260367957277003773, 138936494947364887, 73551691732389407,
    38626204599378454, 20120982373572576, 10395802537656018, 5326864547601454, 2706776000740962, 1363833572758428, 681332799484925, 337447031653579, 165675735761782, 80626310481746,
    38888020954092, 18587955728401, 8803971628689, 4131523630714, 1920784752039, 884575874091, 403486761105, 182267791561, 81531300459, 36109263987, 15832059071, 6871062972, 2951345339,
    1254486571, 527594979, 219513435, 90340582, 36770521, 14799390, 5889050, 2316500, 900598, 345991, 131327, 49240, 18233, 6666, 2406, 857, 301, 103, 35, 11, 3, 0, 0, 0, 0, 0, 0, 0, 0, 0,
    0, 0, 0, 0, 0, 0, 0, 0, 0, 0, 0, 0, 0, 0, 0, 0, 0, 0, 0, 0, 0, 0, 0, 0, 0, 0, 0, 0, 0, 0, 0, 0, 0, 0, 0, 0, 0, 0, 0, 0, 0, 0, 0, 0, 0, 0, 0, 0, 0, 0, 0, 0, 0, 0, 0, 0, 0, 0, 0, 0, 0, 0,
    0, 0, 0, 0, 0, 0, 0, 0, 0, 0, 0, 0, 0, 0, 0, 0, 0, 0, 0, 0, 0, 0, 0, 0, 0, 0, 0, 0, 0]
/-- Rounded powers after the chunk. -/
def stateP512_1 : List Nat := [
    0, 0, 0, 0, 0, 0, 0, 0, 0, 0, 0, 0, 0, 0, 0, 0, 0, 0, 0, 0, 0, 0, 0, 0, 0, 0, 0, 0, 0, 0, 0, 0, 0, 0, 0, 0, 0, 0, 0, 0, 0, 0, 0, 0, 0, 0, 0, 0, 0, 0, 0, 0, 0, 0, 0, 0, 0, 0, 0, 0, 0, 0,
    0, 0, 0, 0, 0, 0, 0, 0, 0, 0, 0, 0, 0, 0, 0, 0, 0, 0, 0, 0, 0, 0, 0, 0, 0, 0, 0, 0, 0, 0, 0, 0, 0, 0, 0, 0, 0, 0, 3, 11, 35, 103, 301, 857, 2406, 6666, 18233, 49240, 131327, 345991,
    900598, 2316500, 5889050, 14799390, 36770521, 90340582, 219513435, 527594979, 1254486571, 2951345339, 6871062972, 15832059071, 36109263987, 81531300459, 182267791561, 403486761105,
    884575874091, 1920784752039, 4131523630714, 8803971628689, 18587955728403, 38888020954092, 80626310481748, 165675735761784, 337447031653579, 681332799484925, 1363833572758406,
    2706776000741053, 5326864547601454, 10395802537656541, 20120982373573247, 38626204599379095, 73551691732389407, 138936494947360324, 260367957277003773, 484105453968764166,
    893113447560362507, 1635007465152158504, 2970372027347456143, 5355632827965904025, 9584065210112229469, 17023829466256716254, 30016646765863440813, 52540325412163747950,
    91301236260387043700, 157521894589149536943, 269843546893485226099, 459003392319558909627, 775314411241039737485, 1300537068095757556875, 2166580439635288074461, 3584741777084006754439,
    5891083540001631912100, 9616333287059038698096, 15592765547314495975754, 25116431299374678915776, 40191593128061992826877, 63896332378854410935931, 100925412712952510238799,
    158390479859876579259498, 246991025325932640993193, 382715487403665561958213, 589294612309786543655276, 901714139891291261969739, 1371207829717496396302403, 2072303319261919603288634,
    3112692794622106057094090, 4646960685039891576901509, 6895536767277272681892650, 10170673019810996295943878, 14911786810515584400421050, 21733194586462516385730310,
    31488104369933288983937964, 45353768704505005577571874, 64943949202343760286619019, 92456335139279425015411342, 130864313642182592203094009, 184164523364910719422835799,
    257693942331742670336125735, 358532854258272850308495490, 496012876566976994906187703, 682352262071721809564016458, 933443817324319150529888765, 1269823887714911355367396217,
    1717853771682921731690960982, 2311147422917609816407658606, 3092281105602255692272385941, 4114821453956998116163189427, 5445707770894779498712971294, 7168021952008363566911092926,
    9384174675398973259304818638, 12219528972018965453465754376, 15826471508183265284246675942, 20388927431583256480566457790, 26127296089094172862708652774, 33303762072025579911527693773,
    42227908802544092506775280774, 53262530382548585385840157534, 66829502091405362411614118713, 83415531466347260052212662702, 103577571409080438568329197902,
    127947635695334675322149404372, 157236717471334312322872403241, 192237475026239969195408048321, 233825318888215498724112316831, 282957512916703909501501815482,
    340669892519860033581905488441, 408070808390912299502437173588, 486331927052043850960092257018, 576675562488951162342227213895, 680358278162664422837207868101,
    798650586825524565303261018705, 932812686984211639428037994960, 1084066308506262571741762357280, 1253562893388793503028554271377, 1442348507316407670055314644814,
    1651326058097458152306822649967, 1881215581778859955317338176720, 2132513538366012860862253697187, 2405452227815175399464195793289, 2699960583896335398153213721212,
    3015627719038509212588752169678, 3351670668071595162797399167165, 3706907804453353146764978749200, 4079739372130658256666491469487, 4468136484637044809660832958094,
    4869639787857665436431386969289, 5281368764474150384351959049332, 5700042379958127259213352835920, 6122011438915419795009722506280, 6543302646599131309053627696218,
    6959673966460453104536104305335, 7366680446126867276463045379554, 7759749268492769719958787414344, 8134262390006639631008556814582, 8485644773220436841190136052565,
    8809455922712550290699632496728, 9101482207832491736159233150320, 9357827313046346795522640441646, 9574998096527856614769877843205, 9749983115201322990700515093752,
    9880320748761846340249662899212, 9964149280817535659294071743535, 10000000000000000000000000000000]
theorem chunk_512_1 : run neg512 pos512 64 0 (neg512.map fun _ => scale) (pos512.map fun _ => scale) = some (stateN512_1, stateP512_1) := by decide +kernel

/-- Rounded powers after the chunk. -/
def stateN512_2 : List Nat := [
    10000000000000000000000000000000, 9928427089041407135387510632830, 9762073809841385190929363353234, 9506217074670846067201836680532, 9168058854850972955950871980092,
    8756893202078948180486956393059, 8283697837949140829794864056344, 7760651365421523084076112595973, 7200616721727778181485171108198, 6616622462947313592114996263129,
    6021370870987253024329549043499, 5426798079534654770420650734153, 4843706171942488911465465453419, 4281480952499009657895426761032, 3747902405821028560785584957629,
    3249048313331787618884545894598, 2789285602636321375493488039749, 2371339166348522786589192390834, 1996424364534417425690783876131, 1664427334451262856364992024040,
    1374116547071611551638729035868, 1123369626721091294002084222909, 909401053983316686159051367906, 728978715459346330348244237065, 578620042030069092007288774812,
    454761399131421437296868828981, 353897206512766631625075231862, 272687775015168973694707619734, 208036921655786931011537718414, 157141992768124277970975704490,
    117519976123839525830965668745, 87013950899868211066508771631, 63784275983672144355965086183, 46288738666444125451271666197, 33255470437192210103518051607,
    23651874327015450165455349712, 16652178466081265998300749649, 11605597566948993674302179373, 8006495411600665978678228550, 5467427975317278499476117999, 3695524680446618727781739661,
    2472338532115824761464242760, 1637059748002564636138807983, 1072831329900287288070037134, 695815088981298495696127405, 446618234978503481211010171, 283689714275183550104810389,
    178319628183588556890626046, 110914056815000048352581121, 68263560092719566045608419, 41570836181036820787320001, 25047720039933667966310456, 14931688829800281828815012,
    8806273433839704454336116, 5138053870447518265930552, 2965573312598378823795640, 1693175559794478396765353, 956220243606444807458400, 534140241045870920802684, 295102158088499726551182,
    161245270581136752597332, 87131736010094893508410, 46560460955439572198656, 24602877372023354522317, 12854580758256966136156, 6640616791447551700704, 3391657166622474629328,
    1712546858503953691078, 854817390738627622452, 421771653799636966915, 205696433570173765188, 99150071681178386686, 47233174693299007501, 22236138588226654536, 10344258967591133060,
    4754842730886862044, 2159424360830579884, 968885643369265530, 429444104702384546, 188021091227851208, 81308839007989114, 34726814009733146, 14647114429865953, 6100456659156800,
    2508754411024193, 1018593893127855, 408274129146900, 161536415817165, 63083512121611, 24313433741347, 9247386588776, 3470486527525, 1285037360834, 469407080138, 169139666546,
    60111243625, 21068411414, 7281553977, 2481314725, 833591572, 276048576, 90099906, 28981074, 9185428, 2868278, 882308, 267323, 79763, 23433, 6777, 1928, 539, 147, 39, 9, 1, 0, 0, 0, 0,
    0, 0, 0, 0, 0, 0, 0, 0, 0, 0, 0, 0, 0, 0, 0, 0, 0, 0, 0, 0, 0, 0, 0, 0, 0, 0, 0, 0, 0, 0, 0, 0, 0, 0, 0, 0, 0, 0, 0, 0, 0, 0, 0, 0, 0, 0, 0, 0, 0, 0, 0, 0, 0, 0, 0, 0, 0, 0, 0, 0, 0, 0,
    0, 0, 0, 0, 0, 0, 0, 0, 0, 0, 0, 0, 0, 0, 0, 0, 0, 0, 0, 0, 0, 0, 0, 0, 0, 0, 0, 0, 0, 0, 0, 0, 0, 0, 0, 0, 0, 0, 0, 0, 0, 0, 0, 0, 0, 0, 0, 0, 0, 0, 0, 0, 0, 0, 0, 0, 0, 0, 0, 0, 0, 0,
    0, 0, 0, 0, 0, 0, 0, 0, 0, 0, 0, 0]
/-- Rounded powers after the chunk. -/
def stateP512_2 : List Nat := [
    0, 0, 0, 0, 0, 0, 0, 0, 0, 0, 0, 0, 0, 0, 0, 0, 0, 0, 0, 0, 0, 0, 0, 0, 0, 0, 0, 0, 0, 0, 0, 0, 0, 0, 0, 0, 0, 0, 0, 0, 0, 0, 0, 0, 0, 0, 0, 0, 0, 0, 0, 0, 0, 0, 0, 0, 0, 0, 0, 0, 0, 0,
    0, 0, 0, 0, 0, 0, 0, 0, 0, 0, 0, 0, 0, 0, 0, 0, 0, 0, 0, 0, 0, 0, 0, 0, 0, 0, 0, 0, 0, 0, 0, 0, 0, 0, 0, 0, 0, 0, 0, 0, 0, 0, 0, 0, 0, 0, 0, 0, 0, 0, 0, 0, 0, 0, 0, 0, 0, 0, 0, 0, 0, 0,
    0, 0, 0, 0, 0, 0, 0, 0, 0, 0, 0, 0, 0, 0, 0, 0, 1, 9, 39, 147, 539, 1928, 6777, 23433, 79763, 267323, 882308, 2868278, 9185428, 28981074, 90099906, 276048576, 833591572, 2481314725,
    7281553977, 21068411414, 60111243625, 169139666546, 469407080138, 1285037360834, 3470486527525, 9247386588777, 24313433741348, 63083512121617, 161536415817165, 408274129146900,
    1018593893127976, 2508754411024193, 6100456659155546, 14647114429862525, 34726814009734158, 81308839007989114, 188021091227856655, 429444104702396944, 968885643369237648,
    2159424360830641836, 4754842730887270019, 10344258967591133060, 22236138588226654536, 47233174693304362856, 99150071681181188997, 205696433570173765188, 421771653799660673793,
    854817390738675537501, 1712546858503953691078, 3391657166622474629328, 6640616791447551700704, 12854580758258392033028, 24602877372024715605990, 46560460955439572198656,
    87131736010099690069874, 161245270581141180177716, 295102158088523978563265, 534140241045870920802684, 956220243606470882054780, 1693175559794478396765353, 2965573312598378823795640,
    5138053870447379076643145, 8806273433839942513710005, 14931688829801087460018407, 25047720039933667966310456, 41570836181036820787320001, 68263560092719566045608419,
    110914056815008954775868278, 178319628183598085271621216, 283689714275191115748516598, 446618234978515370855032128, 695815088981316987278058079, 1072831329900315750839131675,
    1637059748002607996541406940, 2472338532116020898035823523, 3695524680446423584509458545, 5467427975317566767231508551, 8006495411600665978678228550, 11605597566949298726118268617,
    16652178466081265998300749649, 23651874327015450165455349712, 33255470437194821690758746877, 46288738666446545725323295319, 63784275983675475235518016833, 87013950899870480290333580252,
    117519976123839525830965668745, 157141992768128366602331789583, 208036921655786931011537718414, 272687775015168973694707619734, 353897206512757452832650358470,
    454761399131433220587569813895, 578620042030099048973803968708, 728978715459384037812599322981, 909401053983340185884049254017, 1123369626721149303824258109760,
    1374116547071717905162764323406, 1664427334451305765201540502208, 1996424364534468856838263290105, 2371339166348644883609759256306, 2789285602636321375493488039749,
    3249048313331871160590046657950, 3747902405821124875608026641023, 4281480952499119627602305004640, 4843706171942737612461962034312, 5426798079534794028553128018405,
    6021370870987407477172835325409, 6616622462947652910159280701466, 7200616721728331898749201058810, 7760651365421523084076112595973, 8283697837949140829794864056344,
    8756893202079621058702572969481, 9168058854851207737904380425937, 9506217074671089474502317931828, 9762073809841385190929363353234, 9928427089041661310252706509751,
    10000000000000000000000000000000]
theorem chunk_512_2 : run neg512 pos512 64 128 stateN512_1 stateP512_1 = some (stateN512_2, stateP512_2) := by decide +kernel

/-- Rounded powers after the chunk. -/
def stateN512_3 : List Nat := [
    10000000000000000000000000000000, 9892832963892000966610079324725, 9645242041432044489627407307925, 9268545596747807678116819502877, 8778414608405230290973075730677,
    8194549438384111526525062212839, 7539392848715458462824793690079, 6836711613521987694572362014399, 6110187564869064833537795321490, 5382134324922405338455077650022,
    4672432821146640907306753924874, 3997748729758626423380313146497, 3371061574605109383177611230542, 2801502564785017971210857408972, 2294470140037466386188479861131,
    1851971308052242377534284064610, 1473124585696092460495422031974, 1154756755495569642702932279970, 892029654199444305202817792357, 679042972841121273566595653338,
    509372335256805314690875704212, 376516502728352132345397995612, 274241502611489004764169107477, 196821379823956635371868888848, 139184286915970409220673073729,
    96978484037401361291133050026, 66575693923983625892510888902, 45029642860716551824482415476, 30006174341692472552119100095, 19698737112728817123976288673, 12739944669231483089553109159,
    8116771734401726789884837149, 5094134944459964112191749047, 3149292653742264920753942014, 1917761712020175136870054812, 1150266161985018666014039330, 679526792812352418549030804,
    395367767576121082444069086, 226549802884552602809000286, 127842308982687935971925144, 71041833346622906721722911, 38874239526777391116875183, 20945792424892575355842119,
    11112126368264426639367580, 5804178544967795209484143, 2984727426855527269294855, 1511003202579828949478460, 753006499663994768517182, 369385535860974059406222,
    178354224663815697018971, 84758476216539537697668, 39641702755696119581149, 18245820425691158481363, 8263960814247619316862, 3682968293396984630728, 1614964563357516465212,
    696711511875796979892, 295690179209855510402, 123447684156975549080, 50694235530407825304, 20475309636497908380, 8133258027135557981, 3177063585604627373, 1220334397712155386,
    460878952955108767, 171124672050248737, 62462292550821156, 22411126921819582, 7903328316101266, 2739151685935132, 932910847148318, 312204780538322, 102652777654574, 33158055811667,
    10520807559157, 3278719287341, 1003476010705, 301584336089, 88993844356, 25781599240, 7331732980, 2046432436, 560567750, 150675801, 39736278, 10280197, 2608719, 649237, 158440, 37908,
    8889, 2041, 458, 99, 20, 2, 0, 0, 0, 0, 0, 0, 0, 0, 0, 0, 0, 0, 0, 0, 0, 0, 0, 0, 0, 0, 0, 0, 0, 0, 0, 0, 0, 0, 0, 0, 0, 0, 0, 0, 0, 0, 0, 0, 0, 0, 0, 0, 0, 0, 0, 0, 0, 0, 0, 0, 0, 0,
    0, 0, 0, 0, 0, 0, 0, 0, 0, 0, 0, 0, 0, 0, 0, 0, 0, 0, 0, 0, 0, 0, 0, 0, 0, 0, 0, 0, 0, 0, 0, 0, 0, 0, 0, 0, 0, 0, 0, 0, 0, 0, 0, 0, 0, 0, 0, 0, 0, 0, 0, 0, 0, 0, 0, 0, 0, 0, 0, 0, 0, 0,
    0, 0, 0, 0, 0, 0, 0, 0, 0, 0, 0, 0, 0, 0, 0, 0, 0, 0, 0, 0, 0, 0, 0, 0, 0, 0, 0, 0, 0, 0, 0, 0, 0, 0, 0, 0, 0, 0, 0, 0, 0, 0, 0, 0, 0, 0]
/-- Rounded powers after the chunk. -/
def stateP512_3 : List Nat := [
    0, 0, 0, 0, 0, 0, 0, 0, 0, 0, 0, 0, 0, 0, 0, 0, 0, 0, 0, 0, 0, 0, 0, 0, 0, 0, 0, 0, 0, 0, 0, 0, 0, 0, 0, 0, 0, 0, 0, 0, 0, 0, 0, 0, 0, 0, 0, 0, 0, 0, 0, 0, 0, 0, 0, 0, 0, 0, 0, 0, 0, 0,
    0, 0, 0, 0, 0, 0, 0, 0, 0, 0, 0, 0, 0, 0, 0, 0, 0, 0, 0, 0, 0, 0, 0, 0, 0, 0, 0, 0, 0, 0, 0, 0, 0, 0, 0, 0, 0, 0, 0, 0, 0, 0, 0, 0, 0, 0, 0, 0, 0, 0, 0, 0, 0, 0, 0, 0, 0, 0, 0, 0, 0, 0,
    0, 0, 0, 0, 0, 0, 0, 0, 0, 0, 0, 0, 0, 0, 0, 0, 0, 0, 0, 0, 0, 0, 0, 0, 0, 0, 0, 0, 0, 0, 0, 0, 0, 0, 0, 0, 2, 20, 99, 458, 2041, 8889, 37908, 158440, 649237, 2608719, 10280197,
    39736278, 150675801, 560567750, 2046432436, 7331732980, 25781599240, 88993844356, 301584336088, 1003476010705, 3278719287341, 10520807559157, 33158055811667, 102652777654592,
    312204780538335, 932910847148318, 2739151685935363, 7903328316101929, 22411126921819582, 62462292550821156, 171124672050248737, 460878952955185452, 1220334397712256654,
    3177063585604627373, 8133258027136229579, 20475309636498751717, 50694235530414074516, 123447684156975549080, 295690179209867604900, 696711511875796979892, 1614964563357516465212,
    3682968293396834973948, 8263960814247954415474, 18245820425692635146436, 39641702755696119581149, 84758476216539537697668, 178354224663815697018971, 369385535861018552016533,
    753006499664055123057738, 1511003202579889394277626, 2984727426855646456143359, 5804178544968026582254304, 11112126368264868855042335, 20945792424893407534991423,
    38874239526782017097478899, 71041833346617279644233158, 127842308982698046616899552, 226549802884552602809000286, 395367767576136670739479103, 679526792812352418549030804,
    1150266161985018666014039330, 1917761712020401042651207340, 3149292653742511918776909233, 5094134944460363143528188022, 8116771734402044304000845394, 12739944669231483089553109159,
    19698737112729585927459198793, 30006174341692472552119100095, 45029642860716551824482415476, 66575693923981035799411151051, 96978484037405130495175002903,
    139184286915981218228449457256, 196821379823971906671990499856, 274241502611499634727483118540, 376516502728381296818314035097, 509372335256864451097117331765,
    679042972841147532097077524978, 892029654199478775410792719860, 1154756755495658827979331971388, 1473124585696092460495422031974, 1851971308052313806223561313973,
    2294470140037554832255188624560, 2801502564785125905971966729596, 3371061574605369014855223731162, 3997748729758780303904535828721, 4672432821146820684607410026886,
    5382134324922819353755958671842, 6110187564869769630738898958589, 6836711613521987694572362014399, 7539392848715458462824793690079, 8194549438385056028246729797863,
    8778414608405567496486767097618, 9268545596748163660677290840847, 9645242041432044489627407307925, 9892832963892380862055115830955, 10000000000000000000000000000000]
theorem chunk_512_3 : run neg512 pos512 64 256 stateN512_2 stateP512_2 = some (stateN512_3, stateP512_3) := by decide +kernel

/-- Rounded powers after the chunk. -/
def stateN512_4 : List Nat := [
    10000000000000000000000000000000, 9857366446241122937032021670940, 9529808506879109715301193375872, 9036816307076353815256973695904, 8405330316601133360336404266384,
    7668317855261649437403922779111, 6861964987044327024746106938910, 6022770961561895062080626767376, 5184888117322569532709185247158, 4377969281717897422918938376476,
    3625690716597379010500936431517, 2945013739604101720337980257521, 2346148948011375995501698068804, 1833107914661182699453562280868, 1404677244355905386075805300118,
    1055631494236413397593232458474, 778011417307426650622254856045, 562324944185850702428629106968, 398571024330665243467608290552, 277031835166853602210925537604,
    188819628493600844513137328232, 126195931823948399102992744723, 82701027698596726961793538377, 53140996759275862048545622366, 33480115303887892256122274028,
    20680793013996799438470128778, 12524323277753979278722034633, 7435862264272341237191679761, 4327936077201602934941594339, 2469360589113722287785658689, 1381094478814781222234915876,
    757142765120467585842407888, 406843386276125509849203722, 214264732733035947345386395, 110592631399896504579951127, 55941115918093255367236262, 27729504766622062496984986,
    13468989488597240171016194, 6410396877598251772502273, 2989276866528199531290400, 1365690266379008346233456, 611245781738463106546878, 267996461853022042918207,
    115096706241561905729433, 48415863805405234323696, 19946784781531375043996, 8047985398553528132909, 3179788979553327037316, 1230192799916105867006, 465991363653233532833,
    172813442079060000650, 62738827919889466909, 22295533130998250963, 7755045179155093944, 2639959757562072273, 879462507239572180, 286684347628534520, 91435715428276858,
    28530579710454102, 8708528370848979, 2600003728478394, 759193942013281, 216787652438295, 60530157498275, 16524024647048, 4409779137077, 1150333833584, 293281674251, 73071277144,
    17789132790, 4231102273, 983073666, 223097274, 49444581, 10700364, 2260848, 466307, 93869, 18438, 3531, 658, 116, 18, 0, 0, 0, 0, 0, 0, 0, 0, 0, 0, 0, 0, 0, 0, 0, 0, 0, 0, 0, 0, 0, 0,
    0, 0, 0, 0, 0, 0, 0, 0, 0, 0, 0, 0, 0, 0, 0, 0, 0, 0, 0, 0, 0, 0, 0, 0, 0, 0, 0, 0, 0, 0, 0, 0, 0, 0, 0, 0, 0, 0, 0, 0, 0, 0, 0, 0, 0, 0, 0, 0, 0, 0, 0, 0, 0, 0, 0, 0, 0, 0, 0, 0, 0, 0,
    0, 0, 0, 0, 0, 0, 0, 0, 0, 0, 0, 0, 0, 0, 0, 0, 0, 0, 0, 0, 0, 0, 0, 0, 0, 0, 0, 0, 0, 0, 0, 0, 0, 0, 0, 0, 0, 0, 0, 0, 0, 0, 0, 0, 0, 0, 0, 0, 0, 0, 0, 0, 0, 0, 0, 0, 0, 0, 0, 0, 0, 0,
    0, 0, 0, 0, 0, 0, 0, 0, 0, 0, 0, 0, 0, 0, 0, 0, 0, 0, 0, 0, 0, 0, 0, 0, 0, 0, 0]
/-- Rounded powers after the chunk. -/
def stateP512_4 : List Nat := [
    0, 0, 0, 0, 0, 0, 0, 0, 0, 0, 0, 0, 0, 0, 0, 0, 0, 0, 0, 0, 0, 0, 0, 0, 0, 0, 0, 0, 0, 0, 0, 0, 0, 0, 0, 0, 0, 0, 0, 0, 0, 0, 0, 0, 0, 0, 0, 0, 0, 0, 0, 0, 0, 0, 0, 0, 0, 0, 0, 0, 0, 0,
    0, 0, 0, 0, 0, 0, 0, 0, 0, 0, 0, 0, 0, 0, 0, 0, 0, 0, 0, 0, 0, 0, 0, 0, 0, 0, 0, 0, 0, 0, 0, 0, 0, 0, 0, 0, 0, 0, 0, 0, 0, 0, 0, 0, 0, 0, 0, 0, 0, 0, 0, 0, 0, 0, 0, 0, 0, 0, 0, 0, 0, 0,
    0, 0, 0, 0, 0, 0, 0, 0, 0, 0, 0, 0, 0, 0, 0, 0, 0, 0, 0, 0, 0, 0, 0, 0, 0, 0, 0, 0, 0, 0, 0, 0, 0, 0, 0, 0, 0, 0, 0, 0, 0, 0, 0, 0, 0, 0, 0, 0, 0, 18, 116, 658, 3531, 18438, 93869,
    466307, 2260848, 10700364, 49444581, 223097274, 983073666, 4231102273, 17789132790, 73071277144, 293281674251, 1150333833584, 4409779137077, 16524024647052, 60530157498281,
    216787652438295, 759193942013363, 2600003728478537, 8708528370850413, 28530579710454102, 91435715428281843, 286684347628534520, 879462507239572180, 2639959757561929241,
    7755045179155513229, 22295533131000656851, 62738827919889466909, 172813442079060000650, 465991363653233532833, 1230192799916303436515, 3179788979553666856789, 8047985398553957391968,
    19946784781532437070363, 48415863805407807668043, 115096706241568012879516, 267996461853036239632158, 611245781738560089747573, 1365690266378864114877666, 2989276866528514747928441,
    6410396877598251772502273, 13468989488597948232739114, 27729504766622062496984986, 55941115918093255367236262, 110592631399913874492406547, 214264732733058353632001804,
    406843386276168001397338221, 757142765120507076668502430, 1381094478814781222234915876, 2469360589113850786921456576, 4327936077201602934941594339, 7435862264272341237191679761,
    12524323277753329608922369992, 20680793013997871155623239226, 33480115303891358996367097089, 53140996759281359636331382435, 82701027698601001096729817576,
    126195931823961432397449072288, 188819628493630072940580582754, 277031835166867885939013695481, 398571024330685779146793063804, 562324944185908609118022042297,
    778011417307426650622254856045, 1055631494236467683800702482397, 1404677244355977581786754383121, 1833107914661276866094632501951, 2346148948011616922412037822216,
    2945013739604252865491157721196, 3625690716597565014071237469305, 4377969281718346450797717541197, 5184888117323366953867281961332, 6022770961561895062080626767376,
    6861964987044327024746106938910, 7668317855262827901938354786567, 8405330316601563859289968735168, 9036816307076816591784160583495, 9529808506879109715301193375872,
    9857366446241627648355414515864, 10000000000000000000000000000000]
theorem chunk_512_4 : run neg512 pos512 64 384 stateN512_3 stateP512_3 = some (stateN512_4, stateP512_4) := by decide +kernel

/-- Rounded powers after the chunk. -/
def stateN512_5 : List Nat := [
    10000000000000000000000000000000, 9822027078606713514120760023986, 9415756472224481818210470816055, 8810880640916929558404157297302, 8048102178214270781694161836698,
    7175879427108568885950799595721, 6245405224035345708154434261283, 5305733531847259802366696858158, 4399711875248932161049904455677, 3561155087288136257007824341403,
    2813445088589717699126092638713, 2169497512911621943738747057335, 1632843175491293336136002660776, 1199457986950417725516350283560, 859945015793093257574292305510,
    601714425476600256313602607462, 410896519777170651036404671080, 273831992191218907548010005410, 178086973553098171760506456571, 113021768526380875845199356339,
    69993695449688462056385720707, 42296720312427968667467896253, 24939551152085659638566560235, 14347859663900401282532096709, 8053481794524399378326823422, 4410207108649286314432684938,
    2356095210134677591461193080, 1227903312141648489072658821, 624239214071256090155552401, 309549880490961310032022995, 149719799334712053807905257, 70627237716266999507998498,
    32492570919550272187775714, 14577678463322800885674803, 6377606791966605498893469, 2720595070588805814783340, 1131560142639512094615497, 458847920143148606458668,
    181386995729420573624719, 69896861656110342779131, 26253684847662055967186, 9611028028875178936481, 3428951366880866667515, 1192143730968517436757, 403863501073011005565,
    133303369527414593967, 42865606680875896222, 13427583903990904859, 4097004831112331450, 1217509433312878888, 352348072975207057, 99293427253094329, 27244091304083440, 7277469857680107,
    1892328949462376, 478929580988508, 117965490413548, 28274493519600, 6593837577209, 1495997830760, 330154684249, 70866489125, 14792554497, 3002373748, 592440567, 113637330, 21185061,
    3838005, 675584, 115524, 19185, 3090, 479, 69, 6, 0, 0, 0, 0, 0, 0, 0, 0, 0, 0, 0, 0, 0, 0, 0, 0, 0, 0, 0, 0, 0, 0, 0, 0, 0, 0, 0, 0, 0, 0, 0, 0, 0, 0, 0, 0, 0, 0, 0, 0, 0, 0, 0, 0, 0,
    0, 0, 0, 0, 0, 0, 0, 0, 0, 0, 0, 0, 0, 0, 0, 0, 0, 0, 0, 0, 0, 0, 0, 0, 0, 0, 0, 0, 0, 0, 0, 0, 0, 0, 0, 0, 0, 0, 0, 0, 0, 0, 0, 0, 0, 0, 0, 0, 0, 0, 0, 0, 0, 0, 0, 0, 0, 0, 0, 0, 0, 0,
    0, 0, 0, 0, 0, 0, 0, 0, 0, 0, 0, 0, 0, 0, 0, 0, 0, 0, 0, 0, 0, 0, 0, 0, 0, 0, 0, 0, 0, 0, 0, 0, 0, 0, 0, 0, 0, 0, 0, 0, 0, 0, 0, 0, 0, 0, 0, 0, 0, 0, 0, 0, 0, 0, 0, 0, 0, 0, 0, 0, 0, 0,
    0, 0, 0, 0, 0, 0, 0, 0, 0, 0, 0, 0]
/-- Rounded powers after the chunk. -/
def stateP512_5 : List Nat := [
    0, 0, 0, 0, 0, 0, 0, 0, 0, 0, 0, 0, 0, 0, 0, 0, 0, 0, 0, 0, 0, 0, 0, 0, 0, 0, 0, 0, 0, 0, 0, 0, 0, 0, 0, 0, 0, 0, 0, 0, 0, 0, 0, 0, 0, 0, 0, 0, 0, 0, 0, 0, 0, 0, 0, 0, 0, 0, 0, 0, 0, 0,
    0, 0, 0, 0, 0, 0, 0, 0, 0, 0, 0, 0, 0, 0, 0, 0, 0, 0, 0, 0, 0, 0, 0, 0, 0, 0, 0, 0, 0, 0, 0, 0, 0, 0, 0, 0, 0, 0, 0, 0, 0, 0, 0, 0, 0, 0, 0, 0, 0, 0, 0, 0, 0, 0, 0, 0, 0, 0, 0, 0, 0, 0,
    0, 0, 0, 0, 0, 0, 0, 0, 0, 0, 0, 0, 0, 0, 0, 0, 0, 0, 0, 0, 0, 0, 0, 0, 0, 0, 0, 0, 0, 0, 0, 0, 0, 0, 0, 0, 0, 0, 0, 0, 0, 0, 0, 0, 0, 0, 0, 0, 0, 0, 0, 0, 0, 0, 0, 0, 0, 6, 69, 479,
    3090, 19185, 115524, 675584, 3838005, 21185061, 113637330, 592440567, 3002373748, 14792554497, 70866489125, 330154684249, 1495997830761, 6593837577209, 28274493519602, 117965490413548,
    478929580988508, 1892328949462250, 7277469857680596, 27244091304087115, 99293427253094329, 352348072975207057, 1217509433312878888, 4097004831113153927, 13427583903992698592,
    42865606680878754152, 133303369527423465803, 403863501073037837675, 1192143730968596507228, 3428951366881093722015, 9611028028877085101498, 26253684847658590133226,
    69896861656119555982999, 181386995729420573624719, 458847920143178758372553, 1131560142639512094615497, 2720595070588805814783340, 6377606791967857599397919, 14577678463324706423497510,
    32492570919554514175257306, 70627237716271604200948560, 149719799334712053807905257, 309549880490981445250581590, 624239214071256090155552401, 1227903312141648489072658821,
    2356095210134524820342425544, 4410207108649571995849973324, 8053481794525441763082469178, 14347859663902256691323104451, 24939551152087270788540154531, 42296720312433429081310097843,
    69993695449702005442110882785, 113021768526388160081182114573, 178086973553109641287681742362, 273831992191254155637841374121, 410896519777170651036404671080,
    601714425476638935524005899194, 859945015793148505445326169822, 1199457986950494745620317299076, 1632843175491502932729216574786, 2169497512911761123494301965412,
    2813445088589898116759665202741, 3561155087288592820831126563066, 4399711875249777990135186785706, 5305733531847259802366696858158, 6245405224035345708154434261283,
    7175879427109947369401770105031, 8048102178214786035026778961246, 8810880640917493566319930251201, 9415756472224481818210470816055, 9822027078607342141492010680260,
    10000000000000000000000000000000]
theorem chunk_512_5 : run neg512 pos512 64 512 stateN512_4 stateP512_4 = some (stateN512_5, stateP512_5) := by decide +kernel

/-- Rounded powers after the chunk. -/
def stateN512_6 : List Nat := [
    10000000000000000000000000000000, 9786814405146819250081177594786, 9303069403780819303105997722541, 8590593747899317433988848227710, 7706056303706235267592848864618,
    6715064049812135763177808296272, 5684244452726179593983652765974, 4674062568646642043592440005819, 3733439207788055237314000787899, 2896736989150795584233065271227,
    2183162846812835761742409506202, 1598199490628671108128443957960, 1136405613977907945575993183769, 784841662049703381488284364612, 526459322352355060872775463605,
    342979772584873363251312501326, 217009604498228405946243966331, 133346316436265481021388428726, 79571690397118018516445794049, 46109935896490776353765730096,
    25946017592497127063495129036, 14176467682678919872035744633, 7520840175460733061994058606, 3873865555580620409908736153, 1937226572430717164801618655, 940482636619251063649959311,
    443232302145995028263905241, 202766873616368112509476222, 90037049862404368853196504, 38804024383639965440039653, 16230619017507968306648487, 6588198338838281606201673,
    2595021083236812165001515, 991804421891499733257075, 367780998409055315404768, 132311224340774520090867, 46175666214984173055982, 15631567163812570110678, 5132481318702963883217,
    1634365596602505252233, 504694208524934242660, 151120649878526168147, 43872622030668719189, 12347935242427755572, 3368848858186447220, 890859781262361678, 228313067820649948,
    56701878853622163, 13644567410329883, 3181022945543074, 718399929054959, 157146459737087, 33290996300647, 6829304833933, 1356425545007, 260811054082, 48540693070, 8743268199,
    1523933065, 256990544, 41923823, 6614981, 1009367, 148915, 21235, 2921, 383, 44, 0, 0, 0, 0, 0, 0, 0, 0, 0, 0, 0, 0, 0, 0, 0, 0, 0, 0, 0, 0, 0, 0, 0, 0, 0, 0, 0, 0, 0, 0, 0, 0, 0, 0, 0,
    0, 0, 0, 0, 0, 0, 0, 0, 0, 0, 0, 0, 0, 0, 0, 0, 0, 0, 0, 0, 0, 0, 0, 0, 0, 0, 0, 0, 0, 0, 0, 0, 0, 0, 0, 0, 0, 0, 0, 0, 0, 0, 0, 0, 0, 0, 0, 0, 0, 0, 0, 0, 0, 0, 0, 0, 0, 0, 0, 0, 0, 0,
    0, 0, 0, 0, 0, 0, 0, 0, 0, 0, 0, 0, 0, 0, 0, 0, 0, 0, 0, 0, 0, 0, 0, 0, 0, 0, 0, 0, 0, 0, 0, 0, 0, 0, 0, 0, 0, 0, 0, 0, 0, 0, 0, 0, 0, 0, 0, 0, 0, 0, 0, 0, 0, 0, 0, 0, 0, 0, 0, 0, 0, 0,
    0, 0, 0, 0, 0, 0, 0, 0, 0, 0, 0, 0, 0, 0, 0, 0, 0, 0, 0, 0, 0, 0, 0, 0, 0, 0, 0, 0, 0]
/-- Rounded powers after the chunk. -/
def stateP512_6 : List Nat := [
    0, 0, 0, 0, 0, 0, 0, 0, 0, 0, 0, 0, 0, 0, 0, 0, 0, 0, 0, 0, 0, 0, 0, 0, 0, 0, 0, 0, 0, 0, 0, 0, 0, 0, 0, 0, 0, 0, 0, 0, 0, 0, 0, 0, 0, 0, 0, 0, 0, 0, 0, 0, 0, 0, 0, 0, 0, 0, 0, 0, 0, 0,
    0, 0, 0, 0, 0, 0, 0, 0, 0, 0, 0, 0, 0, 0, 0, 0, 0, 0, 0, 0, 0, 0, 0, 0, 0, 0, 0, 0, 0, 0, 0, 0, 0, 0, 0, 0, 0, 0, 0, 0, 0, 0, 0, 0, 0, 0, 0, 0, 0, 0, 0, 0, 0, 0, 0, 0, 0, 0, 0, 0, 0, 0,
    0, 0, 0, 0, 0, 0, 0, 0, 0, 0, 0, 0, 0, 0, 0, 0, 0, 0, 0, 0, 0, 0, 0, 0, 0, 0, 0, 0, 0, 0, 0, 0, 0, 0, 0, 0, 0, 0, 0, 0, 0, 0, 0, 0, 0, 0, 0, 0, 0, 0, 0, 0, 0, 0, 0, 0, 0, 0, 0, 0, 0, 0,
    0, 0, 44, 383, 2921, 21235, 148915, 1009367, 6614981, 41923823, 256990544, 1523933065, 8743268199, 48540693070, 260811054082, 1356425545007, 6829304833935, 33290996300651,
    157146459737087, 718399929054959, 3181022945543074, 13644567410333172, 56701878853631253, 228313067820668214, 890859781262432823, 3368848858186715803, 12347935242428738364,
    43872622030672205317, 151120649878562134441, 504694208524854291078, 1634365596602763765872, 5132481318702963883217, 15631567163813802732592, 46175666214984173055982,
    132311224340774520090867, 367780998409141962096292, 991804421891655307068917, 2595021083237218708896493, 6588198338838797044122089, 16230619017507968306648487,
    38804024383642994331579890, 90037049862404368853196504, 202766873616368112509476222, 443232302145960540814816687, 940482636619324169988762556, 1937226572431018053609543691,
    3873865555581221553581064421, 7520840175461316097416446496, 14176467682681116053104997306, 25946017592503151553364327976, 46109935896494342487885900026, 79571690397124168205985805672,
    133346316436286078481471086176, 217009604498228405946243966331, 342979772584899820027935150773, 526459322352395648244588868293, 784841662049763857390299809766,
    1136405613978082992450383142995, 1598199490628794143262493124195, 2183162846813003761214426053167, 2896736989151241241425448253351, 3733439207788916525932788430572,
    4674062568646642043592440005819, 5684244452726179593983652765974, 6715064049813683716388377172544, 7706056303706827293554333493082, 8590593747899977322107523366336,
    9303069403780819303105997722541, 9786814405147570898517475523344, 10000000000000000000000000000000]
theorem chunk_512_6 : run neg512 pos512 64 640 stateN512_5 stateP512_5 = some (stateN512_6, stateP512_6) := by decide +kernel

/-- Rounded powers after the chunk. -/
def stateN512_7 : List Nat := [
    10000000000000000000000000000000, 9751727971653712883588260156667, 9191730965734712798327612076840, 8375814399157132341030080066115, 7378547443972274844965431103126,
    6283840977418520401749527482456, 5173504975145786275093220723232, 4117594817849319691837703852382, 3168063889970174126387798679510, 2356281874458978364205209287046,
    1694079630355627770753659350257, 1177342493662399985574961459008, 790901256694135007607573641797, 513545652445101917996948330834, 322298999356473662112331508125,
    195499923920215368022844188856, 114610774678783258388290636655, 64934852808228024572408273505, 35553717300760161974184129787, 18811652092333175594824775024,
    9617949510810787884274210413, 4751485090889860709604605244, 2268005410357753881467505138, 1045928430738108309988884160, 465990597443610422337081936, 200559195518869020169851869,
    83381551314477228801765775, 33483422212166264435885581, 12986480447221191001130254, 4864328508148437670148287, 1759506724308140548753351, 614555499483657693814497,
    207251511095163434962196, 67478234875219991422190, 21209031413028169872115, 6434717270426416266802, 1884294144033752906713, 532520430561293161219, 145227414903163541756,
    38215605680549928901, 9702114030720255527, 2376171492903330839, 561339826057904099, 127896914432724470, 28101431793541574, 5953571561502101, 1216053171152996, 239440176916349,
    45441542660922, 8311152836430, 1464740402025, 248707396753, 40680029372, 6408738940, 972288800, 142030070, 19973620, 2703658, 352195, 44141, 5316, 609, 62, 0, 0, 0, 0, 0, 0, 0, 0, 0, 0,
    0, 0, 0, 0, 0, 0, 0, 0, 0, 0, 0, 0, 0, 0, 0, 0, 0, 0, 0, 0, 0, 0, 0, 0, 0, 0, 0, 0, 0, 0, 0, 0, 0, 0, 0, 0, 0, 0, 0, 0, 0, 0, 0, 0, 0, 0, 0, 0, 0, 0, 0, 0, 0, 0, 0, 0, 0, 0, 0, 0, 0, 0,
    0, 0, 0, 0, 0, 0, 0, 0, 0, 0, 0, 0, 0, 0, 0, 0, 0, 0, 0, 0, 0, 0, 0, 0, 0, 0, 0, 0, 0, 0, 0, 0, 0, 0, 0, 0, 0, 0, 0, 0, 0, 0, 0, 0, 0, 0, 0, 0, 0, 0, 0, 0, 0, 0, 0, 0, 0, 0, 0, 0, 0, 0,
    0, 0, 0, 0, 0, 0, 0, 0, 0, 0, 0, 0, 0, 0, 0, 0, 0, 0, 0, 0, 0, 0, 0, 0, 0, 0, 0, 0, 0, 0, 0, 0, 0, 0, 0, 0, 0, 0, 0, 0, 0, 0, 0, 0, 0, 0, 0, 0, 0, 0, 0, 0, 0, 0, 0, 0, 0, 0, 0]
/-- Rounded powers after the chunk. -/
def stateP512_7 : List Nat := [
    0, 0, 0, 0, 0, 0, 0, 0, 0, 0, 0, 0, 0, 0, 0, 0, 0, 0, 0, 0, 0, 0, 0, 0, 0, 0, 0, 0, 0, 0, 0, 0, 0, 0, 0, 0, 0, 0, 0, 0, 0, 0, 0, 0, 0, 0, 0, 0, 0, 0, 0, 0, 0, 0, 0, 0, 0, 0, 0, 0, 0, 0,
    0, 0, 0, 0, 0, 0, 0, 0, 0, 0, 0, 0, 0, 0, 0, 0, 0, 0, 0, 0, 0, 0, 0, 0, 0, 0, 0, 0, 0, 0, 0, 0, 0, 0, 0, 0, 0, 0, 0, 0, 0, 0, 0, 0, 0, 0, 0, 0, 0, 0, 0, 0, 0, 0, 0, 0, 0, 0, 0, 0, 0, 0,
    0, 0, 0, 0, 0, 0, 0, 0, 0, 0, 0, 0, 0, 0, 0, 0, 0, 0, 0, 0, 0, 0, 0, 0, 0, 0, 0, 0, 0, 0, 0, 0, 0, 0, 0, 0, 0, 0, 0, 0, 0, 0, 0, 0, 0, 0, 0, 0, 0, 0, 0, 0, 0, 0, 0, 0, 0, 0, 0, 0, 0, 0,
    0, 0, 0, 0, 0, 0, 0, 62, 609, 5316, 44141, 352195, 2703658, 19973620, 142030070, 972288800, 6408738940, 40680029372, 248707396753, 1464740402025, 8311152836430, 45441542660935,
    239440176916394, 1216053171153110, 5953571561502653, 28101431793544190, 127896914432736349, 561339826057956139, 2376171492903990614, 9702114030718462399, 38215605680556981054,
    145227414903163541756, 532520430561342151556, 1884294144033752906713, 6434717270426416266802, 21209031413033999358899, 67478234875232340114116, 207251511095201315056232,
    614555499483713787968175, 1759506724308140548753351, 4864328508148880642519961, 12986480447221191001130254, 33483422212166264435885581, 83381551314469659663662304,
    200559195518887208533196336, 465990597443694862596639184, 1045928430738297667481281076, 2268005410357959006875280797, 4751485090890719478432957201, 9617949510813393310934175129,
    18811652092334872966232016522, 35553717300763367700274470050, 64934852808239726497042127214, 114610774678783258388290636655, 195499923920232961910109243924,
    322298999356502651020358511894, 513545652445148084412081529278, 790901256694277139011277215063, 1177342493662505727635183227262, 1694079630355779861361336232663,
    2356281874459401291668073580204, 3168063889971026795135527784209, 4117594817849319691837703852382, 5173504975145786275093220723232, 6283840977420210374280065024889,
    7378547443972936187168433977925, 8375814399157882962465163927622, 9191730965734712798327612076840, 9751727971654586662931289474587, 10000000000000000000000000000000]
theorem chunk_512_7 : run neg512 pos512 64 768 stateN512_6 stateP512_6 = some (stateN512_7, stateP512_7) := by decide +kernel
theorem chunk_512_8 : (run neg512 pos512 63 896 stateN512_7 stateP512_7).isSome = true := by decide +kernel
theorem moments_512 : moments 511 lobatto512 = true := by
  rw [moments, negatives_512, positives_512]
  exact run_then chunk_512_1 (run_then chunk_512_2 (run_then chunk_512_3 (run_then chunk_512_4 (run_then chunk_512_5 (run_then chunk_512_6 (run_then chunk_512_7 (chunk_512_8) rfl rfl) rfl rfl) rfl rfl) rfl rfl) rfl rfl) rfl rfl) rfl rfl

end Fenris.Lobatto
