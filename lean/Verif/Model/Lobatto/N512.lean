import Verif.Model.Lobatto.Basic
/-! # Rules of fenris-quadrature/src/codegen/gauss_lobatto_rules.rs -/
set_option autoImplicit false

namespace Fenris.Lobatto

/-- `gauss_lobatto_512` (gauss_lobatto_rules.rs:2262-3292). -/
def lobatto512 : Table where
  weights := [
    76443248534190890000000000, 471241697282980300000000000, 848687753020022600000000000, 1225903968046551000000000000, 1603046822601291500000000000, 1980122472008754000000000000,
    2357121140292953500000000000, 2734029947805711000000000000, 3110835174008278300000000000, 3487522817768307300000000000, 3864078770893452300000000000, 4240488881147259700000000000,
    4616738978276830300000000000, 4992814885948820000000000000, 5368702427782336000000000000, 5744387430722119000000000000, 6119855727063165000000000000, 6495093155887986000000000000,
    6870085564077654000000000000, 7244818807196668000000000000, 7619278750141891000000000000, 7993451267880445000000000000, 8367322246034365000000000000, 8740877581438444000000000000,
    9114103182764525000000000000, 9486984971029656000000000000, 9859508880189552000000000000, 10231660857643117000000000000, 10603426864776080000000000000, 10974792877554485000000000000,
    11345744886966110000000000000, 11716268899631317000000000000, 12086350938301492000000000000, 12455977042373292000000000000, 12825133268464853000000000000, 13193805690874260000000000000,
    13561980402176045000000000000, 13929643513729080000000000000, 14296781156147274000000000000, 14663379479894422000000000000, 15029424655755325000000000000, 15394902875402830000000000000,
    15759800351875825000000000000, 16124103320133414000000000000, 16487798037540474000000000000, 16850870784435004000000000000, 17213307864596104000000000000, 17575095605789862000000000000,
    17936220360270341000000000000, 18296668505307870000000000000, 18656426443681559000000000000, 19015480604227559000000000000, 19373817442323168000000000000, 19731423440400337000000000000,
    20088285108455827000000000000, 20444388984583330000000000000, 20799721635441010000000000000, 21154269656796314000000000000, 21508019673998086000000000000, 21860958342521290000000000000,
    22213072348429646000000000000, 22564348408901564000000000000, 22914773272718760000000000000, 23264333720782395000000000000, 23613016566598945000000000000, 23960808656780490000000000000,
    24307696871526980000000000000, 24653668125172120000000000000, 24998709366591670000000000000, 25342807579786892000000000000, 25685949784300167000000000000, 26028123035763888000000000000,
    26369314426350540000000000000, 26709511085265210000000000000, 27048700179252575000000000000, 27386868913039720000000000000, 27724004529879220000000000000, 28060094311969748000000000000,
    28395125580975094000000000000, 28729085698483440000000000000, 29061962066488270000000000000, 29393742127874064000000000000, 29724413366880066000000000000, 30053963309563360000000000000,
    30382379524287353000000000000, 30709649622183656000000000000, 31035761257619160000000000000, 31360702128645475000000000000, 31684459977521103000000000000, 32007022591076725000000000000,
    32328377801276050000000000000, 32648513485608933000000000000, 32967417567563550000000000000, 33285078017102473000000000000, 33601482851099410000000000000, 33916620133785700000000000000,
    34230477977218177000000000000, 34543044541706274000000000000, 34854308036286466000000000000, 35164256719146070000000000000, 35472878898043267000000000000, 35780162930812600000000000000,
    36086097225779485000000000000, 36390670242133563000000000000, 36693870490439075000000000000, 36995686533075806000000000000, 37296106984589534000000000000, 37595120512206866000000000000,
    37892715836223030000000000000, 38188881730417163000000000000, 38483607022502067000000000000, 38776880594541210000000000000, 39068691383342890000000000000, 39359028380917625000000000000,
    39647880634853660000000000000, 39935237248756960000000000000, 40221087382637210000000000000, 40505420253382560000000000000, 40788225135051650000000000000, 41069491359377040000000000000,
    41349208316146720000000000000, 41627365453568745000000000000, 41903952278696780000000000000, 42178958357829640000000000000, 42452373316888240000000000000, 42724186841826065000000000000,
    42994388678996240000000000000, 43262968635547750000000000000, 43529916579829260000000000000, 43795222441736950000000000000, 44058876213117530000000000000, 44320867948151000000000000000,
    44581187763681170000000000000, 44839825839658030000000000000, 45096772419457100000000000000, 45352017810265000000000000000, 45605552383433870000000000000, 45857366574863280000000000000,
    46107450885335130000000000000, 46355795880923450000000000000, 46602392193275930000000000000, 46847230520020960000000000000, 47090301625110350000000000000, 47331596339152580000000000000,
    47571105559758180000000000000, 47808820251914515000000000000, 48044731448289545000000000000, 48278830249586090000000000000, 48511107824869410000000000000, 48741555411925515000000000000,
    48970164317569310000000000000, 49196925917951000000000000000, 49421831658927360000000000000, 49644873056374425000000000000, 49866041696480030000000000000, 50085329236077070000000000000,
    50302727402975490000000000000, 50518227996237630000000000000, 50731822886523940000000000000, 50943504016374060000000000000, 51153263400527770000000000000, 51361093126208820000000000000,
    51566985353446200000000000000, 51770932315359690000000000000, 51972926318424520000000000000, 52172959742819980000000000000, 52371025042671790000000000000, 52567114746329465000000000000,
    52761221456701500000000000000, 52953337851487930000000000000, 53143456683451660000000000000, 53331570780733980000000000000, 53517673047098000000000000000, 53701756462189380000000000000,
    53883814081811110000000000000, 54063839038199430000000000000, 54241824540243830000000000000, 54417763873800965000000000000, 54591650401891330000000000000, 54763477564973260000000000000,
    54933238881199220000000000000, 55100927946658950000000000000, 55266538435602860000000000000, 55430064100689600000000000000, 55591498773224310000000000000, 55750836363399980000000000000,
    55908070860518430000000000000, 56063196333196825000000000000, 56216206929636640000000000000, 56367096877802030000000000000, 56515860485662840000000000000, 56662492141392560000000000000,
    56806986313598035000000000000, 56949337551520570000000000000, 57089540485224840000000000000, 57227589825829634000000000000, 57363480365680660000000000000, 57497206978573670000000000000,
    57628764619937490000000000000, 57758148327005530000000000000, 57885353219025070000000000000, 58010374497436350000000000000, 58133207446054130000000000000, 58253847431251615000000000000,
    58372289902099910000000000000, 58488530390589260000000000000, 58602564511778810000000000000, 58714387963936700000000000000, 58823996528751690000000000000, 58931386071456900000000000000,
    59036552540966350000000000000, 59139491970100090000000000000, 59240200475644740000000000000, 59338674258580720000000000000, 59434909604169840000000000000, 59528902882117820000000000000,
    59620650546713650000000000000, 59710149136945325000000000000, 59797395276654924000000000000, 59882385674652230000000000000, 59965117124836835000000000000, 60045586506315350000000000000,
    60123790783546200000000000000, 60199727006416320000000000000, 60273392310385220000000000000, 60344783916565550000000000000, 60413899131846530000000000000, 60480735348992344000000000000,
    60545290046733246000000000000, 60607560789864440000000000000, 60667545229345270000000000000, 60725241102377240000000000000, 60780646232495295000000000000, 60833758529651874000000000000,
    60884575990277720000000000000, 60933096697392510000000000000, 60979318820637840000000000000, 61023240616374710000000000000, 61064860427740800000000000000, 61104176684709540000000000000,
    61141187904142640000000000000, 61175892689870860000000000000, 61208289732714140000000000000, 61238377810574890000000000000, 61266155788419810000000000000, 61291622618386285000000000000,
    61314777339785410000000000000, 61335619079148750000000000000, 61354147050262904000000000000, 61370360554196726000000000000, 61384258979327770000000000000, 61395841801359940000000000000,
    61405108583360260000000000000, 61412058975753850000000000000, 61416692716338445000000000000, 61419009630338020000000000000, 61419009630338750000000000000, 61416692716341950000000000000,
    61412058975754280000000000000, 61405108583356730000000000000, 61395841801357770000000000000, 61384258979328380000000000000, 61370360554197760000000000000, 61354147050267410000000000000,
    61335619079148215000000000000, 61314777339787280000000000000, 61291622618385565000000000000, 61266155788419180000000000000, 61238377810577520000000000000, 61208289732717905000000000000,
    61175892689870600000000000000, 61141187904141880000000000000, 61104176684708500000000000000, 61064860427739720000000000000, 61023240616375430000000000000, 60979318820637480000000000000,
    60933096697390570000000000000, 60884575990278560000000000000, 60833758529651850000000000000, 60780646232494960000000000000, 60725241102380400000000000000, 60667545229346160000000000000,
    60607560789866285000000000000, 60545290046731810000000000000, 60480735348990900000000000000, 60413899131845080000000000000, 60344783916568350000000000000, 60273392310384620000000000000,
    60199727006418220000000000000, 60123790783544690000000000000, 60045586506318185000000000000, 59965117124836330000000000000, 59882385674653125000000000000, 59797395276656820000000000000,
    59710149136947870000000000000, 59620650546711780000000000000, 59528902882119260000000000000, 59434909604171880000000000000, 59338674258580350000000000000, 59240200475647120000000000000,
    59139491970095970000000000000, 59036552540968415000000000000, 58931386071455150000000000000, 58823996528754960000000000000, 58714387963939800000000000000, 58602564511779340000000000000,
    58488530390587700000000000000, 58372289902098020000000000000, 58253847431245770000000000000, 58133207446054710000000000000, 58010374497439220000000000000, 57885353219026150000000000000,
    57758148327004145000000000000, 57628764619937350000000000000, 57497206978574400000000000000, 57363480365679115000000000000, 57227589825824820000000000000, 57089540485221350000000000000,
    56949337551518145000000000000, 56806986313601650000000000000, 56662492141395100000000000000, 56515860485663210000000000000, 56367096877802060000000000000, 56216206929637080000000000000,
    56063196333198940000000000000, 55908070860518230000000000000, 55750836363402880000000000000, 55591498773222340000000000000, 55430064100686570000000000000, 55266538435601480000000000000,
    55100927946661260000000000000, 54933238881201970000000000000, 54763477564970270000000000000, 54591650401886600000000000000, 54417763873797955000000000000, 54241824540244910000000000000,
    54063839038195460000000000000, 53883814081811030000000000000, 53701756462190160000000000000, 53517673047097040000000000000, 53331570780736510000000000000, 53143456683453440000000000000,
    52953337851482520000000000000, 52761221456701060000000000000, 52567114746330250000000000000, 52371025042667710000000000000, 52172959742820920000000000000, 51972926318428010000000000000,
    51770932315358610000000000000, 51566985353449080000000000000, 51361093126210150000000000000, 51153263400526850000000000000, 50943504016373060000000000000, 50731822886523750000000000000,
    50518227996238980000000000000, 50302727402976170000000000000, 50085329236081810000000000000, 49866041696481620000000000000, 49644873056377105000000000000, 49421831658929090000000000000,
    49196925917946480000000000000, 48970164317561566000000000000, 48741555411927180000000000000, 48511107824870010000000000000, 48278830249581730000000000000, 48044731448285730000000000000,
    47808820251913220000000000000, 47571105559757310000000000000, 47331596339148730000000000000, 47090301625109730000000000000, 46847230520021725000000000000, 46602392193277940000000000000,
    46355795880924150000000000000, 46107450885340420000000000000, 45857366574858700000000000000, 45605552383430120000000000000, 45352017810262340000000000000, 45096772419457380000000000000,
    44839825839661350000000000000, 44581187763681840000000000000, 44320867948145150000000000000, 44058876213120230000000000000, 43795222441740400000000000000, 43529916579830490000000000000,
    43262968635551220000000000000, 42994388678994250000000000000, 42724186841828020000000000000, 42452373316891195000000000000, 42178958357829880000000000000, 41903952278698800000000000000,
    41627365453569440000000000000, 41349208316149340000000000000, 41069491359378570000000000000, 40788225135049500000000000000, 40505420253377990000000000000, 40221087382642465000000000000,
    39935237248754200000000000000, 39647880634853430000000000000, 39359028380918680000000000000, 39068691383347140000000000000, 38776880594543974000000000000, 38483607022506755000000000000,
    38188881730417480000000000000, 37892715836222140000000000000, 37595120512209997000000000000, 37296106984588536000000000000, 36995686533072430000000000000, 36693870490440445000000000000,
    36390670242128055000000000000, 36086097225776735000000000000, 35780162930821144000000000000, 35472878898042143000000000000, 35164256719138110000000000000, 34854308036286236000000000000,
    34543044541707184000000000000, 34230477977216143000000000000, 33916620133784513000000000000, 33601482851097850000000000000, 33285078017102520000000000000, 32967417567561904000000000000,
    32648513485605880000000000000, 32328377801277347000000000000, 32007022591079943000000000000, 31684459977520244000000000000, 31360702128652037000000000000, 31035761257616980000000000000,
    30709649622184060000000000000, 30382379524288740000000000000, 30053963309564480000000000000, 29724413366881930000000000000, 29393742127878843000000000000, 29061962066491360000000000000,
    28729085698482930000000000000, 28395125580974803000000000000, 28060094311970260000000000000, 27724004529877710000000000000, 27386868913038868000000000000, 27048700179247024000000000000,
    26709511085265130000000000000, 26369314426349776000000000000, 26028123035764577000000000000, 25685949784300705000000000000, 25342807579781437000000000000, 24998709366589756000000000000,
    24653668125166595000000000000, 24307696871528830000000000000, 23960808656775675000000000000, 23613016566597506000000000000, 23264333720782685000000000000, 22914773272718018000000000000,
    22564348408900445000000000000, 22213072348431400000000000000, 21860958342523806000000000000, 21508019674001790000000000000, 21154269656794788000000000000, 20799721635442020000000000000,
    20444388984582613000000000000, 20088285108458745000000000000, 19731423440399972000000000000, 19373817442323927000000000000, 19015480604230180000000000000, 18656426443681778000000000000,
    18296668505304353000000000000, 17936220360271570000000000000, 17575095605793100000000000000, 17213307864601570000000000000, 16850870784439428000000000000, 16487798037543991000000000000,
    16124103320130595000000000000, 15759800351876198000000000000, 15394902875402510000000000000, 15029424655758432000000000000, 14663379479893553000000000000, 14296781156150798000000000000,
    13929643513731080000000000000, 13561980402182945000000000000, 13193805690870232000000000000, 12825133268455319000000000000, 12455977042371570000000000000, 12086350938298916000000000000,
    11716268899633567000000000000, 11345744886967553000000000000, 10974792877553635000000000000, 10603426864780434000000000000, 10231660857638342000000000000, 9859508880188810000000000000,
    9486984971029955000000000000, 9114103182759545000000000000, 8740877581434287000000000000, 8367322246028243000000000000, 7993451267880745000000000000, 7619278750140725000000000000,
    7244818807195778000000000000, 6870085564086150000000000000, 6495093155889407000000000000, 6119855727062846000000000000, 5744387430719162000000000000, 5368702427781797000000000000,
    4992814885944765000000000000, 4616738978274303600000000000, 4240488881148030600000000000, 3864078770896823000000000000, 3487522817771284600000000000, 3110835174007751400000000000,
    2734029947813005000000000000, 2357121140291395000000000000, 1980122472010747300000000000, 1603046822601719400000000000, 1225903968044563500000000000, 848687753022740300000000000,
    471241697281203640000000000, 76443248532238400000000000]
  points := [
    -9999999999999998000000000000000, -9999719416929437000000000000000, -9999059410073272000000000000000, -9998022106585162000000000000000, -9996607625796287000000000000000,
    -9994816035223137000000000000000, -9992647406485913000000000000000, -9990101822888319000000000000000, -9987179381114661000000000000000, -9983880191733372000000000000000,
    -9980204379375551000000000000000, -9976152082805686000000000000000, -9971723454950902000000000000000, -9966918662912292000000000000000, -9961737887967663000000000000000,
    -9956181325569756000000000000000, -9950249185341833000000000000000, -9943941691071556000000000000000, -9937259080703693000000000000000, -9930201606331852000000000000000,
    -9922769534189467000000000000000, -9914963144640089000000000000000, -9906782732167029000000000000000, -9898228605362412000000000000000, -9889301086915658000000000000000,
    -9880000513601388000000000000000, -9870327236266787000000000000000, -9860281619818404000000000000000, -9849864043208441000000000000000, -9839074899420467000000000000000,
    -9827914595454627000000000000000, -9816383552312293000000000000000, -9804482204980210000000000000000, -9792211002414083000000000000000, -9779570407521659000000000000000,
    -9766560897145267000000000000000, -9753182962043830000000000000000, -9739437106874370000000000000000, -9725323850172964000000000000000, -9710843724335185000000000000000,
    -9695997275596036000000000000000, -9680785064009313000000000000000, -9665207663426529000000000000000, -9649265661475219000000000000000, -9632959659536804000000000000000,
    -9616290272723899000000000000000, -9599258129857103000000000000000, -9581863873441291000000000000000, -9564108159641365000000000000000, -9545991658257514000000000000000,
    -9527515052699933000000000000000, -9508679039963056000000000000000, -9489484330599256000000000000000, -9469931648692052000000000000000, -9450021731828777000000000000000,
    -9429755331072764000000000000000, -9409133210935021000000000000000, -9388156149345377000000000000000, -9366824937623148000000000000000, -9345140380447274000000000000000,
    -9323103295825983000000000000000, -9300714515065909000000000000000, -9277974882740756000000000000000, -9254885256659418000000000000000, -9231446507833638000000000000000,
    -9207659520445142000000000000000, -9183525191812276000000000000000, -9159044432356174000000000000000, -9134218165566403000000000000000, -9109047327966131000000000000000,
    -9083532869076798000000000000000, -9057675751382288000000000000000, -9031476950292636000000000000000, -9004937454107229000000000000000, -8978058263977509000000000000000,
    -8950840393869224000000000000000, -8923284870524182000000000000000, -8895392733421494000000000000000, -8867165034738382000000000000000, -8838602839310492000000000000000,
    -8809707224591707000000000000000, -8780479280613511000000000000000, -8750920109943885000000000000000, -8721030827645666000000000000000, -8690812561234542000000000000000,
    -8660266450636502000000000000000, -8629393648144814000000000000000, -8598195318376562000000000000000, -8566672638228727000000000000000, -8534826796833790000000000000000,
    -8502658995514860000000000000000, -8470170447740368000000000000000, -8437362379078288000000000000000, -8404236027149905000000000000000, -8370792641583127000000000000000,
    -8337033483965344000000000000000, -8302959827795846000000000000000, -8268572958437768000000000000000, -8233874173069615000000000000000, -8198864780636324000000000000000,
    -8163546101799881000000000000000, -8127919468889511000000000000000, -8091986225851411000000000000000, -8055747728198062000000000000000, -8019205342957076000000000000000,
    -7982360448619654000000000000000, -7945214435088555000000000000000, -7907768703625699000000000000000, -7870024666799269000000000000000, -7831983748430460000000000000000,
    -7793647383539744000000000000000, -7755017018292740000000000000000, -7716094109945679000000000000000, -7676880126790404000000000000000, -7637376548099006000000000000000,
    -7597584864068003000000000000000, -7557506575762134000000000000000, -7517143195057738000000000000000, -7476496244585709000000000000000, -7435567257674067000000000000000,
    -7394357778290119000000000000000, -7352869360982208000000000000000, -7311103570821071000000000000000, -7269061983340805000000000000000, -7226746184479433000000000000000,
    -7184157770519071000000000000000, -7141298348025711000000000000000, -7098169533788632000000000000000, -7054772954759385000000000000000, -7011110247990446000000000000000,
    -6967183060573441000000000000000, -6922993049577018000000000000000, -6878541881984346000000000000000, -6833831234630214000000000000000, -6788862794137795000000000000000,
    -6743638256855007000000000000000, -6698159328790529000000000000000, -6652427725549446000000000000000, -6606445172268520000000000000000, -6560213403551127000000000000000,
    -6513734163401816000000000000000, -6467009205160512000000000000000, -6420040291436395000000000000000, -6372829194041387000000000000000, -6325377693923324000000000000000,
    -6277687581098776000000000000000, -6229760654585514000000000000000, -6181598722334656000000000000000, -6133203601162451000000000000000, -6084577116681762000000000000000,
    -6035721103233174000000000000000, -5986637403815827000000000000000, -5937327870017863000000000000000, -5887794361946597000000000000000, -5838038748158341000000000000000,
    -5788062905587921000000000000000, -5737868719477870000000000000000, -5687458083307306000000000000000, -5636832898720514000000000000000, -5585995075455206000000000000000,
    -5534946531270470000000000000000, -5483689191874450000000000000000, -5432224990851677000000000000000, -5380555869590142000000000000000, -5328683777208059000000000000000,
    -5276610670480331000000000000000, -5224338513764752000000000000000, -5171869278927885000000000000000, -5119204945270686000000000000000, -5066347499453843000000000000000,
    -5013298935422830000000000000000, -4960061254332679400000000000000, -4906636464472509000000000000000, -4853026581189752000000000000000, -4799233626814136700000000000000,
    -4745259630581393000000000000000, -4691106628556709300000000000000, -4636776663557922000000000000000, -4582271785078455600000000000000, -4527594049210013000000000000000,
    -4472745518565000000000000000000, -4417728262198734600000000000000, -4362544355531388000000000000000, -4307195880269692000000000000000, -4251684924328407000000000000000,
    -4196013581751574000000000000000, -4140183952633507000000000000000, -4084198143039570000000000000000, -4028058264926746000000000000000, -3971766436063944000000000000000,
    -3915324779952134000000000000000, -3858735425744224000000000000000, -3802000508164749000000000000000, -3745122167429346700000000000000, -3688102549164014000000000000000,
    -3630943804324169300000000000000, -3573648089113517000000000000000, -3516217564902704000000000000000, -3458654398147784600000000000000, -3400960760308502400000000000000,
    -3343138827766372000000000000000, -3285190781742573000000000000000, -3227118808215676500000000000000, -3168925097839186000000000000000, -3110611845858884000000000000000,
    -3052181252030037300000000000000, -2993635520534403400000000000000, -2934976859897087000000000000000, -2876207482903234700000000000000, -2817329606514542600000000000000,
    -2758345451785653000000000000000, -2699257243780335000000000000000, -2640067211487589000000000000000, -2580777587737519400000000000000, -2521390609117147000000000000000,
    -2461908515885997700000000000000, -2402333551891631000000000000000, -2342667964484968000000000000000, -2282914004435523400000000000000, -2223073925846503800000000000000,
    -2163149986069767800000000000000, -2103144445620683800000000000000, -2043059568092835400000000000000, -1982897620072659000000000000000, -1922660871053916100000000000000,
    -1862351593352098400000000000000, -1801972062018704000000000000000, -1741524554755404800000000000000, -1681011351828143300000000000000, -1620434735981104400000000000000,
    -1559796992350592800000000000000, -1499100408378855000000000000000, -1438347273727767000000000000000, -1377539880192475400000000000000, -1316680521614937000000000000000,
    -1255771493797384000000000000000, -1194815094415737600000000000000, -1133813622932913200000000000000, -1072769380512079700000000000000, -1011684669929868700000000000000,
    -950561795489477400000000000000, -889403062933789000000000000000, -828210779358336000000000000000, -766987253124316000000000000000, -705734793771488600000000000000,
    -644455711931066800000000000000, -583152319238535700000000000000, -521826928246476000000000000000, -460481852337288900000000000000, -399119405635974800000000000000,
    -337741902922796800000000000000, -276351659545983620000000000000, -214950991334388330000000000000, -153542214510109520000000000000, -92127645601125520000000000000,
    -30709601353922090000000000000, 30709601353918760000000000000, 92127645601124400000000000000, 153542214510107300000000000000, 214950991334386100000000000000,
    276351659545985840000000000000, 337741902922793500000000000000, 399119405635971500000000000000, 460481852337286700000000000000, 521826928246472700000000000000,
    583152319238534600000000000000, 644455711931066800000000000000, 705734793771486400000000000000, 766987253124311600000000000000, 828210779358334900000000000000,
    889403062933785700000000000000, 950561795489479600000000000000, 1011684669929866500000000000000, 1072769380512079700000000000000, 1133813622932915400000000000000,
    1194815094415741000000000000000, 1255771493797386300000000000000, 1316680521614939000000000000000, 1377539880192478700000000000000, 1438347273727771400000000000000,
    1499100408378857300000000000000, 1559796992350595000000000000000, 1620434735981103300000000000000, 1681011351828147800000000000000, 1741524554755407000000000000000,
    1801972062018705200000000000000, 1862351593352104000000000000000, 1922660871053919500000000000000, 1982897620072662200000000000000, 2043059568092839800000000000000,
    2103144445620685000000000000000, 2163149986069772300000000000000, 2223073925846506000000000000000, 2282914004435527800000000000000, 2342667964484969000000000000000,
    2402333551891632200000000000000, 2461908515885998800000000000000, 2521390609117145600000000000000, 2580777587737521600000000000000, 2640067211487590000000000000000,
    2699257243780336400000000000000, 2758345451785656500000000000000, 2817329606514545000000000000000, 2876207482903234700000000000000, 2934976859897089300000000000000,
    2993635520534403400000000000000, 3052181252030040600000000000000, 3110611845858885000000000000000, 3168925097839187000000000000000, 3227118808215680000000000000000,
    3285190781742574000000000000000, 3343138827766373000000000000000, 3400960760308505700000000000000, 3458654398147787000000000000000, 3516217564902705000000000000000,
    3573648089113518000000000000000, 3630943804324170400000000000000, 3688102549164014000000000000000, 3745122167429350000000000000000, 3802000508164752300000000000000,
    3858735425744226300000000000000, 3915324779952137300000000000000, 3971766436063947000000000000000, 4028058264926748000000000000000, 4084198143039573500000000000000,
    4140183952633508000000000000000, 4196013581751576500000000000000, 4251684924328409400000000000000, 4307195880269691000000000000000, 4362544355531391400000000000000,
    4417728262198735700000000000000, 4472745518565000000000000000000, 4527594049210014000000000000000, 4582271785078458000000000000000, 4636776663557925500000000000000,
    4691106628556712700000000000000, 4745259630581393000000000000000, 4799233626814139000000000000000, 4853026581189755500000000000000, 4906636464472510000000000000000,
    4960061254332683000000000000000, 5013298935422832000000000000000, 5066347499453845000000000000000, 5119204945270688000000000000000, 5171869278927885000000000000000,
    5224338513764754000000000000000, 5276610670480335000000000000000, 5328683777208060000000000000000, 5380555869590146000000000000000, 5432224990851680000000000000000,
    5483689191874452000000000000000, 5534946531270473000000000000000, 5585995075455208000000000000000, 5636832898720516000000000000000, 5687458083307309000000000000000,
    5737868719477872000000000000000, 5788062905587925000000000000000, 5838038748158342000000000000000, 5887794361946596000000000000000, 5937327870017863000000000000000,
    5986637403815827000000000000000, 6035721103233176000000000000000, 6084577116681763000000000000000, 6133203601162455000000000000000, 6181598722334656000000000000000,
    6229760654585517000000000000000, 6277687581098776000000000000000, 6325377693923325000000000000000, 6372829194041387000000000000000, 6420040291436395000000000000000,
    6467009205160514000000000000000, 6513734163401816000000000000000, 6560213403551127000000000000000, 6606445172268522000000000000000, 6652427725549447000000000000000,
    6698159328790532000000000000000, 6743638256855007000000000000000, 6788862794137795000000000000000, 6833831234630214000000000000000, 6878541881984346000000000000000,
    6922993049577020000000000000000, 6967183060573443000000000000000, 7011110247990446000000000000000, 7054772954759385000000000000000, 7098169533788631000000000000000,
    7141298348025711000000000000000, 7184157770519071000000000000000, 7226746184479435000000000000000, 7269061983340808000000000000000, 7311103570821071000000000000000,
    7352869360982209000000000000000, 7394357778290120000000000000000, 7435567257674067000000000000000, 7476496244585709000000000000000, 7517143195057737000000000000000,
    7557506575762136000000000000000, 7597584864068003000000000000000, 7637376548099009000000000000000, 7676880126790406000000000000000, 7716094109945680000000000000000,
    7755017018292740000000000000000, 7793647383539742000000000000000, 7831983748430460000000000000000, 7870024666799271000000000000000, 7907768703625698000000000000000,
    7945214435088557000000000000000, 7982360448619653000000000000000, 8019205342957078000000000000000, 8055747728198062000000000000000, 8091986225851413000000000000000,
    8127919468889512000000000000000, 8163546101799881000000000000000, 8198864780636324000000000000000, 8233874173069616000000000000000, 8268572958437769000000000000000,
    8302959827795845000000000000000, 8337033483965345000000000000000, 8370792641583127000000000000000, 8404236027149905000000000000000, 8437362379078290000000000000000,
    8470170447740370000000000000000, 8502658995514862000000000000000, 8534826796833792000000000000000, 8566672638228730000000000000000, 8598195318376562000000000000000,
    8629393648144814000000000000000, 8660266450636506000000000000000, 8690812561234542000000000000000, 8721030827645659000000000000000, 8750920109943877000000000000000,
    8780479280613512000000000000000, 8809707224591707000000000000000, 8838602839310493000000000000000, 8867165034738383000000000000000, 8895392733421493000000000000000,
    8923284870524183000000000000000, 8950840393869227000000000000000, 8978058263977509000000000000000, 9004937454107229000000000000000, 9031476950292640000000000000000,
    9057675751382289000000000000000, 9083532869076798000000000000000, 9109047327966133000000000000000, 9134218165566405000000000000000, 9159044432356174000000000000000,
    9183525191812276000000000000000, 9207659520445142000000000000000, 9231446507833642000000000000000, 9254885256659420000000000000000, 9277974882740756000000000000000,
    9300714515065911000000000000000, 9323103295825984000000000000000, 9345140380447277000000000000000, 9366824937623148000000000000000, 9388156149345378000000000000000,
    9409133210935021000000000000000, 9429755331072764000000000000000, 9450021731828776000000000000000, 9469931648692053000000000000000, 9489484330599258000000000000000,
    9508679039963056000000000000000, 9527515052699933000000000000000, 9545991658257514000000000000000, 9564108159641368000000000000000, 9581863873441293000000000000000,
    9599258129857104000000000000000, 9616290272723900000000000000000, 9632959659536805000000000000000, 9649265661475220000000000000000, 9665207663426530000000000000000,
    9680785064009316000000000000000, 9695997275596034000000000000000, 9710843724335187000000000000000, 9725323850172964000000000000000, 9739437106874371000000000000000,
    9753182962043830000000000000000, 9766560897145267000000000000000, 9779570407521662000000000000000, 9792211002414085000000000000000, 9804482204980212000000000000000,
    9816383552312294000000000000000, 9827914595454627000000000000000, 9839074899420468000000000000000, 9849864043208441000000000000000, 9860281619818404000000000000000,
    9870327236266786000000000000000, 9880000513601389000000000000000, 9889301086915660000000000000000, 9898228605362414000000000000000, 9906782732167030000000000000000,
    9914963144640091000000000000000, 9922769534189470000000000000000, 9930201606331853000000000000000, 9937259080703694000000000000000, 9943941691071558000000000000000,
    9950249185341833000000000000000, 9956181325569757000000000000000, 9961737887967664000000000000000, 9966918662912293000000000000000, 9971723454950904000000000000000,
    9976152082805687000000000000000, 9980204379375552000000000000000, 9983880191733374000000000000000, 9987179381114664000000000000000, 9990101822888319000000000000000,
    9992647406485913000000000000000, 9994816035223140000000000000000, 9996607625796288000000000000000, 9998022106585163000000000000000, 9999059410073272000000000000000,
    9999719416929438000000000000000, 10000000000000000000000000000000]

end Fenris.Lobatto
