import Verif.Model.Lobatto.N256
import Verif.Lemmas.Lobatto
/-! # The checks of tabulated Gauss-Lobatto rules, evaluated by the kernel -/
set_option autoImplicit false

namespace Fenris.Lobatto

theorem shape_256 : shape 256 lobatto256 = true := by decide +kernel

/-- Weights and absolute values of the negative points. -/
def neg256 : List (Nat × Nat) := [
    (306372549020741800000000000, 10000000000000000000000000000000), (1888609671419906800000000000, 9998875482883649000000000000000),
    (3401086618494770000000000000, 9996230440868826000000000000000), (4912256483841856000000000000, 9992073699444184000000000000000),
    (6422574998440147000000000000, 9986406208502117000000000000000), (7931895517313525000000000000, 9979228881638991000000000000000),
    (9440007682710930000000000000, 9970542820146735000000000000000), (10946688867832343000000000000, 9960349343237884000000000000000),
    (12451713277883058000000000000, 9948649994661086000000000000000), (13954854228313564000000000000, 9935446544500658000000000000000),
    (15455884872215520000000000000, 9920740989641487000000000000000), (16954578485273676000000000000, 9904535553769447000000000000000),
    (18450708602212292000000000000, 9886832687173448000000000000000), (19944049096752106000000000000, 9867635066443574000000000000000),
    (21434374237815925000000000000, 9846945594102683000000000000000), (22921458735026333000000000000, 9824767398187899000000000000000),
    (24405077778810150000000000000, 9801103831789530000000000000000), (25885007077892062000000000000, 9775958472551349000000000000000),
    (27361022895225370000000000000, 9749335122134226000000000000000), (28832902083134604000000000000, 9721237805644294000000000000000),
    (30300422117679436000000000000, 9691670771026377000000000000000), (31763361132900130000000000000, 9660638488423061000000000000000),
    (33221497954648137000000000000, 9628145649499795000000000000000), (34674612134287950000000000000, 9594197166736222000000000000000),
    (36122483982120664000000000000, 9558798172683947000000000000000), (37564894600713630000000000000, 9521954019190904000000000000000),
    (39001625918096573000000000000, 9483670276592471000000000000000), (40432460720785530000000000000, 9443952732869512000000000000000),
    (41857182686619500000000000000, 9402807392773453000000000000000), (43275576417521670000000000000, 9360240476918549000000000000000),
    (44687427472113660000000000000, 9316258420841497000000000000000), (46092522398079730000000000000, 9270867874028550000000000000000),
    (47490648764523900000000000000, 9224075698910223000000000000000), (48881595194038500000000000000, 9175888969823875000000000000000),
    (50265151394730920000000000000, 9126314971944165000000000000000), (51641108191945460000000000000, 9075361200181669000000000000000),
    (53009257559970140000000000000, 9023035358049771000000000000000), (54369392653437895000000000000, 8969345356500031000000000000000),
    (55721307838591590000000000000, 8914299312726148000000000000000), (57064798724448410000000000000, 8857905548936769000000000000000),
    (58399662193619134000000000000, 8800172591097308000000000000000), (59725696433075770000000000000, 8741109167640939000000000000000),
    (61042700964626900000000000000, 8680724208148964000000000000000), (62350476675261740000000000000, 8619026842000825000000000000000),
    (63648825847219530000000000000, 8556026396993837000000000000000), (64937552187904680000000000000, 8491732397932978000000000000000),
    (66216460859567310000000000000, 8426154565190860000000000000000), (67485358508743540000000000000, 8359302813238156000000000000000),
    (68744053295490620000000000000, 8291187249144656000000000000000), (69992354922422090000000000000, 8221818171051238000000000000000),
    (71230074663405220000000000000, 8151206066612922000000000000000), (72457025392206080000000000000, 8079361611413249000000000000000),
    (73673021610648800000000000000, 8006295667350363000000000000000), (74877879476799760000000000000, 7932019280994749000000000000000),
    (76071416832634645000000000000, 7856543681919217000000000000000), (77253453231642190000000000000, 7779880281001084000000000000000),
    (78423809966125330000000000000, 7702040668697061000000000000000), (79582310094170740000000000000, 7623036613290894000000000000000),
    (80728778466414660000000000000, 7542880059114199000000000000000), (81863041752568720000000000000, 7461583124740585000000000000000),
    (82984928467527470000000000000, 7379158101153571000000000000000), (84094268997400630000000000000, 7295617449888296000000000000000),
    (85190895625073160000000000000, 7210973801147529000000000000000), (86274642555641040000000000000, 7125239951892150000000000000000),
    (87345345941393510000000000000, 7038428863906427000000000000000), (88402843906640410000000000000, 6950553661838388000000000000000),
    (89446976572167150000000000000, 6861627631215512000000000000000), (90477586079421840000000000000, 6771664216436202000000000000000),
    (91494516614354670000000000000, 6680677018737091000000000000000), (92497614430989280000000000000, 6588679794136820000000000000000),
    (93486727874682270000000000000, 6495686451356257000000000000000), (94461707405003780000000000000, 6401711049715659000000000000000),
    (95422405618424170000000000000, 6306767797009196000000000000000), (96368677270511600000000000000, 6210871047356834000000000000000),
    (97300379297946620000000000000, 6114035299034206000000000000000), (98217370840153750000000000000, 6016275192280729000000000000000),
    (99119513260544790000000000000, 5917605507086128000000000000000), (100006670167558220000000000000, 5818041160955938000000000000000),
    (100878707435213250000000000000, 5717597206656180000000000000000), (101735493223414350000000000000, 5616288829937606000000000000000),
    (102576897997876910000000000000, 5514131347239770000000000000000), (103402794549709060000000000000, 5411140203375446000000000000000),
    (104213058014687690000000000000, 5307330969195554000000000000000), (105007565892053750000000000000, 5202719339235078000000000000000),
    (105786198063092430000000000000, 5097321129340231000000000000000), (106548836809285300000000000000, 4991152274277379500000000000000),
    (107295366830084700000000000000, 4884228825323864000000000000000), (108025675260385160000000000000, 4776566947841303000000000000000),
    (108739651687545360000000000000, 4668182918831582700000000000000), (109437188168114150000000000000, 4559093124476019000000000000000),
    (110118179244113320000000000000, 4449314057657991500000000000000), (110782521959030400000000000000, 4338862315469447000000000000000),
    (111430115873321150000000000000, 4227754596701616000000000000000), (112060863079680130000000000000, 4116007699320418700000000000000),
    (112674668217737140000000000000, 4003638517926824000000000000000), (113271438488572950000000000000, 3890664041202638300000000000000),
    (113851083668696800000000000000, 3777101349342022500000000000000), (114413516123684620000000000000, 3662967611469212000000000000000),
    (114958650821449550000000000000, 3548280083042783000000000000000), (115486405345102400000000000000, 3433056103246870000000000000000),
    (115996699905377180000000000000, 3317313092369698000000000000000), (116489457352716190000000000000, 3201068549169890000000000000000),
    (116964603188949160000000000000, 3084340048230887000000000000000), (117422065578531500000000000000, 2967145237303918700000000000000),
    (117861775359391980000000000000, 2849501834639896000000000000000), (118283666053462780000000000000, 2731427626310665000000000000000),
    (118687673876626210000000000000, 2612940463519988000000000000000), (119073737748437300000000000000, 2494058259904676800000000000000),
    (119441799301326770000000000000, 2374798988826321000000000000000), (119791802889427320000000000000, 2255180680653952000000000000000),
    (120123695596986920000000000000, 2135221420038078000000000000000), (120437427246360210000000000000, 2014939343176558300000000000000),
    (120732950405634340000000000000, 1894352635072640300000000000000), (121010220395749820000000000000, 1773479526785666200000000000000),
    (121269195297281620000000000000, 1652338292674735400000000000000), (121509835956758400000000000000, 1530947247635927600000000000000),
    (121732105992617620000000000000, 1409324744333286800000000000000), (121935971800668900000000000000, 1287489170424207500000000000000),
    (122121402559201580000000000000, 1165458945779429500000000000000), (122288370233609670000000000000, 1043252519698207900000000000000),
    (122436849580674880000000000000, 920888368119052700000000000000), (122566818152345680000000000000, 798384990826415100000000000000),
    (122678256299168210000000000000, 675760908653759700000000000000), (122771147173212150000000000000, 553034660683477950000000000000),
    (122845476730654120000000000000, 430224801444036850000000000000), (122901233733875220000000000000, 307349898104773980000000000000),
    (122938409753175510000000000000, 184428527668811800000000000000), (122956999168052530000000000000, 61479274164453200000000000000)]
/-- Weights and values of the other points. -/
def pos256 : List (Nat × Nat) := [
    (122956999168057240000000000000, 61479274164450980000000000000), (122938409753177160000000000000, 184428527668808460000000000000),
    (122901233733871840000000000000, 307349898104773980000000000000), (122845476730648550000000000000, 430224801444037960000000000000),
    (122771147173212720000000000000, 553034660683479060000000000000), (122678256299174040000000000000, 675760908653757500000000000000),
    (122566818152355980000000000000, 798384990826412900000000000000), (122436849580676040000000000000, 920888368119050500000000000000),
    (122288370233615010000000000000, 1043252519698201200000000000000), (122121402559201360000000000000, 1165458945779424000000000000000),
    (121935971800669340000000000000, 1287489170424208600000000000000), (121732105992618230000000000000, 1409324744333284600000000000000),
    (121509835956761720000000000000, 1530947247635924300000000000000), (121269195297276780000000000000, 1652338292674732000000000000000),
    (121010220395750900000000000000, 1773479526785663000000000000000), (120732950405636630000000000000, 1894352635072638000000000000000),
    (120437427246362240000000000000, 2014939343176554000000000000000), (120123695596985320000000000000, 2135221420038074800000000000000),
    (119791802889424780000000000000, 2255180680653947600000000000000), (119441799301326470000000000000, 2374798988826321000000000000000),
    (119073737748439430000000000000, 2494058259904673400000000000000), (118687673876624960000000000000, 2612940463519985000000000000000),
    (118283666053461500000000000000, 2731427626310664000000000000000), (117861775359392530000000000000, 2849501834639893700000000000000),
    (117422065578524320000000000000, 2967145237303915300000000000000), (116964603188944240000000000000, 3084340048230886000000000000000),
    (116489457352716780000000000000, 3201068549169887600000000000000), (115996699905377180000000000000, 3317313092369695000000000000000),
    (115486405345104260000000000000, 3433056103246867600000000000000), (114958650821453450000000000000, 3548280083042783000000000000000),
    (114413516123685630000000000000, 3662967611469208000000000000000), (113851083668693400000000000000, 3777101349342018000000000000000),
    (113271438488574110000000000000, 3890664041202638300000000000000), (112674668217735800000000000000, 4003638517926824000000000000000),
    (112060863079673140000000000000, 4116007699320414000000000000000), (111430115873319600000000000000, 4227754596701615000000000000000),
    (110782521959027390000000000000, 4338862315469447000000000000000), (110118179244112250000000000000, 4449314057657996000000000000000),
    (109437188168114120000000000000, 4559093124476017000000000000000), (108739651687551010000000000000, 4668182918831576000000000000000),
    (108025675260385600000000000000, 4776566947841300000000000000000), (107295366830083890000000000000, 4884228825323864000000000000000),
    (106548836809279700000000000000, 4991152274277378400000000000000), (105786198063087900000000000000, 5097321129340231000000000000000),
    (105007565892048000000000000000, 5202719339235073000000000000000), (104213058014686160000000000000, 5307330969195556000000000000000),
    (103402794549714170000000000000, 5411140203375450000000000000000), (102576897997874780000000000000, 5514131347239771000000000000000),
    (101735493223414200000000000000, 5616288829937606000000000000000), (100878707435213530000000000000, 5717597206656182000000000000000),
    (100006670167561450000000000000, 5818041160955932000000000000000), (99119513260545450000000000000, 5917605507086123000000000000000),
    (98217370840145150000000000000, 6016275192280727000000000000000), (97300379297946010000000000000, 6114035299034206000000000000000),
    (96368677270509370000000000000, 6210871047356827000000000000000), (95422405618422170000000000000, 6306767797009196000000000000000),
    (94461707405007760000000000000, 6401711049715663000000000000000), (93486727874681090000000000000, 6495686451356248000000000000000),
    (92497614430989500000000000000, 6588679794136822000000000000000), (91494516614354980000000000000, 6680677018737091000000000000000),
    (90477586079422910000000000000, 6771664216436195000000000000000), (89446976572167150000000000000, 6861627631215516000000000000000),
    (88402843906638450000000000000, 6950553661838388000000000000000), (87345345941389810000000000000, 7038428863906430000000000000000),
    (86274642555640560000000000000, 7125239951892150000000000000000), (85190895625077180000000000000, 7210973801147531000000000000000),
    (84094268997396850000000000000, 7295617449888299000000000000000), (82984928467529700000000000000, 7379158101153573000000000000000),
    (81863041752569860000000000000, 7461583124740585000000000000000), (80728778466425100000000000000, 7542880059114194000000000000000),
    (79582310094173950000000000000, 7623036613290897000000000000000), (78423809966126930000000000000, 7702040668697062000000000000000),
    (77253453231643070000000000000, 7779880281001087000000000000000), (76071416832630060000000000000, 7856543681919218000000000000000),
    (74877879476798420000000000000, 7932019280994755000000000000000), (73673021610656580000000000000, 8006295667350365000000000000000),
    (72457025392201680000000000000, 8079361611413252000000000000000), (71230074663406265000000000000, 8151206066612917000000000000000),
    (69992354922415750000000000000, 8221818171051241000000000000000), (68744053295491950000000000000, 8291187249144658000000000000000),
    (67485358508742740000000000000, 8359302813238156000000000000000), (66216460859567835000000000000, 8426154565190862000000000000000),
    (64937552187907540000000000000, 8491732397932978000000000000000), (63648825847217900000000000000, 8556026396993839000000000000000),
    (62350476675260970000000000000, 8619026842000828000000000000000), (61042700964628910000000000000, 8680724208148967000000000000000),
    (59725696433075120000000000000, 8741109167640939000000000000000), (58399662193617220000000000000, 8800172591097312000000000000000),
    (57064798724445120000000000000, 8857905548936771000000000000000), (55721307838593060000000000000, 8914299312726150000000000000000),
    (54369392653432480000000000000, 8969345356500036000000000000000), (53009257559975000000000000000, 9023035358049776000000000000000),
    (51641108191951290000000000000, 9075361200181670000000000000000), (50265151394730950000000000000, 9126314971944166000000000000000),
    (48881595194042796000000000000, 9175888969823877000000000000000), (47490648764519650000000000000, 9224075698910223000000000000000),
    (46092522398079560000000000000, 9270867874028548000000000000000), (44687427472111590000000000000, 9316258420841500000000000000000),
    (43275576417525660000000000000, 9360240476918551000000000000000), (41857182686617260000000000000, 9402807392773455000000000000000),
    (40432460720783940000000000000, 9443952732869513000000000000000), (39001625918098385000000000000, 9483670276592471000000000000000),
    (37564894600709002000000000000, 9521954019190905000000000000000), (36122483982117372000000000000, 9558798172683950000000000000000),
    (34674612134294037000000000000, 9594197166736225000000000000000), (33221497954655306000000000000, 9628145649499796000000000000000),
    (31763361132899650000000000000, 9660638488423063000000000000000), (30300422117680870000000000000, 9691670771026379000000000000000),
    (28832902083139150000000000000, 9721237805644296000000000000000), (27361022895235777000000000000, 9749335122134226000000000000000),
    (25885007077881207000000000000, 9775958472551352000000000000000), (24405077778803003000000000000, 9801103831789533000000000000000),
    (22921458735027317000000000000, 9824767398187899000000000000000), (21434374237821760000000000000, 9846945594102684000000000000000),
    (19944049096746767000000000000, 9867635066443573000000000000000), (18450708602205460000000000000, 9886832687173451000000000000000),
    (16954578485268830000000000000, 9904535553769449000000000000000), (15455884872217800000000000000, 9920740989641490000000000000000),
    (13954854228320386000000000000, 9935446544500659000000000000000), (12451713277884236000000000000, 9948649994661088000000000000000),
    (10946688867831970000000000000, 9960349343237888000000000000000), (9440007682708400000000000000, 9970542820146736000000000000000),
    (7931895517318706000000000000, 9979228881638993000000000000000), (6422574998440151000000000000, 9986406208502119000000000000000),
    (4912256483842330000000000000, 9992073699444182000000000000000), (3401086618497863000000000000, 9996230440868829000000000000000),
    (1888609671417479300000000000, 9998875482883649000000000000000), (306372549019538400000000000, 10000000000000000000000000000000)]
theorem negatives_256 : negatives lobatto256 = neg256 := by decide +kernel
theorem positives_256 : positives lobatto256 = pos256 := by decide +kernel

/-- Rounded powers after the chunk. -/
def stateN256_1 : List Nat := [
    10000000000000000000000000000000, 9716212053475622812397314146631, 9079927303934904180842094698577, 8162833396409339943847064289934, 7059309790755475509376402193437,
    5872564698376102375424156574607, 4699087844145692734475089306519, 3616513937129302862398345940191, 2676843291368212208756420320480, 1905338370799904810832742712777,
    1304044694282179429183603420986, 858091332895233375891256953429, 542799318968187666246491971461, 330026179209208254313777824574, 192838536019878640490488051640,
    108268711997092991500110160690, 58397931197185802440196310147, 30254717515567316628539358275, 15052191974371956456903220758, 7189872663087575127280868164, 3296515074487572067589713605,
    1450416209034319546450218081, 612235863556251871318859299, 247862968397476128428634908, 96214986087654276110113177, 35799459666823900236472464, 12763513362154917746443797,
    4358871026083824015240734, 1425378708024505257685508, 446142563826730736579454, 133607506416006987070719, 38266634427521057520769, 10477357269180197744558, 2741109387433732182108,
    684913995393937751201, 163366598596706708086, 37177549389414751921, 8067725099664190088, 1668500400760977423, 328660531487834611, 61623245665850248, 10990951907801409, 1863482902366652,
    300128823393010, 45884039047841, 6653539171874, 914390835265, 118996660077, 14651469782, 1705195562, 187412841, 19432283, 1898870, 174678, 15108, 1226, 92, 4, 0, 0, 0, 0, 0, 0, 0, 0, 0,
    0, 0, 0, 0, 0, 0, 0, 0, 0, 0, 0, 0, 0, 0, 0, 0, 0, 0, 0, 0, 0, 0, 0, 0, 0, 0, 0, 0, 0, 0, 0, 0, 0, 0, 0, 0, 0, 0, 0, 0, 0, 0, 0, 0, 0, 0, 0, 0, 0, 0, 0, 0, 0, 0, 0, 0, 0, 0, 0, 0, 0]
/-- Rounded powers after the chunk. -/
def stateP256_1 : List Nat := [
    0, 0, 0, 0, 0, 0, 0, 0, 0, 0, 0, 0, 0, 0, 0, 0, 0, 0, 0, 0, 0, 0, 0, 0, 0, 0, 0, 0, 0, 0, 0, 0, 0, 0, 0, 0, 0, 0, 0, 0, 0, 0, 0, 0, 0, 0, 0, 0, 0, 0, 0, 0, 0, 0, 0, 0, 0, 0, 0, 0, 0, 0,
    0, 0, 0, 0, 0, 0, 0, 0, 4, 92, 1226, 15108, 174678, 1898870, 19432283, 187412841, 1705195562, 14651469782, 118996660077, 914390835265, 6653539171874, 45884039047844, 300128823393037,
    1863482902366817, 10990951907801409, 61623245665857419, 328660531487853608, 1668500400761073255, 8067725099665341418, 37177549389420025896, 163366598596711316370, 684913995393956963553,
    2741109387433885131648, 10477357269180197744558, 38266634427518944178515, 133607506416018001209689, 446142563826755140332034, 1425378708024582872154042, 4358871026083942172437644,
    12763513362154917746443797, 35799459666824862713465762, 96214986087662006486671024, 247862968397495969459251752, 612235863556268149882434888, 1450416209034396416431422276,
    3296515074487746218750851214, 7189872663087953804860524076, 15052191974371956456903220758, 30254717515569693441321163449, 58397931197190378415711840582, 108268711997092991500110160690,
    192838536019883653889287640333, 330026179209199692312719955458, 542799318968229830394521744932, 858091332895277733626161056698, 1304044694282280379941843602057,
    1905338370799953904411047430672, 2676843291368349970539769423942, 3616513937129674667657780418361, 4699087844145813386530829999764, 5872564698376403676572895715604,
    7059309790755837438035962399990, 8162833396408921675244902763068, 9079927303935601782224002835040, 9716212053475622812397314146631, 10000000000000000000000000000000]
theorem chunk_256_1 : run neg256 pos256 128 0 (neg256.map fun _ => scale) (pos256.map fun _ => scale) = some (stateN256_1, stateP256_1) := by decide +kernel
theorem chunk_256_2 : (run neg256 pos256 127 256 stateN256_1 stateP256_1).isSome = true := by decide +kernel
theorem moments_256 : moments 255 lobatto256 = true := by
  rw [moments, negatives_256, positives_256]
  exact run_then chunk_256_1 (chunk_256_2) rfl rfl

end Fenris.Lobatto
