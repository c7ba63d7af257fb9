import Verif.Model.ShippedRules.Basic
/-! # The rules in fenris-quadrature/rules/polyquad/expanded/pyr

Generated from the files. Every row is a line of the file: 3 coordinates and the weight. -/
set_option autoImplicit false

namespace Fenris.ShippedRules

/-- rules/polyquad/expanded/pyr/1-1.txt -/
def pyr1 : RuleFile := ⟨1, 1, 37, [
  [0, 0, -5000000000000000000000000000000000000, 26666666666666666666666666666666666667]]⟩

/-- rules/polyquad/expanded/pyr/2-5.txt -/
def pyr2 : RuleFile := ⟨2, 5, 38, [
  [0, 0, 21658207711955775339238838942231815011, 60287280353093925911579186632475611728],
  [71892105581179616210276971993495767914, 0, -70932703285428855378369530000365161136, 51594846578393185188771870008547763735],
  [0, 71892105581179616210276971993495767914, -70932703285428855378369530000365161136, 51594846578393185188771870008547763735],
  [-71892105581179616210276971993495767914, 0, -70932703285428855378369530000365161136, 51594846578393185188771870008547763735],
  [0, -71892105581179616210276971993495767914, -70932703285428855378369530000365161136, 51594846578393185188771870008547763735]]⟩

/-- rules/polyquad/expanded/pyr/3-6.txt -/
def pyr3 : RuleFile := ⟨3, 6, 38, [
  [0, 0, 14285714077213670617734974746312582074, 67254902379402809443607078852738472107],
  [0, 0, -99999998864829993678698817507850804299, 30000001617617323518941867705084375434],
  [56108361105873963414196154191891982155, 56108361105873963414196154191891982155, -66666666666666666666666666666666666667, 42352940667411633426029430027210954782],
  [56108361105873963414196154191891982155, -56108361105873963414196154191891982155, -66666666666666666666666666666666666667, 42352940667411633426029430027210954782],
  [-56108361105873963414196154191891982155, 56108361105873963414196154191891982155, -66666666666666666666666666666666666667, 42352940667411633426029430027210954782],
  [-56108361105873963414196154191891982155, -56108361105873963414196154191891982155, -66666666666666666666666666666666666667, 42352940667411633426029430027210954782]]⟩

/-- rules/polyquad/expanded/pyr/4-10.txt -/
def pyr4 : RuleFile := ⟨4, 10, 38, [
  [0, 0, 35446557777227471722730849524904581806, 30331168845504517111391728481208001144],
  [0, 0, -74972609378250711033655604388057044149, 55168907357213937275730716433358729608],
  [65058155639823251468295777974172953980, 0, -35523170084357268589593075201816127231, 28353223437153468006819777082540613962],
  [0, 65058155639823251468295777974172953980, -35523170084357268589593075201816127231, 28353223437153468006819777082540613962],
  [-65058155639823251468295777974172953980, 0, -35523170084357268589593075201816127231, 28353223437153468006819777082540613962],
  [0, -65058155639823251468295777974172953980, -35523170084357268589593075201816127231, 28353223437153468006819777082540613962],
  [65796699712169008954533549931479427127, 65796699712169008954533549931479427127, -92150343220236930457646242598412224897, 16938424178833585063066278355484370017],
  [65796699712169008954533549931479427127, -65796699712169008954533549931479427127, -92150343220236930457646242598412224897, 16938424178833585063066278355484370017],
  [-65796699712169008954533549931479427127, 65796699712169008954533549931479427127, -92150343220236930457646242598412224897, 16938424178833585063066278355484370017],
  [-65796699712169008954533549931479427127, -65796699712169008954533549931479427127, -92150343220236930457646242598412224897, 16938424178833585063066278355484370017]]⟩

/-- rules/polyquad/expanded/pyr/5-15.txt -/
def pyr5 : RuleFile := ⟨5, 15, 38, [
  [0, 0, 45971576156501338586164265377920811314, 18249431975770692138374895897213800931],
  [0, 0, -39919795837246198593385139590712322914, 45172563864726406056400285032640105704],
  [0, 0, -99999998701645569241460017355590234925, 15654542887619877154120304977336547704],
  [70652603154632457420722562974792066862, 0, -75000000000000000000000000000000000000, 20384344839498724639142514342645843799],
  [0, 70652603154632457420722562974792066862, -75000000000000000000000000000000000000, 20384344839498724639142514342645843799],
  [-70652603154632457420722562974792066862, 0, -75000000000000000000000000000000000000, 20384344839498724639142514342645843799],
  [0, -70652603154632457420722562974792066862, -75000000000000000000000000000000000000, 20384344839498724639142514342645843799],
  [70511712277882760181079385797948261057, 70511712277882760181079385797948261057, -87777618587595407108464357252416911085, 10578907087905457654220386143818487109],
  [70511712277882760181079385797948261057, -70511712277882760181079385797948261057, -87777618587595407108464357252416911085, 10578907087905457654220386143818487109],
  [-70511712277882760181079385797948261057, 70511712277882760181079385797948261057, -87777618587595407108464357252416911085, 10578907087905457654220386143818487109],
  [-70511712277882760181079385797948261057, -70511712277882760181079385797948261057, -87777618587595407108464357252416911085, 10578907087905457654220386143818487109],
  [43288286410354097685000790909815143591, 43288286410354097685000790909815143591, -15279732576055038842025517341026975071, 15934280057233240536079894703404722173],
  [43288286410354097685000790909815143591, -43288286410354097685000790909815143591, -15279732576055038842025517341026975071, 15934280057233240536079894703404722173],
  [-43288286410354097685000790909815143591, 43288286410354097685000790909815143591, -15279732576055038842025517341026975071, 15934280057233240536079894703404722173],
  [-43288286410354097685000790909815143591, -43288286410354097685000790909815143591, -15279732576055038842025517341026975071, 15934280057233240536079894703404722173]]⟩

/-- rules/polyquad/expanded/pyr/6-24.txt -/
def pyr6 : RuleFile := ⟨6, 24, 39, [
  [0, 0, 615291595387918847319549551036132696380, 67901049767045421348323914977088073991],
  [0, 0, -996472382294360734794346182693770001010, 42809368467176804517723726702995063594],
  [0, 0, -723474387072538849452969253945818026550, 318878811873396846200761770261817588840],
  [0, 0, -157152176128725936598094867602579941790, 274828453864404932169916979422385020710],
  [834595351114708348543556093764181655060, 0, -805105317949076053162248811546810036060, 98534901163545291660001842668523218270],
  [0, 834595351114708348543556093764181655060, -805105317949076053162248811546810036060, 98534901163545291660001842668523218270],
  [-834595351114708348543556093764181655060, 0, -805105317949076053162248811546810036060, 98534901163545291660001842668523218270],
  [0, -834595351114708348543556093764181655060, -805105317949076053162248811546810036060, 98534901163545291660001842668523218270],
  [433925409376699095358829076053453421200, 0, 132149181246601809282341847893093157590, 84233545301795354894729459206933067324],
  [0, 433925409376699095358829076053453421200, 132149181246601809282341847893093157590, 84233545301795354894729459206933067324],
  [-433925409376699095358829076053453421200, 0, 132149181246601809282341847893093157590, 84233545301795354894729459206933067324],
  [0, -433925409376699095358829076053453421200, 132149181246601809282341847893093157590, 84233545301795354894729459206933067324],
  [565680854425675497672813848515505886000, 565680854425675497672813848515505886000, -941044538308558582133715845356080201310, 99200345038528745418340651788127467643],
  [565680854425675497672813848515505886000, -565680854425675497672813848515505886000, -941044538308558582133715845356080201310, 99200345038528745418340651788127467643],
  [-565680854425675497672813848515505886000, 565680854425675497672813848515505886000, -941044538308558582133715845356080201310, 99200345038528745418340651788127467643],
  [-565680854425675497672813848515505886000, -565680854425675497672813848515505886000, -941044538308558582133715845356080201310, 99200345038528745418340651788127467643],
  [498079091780705942456425030413160190490, 498079091780705942456425030413160190490, -470168273575740982802160511033584708570, 197019692471804945461449866763452706910],
  [498079091780705942456425030413160190490, -498079091780705942456425030413160190490, -470168273575740982802160511033584708570, 197019692471804945461449866763452706910],
  [-498079091780705942456425030413160190490, 498079091780705942456425030413160190490, -470168273575740982802160511033584708570, 197019692471804945461449866763452706910],
  [-498079091780705942456425030413160190490, -498079091780705942456425030413160190490, -470168273575740982802160511033584708570, 197019692471804945461449866763452706910],
  [950899487214482436565733474566441445150, 950899487214482436565733474566441445150, -903501858736128030377794925333632949210, 11573761697986328172963248398558769736],
  [950899487214482436565733474566441445150, -950899487214482436565733474566441445150, -903501858736128030377794925333632949210, 11573761697986328172963248398558769736],
  [-950899487214482436565733474566441445150, 950899487214482436565733474566441445150, -903501858736128030377794925333632949210, 11573761697986328172963248398558769736],
  [-950899487214482436565733474566441445150, -950899487214482436565733474566441445150, -903501858736128030377794925333632949210, 11573761697986328172963248398558769736]]⟩

/-- rules/polyquad/expanded/pyr/7-31.txt -/
def pyr7 : RuleFile := ⟨7, 31, 39, [
  [0, 0, -999909039583594483241576515698210712450, 66668205424525275886791453990965274088],
  [0, 0, -212834246484691594957430474548298306740, 268080487199714873505083835780163267650],
  [0, 0, 677365565633703075614047943324134798320, 41885798472046210460725670120584684749],
  [864098759787714697462128991478399554360, 0, -866666666666666666666666666666666666670, 71178024781341107871720116618075801749],
  [0, 864098759787714697462128991478399554360, -866666666666666666666666666666666666670, 71178024781341107871720116618075801749],
  [-864098759787714697462128991478399554360, 0, -866666666666666666666666666666666666670, 71178024781341107871720116618075801749],
  [0, -864098759787714697462128991478399554360, -866666666666666666666666666666666666670, 71178024781341107871720116618075801749],
  [617213399848367641044377851055999681690, 0, -333333333333333333333333333333333333330, 76562500000000000000000000000000000000],
  [0, 617213399848367641044377851055999681690, -333333333333333333333333333333333333330, 76562500000000000000000000000000000000],
  [-617213399848367641044377851055999681690, 0, -333333333333333333333333333333333333330, 76562500000000000000000000000000000000],
  [0, -617213399848367641044377851055999681690, -333333333333333333333333333333333333330, 76562500000000000000000000000000000000],
  [354152380868116144721922820235918805040, 354152380868116144721922820235918805040, -741427180920900972748998591326927973620, 175893832399939434961330309698062358270],
  [354152380868116144721922820235918805040, -354152380868116144721922820235918805040, -741427180920900972748998591326927973620, 175893832399939434961330309698062358270],
  [-354152380868116144721922820235918805040, 354152380868116144721922820235918805040, -741427180920900972748998591326927973620, 175893832399939434961330309698062358270],
  [-354152380868116144721922820235918805040, -354152380868116144721922820235918805040, -741427180920900972748998591326927973620, 175893832399939434961330309698062358270],
  [802725850100087805098051399678265279050, 802725850100087805098051399678265279050, -839722939640443893881774689293755612300, 39429701216628418845191891303832420129],
  [802725850100087805098051399678265279050, -802725850100087805098051399678265279050, -839722939640443893881774689293755612300, 39429701216628418845191891303832420129],
  [-802725850100087805098051399678265279050, 802725850100087805098051399678265279050, -839722939640443893881774689293755612300, 39429701216628418845191891303832420129],
  [-802725850100087805098051399678265279050, -802725850100087805098051399678265279050, -839722939640443893881774689293755612300, 39429701216628418845191891303832420129],
  [254135346861857238669985487908519600440, 254135346861857238669985487908519600440, 211039860221199827368896330472073862050, 78717625851263666944851563183733367932],
  [254135346861857238669985487908519600440, -254135346861857238669985487908519600440, 211039860221199827368896330472073862050, 78717625851263666944851563183733367932],
  [-254135346861857238669985487908519600440, 254135346861857238669985487908519600440, 211039860221199827368896330472073862050, 78717625851263666944851563183733367932],
  [-254135346861857238669985487908519600440, -254135346861857238669985487908519600440, 211039860221199827368896330472073862050, 78717625851263666944851563183733367932],
  [614305107720785282510500434881780850030, 614305107720785282510500434881780850030, -999999999820483398019089314642595025410, 35476919918997616432307229513622918413],
  [614305107720785282510500434881780850030, -614305107720785282510500434881780850030, -999999999820483398019089314642595025410, 35476919918997616432307229513622918413],
  [-614305107720785282510500434881780850030, 614305107720785282510500434881780850030, -999999999820483398019089314642595025410, 35476919918997616432307229513622918413],
  [-614305107720785282510500434881780850030, -614305107720785282510500434881780850030, -999999999820483398019089314642595025410, 35476919918997616432307229513622918413],
  [524832698254375547682204600745282618310, 524832698254375547682204600745282618310, -418913849010804936328368241255068373780, 95249439724424831648115316376411493553],
  [524832698254375547682204600745282618310, -524832698254375547682204600745282618310, -418913849010804936328368241255068373780, 95249439724424831648115316376411493553],
  [-524832698254375547682204600745282618310, 524832698254375547682204600745282618310, -418913849010804936328368241255068373780, 95249439724424831648115316376411493553],
  [-524832698254375547682204600745282618310, -524832698254375547682204600745282618310, -418913849010804936328368241255068373780, 95249439724424831648115316376411493553]]⟩

/-- rules/polyquad/expanded/pyr/8-47.txt -/
def pyr8 : RuleFile := ⟨8, 47, 42, [
  [0, 0, 169610868216251988411608073574302963030000, 131842653748745039151509628315809557980000],
  [0, 0, -457099209161620979420962441841740385750000, 232945838509722760088077861581541870470000],
  [0, 0, -857119139569091969297204092580123744800000, 102561539991618543342705672170391269500000],
  [796096088774258184013500572408258396170000, 0, -999999985352722083896013729558512093240000, 25002825067006628763387217678722243502000],
  [0, 796096088774258184013500572408258396170000, -999999985352722083896013729558512093240000, 25002825067006628763387217678722243502000],
  [-796096088774258184013500572408258396170000, 0, -999999985352722083896013729558512093240000, 25002825067006628763387217678722243502000],
  [0, -796096088774258184013500572408258396170000, -999999985352722083896013729558512093240000, 25002825067006628763387217678722243502000],
  [564888958741839873845688714260446517430000, 0, -155632598797882808474176456748228335410000, 43496051243830853021390765401449212594000],
  [0, 564888958741839873845688714260446517430000, -155632598797882808474176456748228335410000, 43496051243830853021390765401449212594000],
  [-564888958741839873845688714260446517430000, 0, -155632598797882808474176456748228335410000, 43496051243830853021390765401449212594000],
  [0, -564888958741839873845688714260446517430000, -155632598797882808474176456748228335410000, 43496051243830853021390765401449212594000],
  [753022693548947560945009692199412724680000, 0, -704472005406900627905487075157227307220000, 85972592189522311083702670388617702554000],
  [0, 753022693548947560945009692199412724680000, -704472005406900627905487075157227307220000, 85972592189522311083702670388617702554000],
  [-753022693548947560945009692199412724680000, 0, -704472005406900627905487075157227307220000, 85972592189522311083702670388617702554000],
  [0, -753022693548947560945009692199412724680000, -704472005406900627905487075157227307220000, 85972592189522311083702670388617702554000],
  [246577942462287016313999672343030666040000, 246577942462287016313999672343030666040000, 346905695850969411928691856864215583580000, 33693598991694192959947383133729992714000],
  [246577942462287016313999672343030666040000, -246577942462287016313999672343030666040000, 346905695850969411928691856864215583580000, 33693598991694192959947383133729992714000],
  [-246577942462287016313999672343030666040000, 246577942462287016313999672343030666040000, 346905695850969411928691856864215583580000, 33693598991694192959947383133729992714000],
  [-246577942462287016313999672343030666040000, -246577942462287016313999672343030666040000, 346905695850969411928691856864215583580000, 33693598991694192959947383133729992714000],
  [733889532546736034455005667208354524000000, 733889532546736034455005667208354524000000, -508858389927498873009107185993949915770000, 16574786736306812829168423699380538904000],
  [733889532546736034455005667208354524000000, -733889532546736034455005667208354524000000, -508858389927498873009107185993949915770000, 16574786736306812829168423699380538904000],
  [-733889532546736034455005667208354524000000, 733889532546736034455005667208354524000000, -508858389927498873009107185993949915770000, 16574786736306812829168423699380538904000],
  [-733889532546736034455005667208354524000000, -733889532546736034455005667208354524000000, -508858389927498873009107185993949915770000, 16574786736306812829168423699380538904000],
  [82682671512759671070733214668120998744, 82682671512759671070733214668120998744, 716500725301163284062534618774611407840000, 6968674223064766991568467023552186505500],
  [82682671512759671070733214668120998744, -82682671512759671070733214668120998744, 716500725301163284062534618774611407840000, 6968674223064766991568467023552186505500],
  [-82682671512759671070733214668120998744, 82682671512759671070733214668120998744, 716500725301163284062534618774611407840000, 6968674223064766991568467023552186505500],
  [-82682671512759671070733214668120998744, -82682671512759671070733214668120998744, 716500725301163284062534618774611407840000, 6968674223064766991568467023552186505500],
  [398996557095227702132049712468353528820000, 398996557095227702132049712468353528820000, -905193536761024932000392660301831356000000, 78199915186776001276629590295086773482000],
  [398996557095227702132049712468353528820000, -398996557095227702132049712468353528820000, -905193536761024932000392660301831356000000, 78199915186776001276629590295086773482000],
  [-398996557095227702132049712468353528820000, 398996557095227702132049712468353528820000, -905193536761024932000392660301831356000000, 78199915186776001276629590295086773482000],
  [-398996557095227702132049712468353528820000, -398996557095227702132049712468353528820000, -905193536761024932000392660301831356000000, 78199915186776001276629590295086773482000],
  [365312414479589990033268542990252138370000, 365312414479589990033268542990252138370000, -195628587558987812081574054877269250120000, 96958358037799163245293257575174561040000],
  [365312414479589990033268542990252138370000, -365312414479589990033268542990252138370000, -195628587558987812081574054877269250120000, 96958358037799163245293257575174561040000],
  [-365312414479589990033268542990252138370000, 365312414479589990033268542990252138370000, -195628587558987812081574054877269250120000, 96958358037799163245293257575174561040000],
  [-365312414479589990033268542990252138370000, -365312414479589990033268542990252138370000, -195628587558987812081574054877269250120000, 96958358037799163245293257575174561040000],
  [483425244040838184483160485074520712270000, 483425244040838184483160485074520712270000, -619370357827181792142972588276002458400000, 109285495855789874014189865325170921380000],
  [483425244040838184483160485074520712270000, -483425244040838184483160485074520712270000, -619370357827181792142972588276002458400000, 109285495855789874014189865325170921380000],
  [-483425244040838184483160485074520712270000, 483425244040838184483160485074520712270000, -619370357827181792142972588276002458400000, 109285495855789874014189865325170921380000],
  [-483425244040838184483160485074520712270000, -483425244040838184483160485074520712270000, -619370357827181792142972588276002458400000, 109285495855789874014189865325170921380000],
  [631404797600560880625828913400193555380000, 894856196491530562486890636821975492920000, -909048391552497795670185732758163062930000, 26838430536177238417907867814423429749000],
  [894856196491530562486890636821975492920000, 631404797600560880625828913400193555380000, -909048391552497795670185732758163062930000, 26838430536177238417907867814423429749000],
  [631404797600560880625828913400193555380000, -894856196491530562486890636821975492920000, -909048391552497795670185732758163062930000, 26838430536177238417907867814423429749000],
  [-894856196491530562486890636821975492920000, 631404797600560880625828913400193555380000, -909048391552497795670185732758163062930000, 26838430536177238417907867814423429749000],
  [-631404797600560880625828913400193555380000, 894856196491530562486890636821975492920000, -909048391552497795670185732758163062930000, 26838430536177238417907867814423429749000],
  [894856196491530562486890636821975492920000, -631404797600560880625828913400193555380000, -909048391552497795670185732758163062930000, 26838430536177238417907867814423429749000],
  [-631404797600560880625828913400193555380000, -894856196491530562486890636821975492920000, -909048391552497795670185732758163062930000, 26838430536177238417907867814423429749000],
  [-894856196491530562486890636821975492920000, -631404797600560880625828913400193555380000, -909048391552497795670185732758163062930000, 26838430536177238417907867814423429749000]]⟩

/-- rules/polyquad/expanded/pyr/9-62.txt -/
def pyr9 : RuleFile := ⟨9, 62, 40, [
  [0, 0, -9257081381369888910912911919008151280700, 854609843609133577648939330780283327290],
  [0, 0, 3884005263406521913568170830579088638900, 634485891868749296951313578481534811430],
  [9258200958608425303279938964393135904200, 0, -9999999915497429096655555600135519281900, 111289928079851230672775499289094585330],
  [0, 9258200958608425303279938964393135904200, -9999999915497429096655555600135519281900, 111289928079851230672775499289094585330],
  [-9258200958608425303279938964393135904200, 0, -9999999915497429096655555600135519281900, 111289928079851230672775499289094585330],
  [0, -9258200958608425303279938964393135904200, -9999999915497429096655555600135519281900, 111289928079851230672775499289094585330],
  [6760969921163638467298486811319648950100, 0, -4605364309598858028793135275019736363400, 594501102923145831196635388524549400940],
  [0, 6760969921163638467298486811319648950100, -4605364309598858028793135275019736363400, 594501102923145831196635388524549400940],
  [-6760969921163638467298486811319648950100, 0, -4605364309598858028793135275019736363400, 594501102923145831196635388524549400940],
  [0, -6760969921163638467298486811319648950100, -4605364309598858028793135275019736363400, 594501102923145831196635388524549400940],
  [6163321778509252426681071369436749798400, 0, -8333333333333333333333333333333333333300, 776747274078750789822277466474486484000],
  [0, 6163321778509252426681071369436749798400, -8333333333333333333333333333333333333300, 776747274078750789822277466474486484000],
  [-6163321778509252426681071369436749798400, 0, -8333333333333333333333333333333333333300, 776747274078750789822277466474486484000],
  [0, -6163321778509252426681071369436749798400, -8333333333333333333333333333333333333300, 776747274078750789822277466474486484000],
  [4319711692851802893108753357781180147000, 0, 668356208915668899734343953900651174590, 307781507954694030527020322093648084960],
  [0, 4319711692851802893108753357781180147000, 668356208915668899734343953900651174590, 307781507954694030527020322093648084960],
  [-4319711692851802893108753357781180147000, 0, 668356208915668899734343953900651174590, 307781507954694030527020322093648084960],
  [0, -4319711692851802893108753357781180147000, 668356208915668899734343953900651174590, 307781507954694030527020322093648084960],
  [2418018136307698645699176701173330115000, 2418018136307698645699176701173330115000, 3239760174307013624963446160345068337300, 269348662062926274520160191569500311280],
  [2418018136307698645699176701173330115000, -2418018136307698645699176701173330115000, 3239760174307013624963446160345068337300, 269348662062926274520160191569500311280],
  [-2418018136307698645699176701173330115000, 2418018136307698645699176701173330115000, 3239760174307013624963446160345068337300, 269348662062926274520160191569500311280],
  [-2418018136307698645699176701173330115000, -2418018136307698645699176701173330115000, 3239760174307013624963446160345068337300, 269348662062926274520160191569500311280],
  [8440791629031898344950285878574263619600, 8440791629031898344950285878574263619600, -6955905803890726964325244693420027187400, 54906085371215318653035688791270966898],
  [8440791629031898344950285878574263619600, -8440791629031898344950285878574263619600, -6955905803890726964325244693420027187400, 54906085371215318653035688791270966898],
  [-8440791629031898344950285878574263619600, 8440791629031898344950285878574263619600, -6955905803890726964325244693420027187400, 54906085371215318653035688791270966898],
  [-8440791629031898344950285878574263619600, -8440791629031898344950285878574263619600, -6955905803890726964325244693420027187400, 54906085371215318653035688791270966898],
  [2279669387608252745019197842355400225800, 2279669387608252745019197842355400225800, -1554689268211090299806130543065013184700, 913218367085808831830252346693075894560],
  [2279669387608252745019197842355400225800, -2279669387608252745019197842355400225800, -1554689268211090299806130543065013184700, 913218367085808831830252346693075894560],
  [-2279669387608252745019197842355400225800, 2279669387608252745019197842355400225800, -1554689268211090299806130543065013184700, 913218367085808831830252346693075894560],
  [-2279669387608252745019197842355400225800, -2279669387608252745019197842355400225800, -1554689268211090299806130543065013184700, 913218367085808831830252346693075894560],
  [5027849771350101073285166173340203447600, 5027849771350101073285166173340203447600, -2064712602022194847353058246640939689900, 344251030450591167314608651628985019050],
  [5027849771350101073285166173340203447600, -5027849771350101073285166173340203447600, -2064712602022194847353058246640939689900, 344251030450591167314608651628985019050],
  [-5027849771350101073285166173340203447600, 5027849771350101073285166173340203447600, -2064712602022194847353058246640939689900, 344251030450591167314608651628985019050],
  [-5027849771350101073285166173340203447600, -5027849771350101073285166173340203447600, -2064712602022194847353058246640939689900, 344251030450591167314608651628985019050],
  [2605010749834310978082415659999415995800, 2605010749834310978082415659999415995800, -5983585561256585273339273789031840022900, 989660830608891957499315482206430798170],
  [2605010749834310978082415659999415995800, -2605010749834310978082415659999415995800, -5983585561256585273339273789031840022900, 989660830608891957499315482206430798170],
  [-2605010749834310978082415659999415995800, 2605010749834310978082415659999415995800, -5983585561256585273339273789031840022900, 989660830608891957499315482206430798170],
  [-2605010749834310978082415659999415995800, -2605010749834310978082415659999415995800, -5983585561256585273339273789031840022900, 989660830608891957499315482206430798170],
  [926958730867242946344094752855372669460, 926958730867242946344094752855372669460, 7322907415592755747020380961784709200600, 59165284766696216483252319063621153113],
  [926958730867242946344094752855372669460, -926958730867242946344094752855372669460, 7322907415592755747020380961784709200600, 59165284766696216483252319063621153113],
  [-926958730867242946344094752855372669460, 926958730867242946344094752855372669460, 7322907415592755747020380961784709200600, 59165284766696216483252319063621153113],
  [-926958730867242946344094752855372669460, -926958730867242946344094752855372669460, 7322907415592755747020380961784709200600, 59165284766696216483252319063621153113],
  [4832161680706445081140313961390801297700, 4832161680706445081140313961390801297700, -9609919750151769696324460566580287245700, 425498910298535903616992111975768231640],
  [4832161680706445081140313961390801297700, -4832161680706445081140313961390801297700, -9609919750151769696324460566580287245700, 425498910298535903616992111975768231640],
  [-4832161680706445081140313961390801297700, 4832161680706445081140313961390801297700, -9609919750151769696324460566580287245700, 425498910298535903616992111975768231640],
  [-4832161680706445081140313961390801297700, -4832161680706445081140313961390801297700, -9609919750151769696324460566580287245700, 425498910298535903616992111975768231640],
  [5671855056082324003532037639852487316300, 5671855056082324003532037639852487316300, -5736627965868797848181347151802858969600, 615128483395402763731497635989416941740],
  [5671855056082324003532037639852487316300, -5671855056082324003532037639852487316300, -5736627965868797848181347151802858969600, 615128483395402763731497635989416941740],
  [-5671855056082324003532037639852487316300, 5671855056082324003532037639852487316300, -5736627965868797848181347151802858969600, 615128483395402763731497635989416941740],
  [-5671855056082324003532037639852487316300, -5671855056082324003532037639852487316300, -5736627965868797848181347151802858969600, 615128483395402763731497635989416941740],
  [8463949915138761036326928206850021056200, 8463949915138761036326928206850021056200, -9693044055039805656571133868955522239000, 122650681938617048279097063010684816200],
  [8463949915138761036326928206850021056200, -8463949915138761036326928206850021056200, -9693044055039805656571133868955522239000, 122650681938617048279097063010684816200],
  [-8463949915138761036326928206850021056200, 8463949915138761036326928206850021056200, -9693044055039805656571133868955522239000, 122650681938617048279097063010684816200],
  [-8463949915138761036326928206850021056200, -8463949915138761036326928206850021056200, -9693044055039805656571133868955522239000, 122650681938617048279097063010684816200],
  [8471778681177453305631571537841322550500, 4641907129661462762986126522881287914000, -8333333333333333333333333333333333333300, 355122291891034291934841636020339722060],
  [4641907129661462762986126522881287914000, 8471778681177453305631571537841322550500, -8333333333333333333333333333333333333300, 355122291891034291934841636020339722060],
  [8471778681177453305631571537841322550500, -4641907129661462762986126522881287914000, -8333333333333333333333333333333333333300, 355122291891034291934841636020339722060],
  [-4641907129661462762986126522881287914000, 8471778681177453305631571537841322550500, -8333333333333333333333333333333333333300, 355122291891034291934841636020339722060],
  [-8471778681177453305631571537841322550500, 4641907129661462762986126522881287914000, -8333333333333333333333333333333333333300, 355122291891034291934841636020339722060],
  [4641907129661462762986126522881287914000, -8471778681177453305631571537841322550500, -8333333333333333333333333333333333333300, 355122291891034291934841636020339722060],
  [-8471778681177453305631571537841322550500, -4641907129661462762986126522881287914000, -8333333333333333333333333333333333333300, 355122291891034291934841636020339722060],
  [-4641907129661462762986126522881287914000, -8471778681177453305631571537841322550500, -8333333333333333333333333333333333333300, 355122291891034291934841636020339722060]]⟩

/-- rules/polyquad/expanded/pyr/10-83.txt -/
def pyr10 : RuleFile := ⟨10, 83, 40, [
  [0, 0, 8335915635582545504216363089082427512000, 64032713667237888900352396740754404729],
  [0, 0, -2977263873192948312578205301429459957200, 1251091410927031368949786556209141982500],
  [0, 0, 4838271359265998794625576736735051462200, 262577619960777448849930819452018196170],
  [9211301560146403583275192188149101662000, 0, -8736768054401710461867847315555459254200, 151397128478167994847088643057819503670],
  [0, 9211301560146403583275192188149101662000, -8736768054401710461867847315555459254200, 151397128478167994847088643057819503670],
  [-9211301560146403583275192188149101662000, 0, -8736768054401710461867847315555459254200, 151397128478167994847088643057819503670],
  [0, -9211301560146403583275192188149101662000, -8736768054401710461867847315555459254200, 151397128478167994847088643057819503670],
  [4546948844252537419073762001475210662200, 0, -6465391776765351870375142629645434672400, 1099233593115049133979438108645263980300],
  [0, 4546948844252537419073762001475210662200, -6465391776765351870375142629645434672400, 1099233593115049133979438108645263980300],
  [-4546948844252537419073762001475210662200, 0, -6465391776765351870375142629645434672400, 1099233593115049133979438108645263980300],
  [0, -4546948844252537419073762001475210662200, -6465391776765351870375142629645434672400, 1099233593115049133979438108645263980300],
  [3495469844967066561870342605265227009200, 0, 2041876214158279622935602768230937901300, 245566753814179567339862840619215773060],
  [0, 3495469844967066561870342605265227009200, 2041876214158279622935602768230937901300, 245566753814179567339862840619215773060],
  [-3495469844967066561870342605265227009200, 0, 2041876214158279622935602768230937901300, 245566753814179567339862840619215773060],
  [0, -3495469844967066561870342605265227009200, 2041876214158279622935602768230937901300, 245566753814179567339862840619215773060],
  [4036909359989290549941040384972850952000, 4036909359989290549941040384972850952000, 540989395363062346146815871618278685810, 188490564401841693354964360074272705590],
  [4036909359989290549941040384972850952000, -4036909359989290549941040384972850952000, 540989395363062346146815871618278685810, 188490564401841693354964360074272705590],
  [-4036909359989290549941040384972850952000, 4036909359989290549941040384972850952000, 540989395363062346146815871618278685810, 188490564401841693354964360074272705590],
  [-4036909359989290549941040384972850952000, -4036909359989290549941040384972850952000, 540989395363062346146815871618278685810, 188490564401841693354964360074272705590],
  [3714608909064741414673350874963401758200, 3714608909064741414673350874963401758200, -3017791162029017399476822238062736465400, 795484955369999823802615998639585587980],
  [3714608909064741414673350874963401758200, -3714608909064741414673350874963401758200, -3017791162029017399476822238062736465400, 795484955369999823802615998639585587980],
  [-3714608909064741414673350874963401758200, 3714608909064741414673350874963401758200, -3017791162029017399476822238062736465400, 795484955369999823802615998639585587980],
  [-3714608909064741414673350874963401758200, -3714608909064741414673350874963401758200, -3017791162029017399476822238062736465400, 795484955369999823802615998639585587980],
  [2995979966434122098660356345280991521100, 2995979966434122098660356345280991521100, -9861320542490731974646055981786932169900, 156533141381780865430678280356066382770],
  [2995979966434122098660356345280991521100, -2995979966434122098660356345280991521100, -9861320542490731974646055981786932169900, 156533141381780865430678280356066382770],
  [-2995979966434122098660356345280991521100, 2995979966434122098660356345280991521100, -9861320542490731974646055981786932169900, 156533141381780865430678280356066382770],
  [-2995979966434122098660356345280991521100, -2995979966434122098660356345280991521100, -9861320542490731974646055981786932169900, 156533141381780865430678280356066382770],
  [1582262545541785369646018764667122570500, 1582262545541785369646018764667122570500, 5505286358663931290470897951695759032800, 132116411593837015867175169581631846700],
  [1582262545541785369646018764667122570500, -1582262545541785369646018764667122570500, 5505286358663931290470897951695759032800, 132116411593837015867175169581631846700],
  [-1582262545541785369646018764667122570500, 1582262545541785369646018764667122570500, 5505286358663931290470897951695759032800, 132116411593837015867175169581631846700],
  [-1582262545541785369646018764667122570500, -1582262545541785369646018764667122570500, 5505286358663931290470897951695759032800, 132116411593837015867175169581631846700],
  [1819979349519966468981784792913399385600, 1819979349519966468981784792913399385600, 941300362926782661021751694111060143780, 424824993911156920188087131325769253800],
  [1819979349519966468981784792913399385600, -1819979349519966468981784792913399385600, 941300362926782661021751694111060143780, 424824993911156920188087131325769253800],
  [-1819979349519966468981784792913399385600, 1819979349519966468981784792913399385600, 941300362926782661021751694111060143780, 424824993911156920188087131325769253800],
  [-1819979349519966468981784792913399385600, -1819979349519966468981784792913399385600, 941300362926782661021751694111060143780, 424824993911156920188087131325769253800],
  [8455841498012412945953771361383269793900, 8455841498012412945953771361383269793900, -8542031770486790091651070622913557493200, 135774066271544346157454631410858053560],
  [8455841498012412945953771361383269793900, -8455841498012412945953771361383269793900, -8542031770486790091651070622913557493200, 135774066271544346157454631410858053560],
  [-8455841498012412945953771361383269793900, 8455841498012412945953771361383269793900, -8542031770486790091651070622913557493200, 135774066271544346157454631410858053560],
  [-8455841498012412945953771361383269793900, -8455841498012412945953771361383269793900, -8542031770486790091651070622913557493200, 135774066271544346157454631410858053560],
  [6468694059373429126448616450839500744800, 6468694059373429126448616450839500744800, -4327553204044903896084514899827863369000, 182554489208234188099171414580834633670],
  [6468694059373429126448616450839500744800, -6468694059373429126448616450839500744800, -4327553204044903896084514899827863369000, 182554489208234188099171414580834633670],
  [-6468694059373429126448616450839500744800, 6468694059373429126448616450839500744800, -4327553204044903896084514899827863369000, 182554489208234188099171414580834633670],
  [-6468694059373429126448616450839500744800, -6468694059373429126448616450839500744800, -4327553204044903896084514899827863369000, 182554489208234188099171414580834633670],
  [5875870294087208023517287485781829080200, 5875870294087208023517287485781829080200, -8803739564145469145223718670515760444500, 401013876809769656551899134336257643050],
  [5875870294087208023517287485781829080200, -5875870294087208023517287485781829080200, -8803739564145469145223718670515760444500, 401013876809769656551899134336257643050],
  [-5875870294087208023517287485781829080200, 5875870294087208023517287485781829080200, -8803739564145469145223718670515760444500, 401013876809769656551899134336257643050],
  [-5875870294087208023517287485781829080200, -5875870294087208023517287485781829080200, -8803739564145469145223718670515760444500, 401013876809769656551899134336257643050],
  [2237620599838161172584274297386430439200, 2237620599838161172584274297386430439200, -8683382400387533370096073656640561366300, 416404349967845781974892138448197163230],
  [2237620599838161172584274297386430439200, -2237620599838161172584274297386430439200, -8683382400387533370096073656640561366300, 416404349967845781974892138448197163230],
  [-2237620599838161172584274297386430439200, 2237620599838161172584274297386430439200, -8683382400387533370096073656640561366300, 416404349967845781974892138448197163230],
  [-2237620599838161172584274297386430439200, -2237620599838161172584274297386430439200, -8683382400387533370096073656640561366300, 416404349967845781974892138448197163230],
  [7455657084697210699842879543157622684700, 2247174318849061709899646827678079574500, -9454994894506521067947324092242195462200, 237582935117279354831357148586843592260],
  [2247174318849061709899646827678079574500, 7455657084697210699842879543157622684700, -9454994894506521067947324092242195462200, 237582935117279354831357148586843592260],
  [7455657084697210699842879543157622684700, -2247174318849061709899646827678079574500, -9454994894506521067947324092242195462200, 237582935117279354831357148586843592260],
  [-2247174318849061709899646827678079574500, 7455657084697210699842879543157622684700, -9454994894506521067947324092242195462200, 237582935117279354831357148586843592260],
  [-7455657084697210699842879543157622684700, 2247174318849061709899646827678079574500, -9454994894506521067947324092242195462200, 237582935117279354831357148586843592260],
  [2247174318849061709899646827678079574500, -7455657084697210699842879543157622684700, -9454994894506521067947324092242195462200, 237582935117279354831357148586843592260],
  [-7455657084697210699842879543157622684700, -2247174318849061709899646827678079574500, -9454994894506521067947324092242195462200, 237582935117279354831357148586843592260],
  [-2247174318849061709899646827678079574500, -7455657084697210699842879543157622684700, -9454994894506521067947324092242195462200, 237582935117279354831357148586843592260],
  [4056619527318771134089911076654431816500, 7487267628018788009404385103258616656300, -6763999741458984342187037500968415887900, 447779238929390492147107282420650711310],
  [7487267628018788009404385103258616656300, 4056619527318771134089911076654431816500, -6763999741458984342187037500968415887900, 447779238929390492147107282420650711310],
  [4056619527318771134089911076654431816500, -7487267628018788009404385103258616656300, -6763999741458984342187037500968415887900, 447779238929390492147107282420650711310],
  [-7487267628018788009404385103258616656300, 4056619527318771134089911076654431816500, -6763999741458984342187037500968415887900, 447779238929390492147107282420650711310],
  [-4056619527318771134089911076654431816500, 7487267628018788009404385103258616656300, -6763999741458984342187037500968415887900, 447779238929390492147107282420650711310],
  [7487267628018788009404385103258616656300, -4056619527318771134089911076654431816500, -6763999741458984342187037500968415887900, 447779238929390492147107282420650711310],
  [-4056619527318771134089911076654431816500, -7487267628018788009404385103258616656300, -6763999741458984342187037500968415887900, 447779238929390492147107282420650711310],
  [-7487267628018788009404385103258616656300, -4056619527318771134089911076654431816500, -6763999741458984342187037500968415887900, 447779238929390492147107282420650711310],
  [707425682812096213293140965699452918620, 6004569111268735816953910674131991155400, -2830588728218984878244008709763018001400, 218819976141434299180667620500865397400],
  [6004569111268735816953910674131991155400, 707425682812096213293140965699452918620, -2830588728218984878244008709763018001400, 218819976141434299180667620500865397400],
  [707425682812096213293140965699452918620, -6004569111268735816953910674131991155400, -2830588728218984878244008709763018001400, 218819976141434299180667620500865397400],
  [-6004569111268735816953910674131991155400, 707425682812096213293140965699452918620, -2830588728218984878244008709763018001400, 218819976141434299180667620500865397400],
  [-707425682812096213293140965699452918620, 6004569111268735816953910674131991155400, -2830588728218984878244008709763018001400, 218819976141434299180667620500865397400],
  [6004569111268735816953910674131991155400, -707425682812096213293140965699452918620, -2830588728218984878244008709763018001400, 218819976141434299180667620500865397400],
  [-707425682812096213293140965699452918620, -6004569111268735816953910674131991155400, -2830588728218984878244008709763018001400, 218819976141434299180667620500865397400],
  [-6004569111268735816953910674131991155400, -707425682812096213293140965699452918620, -2830588728218984878244008709763018001400, 218819976141434299180667620500865397400],
  [9422191470796680864522049388733776189100, 6375631040785387203688455806503451545300, -9851187178462305000248494051958099368600, 67241302914144855040028634736848045760],
  [6375631040785387203688455806503451545300, 9422191470796680864522049388733776189100, -9851187178462305000248494051958099368600, 67241302914144855040028634736848045760],
  [9422191470796680864522049388733776189100, -6375631040785387203688455806503451545300, -9851187178462305000248494051958099368600, 67241302914144855040028634736848045760],
  [-6375631040785387203688455806503451545300, 9422191470796680864522049388733776189100, -9851187178462305000248494051958099368600, 67241302914144855040028634736848045760],
  [-9422191470796680864522049388733776189100, 6375631040785387203688455806503451545300, -9851187178462305000248494051958099368600, 67241302914144855040028634736848045760],
  [6375631040785387203688455806503451545300, -9422191470796680864522049388733776189100, -9851187178462305000248494051958099368600, 67241302914144855040028634736848045760],
  [-9422191470796680864522049388733776189100, -6375631040785387203688455806503451545300, -9851187178462305000248494051958099368600, 67241302914144855040028634736848045760],
  [-6375631040785387203688455806503451545300, -9422191470796680864522049388733776189100, -9851187178462305000248494051958099368600, 67241302914144855040028634736848045760]]⟩

/-- The files in rules/polyquad/expanded/pyr, in the order of their strengths. -/
def pyrFiles : List RuleFile := [pyr1, pyr2, pyr3, pyr4, pyr5, pyr6, pyr7, pyr8, pyr9, pyr10]

end Fenris.ShippedRules
