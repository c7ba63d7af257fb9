import Verif.Model.ShippedRules.Basic
/-! # The rules in fenris-quadrature/rules/polyquad/expanded/pri

Generated from the files. Every row is a line of the file: 3 coordinates and the weight. -/
set_option autoImplicit false

namespace Fenris.ShippedRules

/-- rules/polyquad/expanded/pri/1-1.txt -/
def pri1 : RuleFile := ⟨1, 1, 38, [
  [-33333333333333333333333333333333333333, -33333333333333333333333333333333333333, 0, 400000000000000000000000000000000000000]]⟩

/-- rules/polyquad/expanded/pri/2-5.txt -/
def pri2 : RuleFile := ⟨2, 5, 38, [
  [-33333333333333333333333333333333333333, -33333333333333333333333333333333333333, -99999999999999985119303811076522004183, 66666666666666686507594918564641756458],
  [-33333333333333333333333333333333333333, -33333333333333333333333333333333333333, 99999999999999985119303811076522004183, 66666666666666686507594918564641756458],
  [-74158162379719638007464124598498266439, 48316324759439276014928249196996532878, 0, 88888888888888875661603387623572162361],
  [48316324759439276014928249196996532878, -74158162379719638007464124598498266439, 0, 88888888888888875661603387623572162361],
  [-74158162379719638007464124598498266439, -74158162379719638007464124598498266439, 0, 88888888888888875661603387623572162361]]⟩

/-- rules/polyquad/expanded/pri/3-8.txt -/
def pri3 : RuleFile := ⟨3, 8, 38, [
  [-33333333333333333333333333333333333333, -33333333333333333333333333333333333333, -86066920446477793249332885107223920359, 89998695257960196814387903509173005101],
  [-33333333333333333333333333333333333333, -33333333333333333333333333333333333333, 86066920446477793249332885107223920359, 89998695257960196814387903509173005101],
  [-52223312808684327863699399822724711768, 52222829574978345631488370728601281383, 0, 36667101580679934395204032163608998300],
  [52222829574978345631488370728601281383, -52223312808684327863699399822724711768, 0, 36667101580679934395204032163608998300],
  [-99999516766294017767788970905876569615, 52222829574978345631488370728601281383, 0, 36667101580679934395204032163608998300],
  [52222829574978345631488370728601281383, -99999516766294017767788970905876569615, 0, 36667101580679934395204032163608998300],
  [-99999516766294017767788970905876569615, -52223312808684327863699399822724711768, 0, 36667101580679934395204032163608998300],
  [-52223312808684327863699399822724711768, -99999516766294017767788970905876569615, 0, 36667101580679934395204032163608998300]]⟩

/-- rules/polyquad/expanded/pri/4-11.txt -/
def pri4 : RuleFile := ⟨4, 11, 39, [
  [-333333333333333333333333333333333333330, -333333333333333333333333333333333333330, -866861974009034798415832239371512975460, 431647899262142019155605715390437196840],
  [-333333333333333333333333333333333333330, -333333333333333333333333333333333333330, 866861974009034798415832239371512975460, 431647899262142019155605715390437196840],
  [-62688380276009575455822705856210492672, -874623239447980849088354588287579014660, 0, 545658450421910572261538386550803930410],
  [-874623239447980849088354588287579014660, -62688380276009575455822705856210492672, 0, 545658450421910572261538386550803930410],
  [-62688380276009575455822705856210492672, -62688380276009575455822705856210492672, 0, 545658450421910572261538386550803930410],
  [-798519188402178727453142554272154626090, 597038376804357454906285108544309252180, -675639823682259717396617593554280290310, 249954808368330707484028901594452302510],
  [597038376804357454906285108544309252180, -798519188402178727453142554272154626090, -675639823682259717396617593554280290310, 249954808368330707484028901594452302510],
  [-798519188402178727453142554272154626090, -798519188402178727453142554272154626090, -675639823682259717396617593554280290310, 249954808368330707484028901594452302510],
  [-798519188402178727453142554272154626090, 597038376804357454906285108544309252180, 675639823682259717396617593554280290310, 249954808368330707484028901594452302510],
  [597038376804357454906285108544309252180, -798519188402178727453142554272154626090, 675639823682259717396617593554280290310, 249954808368330707484028901594452302510],
  [-798519188402178727453142554272154626090, -798519188402178727453142554272154626090, 675639823682259717396617593554280290310, 249954808368330707484028901594452302510]]⟩

/-- rules/polyquad/expanded/pri/5-16.txt -/
def pri5 : RuleFile := ⟨5, 16, 39, [
  [-333333333333333333333333333333333333330, -333333333333333333333333333333333333330, 0, 711455555931486849961973430220995563380],
  [-25400070899508667767082370124706051859, -949199858200982664465835259750587896280, 0, 224710067228266852026395874260814195040],
  [-949199858200982664465835259750587896280, -25400070899508667767082370124706051859, 0, 224710067228266852026395874260814195040],
  [-25400070899508667767082370124706051859, -25400070899508667767082370124706051859, 0, 224710067228266852026395874260814195040],
  [-108803790659255992474449348727136504570, -782392418681488015051101302545726990870, -871002934865444052729259083073821061900, 185661421316158139872574879855034583390],
  [-782392418681488015051101302545726990870, -108803790659255992474449348727136504570, -871002934865444052729259083073821061900, 185661421316158139872574879855034583390],
  [-108803790659255992474449348727136504570, -108803790659255992474449348727136504570, -871002934865444052729259083073821061900, 185661421316158139872574879855034583390],
  [-108803790659255992474449348727136504570, -782392418681488015051101302545726990870, 871002934865444052729259083073821061900, 185661421316158139872574879855034583390],
  [-782392418681488015051101302545726990870, -108803790659255992474449348727136504570, 871002934865444052729259083073821061900, 185661421316158139872574879855034583390],
  [-108803790659255992474449348727136504570, -108803790659255992474449348727136504570, 871002934865444052729259083073821061900, 185661421316158139872574879855034583390],
  [-798282108034582938168703375381295630580, 596564216069165876337406750762591261160, -570426980705159272061967868423343256460, 250074285747793959120564944644392391860],
  [596564216069165876337406750762591261160, -798282108034582938168703375381295630580, -570426980705159272061967868423343256460, 250074285747793959120564944644392391860],
  [-798282108034582938168703375381295630580, -798282108034582938168703375381295630580, -570426980705159272061967868423343256460, 250074285747793959120564944644392391860],
  [-798282108034582938168703375381295630580, 596564216069165876337406750762591261160, 570426980705159272061967868423343256460, 250074285747793959120564944644392391860],
  [596564216069165876337406750762591261160, -798282108034582938168703375381295630580, 570426980705159272061967868423343256460, 250074285747793959120564944644392391860],
  [-798282108034582938168703375381295630580, -798282108034582938168703375381295630580, 570426980705159272061967868423343256460, 250074285747793959120564944644392391860]]⟩

/-- rules/polyquad/expanded/pri/6-28.txt -/
def pri6 : RuleFile := ⟨6, 28, 39, [
  [-333333333333333333333333333333333333330, -333333333333333333333333333333333333330, -526622704804974758697980077483792443220, 222693134092225022500386297886299765980],
  [-333333333333333333333333333333333333330, -333333333333333333333333333333333333330, 526622704804974758697980077483792443220, 222693134092225022500386297886299765980],
  [-333333333333333333333333333333333333330, -333333333333333333333333333333333333330, -990836300819244748692867183002051677630, 138396109374124511725755900814321593640],
  [-333333333333333333333333333333333333330, -333333333333333333333333333333333333330, 990836300819244748692867183002051677630, 138396109374124511725755900814321593640],
  [-669593469943815065312923925778893617080, 339186939887630130625847851557787234160, 0, 311828014813335329000663385771357357370],
  [339186939887630130625847851557787234160, -669593469943815065312923925778893617080, 0, 311828014813335329000663385771357357370],
  [-669593469943815065312923925778893617080, -669593469943815065312923925778893617080, 0, 311828014813335329000663385771357357370],
  [-959053460775486161952145841579653817040, 918106921550972323904291683159307634080, 0, 50146535238696554002545078611329875622],
  [918106921550972323904291683159307634080, -959053460775486161952145841579653817040, 0, 50146535238696554002545078611329875622],
  [-959053460775486161952145841579653817040, -959053460775486161952145841579653817040, 0, 50146535238696554002545078611329875622],
  [-67776668819680981202280000599855057023, -864446662360638037595439998800289885950, -481674134884387512670795665971267646780, 196050560206082166870219161791494980190],
  [-864446662360638037595439998800289885950, -67776668819680981202280000599855057023, -481674134884387512670795665971267646780, 196050560206082166870219161791494980190],
  [-67776668819680981202280000599855057023, -67776668819680981202280000599855057023, -481674134884387512670795665971267646780, 196050560206082166870219161791494980190],
  [-67776668819680981202280000599855057023, -864446662360638037595439998800289885950, 481674134884387512670795665971267646780, 196050560206082166870219161791494980190],
  [-864446662360638037595439998800289885950, -67776668819680981202280000599855057023, 481674134884387512670795665971267646780, 196050560206082166870219161791494980190],
  [-67776668819680981202280000599855057023, -67776668819680981202280000599855057023, 481674134884387512670795665971267646780, 196050560206082166870219161791494980190],
  [-594852206549538446091819849390995853770, 525493481667444546039039986789376797130, -809285793255832752316454328067038657870, 84632875139559356776397936558477141722],
  [525493481667444546039039986789376797130, -594852206549538446091819849390995853770, -809285793255832752316454328067038657870, 84632875139559356776397936558477141722],
  [-930641275117906099947220137398380943350, 525493481667444546039039986789376797130, -809285793255832752316454328067038657870, 84632875139559356776397936558477141722],
  [525493481667444546039039986789376797130, -930641275117906099947220137398380943350, -809285793255832752316454328067038657870, 84632875139559356776397936558477141722],
  [-930641275117906099947220137398380943350, -594852206549538446091819849390995853770, -809285793255832752316454328067038657870, 84632875139559356776397936558477141722],
  [-594852206549538446091819849390995853770, -930641275117906099947220137398380943350, -809285793255832752316454328067038657870, 84632875139559356776397936558477141722],
  [-594852206549538446091819849390995853770, 525493481667444546039039986789376797130, 809285793255832752316454328067038657870, 84632875139559356776397936558477141722],
  [525493481667444546039039986789376797130, -594852206549538446091819849390995853770, 809285793255832752316454328067038657870, 84632875139559356776397936558477141722],
  [-930641275117906099947220137398380943350, 525493481667444546039039986789376797130, 809285793255832752316454328067038657870, 84632875139559356776397936558477141722],
  [525493481667444546039039986789376797130, -930641275117906099947220137398380943350, 809285793255832752316454328067038657870, 84632875139559356776397936558477141722],
  [-930641275117906099947220137398380943350, -594852206549538446091819849390995853770, 809285793255832752316454328067038657870, 84632875139559356776397936558477141722],
  [-594852206549538446091819849390995853770, -930641275117906099947220137398380943350, 809285793255832752316454328067038657870, 84632875139559356776397936558477141722]]⟩

/-- rules/polyquad/expanded/pri/7-35.txt -/
def pri7 : RuleFile := ⟨7, 35, 39, [
  [-333333333333333333333333333333333333330, -333333333333333333333333333333333333330, -980228069590891601715048829141280086030, 113782724450757155633922222086009130260],
  [-333333333333333333333333333333333333330, -333333333333333333333333333333333333330, 980228069590891601715048829141280086030, 113782724450757155633922222086009130260],
  [-983324809067957055605908315654795812930, 966649618135914111211816631309591625850, 0, 24472968692380158977782543188506640362],
  [966649618135914111211816631309591625850, -983324809067957055605908315654795812930, 0, 24472968692380158977782543188506640362],
  [-983324809067957055605908315654795812930, -983324809067957055605908315654795812930, 0, 24472968692380158977782543188506640362],
  [-36956049341726798726440754485546402356, -926087901316546402547118491028907195290, -841387354206525992950960601003594897580, 86203456344905850875965416526967283444],
  [-926087901316546402547118491028907195290, -36956049341726798726440754485546402356, -841387354206525992950960601003594897580, 86203456344905850875965416526967283444],
  [-36956049341726798726440754485546402356, -36956049341726798726440754485546402356, -841387354206525992950960601003594897580, 86203456344905850875965416526967283444],
  [-36956049341726798726440754485546402356, -926087901316546402547118491028907195290, 841387354206525992950960601003594897580, 86203456344905850875965416526967283444],
  [-926087901316546402547118491028907195290, -36956049341726798726440754485546402356, 841387354206525992950960601003594897580, 86203456344905850875965416526967283444],
  [-36956049341726798726440754485546402356, -36956049341726798726440754485546402356, 841387354206525992950960601003594897580, 86203456344905850875965416526967283444],
  [-809033503257021267688028404915593330130, 618067006514042535376056809831186660270, -795849090586983066269090098338431124080, 116714099608393834332489914393452389690],
  [618067006514042535376056809831186660270, -809033503257021267688028404915593330130, -795849090586983066269090098338431124080, 116714099608393834332489914393452389690],
  [-809033503257021267688028404915593330130, -809033503257021267688028404915593330130, -795849090586983066269090098338431124080, 116714099608393834332489914393452389690],
  [-809033503257021267688028404915593330130, 618067006514042535376056809831186660270, 795849090586983066269090098338431124080, 116714099608393834332489914393452389690],
  [618067006514042535376056809831186660270, -809033503257021267688028404915593330130, 795849090586983066269090098338431124080, 116714099608393834332489914393452389690],
  [-809033503257021267688028404915593330130, -809033503257021267688028404915593330130, 795849090586983066269090098338431124080, 116714099608393834332489914393452389690],
  [-975701736803243420354793661339015405440, 485993364145791270669923647847463859890, 0, 102059425340597009767863295991591849450],
  [485993364145791270669923647847463859890, -975701736803243420354793661339015405440, 0, 102059425340597009767863295991591849450],
  [-510291627342547850315129986508448454450, 485993364145791270669923647847463859890, 0, 102059425340597009767863295991591849450],
  [485993364145791270669923647847463859890, -510291627342547850315129986508448454450, 0, 102059425340597009767863295991591849450],
  [-510291627342547850315129986508448454450, -975701736803243420354793661339015405440, 0, 102059425340597009767863295991591849450],
  [-975701736803243420354793661339015405440, -510291627342547850315129986508448454450, 0, 102059425340597009767863295991591849450],
  [-389687567135547865698599734697541432930, -694030803150404763059826967396892301560, -403934560532109911699823834136295974200, 155762813104830420161741347065866056910],
  [-694030803150404763059826967396892301560, -389687567135547865698599734697541432930, -403934560532109911699823834136295974200, 155762813104830420161741347065866056910],
  [83718370285952628758426702094433734489, -694030803150404763059826967396892301560, -403934560532109911699823834136295974200, 155762813104830420161741347065866056910],
  [-694030803150404763059826967396892301560, 83718370285952628758426702094433734489, -403934560532109911699823834136295974200, 155762813104830420161741347065866056910],
  [83718370285952628758426702094433734489, -389687567135547865698599734697541432930, -403934560532109911699823834136295974200, 155762813104830420161741347065866056910],
  [-389687567135547865698599734697541432930, 83718370285952628758426702094433734489, -403934560532109911699823834136295974200, 155762813104830420161741347065866056910],
  [-389687567135547865698599734697541432930, -694030803150404763059826967396892301560, 403934560532109911699823834136295974200, 155762813104830420161741347065866056910],
  [-694030803150404763059826967396892301560, -389687567135547865698599734697541432930, 403934560532109911699823834136295974200, 155762813104830420161741347065866056910],
  [83718370285952628758426702094433734489, -694030803150404763059826967396892301560, 403934560532109911699823834136295974200, 155762813104830420161741347065866056910],
  [-694030803150404763059826967396892301560, 83718370285952628758426702094433734489, 403934560532109911699823834136295974200, 155762813104830420161741347065866056910],
  [83718370285952628758426702094433734489, -389687567135547865698599734697541432930, 403934560532109911699823834136295974200, 155762813104830420161741347065866056910],
  [-389687567135547865698599734697541432930, 83718370285952628758426702094433734489, 403934560532109911699823834136295974200, 155762813104830420161741347065866056910]]⟩

/-- rules/polyquad/expanded/pri/8-46.txt -/
def pri8 : RuleFile := ⟨8, 46, 39, [
  [-333333333333333333333333333333333333330, -333333333333333333333333333333333333330, -224433866105990572865924614665299355850, 82939746571421834033180571412028667484],
  [-333333333333333333333333333333333333330, -333333333333333333333333333333333333330, 224433866105990572865924614665299355850, 82939746571421834033180571412028667484],
  [-333333333333333333333333333333333333330, -333333333333333333333333333333333333330, -681825441570865811702151680023740395220, 204357708448726191281581955849351222820],
  [-333333333333333333333333333333333333330, -333333333333333333333333333333333333330, 681825441570865811702151680023740395220, 204357708448726191281581955849351222820],
  [-893175298126185722843890867198970897110, 786350596252371445687781734397941794210, 0, 72608995136598867700988758862181257017],
  [786350596252371445687781734397941794210, -893175298126185722843890867198970897110, 0, 72608995136598867700988758862181257017],
  [-893175298126185722843890867198970897110, -893175298126185722843890867198970897110, 0, 72608995136598867700988758862181257017],
  [-79822074372578761440178266060788079463, -840355851254842477119643467878423841070, 0, 210798979626028674164522006869956250600],
  [-840355851254842477119643467878423841070, -79822074372578761440178266060788079463, 0, 210798979626028674164522006869956250600],
  [-79822074372578761440178266060788079463, -79822074372578761440178266060788079463, 0, 210798979626028674164522006869956250600],
  [-82861862418097326120000870246452008956, -834276275163805347759998259507095982090, -876195910000254244740253272342323459550, 84346037174345969123924723988899397111],
  [-834276275163805347759998259507095982090, -82861862418097326120000870246452008956, -876195910000254244740253272342323459550, 84346037174345969123924723988899397111],
  [-82861862418097326120000870246452008956, -82861862418097326120000870246452008956, -876195910000254244740253272342323459550, 84346037174345969123924723988899397111],
  [-82861862418097326120000870246452008956, -834276275163805347759998259507095982090, 876195910000254244740253272342323459550, 84346037174345969123924723988899397111],
  [-834276275163805347759998259507095982090, -82861862418097326120000870246452008956, 876195910000254244740253272342323459550, 84346037174345969123924723988899397111],
  [-82861862418097326120000870246452008956, -82861862418097326120000870246452008956, 876195910000254244740253272342323459550, 84346037174345969123924723988899397111],
  [-651876784151259224767030259332160514130, 303753568302518449534060518664321028260, -406084229354590242204725076964403703770, 162517050635957303456506688761896458280],
  [303753568302518449534060518664321028260, -651876784151259224767030259332160514130, -406084229354590242204725076964403703770, 162517050635957303456506688761896458280],
  [-651876784151259224767030259332160514130, -651876784151259224767030259332160514130, -406084229354590242204725076964403703770, 162517050635957303456506688761896458280],
  [-651876784151259224767030259332160514130, 303753568302518449534060518664321028260, 406084229354590242204725076964403703770, 162517050635957303456506688761896458280],
  [303753568302518449534060518664321028260, -651876784151259224767030259332160514130, 406084229354590242204725076964403703770, 162517050635957303456506688761896458280],
  [-651876784151259224767030259332160514130, -651876784151259224767030259332160514130, 406084229354590242204725076964403703770, 162517050635957303456506688761896458280],
  [-905522428320461249329775609245774763950, 811044856640922498659551218491549527900, -828815443058680204934862757460140930780, 28581431014154463281085418946775972209],
  [811044856640922498659551218491549527900, -905522428320461249329775609245774763950, -828815443058680204934862757460140930780, 28581431014154463281085418946775972209],
  [-905522428320461249329775609245774763950, -905522428320461249329775609245774763950, -828815443058680204934862757460140930780, 28581431014154463281085418946775972209],
  [-905522428320461249329775609245774763950, 811044856640922498659551218491549527900, 828815443058680204934862757460140930780, 28581431014154463281085418946775972209],
  [811044856640922498659551218491549527900, -905522428320461249329775609245774763950, 828815443058680204934862757460140930780, 28581431014154463281085418946775972209],
  [-905522428320461249329775609245774763950, -905522428320461249329775609245774763950, 828815443058680204934862757460140930780, 28581431014154463281085418946775972209],
  [-680501472114822066964793931705261429180, 361002944229644133929587863410522858350, -965865166540654354486823717323697622450, 44572109393861233332081245114974812183],
  [361002944229644133929587863410522858350, -680501472114822066964793931705261429180, -965865166540654354486823717323697622450, 44572109393861233332081245114974812183],
  [-680501472114822066964793931705261429180, -680501472114822066964793931705261429180, -965865166540654354486823717323697622450, 44572109393861233332081245114974812183],
  [-680501472114822066964793931705261429180, 361002944229644133929587863410522858350, 965865166540654354486823717323697622450, 44572109393861233332081245114974812183],
  [361002944229644133929587863410522858350, -680501472114822066964793931705261429180, 965865166540654354486823717323697622450, 44572109393861233332081245114974812183],
  [-680501472114822066964793931705261429180, -680501472114822066964793931705261429180, 965865166540654354486823717323697622450, 44572109393861233332081245114974812183],
  [-474372398617517983084734689990985865800, 457196143601999957186820436299886612460, -577350269189625764509148780501957455650, 54590116363492292384362848950462321489],
  [457196143601999957186820436299886612460, -474372398617517983084734689990985865800, -577350269189625764509148780501957455650, 54590116363492292384362848950462321489],
  [-982823744984481974102085746308900746660, 457196143601999957186820436299886612460, -577350269189625764509148780501957455650, 54590116363492292384362848950462321489],
  [457196143601999957186820436299886612460, -982823744984481974102085746308900746660, -577350269189625764509148780501957455650, 54590116363492292384362848950462321489],
  [-982823744984481974102085746308900746660, -474372398617517983084734689990985865800, -577350269189625764509148780501957455650, 54590116363492292384362848950462321489],
  [-474372398617517983084734689990985865800, -982823744984481974102085746308900746660, -577350269189625764509148780501957455650, 54590116363492292384362848950462321489],
  [-474372398617517983084734689990985865800, 457196143601999957186820436299886612460, 577350269189625764509148780501957455650, 54590116363492292384362848950462321489],
  [457196143601999957186820436299886612460, -474372398617517983084734689990985865800, 577350269189625764509148780501957455650, 54590116363492292384362848950462321489],
  [-982823744984481974102085746308900746660, 457196143601999957186820436299886612460, 577350269189625764509148780501957455650, 54590116363492292384362848950462321489],
  [457196143601999957186820436299886612460, -982823744984481974102085746308900746660, 577350269189625764509148780501957455650, 54590116363492292384362848950462321489],
  [-982823744984481974102085746308900746660, -474372398617517983084734689990985865800, 577350269189625764509148780501957455650, 54590116363492292384362848950462321489],
  [-474372398617517983084734689990985865800, -982823744984481974102085746308900746660, 577350269189625764509148780501957455650, 54590116363492292384362848950462321489]]⟩

/-- rules/polyquad/expanded/pri/9-60.txt -/
def pri9 : RuleFile := ⟨9, 60, 40, [
  [-3333333333333333333333333333333333333300, -3333333333333333333333333333333333333300, 0, 1911479884462010850853704658442500373600],
  [-3333333333333333333333333333333333333300, -3333333333333333333333333333333333333300, -8758391587998776166077217190604240839400, 1060969195893273614653564550346218398000],
  [-3333333333333333333333333333333333333300, -3333333333333333333333333333333333333300, 8758391587998776166077217190604240839400, 1060969195893273614653564550346218398000],
  [-10699296586281549894456411507705393926, -9978601406827436900211087176984589212100, 0, 494624054418952236702797614875377624720],
  [-9978601406827436900211087176984589212100, -10699296586281549894456411507705393926, 0, 494624054418952236702797614875377624720],
  [-10699296586281549894456411507705393926, -10699296586281549894456411507705393926, 0, 494624054418952236702797614875377624720],
  [-1098649999149926796631144799730283716600, -7802700001700146406737710400539432566800, -5296335552060767569630073935273392566600, 1508079326127586037445782512894392174300],
  [-7802700001700146406737710400539432566800, -1098649999149926796631144799730283716600, -5296335552060767569630073935273392566600, 1508079326127586037445782512894392174300],
  [-1098649999149926796631144799730283716600, -1098649999149926796631144799730283716600, -5296335552060767569630073935273392566600, 1508079326127586037445782512894392174300],
  [-1098649999149926796631144799730283716600, -7802700001700146406737710400539432566800, 5296335552060767569630073935273392566600, 1508079326127586037445782512894392174300],
  [-7802700001700146406737710400539432566800, -1098649999149926796631144799730283716600, 5296335552060767569630073935273392566600, 1508079326127586037445782512894392174300],
  [-1098649999149926796631144799730283716600, -1098649999149926796631144799730283716600, 5296335552060767569630073935273392566600, 1508079326127586037445782512894392174300],
  [-5776911325789789568360791396494346490300, 1553822651579579136721582792988692980600, -3239768821687700516525082499859731454800, 933824697455384086461621002274845977400],
  [1553822651579579136721582792988692980600, -5776911325789789568360791396494346490300, -3239768821687700516525082499859731454800, 933824697455384086461621002274845977400],
  [-5776911325789789568360791396494346490300, -5776911325789789568360791396494346490300, -3239768821687700516525082499859731454800, 933824697455384086461621002274845977400],
  [-5776911325789789568360791396494346490300, 1553822651579579136721582792988692980600, 3239768821687700516525082499859731454800, 933824697455384086461621002274845977400],
  [1553822651579579136721582792988692980600, -5776911325789789568360791396494346490300, 3239768821687700516525082499859731454800, 933824697455384086461621002274845977400],
  [-5776911325789789568360791396494346490300, -5776911325789789568360791396494346490300, 3239768821687700516525082499859731454800, 933824697455384086461621002274845977400],
  [-9123150371170143523245067103413480901400, 8246300742340287046490134206826961802900, -4016516685707887210449942845937804944900, 383882863852064275703815656801555295100],
  [8246300742340287046490134206826961802900, -9123150371170143523245067103413480901400, -4016516685707887210449942845937804944900, 383882863852064275703815656801555295100],
  [-9123150371170143523245067103413480901400, -9123150371170143523245067103413480901400, -4016516685707887210449942845937804944900, 383882863852064275703815656801555295100],
  [-9123150371170143523245067103413480901400, 8246300742340287046490134206826961802900, 4016516685707887210449942845937804944900, 383882863852064275703815656801555295100],
  [8246300742340287046490134206826961802900, -9123150371170143523245067103413480901400, 4016516685707887210449942845937804944900, 383882863852064275703815656801555295100],
  [-9123150371170143523245067103413480901400, -9123150371170143523245067103413480901400, 4016516685707887210449942845937804944900, 383882863852064275703815656801555295100],
  [-345001366582662148616169511867660390400, -9309997266834675702767660976264679219200, -9677921254642105035410819146400981344000, 265284312023204338454640367100852636080],
  [-9309997266834675702767660976264679219200, -345001366582662148616169511867660390400, -9677921254642105035410819146400981344000, 265284312023204338454640367100852636080],
  [-345001366582662148616169511867660390400, -345001366582662148616169511867660390400, -9677921254642105035410819146400981344000, 265284312023204338454640367100852636080],
  [-345001366582662148616169511867660390400, -9309997266834675702767660976264679219200, 9677921254642105035410819146400981344000, 265284312023204338454640367100852636080],
  [-9309997266834675702767660976264679219200, -345001366582662148616169511867660390400, 9677921254642105035410819146400981344000, 265284312023204338454640367100852636080],
  [-345001366582662148616169511867660390400, -345001366582662148616169511867660390400, 9677921254642105035410819146400981344000, 265284312023204338454640367100852636080],
  [-6456435117766454460710959796587760834000, 2912870235532908921421919593175521668100, -8907817404569706657838352830206414398900, 667199425734484070073002965775857024640],
  [2912870235532908921421919593175521668100, -6456435117766454460710959796587760834000, -8907817404569706657838352830206414398900, 667199425734484070073002965775857024640],
  [-6456435117766454460710959796587760834000, -6456435117766454460710959796587760834000, -8907817404569706657838352830206414398900, 667199425734484070073002965775857024640],
  [-6456435117766454460710959796587760834000, 2912870235532908921421919593175521668100, 8907817404569706657838352830206414398900, 667199425734484070073002965775857024640],
  [2912870235532908921421919593175521668100, -6456435117766454460710959796587760834000, 8907817404569706657838352830206414398900, 667199425734484070073002965775857024640],
  [-6456435117766454460710959796587760834000, -6456435117766454460710959796587760834000, 8907817404569706657838352830206414398900, 667199425734484070073002965775857024640],
  [-9075376391781123469010349498584404303900, 8150752783562246938020698997168808607800, -9577062038929269606887790227035291939000, 121311738364071489442704190308586605580],
  [8150752783562246938020698997168808607800, -9075376391781123469010349498584404303900, -9577062038929269606887790227035291939000, 121311738364071489442704190308586605580],
  [-9075376391781123469010349498584404303900, -9075376391781123469010349498584404303900, -9577062038929269606887790227035291939000, 121311738364071489442704190308586605580],
  [-9075376391781123469010349498584404303900, 8150752783562246938020698997168808607800, 9577062038929269606887790227035291939000, 121311738364071489442704190308586605580],
  [8150752783562246938020698997168808607800, -9075376391781123469010349498584404303900, 9577062038929269606887790227035291939000, 121311738364071489442704190308586605580],
  [-9075376391781123469010349498584404303900, -9075376391781123469010349498584404303900, 9577062038929269606887790227035291939000, 121311738364071489442704190308586605580],
  [-8812659805132687644481958736298647567500, 4493905391059989572204063186698506446400, 0, 876911613128390840875807905089462618950],
  [4493905391059989572204063186698506446400, -8812659805132687644481958736298647567500, 0, 876911613128390840875807905089462618950],
  [-5681245585927301927722104450399858878900, 4493905391059989572204063186698506446400, 0, 876911613128390840875807905089462618950],
  [4493905391059989572204063186698506446400, -5681245585927301927722104450399858878900, 0, 876911613128390840875807905089462618950],
  [-5681245585927301927722104450399858878900, -8812659805132687644481958736298647567500, 0, 876911613128390840875807905089462618950],
  [-8812659805132687644481958736298647567500, -5681245585927301927722104450399858878900, 0, 876911613128390840875807905089462618950],
  [-5517449084932878730050536869300298641000, 4968109191320773992263958422732254880300, -6952205538716347869898119674418739937500, 495312141698622864915543816230467997000],
  [4968109191320773992263958422732254880300, -5517449084932878730050536869300298641000, -6952205538716347869898119674418739937500, 495312141698622864915543816230467997000],
  [-9450660106387895262213421553431956239300, 4968109191320773992263958422732254880300, -6952205538716347869898119674418739937500, 495312141698622864915543816230467997000],
  [4968109191320773992263958422732254880300, -9450660106387895262213421553431956239300, -6952205538716347869898119674418739937500, 495312141698622864915543816230467997000],
  [-9450660106387895262213421553431956239300, -5517449084932878730050536869300298641000, -6952205538716347869898119674418739937500, 495312141698622864915543816230467997000],
  [-5517449084932878730050536869300298641000, -9450660106387895262213421553431956239300, -6952205538716347869898119674418739937500, 495312141698622864915543816230467997000],
  [-5517449084932878730050536869300298641000, 4968109191320773992263958422732254880300, 6952205538716347869898119674418739937500, 495312141698622864915543816230467997000],
  [4968109191320773992263958422732254880300, -5517449084932878730050536869300298641000, 6952205538716347869898119674418739937500, 495312141698622864915543816230467997000],
  [-9450660106387895262213421553431956239300, 4968109191320773992263958422732254880300, 6952205538716347869898119674418739937500, 495312141698622864915543816230467997000],
  [4968109191320773992263958422732254880300, -9450660106387895262213421553431956239300, 6952205538716347869898119674418739937500, 495312141698622864915543816230467997000],
  [-9450660106387895262213421553431956239300, -5517449084932878730050536869300298641000, 6952205538716347869898119674418739937500, 495312141698622864915543816230467997000],
  [-5517449084932878730050536869300298641000, -9450660106387895262213421553431956239300, 6952205538716347869898119674418739937500, 495312141698622864915543816230467997000]]⟩

/-- rules/polyquad/expanded/pri/10-85.txt -/
def pri10 : RuleFile := ⟨10, 85, 40, [
  [-3333333333333333333333333333333333333300, -3333333333333333333333333333333333333300, -10000000000000000000000000000000000000000, 380431080842407630095722711191633702930],
  [-3333333333333333333333333333333333333300, -3333333333333333333333333333333333333300, 10000000000000000000000000000000000000000, 380431080842407630095722711191633702930],
  [-3333333333333333333333333333333333333300, -3333333333333333333333333333333333333300, -2838364013985715684657060577249329797000, 1280492064325578776144572784945171432800],
  [-3333333333333333333333333333333333333300, -3333333333333333333333333333333333333300, 2838364013985715684657060577249329797000, 1280492064325578776144572784945171432800],
  [-5850992500215657680448466377669467117800, 1701985000431315360896932755338934235700, 0, 454231584801369738562199942218311138860],
  [1701985000431315360896932755338934235700, -5850992500215657680448466377669467117800, 0, 454231584801369738562199942218311138860],
  [-5850992500215657680448466377669467117800, -5850992500215657680448466377669467117800, 0, 454231584801369738562199942218311138860],
  [-877452742638364680123440926318344586240, -8245094514723270639753118147363310827500, 0, 1207866181003462956629216813082174197800],
  [-8245094514723270639753118147363310827500, -877452742638364680123440926318344586240, 0, 1207866181003462956629216813082174197800],
  [-877452742638364680123440926318344586240, -877452742638364680123440926318344586240, 0, 1207866181003462956629216813082174197800],
  [-8333614956998945087962261582758522269800, 6667229913997890175924523165517044539700, 0, 705236380016112908335492217219097963840],
  [6667229913997890175924523165517044539700, -8333614956998945087962261582758522269800, 0, 705236380016112908335492217219097963840],
  [-8333614956998945087962261582758522269800, -8333614956998945087962261582758522269800, 0, 705236380016112908335492217219097963840],
  [-5856672957203378323093188673899160741200, 1713345914406756646186377347798321482400, -4782902609003681397024798511636626521700, 1043531813043403323526565501986454109800],
  [1713345914406756646186377347798321482400, -5856672957203378323093188673899160741200, -4782902609003681397024798511636626521700, 1043531813043403323526565501986454109800],
  [-5856672957203378323093188673899160741200, -5856672957203378323093188673899160741200, -4782902609003681397024798511636626521700, 1043531813043403323526565501986454109800],
  [-5856672957203378323093188673899160741200, 1713345914406756646186377347798321482400, 4782902609003681397024798511636626521700, 1043531813043403323526565501986454109800],
  [1713345914406756646186377347798321482400, -5856672957203378323093188673899160741200, 4782902609003681397024798511636626521700, 1043531813043403323526565501986454109800],
  [-5856672957203378323093188673899160741200, -5856672957203378323093188673899160741200, 4782902609003681397024798511636626521700, 1043531813043403323526565501986454109800],
  [-7140176069143183599662938693125307966700, 4280352138286367199325877386250615933300, -8520666639991396363392553699935906628000, 453530497703141602109252077182219604060],
  [4280352138286367199325877386250615933300, -7140176069143183599662938693125307966700, -8520666639991396363392553699935906628000, 453530497703141602109252077182219604060],
  [-7140176069143183599662938693125307966700, -7140176069143183599662938693125307966700, -8520666639991396363392553699935906628000, 453530497703141602109252077182219604060],
  [-7140176069143183599662938693125307966700, 4280352138286367199325877386250615933300, 8520666639991396363392553699935906628000, 453530497703141602109252077182219604060],
  [4280352138286367199325877386250615933300, -7140176069143183599662938693125307966700, 8520666639991396363392553699935906628000, 453530497703141602109252077182219604060],
  [-7140176069143183599662938693125307966700, -7140176069143183599662938693125307966700, 8520666639991396363392553699935906628000, 453530497703141602109252077182219604060],
  [-59182255205082649355625415633530872236, -9881635489589834701288749168732938255500, -6274901116479534509502859595968358912100, 281265736549539435498018736016413051540],
  [-9881635489589834701288749168732938255500, -59182255205082649355625415633530872236, -6274901116479534509502859595968358912100, 281265736549539435498018736016413051540],
  [-59182255205082649355625415633530872236, -59182255205082649355625415633530872236, -6274901116479534509502859595968358912100, 281265736549539435498018736016413051540],
  [-59182255205082649355625415633530872236, -9881635489589834701288749168732938255500, 6274901116479534509502859595968358912100, 281265736549539435498018736016413051540],
  [-9881635489589834701288749168732938255500, -59182255205082649355625415633530872236, 6274901116479534509502859595968358912100, 281265736549539435498018736016413051540],
  [-59182255205082649355625415633530872236, -59182255205082649355625415633530872236, 6274901116479534509502859595968358912100, 281265736549539435498018736016413051540],
  [-1444350802930157971424273192794833344500, -7111298394139684057151453614410333311100, -7689718825529410467272259922103079176800, 973000675147425190668304509470920453500],
  [-7111298394139684057151453614410333311100, -1444350802930157971424273192794833344500, -7689718825529410467272259922103079176800, 973000675147425190668304509470920453500],
  [-1444350802930157971424273192794833344500, -1444350802930157971424273192794833344500, -7689718825529410467272259922103079176800, 973000675147425190668304509470920453500],
  [-1444350802930157971424273192794833344500, -7111298394139684057151453614410333311100, 7689718825529410467272259922103079176800, 973000675147425190668304509470920453500],
  [-7111298394139684057151453614410333311100, -1444350802930157971424273192794833344500, 7689718825529410467272259922103079176800, 973000675147425190668304509470920453500],
  [-1444350802930157971424273192794833344500, -1444350802930157971424273192794833344500, 7689718825529410467272259922103079176800, 973000675147425190668304509470920453500],
  [-9265506210608923863304080828606246579900, 8531012421217847726608161657212493159800, -9453618559217570077140104614332747845300, 75697428403356175236518069263715176348],
  [8531012421217847726608161657212493159800, -9265506210608923863304080828606246579900, -9453618559217570077140104614332747845300, 75697428403356175236518069263715176348],
  [-9265506210608923863304080828606246579900, -9265506210608923863304080828606246579900, -9453618559217570077140104614332747845300, 75697428403356175236518069263715176348],
  [-9265506210608923863304080828606246579900, 8531012421217847726608161657212493159800, 9453618559217570077140104614332747845300, 75697428403356175236518069263715176348],
  [8531012421217847726608161657212493159800, -9265506210608923863304080828606246579900, 9453618559217570077140104614332747845300, 75697428403356175236518069263715176348],
  [-9265506210608923863304080828606246579900, -9265506210608923863304080828606246579900, 9453618559217570077140104614332747845300, 75697428403356175236518069263715176348],
  [-9962147608019012032586064805406543835200, 9958200819046526533255539008262377750400, 0, 31208636401827010315915455956052660089],
  [9958200819046526533255539008262377750400, -9962147608019012032586064805406543835200, 0, 31208636401827010315915455956052660089],
  [-9996053211027514500669474202855833915200, 9958200819046526533255539008262377750400, 0, 31208636401827010315915455956052660089],
  [9958200819046526533255539008262377750400, -9996053211027514500669474202855833915200, 0, 31208636401827010315915455956052660089],
  [-9996053211027514500669474202855833915200, -9962147608019012032586064805406543835200, 0, 31208636401827010315915455956052660089],
  [-9962147608019012032586064805406543835200, -9996053211027514500669474202855833915200, 0, 31208636401827010315915455956052660089],
  [-9134206324410161800140708233923844949100, 3255064864791910018042153093720481789000, -9423634674508374948262730095338746622100, 241835406498066483480024411543576468580],
  [3255064864791910018042153093720481789000, -9134206324410161800140708233923844949100, -9423634674508374948262730095338746622100, 241835406498066483480024411543576468580],
  [-4120858540381748217901444859796636839900, 3255064864791910018042153093720481789000, -9423634674508374948262730095338746622100, 241835406498066483480024411543576468580],
  [3255064864791910018042153093720481789000, -4120858540381748217901444859796636839900, -9423634674508374948262730095338746622100, 241835406498066483480024411543576468580],
  [-4120858540381748217901444859796636839900, -9134206324410161800140708233923844949100, -9423634674508374948262730095338746622100, 241835406498066483480024411543576468580],
  [-9134206324410161800140708233923844949100, -4120858540381748217901444859796636839900, -9423634674508374948262730095338746622100, 241835406498066483480024411543576468580],
  [-9134206324410161800140708233923844949100, 3255064864791910018042153093720481789000, 9423634674508374948262730095338746622100, 241835406498066483480024411543576468580],
  [3255064864791910018042153093720481789000, -9134206324410161800140708233923844949100, 9423634674508374948262730095338746622100, 241835406498066483480024411543576468580],
  [-4120858540381748217901444859796636839900, 3255064864791910018042153093720481789000, 9423634674508374948262730095338746622100, 241835406498066483480024411543576468580],
  [3255064864791910018042153093720481789000, -4120858540381748217901444859796636839900, 9423634674508374948262730095338746622100, 241835406498066483480024411543576468580],
  [-4120858540381748217901444859796636839900, -9134206324410161800140708233923844949100, 9423634674508374948262730095338746622100, 241835406498066483480024411543576468580],
  [-9134206324410161800140708233923844949100, -4120858540381748217901444859796636839900, 9423634674508374948262730095338746622100, 241835406498066483480024411543576468580],
  [-9234169616555928413056660388640430162000, 3751314683567145638990078139096576143800, -3353361086673943544611649813126514159900, 546031087366914792653112282139055660300],
  [3751314683567145638990078139096576143800, -9234169616555928413056660388640430162000, -3353361086673943544611649813126514159900, 546031087366914792653112282139055660300],
  [-4517145067011217225933417750456145981700, 3751314683567145638990078139096576143800, -3353361086673943544611649813126514159900, 546031087366914792653112282139055660300],
  [3751314683567145638990078139096576143800, -4517145067011217225933417750456145981700, -3353361086673943544611649813126514159900, 546031087366914792653112282139055660300],
  [-4517145067011217225933417750456145981700, -9234169616555928413056660388640430162000, -3353361086673943544611649813126514159900, 546031087366914792653112282139055660300],
  [-9234169616555928413056660388640430162000, -4517145067011217225933417750456145981700, -3353361086673943544611649813126514159900, 546031087366914792653112282139055660300],
  [-9234169616555928413056660388640430162000, 3751314683567145638990078139096576143800, 3353361086673943544611649813126514159900, 546031087366914792653112282139055660300],
  [3751314683567145638990078139096576143800, -9234169616555928413056660388640430162000, 3353361086673943544611649813126514159900, 546031087366914792653112282139055660300],
  [-4517145067011217225933417750456145981700, 3751314683567145638990078139096576143800, 3353361086673943544611649813126514159900, 546031087366914792653112282139055660300],
  [3751314683567145638990078139096576143800, -4517145067011217225933417750456145981700, 3353361086673943544611649813126514159900, 546031087366914792653112282139055660300],
  [-4517145067011217225933417750456145981700, -9234169616555928413056660388640430162000, 3353361086673943544611649813126514159900, 546031087366914792653112282139055660300],
  [-9234169616555928413056660388640430162000, -4517145067011217225933417750456145981700, 3353361086673943544611649813126514159900, 546031087366914792653112282139055660300],
  [-9679212127455331072210884207150006464500, 7405272172787379755407983454641028177700, -6143235018770774101573254751971934390300, 247695385194104886601132972226783662360],
  [7405272172787379755407983454641028177700, -9679212127455331072210884207150006464500, -6143235018770774101573254751971934390300, 247695385194104886601132972226783662360],
  [-7726060045332048683197099247491021713300, 7405272172787379755407983454641028177700, -6143235018770774101573254751971934390300, 247695385194104886601132972226783662360],
  [7405272172787379755407983454641028177700, -7726060045332048683197099247491021713300, -6143235018770774101573254751971934390300, 247695385194104886601132972226783662360],
  [-7726060045332048683197099247491021713300, -9679212127455331072210884207150006464500, -6143235018770774101573254751971934390300, 247695385194104886601132972226783662360],
  [-9679212127455331072210884207150006464500, -7726060045332048683197099247491021713300, -6143235018770774101573254751971934390300, 247695385194104886601132972226783662360],
  [-9679212127455331072210884207150006464500, 7405272172787379755407983454641028177700, 6143235018770774101573254751971934390300, 247695385194104886601132972226783662360],
  [7405272172787379755407983454641028177700, -9679212127455331072210884207150006464500, 6143235018770774101573254751971934390300, 247695385194104886601132972226783662360],
  [-7726060045332048683197099247491021713300, 7405272172787379755407983454641028177700, 6143235018770774101573254751971934390300, 247695385194104886601132972226783662360],
  [7405272172787379755407983454641028177700, -7726060045332048683197099247491021713300, 6143235018770774101573254751971934390300, 247695385194104886601132972226783662360],
  [-7726060045332048683197099247491021713300, -9679212127455331072210884207150006464500, 6143235018770774101573254751971934390300, 247695385194104886601132972226783662360],
  [-9679212127455331072210884207150006464500, -7726060045332048683197099247491021713300, 6143235018770774101573254751971934390300, 247695385194104886601132972226783662360]]⟩

/-- The files in rules/polyquad/expanded/pri, in the order of their strengths. -/
def priFiles : List RuleFile := [pri1, pri2, pri3, pri4, pri5, pri6, pri7, pri8, pri9, pri10]

end Fenris.ShippedRules
