import Verif.Model.Lobatto.Basic
/-! # Rules of fenris-quadrature/src/codegen/gauss_lobatto_rules.rs -/
set_option autoImplicit false

namespace Fenris.Lobatto

/-- `gauss_lobatto_128` (gauss_lobatto_rules.rs:1476-1738). -/
def lobatto128 : Table where
  weights := [
    1230314960626287500000000000, 7583323252569179000000000000, 13652731521129327000000000000, 19710666763904300000000000000, 25756199130389910000000000000, 31785986553974003000000000000,
    37796440011665234000000000000, 43783932197282380000000000000, 49744836146399730000000000000, 55675536453883380000000000000, 61572434253931820000000000000, 67431950412167405000000000000,
    73250528109361050000000000000, 79024635184293780000000000000, 84750766366986920000000000000, 90425445452118840000000000000, 96045227434095550000000000000,
    101606700612414840000000000000, 107106488671140660000000000000, 112541252733588120000000000000, 117907693392443470000000000000, 123202552714883150000000000000,
    128422616221733080000000000000, 133564714839841370000000000000, 138625726826653620000000000000, 143602579665794690000000000000, 148492251932722760000000000000,
    153291775129244000000000000000, 157998235485730320000000000000, 162608775730323060000000000000, 167120596823561350000000000000, 171530959657709500000000000000,
    175837186719840800000000000000, 180036663717212140000000000000, 184126841164547750000000000000, 188105235931793970000000000000, 191969432751625100000000000000,
    195717085685805800000000000000, 199345919549319930000000000000, 202853731291786630000000000000, 206238391334777600000000000000, 209497844864722260000000000000,
    212630113080467460000000000000, 215633294394497470000000000000, 218505565587422820000000000000, 221245182914888080000000000000, 223850483166121270000000000000,
    226319884673743950000000000000, 228651888273933700000000000000, 230845078216565800000000000000, 232898123024792470000000000000, 234809776303256740000000000000,
    236578877494848270000000000000, 238204352585274300000000000000, 239685214755071020000000000000, 241020564978708800000000000000, 242209592570349560000000000000,
    243251575676088140000000000000, 244145881712104770000000000000, 244891967748767020000000000000, 245489380840180770000000000000, 245937758299250100000000000000,
    246236827917810500000000000000, 246386408131864900000000000000, 246386408131859040000000000000, 246236827917809470000000000000, 245937758299255700000000000000,
    245489380840181460000000000000, 244891967748760400000000000000, 244145881712095440000000000000, 243251575676087500000000000000, 242209592570345950000000000000,
    241020564978710470000000000000, 239685214755071400000000000000, 238204352585277400000000000000, 236578877494840200000000000000, 234809776303256900000000000000,
    232898123024791800000000000000, 230845078216570520000000000000, 228651888273928120000000000000, 226319884673749950000000000000, 223850483166128380000000000000,
    221245182914888000000000000000, 218505565587427700000000000000, 215633294394493900000000000000, 212630113080473150000000000000, 209497844864728850000000000000,
    206238391334773240000000000000, 202853731291795000000000000000, 199345919549326970000000000000, 195717085685795070000000000000, 191969432751620800000000000000,
    188105235931785750000000000000, 184126841164540800000000000000, 180036663717205400000000000000, 175837186719834500000000000000, 171530959657717750000000000000,
    167120596823556600000000000000, 162608775730333900000000000000, 157998235485739200000000000000, 153291775129241560000000000000, 148492251932729800000000000000,
    143602579665792520000000000000, 138625726826640920000000000000, 133564714839833950000000000000, 128422616221727480000000000000, 123202552714886720000000000000,
    117907693392446800000000000000, 112541252733586870000000000000, 107106488671142150000000000000, 101606700612412780000000000000, 96045227434085770000000000000,
    90425445452116380000000000000, 84750766366988900000000000000, 79024635184294580000000000000, 73250528109350820000000000000, 67431950412177980000000000000, 61572434253935100000000000000,
    55675536453898150000000000000, 49744836146391380000000000000, 43783932197285530000000000000, 37796440011656778000000000000, 31785986553977410000000000000, 25756199130394780000000000000,
    19710666763900794000000000000, 13652731521135184000000000000, 7583323252573513000000000000, 1230314960629715800000000000]
  points := [
    -10000000000000000000000000000000, -9995484477835951000000000000000, -9984865268374960000000000000000, -9968182654877111000000000000000, -9945448056434174000000000000000,
    -9916675503127870000000000000000, -9881882527680976000000000000000, -9841090276890168000000000000000, -9794323526166568000000000000000, -9741610672663592000000000000000,
    -9682983720981175000000000000000, -9618478264951209000000000000000, -9548133466584625000000000000000, -9471992032572114000000000000000, -9390100188503108000000000000000,
    -9302507650884022000000000000000, -9209267597003348000000000000000, -9110436632676933000000000000000, -9006074757901081000000000000000, -8896245330438652000000000000000,
    -8781015027362633000000000000000, -8660453804582091000000000000000, -8534634854375942000000000000000, -8403634560960813000000000000000, -8267532454120374000000000000000,
    -8126411160924489000000000000000, -7980356355567650000000000000000, -7829456707357310000000000000000, -7673803826883636000000000000000, -7513492210403541000000000000000,
    -7348619182472713000000000000000, -7179284836860547000000000000000, -7005591975783789000000000000000, -6827646047495923000000000000000, -6645555082270056000000000000000,
    -6459429626814290000000000000000, -6269382677159341000000000000000, -6075529610059149000000000000000, -5877988112946186000000000000000, -5676878112483930000000000000000,
    -5472321701759877000000000000000, -5264443066163365000000000000000, -5053368407993146000000000000000, -4839225869840482000000000000000, -4622145456794309000000000000000,
    -4402258957515668000000000000000, -4179699864229371500000000000000, -3954603291681395600000000000000, -3727105895111244600000000000000, -3497345787289145600000000000000,
    -3265462454668320000000000000000, -3031596672703307000000000000000, -2795890420385756000000000000000, -2558486794049570400000000000000, -2319529920497645000000000000000,
    -2079164869503100600000000000000, -1837537565737976700000000000000, -1594794700182991000000000000000, -1351083641071946200000000000000, -1106552344425133500000000000000,
    -861349264225794700000000000000, -615623262294284800000000000000, -369523517914687200000000000000, -123199437268621810000000000000, 123199437268619600000000000000,
    369523517914688300000000000000, 615623262294288100000000000000, 861349264225795800000000000000, 1106552344425135700000000000000, 1351083641071946200000000000000,
    1594794700182993200000000000000, 1837537565737983300000000000000, 2079164869503099500000000000000, 2319529920497647200000000000000, 2558486794049577000000000000000,
    2795890420385762600000000000000, 3031596672703310600000000000000, 3265462454668325300000000000000, 3497345787289152000000000000000, 3727105895111248000000000000000,
    3954603291681400000000000000000, 4179699864229381400000000000000, 4402258957515675600000000000000, 4622145456794314300000000000000, 4839225869840491000000000000000,
    5053368407993154000000000000000, 5264443066163369000000000000000, 5472321701759878000000000000000, 5676878112483932000000000000000, 5877988112946192000000000000000,
    6075529610059149000000000000000, 6269382677159343000000000000000, 6459429626814294000000000000000, 6645555082270060000000000000000, 6827646047495928000000000000000,
    7005591975783794000000000000000, 7179284836860552000000000000000, 7348619182472720000000000000000, 7513492210403546000000000000000, 7673803826883641000000000000000,
    7829456707357313000000000000000, 7980356355567653000000000000000, 8126411160924487000000000000000, 8267532454120377000000000000000, 8403634560960818000000000000000,
    8534634854375946000000000000000, 8660453804582096000000000000000, 8781015027362639000000000000000, 8896245330438660000000000000000, 9006074757901087000000000000000,
    9110436632676935000000000000000, 9209267597003356000000000000000, 9302507650884032000000000000000, 9390100188503113000000000000000, 9471992032572121000000000000000,
    9548133466584630000000000000000, 9618478264951216000000000000000, 9682983720981185000000000000000, 9741610672663599000000000000000, 9794323526166572000000000000000,
    9841090276890169000000000000000, 9881882527680981000000000000000, 9916675503127873000000000000000, 9945448056434174000000000000000, 9968182654877115000000000000000,
    9984865268374962000000000000000, 9995484477835951000000000000000, 10000000000000000000000000000000]

end Fenris.Lobatto
