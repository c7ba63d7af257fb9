import Verif.Model.Lobatto.Basic
/-! # Rules of fenris-quadrature/src/codegen/gauss_lobatto_rules.rs -/
set_option autoImplicit false

namespace Fenris.Lobatto

/-- `gauss_lobatto_2` (gauss_lobatto_rules.rs:6-16). -/
def lobatto2 : Table where
  weights := [
    9999999999999998000000000000000, 9999999999999998000000000000000]
  points := [
    -10000000000000000000000000000000, 10000000000000000000000000000000]

/-- `gauss_lobatto_3` (gauss_lobatto_rules.rs:19-31). -/
def lobatto3 : Table where
  weights := [
    3333333333333347600000000000000, 13333333333333315000000000000000, 3333333333333335400000000000000]
  points := [
    -9999999999999978000000000000000, 6661338147750939, 9999999999999999000000000000000]

/-- `gauss_lobatto_4` (gauss_lobatto_rules.rs:34-48). -/
def lobatto4 : Table where
  weights := [
    1666666666666668500000000000000, 8333333333333333000000000000000, 8333333333333330000000000000000, 1666666666666663200000000000000]
  points := [
    -9999999999999978000000000000000, -4472135954999572000000000000000, 4472135954999587600000000000000, 10000000000000000000000000000000]

/-- `gauss_lobatto_5` (gauss_lobatto_rules.rs:51-67). -/
def lobatto5 : Table where
  weights := [
    999999999999992000000000000000, 5444444444444464000000000000000, 7111111111111109000000000000000, 5444444444444436000000000000000, 999999999999996400000000000000]
  points := [
    -9999999999999982000000000000000, -6546536707079755000000000000000, 6661338147750939, 6546536707079775000000000000000, 10000000000000000000000000000000]

/-- `gauss_lobatto_6` (gauss_lobatto_rules.rs:70-88). -/
def lobatto6 : Table where
  weights := [
    666666666666648300000000000000, 3784749562978500000000000000000, 5548583770354855000000000000000, 5548583770354855000000000000000, 3784749562978476600000000000000,
    666666666666665100000000000000]
  points := [
    -9999999999999998000000000000000, -7650553239294640000000000000000, -2852315164806451500000000000000, 2852315164806456000000000000000, 7650553239294646000000000000000,
    10000000000000000000000000000000]

/-- `gauss_lobatto_7` (gauss_lobatto_rules.rs:91-111). -/
def lobatto7 : Table where
  weights := [
    476190476190481850000000000000, 2768260473615666000000000000000, 4317453812098624000000000000000, 4876190476190478000000000000000, 4317453812098620600000000000000,
    2768260473615652400000000000000, 476190476190474300000000000000]
  points := [
    -9999999999999976000000000000000, -8302238962785637000000000000000, -4688487934707133000000000000000, 2220446049250313, 4688487934707150600000000000000, 8302238962785671000000000000000,
    10000000000000000000000000000000]

/-- `gauss_lobatto_8` (gauss_lobatto_rules.rs:114-136). -/
def lobatto8 : Table where
  weights := [
    357142857142853200000000000000, 2107042271435041500000000000000, 3411226924835074000000000000000, 4124587946587030500000000000000, 4124587946587040500000000000000,
    3411226924835042400000000000000, 2107042271435060000000000000000, 357142857142855250000000000000]
  points := [
    -9999999999999987000000000000000, -8717401485096059000000000000000, -5917001814331417000000000000000, -2092992179024786300000000000000, 2092992179024796300000000000000,
    5917001814331423000000000000000, 8717401485096068000000000000000, 10000000000000000000000000000000]

/-- `gauss_lobatto_9` (gauss_lobatto_rules.rs:139-163). -/
def lobatto9 : Table where
  weights := [
    277777777777776400000000000000, 1654953615608063000000000000000, 2745387125001611500000000000000, 3464285109730465000000000000000, 3715192743764182000000000000000,
    3464285109730452000000000000000, 2745387125001616000000000000000, 1654953615608060000000000000000, 277777777777776650000000000000]
  points := [
    -9999999999999984000000000000000, -8997579954114587000000000000000, -6771862795107362000000000000000, -3631174638261774000000000000000, 0, 3631174638261786000000000000000,
    6771862795107383000000000000000, 8997579954114601000000000000000, 10000000000000000000000000000000]

/-- `gauss_lobatto_10` (gauss_lobatto_rules.rs:166-192). -/
def lobatto10 : Table where
  weights := [
    222222222222208460000000000000, 1333059908510714500000000000000, 2248893420631292000000000000000, 2920426836796824000000000000000, 3275397611838946600000000000000,
    3275397611838970500000000000000, 2920426836796830600000000000000, 2248893420631279400000000000000, 1333059908510701700000000000000, 222222222222221330000000000000]
  points := [
    -9999999999999996000000000000000, -9195339081664577000000000000000, -7387738651055042000000000000000, -4779249498104438700000000000000, -1652789576663871200000000000000,
    1652789576663882300000000000000, 4779249498104448700000000000000, 7387738651055051000000000000000, 9195339081664586000000000000000, 10000000000000000000000000000000]

/-- `gauss_lobatto_11` (gauss_lobatto_rules.rs:195-223). -/
def lobatto11 : Table where
  weights := [
    181818181818160820000000000000, 1096122732669929500000000000000, 1871698817803077000000000000000, 2480481042640304800000000000000, 2868791247790077000000000000000,
    3002175954556917000000000000000, 2868791247790069000000000000000, 2480481042640292000000000000000, 1871698817803052500000000000000, 1096122732669940300000000000000,
    181818181818181460000000000000]
  points := [
    -10000000000000004000000000000000, -9340014304080582000000000000000, -7844834736631436000000000000000, -5652353269962056000000000000000, -2957581355869381000000000000000,
    -4440892098500626, 2957581355869396400000000000000, 5652353269962049000000000000000, 7844834736631443000000000000000, 9340014304080590000000000000000, 10000000000000000000000000000000]

/-- `gauss_lobatto_12` (gauss_lobatto_rules.rs:226-256). -/
def lobatto12 : Table where
  weights := [
    151515151515138110000000000000, 916845174131939600000000000000, 1579747055643710200000000000000, 2125084177610234400000000000000, 2512756031992030000000000000000,
    2714052409106943500000000000000, 2714052409106962000000000000000, 2512756031992021700000000000000, 2125084177610207500000000000000, 1579747055643698800000000000000,
    916845174131955500000000000000, 151515151515151540000000000000]
  points := [
    -10000000000000004000000000000000, -9448992722228817000000000000000, -8192793216440062000000000000000, -6328761530318598000000000000000, -3995309409653493600000000000000,
    -1365529328549279800000000000000, 1365529328549281000000000000000, 3995309409653491400000000000000, 6328761530318610000000000000000, 8192793216440066000000000000000,
    9448992722228822000000000000000, 10000000000000000000000000000000]

/-- `gauss_lobatto_13` (gauss_lobatto_rules.rs:259-291). -/
def lobatto13 : Table where
  weights := [
    128205128205126380000000000000, 778016867468169400000000000000, 1349819266896084800000000000000, 1836468652035522000000000000000, 2207677935661098000000000000000,
    2440157903066784400000000000000, 2519308493334474500000000000000, 2440157903066755000000000000000, 2207677935661088400000000000000, 1836468652035505900000000000000,
    1349819266896083200000000000000, 778016867468185700000000000000, 128205128205129000000000000000]
  points := [
    -10000000000000000000000000000000, -9533098466421634000000000000000, -8463475646518714000000000000000, -6861884690817577000000000000000, -4829098210913356000000000000000,
    -2492869301062390400000000000000, 2220446049250313, 2492869301062397000000000000000, 4829098210913362000000000000000, 6861884690817573000000000000000, 8463475646518723000000000000000,
    9533098466421640000000000000000, 10000000000000000000000000000000]

/-- `gauss_lobatto_14` (gauss_lobatto_rules.rs:294-328). -/
def lobatto14 : Table where
  weights := [
    109890109890115480000000000000, 668372844976799800000000000000, 1165866558987124100000000000000, 1600218517629538000000000000000, 1948261493734167700000000000000,
    2191262530097696500000000000000, 2316127944684555000000000000000, 2316127944684556700000000000000, 2191262530097709000000000000000, 1948261493734173300000000000000,
    1600218517629522000000000000000, 1165866558987119500000000000000, 668372844976812000000000000000, 109890109890111040000000000000]
  points := [
    -9999999999999996000000000000000, -9599350452672597000000000000000, -8678010538303467000000000000000, -7288685990913253000000000000000, -5506394029286479000000000000000,
    -3427240133427136300000000000000, -1163318688837034000000000000000, 1163318688837043900000000000000, 3427240133427134000000000000000, 5506394029286474000000000000000,
    7288685990913264000000000000000, 8678010538303473000000000000000, 9599350452672610000000000000000, 10000000000000000000000000000000]

/-- `gauss_lobatto_15` (gauss_lobatto_rules.rs:331-367). -/
def lobatto15 : Table where
  weights := [
    95238095238110060000000000000, 580298930285990740000000000000, 1016600703257168800000000000000, 1405116998024276700000000000000, 1727896472536029600000000000000,
    1969872359646137300000000000000, 2119735859268220600000000000000, 2170481163488151000000000000000, 2119735859268213300000000000000, 1969872359646134000000000000000,
    1727896472535999000000000000000, 1405116998024282000000000000000, 1016600703257178700000000000000, 580298930286011340000000000000, 95238095238095540000000000000]
  points := [
    -9999999999999987000000000000000, -9652459265038373000000000000000, -8850820442229750000000000000000, -7635196899518146000000000000000, -6062532054698446000000000000000,
    -4206380547136723000000000000000, -2153539553637937600000000000000, 2220446049250313, 2153539553637943000000000000000, 4206380547136729000000000000000, 6062532054698461000000000000000,
    7635196899518154000000000000000, 8850820442229764000000000000000, 9652459265038388000000000000000, 10000000000000000000000000000000]

/-- `gauss_lobatto_16` (gauss_lobatto_rules.rs:370-408). -/
def lobatto16 : Table where
  weights := [
    83333333333342130000000000000, 508503610059191300000000000000, 893936973259296800000000000000, 1242553821325164500000000000000, 1540269808071646500000000000000,
    1774919133917042300000000000000, 1936900238252022300000000000000, 2019583081782300700000000000000, 2019583081782291000000000000000, 1936900238252034800000000000000,
    1774919133917032300000000000000, 1540269808071652000000000000000, 1242553821325146500000000000000, 893936973259308700000000000000, 508503610059201700000000000000,
    83333333333333820000000000000]
  points := [
    -9999999999999991000000000000000, -9695680462702181000000000000000, -8992005330934716000000000000000, -7920082918618154000000000000000, -6523887028824933000000000000000,
    -4860594218871370000000000000000, -2998304689007629000000000000000, -1013262735219491200000000000000, 1013262735219500000000000000000, 2998304689007640400000000000000,
    4860594218871374700000000000000, 6523887028824935000000000000000, 7920082918618151000000000000000, 8992005330934721000000000000000, 9695680462702181000000000000000,
    10000000000000000000000000000000]

/-- `gauss_lobatto_17` (gauss_lobatto_rules.rs:411-451). -/
def lobatto17 : Table where
  weights := [
    73529411764716050000000000000, 449219405432540200000000000000, 791982705036858700000000000000, 1105929090070295700000000000000, 1379877462019293800000000000000,
    1603946619976199800000000000000, 1770042535156582400000000000000, 1872163396776188600000000000000, 1906618747534675000000000000000, 1872163396776194000000000000000,
    1770042535156570500000000000000, 1603946619976222600000000000000, 1379877462019271000000000000000, 1105929090070281300000000000000, 791982705036870700000000000000,
    449219405432544700000000000000, 73529411764706315000000000000]
  points := [
    -9999999999999987000000000000000, -9731321766314180000000000000000, -9108799959155724000000000000000, -8156962512217689000000000000000, -6910289806276833000000000000000,
    -5413853993301017000000000000000, -3721744335654762000000000000000, -1895119735183166000000000000000, 4440892098500626, 1895119735183177200000000000000, 3721744335654772000000000000000,
    5413853993301019000000000000000, 6910289806276846000000000000000, 8156962512217704000000000000000, 9108799959155737000000000000000, 9731321766314184000000000000000,
    10000000000000000000000000000000]

/-- `gauss_lobatto_18` (gauss_lobatto_rules.rs:454-496). -/
def lobatto18 : Table where
  weights := [
    65359477124179790000000000000, 399706288109146140000000000000, 706371668856318200000000000000, 990162717175021000000000000000, 1242105331329670500000000000000,
    1454119615738048400000000000000, 1619395172376020300000000000000, 1732621094894558600000000000000, 1790158634397038500000000000000, 1790158634397026600000000000000,
    1732621094894552500000000000000, 1619395172376031600000000000000, 1454119615738021000000000000000, 1242105331329665800000000000000, 990162717175029200000000000000,
    706371668856336900000000000000, 399706288109143650000000000000, 65359477124182930000000000000]
  points := [
    -9999999999999998000000000000000, -9761055574121988000000000000000, -9206491853475340000000000000000, -8355935352180901000000000000000, -7236793292832424000000000000000,
    -5885048343186625000000000000000, -4344150369121247000000000000000, -2663626528782807600000000000000, -897490934846518800000000000000, 897490934846522100000000000000,
    2663626528782811000000000000000, 4344150369121244600000000000000, 5885048343186619000000000000000, 7236793292832429000000000000000, 8355935352180905000000000000000,
    9206491853475340000000000000000, 9761055574121986000000000000000, 10000000000000000000000000000000]

/-- `gauss_lobatto_19` (gauss_lobatto_rules.rs:499-543). -/
def lobatto19 : Table where
  weights := [
    58479532163739690000000000000, 357933651861779200000000000000, 633818917626287900000000000000, 891317570992080500000000000000, 1123153414773040300000000000000,
    1322672804487507200000000000000, 1484139425959394600000000000000, 1602909240440616000000000000000, 1675565845271422500000000000000, 1700019192848255000000000000000,
    1675565845271431000000000000000, 1602909240440621400000000000000, 1484139425959378800000000000000, 1322672804487503900000000000000, 1123153414773051800000000000000,
    891317570992076200000000000000, 633818917626299800000000000000, 357933651861767000000000000000, 58479532163742370000000000000]
  points := [
    -9999999999999996000000000000000, -9786117662220799000000000000000, -9289015281525861000000000000000, -8524605777966456000000000000000, -7514942025526123000000000000000,
    -6289081372652199000000000000000, -4882292856807126700000000000000, -3335048478244986300000000000000, -1691860234092814600000000000000, 4440892098500626,
    1691860234092818000000000000000, 3335048478244989600000000000000, 4882292856807138000000000000000, 6289081372652212000000000000000, 7514942025526132000000000000000,
    8524605777966461000000000000000, 9289015281525864000000000000000, 9786117662220801000000000000000, 10000000000000000000000000000000]

/-- `gauss_lobatto_20` (gauss_lobatto_rules.rs:546-592). -/
def lobatto20 : Table where
  weights := [
    52631578947361420000000000000, 322371231884896700000000000000, 571818021275666760000000000000, 806317639961203800000000000000, 1019914996994515400000000000000,
    1207092276286764000000000000000, 1363004823587219700000000000000, 1483615540709155000000000000000, 1565801026474750000000000000000, 1607432863878459000000000000000,
    1607432863878455500000000000000, 1565801026474745700000000000000, 1483615540709150900000000000000, 1363004823587240500000000000000, 1207092276286758400000000000000,
    1019914996994515000000000000000, 806317639961197100000000000000, 571818021275671800000000000000, 322371231884889900000000000000, 52631578947368280000000000000]
  points := [
    -9999999999999998000000000000000, -9807437048939143000000000000000, -9359344988126654000000000000000, -8668779780899492000000000000000, -7753682609520560000000000000000,
    -6637764022903114000000000000000, -5349928640318862000000000000000, -3923531837139085000000000000000, -2395517059229863600000000000000, -805459372388215300000000000000,
    805459372388224200000000000000, 2395517059229869000000000000000, 3923531837139097000000000000000, 5349928640318866000000000000000, 6637764022903112000000000000000,
    7753682609520560000000000000000, 8668779780899502000000000000000, 9359344988126655000000000000000, 9807437048939142000000000000000, 10000000000000000000000000000000]

/-- `gauss_lobatto_21` (gauss_lobatto_rules.rs:595-643). -/
def lobatto21 : Table where
  weights := [
    47619047619041985000000000000, 291848400985056170000000000000, 518431690008503560000000000000, 732739181850725800000000000000, 929854679578880900000000000000,
    1105170832191245400000000000000, 1254581211908701300000000000000, 1374584628600417000000000000000, 1462368624479759800000000000000, 1515875751116804200000000000000,
    1533851903321730700000000000000, 1515875751116813300000000000000, 1462368624479770700000000000000, 1374584628600426000000000000000, 1254581211908696300000000000000,
    1105170832191234200000000000000, 929854679578862400000000000000, 732739181850740500000000000000, 518431690008498900000000000000, 291848400985054000000000000000,
    47619047619047224000000000000]
  points := [
    -9999999999999996000000000000000, -9825722966045471000000000000000, -9419762969597447000000000000000, -8792947553235886000000000000000, -7960019260777118000000000000000,
    -6940510260622219000000000000000, -5758319602618311000000000000000, -4441157832790021400000000000000, -3019898565087646400000000000000, -1527855158021851300000000000000,
    6661338147750939, 1527855158021858000000000000000, 3019898565087656400000000000000, 4441157832790025000000000000000, 5758319602618311000000000000000, 6940510260622235000000000000000,
    7960019260777125000000000000000, 8792947553235906000000000000000, 9419762969597455000000000000000, 9825722966045480000000000000000, 10000000000000000000000000000000]

/-- `gauss_lobatto_22` (gauss_lobatto_rules.rs:646-696). -/
def lobatto22 : Table where
  weights := [
    43290043290029710000000000000, 265457476825011820000000000000, 472144652937416400000000000000, 668656058645507900000000000000, 850900603918387000000000000000,
    1015005748016475800000000000000, 1157476446539402700000000000000, 1275276966534304000000000000000, 1365896886137431300000000000000, 1427404922713613700000000000000,
    1458490194442422800000000000000, 1458490194442422200000000000000, 1427404922713612600000000000000, 1365896886137418000000000000000, 1275276966534294500000000000000,
    1157476446539382800000000000000, 1015005748016477400000000000000, 850900603918382800000000000000, 668656058645530500000000000000, 472144652937407200000000000000,
    265457476825016430000000000000, 43290043290042840000000000000]
  points := [
    -10000000000000002000000000000000, -9841524384576461000000000000000, -9472042839992287000000000000000, -8900622901909041000000000000000, -8139489276119210000000000000000,
    -7204872399612023000000000000000, -6116694382842585000000000000000, -4898148751899014000000000000000, -3575207101389190600000000000000, -2176065851592847700000000000000,
    -730545400108984000000000000000, 730545400108989500000000000000, 2176065851592853300000000000000, 3575207101389194000000000000000, 4898148751899025000000000000000,
    6116694382842591000000000000000, 7204872399612022000000000000000, 8139489276119212000000000000000, 8900622901909045000000000000000, 9472042839992286000000000000000,
    9841524384576462000000000000000, 10000000000000000000000000000000]

/-- `gauss_lobatto_23` (gauss_lobatto_rules.rs:699-751). -/
def lobatto23 : Table where
  weights := [
    39525691699590660000000000000, 242486007715315980000000000000, 431758711702429800000000000000, 612524771295539100000000000000, 781354494755709100000000000000,
    934972461635130100000000000000, 1070391017243371900000000000000, 1184975106627489700000000000000, 1276494747017571400000000000000, 1343168726386042300000000000000,
    1383699363858074400000000000000, 1397297800127465800000000000000, 1383699363858074400000000000000, 1343168726386032000000000000000, 1276494747017581400000000000000,
    1184975106627491000000000000000, 1070391017243375200000000000000, 934972461635124500000000000000, 781354494755704300000000000000, 612524771295545900000000000000,
    431758711702417200000000000000, 242486007715317800000000000000, 39525691699604470000000000000]
  points := [
    -10000000000000004000000000000000, -9855271558787333000000000000000, -9517579557107099000000000000000, -8994585580403451000000000000000, -8296510966512860000000000000000,
    -7436950411720602000000000000000, -6432636444601372000000000000000, -5303117711368441000000000000000, -4070379379144746000000000000000, -2758415489457930500000000000000,
    -1392762040406685400000000000000, 0, 1392762040406685400000000000000, 2758415489457928000000000000000, 4070379379144749600000000000000, 5303117711368441000000000000000,
    6432636444601365000000000000000, 7436950411720609000000000000000, 8296510966512860000000000000000, 8994585580403450000000000000000, 9517579557107102000000000000000,
    9855271558787326000000000000000, 10000000000000000000000000000000]

/-- `gauss_lobatto_24` (gauss_lobatto_rules.rs:754-808). -/
def lobatto24 : Table where
  weights := [
    36231884057960960000000000000, 222368534647112360000000000000, 396316813334667500000000000000, 563098487246469150000000000000, 719818620552949700000000000000,
    863690299679285700000000000000, 992148276840868600000000000000, 1102900868929676800000000000000, 1193971937024923400000000000000, 1263736420280196500000000000000,
    1310949418736035000000000000000, 1334768438669858000000000000000, 1334768438669861600000000000000, 1310949418736032700000000000000, 1263736420280214000000000000000,
    1193971937024917200000000000000, 1102900868929687200000000000000, 992148276840838000000000000000, 863690299679291000000000000000, 719818620552943500000000000000,
    563098487246462760000000000000, 396316813334675260000000000000, 222368534647111600000000000000, 36231884057970672000000000000]
  points := [
    -10000000000000000000000000000000, -9867305535051607000000000000000, -9557482209298855000000000000000, -9077056751135057000000000000000, -8434640701548712000000000000000,
    -7641704824204929000000000000000, -6712401052641279000000000000000, -5663313579792957000000000000000, -4513163732143226000000000000000, -3282476133755108000000000000000,
    -1993212533908321800000000000000, -668379937372287600000000000000, 668379937372291000000000000000, 1993212533908329500000000000000, 3282476133755112000000000000000,
    4513163732143227000000000000000, 5663313579792957000000000000000, 6712401052641286000000000000000, 7641704824204933000000000000000, 8434640701548719000000000000000,
    9077056751135064000000000000000, 9557482209298863000000000000000, 9867305535051609000000000000000, 10000000000000000000000000000000]

/-- `gauss_lobatto_25` (gauss_lobatto_rules.rs:811-867). -/
def lobatto25 : Table where
  weights := [
    33333333333324796000000000000, 204651689329747030000000000000, 365047387942695000000000000000, 519362283684914800000000000000, 665137286753135000000000000000,
    799987748362934200000000000000, 921701399106198000000000000000, 1028280303479601600000000000000, 1117974662683204900000000000000, 1189311794068128200000000000000,
    1241120389379504200000000000000, 1272549775383318400000000000000, 1283083892986616000000000000000, 1272549775383319000000000000000, 1241120389379505900000000000000,
    1189311794068113300000000000000, 1117974662683206600000000000000, 1028280303479579000000000000000, 921701399106202700000000000000, 799987748362932700000000000000,
    665137286753129200000000000000, 519362283684912300000000000000, 365047387942710900000000000000, 204651689329743460000000000000, 33333333333332850000000000000]
  points := [
    -10000000000000000000000000000000, -9877899449314935000000000000000, -9592641382525335000000000000000, -9149827707346223000000000000000, -8556764658353155000000000000000,
    -7823196592407169000000000000000, -6961170488151336000000000000000, -5984841472799931000000000000000, -4910241148188778700000000000000, -3755014578592268400000000000000,
    -2538130641688767000000000000000, -1279570594831067600000000000000, 2220446049250313, 1279570594831073200000000000000, 2538130641688768300000000000000, 3755014578592274000000000000000,
    4910241148188787500000000000000, 5984841472799931000000000000000, 6961170488151346000000000000000, 7823196592407169000000000000000, 8556764658353164000000000000000,
    9149827707346225000000000000000, 9592641382525344000000000000000, 9877899449314937000000000000000, 10000000000000000000000000000000]

/-- `gauss_lobatto_26` (gauss_lobatto_rules.rs:870-928). -/
def lobatto26 : Table where
  weights := [
    30769230769223270000000000000, 188968580242644470000000000000, 337323036859539800000000000000, 480483990811797000000000000000, 616350251425476850000000000000,
    742870501222929200000000000000, 858128639800052700000000000000, 960378023539018600000000000000, 1048068862307378800000000000000, 1119871941198595000000000000000,
    1174698840938088000000000000000, 1211718462884437000000000000000, 1230369638000826700000000000000, 1230369638000832000000000000000, 1211718462884432300000000000000,
    1174698840938080800000000000000, 1119871941198605200000000000000, 1048068862307375000000000000000, 960378023539013700000000000000, 858128639800049600000000000000,
    742870501222914200000000000000, 616350251425473300000000000000, 480483990811802700000000000000, 337323036859558250000000000000, 188968580242635030000000000000,
    30769230769230390000000000000]
  points := [
    -10000000000000000000000000000000, -9887274123114755000000000000000, -9623778747677165000000000000000, -9214355468175570000000000000000, -8665243239591229000000000000000,
    -7984771831074378000000000000000, -7183258163626660000000000000000, -6272852994923173000000000000000, -5267357420298788000000000000000, -4182013870662466500000000000000,
    -3033275128592521000000000000000, -1838554952700544000000000000000, -615964117819198800000000000000, 615964117819199900000000000000, 1838554952700549600000000000000,
    3033275128592527500000000000000, 4182013870662467700000000000000, 5267357420298784000000000000000, 6272852994923171000000000000000, 7183258163626651000000000000000,
    7984771831074374000000000000000, 8665243239591236000000000000000, 9214355468175573000000000000000, 9623778747677174000000000000000, 9887274123114757000000000000000,
    10000000000000000000000000000000]

/-- `gauss_lobatto_27` (gauss_lobatto_rules.rs:931-991). -/
def lobatto27 : Table where
  weights := [
    28490028490025937000000000000, 175019748760666670000000000000, 312629517352004740000000000000, 445776579330601150000000000000, 572655696801618700000000000000,
    691493423600449000000000000000, 800623219705395600000000000000, 898513652592929600000000000000, 983790745859512200000000000000, 1055257478212540000000000000000,
    1111910652574375200000000000000, 1152955002546509200000000000000, 1177814365859562600000000000000, 1186139776627626900000000000000, 1177814365859561500000000000000,
    1152955002546517700000000000000, 1111910652574377900000000000000, 1055257478212530100000000000000, 983790745859520300000000000000, 898513652592916200000000000000,
    800623219705382100000000000000, 691493423600431200000000000000, 572655696801625260000000000000, 445776579330614200000000000000, 312629517352022900000000000000,
    175019748760656500000000000000, 28490028490028105000000000000]
  points := [
    -9999999999999996000000000000000, -9895609637285496000000000000000, -9651484024508179000000000000000, -9271834587251153000000000000000, -8762020862145214000000000000000,
    -8129204868958120000000000000000, -7382271498464585000000000000000, -6531706636968091000000000000000, -5589450609425604000000000000000, -4568730756140822000000000000000,
    -3483875819890287500000000000000, -2350114831029182000000000000000, -1183363338985212700000000000000, 0, 1183363338985216000000000000000, 2350114831029187500000000000000,
    3483875819890288600000000000000, 4568730756140827500000000000000, 5589450609425615000000000000000, 6531706636968095000000000000000, 7382271498464599000000000000000,
    8129204868958123000000000000000, 8762020862145226000000000000000, 9271834587251159000000000000000, 9651484024508190000000000000000, 9895609637285506000000000000000,
    10000000000000000000000000000000]

/-- `gauss_lobatto_28` (gauss_lobatto_rules.rs:994-1056). -/
def lobatto28 : Table where
  weights := [
    26455026455026926000000000000, 162558839575051300000000000000, 290542206779778250000000000000, 414669152430058700000000000000, 533380770473262800000000000000,
    645136580803551300000000000000, 748481235097070600000000000000, 842067951215122200000000000000, 924676859977134500000000000000, 995231104124949500000000000000,
    1052810937610554700000000000000, 1096665737959777300000000000000, 1126223800772393800000000000000, 1141099796726273200000000000000, 1141099796726282500000000000000,
    1126223800772393500000000000000, 1096665737959765400000000000000, 1052810937610550900000000000000, 995231104124953300000000000000, 924676859977128000000000000000,
    842067951215099800000000000000, 748481235097075000000000000000, 645136580803545000000000000000, 533380770473272800000000000000, 414669152430068000000000000000,
    290542206779791700000000000000, 162558839575042480000000000000, 26455026455026180000000000000]
  points := [
    -9999999999999993000000000000000, -9903054026184528000000000000000, -9676242858571305000000000000000, -9323251671215582000000000000000, -8848710172113015000000000000000,
    -8258809700563370000000000000000, -7561241940055692000000000000000, -6765101289295725000000000000000, -5880766898371761000000000000000, -4919767539315787000000000000000,
    -3894631375763622000000000000000, -2818722666216020300000000000000, -1706067553080039500000000000000, -571171216935131300000000000000, 571171216935133500000000000000,
    1706067553080045000000000000000, 2818722666216027000000000000000, 3894631375763634000000000000000, 4919767539315797000000000000000, 5880766898371758000000000000000,
    6765101289295734000000000000000, 7561241940055700000000000000000, 8258809700563383000000000000000, 8848710172113028000000000000000, 9323251671215587000000000000000,
    9676242858571313000000000000000, 9903054026184541000000000000000, 10000000000000000000000000000000]

/-- `gauss_lobatto_29` (gauss_lobatto_rules.rs:1059-1123). -/
def lobatto29 : Table where
  weights := [
    24630541871927623000000000000, 151381698599683360000000000000, 270708062968244900000000000000, 386684399797134600000000000000, 497958090932358250000000000000,
    603185038285237900000000000000, 701089380005980000000000000000, 790483130278847700000000000000, 870281334411373100000000000000, 939515421147973500000000000000,
    997345016371498500000000000000, 1043068164636754000000000000000, 1076129858335675300000000000000, 1096128778458903300000000000000, 1102822167796823500000000000000,
    1096128778458900900000000000000, 1076129858335673200000000000000, 1043068164636765700000000000000, 997345016371501600000000000000, 939515421147969600000000000000,
    870281334411349100000000000000, 790483130278855200000000000000, 701089380005981000000000000000, 603185038285229960000000000000, 497958090932375740000000000000,
    386684399797132100000000000000, 270708062968249630000000000000, 151381698599676350000000000000, 24630541871920766000000000000]
  points := [
    -9999999999999987000000000000000, -9909729882685678000000000000000, -9698458072879350000000000000000, -9369427185209815000000000000000, -8926657199760868000000000000000,
    -8375527362817854000000000000000, -7722728972064676000000000000000, -6976186613563669000000000000000, -6144962522034318000000000000000, -5239146743719687000000000000000,
    -4269734717134938700000000000000, -3248493828419099000000000000000, -2187820582842603400000000000000, -1100590133955916500000000000000, 0, 1100590133955928800000000000000,
    2187820582842613400000000000000, 3248493828419112000000000000000, 4269734717134943000000000000000, 5239146743719690000000000000000, 6144962522034332000000000000000,
    6976186613563683000000000000000, 7722728972064689000000000000000, 8375527362817866000000000000000, 8926657199760883000000000000000, 9369427185209825000000000000000,
    9698458072879363000000000000000, 9909729882685698000000000000000, 10000000000000000000000000000000]

/-- `gauss_lobatto_30` (gauss_lobatto_rules.rs:1126-1192). -/
def lobatto30 : Table where
  weights := [
    22988505747128306000000000000, 141317993279051700000000000000, 252831667405510600000000000000, 361420941994094000000000000000, 465906945331417700000000000000,
    565111979230814100000000000000, 657913363977903500000000000000, 743260033247187300000000000000, 820185128334073000000000000000, 887817123197635200000000000000,
    945389751938614400000000000000, 992250710043009700000000000000, 1027869053072354000000000000000, 1051841215964546300000000000000, 1063895587236664800000000000000,
    1063895587236679400000000000000, 1051841215964547800000000000000, 1027869053072352500000000000000, 992250710042996800000000000000, 945389751938607600000000000000,
    887817123197636200000000000000, 820185128334074100000000000000, 743260033247188200000000000000, 657913363977901800000000000000, 565111979230805700000000000000,
    465906945331430940000000000000, 361420941994086700000000000000, 252831667405514530000000000000, 141317993279054270000000000000, 22988505747126030000000000000]
  points := [
    -9999999999999991000000000000000, -9915739428404990000000000000000, -9718466031662689000000000000000, -9411047809510564000000000000000, -8996992181992765000000000000000,
    -8480994871801975000000000000000, -7868903572375465000000000000000, -7167653986370850000000000000000, -6385191758075579000000000000000, -5530382600950519000000000000000,
    -4612911901682406000000000000000, -3643175004224488000000000000000, -2632159437195736000000000000000, -1591320426258495700000000000000, -532451104854867460000000000000,
    532451104854875200000000000000, 1591320426258508000000000000000, 2632159437195740000000000000000, 3643175004224491500000000000000, 4612911901682409400000000000000,
    5530382600950533000000000000000, 6385191758075587000000000000000, 7167653986370852000000000000000, 7868903572375472000000000000000, 8480994871801981000000000000000,
    8996992181992769000000000000000, 9411047809510571000000000000000, 9718466031662693000000000000000, 9915739428405004000000000000000, 10000000000000000000000000000000]

/-- `gauss_lobatto_31` (gauss_lobatto_rules.rs:1195-1263). -/
def lobatto31 : Table where
  weights := [
    21505376344082778000000000000, 132224710254640890000000000000, 236664332302701470000000000000, 338539404052247760000000000000, 436818181600665900000000000000,
    530464654934484500000000000000, 618487412904557800000000000000, 699953775941014600000000000000, 774000323414778700000000000000, 839842205175289000000000000000,
    896781510452599000000000000000, 944214683778568000000000000000, 981638930137127100000000000000, 1008657547986505800000000000000, 1024984135954705200000000000000,
    1030445629532073800000000000000, 1024984135954697800000000000000, 1008657547986495500000000000000, 981638930137120800000000000000, 944214683778578200000000000000,
    896781510452605400000000000000, 839842205175305900000000000000, 774000323414763800000000000000, 699953775941005300000000000000, 618487412904547900000000000000,
    530464654934487760000000000000, 436818181600670960000000000000, 338539404052240800000000000000, 236664332302702830000000000000, 132224710254646850000000000000,
    21505376344085362000000000000]
  points := [
    -9999999999999996000000000000000, -9921168443464807000000000000000, -9736549358157365000000000000000, -9448691702080390000000000000000, -9060669514412696000000000000000,
    -8576599952974551000000000000000, -8001615431924636000000000000000, -7341811363090749000000000000000, -6604182026115255000000000000000, -5796546572080026000000000000000,
    -4927466190988321000000000000000, -4006153382805619500000000000000, -3042374312728724000000000000000, -2046345292475235700000000000000, -1028624487606817400000000000000,
    2220446049250313, 1028624487606828500000000000000, 2046345292475245700000000000000, 3042374312728728400000000000000, 4006153382805621700000000000000, 4927466190988327700000000000000,
    5796546572080022000000000000000, 6604182026115255000000000000000, 7341811363090753000000000000000, 8001615431924631000000000000000, 8576599952974557000000000000000,
    9060669514412698000000000000000, 9448691702080393000000000000000, 9736549358157365000000000000000, 9921168443464812000000000000000, 10000000000000000000000000000000]

/-- `gauss_lobatto_32` (gauss_lobatto_rules.rs:1266-1336). -/
def lobatto32 : Table where
  weights := [
    20161290322576920000000000000, 123981065013727770000000000000, 221995528892916340000000000000, 317751354109156000000000000000, 410342015860626140000000000000,
    498852713362204000000000000000, 582404972480572800000000000000, 660168772571537600000000000000, 731371396026799500000000000000, 795305256921086000000000000000,
    851334979496691700000000000000, 898903729573578600000000000000, 937538755468132900000000000000, 966856089480020300000000000000, 986564365407620000000000000000,
    996467715012752000000000000000, 996467715012760300000000000000, 986564365407616600000000000000, 966856089480028000000000000000, 937538755468145400000000000000,
    898903729573580000000000000000, 851334979496691200000000000000, 795305256921060700000000000000, 731371396026787600000000000000, 660168772571543700000000000000,
    582404972480559700000000000000, 498852713362213100000000000000, 410342015860626600000000000000, 317751354109153700000000000000, 221995528892918500000000000000,
    123981065013738390000000000000, 20161290322580020000000000000]
  points := [
    -9999999999999996000000000000000, -9926089339727611000000000000000, -9752946904827089000000000000000, -9482848384172318000000000000000, -9118499390637314000000000000000,
    -8663524760126744000000000000000, -8122447317774417000000000000000, -7500644939366736000000000000000, -6804297556155496000000000000000, -6040325871484211000000000000000,
    -5216322628815653000000000000000, -4340477172018471000000000000000, -3421494065388817000000000000000, -2468506588502053000000000000000, -1490985968136471200000000000000,
    -498647250465935600000000000000, 498647250465936700000000000000, 1490985968136471200000000000000, 2468506588502055200000000000000, 3421494065388817000000000000000,
    4340477172018468700000000000000, 5216322628815653000000000000000, 6040325871484212000000000000000, 6804297556155509000000000000000, 7500644939366747000000000000000,
    8122447317774424000000000000000, 8663524760126755000000000000000, 9118499390637318000000000000000, 9482848384172323000000000000000, 9752946904827092000000000000000,
    9926089339727614000000000000000, 10000000000000000000000000000000]

end Fenris.Lobatto
