import Verif.Model.Lobatto.Basic
/-! # Rules of fenris-quadrature/src/codegen/gauss_lobatto_rules.rs -/
set_option autoImplicit false

namespace Fenris.Lobatto

/-- `gauss_lobatto_64` (gauss_lobatto_rules.rs:1339-1473). -/
def lobatto64 : Table where
  weights := [
    4960317460318956000000000000, 30560082449115980000000000000, 54960162038163610000000000000, 79212897900468540000000000000, 103270023668151180000000000000,
    127073991974536850000000000000, 150566839879640600000000000000, 173691163845426480000000000000, 196390407232411020000000000000, 218609035115174470000000000000,
    240292681440241360000000000000, 261388286143383430000000000000, 281844226658492600000000000000, 301610444990892440000000000000, 320638570577265540000000000000,
    338882038841258900000000000000, 356296205244900350000000000000, 372838454598023400000000000000, 388468305378096150000000000000, 403147508815591600000000000000,
    416840142508016000000000000000, 429512698336022150000000000000, 441134164468921160000000000000, 451676101259468260000000000000, 461112710842888100000000000000,
    469420900270283500000000000000, 476580338022205000000000000000, 482573503764136960000000000000, 487385731222333900000000000000, 491005244075018200000000000000,
    493423184771387400000000000000, 494633636207760240000000000000, 494633636207762300000000000000, 493423184771392960000000000000, 491005244075014840000000000000,
    487385731222328560000000000000, 482573503764145900000000000000, 476580338022199900000000000000, 469420900270291140000000000000, 461112710842882500000000000000,
    451676101259477600000000000000, 441134164468925460000000000000, 429512698336021800000000000000, 416840142508020650000000000000, 403147508815601400000000000000,
    388468305378084100000000000000, 372838454598013400000000000000, 356296205244894000000000000000, 338882038841252500000000000000, 320638570577269000000000000000,
    301610444990896000000000000000, 281844226658485540000000000000, 261388286143385800000000000000, 240292681440240770000000000000, 218609035115179100000000000000,
    196390407232418800000000000000, 173691163845423880000000000000, 150566839879614780000000000000, 127073991974545780000000000000, 103270023668151760000000000000,
    79212897900466820000000000000, 54960162038172010000000000000, 30560082449124803000000000000, 4960317460317352000000000000]
  points := [
    -9999999999999999000000000000000, -9981798715021633000000000000000, -9939027267030576000000000000000, -9871926766027406000000000000000, -9780666628313968000000000000000,
    -9665471103690995000000000000000, -9526622357886629000000000000000, -9364460274756341000000000000000, -9179381735102821000000000000000, -8971839678458502000000000000000,
    -8742342006576276000000000000000, -8491450345429914000000000000000, -8219778673075169000000000000000, -7927991818262086000000000000000, -7616803834081203000000000000000,
    -7286976250888368000000000000000, -6939316212907045000000000000000, -6574674503129765000000000000000, -6193943461384317000000000000000, -5798054800677186000000000000000,
    -5387977327168010000000000000000, -4964714569360580000000000000000, -4529302322315813500000000000000, -4082806112898542700000000000000, -3626318592262618400000000000000,
    -3160956861956259000000000000000, -2687859740191698000000000000000, -2208184974969533700000000000000, -1723106410877926000000000000000, -1233811116500280700000000000000,
    -741496479461161200000000000000, -247367276219587760000000000000, 247367276219592200000000000000, 741496479461163400000000000000, 1233811116500281900000000000000,
    1723106410877928200000000000000, 2208184974969538100000000000000, 2687859740191703700000000000000, 3160956861956262000000000000000, 3626318592262620700000000000000,
    4082806112898542700000000000000, 4529302322315813500000000000000, 4964714569360580000000000000000, 5387977327168008000000000000000, 5798054800677186000000000000000,
    6193943461384317000000000000000, 6574674503129765000000000000000, 6939316212907048000000000000000, 7286976250888370000000000000000, 7616803834081200000000000000000,
    7927991818262082000000000000000, 8219778673075172000000000000000, 8491450345429911000000000000000, 8742342006576276000000000000000, 8971839678458501000000000000000,
    9179381735102817000000000000000, 9364460274756341000000000000000, 9526622357886628000000000000000, 9665471103690992000000000000000, 9780666628313961000000000000000,
    9871926766027402000000000000000, 9939027267030573000000000000000, 9981798715021633000000000000000, 10000000000000000000000000000000]

end Fenris.Lobatto
