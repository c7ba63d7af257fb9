import Verif.Model.ShippedRules.Basic
/-! # The rules in fenris-quadrature/rules/polyquad/expanded/quad

Generated from the files. Every row is a line of the file: 2 coordinates and the weight. -/
set_option autoImplicit false

namespace Fenris.ShippedRules

/-- rules/polyquad/expanded/quad/1-1.txt -/
def quad1 : RuleFile := ⟨1, 1, 0, [
  [0, 0, 4]]⟩

/-- rules/polyquad/expanded/quad/3-4.txt -/
def quad3 : RuleFile := ⟨3, 4, 38, [
  [57735026918962576450914878050195745565, 57735026918962576450914878050195745565, 100000000000000000000000000000000000000],
  [57735026918962576450914878050195745565, -57735026918962576450914878050195745565, 100000000000000000000000000000000000000],
  [-57735026918962576450914878050195745565, 57735026918962576450914878050195745565, 100000000000000000000000000000000000000],
  [-57735026918962576450914878050195745565, -57735026918962576450914878050195745565, 100000000000000000000000000000000000000]]⟩

/-- rules/polyquad/expanded/quad/5-8.txt -/
def quad5 : RuleFile := ⟨5, 8, 38, [
  [68313005106397322554806924536807013272, 0, 81632653061224489795918367346938775510],
  [0, 68313005106397322554806924536807013272, 81632653061224489795918367346938775510],
  [-68313005106397322554806924536807013272, 0, 81632653061224489795918367346938775510],
  [0, -68313005106397322554806924536807013272, 81632653061224489795918367346938775510],
  [88191710368819686350053858454642014190, 88191710368819686350053858454642014190, 18367346938775510204081632653061224490],
  [88191710368819686350053858454642014190, -88191710368819686350053858454642014190, 18367346938775510204081632653061224490],
  [-88191710368819686350053858454642014190, 88191710368819686350053858454642014190, 18367346938775510204081632653061224490],
  [-88191710368819686350053858454642014190, -88191710368819686350053858454642014190, 18367346938775510204081632653061224490]]⟩

/-- rules/polyquad/expanded/quad/7-12.txt -/
def quad7 : RuleFile := ⟨7, 12, 38, [
  [92582009977255146156656677658399952253, 0, 24197530864197530864197530864197530864],
  [0, 92582009977255146156656677658399952253, 24197530864197530864197530864197530864],
  [-92582009977255146156656677658399952253, 0, 24197530864197530864197530864197530864],
  [0, -92582009977255146156656677658399952253, 24197530864197530864197530864197530864],
  [80597978291859874370785618135074424630, 80597978291859874370785618135074424630, 23743177469063023421810525931129352533],
  [80597978291859874370785618135074424630, -80597978291859874370785618135074424630, 23743177469063023421810525931129352533],
  [-80597978291859874370785618135074424630, 80597978291859874370785618135074424630, 23743177469063023421810525931129352533],
  [-80597978291859874370785618135074424630, -80597978291859874370785618135074424630, 23743177469063023421810525931129352533],
  [38055443320831565637910635908639413550, 38055443320831565637910635908639413550, 52059291666739445713991943204673116603],
  [38055443320831565637910635908639413550, -38055443320831565637910635908639413550, 52059291666739445713991943204673116603],
  [-38055443320831565637910635908639413550, 38055443320831565637910635908639413550, 52059291666739445713991943204673116603],
  [-38055443320831565637910635908639413550, -38055443320831565637910635908639413550, 52059291666739445713991943204673116603]]⟩

/-- rules/polyquad/expanded/quad/9-20.txt -/
def quad9 : RuleFile := ⟨9, 20, 39, [
  [488926856974369069574093060229293394970, 0, 454163960686749027441787245605285030880],
  [0, 488926856974369069574093060229293394970, 454163960686749027441787245605285030880],
  [-488926856974369069574093060229293394970, 0, 454163960686749027441787245605285030880],
  [0, -488926856974369069574093060229293394970, 454163960686749027441787245605285030880],
  [939655258096837705857571750463168032890, 939655258096837705857571750463168032890, 42731231865775762580130721539841651755],
  [939655258096837705857571750463168032890, -939655258096837705857571750463168032890, 42731231865775762580130721539841651755],
  [-939655258096837705857571750463168032890, 939655258096837705857571750463168032890, 42731231865775762580130721539841651755],
  [-939655258096837705857571750463168032890, -939655258096837705857571750463168032890, 42731231865775762580130721539841651755],
  [690880550486343872814888308138408855840, 690880550486343872814888308138408855840, 214200360926861631942425634305978116410],
  [690880550486343872814888308138408855840, -690880550486343872814888308138408855840, 214200360926861631942425634305978116410],
  [-690880550486343872814888308138408855840, 690880550486343872814888308138408855840, 214200360926861631942425634305978116410],
  [-690880550486343872814888308138408855840, -690880550486343872814888308138408855840, 214200360926861631942425634305978116410],
  [918620441056722259655470179142779416300, 344872025364403576171230418124697303700, 144452223260306789017828199274447600480],
  [344872025364403576171230418124697303700, 918620441056722259655470179142779416300, 144452223260306789017828199274447600480],
  [918620441056722259655470179142779416300, -344872025364403576171230418124697303700, 144452223260306789017828199274447600480],
  [-344872025364403576171230418124697303700, 918620441056722259655470179142779416300, 144452223260306789017828199274447600480],
  [-918620441056722259655470179142779416300, 344872025364403576171230418124697303700, 144452223260306789017828199274447600480],
  [344872025364403576171230418124697303700, -918620441056722259655470179142779416300, 144452223260306789017828199274447600480],
  [-918620441056722259655470179142779416300, -344872025364403576171230418124697303700, 144452223260306789017828199274447600480],
  [-344872025364403576171230418124697303700, -918620441056722259655470179142779416300, 144452223260306789017828199274447600480]]⟩

/-- rules/polyquad/expanded/quad/11-28.txt -/
def quad11 : RuleFile := ⟨11, 28, 39, [
  [714617829664605917629423824041763672660, 0, 217400439868712005515666725150522913390],
  [0, 714617829664605917629423824041763672660, 217400439868712005515666725150522913390],
  [-714617829664605917629423824041763672660, 0, 217400439868712005515666725150522913390],
  [0, -714617829664605917629423824041763672660, 217400439868712005515666725150522913390],
  [273657210171459613835570264319066490270, 273657210171459613835570264319066490270, 277274102983851087950286917968044626320],
  [273657210171459613835570264319066490270, -273657210171459613835570264319066490270, 277274102983851087950286917968044626320],
  [-273657210171459613835570264319066490270, 273657210171459613835570264319066490270, 277274102983851087950286917968044626320],
  [-273657210171459613835570264319066490270, -273657210171459613835570264319066490270, 277274102983851087950286917968044626320],
  [636603932212301044058528331989744042070, 636603932212301044058528331989744042070, 213933637878248104502805006602061348370],
  [636603932212301044058528331989744042070, -636603932212301044058528331989744042070, 213933637878248104502805006602061348370],
  [-636603932212301044058528331989744042070, 636603932212301044058528331989744042070, 213933637878248104502805006602061348370],
  [-636603932212301044058528331989744042070, -636603932212301044058528331989744042070, 213933637878248104502805006602061348370],
  [951630388784033458810498293636963719180, 815565433689638413063898654639287592330, 44074569114983092054304271154112061776],
  [815565433689638413063898654639287592330, 951630388784033458810498293636963719180, 44074569114983092054304271154112061776],
  [951630388784033458810498293636963719180, -815565433689638413063898654639287592330, 44074569114983092054304271154112061776],
  [-815565433689638413063898654639287592330, 951630388784033458810498293636963719180, 44074569114983092054304271154112061776],
  [-951630388784033458810498293636963719180, 815565433689638413063898654639287592330, 44074569114983092054304271154112061776],
  [815565433689638413063898654639287592330, -951630388784033458810498293636963719180, 44074569114983092054304271154112061776],
  [-951630388784033458810498293636963719180, -815565433689638413063898654639287592330, 44074569114983092054304271154112061776],
  [-815565433689638413063898654639287592330, -951630388784033458810498293636963719180, 44074569114983092054304271154112061776],
  [346207200047645441187473207243300439790, 935567871487591081354802121618305153370, 101621340519611308961316403985573494190],
  [935567871487591081354802121618305153370, 346207200047645441187473207243300439790, 101621340519611308961316403985573494190],
  [346207200047645441187473207243300439790, -935567871487591081354802121618305153370, 101621340519611308961316403985573494190],
  [-935567871487591081354802121618305153370, 346207200047645441187473207243300439790, 101621340519611308961316403985573494190],
  [-346207200047645441187473207243300439790, 935567871487591081354802121618305153370, 101621340519611308961316403985573494190],
  [935567871487591081354802121618305153370, -346207200047645441187473207243300439790, 101621340519611308961316403985573494190],
  [-346207200047645441187473207243300439790, -935567871487591081354802121618305153370, 101621340519611308961316403985573494190],
  [-935567871487591081354802121618305153370, -346207200047645441187473207243300439790, 101621340519611308961316403985573494190]]⟩

/-- rules/polyquad/expanded/quad/13-37.txt -/
def quad13 : RuleFile := ⟨13, 37, 39, [
  [0, 0, 299993344358909643240643102671499025250],
  [983461332613245571274078514012107949620, 0, 38128625349852737619351565405684462236],
  [0, 983461332613245571274078514012107949620, 38128625349852737619351565405684462236],
  [-983461332613245571274078514012107949620, 0, 38128625349852737619351565405684462236],
  [0, -983461332613245571274078514012107949620, 38128625349852737619351565405684462236],
  [639861418367109761746167155795763070770, 0, 184535468969807212385824753193898471260],
  [0, 639861418367109761746167155795763070770, 184535468969807212385824753193898471260],
  [-639861418367109761746167155795763070770, 0, 184535468969807212385824753193898471260],
  [0, -639861418367109761746167155795763070770, 184535468969807212385824753193898471260],
  [918778488079711401898394382973204284830, 918778488079711401898394382973204284830, 39507140647452433689267407341729599229],
  [918778488079711401898394382973204284830, -918778488079711401898394382973204284830, 39507140647452433689267407341729599229],
  [-918778488079711401898394382973204284830, 918778488079711401898394382973204284830, 39507140647452433689267407341729599229],
  [-918778488079711401898394382973204284830, -918778488079711401898394382973204284830, 39507140647452433689267407341729599229],
  [379628505186743855792754171035483490050, 379628505186743855792754171035483490050, 231398519400685387419183110640463192980],
  [379628505186743855792754171035483490050, -379628505186743855792754171035483490050, 231398519400685387419183110640463192980],
  [-379628505186743855792754171035483490050, 379628505186743855792754171035483490050, 231398519400685387419183110640463192980],
  [-379628505186743855792754171035483490050, -379628505186743855792754171035483490050, 231398519400685387419183110640463192980],
  [699554216513351110299206032843993406440, 699554216513351110299206032843993406440, 137242096713003486778661273595790162470],
  [699554216513351110299206032843993406440, -699554216513351110299206032843993406440, 137242096713003486778661273595790162470],
  [-699554216513351110299206032843993406440, 699554216513351110299206032843993406440, 137242096713003486778661273595790162470],
  [-699554216513351110299206032843993406440, -699554216513351110299206032843993406440, 137242096713003486778661273595790162470],
  [643597374996618120312498157756002679430, 975068883905983519936552068038110945730, 33519780050381430279388297868080126418],
  [975068883905983519936552068038110945730, 643597374996618120312498157756002679430, 33519780050381430279388297868080126418],
  [643597374996618120312498157756002679430, -975068883905983519936552068038110945730, 33519780050381430279388297868080126418],
  [-975068883905983519936552068038110945730, 643597374996618120312498157756002679430, 33519780050381430279388297868080126418],
  [-643597374996618120312498157756002679430, 975068883905983519936552068038110945730, 33519780050381430279388297868080126418],
  [975068883905983519936552068038110945730, -643597374996618120312498157756002679430, 33519780050381430279388297868080126418],
  [-643597374996618120312498157756002679430, -975068883905983519936552068038110945730, 33519780050381430279388297868080126418],
  [-975068883905983519936552068038110945730, -643597374996618120312498157756002679430, 33519780050381430279388297868080126418],
  [333539881164783102851671998048958578230, 864427609267061911575072677417507287910, 113575126364354235369387259209199551330],
  [864427609267061911575072677417507287910, 333539881164783102851671998048958578230, 113575126364354235369387259209199551330],
  [333539881164783102851671998048958578230, -864427609267061911575072677417507287910, 113575126364354235369387259209199551330],
  [-864427609267061911575072677417507287910, 333539881164783102851671998048958578230, 113575126364354235369387259209199551330],
  [-333539881164783102851671998048958578230, 864427609267061911575072677417507287910, 113575126364354235369387259209199551330],
  [864427609267061911575072677417507287910, -333539881164783102851671998048958578230, 113575126364354235369387259209199551330],
  [-333539881164783102851671998048958578230, -864427609267061911575072677417507287910, 113575126364354235369387259209199551330],
  [-864427609267061911575072677417507287910, -333539881164783102851671998048958578230, 113575126364354235369387259209199551330]]⟩

/-- rules/polyquad/expanded/quad/15-48.txt -/
def quad15 : RuleFile := ⟨15, 48, 40, [
  [7980989878970070902455517350359614846200, 0, 1149329272635253678159602893254176622800],
  [0, 7980989878970070902455517350359614846200, 1149329272635253678159602893254176622800],
  [-7980989878970070902455517350359614846200, 0, 1149329272635253678159602893254176622800],
  [0, -7980989878970070902455517350359614846200, 1149329272635253678159602893254176622800],
  [3038530263984597561026817869096270305800, 0, 1816857589672718495704045857707336748400],
  [0, 3038530263984597561026817869096270305800, 1816857589672718495704045857707336748400],
  [-3038530263984597561026817869096270305800, 0, 1816857589672718495704045857707336748400],
  [0, -3038530263984597561026817869096270305800, 1816857589672718495704045857707336748400],
  [8824222701068853599204118866776718454200, 8824222701068853599204118866776718454200, 412384837887658118390276396172165998530],
  [8824222701068853599204118866776718454200, -8824222701068853599204118866776718454200, 412384837887658118390276396172165998530],
  [-8824222701068853599204118866776718454200, 8824222701068853599204118866776718454200, 412384837887658118390276396172165998530],
  [-8824222701068853599204118866776718454200, -8824222701068853599204118866776718454200, 412384837887658118390276396172165998530],
  [9777897995399026974242468935237586678500, 9777897995399026974242468935237586678500, 59337464858392213147614197893498681047],
  [9777897995399026974242468935237586678500, -9777897995399026974242468935237586678500, 59337464858392213147614197893498681047],
  [-9777897995399026974242468935237586678500, 9777897995399026974242468935237586678500, 59337464858392213147614197893498681047],
  [-9777897995399026974242468935237586678500, -9777897995399026974242468935237586678500, 59337464858392213147614197893498681047],
  [8087121358195035672400282390141697747100, 5672135733965907031786516908390301240600, 1011491434774324228076107947030017592800],
  [5672135733965907031786516908390301240600, 8087121358195035672400282390141697747100, 1011491434774324228076107947030017592800],
  [8087121358195035672400282390141697747100, -5672135733965907031786516908390301240600, 1011491434774324228076107947030017592800],
  [-5672135733965907031786516908390301240600, 8087121358195035672400282390141697747100, 1011491434774324228076107947030017592800],
  [-8087121358195035672400282390141697747100, 5672135733965907031786516908390301240600, 1011491434774324228076107947030017592800],
  [5672135733965907031786516908390301240600, -8087121358195035672400282390141697747100, 1011491434774324228076107947030017592800],
  [-8087121358195035672400282390141697747100, -5672135733965907031786516908390301240600, 1011491434774324228076107947030017592800],
  [-5672135733965907031786516908390301240600, -8087121358195035672400282390141697747100, 1011491434774324228076107947030017592800],
  [3046547990370525411709859869533388106100, 5787361940358065102601393926470105189100, 1478367216328812184790561836063633972600],
  [5787361940358065102601393926470105189100, 3046547990370525411709859869533388106100, 1478367216328812184790561836063633972600],
  [3046547990370525411709859869533388106100, -5787361940358065102601393926470105189100, 1478367216328812184790561836063633972600],
  [-5787361940358065102601393926470105189100, 3046547990370525411709859869533388106100, 1478367216328812184790561836063633972600],
  [-3046547990370525411709859869533388106100, 5787361940358065102601393926470105189100, 1478367216328812184790561836063633972600],
  [5787361940358065102601393926470105189100, -3046547990370525411709859869533388106100, 1478367216328812184790561836063633972600],
  [-3046547990370525411709859869533388106100, -5787361940358065102601393926470105189100, 1478367216328812184790561836063633972600],
  [-5787361940358065102601393926470105189100, -3046547990370525411709859869533388106100, 1478367216328812184790561836063633972600],
  [9805048437245319615400269877302555585000, 6974636319909670187938904551822360596000, 232731941446732146025748919334630599230],
  [6974636319909670187938904551822360596000, 9805048437245319615400269877302555585000, 232731941446732146025748919334630599230],
  [9805048437245319615400269877302555585000, -6974636319909670187938904551822360596000, 232731941446732146025748919334630599230],
  [-6974636319909670187938904551822360596000, 9805048437245319615400269877302555585000, 232731941446732146025748919334630599230],
  [-9805048437245319615400269877302555585000, 6974636319909670187938904551822360596000, 232731941446732146025748919334630599230],
  [6974636319909670187938904551822360596000, -9805048437245319615400269877302555585000, 232731941446732146025748919334630599230],
  [-9805048437245319615400269877302555585000, -6974636319909670187938904551822360596000, 232731941446732146025748919334630599230],
  [-6974636319909670187938904551822360596000, -9805048437245319615400269877302555585000, 232731941446732146025748919334630599230],
  [2648441558723161771001427482683085606200, 9557425198095117085238750760470026208100, 558454824923120188406811625058128809960],
  [9557425198095117085238750760470026208100, 2648441558723161771001427482683085606200, 558454824923120188406811625058128809960],
  [2648441558723161771001427482683085606200, -9557425198095117085238750760470026208100, 558454824923120188406811625058128809960],
  [-9557425198095117085238750760470026208100, 2648441558723161771001427482683085606200, 558454824923120188406811625058128809960],
  [-2648441558723161771001427482683085606200, 9557425198095117085238750760470026208100, 558454824923120188406811625058128809960],
  [9557425198095117085238750760470026208100, -2648441558723161771001427482683085606200, 558454824923120188406811625058128809960],
  [-2648441558723161771001427482683085606200, -9557425198095117085238750760470026208100, 558454824923120188406811625058128809960],
  [-9557425198095117085238750760470026208100, -2648441558723161771001427482683085606200, 558454824923120188406811625058128809960]]⟩

/-- rules/polyquad/expanded/quad/17-60.txt -/
def quad17 : RuleFile := ⟨17, 60, 40, [
  [5450429872091483878701017478266774704800, 0, 1388043776872199248004887134626777247800],
  [0, 5450429872091483878701017478266774704800, 1388043776872199248004887134626777247800],
  [-5450429872091483878701017478266774704800, 0, 1388043776872199248004887134626777247800],
  [0, -5450429872091483878701017478266774704800, 1388043776872199248004887134626777247800],
  [9174971882191532081712027775867327711500, 0, 653478238074649128590666889735331730550],
  [0, 9174971882191532081712027775867327711500, 653478238074649128590666889735331730550],
  [-9174971882191532081712027775867327711500, 0, 653478238074649128590666889735331730550],
  [0, -9174971882191532081712027775867327711500, 653478238074649128590666889735331730550],
  [1925542426140468805482724322897823386200, 1925542426140468805482724322897823386200, 1428564196221995957116627051607348291100],
  [1925542426140468805482724322897823386200, -1925542426140468805482724322897823386200, 1428564196221995957116627051607348291100],
  [-1925542426140468805482724322897823386200, 1925542426140468805482724322897823386200, 1428564196221995957116627051607348291100],
  [-1925542426140468805482724322897823386200, -1925542426140468805482724322897823386200, 1428564196221995957116627051607348291100],
  [8713286846954432727134159805921527369600, 8713286846954432727134159805921527369600, 367159084852515124661088232529637508750],
  [8713286846954432727134159805921527369600, -8713286846954432727134159805921527369600, 367159084852515124661088232529637508750],
  [-8713286846954432727134159805921527369600, 8713286846954432727134159805921527369600, 367159084852515124661088232529637508750],
  [-8713286846954432727134159805921527369600, -8713286846954432727134159805921527369600, 367159084852515124661088232529637508750],
  [6943880900895507516564691872484594143000, 6943880900895507516564691872484594143000, 862556996381438045409351412711875875890],
  [6943880900895507516564691872484594143000, -6943880900895507516564691872484594143000, 862556996381438045409351412711875875890],
  [-6943880900895507516564691872484594143000, 6943880900895507516564691872484594143000, 862556996381438045409351412711875875890],
  [-6943880900895507516564691872484594143000, -6943880900895507516564691872484594143000, 862556996381438045409351412711875875890],
  [4576829928831555176066499720164489417600, 4576829928831555176066499720164489417600, 1345562732119169249439496587808611214800],
  [4576829928831555176066499720164489417600, -4576829928831555176066499720164489417600, 1345562732119169249439496587808611214800],
  [-4576829928831555176066499720164489417600, 4576829928831555176066499720164489417600, 1345562732119169249439496587808611214800],
  [-4576829928831555176066499720164489417600, -4576829928831555176066499720164489417600, 1345562732119169249439496587808611214800],
  [9692042560915087339680906488621559577400, 9692042560915087339680906488621559577400, 76556334149099368494439596667976876552],
  [9692042560915087339680906488621559577400, -9692042560915087339680906488621559577400, 76556334149099368494439596667976876552],
  [-9692042560915087339680906488621559577400, 9692042560915087339680906488621559577400, 76556334149099368494439596667976876552],
  [-9692042560915087339680906488621559577400, -9692042560915087339680906488621559577400, 76556334149099368494439596667976876552],
  [7620882760801982757917976594365924704700, 2794777667151921500102837359608340235100, 1031767247849353477901791927815758469700],
  [2794777667151921500102837359608340235100, 7620882760801982757917976594365924704700, 1031767247849353477901791927815758469700],
  [7620882760801982757917976594365924704700, -2794777667151921500102837359608340235100, 1031767247849353477901791927815758469700],
  [-2794777667151921500102837359608340235100, 7620882760801982757917976594365924704700, 1031767247849353477901791927815758469700],
  [-7620882760801982757917976594365924704700, 2794777667151921500102837359608340235100, 1031767247849353477901791927815758469700],
  [2794777667151921500102837359608340235100, -7620882760801982757917976594365924704700, 1031767247849353477901791927815758469700],
  [-7620882760801982757917976594365924704700, -2794777667151921500102837359608340235100, 1031767247849353477901791927815758469700],
  [-2794777667151921500102837359608340235100, -7620882760801982757917976594365924704700, 1031767247849353477901791927815758469700],
  [9073943521982236707040505947884667131000, 5468986704143101064011280785143766588400, 548264002372914409166759957598346048960],
  [5468986704143101064011280785143766588400, 9073943521982236707040505947884667131000, 548264002372914409166759957598346048960],
  [9073943521982236707040505947884667131000, -5468986704143101064011280785143766588400, 548264002372914409166759957598346048960],
  [-5468986704143101064011280785143766588400, 9073943521982236707040505947884667131000, 548264002372914409166759957598346048960],
  [-9073943521982236707040505947884667131000, 5468986704143101064011280785143766588400, 548264002372914409166759957598346048960],
  [5468986704143101064011280785143766588400, -9073943521982236707040505947884667131000, 548264002372914409166759957598346048960],
  [-9073943521982236707040505947884667131000, -5468986704143101064011280785143766588400, 548264002372914409166759957598346048960],
  [-5468986704143101064011280785143766588400, -9073943521982236707040505947884667131000, 548264002372914409166759957598346048960],
  [7612486664390827596561494824051254776700, 9837879715015495526131833066497457217100, 151198103882568618986357153836453466340],
  [9837879715015495526131833066497457217100, 7612486664390827596561494824051254776700, 151198103882568618986357153836453466340],
  [7612486664390827596561494824051254776700, -9837879715015495526131833066497457217100, 151198103882568618986357153836453466340],
  [-9837879715015495526131833066497457217100, 7612486664390827596561494824051254776700, 151198103882568618986357153836453466340],
  [-7612486664390827596561494824051254776700, 9837879715015495526131833066497457217100, 151198103882568618986357153836453466340],
  [9837879715015495526131833066497457217100, -7612486664390827596561494824051254776700, 151198103882568618986357153836453466340],
  [-7612486664390827596561494824051254776700, -9837879715015495526131833066497457217100, 151198103882568618986357153836453466340],
  [-9837879715015495526131833066497457217100, -7612486664390827596561494824051254776700, 151198103882568618986357153836453466340],
  [9870947070447678254568263327892903071000, 3028074817888613981676883578873623879600, 207809966559630433086812507905662642320],
  [3028074817888613981676883578873623879600, 9870947070447678254568263327892903071000, 207809966559630433086812507905662642320],
  [9870947070447678254568263327892903071000, -3028074817888613981676883578873623879600, 207809966559630433086812507905662642320],
  [-3028074817888613981676883578873623879600, 9870947070447678254568263327892903071000, 207809966559630433086812507905662642320],
  [-9870947070447678254568263327892903071000, 3028074817888613981676883578873623879600, 207809966559630433086812507905662642320],
  [3028074817888613981676883578873623879600, -9870947070447678254568263327892903071000, 207809966559630433086812507905662642320],
  [-9870947070447678254568263327892903071000, -3028074817888613981676883578873623879600, 207809966559630433086812507905662642320],
  [-3028074817888613981676883578873623879600, -9870947070447678254568263327892903071000, 207809966559630433086812507905662642320]]⟩

/-- rules/polyquad/expanded/quad/19-72.txt -/
def quad19 : RuleFile := ⟨19, 72, 40, [
  [7143442595727942371980075193078982002300, 0, 977373646928287482435183507855275430450],
  [0, 7143442595727942371980075193078982002300, 977373646928287482435183507855275430450],
  [-7143442595727942371980075193078982002300, 0, 977373646928287482435183507855275430450],
  [0, -7143442595727942371980075193078982002300, 977373646928287482435183507855275430450],
  [2656720521209637563452127694908946824400, 0, 1393076129224822457042092401093385806800],
  [0, 2656720521209637563452127694908946824400, 1393076129224822457042092401093385806800],
  [-2656720521209637563452127694908946824400, 0, 1393076129224822457042092401093385806800],
  [0, -2656720521209637563452127694908946824400, 1393076129224822457042092401093385806800],
  [9644342692579672514758983345396097952000, 0, 348695834918879100021624146907332911350],
  [0, 9644342692579672514758983345396097952000, 348695834918879100021624146907332911350],
  [-9644342692579672514758983345396097952000, 0, 348695834918879100021624146907332911350],
  [0, -9644342692579672514758983345396097952000, 348695834918879100021624146907332911350],
  [8033797294676850018456994531755506240400, 8033797294676850018456994531755506240400, 478045471627957947950048331114692675290],
  [8033797294676850018456994531755506240400, -8033797294676850018456994531755506240400, 478045471627957947950048331114692675290],
  [-8033797294676850018456994531755506240400, 8033797294676850018456994531755506240400, 478045471627957947950048331114692675290],
  [-8033797294676850018456994531755506240400, -8033797294676850018456994531755506240400, 478045471627957947950048331114692675290],
  [9921654058971347218974452740763302208100, 9921654058971347218974452740763302208100, 16177151779117608109927450603284034943],
  [9921654058971347218974452740763302208100, -9921654058971347218974452740763302208100, 16177151779117608109927450603284034943],
  [-9921654058971347218974452740763302208100, 9921654058971347218974452740763302208100, 16177151779117608109927450603284034943],
  [-9921654058971347218974452740763302208100, -9921654058971347218974452740763302208100, 16177151779117608109927450603284034943],
  [9294496027996093859245397256178981552500, 9294496027996093859245397256178981552500, 174410480343557624640984243597982140840],
  [9294496027996093859245397256178981552500, -9294496027996093859245397256178981552500, 174410480343557624640984243597982140840],
  [-9294496027996093859245397256178981552500, 9294496027996093859245397256178981552500, 174410480343557624640984243597982140840],
  [-9294496027996093859245397256178981552500, -9294496027996093859245397256178981552500, 174410480343557624640984243597982140840],
  [5102782573693433505828052085608433746100, 2666403145945621756665362359872722955100, 1177258328400560800227898585248062373100],
  [2666403145945621756665362359872722955100, 5102782573693433505828052085608433746100, 1177258328400560800227898585248062373100],
  [5102782573693433505828052085608433746100, -2666403145945621756665362359872722955100, 1177258328400560800227898585248062373100],
  [-2666403145945621756665362359872722955100, 5102782573693433505828052085608433746100, 1177258328400560800227898585248062373100],
  [-5102782573693433505828052085608433746100, 2666403145945621756665362359872722955100, 1177258328400560800227898585248062373100],
  [2666403145945621756665362359872722955100, -5102782573693433505828052085608433746100, 1177258328400560800227898585248062373100],
  [-5102782573693433505828052085608433746100, -2666403145945621756665362359872722955100, 1177258328400560800227898585248062373100],
  [-2666403145945621756665362359872722955100, -5102782573693433505828052085608433746100, 1177258328400560800227898585248062373100],
  [3907342057752497512434641711856287948600, 9878929331417353095707937709096576882200, 161795776116578497896588412489539824960],
  [9878929331417353095707937709096576882200, 3907342057752497512434641711856287948600, 161795776116578497896588412489539824960],
  [3907342057752497512434641711856287948600, -9878929331417353095707937709096576882200, 161795776116578497896588412489539824960],
  [-9878929331417353095707937709096576882200, 3907342057752497512434641711856287948600, 161795776116578497896588412489539824960],
  [-3907342057752497512434641711856287948600, 9878929331417353095707937709096576882200, 161795776116578497896588412489539824960],
  [9878929331417353095707937709096576882200, -3907342057752497512434641711856287948600, 161795776116578497896588412489539824960],
  [-3907342057752497512434641711856287948600, -9878929331417353095707937709096576882200, 161795776116578497896588412489539824960],
  [-9878929331417353095707937709096576882200, -3907342057752497512434641711856287948600, 161795776116578497896588412489539824960],
  [7171679213097451960630855612661209399700, 5124918772160976557547928014571001839500, 828466189834048939408134727111137905020],
  [5124918772160976557547928014571001839500, 7171679213097451960630855612661209399700, 828466189834048939408134727111137905020],
  [7171679213097451960630855612661209399700, -5124918772160976557547928014571001839500, 828466189834048939408134727111137905020],
  [-5124918772160976557547928014571001839500, 7171679213097451960630855612661209399700, 828466189834048939408134727111137905020],
  [-7171679213097451960630855612661209399700, 5124918772160976557547928014571001839500, 828466189834048939408134727111137905020],
  [5124918772160976557547928014571001839500, -7171679213097451960630855612661209399700, 828466189834048939408134727111137905020],
  [-7171679213097451960630855612661209399700, -5124918772160976557547928014571001839500, 828466189834048939408134727111137905020],
  [-5124918772160976557547928014571001839500, -7171679213097451960630855612661209399700, 828466189834048939408134727111137905020],
  [2654400078112959960719970586153501497000, 8689024341545042385811961021084783832900, 649890814925960460790598007668156121570],
  [8689024341545042385811961021084783832900, 2654400078112959960719970586153501497000, 649890814925960460790598007668156121570],
  [2654400078112959960719970586153501497000, -8689024341545042385811961021084783832900, 649890814925960460790598007668156121570],
  [-8689024341545042385811961021084783832900, 2654400078112959960719970586153501497000, 649890814925960460790598007668156121570],
  [-2654400078112959960719970586153501497000, 8689024341545042385811961021084783832900, 649890814925960460790598007668156121570],
  [8689024341545042385811961021084783832900, -2654400078112959960719970586153501497000, 649890814925960460790598007668156121570],
  [-2654400078112959960719970586153501497000, -8689024341545042385811961021084783832900, 649890814925960460790598007668156121570],
  [-8689024341545042385811961021084783832900, -2654400078112959960719970586153501497000, 649890814925960460790598007668156121570],
  [6200353986932563976037126380992992825600, 9263029558071292424474852991928612731700, 389805523964105347763966217038685957970],
  [9263029558071292424474852991928612731700, 6200353986932563976037126380992992825600, 389805523964105347763966217038685957970],
  [6200353986932563976037126380992992825600, -9263029558071292424474852991928612731700, 389805523964105347763966217038685957970],
  [-9263029558071292424474852991928612731700, 6200353986932563976037126380992992825600, 389805523964105347763966217038685957970],
  [-6200353986932563976037126380992992825600, 9263029558071292424474852991928612731700, 389805523964105347763966217038685957970],
  [9263029558071292424474852991928612731700, -6200353986932563976037126380992992825600, 389805523964105347763966217038685957970],
  [-6200353986932563976037126380992992825600, -9263029558071292424474852991928612731700, 389805523964105347763966217038685957970],
  [-9263029558071292424474852991928612731700, -6200353986932563976037126380992992825600, 389805523964105347763966217038685957970],
  [8016715847185968425923635894045192391200, 9884465306839737516874615678989075603500, 98894009347434843812884009858441317495],
  [9884465306839737516874615678989075603500, 8016715847185968425923635894045192391200, 98894009347434843812884009858441317495],
  [8016715847185968425923635894045192391200, -9884465306839737516874615678989075603500, 98894009347434843812884009858441317495],
  [-9884465306839737516874615678989075603500, 8016715847185968425923635894045192391200, 98894009347434843812884009858441317495],
  [-8016715847185968425923635894045192391200, 9884465306839737516874615678989075603500, 98894009347434843812884009858441317495],
  [9884465306839737516874615678989075603500, -8016715847185968425923635894045192391200, 98894009347434843812884009858441317495],
  [-8016715847185968425923635894045192391200, -9884465306839737516874615678989075603500, 98894009347434843812884009858441317495],
  [-9884465306839737516874615678989075603500, -8016715847185968425923635894045192391200, 98894009347434843812884009858441317495]]⟩

/-- rules/polyquad/expanded/quad/21-85.txt -/
def quad21 : RuleFile := ⟨21, 85, 40, [
  [0, 0, 1351928403561428252792284038543474614900],
  [4733510743582241520269090183884466621900, 0, 1067941587859403825037542148829566842000],
  [0, 4733510743582241520269090183884466621900, 1067941587859403825037542148829566842000],
  [-4733510743582241520269090183884466621900, 0, 1067941587859403825037542148829566842000],
  [0, -4733510743582241520269090183884466621900, 1067941587859403825037542148829566842000],
  [8352784297558683016052089300949529205400, 0, 662572080049443851590310590201224403390],
  [0, 8352784297558683016052089300949529205400, 662572080049443851590310590201224403390],
  [-8352784297558683016052089300949529205400, 0, 662572080049443851590310590201224403390],
  [0, -8352784297558683016052089300949529205400, 662572080049443851590310590201224403390],
  [2573719006072289819053755213317636919000, 2573719006072289819053755213317636919000, 1198844836463404697047221783566290802800],
  [2573719006072289819053755213317636919000, -2573719006072289819053755213317636919000, 1198844836463404697047221783566290802800],
  [-2573719006072289819053755213317636919000, 2573719006072289819053755213317636919000, 1198844836463404697047221783566290802800],
  [-2573719006072289819053755213317636919000, -2573719006072289819053755213317636919000, 1198844836463404697047221783566290802800],
  [9633378321156233538148435262494573032200, 9633378321156233538148435262494573032200, 82294612892200088282217117254895783997],
  [9633378321156233538148435262494573032200, -9633378321156233538148435262494573032200, 82294612892200088282217117254895783997],
  [-9633378321156233538148435262494573032200, 9633378321156233538148435262494573032200, 82294612892200088282217117254895783997],
  [-9633378321156233538148435262494573032200, -9633378321156233538148435262494573032200, 82294612892200088282217117254895783997],
  [8624519253796515514026760763196821508300, 8624519253796515514026760763196821508300, 306036409287756510381411557047688066830],
  [8624519253796515514026760763196821508300, -8624519253796515514026760763196821508300, 306036409287756510381411557047688066830],
  [-8624519253796515514026760763196821508300, 8624519253796515514026760763196821508300, 306036409287756510381411557047688066830],
  [-8624519253796515514026760763196821508300, -8624519253796515514026760763196821508300, 306036409287756510381411557047688066830],
  [4968979625193457036479361700512923602600, 4968979625193457036479361700512923602600, 967917918935952108424977111278337566110],
  [4968979625193457036479361700512923602600, -4968979625193457036479361700512923602600, 967917918935952108424977111278337566110],
  [-4968979625193457036479361700512923602600, 4968979625193457036479361700512923602600, 967917918935952108424977111278337566110],
  [-4968979625193457036479361700512923602600, -4968979625193457036479361700512923602600, 967917918935952108424977111278337566110],
  [7043321751954005695593259178008072074900, 7043321751954005695593259178008072074900, 615163414813165612017499440099615865080],
  [7043321751954005695593259178008072074900, -7043321751954005695593259178008072074900, 615163414813165612017499440099615865080],
  [-7043321751954005695593259178008072074900, 7043321751954005695593259178008072074900, 615163414813165612017499440099615865080],
  [-7043321751954005695593259178008072074900, -7043321751954005695593259178008072074900, 615163414813165612017499440099615865080],
  [2418781854767019767099705494919224681900, 6741462199553177395024561819153351623600, 867284995132082249039366969995529267520],
  [6741462199553177395024561819153351623600, 2418781854767019767099705494919224681900, 867284995132082249039366969995529267520],
  [2418781854767019767099705494919224681900, -6741462199553177395024561819153351623600, 867284995132082249039366969995529267520],
  [-6741462199553177395024561819153351623600, 2418781854767019767099705494919224681900, 867284995132082249039366969995529267520],
  [-2418781854767019767099705494919224681900, 6741462199553177395024561819153351623600, 867284995132082249039366969995529267520],
  [6741462199553177395024561819153351623600, -2418781854767019767099705494919224681900, 867284995132082249039366969995529267520],
  [-2418781854767019767099705494919224681900, -6741462199553177395024561819153351623600, 867284995132082249039366969995529267520],
  [-6741462199553177395024561819153351623600, -2418781854767019767099705494919224681900, 867284995132082249039366969995529267520],
  [4801569663127951371572638910791307215800, 8246473752709207382788122119170072956200, 558791174041273480630478582041178272920],
  [8246473752709207382788122119170072956200, 4801569663127951371572638910791307215800, 558791174041273480630478582041178272920],
  [4801569663127951371572638910791307215800, -8246473752709207382788122119170072956200, 558791174041273480630478582041178272920],
  [-8246473752709207382788122119170072956200, 4801569663127951371572638910791307215800, 558791174041273480630478582041178272920],
  [-4801569663127951371572638910791307215800, 8246473752709207382788122119170072956200, 558791174041273480630478582041178272920],
  [8246473752709207382788122119170072956200, -4801569663127951371572638910791307215800, 558791174041273480630478582041178272920],
  [-4801569663127951371572638910791307215800, -8246473752709207382788122119170072956200, 558791174041273480630478582041178272920],
  [-8246473752709207382788122119170072956200, -4801569663127951371572638910791307215800, 558791174041273480630478582041178272920],
  [9322419359217539620750021194199308012900, 2706991841016649108910146937037334475700, 371288274409138176533307189548769609240],
  [2706991841016649108910146937037334475700, 9322419359217539620750021194199308012900, 371288274409138176533307189548769609240],
  [9322419359217539620750021194199308012900, -2706991841016649108910146937037334475700, 371288274409138176533307189548769609240],
  [-2706991841016649108910146937037334475700, 9322419359217539620750021194199308012900, 371288274409138176533307189548769609240],
  [-9322419359217539620750021194199308012900, 2706991841016649108910146937037334475700, 371288274409138176533307189548769609240],
  [2706991841016649108910146937037334475700, -9322419359217539620750021194199308012900, 371288274409138176533307189548769609240],
  [-9322419359217539620750021194199308012900, -2706991841016649108910146937037334475700, 371288274409138176533307189548769609240],
  [-2706991841016649108910146937037334475700, -9322419359217539620750021194199308012900, 371288274409138176533307189548769609240],
  [9349023258240105461335443874077112411500, 6750395674370752693720889635598412588300, 287756008510205317675793676269407659840],
  [6750395674370752693720889635598412588300, 9349023258240105461335443874077112411500, 287756008510205317675793676269407659840],
  [9349023258240105461335443874077112411500, -6750395674370752693720889635598412588300, 287756008510205317675793676269407659840],
  [-6750395674370752693720889635598412588300, 9349023258240105461335443874077112411500, 287756008510205317675793676269407659840],
  [-9349023258240105461335443874077112411500, 6750395674370752693720889635598412588300, 287756008510205317675793676269407659840],
  [6750395674370752693720889635598412588300, -9349023258240105461335443874077112411500, 287756008510205317675793676269407659840],
  [-9349023258240105461335443874077112411500, -6750395674370752693720889635598412588300, 287756008510205317675793676269407659840],
  [-6750395674370752693720889635598412588300, -9349023258240105461335443874077112411500, 287756008510205317675793676269407659840],
  [9904554675295241527219745889588211175700, 4889162511771668793781188755393444444400, 115095204424931675782611383081884608480],
  [4889162511771668793781188755393444444400, 9904554675295241527219745889588211175700, 115095204424931675782611383081884608480],
  [9904554675295241527219745889588211175700, -4889162511771668793781188755393444444400, 115095204424931675782611383081884608480],
  [-4889162511771668793781188755393444444400, 9904554675295241527219745889588211175700, 115095204424931675782611383081884608480],
  [-9904554675295241527219745889588211175700, 4889162511771668793781188755393444444400, 115095204424931675782611383081884608480],
  [4889162511771668793781188755393444444400, -9904554675295241527219745889588211175700, 115095204424931675782611383081884608480],
  [-9904554675295241527219745889588211175700, -4889162511771668793781188755393444444400, 115095204424931675782611383081884608480],
  [-4889162511771668793781188755393444444400, -9904554675295241527219745889588211175700, 115095204424931675782611383081884608480],
  [8311352459759013858597438921289840735300, 9889606113865723916624357837863114504800, 75284821304016457091249399363317448912],
  [9889606113865723916624357837863114504800, 8311352459759013858597438921289840735300, 75284821304016457091249399363317448912],
  [8311352459759013858597438921289840735300, -9889606113865723916624357837863114504800, 75284821304016457091249399363317448912],
  [-9889606113865723916624357837863114504800, 8311352459759013858597438921289840735300, 75284821304016457091249399363317448912],
  [-8311352459759013858597438921289840735300, 9889606113865723916624357837863114504800, 75284821304016457091249399363317448912],
  [9889606113865723916624357837863114504800, -8311352459759013858597438921289840735300, 75284821304016457091249399363317448912],
  [-8311352459759013858597438921289840735300, -9889606113865723916624357837863114504800, 75284821304016457091249399363317448912],
  [-9889606113865723916624357837863114504800, -8311352459759013858597438921289840735300, 75284821304016457091249399363317448912],
  [914696009222912966684438285734718809480, 9840171484895989286601375587256458989300, 105123041582510765257567420743169141140],
  [9840171484895989286601375587256458989300, 914696009222912966684438285734718809480, 105123041582510765257567420743169141140],
  [914696009222912966684438285734718809480, -9840171484895989286601375587256458989300, 105123041582510765257567420743169141140],
  [-9840171484895989286601375587256458989300, 914696009222912966684438285734718809480, 105123041582510765257567420743169141140],
  [-914696009222912966684438285734718809480, 9840171484895989286601375587256458989300, 105123041582510765257567420743169141140],
  [9840171484895989286601375587256458989300, -914696009222912966684438285734718809480, 105123041582510765257567420743169141140],
  [-914696009222912966684438285734718809480, -9840171484895989286601375587256458989300, 105123041582510765257567420743169141140],
  [-9840171484895989286601375587256458989300, -914696009222912966684438285734718809480, 105123041582510765257567420743169141140]]⟩

/-- The files in rules/polyquad/expanded/quad, in the order of their strengths. -/
def quadFiles : List RuleFile := [quad1, quad3, quad5, quad7, quad9, quad11, quad13, quad15, quad17, quad19, quad21]

end Fenris.ShippedRules
