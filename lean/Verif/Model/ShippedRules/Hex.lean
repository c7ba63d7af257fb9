import Verif.Model.ShippedRules.Basic
/-! # The rules in fenris-quadrature/rules/polyquad/expanded/hex

Generated from the files. Every row is a line of the file: 3 coordinates and the weight. -/
set_option autoImplicit false

namespace Fenris.ShippedRules

/-- rules/polyquad/expanded/hex/1-1.txt -/
def hex1 : RuleFile := ⟨1, 1, 0, [
  [0, 0, 0, 8]]⟩

/-- rules/polyquad/expanded/hex/3-6.txt -/
def hex3 : RuleFile := ⟨3, 6, 37, [
  [-10000000000000000000000000000000000000, 0, 0, 13333333333333333333333333333333333333],
  [0, 0, 10000000000000000000000000000000000000, 13333333333333333333333333333333333333],
  [0, 10000000000000000000000000000000000000, 0, 13333333333333333333333333333333333333],
  [0, 0, -10000000000000000000000000000000000000, 13333333333333333333333333333333333333],
  [10000000000000000000000000000000000000, 0, 0, 13333333333333333333333333333333333333],
  [0, -10000000000000000000000000000000000000, 0, 13333333333333333333333333333333333333]]⟩

/-- rules/polyquad/expanded/hex/5-14.txt -/
def hex5 : RuleFile := ⟨5, 14, 38, [
  [-79582242575422146326454882047613584616, 0, 0, 88642659279778393351800554016620498615],
  [0, 0, 79582242575422146326454882047613584616, 88642659279778393351800554016620498615],
  [0, 79582242575422146326454882047613584616, 0, 88642659279778393351800554016620498615],
  [0, 0, -79582242575422146326454882047613584616, 88642659279778393351800554016620498615],
  [79582242575422146326454882047613584616, 0, 0, 88642659279778393351800554016620498615],
  [0, -79582242575422146326454882047613584616, 0, 88642659279778393351800554016620498615],
  [75878691063932814626903427811226742764, -75878691063932814626903427811226742764, -75878691063932814626903427811226742764, 33518005540166204986149584487534626039],
  [-75878691063932814626903427811226742764, 75878691063932814626903427811226742764, 75878691063932814626903427811226742764, 33518005540166204986149584487534626039],
  [-75878691063932814626903427811226742764, 75878691063932814626903427811226742764, -75878691063932814626903427811226742764, 33518005540166204986149584487534626039],
  [-75878691063932814626903427811226742764, -75878691063932814626903427811226742764, -75878691063932814626903427811226742764, 33518005540166204986149584487534626039],
  [-75878691063932814626903427811226742764, -75878691063932814626903427811226742764, 75878691063932814626903427811226742764, 33518005540166204986149584487534626039],
  [75878691063932814626903427811226742764, 75878691063932814626903427811226742764, -75878691063932814626903427811226742764, 33518005540166204986149584487534626039],
  [75878691063932814626903427811226742764, 75878691063932814626903427811226742764, 75878691063932814626903427811226742764, 33518005540166204986149584487534626039],
  [75878691063932814626903427811226742764, -75878691063932814626903427811226742764, 75878691063932814626903427811226742764, 33518005540166204986149584487534626039]]⟩

/-- rules/polyquad/expanded/hex/7-34.txt -/
def hex7 : RuleFile := ⟨7, 34, 38, [
  [-98808616118867654860459729594655654482, 0, 0, 20012989098356700695575850638756794678],
  [0, 0, 98808616118867654860459729594655654482, 20012989098356700695575850638756794678],
  [0, 98808616118867654860459729594655654482, 0, 20012989098356700695575850638756794678],
  [0, 0, -98808616118867654860459729594655654482, 20012989098356700695575850638756794678],
  [98808616118867654860459729594655654482, 0, 0, 20012989098356700695575850638756794678],
  [0, -98808616118867654860459729594655654482, 0, 20012989098356700695575850638756794678],
  [40795516735831936633080916251520586856, -40795516735831936633080916251520586856, -40795516735831936633080916251520586856, 45715385606985274296912190785204854361],
  [-40795516735831936633080916251520586856, 40795516735831936633080916251520586856, 40795516735831936633080916251520586856, 45715385606985274296912190785204854361],
  [-40795516735831936633080916251520586856, 40795516735831936633080916251520586856, -40795516735831936633080916251520586856, 45715385606985274296912190785204854361],
  [-40795516735831936633080916251520586856, -40795516735831936633080916251520586856, -40795516735831936633080916251520586856, 45715385606985274296912190785204854361],
  [-40795516735831936633080916251520586856, -40795516735831936633080916251520586856, 40795516735831936633080916251520586856, 45715385606985274296912190785204854361],
  [40795516735831936633080916251520586856, 40795516735831936633080916251520586856, -40795516735831936633080916251520586856, 45715385606985274296912190785204854361],
  [40795516735831936633080916251520586856, 40795516735831936633080916251520586856, 40795516735831936633080916251520586856, 45715385606985274296912190785204854361],
  [40795516735831936633080916251520586856, -40795516735831936633080916251520586856, 40795516735831936633080916251520586856, 45715385606985274296912190785204854361],
  [78110282100411850665136814715928740203, -78110282100411850665136814715928740203, -78110282100411850665136814715928740203, 15379614006595869408326783499527494637],
  [-78110282100411850665136814715928740203, 78110282100411850665136814715928740203, 78110282100411850665136814715928740203, 15379614006595869408326783499527494637],
  [-78110282100411850665136814715928740203, 78110282100411850665136814715928740203, -78110282100411850665136814715928740203, 15379614006595869408326783499527494637],
  [-78110282100411850665136814715928740203, -78110282100411850665136814715928740203, -78110282100411850665136814715928740203, 15379614006595869408326783499527494637],
  [-78110282100411850665136814715928740203, -78110282100411850665136814715928740203, 78110282100411850665136814715928740203, 15379614006595869408326783499527494637],
  [78110282100411850665136814715928740203, 78110282100411850665136814715928740203, -78110282100411850665136814715928740203, 15379614006595869408326783499527494637],
  [78110282100411850665136814715928740203, 78110282100411850665136814715928740203, 78110282100411850665136814715928740203, 15379614006595869408326783499527494637],
  [78110282100411850665136814715928740203, -78110282100411850665136814715928740203, 78110282100411850665136814715928740203, 15379614006595869408326783499527494637],
  [-84805227568403872779622085759407839383, -84805227568403872779622085759407839383, 0, 15930172375100887182052758490800036662],
  [84805227568403872779622085759407839383, 0, -84805227568403872779622085759407839383, 15930172375100887182052758490800036662],
  [0, 84805227568403872779622085759407839383, -84805227568403872779622085759407839383, 15930172375100887182052758490800036662],
  [84805227568403872779622085759407839383, 84805227568403872779622085759407839383, 0, 15930172375100887182052758490800036662],
  [84805227568403872779622085759407839383, 0, 84805227568403872779622085759407839383, 15930172375100887182052758490800036662],
  [0, -84805227568403872779622085759407839383, 84805227568403872779622085759407839383, 15930172375100887182052758490800036662],
  [0, -84805227568403872779622085759407839383, -84805227568403872779622085759407839383, 15930172375100887182052758490800036662],
  [-84805227568403872779622085759407839383, 0, 84805227568403872779622085759407839383, 15930172375100887182052758490800036662],
  [-84805227568403872779622085759407839383, 84805227568403872779622085759407839383, 0, 15930172375100887182052758490800036662],
  [84805227568403872779622085759407839383, -84805227568403872779622085759407839383, 0, 15930172375100887182052758490800036662],
  [0, 84805227568403872779622085759407839383, 84805227568403872779622085759407839383, 15930172375100887182052758490800036662],
  [-84805227568403872779622085759407839383, 0, -84805227568403872779622085759407839383, 15930172375100887182052758490800036662]]⟩

/-- rules/polyquad/expanded/hex/9-58.txt -/
def hex9 : RuleFile := ⟨9, 58, 39, [
  [-613681469591708993834884889740556884520, 0, 0, 433274995749654543009830793194322008130],
  [0, 0, 613681469591708993834884889740556884520, 433274995749654543009830793194322008130],
  [0, 613681469591708993834884889740556884520, 0, 433274995749654543009830793194322008130],
  [0, 0, -613681469591708993834884889740556884520, 433274995749654543009830793194322008130],
  [613681469591708993834884889740556884520, 0, 0, 433274995749654543009830793194322008130],
  [0, -613681469591708993834884889740556884520, 0, 433274995749654543009830793194322008130],
  [870099784661975917615063808863924833060, -870099784661975917615063808863924833060, -870099784661975917615063808863924833060, 50148795299349029867451487724661687604],
  [-870099784661975917615063808863924833060, 870099784661975917615063808863924833060, 870099784661975917615063808863924833060, 50148795299349029867451487724661687604],
  [-870099784661975917615063808863924833060, 870099784661975917615063808863924833060, -870099784661975917615063808863924833060, 50148795299349029867451487724661687604],
  [-870099784661975917615063808863924833060, -870099784661975917615063808863924833060, -870099784661975917615063808863924833060, 50148795299349029867451487724661687604],
  [-870099784661975917615063808863924833060, -870099784661975917615063808863924833060, 870099784661975917615063808863924833060, 50148795299349029867451487724661687604],
  [870099784661975917615063808863924833060, 870099784661975917615063808863924833060, -870099784661975917615063808863924833060, 50148795299349029867451487724661687604],
  [870099784661975917615063808863924833060, 870099784661975917615063808863924833060, 870099784661975917615063808863924833060, 50148795299349029867451487724661687604],
  [870099784661975917615063808863924833060, -870099784661975917615063808863924833060, 870099784661975917615063808863924833060, 50148795299349029867451487724661687604],
  [564110807020030054266618998663072830660, -564110807020030054266618998663072830660, -564110807020030054266618998663072830660, 198859838144023500320868718585609207970],
  [-564110807020030054266618998663072830660, 564110807020030054266618998663072830660, 564110807020030054266618998663072830660, 198859838144023500320868718585609207970],
  [-564110807020030054266618998663072830660, 564110807020030054266618998663072830660, -564110807020030054266618998663072830660, 198859838144023500320868718585609207970],
  [-564110807020030054266618998663072830660, -564110807020030054266618998663072830660, -564110807020030054266618998663072830660, 198859838144023500320868718585609207970],
  [-564110807020030054266618998663072830660, -564110807020030054266618998663072830660, 564110807020030054266618998663072830660, 198859838144023500320868718585609207970],
  [564110807020030054266618998663072830660, 564110807020030054266618998663072830660, -564110807020030054266618998663072830660, 198859838144023500320868718585609207970],
  [564110807020030054266618998663072830660, 564110807020030054266618998663072830660, 564110807020030054266618998663072830660, 198859838144023500320868718585609207970],
  [564110807020030054266618998663072830660, -564110807020030054266618998663072830660, 564110807020030054266618998663072830660, 198859838144023500320868718585609207970],
  [-877687123257678286486775758994332362640, -877687123257678286486775758994332362640, 0, 91789806136177642171244588919646331302],
  [877687123257678286486775758994332362640, 0, -877687123257678286486775758994332362640, 91789806136177642171244588919646331302],
  [0, 877687123257678286486775758994332362640, -877687123257678286486775758994332362640, 91789806136177642171244588919646331302],
  [877687123257678286486775758994332362640, 877687123257678286486775758994332362640, 0, 91789806136177642171244588919646331302],
  [877687123257678286486775758994332362640, 0, 877687123257678286486775758994332362640, 91789806136177642171244588919646331302],
  [0, -877687123257678286486775758994332362640, 877687123257678286486775758994332362640, 91789806136177642171244588919646331302],
  [0, -877687123257678286486775758994332362640, -877687123257678286486775758994332362640, 91789806136177642171244588919646331302],
  [-877687123257678286486775758994332362640, 0, 877687123257678286486775758994332362640, 91789806136177642171244588919646331302],
  [-877687123257678286486775758994332362640, 877687123257678286486775758994332362640, 0, 91789806136177642171244588919646331302],
  [877687123257678286486775758994332362640, -877687123257678286486775758994332362640, 0, 91789806136177642171244588919646331302],
  [0, 877687123257678286486775758994332362640, 877687123257678286486775758994332362640, 91789806136177642171244588919646331302],
  [-877687123257678286486775758994332362640, 0, -877687123257678286486775758994332362640, 91789806136177642171244588919646331302],
  [432267902630862164416024861516943839090, 938530421864671745328976869603078795080, -432267902630862164416024861516943839090, 96116803513373366432479938471506033790],
  [-432267902630862164416024861516943839090, -938530421864671745328976869603078795080, 432267902630862164416024861516943839090, 96116803513373366432479938471506033790],
  [-432267902630862164416024861516943839090, 938530421864671745328976869603078795080, -432267902630862164416024861516943839090, 96116803513373366432479938471506033790],
  [-938530421864671745328976869603078795080, -432267902630862164416024861516943839090, 432267902630862164416024861516943839090, 96116803513373366432479938471506033790],
  [-432267902630862164416024861516943839090, -432267902630862164416024861516943839090, 938530421864671745328976869603078795080, 96116803513373366432479938471506033790],
  [938530421864671745328976869603078795080, 432267902630862164416024861516943839090, -432267902630862164416024861516943839090, 96116803513373366432479938471506033790],
  [432267902630862164416024861516943839090, -938530421864671745328976869603078795080, -432267902630862164416024861516943839090, 96116803513373366432479938471506033790],
  [432267902630862164416024861516943839090, -938530421864671745328976869603078795080, 432267902630862164416024861516943839090, 96116803513373366432479938471506033790],
  [-432267902630862164416024861516943839090, -938530421864671745328976869603078795080, -432267902630862164416024861516943839090, 96116803513373366432479938471506033790],
  [432267902630862164416024861516943839090, 432267902630862164416024861516943839090, -938530421864671745328976869603078795080, 96116803513373366432479938471506033790],
  [-938530421864671745328976869603078795080, 432267902630862164416024861516943839090, -432267902630862164416024861516943839090, 96116803513373366432479938471506033790],
  [-432267902630862164416024861516943839090, 432267902630862164416024861516943839090, -938530421864671745328976869603078795080, 96116803513373366432479938471506033790],
  [-432267902630862164416024861516943839090, 432267902630862164416024861516943839090, 938530421864671745328976869603078795080, 96116803513373366432479938471506033790],
  [-432267902630862164416024861516943839090, -432267902630862164416024861516943839090, -938530421864671745328976869603078795080, 96116803513373366432479938471506033790],
  [432267902630862164416024861516943839090, -432267902630862164416024861516943839090, 938530421864671745328976869603078795080, 96116803513373366432479938471506033790],
  [938530421864671745328976869603078795080, -432267902630862164416024861516943839090, -432267902630862164416024861516943839090, 96116803513373366432479938471506033790],
  [432267902630862164416024861516943839090, 938530421864671745328976869603078795080, 432267902630862164416024861516943839090, 96116803513373366432479938471506033790],
  [938530421864671745328976869603078795080, 432267902630862164416024861516943839090, 432267902630862164416024861516943839090, 96116803513373366432479938471506033790],
  [938530421864671745328976869603078795080, -432267902630862164416024861516943839090, 432267902630862164416024861516943839090, 96116803513373366432479938471506033790],
  [-938530421864671745328976869603078795080, 432267902630862164416024861516943839090, 432267902630862164416024861516943839090, 96116803513373366432479938471506033790],
  [432267902630862164416024861516943839090, 432267902630862164416024861516943839090, 938530421864671745328976869603078795080, 96116803513373366432479938471506033790],
  [-432267902630862164416024861516943839090, 938530421864671745328976869603078795080, 432267902630862164416024861516943839090, 96116803513373366432479938471506033790],
  [432267902630862164416024861516943839090, -432267902630862164416024861516943839090, -938530421864671745328976869603078795080, 96116803513373366432479938471506033790],
  [-938530421864671745328976869603078795080, -432267902630862164416024861516943839090, -432267902630862164416024861516943839090, 96116803513373366432479938471506033790]]⟩

/-- rules/polyquad/expanded/hex/11-90.txt -/
def hex11 : RuleFile := ⟨11, 90, 39, [
  [-812614334099626496392375597379744326110, 0, 0, 202477073612800190585337130967019658900],
  [0, 0, 812614334099626496392375597379744326110, 202477073612800190585337130967019658900],
  [0, 812614334099626496392375597379744326110, 0, 202477073612800190585337130967019658900],
  [0, 0, -812614334099626496392375597379744326110, 202477073612800190585337130967019658900],
  [812614334099626496392375597379744326110, 0, 0, 202477073612800190585337130967019658900],
  [0, -812614334099626496392375597379744326110, 0, 202477073612800190585337130967019658900],
  [601675264198262701634413005785317496590, -601675264198262701634413005785317496590, -601675264198262701634413005785317496590, 117538347956456280389931804010682127110],
  [-601675264198262701634413005785317496590, 601675264198262701634413005785317496590, 601675264198262701634413005785317496590, 117538347956456280389931804010682127110],
  [-601675264198262701634413005785317496590, 601675264198262701634413005785317496590, -601675264198262701634413005785317496590, 117538347956456280389931804010682127110],
  [-601675264198262701634413005785317496590, -601675264198262701634413005785317496590, -601675264198262701634413005785317496590, 117538347956456280389931804010682127110],
  [-601675264198262701634413005785317496590, -601675264198262701634413005785317496590, 601675264198262701634413005785317496590, 117538347956456280389931804010682127110],
  [601675264198262701634413005785317496590, 601675264198262701634413005785317496590, -601675264198262701634413005785317496590, 117538347956456280389931804010682127110],
  [601675264198262701634413005785317496590, 601675264198262701634413005785317496590, 601675264198262701634413005785317496590, 117538347956456280389931804010682127110],
  [601675264198262701634413005785317496590, -601675264198262701634413005785317496590, 601675264198262701634413005785317496590, 117538347956456280389931804010682127110],
  [855455761017759984675091470690346575980, -855455761017759984675091470690346575980, -855455761017759984675091470690346575980, 44643912078829241641001154282130043664],
  [-855455761017759984675091470690346575980, 855455761017759984675091470690346575980, 855455761017759984675091470690346575980, 44643912078829241641001154282130043664],
  [-855455761017759984675091470690346575980, 855455761017759984675091470690346575980, -855455761017759984675091470690346575980, 44643912078829241641001154282130043664],
  [-855455761017759984675091470690346575980, -855455761017759984675091470690346575980, -855455761017759984675091470690346575980, 44643912078829241641001154282130043664],
  [-855455761017759984675091470690346575980, -855455761017759984675091470690346575980, 855455761017759984675091470690346575980, 44643912078829241641001154282130043664],
  [855455761017759984675091470690346575980, 855455761017759984675091470690346575980, -855455761017759984675091470690346575980, 44643912078829241641001154282130043664],
  [855455761017759984675091470690346575980, 855455761017759984675091470690346575980, 855455761017759984675091470690346575980, 44643912078829241641001154282130043664],
  [855455761017759984675091470690346575980, -855455761017759984675091470690346575980, 855455761017759984675091470690346575980, 44643912078829241641001154282130043664],
  [313393404516054721045773230557951299410, -313393404516054721045773230557951299410, -313393404516054721045773230557951299410, 215992045254969129313466666384441313610],
  [-313393404516054721045773230557951299410, 313393404516054721045773230557951299410, 313393404516054721045773230557951299410, 215992045254969129313466666384441313610],
  [-313393404516054721045773230557951299410, 313393404516054721045773230557951299410, -313393404516054721045773230557951299410, 215992045254969129313466666384441313610],
  [-313393404516054721045773230557951299410, -313393404516054721045773230557951299410, -313393404516054721045773230557951299410, 215992045254969129313466666384441313610],
  [-313393404516054721045773230557951299410, -313393404516054721045773230557951299410, 313393404516054721045773230557951299410, 215992045254969129313466666384441313610],
  [313393404516054721045773230557951299410, 313393404516054721045773230557951299410, -313393404516054721045773230557951299410, 215992045254969129313466666384441313610],
  [313393404516054721045773230557951299410, 313393404516054721045773230557951299410, 313393404516054721045773230557951299410, 215992045254969129313466666384441313610],
  [313393404516054721045773230557951299410, -313393404516054721045773230557951299410, 313393404516054721045773230557951299410, 215992045254969129313466666384441313610],
  [-734668286997008017346384769867549187920, -734668286997008017346384769867549187920, 0, 145199345860115698292505800794259823050],
  [734668286997008017346384769867549187920, 0, -734668286997008017346384769867549187920, 145199345860115698292505800794259823050],
  [0, 734668286997008017346384769867549187920, -734668286997008017346384769867549187920, 145199345860115698292505800794259823050],
  [734668286997008017346384769867549187920, 734668286997008017346384769867549187920, 0, 145199345860115698292505800794259823050],
  [734668286997008017346384769867549187920, 0, 734668286997008017346384769867549187920, 145199345860115698292505800794259823050],
  [0, -734668286997008017346384769867549187920, 734668286997008017346384769867549187920, 145199345860115698292505800794259823050],
  [0, -734668286997008017346384769867549187920, -734668286997008017346384769867549187920, 145199345860115698292505800794259823050],
  [-734668286997008017346384769867549187920, 0, 734668286997008017346384769867549187920, 145199345860115698292505800794259823050],
  [-734668286997008017346384769867549187920, 734668286997008017346384769867549187920, 0, 145199345860115698292505800794259823050],
  [734668286997008017346384769867549187920, -734668286997008017346384769867549187920, 0, 145199345860115698292505800794259823050],
  [0, 734668286997008017346384769867549187920, 734668286997008017346384769867549187920, 145199345860115698292505800794259823050],
  [-734668286997008017346384769867549187920, 0, -734668286997008017346384769867549187920, 145199345860115698292505800794259823050],
  [450799935114509430377884345730269523980, 965099665512710262930281823125344568210, -450799935114509430377884345730269523980, 61441994097835335202750044633046200824],
  [-450799935114509430377884345730269523980, -965099665512710262930281823125344568210, 450799935114509430377884345730269523980, 61441994097835335202750044633046200824],
  [-450799935114509430377884345730269523980, 965099665512710262930281823125344568210, -450799935114509430377884345730269523980, 61441994097835335202750044633046200824],
  [-965099665512710262930281823125344568210, -450799935114509430377884345730269523980, 450799935114509430377884345730269523980, 61441994097835335202750044633046200824],
  [-450799935114509430377884345730269523980, -450799935114509430377884345730269523980, 965099665512710262930281823125344568210, 61441994097835335202750044633046200824],
  [965099665512710262930281823125344568210, 450799935114509430377884345730269523980, -450799935114509430377884345730269523980, 61441994097835335202750044633046200824],
  [450799935114509430377884345730269523980, -965099665512710262930281823125344568210, -450799935114509430377884345730269523980, 61441994097835335202750044633046200824],
  [450799935114509430377884345730269523980, -965099665512710262930281823125344568210, 450799935114509430377884345730269523980, 61441994097835335202750044633046200824],
  [-450799935114509430377884345730269523980, -965099665512710262930281823125344568210, -450799935114509430377884345730269523980, 61441994097835335202750044633046200824],
  [450799935114509430377884345730269523980, 450799935114509430377884345730269523980, -965099665512710262930281823125344568210, 61441994097835335202750044633046200824],
  [-965099665512710262930281823125344568210, 450799935114509430377884345730269523980, -450799935114509430377884345730269523980, 61441994097835335202750044633046200824],
  [-450799935114509430377884345730269523980, 450799935114509430377884345730269523980, -965099665512710262930281823125344568210, 61441994097835335202750044633046200824],
  [-450799935114509430377884345730269523980, 450799935114509430377884345730269523980, 965099665512710262930281823125344568210, 61441994097835335202750044633046200824],
  [-450799935114509430377884345730269523980, -450799935114509430377884345730269523980, -965099665512710262930281823125344568210, 61441994097835335202750044633046200824],
  [450799935114509430377884345730269523980, -450799935114509430377884345730269523980, 965099665512710262930281823125344568210, 61441994097835335202750044633046200824],
  [965099665512710262930281823125344568210, -450799935114509430377884345730269523980, -450799935114509430377884345730269523980, 61441994097835335202750044633046200824],
  [450799935114509430377884345730269523980, 965099665512710262930281823125344568210, 450799935114509430377884345730269523980, 61441994097835335202750044633046200824],
  [965099665512710262930281823125344568210, 450799935114509430377884345730269523980, 450799935114509430377884345730269523980, 61441994097835335202750044633046200824],
  [965099665512710262930281823125344568210, -450799935114509430377884345730269523980, 450799935114509430377884345730269523980, 61441994097835335202750044633046200824],
  [-965099665512710262930281823125344568210, 450799935114509430377884345730269523980, 450799935114509430377884345730269523980, 61441994097835335202750044633046200824],
  [450799935114509430377884345730269523980, 450799935114509430377884345730269523980, 965099665512710262930281823125344568210, 61441994097835335202750044633046200824],
  [-450799935114509430377884345730269523980, 965099665512710262930281823125344568210, 450799935114509430377884345730269523980, 61441994097835335202750044633046200824],
  [450799935114509430377884345730269523980, -450799935114509430377884345730269523980, -965099665512710262930281823125344568210, 61441994097835335202750044633046200824],
  [-965099665512710262930281823125344568210, -450799935114509430377884345730269523980, -450799935114509430377884345730269523980, 61441994097835335202750044633046200824],
  [941244857210603263911150157631134641390, 353902814596630134910312870812891676260, -941244857210603263911150157631134641390, 22614296138821884223196230668984478131],
  [-941244857210603263911150157631134641390, -353902814596630134910312870812891676260, 941244857210603263911150157631134641390, 22614296138821884223196230668984478131],
  [-941244857210603263911150157631134641390, 353902814596630134910312870812891676260, -941244857210603263911150157631134641390, 22614296138821884223196230668984478131],
  [-353902814596630134910312870812891676260, -941244857210603263911150157631134641390, 941244857210603263911150157631134641390, 22614296138821884223196230668984478131],
  [-941244857210603263911150157631134641390, -941244857210603263911150157631134641390, 353902814596630134910312870812891676260, 22614296138821884223196230668984478131],
  [353902814596630134910312870812891676260, 941244857210603263911150157631134641390, -941244857210603263911150157631134641390, 22614296138821884223196230668984478131],
  [941244857210603263911150157631134641390, -353902814596630134910312870812891676260, -941244857210603263911150157631134641390, 22614296138821884223196230668984478131],
  [941244857210603263911150157631134641390, -353902814596630134910312870812891676260, 941244857210603263911150157631134641390, 22614296138821884223196230668984478131],
  [-941244857210603263911150157631134641390, -353902814596630134910312870812891676260, -941244857210603263911150157631134641390, 22614296138821884223196230668984478131],
  [941244857210603263911150157631134641390, 941244857210603263911150157631134641390, -353902814596630134910312870812891676260, 22614296138821884223196230668984478131],
  [-353902814596630134910312870812891676260, 941244857210603263911150157631134641390, -941244857210603263911150157631134641390, 22614296138821884223196230668984478131],
  [-941244857210603263911150157631134641390, 941244857210603263911150157631134641390, -353902814596630134910312870812891676260, 22614296138821884223196230668984478131],
  [-941244857210603263911150157631134641390, 941244857210603263911150157631134641390, 353902814596630134910312870812891676260, 22614296138821884223196230668984478131],
  [-941244857210603263911150157631134641390, -941244857210603263911150157631134641390, -353902814596630134910312870812891676260, 22614296138821884223196230668984478131],
  [941244857210603263911150157631134641390, -941244857210603263911150157631134641390, 353902814596630134910312870812891676260, 22614296138821884223196230668984478131],
  [353902814596630134910312870812891676260, -941244857210603263911150157631134641390, -941244857210603263911150157631134641390, 22614296138821884223196230668984478131],
  [941244857210603263911150157631134641390, 353902814596630134910312870812891676260, 941244857210603263911150157631134641390, 22614296138821884223196230668984478131],
  [353902814596630134910312870812891676260, 941244857210603263911150157631134641390, 941244857210603263911150157631134641390, 22614296138821884223196230668984478131],
  [353902814596630134910312870812891676260, -941244857210603263911150157631134641390, 941244857210603263911150157631134641390, 22614296138821884223196230668984478131],
  [-353902814596630134910312870812891676260, 941244857210603263911150157631134641390, 941244857210603263911150157631134641390, 22614296138821884223196230668984478131],
  [941244857210603263911150157631134641390, 941244857210603263911150157631134641390, 353902814596630134910312870812891676260, 22614296138821884223196230668984478131],
  [-941244857210603263911150157631134641390, 353902814596630134910312870812891676260, 941244857210603263911150157631134641390, 22614296138821884223196230668984478131],
  [941244857210603263911150157631134641390, -941244857210603263911150157631134641390, -353902814596630134910312870812891676260, 22614296138821884223196230668984478131],
  [-353902814596630134910312870812891676260, -941244857210603263911150157631134641390, -941244857210603263911150157631134641390, 22614296138821884223196230668984478131]]⟩

/-- The files in rules/polyquad/expanded/hex, in the order of their strengths. -/
def hexFiles : List RuleFile := [hex1, hex3, hex5, hex7, hex9, hex11]

end Fenris.ShippedRules
