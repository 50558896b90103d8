import Verif.Lemmas.Boxes

/-!
# Ranges of the variables of bicycle.py:105-165, written by tools/gen_rounding.py
-/

namespace BP

/-- Ranges for `benchmarkBicycle` (bicycle.py:105-165). -/
def benchmarkBicycleRanges : Dict Box :=
  [("mT", ⟨93999999999999929167771027 / 1000000000000000000000000,
     94000000000000070832228973 / 1000000000000000000000000⟩),
   ("xT", ⟨342127659574467454691693 / 1000000000000000000000000,
     342127659574468715521073 / 1000000000000000000000000⟩),
   ("zT", ⟨-861170212765959231464382 / 1000000000000000000000000,
     -861170212765955662152640 / 1000000000000000000000000⟩),
   ("ITxx", ⟨80817219999999881890759833 / 1000000000000000000000000,
     80817220000000118109240167 / 1000000000000000000000000⟩),
   ("ITxz", ⟨28933439999999960336607428 / 1000000000000000000000000,
     28933440000000039663392572 / 1000000000000000000000000⟩),
   ("IRzz", ⟨60299999999999993305354 / 1000000000000000000000000,
     60300000000000006694646 / 1000000000000000000000000⟩),
   ("IFzz", ⟨140499999999999984401365 / 1000000000000000000000000,
     140500000000000015598635 / 1000000000000000000000000⟩),
   ("ITzz", ⟨17019079999999977606015551 / 1000000000000000000000000,
     17019080000000022393984449 / 1000000000000000000000000⟩),
   ("mA", ⟨6999999999999997668531647 / 1000000000000000000000000,
     7000000000000002331468353 / 1000000000000000000000000⟩),
   ("xA", ⟨951428571428570266643730 / 1000000000000000000000000,
     951428571428572590499127 / 1000000000000000000000000⟩),
   ("zA", ⟨-550000000000000671684931 / 1000000000000000000000000,
     -549999999999999328315069 / 1000000000000000000000000⟩),
   ("IAxx", ⟨409419999999997816642057 / 1000000000000000000000000,
     409420000000002183357943 / 1000000000000000000000000⟩),
   ("IAxz", ⟨-79560000000001921520090 / 1000000000000000000000000,
     -79559999999998078479910 / 1000000000000000000000000⟩),
   ("IAzz", ⟨172265714285713094723347 / 1000000000000000000000000,
     172265714285715476705224 / 1000000000000000000000000⟩),
   ("uA", ⟨28659521628082337533180 / 1000000000000000000000000,
     28659521628085624693133 / 1000000000000000000000000⟩),
   ("IAll", ⟨153897316014264419165496 / 1000000000000000000000000,
     153897316014271171087440 / 1000000000000000000000000⟩),
   ("IAlx", ⟨161190839668662637782998 / 1000000000000000000000000,
     161190839668681129144904 / 1000000000000000000000000⟩),
   ("IAlz", ⟨330121452076222938371573 / 1000000000000000000000000,
     330121452076249452067387 / 1000000000000000000000000⟩),
   ("mu", ⟨74592667944717858237573 / 1000000000000000000000000,
     74592667944717996212010 / 1000000000000000000000000⟩),
   ("SR", ⟨399999999999999822364315 / 1000000000000000000000000,
     400000000000000177635685 / 1000000000000000000000000⟩),
   ("SF", ⟨799999999999999644728631 / 1000000000000000000000000,
     800000000000000355271369 / 1000000000000000000000000⟩),
   ("ST", ⟨1199999999999999200639419 / 1000000000000000000000000,
     1200000000000000799360581 / 1000000000000000000000000⟩),
   ("SA", ⟨2599516852498694701814419 / 1000000000000000000000000,
     2599516852498738112868362 / 1000000000000000000000000⟩),
   ("Mpp", ⟨80817219999999881890759832 / 1000000000000000000000000,
     80817220000000118109240168 / 1000000000000000000000000⟩),
   ("Mpd", ⟨2319413322087076153195176 / 1000000000000000000000000,
     2319413322087106542298469 / 1000000000000000000000000⟩),
   ("Mdp", ⟨2319413322087076153195175 / 1000000000000000000000000,
     2319413322087106542298470 / 1000000000000000000000000⟩),
   ("Mdd", ⟨297841881996849655823243 / 1000000000000000000000000,
     297841881996861404148408 / 1000000000000000000000000⟩),
   ("K0pp", ⟨-80950000000000246730768374 / 1000000000000000000000000,
     -80949999999999753269231694 / 1000000000000000000000000⟩),
   ("K0pd", ⟨-2599516852498738112868363 / 1000000000000000000000000,
     -2599516852498694701814418 / 1000000000000000000000000⟩),
   ("K0dp", ⟨-2599516852498738112868364 / 1000000000000000000000000,
     -2599516852498694701814417 / 1000000000000000000000000⟩),
   ("K0dd", ⟨-803294884586184035589553 / 1000000000000000000000000,
     -803294884586169726029121 / 1000000000000000000000000⟩),
   ("K2pd", ⟨76597345895731911374536740 / 1000000000000000000000000,
     76597345895732531663378742 / 1000000000000000000000000⟩),
   ("K2dd", ⟨2654315237946017033552404 / 1000000000000000000000000,
     2654315237946063470950168 / 1000000000000000000000000⟩),
   ("C1pd", ⟨33866413914924844861629706 / 1000000000000000000000000,
     33866413914925042903861028 / 1000000000000000000000000⟩),
   ("C1dp", ⟨-850356414569785425135872 / 1000000000000000000000000,
     -850356414569783315589373 / 1000000000000000000000000⟩),
   ("C1dd", ⟨1685403973975577729755560 / 1000000000000000000000000,
     1685403973975615752354542 / 1000000000000000000000000⟩)]

/-- Ranges for `browserJason` (bicycle.py:105-165). -/
def browserJasonRanges : Dict Box :=
  [("mT", ⟨90209999999999931504790494 / 1000000000000000000000000,
     90210000000000068495209506 / 1000000000000000000000000⟩),
   ("xT", ⟨318386847560280532173380 / 1000000000000000000000000,
     318386847560281711480317 / 1000000000000000000000000⟩),
   ("zT", ⟨-990155856428388604129752 / 1000000000000000000000000,
     -990155856428384480894081 / 1000000000000000000000000⟩),
   ("ITxx", ⟨102780132155149591327353965 / 1000000000000000000000000,
     102780132155149892200724488 / 1000000000000000000000000⟩),
   ("ITxz", ⟨25446270857449667991151863 / 1000000000000000000000000,
     25446270857449744354180675 / 1000000000000000000000000⟩),
   ("IRzz", ⟨88381936452699990187632 / 1000000000000000000000000,
     88381936452700009812368 / 1000000000000000000000000⟩),
   ("IFzz", ⟨90410660157899989962399 / 1000000000000000000000000,
     90410660157900010037601 / 1000000000000000000000000⟩),
   ("ITzz", ⟨15198220474374217941566091 / 1000000000000000000000000,
     15198220474374258360366690 / 1000000000000000000000000⟩),
   ("mA", ⟨5239999999999998254729404 / 1000000000000000000000000,
     5240000000000001745270596 / 1000000000000000000000000⟩),
   ("xA", ⟨964885084273918668966842 / 1000000000000000000000000,
     964885084273921025689646 / 1000000000000000000000000⟩),
   ("zA", ⟨-592223559884561791952547 / 1000000000000000000000000,
     -592223559884560345452033 / 1000000000000000000000000⟩),
   ("IAxx", ⟨547099196657308150398246 / 1000000000000000000000000,
     547099196657312366370721 / 1000000000000000000000000⟩),
   ("IAxz", ⟨-199670320331641986586001 / 1000000000000000000000000,
     -199670320331637994663993 / 1000000000000000000000000⟩),
   ("IAzz", ⟨266103061802898403945931 / 1000000000000000000000000,
     266103061802902153616791 / 1000000000000000000000000⟩),
   ("uA", ⟨23461907189352227809875 / 1000000000000000000000000,
     23461907189355832237299 / 1000000000000000000000000⟩),
   ("IAll", ⟨168389425028760620080718 / 1000000000000000000000000,
     168389425028769325217838 / 1000000000000000000000000⟩),
   ("IAlx", ⟨101764213102020397768874 / 1000000000000000000000000,
     101764213102037782872360 / 1000000000000000000000000⟩),
   ("IAlz", ⟨286057105244963033607414 / 1000000000000000000000000,
     286057105244987212487182 / 1000000000000000000000000⟩),
   ("mu", ⟨56356540447113979058416 / 1000000000000000000000000,
     56356540447114084599761 / 1000000000000000000000000⟩),
   ("SR", ⟨447173071842195564444603 / 1000000000000000000000000,
     447173071842195961614078 / 1000000000000000000000000⟩),
   ("SF", ⟨434865709711156304907581 / 1000000000000000000000000,
     434865709711156691145923 / 1000000000000000000000000⟩),
   ("ST", ⟨882038781553351673500230 / 1000000000000000000000000,
     882038781553352848611955 / 1000000000000000000000000⟩),
   ("SA", ⟨1741594774447604510413024 / 1000000000000000000000000,
     1741594774447637230055983 / 1000000000000000000000000⟩),
   ("Mpp", ⟨102780132155149591327353964 / 1000000000000000000000000,
     102780132155149892200724489 / 1000000000000000000000000⟩),
   ("Mpd", ⟨1535828005908099665723023 / 1000000000000000000000000,
     1535828005908125358913188 / 1000000000000000000000000⟩),
   ("Mdp", ⟨1535828005908099665723022 / 1000000000000000000000000,
     1535828005908125358913189 / 1000000000000000000000000⟩),
   ("Mdd", ⟨248902257490807766332084 / 1000000000000000000000000,
     248902257490819837438811 / 1000000000000000000000000⟩),
   ("K0pp", ⟨-89321959808405023632937036 / 1000000000000000000000000,
     -89321959808404476367062939 / 1000000000000000000000000⟩),
   ("K0pd", ⟨-1741594774447637230055984 / 1000000000000000000000000,
     -1741594774447604510413023 / 1000000000000000000000000⟩),
   ("K0dp", ⟨-1741594774447637230055985 / 1000000000000000000000000,
     -1741594774447604510413022 / 1000000000000000000000000⟩),
   ("K0dd", ⟨-677696238177085472473823 / 1000000000000000000000000,
     -677696238177071983925830 / 1000000000000000000000000⟩),
   ("K2pd", ⟨74125429995298377016496830 / 1000000000000000000000000,
     74125429995298982976731053 / 1000000000000000000000000⟩),
   ("K2dd", ⟨1570215529641601550233968 / 1000000000000000000000000,
     1570215529641632005715442 / 1000000000000000000000000⟩),
   ("C1pd", ⟨26394733297242258864663518 / 1000000000000000000000000,
     26394733297242420977237401 / 1000000000000000000000000⟩),
   ("C1dp", ⟨-450300599435381612542876 / 1000000000000000000000000,
     -450300599435380480971421 / 1000000000000000000000000⟩),
   ("C1dd", ⟨1037066001029487565056098 / 1000000000000000000000000,
     1037066001029515374607094 / 1000000000000000000000000⟩)]

/-- Ranges for `browserJasonLegs` (bicycle.py:105-165). -/
def browserJasonLegsRanges : Dict Box :=
  [("mT", ⟨41393999999999969442443513 / 1000000000000000000000000,
     41394000000000030557556487 / 1000000000000000000000000⟩),
   ("xT", ⟨421155606523678704122531 / 1000000000000000000000000,
     421155606523680236786780 / 1000000000000000000000000⟩),
   ("zT", ⟨-644687238136986916221228 / 1000000000000000000000000,
     -644687238136984287334843 / 1000000000000000000000000⟩),
   ("ITxx", ⟨20375226590969695426705024 / 1000000000000000000000000,
     20375226590969754362764986 / 1000000000000000000000000⟩),
   ("ITxz", ⟨10960028868793465845913862 / 1000000000000000000000000,
     10960028868793496625834095 / 1000000000000000000000000⟩),
   ("IRzz", ⟨90410660157899989962399 / 1000000000000000000000000,
     90410660157900010037601 / 1000000000000000000000000⟩),
   ("IFzz", ⟨88381936452699990187632 / 1000000000000000000000000,
     88381936452700009812368 / 1000000000000000000000000⟩),
   ("ITzz", ⟨11486994637073741060075063 / 1000000000000000000000000,
     11486994637073770767927758 / 1000000000000000000000000⟩),
   ("mA", ⟨5239999999999998254729404 / 1000000000000000000000000,
     5240000000000001745270596 / 1000000000000000000000000⟩),
   ("xA", ⟨964885084273918668966842 / 1000000000000000000000000,
     964885084273921025689646 / 1000000000000000000000000⟩),
   ("zA", ⟨-592223559884561791952547 / 1000000000000000000000000,
     -592223559884560345452033 / 1000000000000000000000000⟩),
   ("IAxx", ⟨545070472952108151974881 / 1000000000000000000000000,
     545070472952112364794086 / 1000000000000000000000000⟩),
   ("IAxz", ⟨-199670320331641986586001 / 1000000000000000000000000,
     -199670320331637994663993 / 1000000000000000000000000⟩),
   ("IAzz", ⟨264074338097698405522565 / 1000000000000000000000000,
     264074338097702152040157 / 1000000000000000000000000⟩),
   ("uA", ⟨23461907189352227809875 / 1000000000000000000000000,
     23461907189355832237299 / 1000000000000000000000000⟩),
   ("IAll", ⟨166360701323560624145791 / 1000000000000000000000000,
     166360701323569321152918 / 1000000000000000000000000⟩),
   ("IAlx", ⟨100974788120109341972756 / 1000000000000000000000000,
     100974788120126724266798 / 1000000000000000000000000⟩),
   ("IAlz", ⟨284188274575807817420994 / 1000000000000000000000000,
     284188274575831990726105 / 1000000000000000000000000⟩),
   ("mu", ⟨56356540447113979058416 / 1000000000000000000000000,
     56356540447114084599761 / 1000000000000000000000000⟩),
   ("SR", ⟨447173071842195564444603 / 1000000000000000000000000,
     447173071842195961614078 / 1000000000000000000000000⟩),
   ("SF", ⟨434865709711156304907581 / 1000000000000000000000000,
     434865709711156691145923 / 1000000000000000000000000⟩),
   ("ST", ⟨882038781553351673500230 / 1000000000000000000000000,
     882038781553352848611955 / 1000000000000000000000000⟩),
   ("SA", ⟨1105421725540596196606791 / 1000000000000000000000000,
     1105421725540623449751156 / 1000000000000000000000000⟩),
   ("Mpp", ⟨20375226590969695426705023 / 1000000000000000000000000,
     20375226590969754362764987 / 1000000000000000000000000⟩),
   ("Mpd", ⟨718644098365804873056807 / 1000000000000000000000000,
     718644098365825740179225 / 1000000000000000000000000⟩),
   ("Mdp", ⟨718644098365804873056806 / 1000000000000000000000000,
     718644098365825740179226 / 1000000000000000000000000⟩),
   ("Mdd", ⟨234875817484998443616020 / 1000000000000000000000000,
     234875817485010409523414 / 1000000000000000000000000⟩),
   ("K0pp", ⟨-26686183535442462035651289 / 1000000000000000000000000,
     -26686183535442301964348714 / 1000000000000000000000000⟩),
   ("K0pd", ⟨-1105421725540623449751157 / 1000000000000000000000000,
     -1105421725540596196606790 / 1000000000000000000000000⟩),
   ("K0dp", ⟨-1105421725540623449751158 / 1000000000000000000000000,
     -1105421725540596196606789 / 1000000000000000000000000⟩),
   ("K0dd", ⟨-430146068413474558368796 / 1000000000000000000000000,
     -430146068413463473320816 / 1000000000000000000000000⟩),
   ("K2pd", ⟨22654276588585529594204988 / 1000000000000000000000000,
     22654276588585709554879858 / 1000000000000000000000000⟩),
   ("K2dd", ⟨1047438252150692241882249 / 1000000000000000000000000,
     1047438252150717110143078 / 1000000000000000000000000⟩),
   ("C1pd", ⟨10960681044664284476039693 / 1000000000000000000000000,
     10960681044664347340631145 / 1000000000000000000000000⟩),
   ("C1dp", ⟨-450300599435381612542876 / 1000000000000000000000000,
     -450300599435380480971421 / 1000000000000000000000000⟩),
   ("C1dd", ⟨827806557206992144215654 / 1000000000000000000000000,
     827806557207018192394696 / 1000000000000000000000000⟩)]

end BP
