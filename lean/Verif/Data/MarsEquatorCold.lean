import Verif.Model.AtmTables

/-! Data of aviary/subsystems/atmosphere/data/MarsEquatorCold.py, as exact decimals (generated from the source text). -/

namespace Verif.AtmD

set_option maxRecDepth 100000

/-- `atm_data.alt`, aviary/subsystems/atmosphere/data/MarsEquatorCold.py:67-70 -/
def marsEquatorColdAlt : List ℤ :=
  [(-8000),
   (-5000),
   (-2000),
   (-1632),
   (-1627),
   (-1000),
   0,
   1000,
   2000,
   3000,
   4000,
   5000,
   6000,
   7000,
   8000,
   9000,
   10000,
   15000,
   20000,
   25000,
   30000,
   40000,
   50000,
   60000,
   70000,
   80000]
/-- `atm_data.akima_T`, aviary/subsystems/atmosphere/data/MarsEquatorCold.py:72-99 -/
def marsEquatorColdTRows : List IRow :=
  [⟨21393000000000001, 0, 0, 0⟩,
   ⟨21393000000000001, 0, 0, 0⟩,
   ⟨21393000000000001, 0, 0, 0⟩,
   ⟨21393000000000001, 0, 0, 0⟩,
   ⟨21393000000000001, 0, 40642465847258225000000000000000000000, -54004931694516478000000000000000000000⟩,
   ⟨21734000000000000, 1387670763708686400, -1201897848515043400000000000000000, -388194103595544580000000000000⟩,
   ⟨22122000000000000, -165292246254902190, 59506866568327868000000000000000, -602146203134253790000000000000⟩,
   ⟨21956000000000000, -226922374058522460, 844748117041901610000000000000, -9223740585205184100000000000⟩,
   ⟨21728999999999999, -228000000000000120, -43368086899420178, 0⟩,
   ⟨21500999999999999, -228000000000000120, -43368086899420178, 0⟩,
   ⟨21272999999999999, -228000000000000120, -43368086899420178, 0⟩,
   ⟨21044999999999999, -228000000000000120, 11499999999999445000000000000000, -114999999999994460000000000000⟩,
   ⟨20816999999999999, -239499999999999610, -22999999999998933000000000000000, 114999999999994460000000000000⟩,
   ⟨20566000000000000, -250999999999999100, 43368086899420178, 0⟩,
   ⟨20315000000000001, -250999999999999100, -5811323644522304100, 28622937353617319⟩,
   ⟨20063999999999999, -251000000000001920, 5854691731421724300, -30357660829594127⟩,
   ⟨19813000000000000, -250999999999999270, -2510204081629949700000000000000, 15102040816310745000000000000⟩,
   ⟨19561000000000001, -251489795918366030, 9231402238313557000000000000000, -12666886109280915000000000000⟩,
   ⟨18375999999999999, -254177419354837150, -4098133381660492200000000000000, 3707234505255994400000000000⟩,
   ⟨17049000000000001, -267354494382022160, -6121379817284950400000000000000, 9104557387378636100000000000⟩,
   ⟨15672999999999999, -260284112149532060, 30702958939235133000000000000000, -21772273018657466000000000000⟩,
   ⟨14866999999999999, -116546570397111720, 1202126313916865100000000000000, 842530725794318920000000000⟩,
   ⟨13906000000000000, -67228122344944801, 2453118425475632100000000000000, -120306190981167460000000000⟩,
   ⟨13466999999999999, -21774939564867172, 4896274759249191200000000000000, -1848780802762470800000000000⟩,
   ⟨13553999999999999, 20687131537242554, 17628484684188292000000000000000, -11637197837912546000000000000⟩,
   ⟨14359999999999999, 24140890083632069, -28143178016726402000000000000000, 7499089008363202200000000000⟩,
   ⟨12537000000000000, -313749999999999880, 0, 0⟩]
/-- `atm_data.akima_T`, aviary/subsystems/atmosphere/data/MarsEquatorCold.py:72-99, with the column exponents. -/
def marsEquatorColdT : CTab := ⟨14, 20, 38, 39, marsEquatorColdTRows⟩
/-- `atm_data.akima_P`, aviary/subsystems/atmosphere/data/MarsEquatorCold.py:101-128 -/
def marsEquatorColdPRows : List IRow :=
  [⟨1204599999999999900000, -1101516666666666200000, 0, 0⟩,
   ⟨1204599999999999900000, -1101516666666666200000, 251487997177002300000, 494854824224807060000⟩,
   ⟨910139999999999990000, -817013065819767180000, 152964968852189550000, 328410094416037900000⟩,
   ⟨687669999999999960000, -636563359016122790000, 3420130619753593300, 3629902438920499300000⟩,
   ⟨664430000000000060000, -621564360165857140000, -916506067869665710000, 8090452798694693200000000⟩,
   ⟨664120000000000000000, -616413026634705580000, 226693541284140990000, -130232612644928120000⟩,
   ⟨626330000000000040000, -589521603060968740000, 421279866452649360000, -1130638358429622500000⟩,
   ⟨570460000000000040000, -539184780523327550000, 188713661008057390000, 201341442252145350000⟩,
   ⟨518630000000000000000, -495401805054151920000, 250450735229380130000, -84326846878618473000⟩,
   ⟨471509999999999990000, -447841463414634310000, 173602635770273030000, 198119983760680650000⟩,
   ⟨428659999999999970000, -407177336747759420000, 128326506570193560000, 484468609074015240000⟩,
   ⟨389709999999999980000, -366977977161500320000, 138670989013147530000, -98912173981419157000⟩,
   ⟨354300000000000010000, -342211144578313180000, 71331802457350744000, 327796433257809810000⟩,
   ⟨321120000000000000000, -318110891089108880000, 191492158065370910000, -183832471742813320000⟩,
   ⟨291040000000000020000, -285327433628318920000, 114645948830956890000, 126283874522278870000⟩,
   ⟨263779999999999970000, -258609727626459280000, 145680266814904660000, -305829905503089710000⟩,
   ⟨239069999999999990000, -238648571428571220000, 183099381412652270000, -356136671269408090000⟩,
   ⟨216679999999999980000, -212712795284123140000, 64048993130009822000, 5153194876473255300⟩,
   ⟨126980000000000000000, -144798905996758410000, 74869704550193584000, -11807785113353426000⟩,
   ⟨71822000000000003000, -78785040281579982000, 14431901186156803000, 22404358754006261000⟩,
   ⟨38838000000000001000, -47549870029918468000, 5030056036927979600, 28595368045817862000⟩,
   ⟨19895000000000000000, -21073287958627081000, 3302817901991366900, 3153570056635712200⟩,
   ⟨5278100000000000200, -5006941984737209500, -323880037613299030, 1497922022350508100⟩,
   ⟨1445200000000000000, -1160935992912283000, -306497481892496300, 477303474804779400⟩,
   ⟨455070000000000030, -342020532282937570, -60825447270181621, 102085979553119080⟩,
   ⟨154310000000000000, -157413488163943420, -15224523672113164, 52857011836056601⟩,
   ⟨34528999999999997, -29291499999999993, 0, 0⟩]
/-- `atm_data.akima_P`, aviary/subsystems/atmosphere/data/MarsEquatorCold.py:101-128, with the column exponents. -/
def marsEquatorColdP : CTab := ⟨18, 22, 26, 30, marsEquatorColdPRows⟩
/-- `atm_data.akima_rho`, aviary/subsystems/atmosphere/data/MarsEquatorCold.py:130-157 -/
def marsEquatorColdrhoRows : List IRow :=
  [⟨298000000000000000000, -2733333333333334000000, 0, 0⟩,
   ⟨298000000000000000000, -2733333333333334000000, 5054151624548738900000000000000, 1648616125150425900000000000000⟩,
   ⟨224999999999999990000, -1984957882069794600000, 10004171447989189000000000000000, -1650006607813485500000000000000⟩,
   ⟨170000000000000010000, -1830209379300084600000, 163824605468501010000000000000000, -297657690979954780000000000000000⟩,
   ⟨164000000000000010000, -1833760137349998900000, -2274458898715602200000000000000000000, 302226820292518560000000000000000000000⟩,
   ⟨161999999999999990000, -2609534789521279800000, 108045101241497190000000000000000, 4633696992836503500000000000000⟩,
   ⟨149999999999999990000, -1199999999999999700000, -21175823681357509, 0⟩,
   ⟨138000000000000000000, -1199999999999999700000, -21175823681357509, 0⟩,
   ⟨126000000000000000000, -1199999999999999700000, 29999999999999617000000000000000, -9999999999999735200000000000000⟩,
   ⟨115999999999999990000, -899999999999999750000, 21175823681357509, -21175823681357508⟩,
   ⟨106999999999999990000, -899999999999999850000, 31763735522036263, -21175823681357508⟩,
   ⟨97999999999999997000, -899999999999999750000, 16249999999999802000000000000000, -6249999999999856000000000000000⟩,
   ⟨89999999999999993000, -762499999999999690000, 1500000000000070400000000000000, 749999999999950580000000000000⟩,
   ⟨82600000000000000000, -709999999999999550000, 2399999999999936800000000000000, 600000000000045090000000000000⟩,
   ⟨75799999999999999000, -644000000000000210000, 2800000000000051700000000000000, -400000000000008870000000000000⟩,
   ⟨69600000000000000000, -599999999999999760000, 2000000000000023100000000000000, -21175823681357508⟩,
   ⟨63800000000000003000, -560000000000000140000, 5757009345794320400000000000000, -1757009345794358500000000000000⟩,
   ⟨58599999999999998000, -497570093457944490000, 948957584471623530000000000000, 40488856937453390000000000000⟩,
   ⟨36600000000000001000, -372307692307691940000, 2008557692307679600000000000000, -56480769230768017000000000000⟩,
   ⟨22300000000000002000, -213812500000000080000, 436856435643564150000000000000, 31878712871287238000000000000⟩,
   ⟨13100000000000000000, -146217821782178230000, 145241399815657950000000000000, 74223007165581383000000000000⟩,
   ⟨7079999999999999700, -76026426426426408000, 190974774475148320000000000000, 6228948978911575200000000000⟩,
   ⟨2010000000000000100, -19144624594662015000, -2629618389002286700000000000, 5007586433562242800000000000⟩,
   ⟨570000000000000030, -4647788971775744900, -10659888030512289000000000000, 1793777774826973800000000000⟩,
   ⟨177999999999999990, -1398433253397282200, -2301538487100230700000000000, 417587102107305450000000000⟩,
   ⟨56899999999999997, -605979644495412780, -415407110091743330000000000, 215520355504587170000000000⟩,
   ⟨13700000000000000, -42499999999999989, 0, 0⟩]
/-- `atm_data.akima_rho`, aviary/subsystems/atmosphere/data/MarsEquatorCold.py:130-157, with the column exponents. -/
def marsEquatorColdrho : CTab := ⟨22, 27, 41, 44, marsEquatorColdrhoRows⟩
/-- `atm_data.akima_dT`, aviary/subsystems/atmosphere/data/MarsEquatorCold.py:159-186 -/
def marsEquatorColddTRows : List IRow :=
  [⟨0, 0, 0, 0⟩,
   ⟨0, 0, 0, 0⟩,
   ⟨0, 0, 0, 0⟩,
   ⟨0, 0, 0, 0⟩,
   ⟨0, 0, 166532711331249940000000000000000000000000000000, -22205176156580718000000000000000000000000000000000⟩,
   ⟨1387670763708659400, -610984310541477350000000000000, -11556771709576942000000000000000000000000000, 12287008297639008000000000000000000000000000⟩,
   ⟨-165292246254901760, -621522997360583610000000000000, -59481152261482213000000000000000000000000, 60003324193919731000000000000000000000000⟩,
   ⟨-226922374058522590, -11046316772635802000000000000, -1023614469905705500000000000000000000000, 1050620205691663800000000000000000000000⟩,
   ⟨-228000000000000210, 0, 0, 0⟩,
   ⟨-228000000000000210, 0, 0, 0⟩,
   ⟨-228000000000000210, 0, 0, 0⟩,
   ⟨-228000000000000210, 0, -22999999999998605000000000000000000000000, 11499999999999249000000000000000000000000⟩,
   ⟨-239499999999999570, -114999999999994660000000000000, -719407995117687960000000000000000000000, 719407995117578100000000000000000000000⟩,
   ⟨-250999999999999140, -107805920048821070000000000000, 21561184009767726000000000000000000000000, -10780592004885490000000000000000000000000⟩,
   ⟨-250999999999999010, -31225022567565728, -42815830076158737, 41135456199680877⟩,
   ⟨-251000000000002130, -31225022567187968, 72854198719140585000000000000, -66912770813959461000000000000⟩,
   ⟨-250999999999999310, -581524172603161630, -970557759811316000000000000000000000000, 480761841502836040000000000000000000000⟩,
   ⟨-251489795918365950, -4988299951722759400000000000, -10590186325340697000000000000000000000, 570249580188188530000000000000000000⟩,
   ⟨-254177419354837320, -5619631399115686800000000000, -887111002746360820000000000000000000000, 94484125928256607000000000000000000000⟩,
   ⟨-267354494382022110, -23467637227559334000000000000, 709892262466331580000000000000000000000, 8455154276892816200000000000000000000⟩,
   ⟨-260284112149531880, 53862954726743445000000000000, 14041200836167896000000000000000000000000, -1873791652121191500000000000000000000000⟩,
   ⟨-116546570397111720, 52639299252639433000000000000, -28243805172199186000000000000000000000, -496470683252645980000000000000000000⟩,
   ⟨-67228122344944845, 45501126168441685000000000000, 1737767475111488000000000000000000000, -221720135875166010000000000000000000⟩,
   ⟨-21774939564867180, 45183519255838478000000000000, -51040461714191522000000000000000000000, 2382598017690402400000000000000000000⟩,
   ⟨20687131537242532, 42123220966071348000000000000, -423312343471632560000000000000000000000, 3661771927481405000000000000000000000⟩,
   ⟨24140890083632031, -31553931945810945000000000000, -4420015919606311300000000000000000000000, 135664633822810220000000000000000000000⟩,
   ⟨-313749999999999880, -508563214398642670000000000000, 0, 0⟩]
/-- `atm_data.akima_dT`, aviary/subsystems/atmosphere/data/MarsEquatorCold.py:159-186, with the column exponents. -/
def marsEquatorColddT : CTab := ⟨20, 36, 50, 53, marsEquatorColddTRows⟩
/-- `atm_data` of aviary/subsystems/atmosphere/data/MarsEquatorCold.py. -/
def marsEquatorCold : AtmData := ⟨0, marsEquatorColdAlt, marsEquatorColdT, marsEquatorColdP, marsEquatorColdrho, marsEquatorColddT⟩

end Verif.AtmD
