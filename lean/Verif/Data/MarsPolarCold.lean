import Verif.Model.AtmTables

/-! Data of aviary/subsystems/atmosphere/data/MarsPolarCold.py, as exact decimals (generated from the source text). -/

namespace Verif.AtmD

set_option maxRecDepth 100000

/-- `atm_data.alt`, aviary/subsystems/atmosphere/data/MarsPolarCold.py:68-71 -/
def marsPolarColdAlt : List ℤ :=
  [(-8000),
   (-5000),
   (-2000),
   (-1955),
   (-1945),
   (-1000),
   0,
   1000,
   2000,
   3000,
   4000,
   5000,
   6000,
   7000,
   8000,
   9000,
   10000,
   15000,
   20000,
   25000,
   30000,
   40000,
   50000,
   60000,
   70000,
   80000]
/-- `atm_data.akima_T`, aviary/subsystems/atmosphere/data/MarsPolarCold.py:73-100 -/
def marsPolarColdTRows : List IRow :=
  [⟨14752000000000001, 0, 0, 0⟩,
   ⟨14752000000000001, 0, 0, 0⟩,
   ⟨14752000000000001, 0, 0, 0⟩,
   ⟨14752000000000001, 0, 0, 0⟩,
   ⟨14752000000000001, 0, 50873232193362162000000000000000000, -338732321933634170000000000000000000⟩,
   ⟨14769000000000000, 126767806634083330, -5157434553921694500000000000000, 919793872683659290000000000⟩,
   ⟨14734999999999999, -845523127287656800, 1510462545753123800000000000000, -155523127287649680000000000000⟩,
   ⟨14650000000000000, -1009999999999981600, 97578195523695395, -19081958235744878⟩,
   ⟨14549000000000001, -1010000000000019300, -281892564846231160, 28189256484623119⟩,
   ⟨14447999999999999, -1009999999999990900, 0, 0⟩,
   ⟨14347000000000000, -1009999999999990900, 0, 0⟩,
   ⟨14246000000000001, -1009999999999990900, -1048000000000747600000000000000, 104800000000046570000000000000⟩,
   ⟨14144999999999999, -905000000000001180, 2100000000000634500000000000000, -105000000000045160000000000000⟩,
   ⟨14065000000000001, -800000000000010120, 261292723569006560, -27321894746634712⟩,
   ⟨13984999999999999, -800000000000039940, -249999999999272070000000000000, 14999999999965129000000000000⟩,
   ⟨13903999999999999, -804999999999999620, 106666666667023080000000000000, -5666666666685706200000000000⟩,
   ⟨13824000000000001, -800666666666652010, -223315881326760240000000000000, 12998254799325913000000000000⟩,
   ⟨13743000000000001, -806335078534026760, 407926066115001370000000000000, -2705118180938923200000000000⟩,
   ⟨13408000000000001, -601292875989443980, 514399467483607540000000000000, 1843725689905533900000000000⟩,
   ⟨13259000000000000, 51386018237078716, 769191678347016020000000000000, -4639274296423514900000000000⟩,
   ⟨13419000000000000, 472632124352331290, 195528395369668370000000000000, 1424147118513395900000000000⟩,
   ⟨13722000000000000, 774971553610504180, 914724917218911690000000000000, -5436964708294152300000000000⟩,
   ⟨14868000000000001, 973331975560082280, -284423054761619950000000000000, -1709089207984617000000000000⟩,
   ⟨15386000000000001, -108240896358542640, -991168074656919130000000000000, 1934089710154613500000000000⟩,
   ⟨14480000000000001, -1510350132625996700, -98833438158002932000000000000, -968164292160021580000000000⟩,
   ⟨12773999999999999, -1998466296590009500, -106567406819981900000000000000, -619662965900087340000000000⟩,
   ⟨10606999999999999, -2397499999999999000, 0, 0⟩]
/-- `atm_data.akima_T`, aviary/subsystems/atmosphere/data/MarsPolarCold.py:73-100, with the column exponents. -/
def marsPolarColdT : CTab := ⟨14, 21, 37, 39, marsPolarColdTRows⟩
/-- `atm_data.akima_P`, aviary/subsystems/atmosphere/data/MarsPolarCold.py:102-129 -/
def marsPolarColdPRows : List IRow :=
  [⟨16200000000000000000000, -2366666666666667500000, 0, 0⟩,
   ⟨16200000000000000000000, -2366666666666667500000, 831111111111112150000, 1303703703703708100000⟩,
   ⟨10199999999999999000000, -1515999999999999600000, 568654970760234600000, 874853801169583760000⟩,
   ⟨6400000000000000000000, -938596491228070180000, 42496931629485243000000, -6989066172518633400000000⟩,
   ⟨6360000000000000000000, -980709876543209850000, -75057959031476498000000, 55767835574686011000000000⟩,
   ⟨6350000000000000000000, -963522287882104260000, 357358593733899070000, 1020909844554195100000⟩,
   ⟨5480000000000000000000, -868630573248407030000, 862107867845865510000, -758021353617882600000⟩,
   ⟨4690000000000000600000, -718949640287770700000, 464707091469668300000, 247893114080272020000⟩,
   ⟨4019999999999999400000, -618571428571428880000, 231428571428587280000, 1542857142857054200000⟩,
   ⟨3440000000000000000000, -525999999999999320000, 382499999999985670000, -224999999999947470000⟩,
   ⟨2950000000000000000000, -456250000000000130000, 143181818181820780000, 1193181818181801600000⟩,
   ⟨2520000000000000000000, -391818181818181860000, 344696969696969850000, -265151515151523810000⟩,
   ⟨2160000000000000000000, -330833333333333330000, 138888888888888750000, 694444444444442010000⟩,
   ⟨1850000000000000000000, -282222222222222250000, 158730158730157820000, 634920634920641070000⟩,
   ⟨1590000000000000000000, -231428571428571420000, 128571428571428240000, -142857142857145980000⟩,
   ⟨1370000000000000000000, -210000000000000010000, 89196675900277478000, 108033240997229560000⟩,
   ⟨1170000000000000000000, -188919667590027700000, 364458925571045980000, -752622496707690260000⟩,
   ⟨1010000000000000000000, -138606557377049210000, 47298956780923947000, 28628315946348793000⟩,
   ⟨470999999999999940000, -69836363636363629000, 34187211533475105000, 10171031478504387000⟩,
   ⟨220000000000000000000, -28020878494010265000, -642215466929753390, 20567944909900550000⟩,
   ⟨104000000000000000000, -13237135278514594000, -1070273835804894200, 12369088785668168000⟩,
   ⟨50599999999999996000, -5030592525068367700, -33793179181115781, 1314385704249483800⟩,
   ⟨13100000000000001000, -1155021770682148100, -128176620705934670, 371198391388082550⟩,
   ⟨3980000000000000200, -297779837929769570, -74080556621730230, 108860394551499820⟩,
   ⟨1350000000000000100, -119359767518730710, -17973811753690056, 35033579272420785⟩,
   ⟨327000000000000000, -50206653208848509, 11433306417697021, 13553346791151492⟩,
   ⟨74800000000000005, 13319999999999997, 0, 0⟩]
/-- `atm_data.akima_P`, aviary/subsystems/atmosphere/data/MarsPolarCold.py:102-129, with the column exponents. -/
def marsPolarColdP : CTab := ⟨19, 22, 26, 30, marsPolarColdPRows⟩
/-- `atm_data.akima_rho`, aviary/subsystems/atmosphere/data/MarsPolarCold.py:131-158 -/
def marsPolarColdrhoRows : List IRow :=
  [⟨5829999999999999800000, -8583333333333331300000, 0, 0⟩,
   ⟨5829999999999999800000, -8583333333333331300000, 286852589641509870000, 14043824701194926000000⟩,
   ⟨3660000000000000100000, -4619389110225789200000, 476800737829440470000, -633160493959749760000⟩,
   ⟨2300000000000000000000, -4504262000897255700000, 42456976988487251000000, -6480930370140938900000000⟩,
   ⟨2280000000000000100000, -4515865727986935000000, -17256473042285722000000000, 11772338770272715000000000000⟩,
   ⟨2270000000000000100000, -3711795501740230800000, 6558345590792278800000, -9246250798445495400000⟩,
   ⟨1969999999999999900000, -2719982178658941800000, -1228305610124180600000, 14281273967136285000000⟩,
   ⟨1700000000000000100000, -2537205081669690200000, 744101633393783650000, 6279491833031071600000⟩,
   ⟨1460000000000000000000, -2200000000000001800000, 1894736842105297200000, 1052631578947197900000⟩,
   ⟨1260000000000000000000, -1789473684210526200000, 845029239766081470000, 497076023391807600000⟩,
   ⟨1090000000000000000000, -1605555555555555900000, 345396825396828120000, 4101587301587339300000⟩,
   ⟨936999999999999990000, -1413428571428571000000, 1388571428571440100000, -1542857142857271100000⟩,
   ⟨808000000000000040000, -1182000000000000500000, 479999999999987360000, 2400000000000095800000⟩,
   ⟨696999999999999960000, -1014000000000000200000, 594285714285725160000, 457142857142815900000⟩,
   ⟨602000000000000020000, -881428571428570750000, 374025974025970380000, 1402597402597382300000⟩,
   ⟨519000000000000020000, -764545454545455420000, 725055432372508930000, -1796008869179588100000⟩,
   ⟨447999999999999960000, -673414634146341690000, 588109556700549450000, 460367847628739670000⟩,
   ⟨387000000000000020000, -541981687377369930000, 284289917571295930000, -8653085633111795500⟩,
   ⟨186000000000000010000, -264181584030908080000, 107093549238386310000, 57739237646859609000⟩,
   ⟨87900000000000001000, -113783606557377070000, 1763137286319471500, 77208151656869304000⟩,
   ⟨41100000000000002000, -54114355528405624000, -2487662632140199100, 48632747377902951000⟩,
   ⟨19500000000000000000, -20127457627118649000, -69415815206698818, 5356873442325345700⟩,
   ⟨4660000000000000100, -4195668930556007500, -497896541075407630, 1403565471631415100⟩,
   ⟨1369999999999999900, -980765597812577700, -261337018526847230, 365102616339425140⟩,
   ⟨493000000000000020, -408131785847996980, -72068474636052549, 122200260484049430⟩,
   ⟨135000000000000000, -185667953667953710, 42335907335907403, 43332046332046328⟩,
   ⟨34999999999999998, 29000000000000023, 0, 0⟩]
/-- `atm_data.akima_rho`, aviary/subsystems/atmosphere/data/MarsPolarCold.py:131-158, with the column exponents. -/
def marsPolarColdrho : CTab := ⟨23, 27, 31, 35, marsPolarColdrhoRows⟩
/-- `atm_data.akima_dT`, aviary/subsystems/atmosphere/data/MarsPolarCold.py:160-187 -/
def marsPolarColddTRows : List IRow :=
  [⟨0, 0, 0, 0⟩,
   ⟨0, 0, 0, 0⟩,
   ⟨0, 0, 0, 0⟩,
   ⟨0, 0, 0, 0⟩,
   ⟨0, 0, 381843194696201280000000000000000000, -255075388062115550000000000000000000000⟩,
   ⟨126767806634085770, -15397747939439984000000000000000, -275550864710141700000000000000000, 1936176317292299400000000000000000⟩,
   ⟨-845523127287657130, -17472725516621206000000000000000, -14397610780449631000000000000000, 154226490258384540000000000000000⟩,
   ⟨-1009999999999981000, -5104757427556007300, -4123637865145220300, 53903196021025436000⟩,
   ⟨-1010000000000019300, 2818925648461179500, 2788159651751837600, -27881596517507057000⟩,
   ⟨-1009999999999991200, 30765996712738016, -18163906526050065, 90819532630221427⟩,
   ⟨-1009999999999990900, 21684043449704301, -5724587470709074600, 57029034272593710000⟩,
   ⟨-1009999999999990900, 5681219383809666400, 20940038095224738000000000000000, -104600380952313980000000000000000⟩,
   ⟨-905200000000000750, 10499961904760960000000000000000, 819335449747308980000000000000, -7992973545091740900000000000000⟩,
   ⟨-800000000000009800, 9740740740728081100000000000000, -19022226533855060000000000000000, 92814857931239747000000000000000⟩,
   ⟨-800000000000039830, -459254947610112800000000000000, -392565023334049050000000000000, 3518199709482479900000000000000⟩,
   ⟨-804999999999998970, -188925081433467040000000000000, 1411182268492576800000000000000, -7889238537244251500000000000000⟩,
   ⟨-800666666666652120, 266667894378411350000000000000, -2136077021861637200000000000000, 13025679407458056000000000000000⟩,
   ⟨-806335078534026330, -97782327107446846000000000000, 780418479283330100000000000000, 118613592632971810000000000000⟩,
   ⟨-601292875989444630, 8596004410473143900000000000000, 2514467181465843400000000000000, -3245904973308758400000000000000⟩,
   ⟨51386018237078567, 9396388925315893200000000000000, -135301770306369940000000000000, -117983180591596140000000000000⟩,
   ⟨472632124352331120, 7158497367815217700000000000000, -317352709557024070000000000000, 190021906053346940000000000000⟩,
   ⟨774971553610504390, 5410134567645081200000000000000, 30188268743052704000000000000, -372841303557983590000000000000⟩,
   ⟨973331975560081630, -5171339164233371400000000000000, -941877485200788260000000000000, 377438529705500860000000000000⟩,
   ⟨-108240896358542740, -12685732977084107000000000000000, -982292952481615930000000000000, 848757013922572350000000000000⟩,
   ⟨-1510350132625996900, -6868881609039254500000000000000, 316372886477598470000000000000, -117600889537685170000000000000⟩,
   ⟨-1998466296590009000, -4069450565617840400000000000000, -28718523973423684000000000000, 36629877125217238000000000000⟩,
   ⟨-2397499999999999500, -3544924731329796400000000000000, 0, 0⟩]
/-- `atm_data.akima_dT`, aviary/subsystems/atmosphere/data/MarsPolarCold.py:160-187, with the column exponents. -/
def marsPolarColddT : CTab := ⟨21, 38, 41, 45, marsPolarColddTRows⟩
/-- `atm_data` of aviary/subsystems/atmosphere/data/MarsPolarCold.py. -/
def marsPolarCold : AtmData := ⟨0, marsPolarColdAlt, marsPolarColdT, marsPolarColdP, marsPolarColdrho, marsPolarColddT⟩

end Verif.AtmD
