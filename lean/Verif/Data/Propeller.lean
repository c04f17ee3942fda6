import Mathlib.Algebra.Order.Field.Rat

/-!
# Propeller performance tables

The tables of /repo/aviary/subsystems/propulsion/propeller/hamilton_standard.py:246-459, as exact decimal fractions.
-/

namespace Verif.HS.Tab

/-- `CP_Angle_table`, aviary/subsystems/propulsion/propeller/hamilton_standard.py:245-282. -/
def cpAngle : List (List (List ℚ)) :=
  [[[79/5000, 33/2000, 47/2500, 23/1000, 369/10000, 147/2500, 457/5000, 67/500, 227/1250, 2273/10000],
   [43/2000, 459/10000, 829/10000, 261/2000, 953/5000, 1277/5000, 0, 0, 0, 0],
   [-149/10000, -11/1250, 173/10000, 93/1250, 707/5000, 2177/10000, 3011/10000, 3803/10000, 0, 0],
   [-67/1000, -77/2000, 57/2000, 163/1250, 297/1250, 221/625, 2337/5000, 1107/2000, 0, 0],
   [-23/200, -281/10000, 543/5000, 1323/5000, 4213/10000, 293/500, 7091/10000, 0, 0, 0],
   [-1151/10000, 7/1000, 359/2500, 291/1000, 869/2000, 359/625, 3571/5000, 4253/5000, 987/1000, 447/400],
   [-2427/10000, 391/5000, 2121/5000, 777/1000, 2791/2500, 14443/10000, 0, 0, 0, 0]],
  [[311/10000, 4/125, 9/250, 217/5000, 691/10000, 537/5000, 39/250, 2249/10000, 777/2500, 2013/5000],
   [19/500, 2/25, 747/5000, 591/2500, 1743/5000, 119/250, 0, 0, 0, 0],
   [-57/2500, -109/10000, 81/2500, 663/5000, 1289/5000, 399/1000, 354/625, 7227/10000, 0, 0],
   [-313/2500, -661/10000, 107/2000, 597/2500, 1099/2500, 3277/5000, 2229/2500, 10753/10000, 0, 0],
   [-2113/10000, -6/125, 1993/10000, 4901/10000, 1971/2500, 1099/1000, 13707/10000, 0, 0, 0],
   [-2077/10000, 153/10000, 2657/10000, 5387/10000, 8107/10000, 43/40, 6709/5000, 15989/10000, 18697/10000, 10619/5000],
   [-1127/2500, 713/5000, 3929/5000, 181/125, 20899/10000, 2713/1000, 0, 0, 0, 0]],
  [[9/200, 461/10000, 511/10000, 301/5000, 943/10000, 59/400, 1069/5000, 2969/10000, 803/2000, 5237/10000],
   [13/250, 1063/10000, 2019/10000, 323/1000, 2387/5000, 6607/10000, 0, 0, 0, 0],
   [-21/1250, -17/2000, 457/10000, 887/5000, 44/125, 2753/5000, 7833/10000, 2559/2500, 0, 0],
   [-839/5000, -21/250, 47/625, 1631/5000, 1217/2000, 9127/10000, 12449/10000, 1543/1000, 0, 0],
   [-2903/10000, -603/10000, 1373/5000, 6803/10000, 10989/10000, 15353/10000, 19747/10000, 0, 0, 0],
   [-2783/10000, 259/10000, 733/2000, 7413/10000, 2243/2000, 14923/10000, 3731/2000, 179/80, 13029/5000, 29831/10000],
   [-6181/10000, 973/5000, 5379/5000, 19951/10000, 28977/10000, 9437/2500, 0, 0, 0, 0]],
  [[577/10000, 591/10000, 81/1250, 751/10000, 1141/10000, 1783/10000, 2599/10000, 3551/10000, 2341/5000, 372/625],
   [13/200, 1277/10000, 2441/10000, 3947/10000, 5803/10000, 8063/10000, 0, 0, 0, 0],
   [-79/10000, -1/400, 119/2000, 1067/5000, 2133/5000, 1677/2500, 9519/10000, 6353/5000, 0, 0],
   [-947/5000, -227/2500, 239/2500, 1971/5000, 927/1250, 11207/10000, 3827/2500, 19459/10000, 0, 0],
   [-339/1000, -79/1250, 67/200, 1663/2000, 6747/5000, 189/100, 4913/2000, 0, 0, 0],
   [-3267/10000, 101/2500, 113/250, 568/625, 13783/10000, 2303/1250, 1153/500, 13891/5000, 8073/2500, 18529/5000],
   [-1877/2500, 479/2000, 263/200, 24469/10000, 35711/10000, 23319/5000, 0, 0, 0, 0]]]

/-- `CT_Angle_table`, aviary/subsystems/propulsion/propeller/hamilton_standard.py:283-320. -/
def ctAngle : List (List (List ℚ)) :=
  [[[303/10000, 111/2500, 293/5000, 743/10000, 213/2000, 1369/10000, 201/1250, 1767/10000, 231/1250, 929/5000],
   [41/2000, 691/10000, 1141/10000, 1529/10000, 357/2000, 93/500, 0, 0, 0, 0],
   [-61/625, -283/5000, 11/2000, 129/2000, 289/2500, 1589/10000, 233/1250, 381/2000, 0, 0],
   [-1133/10000, -39/625, 111/10000, 193/2500, 1329/10000, 111/625, 101/500, 409/2000, 0, 0],
   [-283/2500, -89/2500, 479/10000, 1161/10000, 1711/10000, 2111/10000, 43/200, 0, 0, 0],
   [-97/1250, -159/10000, 391/10000, 217/2500, 1279/10000, 823/5000, 491/2500, 2213/10000, 1207/5000, 501/2000],
   [-307/2500, -221/10000, 633/10000, 1309/10000, 929/5000, 1157/5000, 0, 0, 0, 0]],
  [[213/5000, 633/10000, 853/10000, 1101/10000, 1649/10000, 551/2500, 1339/5000, 3071/10000, 1659/5000, 427/1250],
   [159/5000, 279/2500, 1909/10000, 53/200, 3241/10000, 3423/10000, 0, 0, 0, 0],
   [-1761/10000, -12/125, 83/10000, 557/5000, 127/625, 1417/5000, 3487/10000, 899/2500, 0, 0],
   [-431/2000, -1129/10000, 47/2500, 71/500, 2401/10000, 3231/10000, 77/200, 39/100, 0, 0],
   [-2137/10000, -657/10000, 859/10000, 527/2500, 3141/10000, 1947/5000, 819/2000, 0, 0, 0],
   [-1447/10000, -157/5000, 349/5000, 1577/10000, 1171/5000, 3013/10000, 3611/10000, 4067/10000, 4457/10000, 4681/10000],
   [-1169/5000, -471/10000, 277/2500, 2357/10000, 3357/10000, 2087/5000, 0, 0, 0, 0]],
  [[61/1250, 183/2500, 999/10000, 1301/10000, 401/2000, 2731/10000, 1699/5000, 1991/5000, 4427/10000, 581/1250],
   [3/80, 1393/10000, 153/625, 3457/10000, 1089/2500, 4931/10000, 0, 0, 0, 0],
   [-459/2000, -31/250, 87/10000, 1443/10000, 2687/10000, 238/625, 4739/10000, 657/1250, 0, 0],
   [-2999/10000, -1527/10000, 47/2000, 1853/10000, 1623/5000, 441/1000, 529/1000, 5467/10000, 0, 0],
   [-3019/10000, -907/10000, 577/5000, 2871/10000, 429/1000, 2669/5000, 2977/5000, 0, 0, 0],
   [-503/2500, -461/10000, 461/5000, 17/80, 1587/5000, 4083/10000, 4891/10000, 5549/10000, 6043/10000, 1283/2000],
   [-3307/10000, -749/10000, 1411/10000, 1559/5000, 2233/5000, 1387/2500, 0, 0, 0, 0]],
  [[267/5000, 159/2000, 271/2500, 1421/10000, 2221/10000, 1527/5000, 3831/10000, 1127/2500, 1007/2000, 337/625],
   [423/10000, 397/2500, 2841/10000, 507/1250, 5157/10000, 3021/5000, 0, 0, 0, 0],
   [-1303/5000, -177/1250, 97/10000, 337/2000, 793/2500, 2263/5000, 1131/2000, 817/1250, 0, 0],
   [-723/2000, -451/2500, 267/10000, 2193/10000, 387/1000, 332/625, 641/1000, 879/1250, 0, 0],
   [-1837/5000, -137/1250, 1369/10000, 3447/10000, 1033/2000, 3227/5000, 1827/2500, 0, 0, 0],
   [-2473/10000, -297/5000, 543/5000, 319/1250, 383/1000, 4933/10000, 5899/10000, 3361/5000, 3651/5000, 7761/10000],
   [-833/2000, -13/125, 1597/10000, 3671/10000, 5289/10000, 1639/2500, 0, 0, 0, 0]]]

/-- `AFCPC`, aviary/subsystems/propulsion/propeller/hamilton_standard.py:321-324. -/
def afcpc : List (List ℚ) :=
  [[167/100, 137/100, 233/200, 1, 881/1000, 81/100],
  [31/20, 133/100, 1149/1000, 1, 89/100, 41/50]]

/-- `AFCTC`, aviary/subsystems/propulsion/propeller/hamilton_standard.py:325-328. -/
def afctc : List (List ℚ) :=
  [[139/100, 127/100, 1123/1000, 1, 183/200, 173/200],
  [149/100, 13/10, 1143/1000, 1, 183/200, 173/200]]

/-- `Act_Factor_arr`, aviary/subsystems/propulsion/propeller/hamilton_standard.py:329-329. -/
def actFactor : List ℚ :=
  [80, 100, 125, 150, 175, 200]

/-- `Blade_angle_table`, aviary/subsystems/propulsion/propeller/hamilton_standard.py:330-338. -/
def bladeAngle : List (List ℚ) :=
  [[0, 2, 4, 6, 10, 14, 18, 22, 26, 30],
  [10, 15, 20, 25, 30, 35, 0, 0, 0, 0],
  [10, 15, 20, 25, 30, 35, 40, 45, 0, 0],
  [20, 25, 30, 35, 40, 45, 50, 55, 0, 0],
  [30, 35, 40, 45, 50, 55, 60, 0, 0, 0],
  [45, 95/2, 50, 105/2, 55, 115/2, 60, 125/2, 65, 135/2],
  [115/2, 60, 125/2, 65, 135/2, 70, 0, 0, 0, 0]]

/-- `BL_P_corr_table`, aviary/subsystems/propulsion/propeller/hamilton_standard.py:339-348. -/
def blP : List (List ℚ) :=
  [[46/25, 71/40, 7/4, 87/50, 44/25, 89/50, 9/5, 181/100, 367/200, 37/20, 373/200, 15/8, 47/25, 47/25],
  [1, 1, 1, 1, 1, 1, 1, 1, 1, 1, 1, 1, 1, 1],
  [117/200, 127/200, 27/40, 71/100, 369/500, 149/200, 379/500, 151/200, 141/200, 147/200, 71/100, 29/40, 29/40, 29/40],
  [83/200, 23/50, 101/200, 107/200, 14/25, 23/40, 3/5, 61/100, 63/100, 63/100, 61/100, 121/200, 3/5, 3/5]]

/-- `BL_T_corr_table`, aviary/subsystems/propulsion/propeller/hamilton_standard.py:349-358. -/
def blT : List (List ℚ) :=
  [[79/50, 337/200, 173/100, 879/500, 1777/1000, 901/500, 457/250, 1839/1000, 231/125, 37/20, 37/20, 37/20, 37/20, 37/20],
  [1, 1, 1, 1, 1, 1, 1, 1, 1, 1, 1, 1, 1, 1],
  [459/500, 437/500, 211/250, 821/1000, 401/500, 781/1000, 191/250, 94/125, 3/4, 3/4, 3/4, 3/4, 3/4, 3/4],
  [108/125, 797/1000, 379/500, 91/125, 701/1000, 677/1000, 163/250, 16/25, 63/100, 311/500, 31/50, 31/50, 31/50, 31/50]]

/-- `CL_arr`, aviary/subsystems/propulsion/propeller/hamilton_standard.py:359-359. -/
def clArr : List ℚ :=
  [3/10, 2/5, 1/2, 3/5, 7/10, 4/5]

/-- `CP_CLi_table`, aviary/subsystems/propulsion/propeller/hamilton_standard.py:360-373. -/
def cpCli : List (List ℚ) :=
  [[57/5000, 147/5000, 491/10000, 349/5000, 913/10000, 743/5000, 211/1000, 1401/5000, 3589/10000, 4443/10000, 671/1250, 1251/2000, 0, 0, 0],
  [2/125, 1/50, 147/5000, 239/5000, 339/5000, 893/10000, 559/5000, 851/5000, 467/2000, 1509/5000, 151/400, 461/1000, 1101/2000, 6331/10000, 0],
  [0, 81/2500, 243/5000, 671/10000, 7/80, 547/5000, 663/5000, 387/2000, 161/625, 3259/10000, 399/1000, 961/2000, 354/625, 3219/5000, 0],
  [0, 29/1000, 43/1000, 6/125, 49/1000, 131/2500, 171/2500, 217/2500, 537/5000, 649/5000, 1537/10000, 2169/10000, 439/1250, 201/400, 1321/2000],
  [0, 51/1000, 743/10000, 891/10000, 537/5000, 1281/10000, 1509/10000, 1753/10000, 2407/10000, 3083/10000, 151/400, 281/625, 1053/2000, 1213/2000, 3413/5000],
  [0, 67/1000, 973/10000, 557/5000, 129/1000, 747/5000, 1723/10000, 493/2500, 1323/5000, 669/2000, 4047/10000, 1193/2500, 1383/2500, 6307/10000, 1773/2500]]

/-- `CPEC`, aviary/subsystems/propulsion/propeller/hamilton_standard.py:374-375. -/
def cpec : List ℚ :=
  [1/100, 1/50, 3/100, 1/25, 1/20, 3/50, 2/25, 1/10, 3/20, 1/5, 1/4, 3/10, 7/20, 2/5]

/-- `CT_CLi_table`, aviary/subsystems/propulsion/propeller/hamilton_standard.py:376-389. -/
def ctCli : List (List ℚ) :=
  [[13/10000, 211/10000, 407/10000, 3/50, 789/10000, 1251/10000, 851/5000, 2117/10000, 2501/10000, 71/250, 787/2500, 829/2500, 0, 0],
  [1/200, 1/100, 79/5000, 181/5000, 563/10000, 761/10000, 477/5000, 1419/10000, 467/2500, 1139/5000, 2669/10000, 3013/10000, 3317/10000, 173/500],
  [0, 83/10000, 297/10000, 507/10000, 713/10000, 229/2500, 557/5000, 317/2000, 127/625, 307/1250, 1417/5000, 3191/10000, 3487/10000, 1813/5000],
  [13/1000, 13/625, 107/2500, 129/2000, 857/10000, 133/1250, 1267/10000, 437/2500, 439/2000, 2619/10000, 599/2000, 67/200, 3647/10000, 1901/5000],
  [13/500, 331/10000, 69/1250, 97/1250, 497/5000, 1207/10000, 283/2000, 1907/10000, 2357/10000, 1389/5000, 789/2500, 701/2000, 238/625, 399/1000],
  [73/2000, 449/10000, 42/625, 899/10000, 9/80, 84/625, 389/2500, 2061/10000, 2517/10000, 2937/10000, 663/2000, 457/1250, 3963/10000, 2093/5000]]

/-- `CTEC`, aviary/subsystems/propulsion/propeller/hamilton_standard.py:390-391. -/
def ctec : List ℚ :=
  [1/100, 3/100, 1/20, 7/100, 9/100, 3/25, 4/25, 1/5, 6/25, 7/25, 8/25, 9/25, 2/5, 11/25]

/-- `ang_arr_len`, aviary/subsystems/propulsion/propeller/hamilton_standard.py:393-393. -/
def angLen : List ℕ :=
  [10, 6, 8, 8, 7, 10, 6]

/-- `cli_arr_len`, aviary/subsystems/propulsion/propeller/hamilton_standard.py:395-395. -/
def cliLen : List ℕ :=
  [12, 14, 14, 15, 15, 15]

/-- `PF_CLI_arr`, aviary/subsystems/propulsion/propeller/hamilton_standard.py:397-397. -/
def pfCli : List ℚ :=
  [42/25, 281/200, 1, 131/200, 221/500, 51/200, 51/500]

/-- `TF_CLI_arr`, aviary/subsystems/propulsion/propeller/hamilton_standard.py:399-399. -/
def tfCli : List ℚ :=
  [61/50, 221/200, 1, 441/500, 99/125, 133/200, 27/50]

/-- `num_blades_arr`, aviary/subsystems/propulsion/propeller/hamilton_standard.py:400-400. -/
def bladesArr : List ℚ :=
  [2, 4, 6, 8]

/-- `XPCLI`, aviary/subsystems/propulsion/propeller/hamilton_standard.py:401-414. -/
def xpcli : List (List ℚ) :=
  [[213/50, 457/200, 89/50, 196/125, 363/250, 13/10, 61/50, 29/25, 111/100, 217/200, 527/500, 131/125, 0, 0, 0],
  [2, 47/25, 413/250, 176/125, 323/250, 307/250, 297/250, 283/250, 221/200, 27/25, 529/500, 521/500, 1029/1000, 511/500, 0],
  [1, 1, 1, 1, 1, 1, 1, 1, 1, 1, 1, 1, 1, 1, 0],
  [0, 13/200, 2/5, 13/25, 551/1000, 619/1000, 89/125, 31/40, 163/200, 169/200, 173/200, 891/1000, 116/125, 479/500, 39/40],
  [0, 1/4, 109/250, 109/200, 5/8, 341/500, 363/500, 151/200, 201/250, 167/200, 108/125, 889/1000, 457/500, 187/200, 118/125],
  [0, 11/100, 333/1000, 109/250, 13/25, 117/200, 127/200, 67/100, 73/100, 77/100, 807/1000, 167/200, 871/1000, 897/1000, 909/1000]]

/-- `XTCLI`, aviary/subsystems/propulsion/propeller/hamilton_standard.py:415-428. -/
def xtcli : List (List ℚ) :=
  [[457/20, 12/5, 7/4, 1529/1000, 353/250, 317/250, 1191/1000, 579/500, 113/100, 561/500, 277/250, 277/250, 0, 0],
  [11/2, 227/100, 47/25, 7/5, 317/250, 151/125, 117/100, 111/100, 1089/1000, 1071/1000, 53/50, 527/500, 1051/1000, 131/125],
  [1, 1, 1, 1, 1, 1, 1, 1, 1, 1, 1, 1, 1, 1],
  [59/200, 399/1000, 347/500, 787/1000, 831/1000, 43/50, 881/1000, 227/250, 463/500, 47/50, 189/200, 951/1000, 479/500, 479/500],
  [83/500, 251/1000, 539/1000, 327/500, 719/1000, 19/25, 197/250, 831/1000, 173/200, 177/200, 9/10, 91/100, 229/250, 229/250],
  [21/500, 463/2500, 221/500, 113/200, 127/200, 681/1000, 179/250, 769/1000, 809/1000, 419/500, 171/200, 437/500, 881/1000, 881/1000]]

/-- `advance_ratio_array2`, aviary/subsystems/propulsion/propeller/hamilton_standard.py:429-429. -/
def advArr2 : List ℚ :=
  [0, 1/2, 1, 3/2, 2, 5/2, 3, 7/2, 4, 9/2, 5]

/-- `advance_ratio_array`, aviary/subsystems/propulsion/propeller/hamilton_standard.py:430-430. -/
def advArr : List ℚ :=
  [0, 1/2, 1, 3/2, 2, 3, 5]

/-- `mach_tip_corr_arr`, aviary/subsystems/propulsion/propeller/hamilton_standard.py:431-431. -/
def machTip : List ℚ :=
  [116/125, 229/250, 901/1000, 221/250, 173/200, 169/200]

/-- `mach_corr_table`, aviary/subsystems/propulsion/propeller/hamilton_standard.py:432-439. -/
def machCorr : List (List ℚ) :=
  [[0, 151/1000, 299/1000, 83/200, 101/200, 289/500, 31/50, 63/100, 63/100, 63/100, 63/100],
  [0, 73/500, 287/1000, 2/5, 487/1000, 139/250, 119/200, 121/200, 121/200, 121/200, 121/200],
  [0, 7/50, 69/250, 387/1000, 469/1000, 267/500, 571/1000, 579/1000, 579/1000, 579/1000, 579/1000],
  [0, 27/200, 53/200, 93/250, 113/250, 64/125, 547/1000, 277/500, 277/500, 277/500, 277/500],
  [0, 13/100, 63/250, 357/1000, 217/500, 49/100, 261/500, 263/500, 263/500, 263/500, 263/500],
  [0, 1/8, 6/25, 339/1000, 52/125, 469/1000, 249/500, 1/2, 1/2, 1/2, 1/2]]

/-- `comp_mach_CT_arr`, aviary/subsystems/propulsion/propeller/hamilton_standard.py:440-455. -/
def compMach : List ℚ :=
  [1, 9, 12, 0, 1/50, 1/25, 3/50, 2/25, 1/10, 3/20, 1/5, 3/10, 1/100, 1/50, 1/25, 2/25, 3/25, 4/25, 1/5, 6/25, 7/25, 8/25, 9/25, 2/5, 1, 1, 1, 1, 1, 1, 1, 1, 1, 1, 1, 1, 979/1000, 981/1000, 123/125, 987/1000, 99/100, 993/1000, 249/250, 1, 1, 1, 1, 1, 118/125, 189/200, 19/20, 479/500, 483/500, 39/40, 123/125, 99/100, 249/250, 999/1000, 1, 1, 901/1000, 181/200, 114/125, 927/1000, 471/500, 477/500, 241/250, 487/500, 123/125, 99/100, 9/10, 9/10, 431/500, 433/500, 7/8, 223/250, 909/1000, 463/500, 471/500, 957/1000, 97/100, 49/50, 123/125, 123/125, 403/500, 813/1000, 33/40, 851/1000, 877/1000, 113/125, 231/250, 939/1000, 119/125, 961/1000, 971/1000, 122/125, 27/40, 137/200, 7/10, 147/200, 777/1000, 81/100, 169/200, 87/100, 89/100, 181/200, 23/25, 93/100, 21/40, 27/50, 113/200, 123/200, 67/100, 71/100, 149/200, 79/100, 33/40, 43/50, 22/25, 179/200, 9/40, 13/50, 8/25, 3/8, 43/100, 99/200, 11/20, 61/100, 33/50, 71/100, 37/50, 31/40]

end Verif.HS.Tab
