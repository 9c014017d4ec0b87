/-! Generated by tools/gen_tables.py from the literals in /repo; do not edit.

Rows are the decimal literals scaled to integers. -/

namespace GConv.SO3.Tables

/-- a row of four scaled components `[w, x, y, z]`. -/
structure Z4 where
  w : Int
  x : Int
  y : Int
  z : Int
  deriving DecidableEq, Repr

/-- a scaled 3x3 matrix, row by row. -/
structure Z9 where
  a : Int
  b : Int
  c : Int
  d : Int
  e : Int
  f : Int
  g : Int
  h : Int
  i : Int
  deriving DecidableEq, Repr

/-- `identity`, so3.py:724-735, scaled by `10^8`. -/
def identity : List Z4 :=
  [⟨100000000, 0, 0, 0⟩]

/-- `klein_group`, so3.py:737-755, scaled by `10^8`. -/
def klein : List Z4 :=
  [⟨100000000, 0, 0, 0⟩,
   ⟨0, 0, 0, 100000000⟩,
   ⟨0, 0, 100000000, 0⟩,
   ⟨0, 100000000, 0, 0⟩]

/-- `tetrahedral`, so3.py:758-784, scaled by `10^8`. -/
def tetrahedral : List Z4 :=
  [⟨0, 100000000, 0, 0⟩,
   ⟨0, 0, 100000000, 0⟩,
   ⟨0, 0, 0, 100000000⟩,
   ⟨100000000, 0, 0, 0⟩,
   ⟨50000000, 50000000, -50000000, -50000000⟩,
   ⟨50000000, 50000000, -50000000, 50000000⟩,
   ⟨50000000, 50000000, 50000000, -50000000⟩,
   ⟨50000000, 50000000, 50000000, 50000000⟩,
   ⟨-50000000, 50000000, -50000000, -50000000⟩,
   ⟨-50000000, 50000000, -50000000, 50000000⟩,
   ⟨-50000000, 50000000, 50000000, -50000000⟩,
   ⟨-50000000, 50000000, 50000000, 50000000⟩]

/-- `octahedral`, so3.py:787-825, scaled by `10^8`. -/
def octahedral : List Z4 :=
  [⟨0, 100000000, 0, 0⟩,
   ⟨0, 0, 100000000, 0⟩,
   ⟨0, 0, 0, 100000000⟩,
   ⟨100000000, 0, 0, 0⟩,
   ⟨50000000, 50000000, -50000000, -50000000⟩,
   ⟨50000000, 50000000, -50000000, 50000000⟩,
   ⟨50000000, 50000000, 50000000, -50000000⟩,
   ⟨50000000, 50000000, 50000000, 50000000⟩,
   ⟨-50000000, 50000000, -50000000, -50000000⟩,
   ⟨-50000000, 50000000, -50000000, 50000000⟩,
   ⟨-50000000, 50000000, 50000000, -50000000⟩,
   ⟨-50000000, 50000000, 50000000, 50000000⟩,
   ⟨70710678, 70710678, 0, 0⟩,
   ⟨70710678, 0, 70710678, 0⟩,
   ⟨70710678, 0, 0, 70710678⟩,
   ⟨70710678, 0, 0, -70710678⟩,
   ⟨70710678, 0, -70710678, 0⟩,
   ⟨70710678, -70710678, 0, 0⟩,
   ⟨0, 0, 70710678, 70710678⟩,
   ⟨0, 0, -70710678, 70710678⟩,
   ⟨0, 70710678, 0, 70710678⟩,
   ⟨0, -70710678, 0, 70710678⟩,
   ⟨0, 70710678, 70710678, 0⟩,
   ⟨0, -70710678, 70710678, 0⟩]

/-- `icosahedral`, so3.py:828-902, scaled by `10^8`. -/
def icosahedral : List Z4 :=
  [⟨0, 100000000, 0, 0⟩,
   ⟨0, 0, 100000000, 0⟩,
   ⟨0, 0, 0, 100000000⟩,
   ⟨100000000, 0, 0, 0⟩,
   ⟨50000000, 50000000, -50000000, -50000000⟩,
   ⟨50000000, 50000000, -50000000, 50000000⟩,
   ⟨50000000, 50000000, 50000000, -50000000⟩,
   ⟨50000000, 50000000, 50000000, 50000000⟩,
   ⟨-50000000, 50000000, -50000000, -50000000⟩,
   ⟨-50000000, 50000000, -50000000, 50000000⟩,
   ⟨-50000000, 50000000, 50000000, -50000000⟩,
   ⟨-50000000, 50000000, 50000000, 50000000⟩,
   ⟨0, 50000000, 30901699, 80901699⟩,
   ⟨0, 50000000, 30901699, -80901699⟩,
   ⟨30901699, 50000000, 80901699, 0⟩,
   ⟨-30901699, 50000000, 80901699, 0⟩,
   ⟨0, 50000000, -30901699, 80901699⟩,
   ⟨0, 50000000, -30901699, -80901699⟩,
   ⟨30901699, 50000000, -80901699, 0⟩,
   ⟨-30901699, 50000000, -80901699, 0⟩,
   ⟨80901699, 50000000, 0, 30901699⟩,
   ⟨-80901699, 50000000, 0, 30901699⟩,
   ⟨80901699, 50000000, 0, -30901699⟩,
   ⟨-80901699, 50000000, 0, -30901699⟩,
   ⟨80901699, 30901699, 50000000, 0⟩,
   ⟨-80901699, 30901699, 50000000, 0⟩,
   ⟨0, 30901699, 80901699, 50000000⟩,
   ⟨0, 30901699, 80901699, -50000000⟩,
   ⟨80901699, 30901699, -50000000, 0⟩,
   ⟨-80901699, 30901699, -50000000, 0⟩,
   ⟨0, 30901699, -80901699, 50000000⟩,
   ⟨0, 30901699, -80901699, -50000000⟩,
   ⟨50000000, 30901699, 0, 80901699⟩,
   ⟨-50000000, 30901699, 0, 80901699⟩,
   ⟨50000000, 30901699, 0, -80901699⟩,
   ⟨-50000000, 30901699, 0, -80901699⟩,
   ⟨0, 80901699, 50000000, 30901699⟩,
   ⟨0, 80901699, 50000000, -30901699⟩,
   ⟨50000000, 80901699, 30901699, 0⟩,
   ⟨-50000000, 80901699, 30901699, 0⟩,
   ⟨0, 80901699, -50000000, 30901699⟩,
   ⟨0, 80901699, -50000000, -30901699⟩,
   ⟨50000000, 80901699, -30901699, 0⟩,
   ⟨-50000000, 80901699, -30901699, 0⟩,
   ⟨30901699, 80901699, 0, 50000000⟩,
   ⟨-30901699, 80901699, 0, 50000000⟩,
   ⟨30901699, 80901699, 0, -50000000⟩,
   ⟨-30901699, 80901699, 0, -50000000⟩,
   ⟨30901699, 0, 50000000, 80901699⟩,
   ⟨-30901699, 0, 50000000, 80901699⟩,
   ⟨30901699, 0, 50000000, -80901699⟩,
   ⟨-30901699, 0, 50000000, -80901699⟩,
   ⟨80901699, 0, 30901699, 50000000⟩,
   ⟨-80901699, 0, 30901699, 50000000⟩,
   ⟨80901699, 0, 30901699, -50000000⟩,
   ⟨-80901699, 0, 30901699, -50000000⟩,
   ⟨50000000, 0, 80901699, 30901699⟩,
   ⟨-50000000, 0, 80901699, 30901699⟩,
   ⟨50000000, 0, 80901699, -30901699⟩,
   ⟨-50000000, 0, 80901699, -30901699⟩]

/-- cache entry `["so3"]["quat"][1]`, _grid_cache.py:32-32, scaled by `10^11`. -/
def quat1 : List Z4 :=
  [⟨100000000000, 0, 0, 0⟩]

/-- cache entry `["so3"]["quat"][2]`, _grid_cache.py:33-38, scaled by `10^11`. -/
def quat2 : List Z4 :=
  [⟨85714000000, -1116900000, -806010000, -51492000000⟩,
   ⟨36036000, -56711000000, 82364000000, 60139000⟩]

/-- cache entry `["so3"]["quat"][3]`, _grid_cache.py:39-45, scaled by `10^11`. -/
def quat3 : List Z4 :=
  [⟨79734000000, 50712000000, -28458000000, 16152000000⟩,
   ⟨78041000000, -52578000000, 24840000000, -22981000000⟩,
   ⟨28153, 45854000000, 88867000000, 650670⟩]

/-- cache entry `["so3"]["quat"][4]`, _grid_cache.py:46-53, scaled by `10^11`. -/
def quat4 : List Z4 :=
  [⟨84210000000, 46290000000, -19120000000, -20000000000⟩,
   ⟨-33990000000, 82520000000, 4720000000, 44860000000⟩,
   ⟨30450000000, -29760000000, -63540000000, 64420000000⟩,
   ⟨42440000000, -11650000000, 83930000000, 31940000000⟩]

/-- cache entry `["so3"]["quat"][5]`, _grid_cache.py:54-62, scaled by `10^11`. -/
def quat5 : List Z4 :=
  [⟨14550000000, -62950000000, -27260000000, 71290000000⟩,
   ⟨96140000000, -470000000, -250000000, 27510000000⟩,
   ⟨-57040000000, 19180000000, 11150000000, 79080000000⟩,
   ⟨26010000000, 80270000000, 42400000000, 32890000000⟩,
   ⟨2650000000, -48520000000, 86900000000, -9320000000⟩]

/-- cache entry `["so3"]["quat"][6]`, _grid_cache.py:63-72, scaled by `10^11`. -/
def quat6 : List Z4 :=
  [⟨86600000000, 30710000000, -18640000000, -34770000000⟩,
   ⟨-36810000000, 20660000000, -32330000000, 84700000000⟩,
   ⟨18430000000, 31980000000, 87380000000, 31660000000⟩,
   ⟨550000000, -67850000000, 73450000000, -590000000⟩,
   ⟨72670000000, -870000000, -820000000, 68690000000⟩,
   ⟨-32930000000, 86570000000, 32130000000, -19690000000⟩]

/-- cache entry `["so3"]["quat"][7]`, _grid_cache.py:73-83, scaled by `10^11`. -/
def quat7 : List Z4 :=
  [⟨69220000000, -4860000000, -54540000000, -47010000000⟩,
   ⟨-10430000000, 52180000000, 70860000000, -46330000000⟩,
   ⟨-1030000000, 99990000000, 540000000, -140000000⟩,
   ⟨-2940000000, 1560000000, 790000000, 99940000000⟩,
   ⟨89800000000, -28540000000, 33470000000, -880000000⟩,
   ⟨5990000000, -35380000000, 93340000000, 220000000⟩,
   ⟨65300000000, 52160000000, 21550000000, 50500000000⟩]

/-- cache entry `["so3"]["quat"][8]`, _grid_cache.py:84-95, scaled by `10^11`. -/
def quat8 : List Z4 :=
  [⟨68760000000, -46690000000, 800000000, -55600000000⟩,
   ⟨36710000000, 11670000000, 78540000000, 48450000000⟩,
   ⟨61660000000, 68430000000, 22860000000, 31490000000⟩,
   ⟨23420000000, -41310000000, -50020000000, 72410000000⟩,
   ⟨-26080000000, -27690000000, 31310000000, 87020000000⟩,
   ⟨-12800000000, 98760000000, -1830000000, -8900000000⟩,
   ⟨85120000000, 11650000000, -50100000000, 10470000000⟩,
   ⟨20580000000, -32330000000, 83790000000, -38870000000⟩]

/-- cache entry `["so3"]["quat"][9]`, _grid_cache.py:96-108, scaled by `10^11`. -/
def quat9 : List Z4 :=
  [⟨41300000000, 1570000000, 1170000000, 91050000000⟩,
   ⟨99970000000, 240000000, 160000000, 2430000000⟩,
   ⟨-7460000000, 61920000000, -54110000000, 56420000000⟩,
   ⟨-3870000000, 97100000000, 23550000000, 1180000000⟩,
   ⟨56120000000, 58930000000, -52620000000, -24690000000⟩,
   ⟨2210000000, 40640000000, 75900000000, -50830000000⟩,
   ⟨-59950000000, 660000000, 790000000, 80030000000⟩,
   ⟨-7730000000, 35950000000, 80760000000, 46100000000⟩,
   ⟨49040000000, -56080000000, 56090000000, 36110000000⟩]

/-- cache entry `["so3"]["quat"][10]`, _grid_cache.py:109-122, scaled by `10^11`. -/
def quat10 : List Z4 :=
  [⟨-54920000000, -47710000000, 63030000000, 27100000000⟩,
   ⟨59390000000, 16740000000, 74910000000, -24100000000⟩,
   ⟨79090000000, -28690000000, -7960000000, -53470000000⟩,
   ⟨-19950000000, 67520000000, 69140000000, 16220000000⟩,
   ⟨-23110000000, 90790000000, -32000000000, 14080000000⟩,
   ⟨-31300000000, -180000000, 74000000000, -59530000000⟩,
   ⟨9420000000, 44850000000, 8320000000, 88490000000⟩,
   ⟨11120000000, 71440000000, 17330000000, -66880000000⟩,
   ⟨91530000000, 16160000000, 220000000, 36900000000⟩,
   ⟨36000000000, -31180000000, 62240000000, 62110000000⟩]

/-- cache entry `["so3"]["quat"][11]`, _grid_cache.py:123-137, scaled by `10^11`. -/
def quat11 : List Z4 :=
  [⟨84060000000, 770000000, -50190000000, -20330000000⟩,
   ⟨-30430000000, -66860000000, 9220000000, 67220000000⟩,
   ⟨72790000000, -55430000000, 30800000000, -26080000000⟩,
   ⟨13320000000, 9700000000, 70460000000, -69020000000⟩,
   ⟨63090000000, 35250000000, -28720000000, 62870000000⟩,
   ⟨-21210000000, 28850000000, 22380000000, 90650000000⟩,
   ⟨-5130000000, -56390000000, 82130000000, 6940000000⟩,
   ⟨8070000000, 97190000000, 7050000000, 20960000000⟩,
   ⟨60880000000, -49600000000, 8370000000, 61350000000⟩,
   ⟨-2620000000, 43450000000, 87730000000, 20240000000⟩,
   ⟨81280000000, 38880000000, 43290000000, -2910000000⟩]

/-- cache entry `["so3"]["quat"][12]`, _grid_cache.py:138-153, scaled by `10^11`. -/
def quat12 : List Z4 :=
  [⟨39820000000, 84610000000, -5980000000, 34920000000⟩,
   ⟨-8910000000, 79720000000, -6570000000, -59340000000⟩,
   ⟨830000000, 29480000000, 89970000000, 32190000000⟩,
   ⟨-62780000000, -2810000000, -3230000000, 77720000000⟩,
   ⟨76040000000, -29690000000, 57750000000, -1240000000⟩,
   ⟨-53080000000, 76220000000, 22980000000, 29070000000⟩,
   ⟨-7200000000, -690000000, 72430000000, -68570000000⟩,
   ⟨-2940000000, -60640000000, 79460000000, -1170000000⟩,
   ⟨79950000000, 17730000000, -56390000000, -10710000000⟩,
   ⟨76650000000, -22510000000, -13310000000, 58660000000⟩,
   ⟨18170000000, 22230000000, 21590000000, 93320000000⟩,
   ⟨51400000000, 60240000000, 53690000000, -29110000000⟩]

/-- cache entry `["so3"]["quat"][13]`, _grid_cache.py:154-170, scaled by `10^11`. -/
def quat13 : List Z4 :=
  [⟨89256000000, 29275000000, 16193000000, 30235000000⟩,
   ⟨-6064600000, 81296000000, -27735000000, -50842000000⟩,
   ⟨74231000000, 16534000000, -60016000000, -24786000000⟩,
   ⟨-432570000, -50036000000, 86581000000, 2431400⟩,
   ⟨72593000000, -58749000000, -26809000000, 23667000000⟩,
   ⟨26972000000, -9780300000, -4681600000, 95681000000⟩,
   ⟨72327000000, -38016000000, 51889000000, -25123000000⟩,
   ⟨16442000000, 89121000000, 41892000000, 5664100000⟩,
   ⟨-8178900000, 25616000000, 82481000000, -49738000000⟩,
   ⟨26497000000, 71824000000, -31818000000, 55918000000⟩,
   ⟨-42474000000, 48735000000, 23062000000, 72726000000⟩,
   ⟨25308000000, 14215000000, 77405000000, 56267000000⟩,
   ⟨-59699000000, -39699000000, -19999000000, 66783000000⟩]

/-- cache entry `["so3"]["quat"][14]`, _grid_cache.py:171-188, scaled by `10^11`. -/
def quat14 : List Z4 :=
  [⟨37100000000, 63710000000, -57810000000, 34950000000⟩,
   ⟨27950000000, -34540000000, 54350000000, 71220000000⟩,
   ⟨94050000000, 16420000000, 14730000000, 25840000000⟩,
   ⟨75160000000, -51440000000, -40580000000, 7600000000⟩,
   ⟨-61720000000, 30250000000, -2580000000, 72590000000⟩,
   ⟨10620000000, 65460000000, 37160000000, 64970000000⟩,
   ⟨-24840000000, 7840000000, 91510000000, 30790000000⟩,
   ⟨40910000000, 6500000000, -17030000000, 89410000000⟩,
   ⟨59610000000, -42770000000, 67350000000, -9050000000⟩,
   ⟨1450000000, 7370000000, 82600000000, -55870000000⟩,
   ⟨-6830000000, -61620000000, -18890000000, 76160000000⟩,
   ⟨67760000000, 47230000000, -34570000000, -44520000000⟩,
   ⟨47980000000, 61460000000, 61520000000, -11660000000⟩,
   ⟨-16060000000, 98110000000, -10430000000, -2820000000⟩]

/-- cache entry `["so3"]["quat"][15]`, _grid_cache.py:189-207, scaled by `10^11`. -/
def quat15 : List Z4 :=
  [⟨-20490000000, 6900000000, 80480000000, -55270000000⟩,
   ⟨-2440000000, 36260000000, 68540000000, 63090000000⟩,
   ⟨74400000000, 5400000000, 51520000000, 42210000000⟩,
   ⟨37550000000, -55110000000, 7350000000, 74150000000⟩,
   ⟨-47460000000, 290000000, -6440000000, 87780000000⟩,
   ⟨-30920000000, 81140000000, 47890000000, -12890000000⟩,
   ⟨54150000000, 36330000000, 66120000000, -37090000000⟩,
   ⟨86570000000, -45040000000, 14790000000, -16080000000⟩,
   ⟨-64150000000, 7010000000, 69410000000, 31910000000⟩,
   ⟨17560000000, -38890000000, 88890000000, 16670000000⟩,
   ⟨36860000000, 75780000000, -28630000000, -45590000000⟩,
   ⟨-16920000000, 80260000000, -38890000000, 41940000000⟩,
   ⟨42480000000, 83740000000, 25780000000, 22770000000⟩,
   ⟨86390000000, 30230000000, -32440000000, 23900000000⟩,
   ⟨31610000000, 29930000000, -8260000000, 89650000000⟩]

/-- cache entry `["so3"]["quat"][16]`, _grid_cache.py:208-227, scaled by `10^11`. -/
def quat16 : List Z4 :=
  [⟨34670000000, 81010000000, -3100000000, 47170000000⟩,
   ⟨-66850000000, 69810000000, 20530000000, -15360000000⟩,
   ⟨-34870000000, 16230000000, 78110000000, -49190000000⟩,
   ⟨-36810000000, 70790000000, -53920000000, 26960000000⟩,
   ⟨42160000000, -51110000000, 45010000000, 59870000000⟩,
   ⟨3600000000, 75190000000, 65320000000, 8210000000⟩,
   ⟨-48130000000, 55290000000, 11270000000, 67070000000⟩,
   ⟨-44910000000, -60730000000, 65020000000, 8170000000⟩,
   ⟨78590000000, 27430000000, 50600000000, 22610000000⟩,
   ⟨21850000000, -10650000000, 96800000000, 6210000000⟩,
   ⟨91410000000, 12950000000, -14890000000, -35430000000⟩,
   ⟨-26090000000, 4340000000, 68160000000, 68230000000⟩,
   ⟨24250000000, 82170000000, 4130000000, -51410000000⟩,
   ⟨84750000000, 9390000000, -20280000000, 48140000000⟩,
   ⟨9750000000, -2270000000, -7690000000, 99200000000⟩,
   ⟨-53110000000, -16370000000, -55950000000, 61490000000⟩]

/-- cache entry `["so3"]["quat"][17]`, _grid_cache.py:228-248, scaled by `10^11`. -/
def quat17 : List Z4 :=
  [⟨-26700000000, -21180000000, 60000000000, 72370000000⟩,
   ⟨-47790000000, 16240000000, -13770000000, 85220000000⟩,
   ⟨71880000000, -61360000000, 28490000000, -16020000000⟩,
   ⟨8280000000, -37170000000, 80180000000, -46060000000⟩,
   ⟨6780000000, 88950000000, -14580000000, 42780000000⟩,
   ⟨89820000000, -3860000000, -31220000000, -30690000000⟩,
   ⟨71120000000, 18370000000, 63660000000, -23500000000⟩,
   ⟨1030000000, -44930000000, -58420000000, 67580000000⟩,
   ⟨-23480000000, 16000000000, 95530000000, 8120000000⟩,
   ⟨40590000000, 56910000000, 52750000000, 48270000000⟩,
   ⟨-32410000000, 81700000000, 47020000000, 8010000000⟩,
   ⟨38080000000, 13330000000, -1490000000, 91490000000⟩,
   ⟨79190000000, -32110000000, -28540000000, 43390000000⟩,
   ⟨68930000000, 50220000000, -47530000000, 21610000000⟩,
   ⟨52270000000, -21760000000, 69490000000, 44320000000⟩,
   ⟨-21620000000, 79600000000, -19830000000, -52940000000⟩,
   ⟨55750000000, 75390000000, 6240000000, -34200000000⟩]

/-- cache entry `["so3"]["quat"][18]`, _grid_cache.py:249-270, scaled by `10^11`. -/
def quat18 : List Z4 :=
  [⟨81230000000, 1920000000, -57340000000, -10510000000⟩,
   ⟨83300000000, -15680000000, -7470000000, 52530000000⟩,
   ⟨-32530000000, 71520000000, -32320000000, -52750000000⟩,
   ⟨-42500000000, 82980000000, 36170000000, -620000000⟩,
   ⟨83770000000, 42080000000, 32590000000, -12220000000⟩,
   ⟨-30830000000, 36740000000, 57120000000, 66610000000⟩,
   ⟨-10580000000, -40250000000, 89520000000, 15950000000⟩,
   ⟨40770000000, 88210000000, -20550000000, -11610000000⟩,
   ⟨-55060000000, -34250000000, 18640000000, 73810000000⟩,
   ⟨2030000000, 41780000000, 90780000000, -2990000000⟩,
   ⟨56820000000, -1420000000, 70950000000, 41670000000⟩,
   ⟨43220000000, -6220000000, 69220000000, -57470000000⟩,
   ⟨40570000000, 68770000000, 28920000000, 52810000000⟩,
   ⟨630000000, -59950000000, -43290000000, 67310000000⟩,
   ⟨-19620000000, 80340000000, -30710000000, 47090000000⟩,
   ⟨14820000000, 7140000000, -420000000, 98640000000⟩,
   ⟨87550000000, -39230000000, 15070000000, -23840000000⟩,
   ⟨-41300000000, -28990000000, 65030000000, -56790000000⟩]

/-- cache entry `["so3"]["quat"][19]`, _grid_cache.py:271-293, scaled by `10^11`. -/
def quat19 : List Z4 :=
  [⟨-60580000000, 48860000000, 5920000000, 62510000000⟩,
   ⟨71300000000, 44790000000, 40270000000, 35890000000⟩,
   ⟨79390000000, -28350000000, -53770000000, -1610000000⟩,
   ⟨83410000000, -40270000000, 26990000000, 26330000000⟩,
   ⟨-27530000000, -16570000000, 90780000000, -26960000000⟩,
   ⟨25210000000, -24100000000, 87200000000, 34350000000⟩,
   ⟨26230000000, 4710000000, 33290000000, 90450000000⟩,
   ⟨16340000000, 69900000000, -15970000000, 67760000000⟩,
   ⟨9640000000, 52550000000, 76390000000, -36200000000⟩,
   ⟨-22450000000, -10540000000, -33450000000, 90910000000⟩,
   ⟨49050000000, 70760000000, -50830000000, 1920000000⟩,
   ⟨61490000000, -3180000000, -34170000000, 71000000000⟩,
   ⟨42870000000, -46200000000, 67850000000, -37740000000⟩,
   ⟨-32210000000, 94560000000, 2890000000, 3420000000⟩,
   ⟨89020000000, 19800000000, 18760000000, -36480000000⟩,
   ⟨-48290000000, -23280000000, 52070000000, 66440000000⟩,
   ⟨-16650000000, 69560000000, -14460000000, -68380000000⟩,
   ⟨-9000000000, 56780000000, 69370000000, 43400000000⟩,
   ⟨41690000000, 85850000000, 16730000000, -24740000000⟩]

/-- cache entry `["so3"]["quat"][20]`, _grid_cache.py:294-317, scaled by `10^11`. -/
def quat20 : List Z4 :=
  [⟨65408000000, -29110000000, 62212000000, 31687000000⟩,
   ⟨8472500000, -54997000000, 15351000000, 81657000000⟩,
   ⟨-3494700000, -65867000000, 73344000000, -16430000000⟩,
   ⟨-46519000000, 56340000000, 60243000000, 32134000000⟩,
   ⟨-55856000000, -3884900000, 13173000000, 81801000000⟩,
   ⟨79456000000, 32380000000, 88426000, 51365000000⟩,
   ⟨60225000000, 75012000000, -13157000000, -23938000000⟩,
   ⟨841100000, 69400000000, 56915000000, -44086000000⟩,
   ⟨66003000000, 21620000000, 57078000000, -43799000000⟩,
   ⟨-30555000000, 94066000000, -6891600000, -13056000000⟩,
   ⟨-66903000000, -14996000000, 70655000000, -17518000000⟩,
   ⟨58961000000, -55198000000, 31258000000, -49998000000⟩,
   ⟨71279000000, -43253000000, -25286000000, 49082000000⟩,
   ⟨44713000000, 59100000000, 63117000000, 22893000000⟩,
   ⟨-24445000000, -25661000000, 78818000000, 50316000000⟩,
   ⟨11678000000, 10139000000, -49606000000, 85440000000⟩,
   ⟨5411100000, 11268000000, 98381000000, -12842000000⟩,
   ⟨98591000000, -7749000000, -7052700000, -13039000000⟩,
   ⟨18217000000, 21794000000, 42950000000, 85723000000⟩,
   ⟨13621000000, 81851000000, -511720000, 55809000000⟩]

/-- cache entry `["so3"]["quat"][21]`, _grid_cache.py:318-342, scaled by `10^11`. -/
def quat21 : List Z4 :=
  [⟨34950000000, 79190000000, 34220000000, -36560000000⟩,
   ⟨22800000000, 36590000000, -16280000000, 88750000000⟩,
   ⟨-8530000000, 15720000000, 60900000000, 77270000000⟩,
   ⟨68630000000, -11720000000, 32290000000, 64110000000⟩,
   ⟨-36060000000, -30310000000, 81640000000, -33410000000⟩,
   ⟨90550000000, -41800000000, 7140000000, -1660000000⟩,
   ⟨2800000000, -41250000000, 6430000000, 90830000000⟩,
   ⟨-18130000000, -14230000000, -67010000000, 70550000000⟩,
   ⟨-41670000000, 58440000000, -51160000000, 47240000000⟩,
   ⟨70100000000, -14270000000, -66040000000, -22830000000⟩,
   ⟨56380000000, -42200000000, -47720000000, 52570000000⟩,
   ⟨24480000000, -35240000000, 86960000000, 24430000000⟩,
   ⟨89990000000, 36810000000, -15520000000, 17450000000⟩,
   ⟨-1250000000, 40060000000, 91610000000, 500000000⟩,
   ⟨45510000000, 57410000000, -50680000000, -45450000000⟩,
   ⟨-70530000000, -140000000, -990000000, 70880000000⟩,
   ⟨75610000000, 14050000000, 62890000000, -11420000000⟩,
   ⟨46040000000, 63340000000, 44340000000, 43610000000⟩,
   ⟨24710000000, 89770000000, -28740000000, 22480000000⟩,
   ⟨-33510000000, 86180000000, -19180000000, -32890000000⟩,
   ⟨-35260000000, 79960000000, 32640000000, 36020000000⟩]

/-- cache entry `["so3"]["quat"][22]`, _grid_cache.py:343-368, scaled by `10^11`. -/
def quat22 : List Z4 :=
  [⟨-19472000000, 56641000000, -37111000000, 70961000000⟩,
   ⟨66609000000, 53094000000, -38028000000, -36029000000⟩,
   ⟨-43891000000, 2662600000, 81660000000, 37390000000⟩,
   ⟨82317000000, -4456500000, 19316000000, -53206000000⟩,
   ⟨-43184000000, -8956600000, 82242000000, -35932000000⟩,
   ⟨-60387000000, 63641000000, 29635000000, 37749000000⟩,
   ⟨74162000000, -54958000000, 36369000000, 12526000000⟩,
   ⟨-67856000, -69530000000, 71867000000, 833860000⟩,
   ⟨-1403000000, -16685000000, -50395000000, 84735000000⟩,
   ⟨95954000000, -2245900000, -23395000000, 15510000000⟩,
   ⟨35565000000, -6692000000, 76004000000, 53978000000⟩,
   ⟨55375000000, 66408000000, -25646000000, 43195000000⟩,
   ⟨3459900000, 99797000000, 5305800000, 724410000⟩,
   ⟨42709000000, 66892000000, 32817000000, -51229000000⟩,
   ⟨41837000000, -6018400000, 86633000000, -26612000000⟩,
   ⟨77848000000, 43805000000, 42853000000, 13579000000⟩,
   ⟨835780000, 57382000000, 81890000000, -855720000⟩,
   ⟨-29736000000, -940050000, 24919000000, 92162000000⟩,
   ⟨13134000000, 60091000000, 41674000000, 66932000000⟩,
   ⟨54807000000, 1092400000, -48371000, 83636000000⟩,
   ⟨-51335000000, 63526000000, 38816000000, -42691000000⟩,
   ⟨10335000000, -65505000000, 28198000000, 69333000000⟩]

/-- cache entry `["so3"]["quat"][23]`, _grid_cache.py:369-395, scaled by `10^11`. -/
def quat23 : List Z4 :=
  [⟨-21440000000, 550000000, 31090000000, 92590000000⟩,
   ⟨-44010000000, 34440000000, 71270000000, 42390000000⟩,
   ⟨67900000000, 20790000000, -66780000000, 22320000000⟩,
   ⟨590000000, 96220000000, 25710000000, -9000000000⟩,
   ⟨-13940000000, 25310000000, -63420000000, 71720000000⟩,
   ⟨44320000000, 58100000000, -45190000000, -51170000000⟩,
   ⟨30530000000, 58520000000, 63380000000, 40330000000⟩,
   ⟨85260000000, -46070000000, -10690000000, 22240000000⟩,
   ⟨52170000000, 58220000000, 32340000000, -53320000000⟩,
   ⟨-8160000000, -24790000000, 94490000000, 19780000000⟩,
   ⟨-37210000000, 50610000000, 70680000000, -32540000000⟩,
   ⟨84290000000, -5890000000, -640000000, -53490000000⟩,
   ⟨41950000000, -11760000000, 61930000000, 65320000000⟩,
   ⟨-29580000000, 75530000000, -25100000000, -52820000000⟩,
   ⟨85570000000, 47590000000, 15130000000, 13560000000⟩,
   ⟨11690000000, 59400000000, -1010000000, 79590000000⟩,
   ⟨-51210000000, 75950000000, 5670000000, 39710000000⟩,
   ⟨67540000000, 9060000000, -7750000000, 72770000000⟩,
   ⟨11620000000, -35440000000, -27280000000, 88680000000⟩,
   ⟨30490000000, 23350000000, 89490000000, -22730000000⟩,
   ⟨37450000000, 84850000000, -31940000000, 19430000000⟩,
   ⟨81190000000, -16360000000, 56040000000, 650000000⟩,
   ⟨-30330000000, 69070000000, -64220000000, 13610000000⟩]

/-- cache entry `["so3"]["quat"][24]`, _grid_cache.py:396-423, scaled by `10^11`. -/
def quat24 : List Z4 :=
  [⟨-19565000000, -647930000, -7613900000, 97769000000⟩,
   ⟨45081000000, 49467000000, -48108000000, 56624000000⟩,
   ⟨-68653000000, 71045000000, -8475000000, -12942000000⟩,
   ⟨-8037300000, 73856000000, 66780000000, 4594400000⟩,
   ⟨80465000000, 404750000, 11772000000, -58195000000⟩,
   ⟨98164000000, 406340000, 10197000000, 16115000000⟩,
   ⟨68419000000, 71444000000, 6510500000, 13121000000⟩,
   ⟨-22725000000, 1443200000, 63711000000, 73637000000⟩,
   ⟨55261000000, -791920000, 1728300000, 83322000000⟩,
   ⟨32289000000, -50078000000, 52172000000, 61055000000⟩,
   ⟨-12684000000, 4653000000, 98905000000, 5943200000⟩,
   ⟨5161900000, 1741200000, 75167000000, -65728000000⟩,
   ⟨52849000000, -48431000000, 58434000000, -38038000000⟩,
   ⟨-8708600000, -69675000000, 71130000000, 3166200000⟩,
   ⟨63315000000, -50860000000, -39591000000, -42862000000⟩,
   ⟨33409000000, 50441000000, 50129000000, 61860000000⟩,
   ⟨60807000000, 1974200000, 77572000000, 16766000000⟩,
   ⟨14466000000, 71291000000, 4224800000, -68487000000⟩,
   ⟨77290000000, -1536200000, -62711000000, 9552400000⟩,
   ⟨43792000000, -52371000000, -47216000000, 55769000000⟩,
   ⟨-66620000, 99989000000, -1477800000, 37467000⟩,
   ⟨52227000000, 51824000000, 56981000000, -36603000000⟩,
   ⟨-13495000000, 70737000000, -5289000000, 69182000000⟩,
   ⟨63869000000, 49484000000, -41245000000, -42082000000⟩]

/-- cache entry `["so3"]["matrix"][1]`, _grid_cache.py:426-426, scaled by `10^11`; the literal is a bare 3x3 list (shape `(3, 3)`), here its single matrix. -/
def matrix1 : List Z9 :=
  [⟨100000000000, 0, 0, 0, 100000000000, 0, 0, 0, 100000000000⟩]

/-- cache entry `["so3"]["matrix"][2]`, _grid_cache.py:427-440, scaled by `10^11`. -/
def matrix2 : List Z9 :=
  [⟨46959000000, 88288000000, -231440000, -88252000000, 46947000000, 2744800000, 2532000000, -1084700000, 99962000000⟩,
   ⟨-35677000000, -93419000000, -8848300, -93419000000, 35677000000, 139940000, -127570000, 58192000, -100000000000⟩]

/-- cache entry `["so3"]["matrix"][3]`, _grid_cache.py:441-459, scaled by `10^11`. -/
def matrix3 : List Z9 :=
  [⟨78585000000, -54620000000, -28999000000, -3106100000, 43348000000, -90063000000, 61763000000, 71677000000, 32368000000⟩,
   ⟨77097000000, 9749200000, 62937000000, -61990000000, 34149000000, 70648000000, -14605000000, -93482000000, 32371000000⟩,
   ⟨-57948000000, 81499000000, 646760, 81499000000, 57948000000, 1130600, 546680, 1182300, -100000000000⟩]

/-- cache entry `["so3"]["matrix"][4]`, _grid_cache.py:460-483, scaled by `10^11`. -/
def matrix4 : List Z9 :=
  [⟨84690000000, 15980000000, -50720000000, -51390000000, 49140000000, -70320000000, 13680000000, 85620000000, 49830000000⟩,
   ⟨59300000000, 38290000000, 70830000000, -22700000000, -76450000000, 60330000000, 77250000000, -51860000000, -36650000000⟩,
   ⟨-63750000000, -1410000000, -77030000000, 77040000000, -710000000, -63750000000, 350000000, -99990000000, 1540000000⟩,
   ⟨-61270000000, -46660000000, 63790000000, 7550000000, 76890000000, 63490000000, -78670000000, 43720000000, -43580000000⟩]

/-- cache entry `["so3"]["matrix"][5]`, _grid_cache.py:484-512, scaled by `10^11`. -/
def matrix5 : List Z9 :=
  [⟨-16520000000, 13570000000, -97690000000, 55070000000, -80900000000, -20550000000, -81820000000, -57190000000, 5890000000⟩,
   ⟨84860000000, -52900000000, -740000000, 52910000000, 84860000000, 770000000, 220000000, -1040000000, 99990000000⟩,
   ⟨-27570000000, 94490000000, 17630000000, -85940000000, -32450000000, 39510000000, 43060000000, -4260000000, 90160000000⟩,
   ⟨42400000000, 50960000000, 74870000000, 85180000000, -50510000000, -13860000000, 30750000000, 69650000000, -64830000000⟩,
   ⟨-52780000000, -83830000000, 13660000000, -84820000000, 51180000000, -13620000000, 4430000000, -18770000000, -98120000000⟩]

/-- cache entry `["so3"]["matrix"][6]`, _grid_cache.py:513-546, scaled by `10^11`. -/
def matrix6 : List Z9 :=
  [⟨68871000000, 48782000000, -53638000000, -71676000000, 56951000000, -40237000000, 10919000000, 66157000000, 74189000000⟩,
   ⟨-64367000000, 48995000000, 58790000000, -75707000000, -52000000000, -39553000000, 11192000000, -69968000000, 70564000000⟩,
   ⟨-72751000000, 44220000000, 52458000000, 67559000000, 59502000000, 43535000000, -11962000000, 67112000000, -73163000000⟩,
   ⟨-7912600000, -99673000000, 1616800000, -99686000000, 7911800000, -115650000, -12650000, -1620900000, -99987000000⟩,
   ⟨5629000000, -99813000000, -2387700000, 99841000000, 5627600000, 124350000, 10252000, -2391000000, 99971000000⟩,
   ⟨71593000000, 42670000000, -55260000000, 68610000000, -57655000000, 44369000000, -12927000000, -69679000000, -70553000000⟩]

/-- cache entry `["so3"]["matrix"][7]`, _grid_cache.py:547-585, scaled by `10^11`. -/
def matrix7 : List Z9 :=
  [⟨-3690000000, 70390000000, -70930000000, -59780000000, 55330000000, 58010000000, 80080000000, 44540000000, 40040000000⟩,
   ⟨-43360000000, 64290000000, -63140000000, 83620000000, 2610000000, -54770000000, -33570000000, -76550000000, -54900000000⟩,
   ⟨99990000000, 1090000000, -290000000, 1090000000, -99970000000, 2070000000, -270000000, -2070000000, -99980000000⟩,
   ⟨-99780000000, 5900000000, 3080000000, -5850000000, -99810000000, 1670000000, 3170000000, 1490000000, 99940000000⟩,
   ⟨77580000000, -17520000000, 60620000000, -20700000000, 83690000000, 50670000000, -59610000000, -51860000000, 61300000000⟩,
   ⟨-74240000000, -66080000000, 11040000000, -66030000000, 74960000000, 4640000000, -11340000000, -3840000000, -99280000000⟩,
   ⟨39700000000, -43480000000, 80830000000, 88440000000, -5410000000, -46350000000, 24530000000, 89890000000, 36300000000⟩]

/-- cache entry `["so3"]["matrix"][8]`, _grid_cache.py:586-629, scaled by `10^11`. -/
def matrix8 : List Z9 :=
  [⟨38160000000, 75710000000, 53020000000, -77210000000, -5420000000, 63310000000, 50810000000, -65100000000, 56390000000⟩,
   ⟨-70330000000, -17230000000, 68970000000, 53910000000, 50320000000, 67540000000, -46350000000, 84680000000, -26100000000⟩,
   ⟨69710000000, -7550000000, 71300000000, 70130000000, -13500000000, -70000000000, 14910000000, 98800000000, -4120000000⟩,
   ⟨-54900000000, 7420000000, -83250000000, 75240000000, -38990000000, -53090000000, -36400000000, -91780000000, 15830000000⟩,
   ⟨-71060000000, 28050000000, -64520000000, -62720000000, -66800000000, 40050000000, -31870000000, 68930000000, 65060000000⟩,
   ⟨98350000000, -5900000000, -17120000000, -1340000000, -96660000000, 25600000000, -18050000000, -24950000000, -95140000000⟩,
   ⟨47610000000, -29490000000, -82850000000, 6150000000, 95100000000, -30320000000, 87720000000, 9340000000, 47090000000⟩,
   ⟨-70620000000, -38180000000, 59620000000, -70180000000, 48880000000, -51830000000, -9350000000, -78440000000, -61310000000⟩]

/-- cache entry `["so3"]["matrix"][9]`, _grid_cache.py:630-678, scaled by `10^11`. -/
def matrix9 : List Z9 :=
  [⟨-65830000000, -75170000000, 3830000000, 75250000000, -65860000000, 840000000, 1890000000, 3430000000, 99920000000⟩,
   ⟨99880000000, -4860000000, 330000000, 4860000000, 99880000000, -470000000, -310000000, 490000000, 100000000000⟩,
   ⟨-22210000000, -58590000000, 77930000000, -75420000000, -40330000000, -51820000000, 61790000000, -70290000000, -35230000000⟩,
   ⟨88880000000, 45830000000, 470000000, 45650000000, -88600000000, 8070000000, 4120000000, -6960000000, -99670000000⟩,
   ⟨32430000000, -34310000000, -88150000000, -89720000000, 18370000000, -40160000000, 29970000000, 92120000000, -24820000000⟩,
   ⟨-66880000000, 63940000000, -37950000000, 59430000000, 15300000000, -78950000000, -44670000000, -75350000000, -48230000000⟩,
   ⟨-28120000000, 95960000000, 110000000, -95940000000, -28120000000, 2060000000, 2010000000, 470000000, 99980000000⟩,
   ⟨-72950000000, 65210000000, 20660000000, 50940000000, 31650000000, 80020000000, 45640000000, 68900000000, -56310000000⟩,
   ⟨11000000000, -98330000000, 14500000000, -27490000000, 11010000000, 95520000000, -95520000000, -14500000000, -25820000000⟩]

/-- cache entry `["so3"]["matrix"][10]`, _grid_cache.py:679-732, scaled by `10^11`. -/
def matrix10 : List Z9 :=
  [⟨5860000000, -30380000000, -95090000000, -89920000000, 39780000000, -18240000000, 43370000000, 86570000000, -24990000000⟩,
   ⟨-23850000000, 53710000000, 80910000000, -3540000000, 82780000000, -55990000000, -97050000000, -16210000000, -17850000000⟩,
   ⟨41560000000, 89140000000, 18090000000, -80000000000, 26360000000, 53900000000, 43270000000, -36880000000, 82270000000⟩,
   ⟨-860000000, 99840000000, -5680000000, 86890000000, 3550000000, 49370000000, 49490000000, -4510000000, -86780000000⟩,
   ⟨75550000000, -51600000000, 40360000000, -64620000000, -68840000000, 32950000000, 10780000000, -50980000000, -85350000000⟩,
   ⟨-80400000000, -37530000000, -46120000000, 37000000000, 29130000000, -88220000000, 46540000000, -87990000000, -9530000000⟩,
   ⟨-57990000000, -9210000000, 80950000000, 24140000000, -96840000000, 6280000000, 77810000000, 23180000000, 58380000000⟩,
   ⟨4540000000, 39650000000, -91690000000, 9890000000, -91520000000, -39080000000, -99410000000, -7290000000, -8080000000⟩,
   ⟨72760000000, -67480000000, 12330000000, 67620000000, 67540000000, -29420000000, 11520000000, 29750000000, 94770000000⟩,
   ⟨-54630000000, -83540000000, 6080000000, 5910000000, 3400000000, 99770000000, -83550000000, 54860000000, 3080000000⟩]

/-- cache entry `["so3"]["matrix"][11]`, _grid_cache.py:733-791, scaled by `10^11`. -/
def matrix11 : List Z9 :=
  [⟨41350000000, 33400000000, -84700000000, -34950000000, 91720000000, 19110000000, 84080000000, 21700000000, 49600000000⟩,
   ⟨7920000000, 28590000000, -95500000000, -53240000000, -79780000000, -28300000000, -84280000000, 53080000000, 8900000000⟩,
   ⟨67420000000, 3840000000, 73750000000, -72120000000, 24950000000, 64630000000, -15920000000, -96760000000, 19590000000⟩,
   ⟨-94570000000, 32050000000, 5380000000, -4720000000, 2850000000, -99850000000, -32150000000, -94680000000, -1180000000⟩,
   ⟨4450000000, -99570000000, 8080000000, 59070000000, -3900000000, -80590000000, 80560000000, 8360000000, 58650000000⟩,
   ⟨-74350000000, 51370000000, 42810000000, -25540000000, -80990000000, 52810000000, 61800000000, 28330000000, 73340000000⟩,
   ⟨-35880000000, -91910000000, -16260000000, -93340000000, 35440000000, 5620000000, 600000000, 17190000000, -98510000000⟩,
   ⟨90220000000, 10310000000, 41870000000, 17080000000, -97710000000, -12720000000, 39600000000, 18630000000, -89910000000⟩,
   ⟨23330000000, -83000000000, -50660000000, 66390000000, -24470000000, 70670000000, -71050000000, -50120000000, 49390000000⟩,
   ⟨-62100000000, 77290000000, 12980000000, 75170000000, 54050000000, 37790000000, 22190000000, 33230000000, -91670000000⟩,
   ⟨62340000000, 38390000000, 68110000000, 28940000000, 69600000000, -65710000000, -72630000000, 60680000000, 32290000000⟩]

/-- cache entry `["so3"]["matrix"][12]`, _grid_cache.py:792-855, scaled by `10^11`. -/
def matrix12 : List Z9 :=
  [⟨74899000000, -37918000000, 54335000000, 17695000000, -67580000000, -71553000000, 63852000000, 63207000000, -43908000000⟩,
   ⟨28707000000, -21061000000, -93447000000, 94859000, -97547000000, 22014000000, -95791000000, -6408100000, -27983000000⟩,
   ⟨-82610000000, 52503000000, 20469000000, 53571000000, 61901000000, 57432000000, 17483000000, 58410000000, -79263000000⟩,
   ⟨-21028000000, 97764000000, -308750000, -97401000000, -20977000000, -8542300000, -8416000000, -1495500000, 99634000000⟩,
   ⟨33274000000, -32412000000, 88557000000, -36177000000, 82335000000, 43728000000, -87086000000, -46588000000, 15671000000⟩,
   ⟨72533000000, 65895000000, 19919000000, 4178600000, -33096000000, 94272000000, 68713000000, -67546000000, -26759000000⟩,
   ⟨-98953000000, -10880000000, -9485500000, 8877300000, 5945500000, -99428000000, 11382000000, -99228000000, -4917400000⟩,
   ⟨-26291000000, -96427000000, -3264900000, -96290000000, 26437000000, -5423800000, 6093100000, 1717800000, -99799000000⟩,
   ⟨34115000000, -2860400000, -93957000000, -37123000000, 91419000000, -16262000000, 86360000000, 40428000000, 30126000000⟩,
   ⟨27647000000, -83933000000, -46808000000, 95915000000, 21058000000, 18891000000, -5999300000, -50118000000, 86326000000⟩,
   ⟨-83515000000, -24314000000, 49337000000, 43515000000, -84070000000, 32229000000, 33642000000, 48384000000, 80791000000⟩,
   ⟨25396000000, 94605000000, 20121000000, 34760000000, 10486000000, -93176000000, -90259000000, 30657000000, -30222000000⟩]

/-- cache entry `["so3"]["matrix"][13]`, _grid_cache.py:856-924, scaled by `10^11`. -/
def matrix13 : List Z9 :=
  [⟨76470000000, -44490000000, 46610000000, 63450000000, 64580000000, -42470000000, -11200000000, 62050000000, 77620000000⟩,
   ⟨32920000000, -51260000000, -79300000000, -38930000000, -83880000000, 38060000000, -86030000000, 18340000000, -47570000000⟩,
   ⟨15670000000, 16950000000, -97300000000, -56650000000, 82240000000, 5200000000, 80910000000, 54300000000, 22490000000⟩,
   ⟨-49930000000, -86640000000, -750000000, -86640000000, 49930000000, -430000000, 750000000, 440000000, -100000000000⟩,
   ⟨74420000000, -2860000000, -66730000000, 65860000000, 19770000000, 72610000000, 11110000000, -97980000000, 16600000000⟩,
   ⟨-83540000000, -50700000000, -21240000000, 52530000000, -85010000000, -3680000000, -16190000000, -14230000000, 97650000000⟩,
   ⟨33530000000, -3110000000, 94160000000, -75790000000, 58470000000, 28920000000, -55960000000, -81060000000, 17250000000⟩,
   ⟨64260000000, 72810000000, 23870000000, 76530000000, -59490000000, -24560000000, -3680000000, 34050000000, -93950000000⟩,
   ⟨-85540000000, 34120000000, -38970000000, 50390000000, 37400000000, -77860000000, -11990000000, -86240000000, -49180000000⟩,
   ⟨17220000000, -75340000000, 63460000000, -16070000000, -65710000000, -73650000000, 97190000000, 2480000000, -23420000000⟩,
   ⟨-16420000000, 84260000000, 51300000000, -39300000000, -53280000000, 74940000000, 90480000000, -7860000000, 41860000000⟩,
   ⟨-83150000000, -6470000000, 55180000000, 50490000000, 32640000000, 79910000000, -23180000000, 94300000000, -23870000000⟩,
   ⟨2800000000, 95620000000, -29150000000, -63860000000, -20720000000, -74110000000, -76900000000, 20690000000, 60480000000⟩]

/-- cache entry `["so3"]["matrix"][14]`, _grid_cache.py:925-998, scaled by `10^11`. -/
def matrix14 : List Z9 :=
  [⟨8720000000, -99610000000, 1630000000, -47730000000, -5620000000, -87690000000, 87440000000, 6870000000, -48040000000⟩,
   ⟨-60520000000, -77360000000, -18810000000, 2270000000, -25290000000, 96720000000, -79580000000, 58110000000, 17060000000⟩,
   ⟨82310000000, -43770000000, 36190000000, 53440000000, 81260000000, -23270000000, -19220000000, 38490000000, 90270000000⟩,
   ⟨65910000000, 30320000000, -68820000000, 53180000000, 45920000000, 71160000000, 53180000000, -83500000000, 14140000000⟩,
   ⟨-5520000000, 88040000000, 47110000000, -91160000000, -23690000000, 33590000000, 40730000000, -41090000000, 81560000000⟩,
   ⟨-12040000000, 34850000000, 92950000000, 62450000000, -70120000000, 34380000000, 77170000000, 62190000000, -13320000000⟩,
   ⟨-86430000000, 29640000000, -40630000000, -950000000, 79810000000, 60240000000, 50280000000, 52460000000, -68700000000⟩,
   ⟨-65680000000, -75370000000, -2310000000, 70940000000, -60720000000, -35780000000, 25570000000, -25140000000, 93350000000⟩,
   ⟨7650000000, -46820000000, 88030000000, -68400000000, 61780000000, 38800000000, -72550000000, -63180000000, -27300000000⟩,
   ⟨-98870000000, 13800000000, -5850000000, 10570000000, 36490000000, -92500000000, -10630000000, -92080000000, -37540000000⟩,
   ⟨-23130000000, 33680000000, -91270000000, 12890000000, -91930000000, -37190000000, -96430000000, -20360000000, 16930000000⟩,
   ⟨36450000000, 27680000000, -88910000000, -93000000000, 15740000000, -33230000000, 4800000000, 94800000000, 31480000000⟩,
   ⟨21590000000, 86810000000, 44700000000, 64430000000, 21730000000, -73320000000, -73370000000, 44630000000, -51240000000⟩,
   ⟨97670000000, -21370000000, -2180000000, -19560000000, -92670000000, 32100000000, -8880000000, -30920000000, -94680000000⟩]

/-- cache entry `["so3"]["matrix"][15]`, _grid_cache.py:999-1077, scaled by `10^11`. -/
def matrix15 : List Z9 :=
  [⟨-90650000000, -11540000000, -40610000000, 33760000000, 37940000000, -86140000000, 25350000000, -91800000000, -30500000000⟩,
   ⟨-73580000000, 52790000000, 42410000000, 46630000000, -5910000000, 88270000000, 49110000000, 84720000000, -20260000000⟩,
   ⟨11280000000, -57240000000, 81220000000, 68360000000, 63790000000, 35460000000, -72110000000, 51530000000, 46320000000⟩,
   ⟨-11050000000, -63790000000, -76210000000, 47600000000, -70710000000, 52290000000, -87250000000, -30500000000, 38180000000⟩,
   ⟨-54950000000, 83290000000, 6620000000, -83360000000, -54120000000, -11030000000, -5600000000, -11580000000, 99170000000⟩,
   ⟨50810000000, 69740000000, -50540000000, 85690000000, -35010000000, 37830000000, 8690000000, -62530000000, -77550000000⟩,
   ⟨-14960000000, 88210000000, 44680000000, 7870000000, 46100000000, -88390000000, -98560000000, -9700000000, -13840000000⟩,
   ⟨90460000000, 14510000000, 40090000000, -41160000000, 54260000000, 73220000000, -11130000000, -82730000000, 55060000000⟩,
   ⟨-16710000000, 50660000000, -84580000000, -31220000000, 78660000000, 53280000000, 93520000000, 35310000000, 2670000000⟩,
   ⟨-63590000000, -74990000000, 18240000000, -63280000000, 64190000000, 43300000000, -44180000000, 15990000000, -88270000000⟩,
   ⟨42030000000, -9780000000, -90210000000, -77000000000, -56440000000, -29760000000, -48000000000, 81970000000, -31260000000⟩,
   ⟨34570000000, -48240000000, 80490000000, -76630000000, -64020000000, -5460000000, 54160000000, -59790000000, -59090000000⟩,
   ⟨76350000000, 23830000000, 60030000000, 62510000000, -50630000000, -59400000000, 16230000000, 82880000000, -53550000000⟩,
   ⟨67530000000, -60900000000, -41600000000, 21680000000, 70300000000, -67730000000, 70500000000, 36720000000, 60680000000⟩,
   ⟨-62100000000, -61620000000, 48440000000, 51730000000, -78650000000, -33730000000, 58880000000, 4110000000, 80720000000⟩]

/-- cache entry `["so3"]["matrix"][16]`, _grid_cache.py:1078-1161, scaled by `10^11`. -/
def matrix16 : List Z9 :=
  [⟨55310000000, -37720000000, 74280000000, 27690000000, -75770000000, -59100000000, 78580000000, 53260000000, -31460000000⟩,
   ⟨86850000000, 8130000000, -48890000000, 49200000000, -2180000000, 87030000000, 6010000000, -99640000000, -5900000000⟩,
   ⟨-70420000000, -8950000000, -70440000000, 59660000000, 46340000000, -65520000000, 38500000000, -88160000000, -27290000000⟩,
   ⟨27330000000, -56480000000, 77860000000, -96180000000, -14760000000, 23050000000, -1530000000, -81190000000, -58360000000⟩,
   ⟨-12210000000, -96490000000, -23250000000, 4480000000, -23940000000, 96990000000, -99150000000, 10800000000, 7250000000⟩,
   ⟨13330000000, 97630000000, 17040000000, 98810000000, -14420000000, 5300000000, 7630000000, 16140000000, -98390000000⟩,
   ⟨7480000000, 77030000000, 63330000000, -52110000000, -51130000000, 68340000000, 85020000000, -38120000000, 36310000000⟩,
   ⟨14110000000, -71640000000, -68330000000, -86320000000, 24900000000, -43930000000, 48480000000, 65180000000, -58320000000⟩,
   ⟨38570000000, -7790000000, 91940000000, 63300000000, 74730000000, -20220000000, -67130000000, 65990000000, 33750000000⟩,
   ⟨-88180000000, -23340000000, 40980000000, -17910000000, 96960000000, 16670000000, -43620000000, 7360000000, -89680000000⟩,
   ⟨70460000000, 60910000000, -36410000000, -68620000000, 71540000000, -13120000000, 18050000000, 34230000000, 92210000000⟩,
   ⟨-86020000000, 41510000000, -29640000000, -29680000000, 6510000000, 95270000000, 41480000000, 90740000000, 6720000000⟩,
   ⟨46790000000, 31730000000, -82490000000, -18140000000, -87890000000, -44110000000, -86500000000, 35600000000, -35370000000⟩,
   ⟨45420000000, -85410000000, -25330000000, 77800000000, 51880000000, -35440000000, 43410000000, -3610000000, 90010000000⟩,
   ⟨-98000000000, -18990000000, -5990000000, 19690000000, -96920000000, -14820000000, -2990000000, -15700000000, 98710000000⟩,
   ⟨-38220000000, 83640000000, 39290000000, -47000000000, 19020000000, -86190000000, -79560000000, -51410000000, 32040000000⟩]

/-- cache entry `["so3"]["matrix"][17]`, _grid_cache.py:1162-1250, scaled by `10^11`. -/
def matrix17 : List Z9 :=
  [⟨-76760000000, 13230000000, -62710000000, -64070000000, -13730000000, 75540000000, 1390000000, 98170000000, 19020000000⟩,
   ⟨-49050000000, 76980000000, 40840000000, -85920000000, -50540000000, -7950000000, 14520000000, -38990000000, 90930000000⟩,
   ⟨78640000000, -11920000000, 60610000000, -57990000000, 19560000000, 79080000000, -21290000000, -97340000000, 8470000000⟩,
   ⟨-71000000000, -51970000000, 47520000000, -67230000000, 29940000000, -67710000000, 20960000000, -80020000000, -56190000000⟩,
   ⟨59150000000, -31740000000, 74120000000, -20140000000, -94830000000, -24540000000, 78080000000, -420000000, -62480000000⟩,
   ⟨61670000000, 57540000000, -53720000000, -52720000000, 80870000000, 26100000000, 58460000000, 12230000000, 80200000000⟩,
   ⟨7900000000, 56810000000, 81910000000, -10040000000, 82210000000, -56040000000, -99180000000, -3800000000, 12200000000⟩,
   ⟨-59600000000, 51100000000, -61940000000, 53900000000, -31710000000, -78030000000, -59520000000, -79890000000, -8640000000⟩,
   ⟨-83850000000, 34390000000, -42260000000, 26760000000, 93560000000, 23030000000, 47460000000, 8000000000, -87660000000⟩,
   ⟨-2260000000, 20850000000, 97780000000, 99240000000, -11390000000, 4720000000, 12120000000, 97140000000, -20440000000⟩,
   ⟨54490000000, 82020000000, -17400000000, 71640000000, -34770000000, 60490000000, 43560000000, -45430000000, -77710000000⟩,
   ⟨-67450000000, -70070000000, 23260000000, 69280000000, -70960000000, -12870000000, 25520000000, 7430000000, 96400000000⟩,
   ⟨46050000000, -50400000000, -73070000000, 87060000000, 41720000000, 26090000000, 17330000000, -75630000000, 63090000000⟩,
   ⟨45480000000, -77530000000, -43820000000, -17940000000, 40220000000, -89780000000, 87230000000, 48690000000, 4380000000⟩,
   ⟨-35880000000, -76580000000, 53370000000, 16090000000, 51240000000, 84350000000, -91940000000, 38850000000, -6060000000⟩,
   ⟨36080000000, -54460000000, -75710000000, -8670000000, -82780000000, 55420000000, -92860000000, -13430000000, -34590000000⟩,
   ⟨75830000000, 47530000000, -44610000000, -28730000000, -37070000000, -88320000000, -58520000000, 79790000000, -14450000000⟩]

/-- cache entry `["so3"]["matrix"][18]`, _grid_cache.py:1251-1344, scaled by `10^11`. -/
def matrix18 : List Z9 :=
  [⟨32030000000, 14870000000, -93560000000, -19280000000, 97720000000, 8930000000, 92750000000, 15180000000, 34160000000⟩,
   ⟨43690000000, -85170000000, -28920000000, 89860000000, 39890000000, 18280000000, -4030000000, -33970000000, 93970000000⟩,
   ⟨23460000000, -80550000000, -54410000000, -11910000000, -57940000000, 80630000000, -96480000000, -12430000000, -23190000000⟩,
   ⟨73830000000, 59500000000, -31770000000, 60550000000, -37710000000, 70080000000, 29710000000, -70980000000, -63870000000⟩,
   ⟨75770000000, 47910000000, 44310000000, 6940000000, 61600000000, -78470000000, -64880000000, 62540000000, 43350000000⟩,
   ⟨-53990000000, 83040000000, 13720000000, 890000000, -15740000000, 98750000000, 84170000000, 53440000000, 7760000000⟩,
   ⟨-65350000000, -68690000000, -31790000000, -75440000000, 62500000000, 20040000000, 6100000000, 37080000000, -92670000000⟩,
   ⟨88860000000, -26780000000, -37240000000, -45710000000, -58320000000, -67150000000, -3730000000, 76700000000, -64060000000⟩,
   ⟨-15910000000, 68510000000, -71080000000, -94050000000, -32420000000, -10200000000, -30030000000, 65230000000, 69590000000⟩,
   ⟨-65010000000, 75980000000, 1190000000, 75730000000, 64910000000, -7130000000, -6190000000, -3730000000, -99740000000⟩,
   ⟨-35400000000, -49360000000, 79440000000, 45340000000, 65230000000, 60740000000, -81800000000, 57520000000, -710000000⟩,
   ⟨-61870000000, 41070000000, 66980000000, -58280000000, 33180000000, -74180000000, -52680000000, -84930000000, 3410000000⟩,
   ⟨27500000000, -3080000000, 96100000000, 82620000000, -50360000000, -25260000000, 49170000000, 86340000000, -11300000000⟩,
   ⟨-28100000000, 51060000000, -81260000000, 52770000000, -62510000000, -57520000000, -80160000000, -59040000000, -9370000000⟩,
   ⟨36800000000, -30860000000, 87710000000, -67820000000, -73450000000, 2600000000, 63620000000, -60440000000, -47960000000⟩,
   ⟨-94580000000, -29310000000, 13960000000, 29190000000, -95600000000, -2950000000, 14210000000, 1280000000, 98980000000⟩,
   ⟨84100000000, 29910000000, 45090000000, -53560000000, 57850000000, 61520000000, -7680000000, -75880000000, 64670000000⟩,
   ⟨-49090000000, -84610000000, -20780000000, 9210000000, 18680000000, -97810000000, 86630000000, -49930000000, -1380000000⟩]

/-- cache entry `["so3"]["matrix"][19]`, _grid_cache.py:1345-1443, scaled by `10^11`. -/
def matrix19 : List Z9 :=
  [⟨21140000000, 81520000000, 53920000000, -69950000000, -25910000000, 66600000000, 68260000000, -51800000000, 51550000000⟩,
   ⟨41810000000, -15090000000, 89580000000, 87250000000, 34110000000, -34970000000, -25280000000, 92780000000, 27430000000⟩,
   ⟨42120000000, 33040000000, -84460000000, 27940000000, 83880000000, 46740000000, 86290000000, -43280000000, 26100000000⟩,
   ⟨71570000000, -65660000000, 23810000000, 22190000000, 53700000000, 81390000000, -66220000000, -52960000000, 53010000000⟩,
   ⟨-79350000000, -44930000000, -41040000000, -15250000000, 79970000000, -58060000000, 58910000000, -39820000000, -70310000000⟩,
   ⟨-75670000000, -59350000000, 27410000000, -24710000000, 64790000000, 72060000000, -60530000000, 47750000000, -63690000000⟩,
   ⟨-85800000000, -44310000000, 25990000000, 50590000000, -64070000000, 57750000000, -8940000000, 62700000000, 77390000000⟩,
   ⟨3060000000, -44460000000, 89520000000, -180000000, -89560000000, -44480000000, 99950000000, 1200000000, -2820000000⟩,
   ⟨-42910000000, 87270000000, -23310000000, 73310000000, 18560000000, -65430000000, -52770000000, -45160000000, -71940000000⟩,
   ⟨-87690000000, 47880000000, -4150000000, -33770000000, -67530000000, -65570000000, -34200000000, -56090000000, 75390000000⟩,
   ⟨48250000000, -73820000000, -47140000000, -70050000000, -210000000, -71370000000, 52590000000, 67460000000, -51810000000⟩,
   ⟨-24170000000, -85150000000, -46540000000, 89500000000, -1030000000, -44600000000, 37500000000, -52430000000, 76450000000⟩,
   ⟨-20560000000, -30340000000, 93040000000, -95050000000, 28840000000, -11600000000, -23310000000, -90820000000, -34760000000⟩,
   ⟨99600000000, 7670000000, 4600000000, 3260000000, -79080000000, 61120000000, 8320000000, -60730000000, -79010000000⟩,
   ⟨66350000000, 72380000000, 18950000000, -57530000000, 65540000000, -48940000000, -47840000000, 21560000000, 85120000000⟩,
   ⟨-42510000000, 39930000000, -81230000000, -88420000000, 860000000, 46700000000, 19350000000, 91680000000, 34940000000⟩,
   ⟨2310000000, -42890000000, -90310000000, 2660000000, -90270000000, 42940000000, -99940000000, -3400000000, -950000000⟩,
   ⟨-33910000000, 86580000000, 36800000000, 70960000000, -2140000000, 70430000000, 61760000000, 49990000000, -60720000000⟩,
   ⟨82160000000, 49350000000, -28540000000, 8080000000, -59640000000, -79860000000, -56430000000, 63310000000, -52990000000⟩]

/-- cache entry `["so3"]["matrix"][20]`, _grid_cache.py:1444-1547, scaled by `10^11`. -/
def matrix20 : List Z9 :=
  [⟨2510000000, -77670000000, 62940000000, 5230000000, 62970000000, 77510000000, -99830000000, 1350000000, 5650000000⟩,
   ⟨-38070000000, -30720000000, -87220000000, -3050000000, -93850000000, 34390000000, -92420000000, 15750000000, 34790000000⟩,
   ⟨-12990000000, -97770000000, 16520000000, -95470000000, 7830000000, -28700000000, 26770000000, -19500000000, -94360000000⟩,
   ⟨6760000000, 97780000000, -19840000000, 37990000000, 15860000000, 91130000000, 92260000000, -13700000000, -36070000000⟩,
   ⟨-37300000000, 90360000000, -21070000000, -92410000000, -34130000000, 17210000000, 8360000000, 25890000000, 96230000000⟩,
   ⟨47230000000, -81570000000, 33400000000, 81680000000, 26260000000, -51360000000, 33120000000, 51550000000, 79030000000⟩,
   ⟨85080000000, 9090000000, -51760000000, -48570000000, -24000000000, -84050000000, -20060000000, 96650000000, -16000000000⟩,
   ⟨-3660000000, 79740000000, -60230000000, 78260000000, -35200000000, -51350000000, -62150000000, -49020000000, -61120000000⟩,
   ⟨-3520000000, 82500000000, 56410000000, -33140000000, 52280000000, -78540000000, -94280000000, -21460000000, 25490000000⟩,
   ⟨95640000000, -20940000000, -20350000000, -4990000000, -80380000000, 59280000000, -28770000000, -55680000000, -77920000000⟩,
   ⟨-5980000000, -44630000000, -89290000000, 2250000000, 89360000000, -44820000000, 99800000000, -4690000000, -4340000000⟩,
   ⟨30460000000, 24450000000, 92060000000, -93470000000, -10930000000, 33830000000, 18340000000, -96350000000, 19520000000⟩,
   ⟨39030000000, -48100000000, -78510000000, 91840000000, 14400000000, 36840000000, -6410000000, -86480000000, 49800000000⟩,
   ⟨9840000000, 54130000000, 83500000000, 95080000000, 19660000000, -23950000000, -29380000000, 81750000000, -49530000000⟩,
   ⟨-74880000000, -15850000000, -64360000000, -65050000000, 36200000000, 66770000000, 12710000000, 91860000000, -37410000000⟩,
   ⟨-95220000000, -30010000000, 5740000000, 9900000000, -48060000000, -87140000000, 28910000000, -82400000000, 48730000000⟩,
   ⟨-96870000000, 23560000000, 7750000000, 20780000000, 94160000000, -26490000000, -13540000000, -24050000000, -96120000000⟩,
   ⟨95600000000, 26800000000, -11890000000, -24620000000, 95400000000, 17120000000, 15930000000, -13440000000, 97800000000⟩,
   ⟨-83860000000, -12510000000, 53010000000, 49950000000, -56470000000, 65700000000, 21720000000, 81580000000, 53610000000⟩,
   ⟨37700000000, -16040000000, 91220000000, 14370000000, -96280000000, -22870000000, 91500000000, 21730000000, -34000000000⟩]

/-- cache entry `["so3"]["matrix"][21]`, _grid_cache.py:1548-1656, scaled by `10^11`. -/
def matrix21 : List Z9 :=
  [⟨49851000000, 79749000000, -33985000000, 28641000000, -52154000000, -80372000000, -81820000000, 30333000000, -48840000000⟩,
   ⟨-62830000000, -52389000000, 57514000000, 28566000000, -84299000000, -45581000000, 72363000000, -12209000000, 67930000000⟩,
   ⟨-93604000000, 32329000000, 13897000000, 5957000000, -24365000000, 96803000000, 34682000000, 91439000000, 20881000000⟩,
   ⟨-3055900000, -95562000000, 29301000000, 80428000000, 15054000000, 57487000000, -59347000000, 25323000000, 76399000000⟩,
   ⟨-55616000000, -73587000000, -38625000000, -25386000000, 59296000000, -76417000000, 79135000000, -32694000000, -51659000000⟩,
   ⟨98926000000, -2963000000, 14317000000, -8974900000, 64994000000, 75467000000, -11541000000, -75941000000, 64029000000⟩,
   ⟨-65819000000, -10392000000, -74564000000, -221550000, -99015000000, 13996000000, -75285000000, 9377200000, 65148000000⟩,
   ⟨-89377000000, 44654000000, 4211400000, -6502100000, -3609100000, -99723000000, -44378000000, -89404000000, 6129200000⟩,
   ⟨3033300000, -20425000000, 97845000000, -99160000000, -12932000000, 374500000, 12577000000, -97034000000, -20645000000⟩,
   ⟨2355700000, 50852000000, -86073000000, -13158000000, 85505000000, 50157000000, 99103000000, 10144000000, 8705400000⟩,
   ⟨-821150000, -18997000000, -98176000000, 99549000000, 9120600000, -2597500000, 9447600000, -97754000000, 18836000000⟩,
   ⟨-63182000000, -73247000000, 25357000000, -49329000000, 63231000000, 59737000000, -59789000000, 25235000000, -76082000000⟩,
   ⟨89087000000, -42847000000, -15090000000, 19986000000, 66800000000, -71682000000, 40794000000, 60843000000, 68073000000⟩,
   ⟨-67868000000, 73419000000, -1895200000, 73394000000, 67894000000, 1922100000, 2697900000, -86460000, -99964000000⟩,
   ⟨7324500000, -16826000000, -98302000000, -99548000000, -7213400000, -6182700000, -6050700000, 98310000000, -17278000000⟩,
   ⟨-499380000, 99992000000, 1191300000, -99986000000, -480320000, -1597800000, -1592000000, -1199100000, 99980000000⟩,
   ⟨18288000000, 34942000000, 91894000000, 393190000, 93444000000, -35610000000, -98313000000, 6873600000, 16951000000⟩,
   ⟨22651000000, 16015000000, 96075000000, 96328000000, -18284000000, -19662000000, 14418000000, 97001000000, -19569000000⟩,
   ⟨73378000000, -62704000000, 26151000000, -40488000000, -71270000000, -57283000000, 54557000000, 31445000000, -77684000000⟩,
   ⟨71014000000, -55097000000, -43833000000, -11015000000, -70186000000, 70375000000, -69539000000, -45148000000, -55911000000⟩,
   ⟨52742000000, 77600000000, 34590000000, 26788000000, -53825000000, 79908000000, 80627000000, -32879000000, -49176000000⟩]

/-- cache entry `["so3"]["matrix"][22]`, _grid_cache.py:1657-1770, scaled by `10^11`. -/
def matrix22 : List Z9 :=
  [⟨-28250000000, -14410000000, 94840000000, -69670000000, -64870000000, -30610000000, 65930000000, -74730000000, 8290000000⟩,
   ⟨45110000000, 7620000000, -88920000000, -88380000000, 17660000000, -43330000000, 12400000000, 98130000000, 14700000000⟩,
   ⟨-61330000000, 37170000000, -69690000000, -28470000000, 71900000000, 63400000000, 73680000000, 58730000000, -33510000000⟩,
   ⟨35920000000, 85870000000, 36540000000, -89320000000, 42980000000, -13220000000, -27060000000, -27890000000, 92140000000⟩,
   ⟨-61100000000, -45770000000, -64590000000, 16300000000, 72570000000, -66840000000, 77470000000, -51370000000, -36880000000⟩,
   ⟨53940000000, 83310000000, 12260000000, -7870000000, -9500000000, 99240000000, 83840000000, -54490000000, 1430000000⟩,
   ⟨70410000000, -58550000000, 40180000000, -21400000000, 36450000000, 90630000000, -67710000000, -72400000000, 13140000000⟩,
   ⟨-3310000000, -99940000000, -1260000000, -99940000000, 3300000000, 1100000000, -1060000000, 1290000000, -99990000000⟩,
   ⟨-94390000000, 19190000000, -26860000000, 14440000000, -49170000000, -85870000000, -29690000000, -84940000000, 43640000000⟩,
   ⟨84240000000, -28710000000, -45590000000, 30820000000, 95090000000, -2950000000, 44200000000, -11570000000, 88950000000⟩,
   ⟨-73810000000, -48570000000, 46840000000, 28220000000, 40830000000, 86810000000, -61290000000, 77290000000, -16430000000⟩,
   ⟨49530000000, -81900000000, 28970000000, 13780000000, -25520000000, -95700000000, 85770000000, 51390000000, -1360000000⟩,
   ⟨99430000000, 10540000000, 1810000000, 10640000000, -99200000000, -6830000000, 1080000000, 6980000000, -99750000000⟩,
   ⟨25970000000, 87660000000, -40500000000, 140000000, -41980000000, -90760000000, -96570000000, 23510000000, -11030000000⟩,
   ⟨-64270000000, 11840000000, 75690000000, -32700000000, 85110000000, -41070000000, -69290000000, -51150000000, -50830000000⟩,
   ⟨59580000000, 16400000000, 78620000000, 58690000000, 57930000000, -56560000000, -54820000000, 79840000000, 24890000000⟩,
   ⟨-34130000000, 93990000000, 390000000, 93970000000, 34130000000, -2360000000, -2350000000, -440000000, -99970000000⟩,
   ⟨-82300000000, 54340000000, -16550000000, -55280000000, -69900000000, 45370000000, 13090000000, 46490000000, 87560000000⟩,
   ⟨-24330000000, 32500000000, 91390000000, 67670000000, -61820000000, 40000000000, 69490000000, 71570000000, -6950000000⟩,
   ⟨-39900000000, -91680000000, 1770000000, 91680000000, -39920000000, -1280000000, 1880000000, 1120000000, 99980000000⟩,
   ⟨33420000000, 5490000000, -94090000000, 93150000000, -17160000000, 32080000000, -14390000000, -98360000000, -10850000000⟩,
   ⟨-12040000000, -51270000000, -85010000000, -22610000000, -81960000000, 52640000000, -96660000000, 25560000000, -1720000000⟩]

/-- cache entry `["so3"]["matrix"][23]`, _grid_cache.py:1771-1889, scaled by `10^11`. -/
def matrix23 : List Z9 :=
  [⟨-90800000000, 40040000000, -12300000000, -39350000000, -71470000000, 57820000000, 14360000000, 57340000000, 80660000000⟩,
   ⟨-37540000000, 86410000000, -33540000000, 11780000000, 40340000000, 90740000000, 91940000000, 30110000000, -25320000000⟩,
   ⟨860000000, -58070000000, -81410000000, 2550000000, 81400000000, -58030000000, 99960000000, -1570000000, 2180000000⟩,
   ⟨85160000000, 49590000000, -17010000000, 49370000000, -86770000000, -5770000000, -17630000000, -3490000000, -98370000000⟩,
   ⟨-83310000000, -12110000000, 53980000000, -52090000000, -15680000000, -83910000000, 18630000000, -98020000000, 6750000000⟩,
   ⟨6780000000, -7150000000, -99510000000, -97870000000, -19870000000, -5240000000, -19400000000, 97740000000, -8350000000⟩,
   ⟨-12870000000, 49550000000, 85900000000, 98800000000, -1020000000, 15390000000, 8510000000, 86850000000, -48830000000⟩,
   ⟨87820000000, -28070000000, -38720000000, 47770000000, 47660000000, 73800000000, -2260000000, -83310000000, 55270000000⟩,
   ⟨22230000000, 93290000000, -28330000000, -17980000000, -24640000000, -95240000000, -95830000000, 26260000000, 11300000000⟩,
   ⟨-86380000000, -43620000000, -25220000000, -50070000000, 79890000000, 33330000000, 5610000000, 41420000000, -90850000000⟩,
   ⟨-21090000000, 47330000000, -85530000000, 95750000000, 27610000000, -8330000000, 19670000000, -83650000000, -51140000000⟩,
   ⟨42770000000, 90240000000, 5220000000, -90090000000, 42090000000, 10610000000, 7380000000, -9240000000, 99300000000⟩,
   ⟨-62030000000, -69370000000, 36600000000, 40230000000, 11910000000, 90770000000, -67330000000, 71030000000, 20520000000⟩,
   ⟨31610000000, -69160000000, -64950000000, -6670000000, -69900000000, 71200000000, -94640000000, -18170000000, -26700000000⟩,
   ⟨91740000000, -8810000000, 38800000000, 37610000000, 51020000000, -77350000000, -12980000000, 85550000000, 50120000000⟩,
   ⟨-26700000000, -19810000000, 94310000000, 17410000000, -97250000000, -15490000000, 94780000000, 12280000000, 29410000000⟩,
   ⟨67820000000, 49290000000, 54510000000, -32050000000, -46910000000, 82290000000, 66130000000, -73280000000, -16020000000⟩,
   ⟨-7120000000, -99710000000, 2730000000, 96900000000, -7570000000, -23520000000, 23660000000, 970000000, 97160000000⟩,
   ⟨-72170000000, -1280000000, -69210000000, 39960000000, -82410000000, -40150000000, -56520000000, -56630000000, 59990000000⟩,
   ⟨-70510000000, 55650000000, 43960000000, 27930000000, 78770000000, -54910000000, -65180000000, -26440000000, -71080000000⟩,
   ⟨72050000000, -68750000000, 9050000000, -39650000000, -51550000000, -75960000000, 56890000000, 51140000000, -64400000000⟩,
   ⟨37180000000, -19390000000, 90780000000, -17270000000, 94640000000, 27290000000, -91210000000, -25830000000, 31840000000⟩,
   ⟨13800000000, -80460000000, 57760000000, -96970000000, 890000000, 24410000000, -20150000000, -59370000000, -77900000000⟩]

/-- cache entry `["so3"]["matrix"][24]`, _grid_cache.py:1890-2013, scaled by `10^11`. -/
def matrix24 : List Z9 :=
  [⟨-92336000000, 38355000000, 1712300000, -38158000000, -91185000000, -15142000000, -4246200000, -14635000000, 98832000000⟩,
   ⟨-10415000000, -98649000000, 12645000000, 3459200000, -13065000000, -99082000000, 99396000000, -9881700000, 4773100000⟩,
   ⟨95213000000, -29813000000, -6753100000, 5728500000, -4298400000, 99743000000, -30027000000, -95356000000, -2384800000⟩,
   ⟨10387000000, 99381000000, -3948200000, 97904000000, -9517100000, 18008000000, 17521000000, -5735900000, -98286000000⟩,
   ⟨29496000000, 93748000000, 18474000000, -93558000000, 32264000000, -14353000000, -19416000000, -13050000000, 97225000000⟩,
   ⟨92727000000, -31555000000, 20150000000, 31721000000, 94803000000, 2488600000, -19888000000, 4084100000, 97917000000⟩,
   ⟨95709000000, -8651600000, 27657000000, 27257000000, -5528700000, -96055000000, 9839300000, 99472000000, -2933300000⟩,
   ⟨-89630000000, 35307000000, -26830000000, -31629000000, -8490900000, 94486000000, 31082000000, 93174000000, 18777000000⟩,
   ⟨-38911000000, -92117000000, 590520000, 92062000000, -38864000000, 3755400000, -3229900000, 2004900000, 99928000000⟩,
   ⟨-28993000000, -91682000000, -27457000000, -12825000000, -24709000000, 96047000000, -94842000000, 31368000000, -4594500000⟩,
   ⟨-96349000000, 10712000000, -24537000000, 7696500000, 98861000000, 12936000000, 25643000000, 10576000000, -96076000000⟩,
   ⟨-99406000000, 9403400000, 5471200000, -4168100000, 13535000000, -98992000000, -10049000000, -98633000000, -13062000000⟩,
   ⟨2771000000, -16395000000, 98608000000, -96806000000, 24151000000, 6735700000, -24919000000, -95645000000, -15202000000⟩,
   ⟨-1390300000, -98569000000, -16801000000, -99672000000, 2706600000, -7631300000, 7976800000, 16640000000, -98283000000⟩,
   ⟨31909000000, 94547000000, -6534700000, -14004000000, 11523000000, 98342000000, 93732000000, -30464000000, 16918000000⟩,
   ⟨-26791000000, 9237600000, 95900000000, 91904000000, -27420000000, 28316000000, 28911000000, 95723000000, -1143600000⟩,
   ⟨-25971000000, -17328000000, 95001000000, 23453000000, 94300000000, 23611000000, -93677000000, 28413000000, -20427000000⟩,
   ⟨5832700000, 25838000000, -96428000000, -13791000000, -95458000000, -26412000000, -98873000000, 14839000000, -2004600000⟩,
   ⟨19522000000, -12839000000, -97232000000, 16693000000, 98128000000, -9606100000, 96645000000, -14356000000, 21300000000⟩,
   ⟨-6790000000, 609860000, -99767000000, 98300000000, -17058000000, -6794400000, -17059000000, -98533000000, 558720000⟩,
   ⟨99956000000, -2955200000, 76894000, -2955300000, -99956000000, 132120000, 72956000, -134330000, -100000000000⟩,
   ⟨8267800000, 97293000000, 21580000000, 20826000000, 19489000000, -95846000000, -97457000000, 12419000000, -18651000000⟩,
   ⟨3717500000, 11189000000, 99302000000, -26154000000, -95798000000, 11774000000, 96448000000, -26410000000, -634790000⟩,
   ⟨30559000000, 12936000000, -94334000000, -94574000000, 15609000000, -28496000000, 11038000000, 97923000000, 17004000000⟩]

/-- `_grid_cache["so3"]["quat"]`, _grid_cache.py:13-424. -/
def quatCache : List (Nat × List Z4) :=
  [(1, quat1), (2, quat2), (3, quat3), (4, quat4), (5, quat5), (6, quat6), (7, quat7), (8, quat8), (9, quat9), (10, quat10), (11, quat11), (12, quat12), (13, quat13), (14, quat14), (15, quat15), (16, quat16), (17, quat17), (18, quat18), (19, quat19), (20, quat20), (21, quat21), (22, quat22), (23, quat23), (24, quat24)]

/-- `_grid_cache["so3"]["matrix"]`, _grid_cache.py:425-2016. -/
def matrixCache : List (Nat × List Z9) :=
  [(1, matrix1), (2, matrix2), (3, matrix3), (4, matrix4), (5, matrix5), (6, matrix6), (7, matrix7), (8, matrix8), (9, matrix9), (10, matrix10), (11, matrix11), (12, matrix12), (13, matrix13), (14, matrix14), (15, matrix15), (16, matrix16), (17, matrix17), (18, matrix18), (19, matrix19), (20, matrix20), (21, matrix21), (22, matrix22), (23, matrix23), (24, matrix24)]

end GConv.SO3.Tables
