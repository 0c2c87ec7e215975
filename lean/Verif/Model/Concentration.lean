/- King concentrations and central potentials (io/limepydf.py:236-702). -/
import Verif.Model.Vcirc

namespace CT

noncomputable section

/-- The table `w0` (limepydf.py:258-454), in millionths. -/
def w0Micro : List ℕ :=
  [300000, 400000, 500000, 600000, 700000, 800000, 900000, 1000000, 1100000, 1200000, 1300000, 1400000, 1500000,
  1600000, 1700000, 1800000, 1900000, 2000000, 2100000, 2200000, 2300000, 2400000, 2500000, 2600000, 2700000, 2800000,
  2900000, 3000000, 3100000, 3200000, 3300000, 3400000, 3500000, 3600000, 3700000, 3800000, 3900000, 4000000, 4100000,
  4200000, 4300000, 4400000, 4500000, 4600000, 4700000, 4800000, 4900000, 5000000, 5100000, 5200000, 5300000, 5400000,
  5500000, 5600000, 5700000, 5800000, 5900000, 6000000, 6100000, 6200000, 6300000, 6400000, 6500000, 6600000, 6700000,
  6800000, 6900000, 7000000, 7100000, 7200000, 7300000, 7400000, 7500000, 7600000, 7700000, 7800000, 7900000, 8000000,
  8100000, 8200000, 8300000, 8400000, 8500000, 8600000, 8700000, 8800000, 8900000, 9000000, 9100000, 9200000, 9300000,
  9400000, 9500000, 9600000, 9700000, 9800000, 9900000, 10000000, 10100000, 10200000, 10300000, 10400000, 10500000,
  10600000, 10700000, 10800000, 10900000, 11000000, 11100000, 11200000, 11300000, 11400000, 11500000, 11600000,
  11700000, 11800000, 11900000, 12000000, 12100000, 12200000, 12300000, 12400000, 12500000, 12600000, 12700000,
  12800000, 12900000, 13000000, 13100000, 13200000, 13300000, 13400000, 13500000, 13600000, 13700000, 13800000,
  13900000, 14000000, 14100000, 14200000, 14300000, 14400000, 14500000, 14600000, 14700000, 14800000, 14900000,
  15000000, 15100000, 15200000, 15300000, 15400000, 15500000, 15600000, 15700000, 15800000, 15900000, 16000000,
  16100000, 16200000, 16300000, 16400000, 16500000, 16600000, 16700000, 16800000, 16900000, 17000000, 17100000,
  17200000, 17300000, 17400000, 17500000, 17600000, 17700000, 17800000, 17900000, 18000000, 18100000, 18200000,
  18300000, 18400000, 18500000, 18600000, 18700000, 18800000, 18900000, 19000000, 19100000, 19200000, 19300000,
  19400000, 19500000]

/-- The table `conc` (limepydf.py:456-652), in millionths. -/
def concMicro : List ℕ :=
  [1004710, 1171350, 1322660, 1463770, 1597760, 1726690, 1851980, 1974730, 2095780, 2215830, 2335470, 2455190, 2575460,
  2696690, 2819260, 2943540, 3069880, 3198640, 3330170, 3464800, 3602910, 3744850, 3891000, 4041760, 4197530, 4358750,
  4525890, 4699410, 4879840, 5067720, 5263660, 5468270, 5682240, 5906290, 6141230, 6387900, 6647220, 6920200, 7207920,
  7511580, 7832460, 8171960, 8531630, 8913140, 9318330, 9749200, 10208000, 10697100, 11219100, 11777000, 12374000,
  13013600, 13699700, 14436500, 15228700, 16081400, 17000300, 17991600, 19062000, 20218900, 21470400, 22825300,
  24293000, 25883700, 27608600, 29479300, 31508300, 33708600, 36093800, 38678000, 41475300, 44499900, 47765800,
  51286400, 55074300, 59140700, 63495500, 68146800, 73100800, 78361400, 83930800, 89808800, 95993700, 102482000,
  109270000, 116352000, 123724000, 131381000, 139319000, 147537000, 156034000, 164810000, 173871000, 183222000,
  192871000, 202828000, 213106000, 223721000, 234690000, 246032000, 257769000, 269924000, 282522000, 295592000,
  309162000, 323263000, 337930000, 353196000, 369099000, 385679000, 402977000, 421038000, 439907000, 459634000,
  480270000, 501871000, 524493000, 548199000, 573053000, 599122000, 626479000, 655201000, 685368000, 717064000,
  750382000, 785415000, 822265000, 861038000, 901847000, 944812000, 990059000, 1037720000, 1087940000, 1140860000,
  1196650000, 1255460000, 1317470000, 1382870000, 1451860000, 1524620000, 1601400000, 1682400000, 1767870000,
  1858070000, 1953250000, 2053690000, 2159690000, 2271550000, 2389600000, 2514160000, 2645600000, 2784280000,
  2930590000, 3084940000, 3247740000, 3419440000, 3600510000, 3791430000, 3992700000, 4204840000, 4428420000,
  4664010000, 4912200000, 5173620000, 5448940000, 5738830000, 6044000000, 6365210000, 6703230000, 7058880000,
  7433020000, 7826530000, 8240350000, 8675460000, 9132880000, 9613680000, 10119000000, 10650000000, 11207900000,
  11794100000, 12409800000, 13056600000, 13735900000, 14449300000, 15198400000, 15985100000, 16811200000, 17678500000,
  18589200000, 19545300000, 20549200000, 21603100000, 22709700000]

/-- `w0`. -/
def w0Table : List ℝ := w0Micro.map (fun n : ℕ => (n : ℝ) / 1000000)

/-- `conc`. -/
def concTable : List ℝ := concMicro.map (fun n : ℕ => (n : ℝ) / 1000000)

/-- `a[i + 1]` for a non-negative `i`. -/
def nextOf (l : List ℝ) (i : ℕ) : Except Err ℝ := if i + 1 < l.length then .ok l[i + 1]! else .error .indexError

/-- `a[i - 1]` for a non-negative `i`: the last entry when `i` is zero. -/
def prevOf (l : List ℝ) (i : ℕ) : ℝ := if i = 0 then l[l.length - 1]! else l[i - 1]!

/-- The slope `m` (limepydf.py:659-662, 674-677). -/
def nearSlope (xs ys : List ℝ) (x : ℝ) (i : ℕ) : Except Err ℝ :=
  if xs[i]! < x then do
    let b ← nextOf ys i
    let a ← nextOf xs i
    return (b - ys[i]!) / (a - xs[i]!)
  else .ok ((ys[i]! - prevOf ys i) / (xs[i]! - prevOf xs i))

/-- The straight line through the nearest entry and the next one on the other side of `x` (limepydf.py:656-666, 670-681), at `x`. -/
def nearInterp (xs ys : List ℝ) (x : ℝ) : Except Err ℝ := do
  let i ← argminE (xs.map (fun a => |a - x|))
  let m ← nearSlope xs ys x i
  return m * x + (ys[i]! - m * xs[i]!)

/-- `np.log10`, `nan` and `-inf` are `none`. -/
def logOrNan (x : ℝ) : Option ℝ := if 0 < x then some (Real.logb 10 x) else none

/-- `c_to_w0(c)` (limepydf.py:668-681). -/
def cToW0 (c : ℝ) : Except Err ℝ := nearInterp concTable w0Table ((10 : ℝ) ^ c)

/-- `w0_to_c(w)`, `c_to_w0(w, invert=True)` (limepydf.py:654-666, 684-702). -/
def w0ToC (w : ℝ) : Except Err (Option ℝ) := do return logOrNan (← nearInterp w0Table concTable w)

end

end CT
