/- Unit helpers for single quantities (util/units.py). -/
import Verif.Model.Ops
import Verif.Model.Coords

namespace CT

noncomputable section

/-- `u == 'pckms' or u == 'pcmyr' or u == 'amuse'`. -/
def Units.isPc : Units → Bool
  | .pckms | .pcmyr | .amuse => true
  | _ => false

/-- `u == 'kpckms' or u == 'kpcgyr' or u == 'WDunits'`. -/
def Units.isKpc : Units → Bool
  | .kpckms | .kpcgyr | .WDunits => true
  | _ => false

/-- `np.degrees`. -/
def degrees (x : ℝ) : ℝ := x * (180 / Real.pi)

/-- `_convert_length(x, units, cluster)` (units.py:22-114); `t` is `cluster.units`.  An AMUSE quantity is the number in
parsec.  The function also changes an array argument in place, which is not modelled here. -/
def convertLength (g : Galpy) (c : Cluster) (u t : Units) (x : ℝ) : ℝ :=
  if u = t then x
  else if u = .nbody then
    if t.isPc then x * c.rbar
    else if t.isKpc then x * (c.rbar / 1000)
    else if t = .galpy then x * (c.rbar / 1000 / g.ro)
    else if t = .radec then degrees (arctan2 (x * (c.rbar / 1000)) c.gc.z)
    else x
  else if u.isPc then
    if t = .nbody then x / c.rbar
    else if t.isKpc then x / 1000
    else if t = .galpy then x / (1000 * g.ro)
    else if t = .radec then degrees (arctan2 (x / 1000) c.gc.z)
    else x
  else if u.isKpc then
    if t = .nbody then x * (1000 / c.rbar)
    else if t.isPc then x * 1000
    else if t = .galpy then x / g.ro
    else if t = .radec then degrees (arctan2 x c.gc.z)
    else x
  else if u = .galpy then
    if t.isPc then x * (1000 * g.ro)
    else if t.isKpc then x * g.ro
    else if t = .nbody then x * (g.ro * 1000 / c.rbar)
    else if t = .radec then degrees (arctan2 (x * g.ro) c.gc.z)
    else x
  else if u = .radec then
    let dist := Real.sqrt (c.gc.x ^ 2 + c.gc.y ^ 2 + c.gc.z ^ 2)
    let y := Real.tan (radians x) * dist
    if t = .nbody then y * (1000 / c.rbar)
    else if t.isPc then y * 1000
    else if t = .galpy then y / g.ro
    else y
  else x

/-- `_convert_velocity` (units.py:116-201). -/
def convertVelocity (g : Galpy) (c : Cluster) (u t : Units) (x : ℝ) : ℝ :=
  if u = t then x
  else if u = .nbody then
    if t.isPc then (if t = .pcmyr then x * c.vbar * 1.022712165045695 else x * c.vbar)
    else if t.isKpc then (if t = .kpcgyr then x * c.vbar * 1.022712165045695 else x * c.vbar)
    else if t = .galpy then x * (c.vbar / g.vo)
    else x
  else if u.isPc then
    let y := if u = .pcmyr then x / 1.022712165045695 else x
    if t = .nbody then y / c.vbar
    else if t = .galpy then y / g.vo
    else y
  else if u.isKpc then
    let y := if u = .kpcgyr then x / 1.022712165045695 else x
    if t = .nbody then y / c.vbar
    else if t = .galpy then y / g.vo
    else y
  else if u = .galpy then
    if t.isPc then (if t = .pcmyr then x * g.vo * 1.022712165045695 else x * g.vo)
    else if t.isKpc then x * g.vo
    else if t = .nbody then x * (g.vo / c.vbar)
    else x
  else x

/-- `_convert_square_velocity` (units.py:203-296).  In the galpy branch the code tests `units` (which is `galpy` there)
instead of `cluster.units`, so its factors 1.02… are never applied. -/
def convertSquareVelocity (g : Galpy) (c : Cluster) (u t : Units) (x : ℝ) : ℝ :=
  if u = t then x
  else if u = .nbody then
    if t.isPc then (if t = .pcmyr then x * c.vbar ^ 2 * 1.022712165045695 ^ 2 else x * c.vbar ^ 2)
    else if t.isKpc then (if t = .kpcgyr then x * c.vbar ^ 2 * 1.022712165045695 ^ 2 else x * c.vbar ^ 2)
    else if t = .galpy then x * (c.vbar / g.vo) ^ 2
    else x
  else if u.isPc then
    let y := if u = .pcmyr then x / 1.022712165045695 ^ 2 else x
    if t = .nbody then y / c.vbar ^ 2
    else if t = .galpy then y / g.vo ^ 2
    else y
  else if u.isKpc then
    let y := if u = .kpcgyr then x / 1.022712165045695 ^ 2 else x
    if t = .nbody then y / c.vbar ^ 2
    else if t = .galpy then y / g.vo ^ 2
    else y
  else if u = .galpy then
    if t.isPc then x * g.vo ^ 2
    else if t.isKpc then x * g.vo ^ 2
    else if t = .nbody then x * (g.vo / c.vbar) ^ 2
    else x
  else x

/-- `_convert_time` (units.py:298-384). -/
def convertTime (g : Galpy) (c : Cluster) (u t : Units) (x : ℝ) : ℝ :=
  if u = t then x
  else if u = .nbody then
    if t.isPc then x * c.tbar
    else if t.isKpc then x * (c.tbar / 1000)
    else if t = .galpy then x * (c.tbar / 1000 / g.timeGyr)
    else if t = .radec then x * (c.tbar / 1000)
    else x
  else if u.isPc then
    if t = .nbody then x / c.tbar
    else if t.isKpc then x / 1000
    else if t = .galpy then x / (1000 * g.timeGyr)
    else if t = .radec then x / 1000
    else x
  else if u.isKpc then
    if t = .nbody then x * (1000 / c.tbar)
    else if t.isPc then x * 1000
    else if t = .galpy then x / g.timeGyr
    else x
  else if u = .galpy then
    if t.isPc then x * (1000 * g.timeGyr)
    else if t.isKpc then x * g.timeGyr
    else if t = .nbody then x * (g.timeGyr * 1000 / c.tbar)
    else if t = .radec then x * g.timeGyr
    else x
  else if u = .radec then
    if t = .nbody then x * (1000 / c.tbar)
    else if t.isPc then x * 1000
    else if t = .galpy then x / g.timeGyr
    else x
  else x

/-- `_convert_mass` (units.py:386-453).  `coords.mass_in_msol` does not exist (galpy has it in `conversion`), so every
branch that reaches it raises. -/
def convertMass (c : Cluster) (u t : Units) (x : ℝ) : Except Err ℝ :=
  if u = t then .ok x
  else if u = .nbody then
    if t = .galpy then .error .attributeError
    else if t = .WDunits then .ok (x * c.zmbar / 222288.4543021174)
    else .ok (x * c.zmbar)
  else if u = .galpy then .error .attributeError
  else if u = .WDunits then
    if t = .nbody then .ok (x * 222288.4543021174 / c.zmbar)
    else if t = .galpy then .error .attributeError
    else .ok (x * 222288.4543021174)
  else
    if t = .nbody then .ok (x / c.zmbar)
    else if t = .galpy then .error .attributeError
    else if t = .WDunits then .ok (x / 222288.4543021174)
    else .ok x

/-- `_convert_density(x, units, cluster, projected)` (units.py:455-561).  From AMUSE units the mass helper calls
`value_in(u.MSun)` on a density, which raises.  The unit label attached for AMUSE targets is not modelled. -/
def convertDensity (g : Galpy) (c : Cluster) (projected : Bool) (u t : Units) (x : ℝ) : Except Err ℝ := do
  if u = t then return x
  if u = .amuse then throw .typeError
  let x ← convertMass c u t x
  let p := if projected then 2 else 3
  let kpcDeg := degrees (arctan2 1 c.gc.z)
  if u = .nbody then
    if t.isPc then return x / c.rbar ^ p
    else if t.isKpc then return x / (c.rbar / 1000) ^ p
    else if t = .galpy then return x / (c.rbar / 1000 / g.ro) ^ p
    else if t = .radec then return x / (c.rbar / 1000) ^ p / kpcDeg ^ p
    else return x
  else if u.isPc then
    if t = .nbody then return x * c.rbar ^ p
    else if t.isKpc then return x * 1000 ^ p
    else if t = .galpy then return x * (1000 * g.ro) ^ p
    else if t = .radec then return x * 1000 ^ p / kpcDeg ^ p
    else return x
  else if u.isKpc then
    if t = .nbody then return x * (c.rbar / 1000) ^ p
    else if t.isPc then return x / 1000 ^ p
    else if t = .galpy then return x * g.ro ^ p
    else if t = .radec then return x / kpcDeg ^ p
    else return x
  else if u = .galpy then
    if t.isPc then return x / (1000 * g.ro) ^ 3
    else if t.isKpc then return x / g.ro ^ p
    else if t = .nbody then return x / (g.ro * 1000 / c.rbar) ^ p
    else if t = .radec then return x / g.ro ^ 3 / kpcDeg ^ p
    else return x
  else if u = .radec then
    if t = .nbody then return x * kpcDeg ^ p * (c.rbar / 1000) ^ p
    else if t.isPc then return x * kpcDeg ^ p / 1000 ^ p
    else if t = .galpy then return x * kpcDeg ^ p * g.ro ^ p
    else return x * kpcDeg ^ p
  else return x

end

end CT
