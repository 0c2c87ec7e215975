/- Orbits of the cluster (analysis/orbits.py). -/
import Verif.Model.Convert
import Verif.Model.Vcirc

namespace CT

noncomputable section

/-- One entry of the arrays `t, x, y, z, vx, vy, vz` that describe a path. -/
structure PathPt where
  t : ℝ
  p : Ph

instance : Inhabited PathPt := ⟨⟨0, default⟩⟩

/-- `initialize_orbit` (orbits.py:41-118): the phase-space row of the orbit in galpy's natural units, and the cluster afterwards.
The `Orbit` is made from cylindrical coordinates; `ro`, `vo`, … are those of the cluster. -/
def initializeOrbit (g : Galpy) (fromCentre : Bool) (c : Cluster) : Except Err (Ph × Cluster) :=
  if c.units = some .radec then .ok (((g.ofSky c.skyGc).divPos g.ro).divVel g.vo, c)
  else do
    let c1 ← toGalpy g c
    let p := if fromCentre then c1.gc.add c1.c else c1.gc
    let c2 ← returnCluster g (saveCluster c) false none c1
    return (cylToCart (cartToCyl p), c2)

/-- The arguments `tfinal`, `nt`, `from_centre` of `orbital_path` (orbits.py:600-614). -/
structure PathArgs where
  tfinal : Option ℝ := some 0.1
  nt : ℕ := 1000
  fromCentre : Bool := false

/-- Lines 668-677 of orbits.py: the time of integration in natural units.  (An AMUSE quantity is the number of Myr.) -/
def naturalTime (g : Galpy) (c : Cluster) (tfinal : Option ℝ) : ℝ :=
  tfinal.elim (0.1 / g.timeGyr) (fun t => c.units.elim t (fun u =>
    if u.isPc then t / (1000 * g.timeGyr)
    else if u.isKpc ∨ u = .radec then t / g.timeGyr
    else if u = .nbody then t * (c.tbar / 1000 / g.timeGyr)
    else t))

/-- `o.x(t), …, o.vz(t)` of an orbit whose row in natural units is `p`: kpc and km/s. -/
def orbitRow (g : Galpy) (p : Ph) : Ph := (p.mulPos g.ro).mulVel g.vo

/-- Lines 686-696 of orbits.py: a new `Orbit` at a given row (kpc, km/s). -/
def orbitFrom (g : Galpy) (q : Ph) : Ph :=
  let s := cartToCyl q
  cylToCart { R := s.R / g.ro, phi := s.phi, z := s.z / g.ro, vR := s.vR / g.vo, vT := s.vT / g.vo, vz := s.vz / g.vo }

/-- Lines 682-703 and 740-745 of orbits.py, `tf` and the times in natural units: integrate back for `tf`, then forward from there for
twice that time.  `flow t p` is galpy's integration over the time `t`; the initial condition of an integration belongs to its first
time. -/
def pathRows (g : Galpy) (flow : ℝ → Ph → Ph) (tf : ℝ) (nt : ℕ) (p : Ph) : Except Err (List PathPt) :=
  match (linspace 0 (-1 * tf) nt).getLast? with
  | none => .error .indexError
  | some t1 =>
    let p1 := orbitFrom g (orbitRow g (flow t1 p))
    let ts := linspace (-1 * tf) tf nt
    .ok (ts.map (fun t => { t := t, p := orbitRow g (flow (t - ts.headD 0) p1) }))

/-- Lines 747-753 of orbits.py: the units of the cluster. -/
def convertPt (g : Galpy) (c : Cluster) (q : PathPt) : PathPt :=
  c.units.elim q (fun t =>
    { t := convertTime g c .galpy t q.t
      p := { x := convertLength g c .kpckms t q.p.x, y := convertLength g c .kpckms t q.p.y, z := convertLength g c .kpckms t q.p.z
             vx := convertVelocity g c .kpckms t q.p.vx, vy := convertVelocity g c .kpckms t q.p.vy
             vz := convertVelocity g c .kpckms t q.p.vz } })

/-- `orbital_path` (orbits.py:600-767) without plotting. -/
def orbitalPath (g : Galpy) (flow : ℝ → Ph → Ph) (a : PathArgs) (c : Cluster) : Except Err (List PathPt × Cluster) := do
  let o ← initializeOrbit g a.fromCentre c
  let rows ← pathRows g flow (naturalTime g c a.tfinal) a.nt o.1
  return (rows.map (convertPt g o.2), o.2)

/-- Lines 713-725 of orbits.py. -/
def skyTime (g : Galpy) (c : Cluster) (t : ℝ) : ℝ :=
  c.units.elim t (fun u =>
    if u.isPc then t * g.timeGyr * 1000
    else if u = .nbody then t * g.timeGyr * 1000 / c.tbar
    else if u = .galpy then t
    else if u.isKpc ∨ u = .radec then t * g.timeGyr
    else t)

/-- `orbital_path(skypath=True)` (orbits.py:705-738): the rows hold `ra, dec, dist, pmra, pmdec, vlos`. -/
def orbitalPathSky (g : Galpy) (flow : ℝ → Ph → Ph) (a : PathArgs) (c : Cluster) : Except Err (List PathPt × Cluster) := do
  let o ← initializeOrbit g a.fromCentre c
  let rows ← pathRows g flow (naturalTime g c a.tfinal) a.nt o.1
  return (rows.map (fun q => { t := skyTime g o.2 q.t, p := g.toSky q.p }), o.2)

/-- The arguments of `orbital_path_match` (orbits.py:769-786); `skypath` is in Model/SkyPath. -/
structure MatchArgs extends PathArgs where
  path : Option (List PathPt) := none
  toPath : Bool := false
  doFull : Bool := false
  projected : Bool := false

/-- One entry of the arrays `tstar, dprog, dpath`; `none` is NaN. -/
structure Matched where
  t : ℝ
  dprog : ℝ
  dpath : Option ℝ

instance : Inhabited Matched := ⟨⟨0, 0, none⟩⟩

/-- The length of a difference of positions: lines 884-887, 922-932, 941-958 of orbits.py. -/
def mag (projected : Bool) (d : Ph) : ℝ :=
  if projected then Real.sqrt (d.x ^ 2 + d.y ^ 2) else Real.sqrt (d.x ^ 2 + d.y ^ 2 + d.z ^ 2)

/-- `dxo, dyo, dzo` (orbits.py:893-895). -/
def pathSteps (path : List PathPt) : List Ph := List.zipWith (fun a b => b.p.sub a.p) path path.tail

/-- `dprogr` (orbits.py:897-908). -/
def progress (projected : Bool) (path : List PathPt) : List ℝ :=
  let d := pathSteps path
  let px := 0 :: cumsum (d.map (fun q => |q.x|))
  let py := 0 :: cumsum (d.map (fun q => |q.y|))
  let pz := 0 :: cumsum (d.map (fun q => |q.z|))
  (List.range path.length).map (fun k => mag projected ⟨px[k]!, py[k]!, pz[k]!, 0, 0, 0⟩)

/-- Lines 940-967 of orbits.py: `mag_svec * sin(arccos(ovec·svec / (mag_ovec * mag_svec)))`.  A zero denominator gives NaN. -/
def lineDist (projected : Bool) (o s : Ph) : Option ℝ :=
  let dot := if projected then o.x * s.x + o.y * s.y else o.x * s.x + o.y * s.y + o.z * s.z
  open Classical in
  if mag projected o * mag projected s = 0 then none
  else some (mag projected s * Real.sin (Real.arccos (dot / (mag projected o * mag projected s))))

/-- `np.sign`. -/
def npSign (x : ℝ) : ℝ := if x < 0 then -1 else if 0 < x then 1 else 0

/-- `ldot` (orbits.py:971-983): the star's offset from the path point times the point's angular momentum. -/
def angularDot (q : Ph) (p : Ph) : ℝ :=
  (p.x - q.x) * (q.y * q.vz - q.z * q.vy) + (p.y - q.y) * (q.z * q.vx - q.x * q.vz) + (p.z - q.z) * (q.x * q.vy - q.y * q.vx)

/-- Lines 884-988 of orbits.py for one star at `p`; `pindx` is the index of the path point nearest in time to zero. -/
def matchStar (projected toPath : Bool) (path : List PathPt) (pindx : ℕ) (p : Ph) : Except Err Matched := do
  let d := path.map (fun q => q.p.sub p)
  let dr := d.map (mag projected)
  let k ← argminE dr
  let y ← argminE (d.map (fun q => |q.y|))
  let o := pathSteps path
  let o := o ++ [o.getLastD default]
  let dpath := if toPath then lineDist projected o[k]! d[k]! else some (minOf dr)
  let s := if projected then npSign (d[y]!).y else if angularDot (path[k]!).p p < 0 then -1 else 1
  return { t := (path[k]!).t, dprog := (progress projected path)[k]! - (progress projected path)[pindx]!
           dpath := dpath.map (· * s) }

/-- Lines 872-988 of orbits.py.  With `do_full` the shapes in the matrix product of line 926 (933) never agree; a path of
one point has no step to append. -/
def matchStars (projected toPath doFull : Bool) (path : List PathPt) (st : List Ph) : Except Err (List Matched) := do
  let pindx ← argminE (path.map (fun q => |q.t|))
  if toPath ∧ path.length < 2 then throw .indexError
  if toPath ∧ doFull then throw .valueError
  st.mapM (matchStar projected toPath path pindx)

/-- Lines 1009-1011 of orbits.py. -/
def convertMatch (g : Galpy) (c : Cluster) (m : Matched) : Matched :=
  c.units.elim m (fun u =>
    { t := convertTime g c .kpckms u m.t, dprog := convertLength g c .kpckms u m.dprog
      dpath := m.dpath.map (convertLength g c .kpckms u) })

/-- The path used by `orbital_path_match` (orbits.py:855-870). -/
def matchPath (g : Galpy) (flow : ℝ → Ph → Ph) (a : MatchArgs) (c : Cluster) : Except Err (List PathPt × Cluster) :=
  a.path.elim (orbitalPath g flow a.toPathArgs c) (fun p => .ok (p, c))

/-- `orbital_path_match` (orbits.py:769-1013) without `skypath` and plotting. -/
def orbitalPathMatch (g : Galpy) (flow : ℝ → Ph → Ph) (a : MatchArgs) (c : Cluster) : Except Err (List Matched × Cluster) := do
  let c1 ← toGalaxy g false c
  let c2 ← toKpckms g true c1
  let r ← matchPath g flow a c2
  let out ← matchStars a.projected a.toPath a.doFull r.1 r.2.st
  let c4 ← returnCluster g (saveCluster c) false none r.2
  return (out.map (convertMatch g c4), c4)

end

end CT
