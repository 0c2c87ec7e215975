/- The methods of a StarCluster for orbits and tails and the attributes in which they leave their results (cluster.py:3574-3836). -/
import Verif.Model.Session
import Verif.Model.Tails

namespace CT

noncomputable section

/-- A StarCluster with the attributes `tpath … vzpath` (one list), `tstar, dprog, dpath` (one list), `x_tail … vz_tail` (one list), `r_tail`
and `v_tail`. -/
structure Trail where
  c : Cluster
  path : Option (List PathPt)
  matched : Option (List Matched)
  tail : Option (List Ph)
  rTail : Option (List ℝ)
  vTail : Option (List ℝ)

/-- `kwargs.get('dt', tfinal)` (orbits.py:661, 838; tails.py:156, 343). -/
def legacyTime (dt : Option (Option ℝ)) (tfinal : Option ℝ) : Option ℝ := dt.getD tfinal

/-- The `Orbit` that `orbital_path(initialize=True)` returns (orbits.py:679-703): the second one made, with the place the cluster came from
as its initial condition.  `Orbit.x()`, `Orbit.ra()`, … without a time give the initial condition. -/
def pathOrbit (g : Galpy) (flow : ℝ → Ph → Ph) (a : PathArgs) (c : Cluster) : Except Err OrbitObj := do
  let o ← initializeOrbit g a.fromCentre c
  match (linspace 0 (-1 * naturalTime g c a.tfinal) a.nt).getLast? with
  | none => .error .indexError
  | some t1 => return g.orbitOfGalpy (orbitFrom g (orbitRow g (flow t1 o.1)))

/-- `self.orbital_path(…)` without plotting (cluster.py:3574-3625).  `dt` is the keyword read from `kwargs`. -/
def orbitalPathMethod (g : Galpy) (flow : ℝ → Ph → Ph) (a : PathArgs) (dt : Option (Option ℝ)) (sky init : Bool) (x : Trail) :
    Except Err (List PathPt × Trail) := do
  let a' : PathArgs := { a with tfinal := legacyTime dt a.tfinal }
  let r ← if sky then orbitalPathSky g flow a' x.c else orbitalPath g flow a' x.c
  if init then
    let o ← pathOrbit g flow a' x.c
    return (r.1, { x with c := { r.2 with orbit := some o }, path := some r.1 })
  return (r.1, { x with c := r.2, path := some r.1 })

/-- `self.orbital_path_match(…)` without `skypath` and plotting (cluster.py:3627-3683). -/
def orbitalPathMatchMethod (g : Galpy) (flow : ℝ → Ph → Ph) (a : MatchArgs) (dt : Option (Option ℝ)) (x : Trail) :
    Except Err (List Matched × Trail) := do
  let r ← orbitalPathMatch g flow { a with tfinal := legacyTime dt a.tfinal } x.c
  return (r.1, { x with c := r.2, matched := some r.1 })

/-- `self.to_tail()` (cluster.py:3685-3708).  Nothing is returned. -/
def toTailMethod (g : Galpy) (rotTo : ℝ × ℝ × ℝ → Mat3) (x : Trail) : Except Err Trail := do
  let r ← toTail g rotTo x.c
  return { x with
    c := r.2
    tail := some r.1
    rTail := some (r.1.map Ph.r)
    vTail := some (r.1.map Ph.v) }

/-- `self.tail_path(dt=0.1, …, **kwargs)` without `skypath` and plotting (cluster.py:3710-3774): `dt` is always passed on; a keyword
`tfinal` is in `kwargs`. -/
def tailPathMethod (g : Galpy) (flow : ℝ → Ph → Ph) (a : TailArgs) (dt : Option ℝ) (tfinal : Option (Option ℝ)) (x : Trail) :
    Except Err (List PathPt × Trail) := do
  let r ← tailPath g flow { a with tfinal := legacyTime (some dt) (tfinal.getD (some 0.1)) } x.c
  return (r.1, { x with c := r.2, path := some r.1 })

/-- `self.tail_path_match(dt=0.1, …, **kwargs)` without `skypath` and plotting (cluster.py:3776-3836); `path` and `tfinal` are in `kwargs`. -/
def tailPathMatchMethod (g : Galpy) (flow : ℝ → Ph → Ph) (a : TailArgs) (dt : Option ℝ) (tfinal : Option (Option ℝ)) (path : Option (List PathPt))
    (x : Trail) : Except Err (List Matched × Trail) := do
  let r ← tailPathMatch g flow { a with tfinal := legacyTime (some dt) (tfinal.getD (some 0.1)) } path x.c
  return (r.1, { x with c := r.2, matched := some r.1 })

/-- One call of a session with these methods. -/
inductive TrCall
  | call (a : SCall)
  | orbitalPath (flow : ℝ → Ph → Ph) (a : PathArgs) (dt : Option (Option ℝ)) (sky init : Bool)
  | orbitalPathMatch (flow : ℝ → Ph → Ph) (a : MatchArgs) (dt : Option (Option ℝ))
  | toTail (rotTo : ℝ × ℝ × ℝ → Mat3)
  | tailPath (flow : ℝ → Ph → Ph) (a : TailArgs) (dt : Option ℝ) (tfinal : Option (Option ℝ))
  | tailPathMatch (flow : ℝ → Ph → Ph) (a : TailArgs) (dt : Option ℝ) (tfinal : Option (Option ℝ)) (path : Option (List PathPt))

/-- The cluster after the call. -/
def TrCall.exec (g : Galpy) : TrCall → Trail → Except Err Trail
  | .call a, x => (a.exec g x.c).map (fun c => { x with c := c })
  | .orbitalPath flow a dt sky init, x => (orbitalPathMethod g flow a dt sky init x).map Prod.snd
  | .orbitalPathMatch flow a dt, x => (orbitalPathMatchMethod g flow a dt x).map Prod.snd
  | .toTail rotTo, x => toTailMethod g rotTo x
  | .tailPath flow a dt tf, x => (tailPathMethod g flow a dt tf x).map Prod.snd
  | .tailPathMatch flow a dt tf p, x => (tailPathMatchMethod g flow a dt tf p x).map Prod.snd

/-- A session. -/
def psession (g : Galpy) : List TrCall → Trail → Except Err Trail
  | [], x => .ok x
  | a :: l, x => (a.exec g x).bind (psession g l)

end

end CT
