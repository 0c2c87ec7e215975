/- What an analysis call leaves behind when it does not come to its end: the cluster after every conversion made inside the call. -/
import Verif.Model.Session

namespace CT

noncomputable section

/-- A call together with the clusters it has stored in the object, one per conversion, in order.  The functions below are those of the
other model files, statement by statement, with every conversion recorded; their values are the same (`*_value`).  Statements inside a
conversion are not separated here. -/
structure Tr (α : Type) where
  states : List Cluster
  value : Except Err α

namespace Tr

/-- No conversion, a value. -/
def ok {α : Type} (a : α) : Tr α := ⟨[], .ok a⟩
/-- No conversion, an exception. -/
def error {α : Type} (e : Err) : Tr α := ⟨[], .error e⟩
/-- A computation that does not touch the cluster. -/
def lift {α : Type} (x : Except Err α) : Tr α := ⟨[], x⟩
/-- A conversion: the object now holds the new cluster. -/
def step (x : Except Err Cluster) : Tr Cluster := ⟨x.toOption.toList, x⟩
/-- Statements in sequence; an exception ends them. -/
def bind {α β : Type} (x : Tr α) (f : α → Tr β) : Tr β :=
  match x.value with
  | .error e => ⟨x.states, .error e⟩
  | .ok a => ⟨x.states ++ (f a).states, (f a).value⟩

instance : Monad Tr where
  pure := ok
  bind := bind
instance : MonadLift (Except Err) Tr := ⟨lift⟩
instance : MonadExceptOf Err Tr where
  throw := error
  tryCatch x h := match x.value with
    | .error e => ⟨x.states ++ (h e).states, (h e).value⟩
    | .ok _ => x

/-- What the object holds when the call ends, with a value or an exception. -/
def after {α : Type} (c : Cluster) (x : Tr α) : Cluster := x.states.getLastD c

end Tr

/-- `return_cluster` (operations.py:1340-1372) with the clusters on the way. -/
def retT (g : Galpy) (s : Option Units × Option Origin × Option (List ℕ) × Option Origin)
    (sort : Bool) (cm : Option CentreMethod) (c : Cluster) : Tr Cluster := do
  let c ←
    if c.units ≠ s.1 then
      match s.1 with
      | some u => Tr.step (toUnits g u c)
      | none => .ok c
    else .ok c
  let c ←
    if c.origin ≠ s.2.1 then
      match s.2.1 with
      | some o => Tr.step (toOrigin g o.target sort cm c)
      | none => Tr.step (toOrigin g .other sort cm c)
    else .ok c
  Tr.step (analyze true { c with rorder := s.2.2.1, rorderOrigin := s.2.2.2 })

/-- `coordsOf` with the clusters on the way (coordinates.py:32-64, 147-178). -/
def coordsOfT {α : Type} (f : Ph → α) (g : Galpy) (c : Cluster) : Tr (List α × Cluster) := do
  if c.origin = some .sky then throw .nameError
  let c1 ← if c.units = some .amuse then Tr.step (toPckms g true c) else .ok c
  let c2 ← retT g (saveCluster c) false none c1
  return (c1.st.map f, c2)

/-- `sphereCoords` with the clusters on the way (coordinates.py:32-64). -/
def sphereCoordsT (g : Galpy) (c : Cluster) : Tr (List Sph × Cluster) := coordsOfT cartToSphere g c

/-- `cylCoords` with the clusters on the way (coordinates.py:147-178). -/
def cylCoordsT (g : Galpy) (c : Cluster) : Tr (List Cyl × Cluster) := coordsOfT cartToCyl g c

/-- `pcStart` with the clusters on the way (functions.py:485-493, 557-565, 622-630). -/
def pcStartT (g : Galpy) (c : Cluster) : Tr Cluster := do
  let c1 ← if c.origin ≠ some .cluster ∧ c.origin ≠ some .centre then Tr.step (toCentre true none c)
    else Tr.step (.ok (sortstars true c.d.r c.d.rpro c))
  Tr.step (toPckms g true c1)

/-- `rlagrange` with the clusters on the way (functions.py:978-1045). -/
def rlagrangeT (g : Galpy) (n : ℕ) (projected : Bool) (c : Cluster) : Tr (List ℝ × Cluster) := do
  let c1 ← if c.units = some .amuse then Tr.step (toPckms g true c) else .ok c
  let c2 ←
    if c.origin ≠ some .cluster ∧ c.origin ≠ some .centre then Tr.step (toCentre true none c1)
    else Tr.step (.ok (sortstars true c1.d.r c1.d.rpro c1))
  let order := if projected then c2.rproorder else c2.rorder
  let r := if projected then c2.d.rpro else c2.d.r
  match order with
  | none => throw .indexError
  | some o =>
    let rn ← lagrangeLoop n c2.m r o
    let c3 ← retT g (saveCluster c) false none c2
    return (rn, c3)

/-- `rlagrangeFrac` with the clusters on the way (functions.py:978-1045). -/
def rlagrangeFracT (g : Galpy) (f : ℝ) (projected : Bool) (c : Cluster) : Tr (ℝ × Cluster) := do
  let c1 ← if c.units = some .amuse then Tr.step (toPckms g true c) else .ok c
  let c2 ←
    if c.origin ≠ some .cluster ∧ c.origin ≠ some .centre then Tr.step (toCentre true none c1)
    else Tr.step (.ok (sortstars true c1.d.r c1.d.rpro c1))
  let o ← (if projected then c2.rproorder else c2.rorder).elim (.error .indexError) .ok
  let r ← massFracRadius f c2.d.mtot c2.m (if projected then c2.d.rpro else c2.d.r) o
  let c3 ← retT g (saveCluster c) false none c2
  return (r, c3)

/-- `relaxationTime` with the clusters on the way (functions.py:456-529). -/
def relaxationTimeT (g : Galpy) (rad : Option ℝ) (coulomb : ℝ) (projected : Bool) (c : Cluster) : Tr (ℝ × Cluster) := do
  let c2 ← pcStartT g c
  let grav := getGrav c2.units
  if rad.isSome then throw .nameError
  let rad ← attr (if projected then c2.d.rmpro else c2.d.rm)
  let vel := if projected then c2.d.vpro else c2.d.v
  let inner := innerMasses c2.m (if projected then c2.d.rpro else c2.d.r) rad
  let mbar := mean inner
  let vol := 4.0 * Real.pi * rad ^ 3 / 3.0
  let rho := (inner.length : ℝ) / vol
  let v2 := mean (vel.map (· ^ 2))
  let lnlambda := Real.log (coulomb * c2.st.length)
  let trelax := v2 ^ (3 / 2 : ℝ) / (15.4 * grav ^ 2 * mbar ^ 2 * rho * lnlambda) * myrFactor
  let c3 ← retT g (saveCluster c) false none c2
  return (c3.units.elim trelax (fun t => convertTime g c3 .pckms t trelax), c3)

/-- `halfMassRelaxationTime` with the clusters on the way (functions.py:531-591). -/
def halfMassRelaxationTimeT (g : Galpy) (coulomb : ℝ) (projected : Bool) (c : Cluster) : Tr (ℝ × Cluster) := do
  let c2 ← pcStartT g c
  let grav := getGrav c2.units
  let mass := c2.m.sum
  let ntot : ℝ := c2.st.length
  let mbar := mass / ntot
  let lnlambda := Real.log (coulomb * ntot)
  let rm ← attr (if projected then c2.d.rmpro else c2.d.rm)
  let trh := 0.138 * mass ^ (0.5 : ℝ) * rm ^ (1.5 : ℝ) / (mbar * Real.sqrt grav * lnlambda) * myrFactor
  let c3 ← retT g (saveCluster c) false none c2
  return (c3.units.elim trh (fun t => convertTime g c3 .pckms t trh), c3)

/-- `virialInverse` with the clusters on the way (functions.py:1047-1174). -/
def virialInverseT (g : Galpy) (full projected : Bool) (c : Cluster) : Tr (ℝ × Cluster) := do
  let c1 ← if c.units = some .amuse then Tr.step (toPckms g true c) else .ok c
  let c2 ← if c.origin ≠ some .cluster ∧ c.origin ≠ some .centre then Tr.step (toCentre false none c1) else .ok c1
  let c3 ← retT g (saveCluster c) false none c2
  return (virialRadius full projected c2.m c2.st, c3)

/-- `virialCrit` with the clusters on the way (functions.py:1203-1335). -/
def virialCritT (g : Galpy) (H overdens : ℝ) (c : Cluster) : Tr (ℝ × Cluster) := do
  let c2 ← pcStartT g c
  let rhocrit := densMsolPc3 g / densCritical g H
  let o ← c2.rorder.elim (.error .indexError) .ok
  let rv ← critRadius (o.map (fun i => c2.d.r.getD i 0)) (densProfile c2.m c2.d.r o) (rhocrit * overdens)
  let c3 ← retT g (saveCluster c) false none c2
  return (c3.units.elim rv (fun t => convertLength g c3 .pckms t rv), c3)

/-- `energies` with the clusters on the way (functions.py:656-783). -/
def energiesT (g : Galpy) (specific full projected : Bool) (soft : ℝ) (c : Cluster) :
    Tr (List NanR × List NanR × Cluster) := do
  let c1 ← if c.origin ≠ some .cluster ∧ c.origin ≠ some .centre then Tr.step (toCluster false none c) else .ok c
  let c2 ← if c1.units = some .amuse then Tr.step (toPckms g true c1) else .ok c1
  let c3 ← retT g (saveCluster c) false none c2
  return (kinetic specific projected c2, potential specific full projected soft c2, c3)

/-- `energiesIds` with the clusters on the way (functions.py:715-739). -/
def energiesIdsT (g : Galpy) (specific _projected : Bool) (mask : List Bool) (soft : ℝ) (c : Cluster) :
    Tr (List NanR × List NanR × Cluster) := do
  let c1 ← if c.origin ≠ some .cluster ∧ c.origin ≠ some .centre then Tr.step (toCluster false none c) else .ok c
  let c2 ← if c1.units = some .amuse then Tr.step (toPckms g true c1) else .ok c1
  let c3 ← retT g (saveCluster c) false none c2
  return (kineticIds specific mask c2, potentialIds specific mask soft c2, c3)

/-- `massFunction` with the clusters on the way (functions.py:1338-1509). -/
def massFunctionT (g : Galpy) (a : MassArgs) (e : PStars) (indx : Option ℕ) (mem : Mem) (c : Cluster) :
    Tr (MassOut × Cluster × Mem) := do
  let c1 ← if c.units = some .amuse then Tr.step (toPckms g true c) else .ok c
  let sel ← getSubset a.sub (viewOf c1 e) indx mem
  let out ← if enough a.nmass sel then massFit a c1.m sel else .ok a.tooFew
  let c2 ← retT g (saveCluster c) false none c1
  return (out, c2, sel.2)

/-- `etaFunction` with the clusters on the way (functions.py:1678-1821). -/
def etaFunctionT (g : Galpy) (a : EtaArgs) (meq : Option CurveFit) (e : PStars) (indx : Option ℕ) (mem : Mem) (c : Cluster) :
    Tr (EtaOut × Cluster × Mem) := do
  let c1 ← if c.units = some .amuse then Tr.step (toPckms g true c) else .ok c
  let sel ← getSubset a.sub (viewOf c1 e) indx mem
  let out ← if enough (2 * a.nmass) sel then etaFit a meq c1.m (if a.sub.projected then c1.d.vpro else c1.d.v) sel else .ok a.tooFew
  let c2 ← retT g (saveCluster c) false none c1
  return (out, c2, sel.2)

/-- `meqFunction` with the clusters on the way (functions.py:1840-1945). -/
def meqFunctionT (g : Galpy) (a : EtaArgs) (q : CurveFit) (e : PStars) (indx : Option ℕ) (mem : Mem) (c : Cluster) :
    Tr (EtaOut × Cluster × Mem) := do
  let c1 ← if c.units = some .amuse then Tr.step (toPckms g true c) else .ok c
  let r ← etaFunctionT g a (some q) e indx mem c1
  let c2 ← retT g (saveCluster c) false none r.2.1
  return (r.1, c2, r.2.2)

/-- `ckin` with the clusters on the way (functions.py:1947-2060). -/
def ckinT (g : Galpy) (a : EtaArgs) (q : CurveFit) (e : PStars) (indx : Option ℕ) (mem : Mem) (c : Cluster) :
    Tr (ℝ × Cluster × Mem) := do
  let c1 ← if c.units = some .amuse then Tr.step (toPckms g true c) else .ok c
  let L ← rlagrangeT g 10 a.sub.projected c1
  let half ← etaFunctionT g { a with sub := { a.sub with rmin := some L.1[3]!, rmax := some L.1[5]! } } (some q) e indx mem L.2
  let inner ← etaFunctionT g { a with sub := { a.sub with rmin := some 0, rmax := some L.1[4]! } } (some q) e indx half.2.2 half.2.1
  let c2 ← retT g (saveCluster c) false none inner.2.1
  return (inner.1.fit.slope / half.1.fit.slope, c2, inner.2.2)

/-- `profStart` with the clusters on the way (profiles.py:105-114; `vcirc_prof` also sorts without it,
profiles.py:1926). -/
def profStartT (g : Galpy) (sortMove sortStay : Bool) (c : Cluster) : Tr Cluster := do
  let c1 ← if c.units = some .amuse then Tr.step (toPckms g true c) else .ok c
  if c.origin ≠ some .cluster ∧ c.origin ≠ some .centre then Tr.step (toCentre sortMove none c1)
  else if sortStay then Tr.step (.ok (sortstars true c1.d.r c1.d.rpro c1))
  else .ok c1

/-- `mProf` with the clusters on the way (profiles.py:219-388). -/
def mProfT (g : Galpy) (a : ProfArgs) (cumulative : Bool) (e : PStars) (indx : Option ℕ) (mem : Mem) (c : Cluster) :
    Tr ((List ℝ × List ℝ × List ℕ) × After) := do
  let c1 ← profStartT g a.normalize a.normalize c
  let sel ← getSubset a.sub (viewOf c1 e) indx mem
  let B ← profBinned a (if a.sub.projected then c1.d.rpro else c1.d.r) sel
  let rows := (List.range B.mid.length).map (fun i => if cumulative then B.upTo i else B.at i)
  let c2 ← retT g (saveCluster c) false none c1
  let r ← massRadiiOut g a c1 c2 B.mid
  let ms ← convUnits (fun u t v => convertMass c2 u t v) c1 c2 (rows.map (fun w => (maskSel w c1.m).sum))
  return ((r, ms, rows.map (fun w => w.count true)), ⟨c2, sel.2, midAfter a c1 c2 r⟩)

/-- `rhoProf` with the clusters on the way (profiles.py:34-216). -/
def rhoProfT (g : Galpy) (a : ProfArgs) (e : PStars) (indx : Option ℕ) (mem : Mem) (c : Cluster) :
    Tr ((List ℝ × List ℝ × List ℕ) × After) := do
  let c1 ← profStartT g a.normalize a.normalize c
  let sel ← getSubset a.sub (viewOf c1 e) indx mem
  let B ← profBinned a (if a.sub.projected then c1.d.rpro else c1.d.r) sel
  let rho := (List.range B.mid.length).map (fun i =>
    ((maskSel (B.at i) c1.m).map (· / shell a.sub.projected B.lower[i]! B.upper[i]!)).sum)
  let c2 ← retT g (saveCluster c) false none c1
  let r ← massRadiiOut g a c1 c2 B.mid
  let ps ← convUnits (fun u t v => convertDensity g c2 a.sub.projected u t v) c1 c2 rho
  return ((r, ps, (List.range B.mid.length).map (fun i => (B.at i).count true)), ⟨c2, sel.2, midAfter a c1 c2 r⟩)

/-- `velData` with the clusters on the way (profiles.py:706-711, 750-783). -/
def velDataT (g : Galpy) (k : VKind) (coord : Option VCoord) (projected : Bool) (c1 : Cluster) :
    Tr (List ℝ × List ℝ × Cluster) :=
  match coord with
  | none => .ok (if projected then (c1.d.rpro, c1.d.vpro, c1) else (c1.d.r, c1.d.v, c1))
  | some q =>
    if projected then do
      let v ← velColumn k q true c1
      return (c1.st.map (fun p => (cartToCyl p).R), v, c1)
    else do
      let (s, c2) ← sphereCoordsT g c1
      let v ← velColumn k q false c2
      return (s.map Sph.r, v, c2)

/-- `velProf` with the clusters on the way (profiles.py:623-850). -/
def velProfT (g : Galpy) (k : VKind) (a : ProfArgs) (coord : Option VCoord) (e : PStars) (indx : Option ℕ) (mem : Mem)
    (c : Cluster) : Tr ((List ℝ × List ℝ) × After) := do
  let c1 ← profStartT g a.normalize a.normalize c
  let sel ← getSubset a.sub (viewOf c1 e) indx mem
  let (r, v, c1) ← velDataT g k coord a.sub.projected c1
  let B ← profBinned a r sel
  let rn ← velRadii a c1 B.mid
  let ps := (List.range B.mid.length).map (fun i => binStat k.stat (B.at i) v)
  let c2 ← retT g (saveCluster c) false none c1
  let rn ← if k = .disp ∨ ¬ a.normalize then convUnits (fun u t x => .ok (convertLength g c2 u t x)) c1 c2 rn else .ok rn
  let ps ← convUnits (k.convert g c2) c1 c2 ps
  return ((rn, ps), ⟨c2, sel.2, a.bins.map (fun b => b.2.1)⟩)

/-- `betaProf` with the clusters on the way (profiles.py:852-1050). -/
def betaProfT (g : Galpy) (a : ProfArgs) (e : PStars) (indx : Option ℕ) (mem : Mem) (c : Cluster) :
    Tr ((List ℝ × List ℝ) × After) := do
  let c1 ← profStartT g a.normalize a.normalize c
  let sel ← getSubset a.sub (viewOf c1 e) indx mem
  let (r, vr, c1) ← velDataT g .disp (some .r) a.sub.projected c1
  let vp ← velColumn .disp .phi a.sub.projected c1
  let vt ← if a.sub.projected then .ok [] else velColumn .disp .theta false c1
  let B ← profBinned a r sel
  let rn ← velRadii a c1 B.mid
  let ps := (List.range B.mid.length).map (fun i =>
    if 3 < (B.at i).count true then
      betaOf a.sub.projected (maskSel (B.at i) vr) (maskSel (B.at i) vp) (maskSel (B.at i) vt) else 0)
  let c2 ← retT g (saveCluster c) false none c1
  let rn ← if a.normalize then .ok rn else convUnits (fun u t x => .ok (convertLength g c2 u t x)) c1 c2 rn
  return ((rn, ps), ⟨c2, sel.2, a.bins.map (fun b => b.2.1)⟩)

/-- `vcircProf` with the clusters on the way (profiles.py:1837-2072). -/
def vcircProfT (g : Galpy) (a : ProfArgs) (all : Bool) (e : PStars) (indx : Option ℕ) (mem : Mem) (c : Cluster) :
    Tr ((List ℝ × List ℝ × ℝ × ℝ) × After) := do
  let c1 ← profStartT g a.normalize true c
  let o := if a.sub.projected then c1.rproorder else c1.rorder
  let r ← takeOrder o (if a.sub.projected then c1.d.rpro else c1.d.r)
  let m ← takeOrder o c1.m
  let sel ← getSubset a.sub (viewOf c1 e) indx mem
  match sel.1 with
  | none => .error .indexError
  | some k =>
    let w := sel.2[k]!
    let r := maskSel w r
    let m := maskSel w m
    let vc := List.zipWith (fun M ρ => Real.sqrt (getGrav c1.units * M / ρ)) (cumsum m) r
    let j ← argmaxE vc
    let args ← vcircArgs a all r (maskSel w c1.d.r)
    let rs ← if a.normalize then divRm (if a.sub.projected then c1.d.rmpro else c1.d.rm) (args.map (fun i => r[i]!))
      else .ok (args.map (fun i => r[i]!))
    let c2 ← retT g (saveCluster c) false none c1
    let rs ← if a.normalize then .ok rs else convUnits (fun u t v => .ok (convertLength g c2 u t v)) c1 c2 rs
    let vs ← convUnits (fun u t v => .ok (convertVelocity g c2 u t v)) c1 c2 (args.map (fun i => vc[i]!))
    let rv ← convUnits (fun u t v => .ok (convertLength g c2 u t v)) c1 c2 [r[j]!]
    let vm ← convUnits (fun u t v => .ok (convertVelocity g c2 u t v)) c1 c2 [maxOf vc]
    return ((rs, vs, rv.headD 0, vm.headD 0), ⟨c2, sel.2, a.bins.map (fun b => b.2.1)⟩)

/-- `alphaBins` with the clusters on the way (profiles.py:547-559). -/
def alphaBinsT (g : Galpy) (q : MassArgs) (e : PStars) (B : Binned) : List ℕ → Cluster → Mem → Tr (List (ℝ × ℝ) × Cluster × Mem)
  | [], c, mem => .ok ([], c, mem)
  | i :: is, c, mem => do
    let r ← massFunctionT g q e (some mem.length) (mem ++ [B.at i]) c
    let t ← alphaBinsT g q e B is r.2.1 r.2.2
    return (keepSlope r.1.fit :: t.1, t.2)

/-- `alphaProf` with the clusters on the way (profiles.py:390-620). -/
def alphaProfT (g : Galpy) (a : AlphaArgs) (e : PStars) (indx : Option ℕ) (mem : Mem) (c : Cluster) : Tr (SlopeOut × After) := do
  let c1 ← profStartT g a.prof.normalize a.prof.normalize c
  let sel ← getSubset a.prof.sub (viewOf c1 e) indx mem
  let B ← profBinned a.prof (if a.prof.sub.projected then c1.d.rpro else c1.d.r) sel
  let mid := meanRadii a.prof (if a.prof.sub.projected then c1.d.rpro else c1.d.r) B
  let rn ← velRadii a.prof c1 mid
  let t ← alphaBinsT g a.inner e B (List.range mid.length) c1 sel.2
  let fit := if 3 < mid.length then orNoFit (fitLn mid (rmOf a.prof.sub.projected t.2.1) (t.1.map Prod.fst)) else noFit
  let c2 ← retT g (saveCluster c) false none t.2.1
  let rn ← convUnits (fun u v x => .ok (convertLength g c2 u v x)) t.2.1 c2 rn
  return ({ r := rn, slope := t.1.map Prod.fst, fit := fit, err := t.1.map Prod.snd }, ⟨c2, t.2.2, a.prof.bins.map (fun b => b.2.1)⟩)

/-- `etaBins` with the clusters on the way (profiles.py:1649-1668). -/
def etaBinsT (g : Galpy) (a : EtaProfArgs) (q : Option CurveFit) (e : PStars) : List (ℝ × ℝ) → Cluster → Mem → Tr (List ℝ × Cluster × Mem)
  | [], c, mem => .ok ([], c, mem)
  | b :: bs, c, mem => do
    let r ← etaFunctionT g (a.inner b.1 b.2) q e none mem c
    let t ← etaBinsT g a q e bs r.2.1 r.2.2
    return ((keepSlope r.1.fit).1 :: t.1, t.2)

/-- `etaProf` with the clusters on the way (profiles.py:1495-1727; profiles.py:1635-1637). -/
def etaProfT (g : Galpy) (a : EtaProfArgs) (q : Option CurveFit) (e : PStars) (indx : Option ℕ) (mem : Mem) (c : Cluster) :
    Tr (SlopeOut × After) := do
  let c1 ← profStartT g a.prof.normalize a.prof.normalize c
  let sel ← getSubset a.prof.sub (viewOf c1 e) indx mem
  let B ← profBinned a.prof c1.d.r sel
  let rn ← velRadii a.prof c1 B.mid
  let t ← etaBinsT g a q e (List.zip B.lower B.upper) c1 sel.2
  let fit ← if 3 < B.mid.length then fitLn B.mid (rmOf a.prof.sub.projected t.2.1) t.1 else .ok noFit
  let c2 ← retT g (saveCluster c) false none t.2.1
  let rn ← if a.prof.normalize then .ok rn else convUnits (fun u v x => .ok (convertLength g c2 u v x)) t.2.1 c2 rn
  return ({ r := rn, slope := t.1, fit := fit, err := [] }, ⟨c2, t.2.2, a.prof.bins.map (fun b => b.2.1)⟩)

/-- `rtidal` with the clusters on the way (functions.py:2303-2488). -/
def rtidalT (g : Galpy) (tide : ℝ → ℝ → ℝ → ℝ) (a : TideArgs) (indx : Option (List Bool)) (c : Cluster) :
    Tr (ℝ × Option (List Bool) × Cluster) := do
  let c1 ← profStartT g false false c
  let c2 ← Tr.step (toGalpy g c1)
  let w := indx.getD (List.replicate c2.m.length true)
  if w.length ≠ c2.m.length then throw .indexError
  let f := tide (tideR g a c2) (tideZ g a c2)
  let r := tideLoop f a.converge c2.m c2.d.r a.iterate (f (maskSel w c2.m).sum) w
  let c3 ← retT g (saveCluster c) false none c2
  return (c3.units.elim r.1 (fun t => convertLength g c3 .galpy t r.1), indx.map (fun _ => r.2), c3)

/-- `rhoProfRaw` with the clusters on the way (functions.py:2689-2864). -/
def rhoProfRawT (g : Galpy) (a : ProfArgs) (e : PStars) (indx : Option ℕ) (mem : Mem) (c : Cluster) :
    Tr ((List ℝ × List ℝ × List ℕ) × After) := do
  let c1 ← profStartT g a.normalize a.normalize c
  let sel ← getSubset a.sub (viewOf c1 e) indx mem
  let B ← profBinned a (if a.sub.projected then c1.d.rpro else c1.d.r) sel
  let rho := (List.range B.mid.length).map (fun i =>
    ((maskSel (B.at i) c1.m).map (· / shell a.sub.projected B.lower[i]! B.upper[i]!)).sum)
  let c2 ← retT g (saveCluster c) false none c1
  let r ← if a.normalize then divRm c2.d.rm B.mid else .ok B.mid
  return ((r, rho, (List.range B.mid.length).map (fun i => (B.at i).count true)), ⟨c2, sel.2, a.bins.map (fun _ => r)⟩)

/-- `coreStart` with the clusters on the way (functions.py:2114-2121). -/
def coreStartT (find : Cluster → Except Err Cluster) (c1 : Cluster) : Tr Cluster :=
  if c1.origin ≠ some .centre then do
    let c2 ← if c1.c.x = 0 ∧ c1.c.y = 0 ∧ c1.c.z = 0 then Tr.step (find c1) else .ok c1
    Tr.step (toCentre true none c2)
  else .ok c1

/-- `rcoreDensity` with the clusters on the way (functions.py:2062-2122, 2157-2204). -/
def rcoreDensityT (g : Galpy) (find : Cluster → Except Err Cluster) (e : PStars) (mfrac : ℝ) (projected : Bool) (c : Cluster) :
    Tr (ℝ × Cluster) := do
  let c1 ← if c.units = some .amuse then Tr.step (toPckms g true c) else .ok c
  let c2 ← coreStartT find c1
  let c3 ← Tr.step (toPckms g true c2)
  let rl ← rlagrangeFracT g mfrac projected c3
  let pr ← rhoProfRawT g { sub := { projected := projected }, nrad := ⌈1 / mfrac⌉₊ } e none [] rl.2
  if pr.1.2.1 = [] then throw .indexError
  let rc ← coreEdge pr.1.1 pr.1.2.1 (if projected then (0.5 : ℝ) * (pr.1.2.1[0]! : ℝ) else (pr.1.2.1[0]! : ℝ) / 3)
  let c4 ← retT g (saveCluster c) false none pr.2.cluster
  return (c4.units.elim rc (fun t => convertLength g c4 .pckms t rc), c4)

/-- `rlimiting` with the clusters on the way (functions.py:2491-2595, 2687). -/
def rlimitingT (g : Galpy) (dens : ℝ → ℝ → ℝ) (a : TideArgs) (nrad : ℕ) (projected : Bool) (e : PStars) (c : Cluster) :
    Tr (ℝ × Cluster) := do
  let c1 ← if c.origin ≠ some .cluster ∧ c.origin ≠ some .centre then Tr.step (toCentre false none c) else .ok c
  let c2 ← Tr.step (toGalpy g c1)
  let pr ← rhoProfRawT g { sub := { projected := projected }, nrad := nrad } e none [] c2
  if pr.1.2.1 = [] then throw .indexError
  let rho := dens (tideR g a c2) (tideZ g a c2) * (if projected then 4 * pr.1.1.getLastD 0 / 3 else 1)
  let rl ← limitEdge pr.1.1 pr.1.2.1 rho
  let c3 ← retT g (saveCluster c) false none pr.2.cluster
  return (c3.units.elim rl (fun t => convertLength g c3 .galpy t rl), c3)

/-- `rcoreCentre` with the clusters on the way (functions.py:2115-2119). -/
def rcoreCentreT (g : Galpy) (kd : KDTree) (c : Cluster) : Tr Cluster :=
  if c.c.x = 0 ∧ c.c.y = 0 ∧ c.c.z = 0 then
    Tr.step ((findCentreMethod g {} (.casertano (knnOf kd 6 c.st)) 0 none [] false c).map Prod.snd)
  else .ok c

/-- `rcoreStart` with the clusters on the way (functions.py:2114-2121). -/
def rcoreStartT (g : Galpy) (kd : KDTree) (c1 : Cluster) : Tr Cluster :=
  if c1.origin ≠ some .centre then do
    let c2 ← rcoreCentreT g kd c1
    Tr.step (toCentre true none c2)
  else .ok c1

/-- `rcore` with the clusters on the way (functions.py:2062-2155; cluster.py:3135-3192). -/
def rcoreT (g : Galpy) (kd : KDTree) (k : ℕ) (projected : Bool) (c : Cluster) : Tr (ℝ × Cluster) := do
  let c1 ← if c.units = some .amuse then Tr.step (toPckms g true c) else .ok c
  let c2 ← rcoreStartT g kd c1
  let rc := coreRadius (coreRhos kd k projected c2.m c2.st) (if projected then c2.d.rpro else c2.d.r)
  let c3 ← retT g (saveCluster c) false none c2
  return (if c3.units = some .amuse then convertLength g c3 .pckms .amuse rc else rc, c3)

/-- `coreRelaxationTime` with the clusters on the way (functions.py:594-653). -/
def coreRelaxationTimeT (g : Galpy) (kd : KDTree) (coulomb : ℝ) (projected : Bool) (c : Cluster) : Tr (ℝ × Cluster) := do
  let c2 ← pcStartT g c
  let grav := getGrav c2.units
  let lnlambda := Real.log (coulomb * c2.st.length)
  let mtot := c2.m.sum
  let mbar := mean c2.m
  let r ← rcoreT g kd 6 projected c2
  let rc := r.1
  let c3 := r.2
  let rh ← attr (if projected then c3.d.rmpro else c3.d.rm)
  let trc := 0.39 / lnlambda * Real.sqrt (rc ^ 3 / (grav * mtot)) * (mtot / mbar) * Real.sqrt (rc * rh) / (rc + rh) * myrFactor
  let c4 ← retT g (saveCluster c) false none c3
  return (c4.units.elim trc (fun t => convertTime g c4 .pckms t trc), c4)

/-- `initializeOrbit` with the clusters on the way (orbits.py:41-118). -/
def initializeOrbitT (g : Galpy) (fromCentre : Bool) (c : Cluster) : Tr (Ph × Cluster) :=
  if c.units = some .radec then .ok (((g.ofSky c.skyGc).divPos g.ro).divVel g.vo, c)
  else do
    let c1 ← Tr.step (toGalpy g c)
    let p := if fromCentre then c1.gc.add c1.c else c1.gc
    let c2 ← retT g (saveCluster c) false none c1
    return (cylToCart (cartToCyl p), c2)

/-- `interpStart` with the clusters on the way (orbits.py:383-385, 465-467). -/
def interpStartT (g : Galpy) (tfinal : Option ℝ) (c : Cluster) : Tr Cluster :=
  if c.units = some .amuse then do
    let c1 ← Tr.step (toPckms g true c)
    if tfinal.isNone then throw .attributeError
    return c1
  else .ok c

/-- `interpolateOrbit` with the clusters on the way (orbits.py:325-410, with `_integrate_orbit` 193-257). -/
def interpolateOrbitT (g : Galpy) (flow : ℝ → Ph → Ph) (a : PathArgs) (c : Cluster) : Tr (Ph × Cluster) := do
  let c1 ← interpStartT g a.tfinal c
  let o ← initializeOrbitT g a.fromCentre c1
  let t ← lastTime (integrateTime g o.2 a.tfinal) a.nt
  let row := orbitRow g (flow t o.1)
  if o.2.units = some .radec then do
    let c2 ← if o.2.origin ≠ some .sky then Tr.step (toSky g true none o.2) else .ok o.2
    let c3 ← retT g (saveCluster c) false none c2
    return (g.toSky row, c3)
  else do
    let c3 ← retT g (saveCluster c) false none o.2
    return (convertRow g c3 row, c3)

/-- `initializeOrbits` with the clusters on the way (orbits.py:121-190). -/
def initializeOrbitsT (g : Galpy) (c : Cluster) : Tr (List Ph × Cluster) :=
  if c.units = some .radec ∧ c.origin = some .sky then
    .ok (c.sky.map (fun q => ((g.ofSky q).divPos g.ro).divVel g.vo), c)
  else if c.units = some .radec ∧ (c.origin = some .cluster ∨ c.origin = some .centre) then .error .nameError
  else do
    let c1 ← Tr.step (toGalpy g c)
    let c2 ← retT g (saveCluster c) false none c1
    return (c1.st.map (fun p => cylToCart (cartToCyl p)), c2)

/-- `interpolateOrbits` with the clusters on the way (orbits.py:412-496, with `_integrate_orbits` 259-323). -/
def interpolateOrbitsT (g : Galpy) (flow : ℝ → Ph → Ph) (a : PathArgs) (c : Cluster) : Tr (List Ph × Cluster) := do
  let c1 ← interpStartT g a.tfinal c
  let tf := integrateTime g c1 a.tfinal
  let o ← initializeOrbitsT g c1
  let t ← lastTime tf a.nt
  let c3 ← retT g (saveCluster c) false none o.2
  return (o.1.map (fun p => convertRow g c3 (orbitRow g (flow t p))), c3)

/-- `orbitalPath` with the clusters on the way (orbits.py:600-767). -/
def orbitalPathT (g : Galpy) (flow : ℝ → Ph → Ph) (a : PathArgs) (c : Cluster) : Tr (List PathPt × Cluster) := do
  let o ← initializeOrbitT g a.fromCentre c
  let rows ← pathRows g flow (naturalTime g c a.tfinal) a.nt o.1
  return (rows.map (convertPt g o.2), o.2)

/-- `orbitalPathSky` with the clusters on the way (orbits.py:705-738). -/
def orbitalPathSkyT (g : Galpy) (flow : ℝ → Ph → Ph) (a : PathArgs) (c : Cluster) : Tr (List PathPt × Cluster) := do
  let o ← initializeOrbitT g a.fromCentre c
  let rows ← pathRows g flow (naturalTime g c a.tfinal) a.nt o.1
  return (rows.map (fun q => { t := skyTime g o.2 q.t, p := g.toSky q.p }), o.2)

/-- `matchPath` with the clusters on the way (orbits.py:855-870). -/
def matchPathT (g : Galpy) (flow : ℝ → Ph → Ph) (a : MatchArgs) (c : Cluster) : Tr (List PathPt × Cluster) :=
  a.path.elim (orbitalPathT g flow a.toPathArgs c) (fun p => .ok (p, c))

/-- `orbitalPathMatch` with the clusters on the way (orbits.py:769-1013). -/
def orbitalPathMatchT (g : Galpy) (flow : ℝ → Ph → Ph) (a : MatchArgs) (c : Cluster) : Tr (List Matched × Cluster) := do
  let c1 ← Tr.step (toGalaxy g false c)
  let c2 ← Tr.step (toKpckms g true c1)
  let r ← matchPathT g flow a c2
  let out ← matchStars a.projected a.toPath a.doFull r.1 r.2.st
  let c4 ← retT g (saveCluster c) false none r.2
  return (out.map (convertMatch g c4), c4)

/-- `toTail` with the clusters on the way (tails.py:33-89). -/
def toTailT (g : Galpy) (rotTo : ℝ × ℝ × ℝ → Mat3) (c : Cluster) : Tr (List Ph × Cluster) := do
  let c1 ← if c.origin ≠ some .cluster ∧ c.origin ≠ some .centre then Tr.step (toCentre false none c) else .ok c
  let out := c1.st.map (rotateRow (rotTo (c1.gc.vx, c1.gc.vy, c1.gc.vz)))
  let c2 ← retT g (saveCluster c) false none c1
  return (out, c2)

/-- `tailPath` with the clusters on the way (tails.py:91-260). -/
def tailPathT (g : Galpy) (flow : ℝ → Ph → Ph) (a : TailArgs) (c : Cluster) : Tr (List PathPt × Cluster) := do
  let c1 ← Tr.step (toGalaxy g false c)
  let c2 ← Tr.step (toKpckms g true c1)
  let dmax := a.dmax.map (fun d => c.units.elim d (fun u => convertLength g c2 u .kpckms d))
  let o ← orbitalPathT g flow a.pathArgs c2
  let T ← tailBins a (o.1.map PathPt.t)
  let m ← orbitalPathMatchT g flow (a.matchArgs (some o.1)) o.2
  let rows ← tailRows T (tailMask dmax m.1) (m.1.map Matched.t) m.2.st
  let c' ← retT g (saveCluster c) false none m.2
  return (rows.map (convertTail g c'), c')

/-- `tailPathMatch` with the clusters on the way (tails.py:263-352). -/
def tailPathMatchT (g : Galpy) (flow : ℝ → Ph → Ph) (a : TailArgs) (path : Option (List PathPt)) (c : Cluster) :
    Tr (List Matched × Cluster) := do
  let o ← path.elim (tailPathT g flow { a with toPath := false, doFull := false, projected := false } c) (fun p => .ok (p, c))
  orbitalPathMatchT g flow (a.matchArgs (some o.1)) o.2

/-- `findCentre` with the clusters on the way (functions.py:57-186). -/
def findCentreT (g : Galpy) (a : CentreArgs) (meth : DensityMethod) (fuel : ℕ) (mask : Option (List Bool)) (ids : List ℤ)
    (c : Cluster) : Tr (Option Ph × Cluster) := do
  let c1 ← if c.units = some .amuse then Tr.step (toPckms g true c) else .ok c
  if (mask.map (fun m => m.count true)).getD 1 = 0 then
    return (some ⟨0, 0, 0, 0, 0, 0⟩, c1)
  let r ← centreOf a meth fuel (mask.getD (List.replicate c.st.length true)) ids (List.zip c1.m c1.st)
  let c2 ← if a.density then retT g (saveCluster c1) false none c1 else .ok c1
  let c3 ← retT g (saveCluster c) false none c2
  return (r, c3)

/-- `gyrout` with the clusters on the way (output.py:291-376). -/
def gyroutT (g : Galpy) (vk : ℝ) (eps : Option Eps) (epsunits : Option Units) (c : Cluster) : Tr GyrOut := do
  let c1 ← Tr.step (toGalaxy g false c)
  let c2 ← Tr.step (toKpckms g true c1)
  let n := c2.st.length
  let u := (epsunits.or c.units).getD .other
  let after := eps.map (epsAfter g c2 u)
  match (eps.elim (.ok ((List.range n).map (gyrRow (gyrVcon vk) c2)))
      (fun e => (epsColumn n (convertEps g c2 u e)).map (fun l => (List.range n).map (fun i => gyrRow (gyrVcon vk) c2 i ++ [l[i]!]))) :
      Except Err (List (List ℝ))) with
  | .error x => return { rows := none, cluster := c2, eps := after, raised := some x }
  | .ok rows => do
    let c3 ← retT g (saveCluster c) false none c2
    return { rows := some rows, cluster := c3, eps := after, raised := none }

/-- A call of an analysis function with the clusters on the way (the functions cited at their models). -/
def Query.trace (g : Galpy) : Query → Cluster → Tr Cluster
  | .sphereCoords, c => do
    let x ← sphereCoordsT g c
    return x.2
  | .cylCoords, c => do
    let x ← cylCoordsT g c
    return x.2
  | .rlagrange n pr, c => do
    let x ← rlagrangeT g n pr c
    return x.2
  | .rlagrangeFrac f pr, c => do
    let x ← rlagrangeFracT g f pr c
    return x.2
  | .relaxationTime rad γ pr, c => do
    let x ← relaxationTimeT g rad γ pr c
    return x.2
  | .halfMassRelaxationTime γ pr, c => do
    let x ← halfMassRelaxationTimeT g γ pr c
    return x.2
  | .coreRelaxationTime kd γ pr, c => do
    let x ← coreRelaxationTimeT g kd γ pr c
    return x.2
  | .rcore kd k pr, c => do
    let x ← rcoreT g kd k pr c
    return x.2
  | .rcoreDensity find e q pr, c => do
    let x ← rcoreDensityT g find e q pr c
    return x.2
  | .virialInverse f pr, c => do
    let x ← virialInverseT g f pr c
    return x.2
  | .virialCrit H d, c => do
    let x ← virialCritT g H d c
    return x.2
  | .energies s f pr soft, c => do
    let x ← energiesT g s f pr soft c
    return x.2.2
  | .energiesIds s pr mask soft, c => do
    let x ← energiesIdsT g s pr mask soft c
    return x.2.2
  | .massFunction a e indx mem, c => do
    let x ← massFunctionT g a e indx mem c
    return x.2.1
  | .etaFunction a q e indx mem, c => do
    let x ← etaFunctionT g a q e indx mem c
    return x.2.1
  | .meqFunction a q e indx mem, c => do
    let x ← meqFunctionT g a q e indx mem c
    return x.2.1
  | .ckin a q e indx mem, c => do
    let x ← ckinT g a q e indx mem c
    return x.2.1
  | .mProf a cum e indx mem, c => do
    let x ← mProfT g a cum e indx mem c
    return x.2.cluster
  | .rhoProf a e indx mem, c => do
    let x ← rhoProfT g a e indx mem c
    return x.2.cluster
  | .velProf k a co e indx mem, c => do
    let x ← velProfT g k a co e indx mem c
    return x.2.cluster
  | .betaProf a e indx mem, c => do
    let x ← betaProfT g a e indx mem c
    return x.2.cluster
  | .vcircProf a all e indx mem, c => do
    let x ← vcircProfT g a all e indx mem c
    return x.2.cluster
  | .alphaProf a e indx mem, c => do
    let x ← alphaProfT g a e indx mem c
    return x.2.cluster
  | .etaProf a q e indx mem, c => do
    let x ← etaProfT g a q e indx mem c
    return x.2.cluster
  | .rtidal tide a indx, c => do
    let x ← rtidalT g tide a indx c
    return x.2.2
  | .rlimiting dens a n pr e, c => do
    let x ← rlimitingT g dens a n pr e c
    return x.2
  | .initializeOrbit fc, c => do
    let x ← initializeOrbitT g fc c
    return x.2
  | .initializeOrbits, c => do
    let x ← initializeOrbitsT g c
    return x.2
  | .interpolateOrbit flow a, c => do
    let x ← interpolateOrbitT g flow a c
    return x.2
  | .interpolateOrbits flow a, c => do
    let x ← interpolateOrbitsT g flow a c
    return x.2
  | .orbitalPath flow a, c => do
    let x ← orbitalPathT g flow a c
    return x.2
  | .orbitalPathSky flow a, c => do
    let x ← orbitalPathSkyT g flow a c
    return x.2
  | .orbitalPathMatch flow a, c => do
    let x ← orbitalPathMatchT g flow a c
    return x.2
  | .toTail rot, c => do
    let x ← toTailT g rot c
    return x.2
  | .tailPath flow a, c => do
    let x ← tailPathT g flow a c
    return x.2
  | .tailPathMatch flow a path, c => do
    let x ← tailPathMatchT g flow a path c
    return x.2
  | .findCentre a meth fuel mask ids, c => do
    let x ← findCentreT g a meth fuel mask ids c
    return x.2
  | .gyrout vk, c => do
    let x ← gyroutT g vk none none c
    return x.cluster

/-- What the object holds after a call wrapped in `try: … except: pass`. -/
def SCall.guarded (g : Galpy) : SCall → Cluster → Cluster
  | .convert op, c => ((op.exec g c).toOption).getD c
  | .query q, c => (q.trace g c).after c

/-- A session in which every exception is caught. -/
def guarded (g : Galpy) : List SCall → Cluster → Cluster
  | [], c => c
  | a :: l, c => guarded g l (a.guarded g c)

/-! ### inside a conversion -/

/-- The statements of `to_kpckms` for a cluster in pc and km/s (operations.py:237-253), in order (`x/=1000` on an array changes
every entry). -/
def kpckmsStmts : List (Cluster → Cluster) :=
  [ fun c => { c with tphys := c.tphys / 1000 },
    fun c => { c with st := c.st.map (fun p => { p with x := p.x / 1000 }) },
    fun c => { c with st := c.st.map (fun p => { p with y := p.y / 1000 }) },
    fun c => { c with st := c.st.map (fun p => { p with z := p.z / 1000 }) },
    fun c => { c with gc := { c.gc with x := c.gc.x / 1000 } },
    fun c => { c with gc := { c.gc with y := c.gc.y / 1000 } },
    fun c => { c with gc := { c.gc with z := c.gc.z / 1000 } },
    fun c => { c with c := { c.c with x := c.c.x / 1000 } },
    fun c => { c with c := { c.c with y := c.c.y / 1000 } },
    fun c => { c with c := { c.c with z := c.c.z / 1000 } },
    fun c => { c with units := some .kpckms } ]

/-- The cluster after the first `k` of these statements: what an interrupt (Ctrl-C) there leaves. -/
def interrupted (k : ℕ) (c : Cluster) : Cluster := (kpckmsStmts.take k).foldl (fun c f => f c) c

end

end CT
