/- Radial profiles (analysis/profiles.py): density, mass, velocity and circular-velocity profiles. -/
import Verif.Model.Subset
import Verif.Model.Recipes
import Verif.Model.Coords
import Verif.Model.Convert
import Verif.Model.Grav

namespace CT

noncomputable section

/-- Keyword arguments shared by the profile functions (profiles.py:34-54): the filter, `nrad`, `bins` (lower, middle and
upper values), `bintype='fix'`, `normalize`, `plot`. -/
structure ProfArgs where
  sub : SubArgs := {}
  nrad : ℕ := 20
  bins : Option (List ℝ × List ℝ × List ℝ) := none
  fix : Bool := false
  normalize : Bool := false
  plot : Bool := false

/-- Star attributes the filter reads and conversions never touch: `npop`, `kw`, `etot`. -/
structure PStars where
  npop : List ℤ
  kw : List ℤ
  etot : List ℝ

/-- The attributes `cluster.subset` reads (cluster.py:3887-3945). -/
def viewOf (c : Cluster) (e : PStars) : View :=
  { ntot := c.st.length, r := c.d.r, rpro := c.d.rpro, v := c.d.v, vpro := c.d.vpro, m := c.m,
    npop := e.npop, kw := e.kw, etot := e.etot }

/-- The first lines of every profile (profiles.py:105-114): strip AMUSE units, go to the centre unless the stars are
already given from the cluster position or centre; `sort` is `normalize` (`vcirc_prof` also sorts without it,
profiles.py:1926). -/
def profStart (g : Galpy) (sortMove sortStay : Bool) (c : Cluster) : Except Err Cluster := do
  let c1 ← if c.units = some .amuse then toPckms g true c else .ok c
  if c.origin ≠ some .cluster ∧ c.origin ≠ some .centre then toCentre sortMove none c1
  else if sortStay then .ok (sortstars true c1.d.r c1.d.rpro c1)
  else .ok c1

/-- The bins (profiles.py:126-132) for the selected radii. -/
def profBins (a : ProfArgs) (x : List ℝ) : Except Err (List ℝ × List ℝ × List ℝ) :=
  match a.bins with
  | some b => .ok b
  | none => do
    let T ← if a.fix then binmaker x a.nrad true else nbinmaker x a.nrad
    return (T.lower, T.mid, T.upper)

/-- Selection and bin number of every star (profiles.py:124-134). -/
structure Binned where
  mask : List Bool
  lower : List ℝ
  mid : List ℝ
  upper : List ℝ
  idx : List ℤ

/-- `indx = cluster.subset(...)`, bins of `r[indx]`, `bin_index(r, ...)` (profiles.py:124-134).  The answer `-1` of a
failed selection cannot be used as an array. -/
def profBinned (a : ProfArgs) (r : List ℝ) (sel : Option ℕ × Mem) : Except Err Binned :=
  match sel.1 with
  | none => .error .typeError
  | some k => do
    let b ← profBins a (maskSel sel.2[k]! r)
    return { mask := sel.2[k]!, lower := b.1, mid := b.2.1, upper := b.2.2, idx := binIndex r b.1 b.2.2 }

/-- `rindx = indx * (bin_idx==i)` (profiles.py:141). -/
def Binned.at (B : Binned) (i : ℕ) : List Bool := List.zipWith and B.mask (B.idx.map (fun k => decide (k = (i : ℤ))))

/-- `rindx = indx * (bin_idx<=i)` (profiles.py:332). -/
def Binned.upTo (B : Binned) (i : ℕ) : List Bool := List.zipWith and B.mask (B.idx.map (fun k => decide (k ≤ (i : ℤ))))

/-- `x /= cluster.rm`. -/
def divRm (rm : Option ℝ) (x : List ℝ) : Except Err (List ℝ) :=
  match rm with
  | none => .error .typeError
  | some k => .ok (x.map (· / k))

/-- A `_convert_…` helper applied from the units of the analysed cluster to those of the restored one. -/
def convUnits (f : Units → Units → ℝ → Except Err ℝ) (c1 c2 : Cluster) (x : List ℝ) : Except Err (List ℝ) :=
  match c1.units, c2.units with
  | some u, some t => x.mapM (f u t)
  | _, _ => .ok x

/-- What a profile call leaves behind: the cluster, the boolean arrays, and the caller's `bins[1]`. -/
structure After where
  cluster : Cluster
  mem : Mem
  mid : Option (List ℝ)

/-- The radii as returned (profiles.py:186-214): divided by `rm` when plotting and again at the end if `normalize`. -/
def massRadiiOut (g : Galpy) (a : ProfArgs) (c1 c2 : Cluster) (mid : List ℝ) : Except Err (List ℝ) := do
  let x ← if a.plot ∧ a.normalize then divRm c1.d.rm mid else .ok mid
  let x ← convUnits (fun u t v => .ok (convertLength g c2 u t v)) c1 c2 x
  if a.normalize then divRm c2.d.rm x else .ok x

/-- `bins[1]` of the caller afterwards: the returned array is that same object unless a conversion (from AMUSE units)
made a new one. -/
def midAfter (a : ProfArgs) (c1 c2 : Cluster) (out : List ℝ) : Option (List ℝ) :=
  a.bins.map (fun b => if c1.units = c2.units then out else b.2.1)

/-- `m_prof` (profiles.py:219-388). -/
def mProf (g : Galpy) (a : ProfArgs) (cumulative : Bool) (e : PStars) (indx : Option ℕ) (mem : Mem) (c : Cluster) :
    Except Err ((List ℝ × List ℝ × List ℕ) × After) := do
  let c1 ← profStart g a.normalize a.normalize c
  let sel ← getSubset a.sub (viewOf c1 e) indx mem
  let B ← profBinned a (if a.sub.projected then c1.d.rpro else c1.d.r) sel
  let rows := (List.range B.mid.length).map (fun i => if cumulative then B.upTo i else B.at i)
  let c2 ← returnCluster g (saveCluster c) false none c1
  let r ← massRadiiOut g a c1 c2 B.mid
  let ms ← convUnits (fun u t v => convertMass c2 u t v) c1 c2 (rows.map (fun w => (maskSel w c1.m).sum))
  return ((r, ms, rows.map (fun w => w.count true)), ⟨c2, sel.2, midAfter a c1 c2 r⟩)

/-- Volume of a shell, or area of a ring in projection (profiles.py:143-146). -/
def shell (projected : Bool) (lo hi : ℝ) : ℝ :=
  if projected then Real.pi * (hi ^ 2 - lo ^ 2) else 4 / 3 * Real.pi * (hi ^ 3 - lo ^ 3)

/-- `rho_prof` (profiles.py:34-216). -/
def rhoProf (g : Galpy) (a : ProfArgs) (e : PStars) (indx : Option ℕ) (mem : Mem) (c : Cluster) :
    Except Err ((List ℝ × List ℝ × List ℕ) × After) := do
  let c1 ← profStart g a.normalize a.normalize c
  let sel ← getSubset a.sub (viewOf c1 e) indx mem
  let B ← profBinned a (if a.sub.projected then c1.d.rpro else c1.d.r) sel
  let rho := (List.range B.mid.length).map (fun i =>
    ((maskSel (B.at i) c1.m).map (· / shell a.sub.projected B.lower[i]! B.upper[i]!)).sum)
  let c2 ← returnCluster g (saveCluster c) false none c1
  let r ← massRadiiOut g a c1 c2 B.mid
  let ps ← convUnits (fun u t v => convertDensity g c2 a.sub.projected u t v) c1 c2 rho
  return ((r, ps, (List.range B.mid.length).map (fun i => (B.at i).count true)), ⟨c2, sel.2, midAfter a c1 c2 r⟩)

/-! ### Velocity profiles -/

/-- `sigv_prof`, `v_prof`, `v2_prof`. -/
inductive VKind
  | disp | mean | meanSq
  deriving DecidableEq

/-- The argument `coord`, if given. -/
inductive VCoord
  | r | phi | theta | x | y | z | v | other
  deriving DecidableEq

/-- The velocity column (profiles.py:750-783, 1181-1213, 1409-1429).  In projection there is no `vt`; without projection
`v_prof` and `v2_prof` do not define `vz`; `v2_prof` knows no `x`, `y`. -/
def velColumn (k : VKind) (coord : VCoord) (projected : Bool) (c : Cluster) : Except Err (List ℝ) :=
  let dflt := if projected then c.d.vpro else c.d.v
  match coord with
  | .r => .ok (if projected then c.st.map (fun p => (cartToCyl p).vR) else c.st.map (fun p => (cartToSphere p).vr))
  | .phi => .ok (if projected then c.st.map (fun p => (cartToCyl p).vT) else c.st.map (fun p => (cartToSphere p).vphi))
  | .theta => if projected then .error .nameError else .ok (c.st.map (fun p => (cartToSphere p).vtheta))
  | .x => .ok (if k = .meanSq then dflt else c.st.map Ph.vx)
  | .y => .ok (if k = .meanSq then dflt else c.st.map Ph.vy)
  | .z => if projected ∨ k = .disp then .ok (c.st.map Ph.vz) else .error .nameError
  | .v => .ok dflt
  | .other => .ok dflt

/-- Radii, velocities and the cluster after the coordinates are computed (profiles.py:706-711, 750-783).
`sphere_coords` saves and returns the cluster itself. -/
def velData (g : Galpy) (k : VKind) (coord : Option VCoord) (projected : Bool) (c1 : Cluster) :
    Except Err (List ℝ × List ℝ × Cluster) :=
  match coord with
  | none => .ok (if projected then (c1.d.rpro, c1.d.vpro, c1) else (c1.d.r, c1.d.v, c1))
  | some q =>
    if projected then do
      let v ← velColumn k q true c1
      return (c1.st.map (fun p => (cartToCyl p).R), v, c1)
    else do
      let (s, c2) ← sphereCoords g c1
      let v ← velColumn k q false c2
      return (s.map Sph.r, v, c2)

/-- The number computed from the velocities of a bin (profiles.py:818, 1245, 1462). -/
def VKind.stat (k : VKind) (l : List ℝ) : ℝ :=
  match k with
  | .disp => npStd l
  | .mean => CT.mean l
  | .meanSq => CT.mean (l.map (· ^ 2))

/-- `if np.sum(rindx) > 3.0` else the zero of `np.zeros` (profiles.py:816). -/
def binStat (f : List ℝ → ℝ) (w : List Bool) (v : List ℝ) : ℝ := if 3 < w.count true then f (maskSel w v) else 0

/-- `rprofn` (profiles.py:801-807). -/
def velRadii (a : ProfArgs) (c1 : Cluster) (mid : List ℝ) : Except Err (List ℝ) :=
  if a.normalize then divRm (if a.sub.projected then c1.d.rmpro else c1.d.rm) mid else .ok mid

/-- The unit helper for the velocities. -/
def VKind.convert (g : Galpy) (k : VKind) (c : Cluster) (u t : Units) (v : ℝ) : Except Err ℝ :=
  match k with
  | .meanSq => .ok (convertSquareVelocity g c u t v)
  | _ => .ok (convertVelocity g c u t v)

/-- `sigv_prof` (profiles.py:623-850), `v_prof` (1053-1276), `v2_prof` (1279-1493). -/
def velProf (g : Galpy) (k : VKind) (a : ProfArgs) (coord : Option VCoord) (e : PStars) (indx : Option ℕ) (mem : Mem)
    (c : Cluster) : Except Err ((List ℝ × List ℝ) × After) := do
  let c1 ← profStart g a.normalize a.normalize c
  let sel ← getSubset a.sub (viewOf c1 e) indx mem
  let (r, v, c1) ← velData g k coord a.sub.projected c1
  let B ← profBinned a r sel
  let rn ← velRadii a c1 B.mid
  let ps := (List.range B.mid.length).map (fun i => binStat k.stat (B.at i) v)
  let c2 ← returnCluster g (saveCluster c) false none c1
  let rn ← if k = .disp ∨ ¬ a.normalize then convUnits (fun u t x => .ok (convertLength g c2 u t x)) c1 c2 rn else .ok rn
  let ps ← convUnits (k.convert g c2) c1 c2 ps
  return ((rn, ps), ⟨c2, sel.2, a.bins.map (fun b => b.2.1)⟩)

/-- Anisotropy of one bin (profiles.py:1005-1013). -/
def betaOf (projected : Bool) (vr vp vt : List ℝ) : ℝ :=
  if projected then npStd vp / npStd vr - 1
  else 1 - (npStd vt ^ 2 + npStd vp ^ 2) / (2 * npStd vr ^ 2)

/-- `beta_prof` (profiles.py:852-1050). -/
def betaProf (g : Galpy) (a : ProfArgs) (e : PStars) (indx : Option ℕ) (mem : Mem) (c : Cluster) :
    Except Err ((List ℝ × List ℝ) × After) := do
  let c1 ← profStart g a.normalize a.normalize c
  let sel ← getSubset a.sub (viewOf c1 e) indx mem
  let (r, vr, c1) ← velData g .disp (some .r) a.sub.projected c1
  let vp ← velColumn .disp .phi a.sub.projected c1
  let vt ← if a.sub.projected then .ok [] else velColumn .disp .theta false c1
  let B ← profBinned a r sel
  let rn ← velRadii a c1 B.mid
  let ps := (List.range B.mid.length).map (fun i =>
    if 3 < (B.at i).count true then
      betaOf a.sub.projected (maskSel (B.at i) vr) (maskSel (B.at i) vp) (maskSel (B.at i) vt) else 0)
  let c2 ← returnCluster g (saveCluster c) false none c1
  let rn ← if a.normalize then .ok rn else convUnits (fun u t x => .ok (convertLength g c2 u t x)) c1 c2 rn
  return ((rn, ps), ⟨c2, sel.2, a.bins.map (fun b => b.2.1)⟩)

end

end CT
