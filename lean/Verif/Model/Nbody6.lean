/- Reading NBODY6 output: the binary files OUT3 and OUT33 and the stellar-evolution files fort.82 and fort.83
(io/nbody6.py), and loading and advancing a cluster from them (io/load.py). -/
import Verif.Model.IO
import Mathlib.Analysis.SpecialFunctions.Pow.Real
import Mathlib.Analysis.SpecialFunctions.Log.Base

namespace CT

noncomputable section

/-! ### binary files -/

/-- The unread part of a binary file. -/
abbrev Bytes := List UInt8

/-- Four bytes of a little-endian machine as a number. -/
def leNat (a b c d : UInt8) : ℕ := a.toNat + 256 * b.toNat + 65536 * c.toNat + 16777216 * d.toNat

/-- `struct.unpack('i', …)`: two's complement. -/
def asInt (v : ℕ) : ℤ := if v < 2 ^ 31 then v else (v : ℤ) - 2 ^ 32

/-- `struct.unpack('f', …)`: IEEE 754 single precision.  Infinities and NaN (exponent 255) are not modelled and get the value
of their bits read as a finite number. -/
def asFloat (v : ℕ) : ℝ :=
  let sgn : ℝ := if v < 2 ^ 31 then 1 else -1
  let e : ℕ := v / 2 ^ 23 % 2 ^ 8
  let frac : ℕ := v % 2 ^ 23
  if e = 0 then sgn * frac / 2 ^ 149 else sgn * (2 ^ 23 + frac) * 2 ^ e / 2 ^ 150

/-- `f.read(4)` and `struct.unpack`: fewer than four bytes left raise `struct.error`. -/
def readWord : Bytes → Except Err (ℕ × Bytes)
  | a :: b :: c :: d :: t => .ok (leNat a b c d, t)
  | _ => .error .structError

def readInt (f : Bytes) : Except Err (ℤ × Bytes) := do
  let r ← readWord f
  return (asInt r.1, r.2)

def readFloat (f : Bytes) : Except Err (ℝ × Bytes) := do
  let r ← readWord f
  return (asFloat r.1, r.2)

/-- `for i in range(n): a.append(struct.unpack('f', f.read(4))[0])` (nbody6.py:131-132, 141-142). -/
def readFloats : ℕ → Bytes → Except Err (List ℝ × Bytes)
  | 0, f => .ok ([], f)
  | n + 1, f => do
    let a ← readFloat f
    let l ← readFloats n a.2
    return (a.1 :: l.1, l.2)

/-- The loop reading ids (nbody6.py:156-157). -/
def readInts : ℕ → Bytes → Except Err (List ℤ × Bytes)
  | 0, f => .ok ([], f)
  | n + 1, f => do
    let a ← readInt f
    let l ← readInts n a.2
    return (a.1 :: l.1, l.2)

/-- The loops reading three coordinates per star (nbody6.py:146-154). -/
def readTriples : ℕ → Bytes → Except Err (List (ℝ × ℝ × ℝ) × Bytes)
  | 0, f => .ok ([], f)
  | n + 1, f => do
    let a ← readFloat f
    let b ← readFloat a.2
    let c ← readFloat b.2
    let l ← readTriples n c.2
    return ((a.1, b.1, c.1) :: l.1, l.2)

/-- What the readers return: number of stars, header array, columns. -/
structure Snap where
  n : ℤ
  alist : List ℝ
  pos : List (ℝ × ℝ × ℝ)
  vel : List (ℝ × ℝ × ℝ)
  m : List ℝ
  id : List ℤ

/-- `return 0,np.zeros(20),0,0,0,0,0,0,0,0` (nbody6.py:112, 175, 227). -/
def emptySnap : Snap := ⟨0, List.replicate 20 0, [], [], [], []⟩

/-- The data block (nbody6.py:125-167, 190-225).  Different sizes at its ends make the reader return `-1`, which the caller
cannot unpack (`TypeError`). -/
def readData (n nk : ℤ) (f : Bytes) : Except Err (Snap × Bytes) := do
  let s ← readInt f
  let a ← readFloats nk.toNat s.2
  let m ← readFloats n.toNat a.2
  let p ← readTriples n.toNat m.2
  let v ← readTriples n.toNat p.2
  let i ← readInts n.toNat v.2
  let e ← readInt i.2
  if s.1 ≠ e.1 then throw .typeError
  return (⟨n, a.1, p.1, v.1, m.1, i.1⟩, e.2)

/-- The rest of `_get_nbody6_out3` after the first word `h` of the header (nbody6.py:114-167). -/
def out3Rest (h : ℤ) (f : Bytes) : Except Err (Snap × Bytes) := do
  let n ← readInt f
  let model ← readInt n.2
  let nrun ← readInt model.2
  let nk ← readInt nrun.2
  let e ← readInt nk.2
  if h ≠ e.1 then throw .typeError
  readData n.1 nk.1 e.2

/-- `_get_nbody6_out3` (nbody6.py:106-167).  At the end of the file (at most three bytes left, which are consumed) an empty
snapshot is returned. -/
def readOut3 (f : Bytes) : Except Err (Snap × Bytes) :=
  match readInt f with
  | .error _ => .ok (emptySnap, [])
  | .ok h => out3Rest h.1 h.2

/-- The rest of `_get_nbody6_out33` (nbody6.py:177-227): one header word less, and no data block when there are no stars. -/
def out33Rest (h : ℤ) (f : Bytes) : Except Err (Snap × Bytes) := do
  let n ← readInt f
  let model ← readInt n.2
  let nk ← readInt model.2
  let e ← readInt nk.2
  if h ≠ e.1 then throw .typeError
  if 0 < n.1 then readData n.1 nk.1 e.2 else return (emptySnap, e.2)

/-- `_get_nbody6_out33` (nbody6.py:169-227). -/
def readOut33 (f : Bytes) : Except Err (Snap × Bytes) :=
  match readInt f with
  | .error _ => .ok (emptySnap, [])
  | .ok h => out33Rest h.1 h.2

/-! ### clusters -/

/-- `StarCluster.add_nbody6` (cluster.py:1005-1104): the attributes kept by the cluster model; `nc, rc, rtide, rscale, ns, n_p`
are not.  The number of binaries comes as a float. -/
def addNbody6 (rbar : ℝ) (xc yc zc : ℝ) (zmbar vbar tbar : ℝ) (nb : ℝ) (t : Tab) : Tab :=
  { t with
    nb := (truncZ nb).toNat
    base := { t.base with
      rbar := rbar, zmbar := zmbar, vbar := vbar, tbar := tbar, nb := (truncZ nb).toNat
      c := { t.base.c with x := xc, y := yc, z := zc }
      xcn := some (xc, yc, zc)
      tbarDays := 365.25 * ((rbar * 1296000 / (2 * Real.pi)) ^ (1.5 : ℝ) / Real.sqrt zmbar)
      rbarSu := 1296000 / (2 * Real.pi) * 1.49597870700e13 / 6.957e10 * rbar
      rbarAu := 1296000 / (2 * Real.pi) * 1.49597870700e13 / 1.49597870700e13 * rbar } }

/-- The arguments of `add_stars` (nbody6.py:77, 82). -/
def snapStars (s : Snap) : StarArgs :=
  { x := .arr (s.pos.map (·.1)), y := .arr (s.pos.map (·.2.1)), z := .arr (s.pos.map (·.2.2))
    vx := .arr (s.vel.map (·.1)), vy := .arr (s.vel.map (·.2.1)), vz := .arr (s.vel.map (·.2.2))
    m := some (.arr s.m), id := some (.arr s.id), m0 := none, npop := none }

/-- `alist[k]`. -/
def alistAt (s : Snap) (k : ℕ) : Except Err ℝ := if k < s.alist.length then .ok s.alist[k]! else .error .indexError

/-- `if nstot > 0: cluster.add_nbody6(…)` (nbody6.py:64-68). -/
def addHeader (s : Snap) (t : Tab) : Except Err Tab :=
  if 0 < s.n then do
    let _nc ← alistAt s 13
    let _rc ← alistAt s 12
    let rbar ← alistAt s 2
    let _rtide ← alistAt s 4
    let xc ← alistAt s 6
    let yc ← alistAt s 7
    let zc ← alistAt s 8
    let zmbar ← alistAt s 3
    let vbar ← alistAt s 11
    let tbar ← alistAt s 10
    let _rscale ← alistAt s 17
    let nb ← alistAt s 1
    return addNbody6 rbar xc yc zc zmbar vbar tbar nb t
  else .ok t

/-- The stars of OUT33 and the orbital position given there (nbody6.py:71-79). -/
def addTail (g : Galpy) (s : Snap) (t : Tab) : Except Err Tab :=
  if 0 < s.n then do
    let t ← addStars (snapStars s) 0 false true t
    let x ← alistAt s 0
    let y ← alistAt s 1
    let z ← alistAt s 2
    let vx ← alistAt s 3
    let vy ← alistAt s 4
    let vz ← alistAt s 5
    return { t with base := addOrbit g ⟨x, y, z, vx, vy, vz⟩ none none t.base }
  else .ok t

/-- Reading OUT33 if there is one. -/
def readTail (g : Galpy) (out33 : Option Bytes) (t : Tab) : Except Err (Tab × Option Bytes) :=
  out33.elim (.ok (t, none)) (fun f => do
    let r ← readOut33 f
    let t ← addTail g r.1 t
    return (t, some r.2))

/-- `if nstot > 0: cluster.add_stars(…)` (nbody6.py:81-82). -/
def addOut3Stars (s : Snap) (t : Tab) : Except Err Tab :=
  if 0 < s.n then addStars (snapStars s) 0 false true t else .ok t

/-- `if kwargs.get("analyze", True) and cluster.ntot>0: cluster.analyze(sortstars=sortstars)` (nbody6.py:97-99). -/
def nbAnalyze (kw : Kw) (t : Tab) : Except Err Tab :=
  if kw.analyze.getD true ∧ 0 < t.ntot then analyzeTab (kw.sort.getD true) t else .ok t

/-- A cluster loaded from NBODY6 output, with its files (their unread parts). -/
structure NbRun where
  tab : Tab
  sfile : Bytes
  bfile : Option Bytes
  ofile : Option (List Line)

/-- `_get_nbody6` without stellar evolution (nbody6.py:12-104).  Without OUT3 the names `cluster` and `nstot` are undefined. -/
def getNbody6 (g : Galpy) (out3 : Option Bytes) (out33 : Option Bytes) (ofile : Option (List Line)) (advance : Bool) (kw : Kw) :
    Except Err NbRun :=
  out3.elim (.error .nameError) (fun f => do
    let s ← readOut3 f
    let t0 ← alistAt s.1 0
    let t ← addHeader s.1 (blankTab (some .nbody) (some .cluster) t0)
    let b ← readTail g out33 t
    let t ← addOut3Stars s.1 b.1
    let t ← nbAnalyze kw t
    let o ← readOrbitIf g kw advance ofile t.base
    return ⟨{ t with base := o.1 }, s.2, b.2, o.2⟩)

/-- `load_cluster('nbody6', …)` given the contents of its files (load.py:162-184). -/
def loadNbody6 (g : Galpy) (out3 out33 : Option Bytes) (ofile : Option (List Line)) (kw : Kw) : Except Err NbRun :=
  getNbody6 g out3 out33 ofile false kw

/-- The keyword arguments passed on by `advance_cluster` (load.py:712-777); `cluster.nsnap` is 0 for this type. -/
def nbAdvKw (a : Kw) : Kw :=
  { a with nsnap := some (a.nsnap.getD 0 + 1), analyze := some (a.analyze.getD true), sort := some (a.sort.getD true),
           otime := some (a.otime.getD false) }

/-- `advance_cluster` of a cluster with `ctype='nbody6'` (load.py:423-426), when there is no directory `./cont/`; a cluster
without stars is given no orbit file (load.py:614-618). -/
def advanceNbody6 (g : Galpy) (a : Kw) (c : NbRun) : Except Err NbRun := do
  let r ← getNbody6 g (some c.sfile) c.bfile c.ofile true (nbAdvKw a)
  return if r.tab.ntot = 0 then { r with ofile := none } else r

/-- `k` advances. -/
def advanceNbody6Many (g : Galpy) (a : Kw) : ℕ → NbRun → Except Err NbRun
  | 0, c => .ok c
  | k + 1, c => do
    let c ← advanceNbody6 g a c
    advanceNbody6Many g a k c

/-! ### stellar evolution files -/

/-- A line of fort.82 as split into words, with the values used here: stellar type of the binary, logarithms of the
luminosities and radii of the components (already 0 if the file has `NaN`); or the closing line `##`. -/
inductive BinLine
  | pair (kwb l1 l2 r1 r2 : ℝ)
  | stop

/-- A line of fort.83: stellar type, logarithms of luminosity and radius; or the closing line. -/
inductive SseLine
  | star (kw l r : ℝ)
  | stop

/-- The three arrays handed to `add_sse`. -/
structure Sse where
  kw : List ℝ
  logl : List ℝ
  logr : List ℝ

/-- `np.log10(10.0**a + 10.0**b)`. -/
def logSum (a b : ℝ) : ℝ := Real.logb 10 ((10 : ℝ) ^ a + (10 : ℝ) ^ b)

/-- The loop over the binaries (nbody6.py:263-302) with the arrays `zl1b`, `zl2b` read so far: `lbtot` is computed from the
whole arrays, and all of it is appended.  Reading past the end of the file raises `IndexError`. -/
def readPairs : ℕ → List BinLine → List ℝ → List ℝ → Sse → Except Err (Sse × List BinLine)
  | 0, f, _, _, a => .ok (a, f)
  | _ + 1, [], _, _, _ => .error .indexError
  | _ + 1, .stop :: f, _, _, a => .ok (a, f)
  | n + 1, .pair k l1 l2 r1 r2 :: f, z1, z2, a =>
    readPairs n f (z1 ++ [l1]) (z2 ++ [l2])
      ⟨a.kw ++ [k], a.logl ++ List.zipWith logSum (z1 ++ [l1]) (z2 ++ [l2]), a.logr ++ [max r1 r2]⟩

/-- The loop over the single stars (nbody6.py:315-331). -/
def readSingles : ℕ → List SseLine → Sse → Except Err (Sse × List SseLine)
  | 0, f, a => .ok (a, f)
  | _ + 1, [], _ => .error .indexError
  | _ + 1, .stop :: f, a => .ok (a, f)
  | n + 1, .star k l r :: f, a => readSingles n f ⟨a.kw ++ [k], a.logl ++ [l], a.logr ++ [r]⟩

/-- The arrays `kw, zl1, r1` returned by `_get_nbody6se` (nbody6.py:229-334), `nb` and `ns` being the numbers in the headers. -/
def readSe (nb ns : ℕ) (f82 : List BinLine) (f83 : List SseLine) : Except Err Sse := do
  let a ← readPairs nb f82 [] [] ⟨[], [], []⟩
  let b ← readSingles ns f83 a.1
  return b.1

end

end CT
