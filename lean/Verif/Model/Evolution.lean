/- Stellar evolution data of a cluster: add_sse, add_bse and their selection by sub_cluster (cluster.py:1106-1270, 4085-4148). -/
import Verif.Model.Nbody6ppEv

namespace CT

noncomputable section

/-- The columns of `add_sse` and `add_bse` (cluster.py:326-366).  Epochs and spins may be NaN (`none`). -/
structure EvoTab where
  kw : List ℝ
  logl : List ℝ
  logr : List ℝ
  ep : List (Option ℝ)
  ospin : List (Option ℝ)
  lum : List ℝ
  ltot : ℝ
  id1 : List ℤ
  id2 : List ℤ
  kw1 : List ℝ
  kw2 : List ℝ
  kcm : List ℝ
  ecc : List ℝ
  pb : List ℝ
  semi : List ℝ
  m1 : List ℝ
  m2 : List ℝ
  logl1 : List ℝ
  logl2 : List ℝ
  logr1 : List ℝ
  logr2 : List ℝ
  ep1 : List ℝ
  ep2 : List ℝ
  ospin1 : List ℝ
  ospin2 : List ℝ
  eb : List ℝ
  nb : ℕ

/-- A new cluster (cluster.py:326-366).  `ltot` does not exist before `add_sse`: 0. -/
def newEvo : EvoTab :=
  ⟨[], [], [], [], [], [], 0, [], [], [], [], [], [], [], [], [], [], [], [], [], [], [], [], [], [], [], 0⟩

/-- The arguments of `add_sse` (cluster.py:1106). -/
structure SseArgs where
  kw : List ℝ
  logl : List ℝ
  logr : List ℝ
  ep : Option (List ℝ) := none
  ospin : Option (List ℝ) := none
  arg : Option (List ℤ) := none

/-- `a[i0], a[i1], … = v0, v1, …`. -/
def putAt {α : Type} : List (ℤ × α) → List α → Except Err (List α)
  | [], a => .ok a
  | (i, v) :: t, a => do
    let k ← pyPos a.length i
    putAt t (a.set k v)

/-- `self.kw[nstart+arg.astype(int)] = np.asarray(kw)` (cluster.py:1161-1163).  Arrays of different lengths raise `ValueError`
(a single value for several places is not modelled). -/
def assignAt {α : Type} (idx : List ℤ) (v a : List α) : Except Err (List α) :=
  if idx.length = v.length then putAt (idx.zip v) a else .error .valueError

/-- `self.ep[nstart+arg.astype(int)] = np.array(ep)` (cluster.py:1164-1165): `np.array(None)` assigns NaN everywhere. -/
def assignOpt (idx : List ℤ) (v : Option (List ℝ)) (a : List (Option ℝ)) : Except Err (List (Option ℝ)) :=
  v.elim (putAt (idx.map (fun i : ℤ => (i, none))) a) (fun v => assignAt idx (v.map some) a)

/-- A column before the assignment (cluster.py:1140-1159): new zeros, or zeros appended. -/
def zerosAfter {α : Type} (z : α) (fresh : Bool) (n : ℕ) (a : List α) : List α :=
  if fresh then List.replicate n z else a ++ List.replicate n z

/-- The part of `add_sse` that depends on `arg` (cluster.py:1138-1170). -/
def sseColumns (a : SseArgs) (e : EvoTab) : Except Err EvoTab :=
  a.arg.elim
    (.ok { e with kw := e.kw ++ a.kw, logl := e.logl ++ a.logl, logr := e.logr ++ a.logr })
    (fun arg => do
      let fresh := e.kw.isEmpty
      let nstart : ℤ := e.kw.length
      let idx := arg.map (fun i => nstart + i)
      let n := a.kw.length
      let kw ← assignAt idx a.kw (zerosAfter 0 fresh n e.kw)
      let logl ← assignAt idx a.logl (zerosAfter 0 fresh n e.logl)
      let logr ← assignAt idx a.logr (zerosAfter 0 fresh n e.logr)
      let ep ← assignOpt idx a.ep (zerosAfter (some 0) fresh n e.ep)
      let ospin ← assignOpt idx a.ospin (zerosAfter (some 0) fresh n e.ospin)
      return { e with kw := kw, logl := logl, logr := logr, ep := ep, ospin := ospin })

/-- `np.append(self.ep,np.array(ep))` or zeros (cluster.py:1175-1183). -/
def appendOpt (v : Option (List ℝ)) (n : ℕ) (a : List (Option ℝ)) : List (Option ℝ) :=
  a ++ v.elim (List.replicate n (some 0)) (List.map some)

/-- `add_sse` (cluster.py:1106-1183). -/
def addSse (a : SseArgs) (e : EvoTab) : Except Err EvoTab := do
  let e ← sseColumns a e
  let lum := e.logl.map (fun x : ℝ => (10 : ℝ) ^ x)
  return { e with lum := lum, ltot := lum.sum, ep := appendOpt a.ep a.kw.length e.ep, ospin := appendOpt a.ospin a.kw.length e.ospin }

/-- The arguments of `add_bse` (cluster.py:1185-1208). -/
structure BseArgs where
  id1 : List ℤ
  id2 : List ℤ
  kw1 : List ℝ
  kw2 : List ℝ
  kcm : List ℝ
  ecc : List ℝ
  pb : List ℝ
  semi : List ℝ
  m1 : List ℝ
  m2 : List ℝ
  logl1 : List ℝ
  logl2 : List ℝ
  logr1 : List ℝ
  logr2 : List ℝ
  ep1 : Option (List ℝ) := none
  ep2 : Option (List ℝ) := none
  ospin1 : Option (List ℝ) := none
  ospin2 : Option (List ℝ) := none

/-- `0.5*self.m1*self.m2/self.semi` (cluster.py:1268).  Different lengths raise `ValueError` (length 1 is not modelled). -/
def bindingOf (m1 m2 semi : List ℝ) : Except Err (List ℝ) :=
  if m1.length = m2.length ∧ m1.length = semi.length then
    .ok (List.zipWith (fun m s : ℝ => m / s) (List.zipWith (fun x y : ℝ => 0.5 * x * y) m1 m2) semi)
  else .error .valueError

/-- `add_bse` (cluster.py:1185-1270). -/
def addBse (a : BseArgs) (e : EvoTab) : Except Err EvoTab := do
  let eb ← bindingOf (e.m1 ++ a.m1) (e.m2 ++ a.m2) (e.semi ++ a.semi)
  return { e with
    id1 := e.id1 ++ a.id1
    id2 := e.id2 ++ a.id2
    kw1 := e.kw1 ++ a.kw1
    kw2 := e.kw2 ++ a.kw2
    kcm := e.kcm ++ a.kcm
    ecc := e.ecc ++ a.ecc
    pb := e.pb ++ a.pb
    semi := e.semi ++ a.semi
    m1 := e.m1 ++ a.m1
    m2 := e.m2 ++ a.m2
    logl1 := e.logl1 ++ a.logl1
    logl2 := e.logl2 ++ a.logl2
    logr1 := e.logr1 ++ a.logr1
    logr2 := e.logr2 ++ a.logr2
    ep1 := e.ep1 ++ a.ep1.getD []
    ep2 := e.ep2 ++ a.ep2.getD []
    ospin1 := e.ospin1 ++ a.ospin1.getD []
    ospin2 := e.ospin2 ++ a.ospin2.getD []
    eb := eb
    nb := (e.id1 ++ a.id1).length }

/-- `a[mask]`: a mask of another length raises `IndexError`. -/
def maskIx {α : Type} (mask : List Bool) (l : List α) : Except Err (List α) :=
  if mask.length = l.length then .ok (maskSel mask l) else .error .indexError

/-- The calls of `add_sse` in `sub_cluster` (cluster.py:4085-4101); NaN among epochs and spins is passed on. -/
def evoSelSse (mask : List Bool) (p s : EvoTab) : Except Err EvoTab :=
  if 0 < p.logl.length then do
    let kw ← maskIx mask p.kw
    let logl ← maskIx mask p.logl
    let logr ← maskIx mask p.logr
    let lum := (s.logl ++ logl).map (fun x : ℝ => (10 : ℝ) ^ x)
    if p.ep.length ≠ 0 ∧ p.ospin.length ≠ 0 then do
      let ep ← maskIx mask p.ep
      let ospin ← maskIx mask p.ospin
      return { s with kw := s.kw ++ kw, logl := s.logl ++ logl, logr := s.logr ++ logr, lum := lum, ltot := lum.sum
                      ep := s.ep ++ ep, ospin := s.ospin ++ ospin }
    else addSse { kw := kw, logl := logl, logr := logr } s
  else if 0 < p.kw.length then do
    let kw ← maskIx mask p.kw
    return { s with kw := kw }
  else .ok s

/-- `np.logical_or(np.isin(id1, ids), np.isin(id2, ids))` (cluster.py:4105-4107). -/
def pairMask (ids id1 id2 : List ℤ) : Except Err (List Bool) :=
  if id1.length = id2.length then
    .ok (List.zipWith or (id1.map (fun i => decide (i ∈ ids))) (id2.map (fun i => decide (i ∈ ids))))
  else .error .valueError

/-- The call of `add_bse` in `sub_cluster` (cluster.py:4104-4148). -/
def evoSelBse (ids : List ℤ) (p s : EvoTab) : Except Err EvoTab :=
  if 0 < p.id2.length then do
    let b ← pairMask ids p.id1 p.id2
    let id1 ← maskIx b p.id1
    let id2 ← maskIx b p.id2
    let kw1 ← maskIx b p.kw1
    let kw2 ← maskIx b p.kw2
    let kcm ← maskIx b p.kcm
    let ecc ← maskIx b p.ecc
    let pb ← maskIx b p.pb
    let semi ← maskIx b p.semi
    let m1 ← maskIx b p.m1
    let m2 ← maskIx b p.m2
    let logl1 ← maskIx b p.logl1
    let logl2 ← maskIx b p.logl2
    let logr1 ← maskIx b p.logr1
    let logr2 ← maskIx b p.logr2
    let a : BseArgs :=
      { id1 := id1, id2 := id2, kw1 := kw1, kw2 := kw2, kcm := kcm, ecc := ecc, pb := pb, semi := semi, m1 := m1, m2 := m2
        logl1 := logl1, logl2 := logl2, logr1 := logr1, logr2 := logr2 }
    if p.ep1.length ≠ 0 ∧ p.ospin1.length ≠ 0 then do
      let ep1 ← maskIx b p.ep1
      let ep2 ← maskIx b p.ep2
      let ospin1 ← maskIx b p.ospin1
      let ospin2 ← maskIx b p.ospin2
      addBse { a with ep1 := some ep1, ep2 := some ep2, ospin1 := some ospin1, ospin2 := some ospin2 } s
    else addBse a s
  else .ok s

/-- What `sub_cluster` does with these columns (cluster.py:4077-4148): the stars of `mask`, whose ids are `ids`, of a cluster; `nb` is first that of
the cluster. -/
def subEvo (mask : List Bool) (ids : List ℤ) (p : EvoTab) : Except Err EvoTab := do
  let s ← evoSelSse mask p { newEvo with nb := p.nb }
  evoSelBse ids p s

/-- A call that adds evolution data. -/
inductive EvoCall
  | sse (a : SseArgs)
  | bse (a : BseArgs)

def EvoCall.exec : EvoCall → EvoTab → Except Err EvoTab
  | .sse a => addSse a
  | .bse a => addBse a

/-- Several calls. -/
def evoRun : List EvoCall → EvoTab → Except Err EvoTab
  | [], e => .ok e
  | a :: l, e => do
    let e ← a.exec e
    evoRun l e

end

end CT
