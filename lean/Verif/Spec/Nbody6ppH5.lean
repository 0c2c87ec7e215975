/- Specification vocabulary for HDF5 output of NBODY6++. -/
import Verif.Model.Nbody6ppH5
import Verif.Spec.Nbody6pp
import Verif.Spec.Physical
import Verif.Spec.Paths

namespace CT

noncomputable section

/-- The binaries of a group (none if it has no such part). -/
def H5Group.bin (q : H5Group) : List H5Pair := q.pairs.getD []

/-- What a cluster made from a group has to show for its stars: binaries first, each as one star with the total mass at its centre of
mass, then the single stars; pc, km/s, solar masses. -/
def H5Group.rows (q : H5Group) : List Ph := q.bin.map H5Pair.com ++ q.stars.map H5Star.row
def H5Group.masses (q : H5Group) : List ℝ := q.bin.map (fun b => b.m1 + b.m2) ++ q.stars.map H5Star.m
def H5Group.ids (q : H5Group) : List ℤ := q.bin.map H5Pair.id1 ++ q.stars.map H5Star.id
def H5Group.types (q : H5Group) : List ℝ := q.bin.map H5Pair.kw1 ++ q.stars.map H5Star.kw
def H5Group.lums (q : H5Group) : List ℝ := q.bin.map (fun b => b.lum1 + b.lum2) ++ q.stars.map H5Star.lum
def H5Group.pots (q : H5Group) : List ℝ := q.bin.map H5Pair.pot ++ q.stars.map H5Star.pot

/-- A group that describes a cluster: there are stars, masses, luminosities and semi-major axes are positive. -/
structure H5Group.Ok (q : H5Group) : Prop where
  ne : q.rows ≠ []
  m : ∀ s ∈ q.stars, 0 < s.m
  lum : ∀ s ∈ q.stars, 0 < s.lum
  m1 : ∀ b ∈ q.bin, 0 < b.m1
  m2 : ∀ b ∈ q.bin, 0 < b.m2
  lum1 : ∀ b ∈ q.bin, 0 < b.lum1
  lum2 : ∀ b ∈ q.bin, 0 < b.lum2
  a : ∀ b ∈ q.bin, 0 < b.a

/-- What a cluster has to be that was read from group `i` of file number `n`: the group is `q`, the header in `conf.3_n` is that of
record `r`, and `pos` is the position in the galaxy, if there is an orbit. -/
structure H5At (g : Galpy) (r : PPRec) (q : H5Group) (n i : ℕ) (pos : Option Ph) (c : H5Run) : Prop where
  nsnap : c.nsnap = n
  ngroup : c.ngroup = i
  units : c.tab.base.units = some .nbody
  origin : c.tab.base.origin = some .cluster
  /-- N-body scales: pc, solar masses, km/s, Myr -/
  rbar : c.tab.base.rbar = r.head 2
  zmbar : c.tab.base.zmbar = r.head 3
  vbar : c.tab.base.vbar = r.head 11
  tbar : c.tab.base.tbar = r.head 10
  /-- centre of the cluster, in N-body units -/
  centre : c.tab.base.c = ⟨r.head 6, r.head 7, r.head 8, 0, 0, 0⟩
  /-- time of the group, which the file gives in N-body units -/
  time : c.tab.base.tphys = q.time
  gc : c.tab.base.gc = pos.getD ⟨0, 0, 0, 0, 0, 0⟩
  /-- the stars in pc, km/s and solar masses -/
  stars : (phys g c.tab.base).map Phys.stars = some q.rows
  masses : (phys g c.tab.base).map Phys.mass = some q.masses
  ids : c.tab.id = q.ids
  ntot : c.tab.ntot = q.rows.length
  nb : q.pairs.isSome → c.tab.nb = q.bin.length
  /-- semi-major axes, periods and component masses in au, days and solar masses -/
  binaries : (toAudays c.tab.base).bin = ⟨q.bin.map H5Pair.a, q.bin.map H5Pair.p, q.bin.map H5Pair.m1, q.bin.map H5Pair.m2⟩
  id1 : c.ev.id1 = q.bin.map H5Pair.id1
  id2 : c.tab.id2 = q.bin.map H5Pair.id2
  /-- positions and velocities of the components of each binary: they differ by the relative ones of the file, and their centre of
  mass is at rest at the origin -/
  comp : c.tab.b1.length = q.bin.length ∧ c.tab.b2.length = q.bin.length ∧ ∀ (k : ℕ) (h : k < q.bin.length),
    phAdd c.tab.b2[k]! q.bin[k].rel = c.tab.b1[k]! ∧
      phAdd (Scale.ph ⟨q.bin[k].m1, q.bin[k].m1, 1, 1⟩ c.tab.b1[k]!) (Scale.ph ⟨q.bin[k].m2, q.bin[k].m2, 1, 1⟩ c.tab.b2[k]!) = ⟨0, 0, 0, 0, 0, 0⟩
  types : c.ev.kw = q.types
  types1 : c.ev.kw1 = q.bin.map H5Pair.kw1
  types2 : c.ev.kw2 = q.bin.map H5Pair.kw2
  typesc : c.ev.kcm = q.bin.map H5Pair.kwc
  ecc : c.ev.ecc = q.bin.map H5Pair.ecc
  lum : c.ev.lum = q.lums
  ltot : c.ev.ltot = q.lums.sum
  pot : c.ev.pot = q.pots
  eb : ∀ (k : ℕ) (h : k < q.bin.length), c.ev.eb[k]! = q.bin[k].m1 * q.bin[k].m2 / (2 * q.bin[k].a)

/-- Galpy's scales are positive. -/
structure Galpy.Pos (g : Galpy) : Prop where
  ro : 0 < g.ro
  vo : 0 < g.vo
  time : 0 < g.timeGyr
  mass : 0 < g.massMsol
  vel : 0 < g.velKpcGyr

/-- The header has stars and at least the eighteen entries that are read. -/
structure PPRec.Header (r : PPRec) : Prop where
  ok : r.Ok
  ne : r.stars ≠ []
  head : 18 ≤ r.alist.length

/-- A run: files `snap.40_n.h5part` and `conf.3_n` for `n = n0, n0 + d, n0 + 2d, …, n0 + jd`; each has at least one group, all groups
describe a cluster, the header gives positive scales and does not give zero for the entries by which the code recognises that scales are known
(core membership; number of stars). -/
structure H5Series (fs : H5Files) (w s : String) (n0 d : ℕ) (f : ℕ → List H5Group) (r : ℕ → PPRec) (j : ℕ) : Prop where
  snap40 : ∀ i ≤ j, fs.snap40 (runFile w s ("snap.40_" ++ Nat.repr (n0 + i * d) ++ ".h5part")) = some (f i)
  conf3 : ∀ i ≤ j, ∃ more, fs.conf3 (runFile w s ("conf.3_" ++ Nat.repr (n0 + i * d))) = some ((r i).file ++ more)
  ne : ∀ i ≤ j, f i ≠ []
  groups : ∀ i ≤ j, ∀ q ∈ f i, q.Ok
  header : ∀ i ≤ j, (r i).Header
  rbar : ∀ i ≤ j, 0 < (r i).head 2
  zmbar : ∀ i ≤ j, 0 < (r i).head 3
  tbar : ∀ i ≤ j, 0 < (r i).head 10
  vbar : ∀ i ≤ j, 0 < (r i).head 11
  nc : ∀ i ≤ j, (r i).head 13 ≠ 0
  np : ∀ i ≤ j, ∀ q, (f i).head? = some q → (q.nSingle : ℝ) + (r i).head 1 ≠ 0

/-- Number of groups in the files before number `j`. -/
def groupsBefore (f : ℕ → List H5Group) (j : ℕ) : ℕ := ((List.range j).map (fun i => (f i).length)).sum

end

end CT
