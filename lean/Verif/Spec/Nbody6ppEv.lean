/- Specification vocabulary for the stellar evolution files of NBODY6++. -/
import Verif.Model.Nbody6ppEv
import Verif.Spec.Nbody6pp

namespace CT

noncomputable section

/-- A line of bev.82: addresses (1-based) and ids of the components, their stellar types and that of the binary, distance from the
centre, eccentricity, logarithms of period (days) and semi-major axis (solar radii), masses (solar), logarithms of luminosities and
radii (solar), temperatures. -/
structure PairLine where
  time : ℝ
  addr1 : ℕ
  addr2 : ℕ
  id1 : ℤ
  id2 : ℤ
  kw1 : ℤ
  kw2 : ℤ
  kcm : ℤ
  ri : ℝ
  ecc : ℝ
  logP : ℝ
  logA : ℝ
  m1 : ℝ
  m2 : ℝ
  logL1 : ℝ
  logL2 : ℝ
  logR1 : ℝ
  logR2 : ℝ
  te1 : ℝ
  te2 : ℝ

def PairLine.nums (p : PairLine) : List ℝ :=
  [p.time, p.addr1, p.addr2, p.id1, p.id2, p.kw1, p.kw2, p.kcm, p.ri, p.ecc, p.logP, p.logA, p.m1, p.m2, p.logL1, p.logL2, p.logR1,
    p.logR2, p.te1, p.te2]

/-- A line of sev.83: address (1-based, in the snapshot), id, stellar type, distance, mass, logarithms of luminosity and radius,
temperature. -/
structure SingleLine where
  time : ℝ
  addr : ℕ
  id : ℤ
  kw : ℤ
  ri : ℝ
  m : ℝ
  logL : ℝ
  logR : ℝ
  te : ℝ

def SingleLine.nums (s : SingleLine) : List ℝ := [s.time, s.addr, s.id, s.kw, s.ri, s.m, s.logL, s.logR, s.te]

/-- The two files: the header starts with the number of lines. -/
def bevFile (ps : List PairLine) : EvFile := ⟨ps.length, ps.map (fun p => .row p.nums)⟩
def sevFile (ss : List SingleLine) : EvFile := ⟨ss.length, ss.map (fun s => .row s.nums)⟩

/-- The files describe snapshot `r` with `q` binaries: a line for each binary; lines in any order for single stars (not
necessarily all of them, but at least two), each with the address and id of its star. -/
structure EvOk (r : PPRec) (q : ℕ) (ps : List PairLine) (ss : List SingleLine) : Prop where
  pairs : ps.length = q
  two : 2 ≤ ss.length
  addr : ∀ s ∈ ss, 2 * q < s.addr ∧ s.addr ≤ r.stars.length
  nodup : (ss.map SingleLine.addr).Nodup
  id : ∀ s ∈ ss, r.id (s.addr - 1) = s.id

end

end CT
