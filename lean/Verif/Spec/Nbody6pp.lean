/- Specification vocabulary for NBODY6++ files. -/
import Verif.Model.Nbody6pp
import Verif.Spec.Nbody6

namespace CT

noncomputable section

/-- One star of a snapshot of NBODY6++: as for NBODY6, with density, neighbour number and potential. -/
structure PPStar where
  star : StarRec
  rho : Single
  xn : Single
  pot : Single

/-- A snapshot as written by NBODY6++. -/
structure PPRec where
  model : ℤ
  nrun : ℤ
  alist : List Single
  stars : List PPStar

def PPStar.Ok (s : PPStar) : Prop := s.star.Ok ∧ s.rho.Ok ∧ s.xn.Ok ∧ s.pot.Ok

structure PPRec.Ok (r : PPRec) : Prop where
  model : Int32 r.model
  nrun : Int32 r.nrun
  nk : r.alist.length < 2 ^ 31
  n : r.stars.length < 2 ^ 31
  alist : ∀ s ∈ r.alist, s.Ok
  stars : ∀ s ∈ r.stars, s.Ok

/-- The data block: header array, masses, densities, neighbour numbers, positions, velocities, potentials (all of them
single-precision numbers), ids. -/
def PPRec.data (r : PPRec) : Bytes :=
  r.alist.flatMap Single.bytes ++ (r.stars.flatMap (fun s => s.star.m.bytes) ++ (r.stars.flatMap (fun s => s.rho.bytes) ++
    (r.stars.flatMap (fun s => s.xn.bytes) ++ (r.stars.flatMap (fun s => s.star.x.bytes ++ s.star.y.bytes ++ s.star.z.bytes) ++
    (r.stars.flatMap (fun s => s.star.vx.bytes ++ s.star.vy.bytes ++ s.star.vz.bytes) ++
    (r.stars.flatMap (fun s => s.pot.bytes) ++ r.stars.flatMap (fun s => intBytes s.star.id)))))))

/-- The file. -/
def PPRec.file (r : PPRec) : Bytes :=
  fortranBlock (intBytes r.stars.length ++ intBytes r.model ++ intBytes r.nrun ++ intBytes r.alist.length) ++
    (if r.stars = [] then [] else fortranBlock r.data)

/-- Entry `k` of the header array. -/
def PPRec.head (r : PPRec) (k : ℕ) : ℝ := (r.alist.map Single.value)[k]!

/-- The snapshot without densities, neighbour numbers and potentials. -/
def PPRec.plain (r : PPRec) : Rec := ⟨r.model, r.nrun, r.alist, r.stars.map PPStar.star⟩

/-- Position and velocity of a star. -/
def StarRec.row (s : StarRec) : Ph := ⟨s.x.value, s.y.value, s.z.value, s.vx.value, s.vy.value, s.vz.value⟩

/-- Row, mass and id of star `i` of a snapshot. -/
def PPRec.row (r : PPRec) (i : ℕ) : Ph := (r.stars.map (fun s => s.star.row))[i]!
def PPRec.mass (r : PPRec) (i : ℕ) : ℝ := (r.stars.map (fun s => s.star.m.value))[i]!
def PPRec.id (r : PPRec) (i : ℕ) : ℤ := (r.stars.map (fun s => s.star.id))[i]!

end

end CT
