/- The centre of density as a function and as a method. -/
import Verif.Model.Centre

namespace CT

noncomputable section

/-- Lines 252-257 of functions.py. -/
def densityCentre (a : CentreArgs) (meth : DensityMethod) (fuel : ℕ) (mask : List Bool) (l : List MStar) : Except Err (Option Ph) :=
  match meth with
  | .harfst => harfst a.start a.nsphere a.rmin a.rmax a.nmax fuel (maskSel mask l)
  | .casertano knn => .ok (some (casertano knn l))
  | .other => .error .nameError

/-- `find_centre_of_density` (functions.py:189-264); an unknown method leaves the results unassigned.  `density` and `nsigma` of `a` are not
parameters of this function and are not read. -/
def findCentreOfDensity (g : Galpy) (a : CentreArgs) (meth : DensityMethod) (fuel : ℕ) (mask : Option (List Bool)) (c : Cluster) :
    Except Err (Option Ph × Cluster) := do
  let c1 ← if c.units = some .amuse then toPckms g true c else .ok c
  let r ← densityCentre a meth fuel (mask.getD (List.replicate c.st.length true)) (List.zip c1.m c1.st)
  let c2 ← returnCluster g (saveCluster c) false none c1
  return (r, c2)

/-- A call of the function, as it is written: the arguments by keyword, those not named having their defaults. -/
structure DensityCall where
  args : CentreArgs
  meth : DensityMethod := .harfst
  mask : Option (List Bool)

/-- The call that the method `StarCluster.find_centre_of_density` (cluster.py:2191-2261) makes of the function, for the arguments it was given: `method`
and `nneighbour` are not among the keywords (cluster.py:2251-2253). -/
def DensityCall.inMethod (k : DensityCall) : DensityCall := { args := k.args, mask := k.mask }

/-- The function for such a call. -/
def DensityCall.run (g : Galpy) (fuel : ℕ) (k : DensityCall) (c : Cluster) : Except Err (Option Ph × Cluster) :=
  findCentreOfDensity g k.args k.meth fuel k.mask c

/-- The method `StarCluster.find_centre_of_density` (cluster.py:2191-2261). -/
def findCentreOfDensityMethod (g : Galpy) (fuel : ℕ) (reset : Bool) (k : DensityCall) (c : Cluster) : Except Err (Option Ph × Cluster) := do
  let r ← k.inMethod.run g fuel c
  return (r.1, r.1.elim r.2 (fun p => setCentre reset p r.2))

end

end CT
