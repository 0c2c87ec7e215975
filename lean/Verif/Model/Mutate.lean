/- Sessions that also call the methods which change a cluster: `virialize`, `add_rotation`, `reset_nbody_scale`, and the centre finders that store
what they find. -/
import Verif.Model.Session
import Verif.Model.Rotation

namespace CT

noncomputable section

/-- One call on a cluster: a conversion or an analysis call (`Model/Session`), or a method that changes the cluster. -/
inductive XCall
  | call (a : SCall)
  | energies (specific full projected : Bool) (soft : ℝ)
  | virialize (q : ℝ) (projected : Bool) (soft : ℝ)
  | addRotation (qrot : ℝ) (draws : List ℝ)
  | resetNbodyScale (mass radii rvirial projected : Bool)
  | findCentreOfMass (reset : Bool)
  | findCentre (a : CentreArgs) (meth : DensityMethod) (fuel : ℕ) (mask : Option (List Bool)) (ids : List ℤ) (reset : Bool)

/-- The object after the call.  The methods are cluster.py:2474-2568 (energies), 2073-2115 (virialize), 2051-2070 (add_rotation),
2011-2049 (reset_nbody_scale), 2264-2285 (find_centre_of_mass), 2119-2189 (find_centre); see their models. -/
def XCall.exec (g : Galpy) : XCall → ECluster → Except Err ECluster
  | .call a, e => (a.exec g e.c).map (fun c => { e with c := c })
  | .energies s f pr soft, e => energiesMethod g s f pr soft e
  | .virialize q pr soft, e => CT.virialize g q pr soft e
  | .addRotation qrot draws, e => (addRotationMethod g qrot draws e.c).map (fun c => { e with c := c })
  | .resetNbodyScale m r v pr, e => (CT.resetNbodyScale g m r v pr e.c).map (fun c => { e with c := c })
  | .findCentreOfMass reset, e => .ok { e with c := (findCentreOfMassMethod reset e.c).2 }
  | .findCentre a meth fuel mask ids reset, e =>
    (findCentreMethod g a meth fuel mask ids reset e.c).map (fun x => { e with c := x.2 })

/-- A session; the first exception stops it. -/
def msession (g : Galpy) : List XCall → ECluster → Except Err ECluster
  | [], e => .ok e
  | a :: l, e => (a.exec g e).bind (msession g l)

end

end CT
