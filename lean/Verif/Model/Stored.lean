/- The results a StarCluster stores when its analysis methods are called. -/
import Verif.Model.Session

namespace CT

noncomputable section

/-- A StarCluster with two of the attributes in which its methods leave their results (cluster.py:373, 382). -/
structure Sheet where
  c : Cluster
  /-- `self.trh` -/
  trh : Option ℝ
  /-- `self.rv` -/
  rv : Option ℝ

/-- Method calls on a StarCluster. -/
inductive MCall
  | convert (op : Op)
  | query (q : Query)
  | halfMassRelaxationTime (coulomb : ℝ) (projected : Option Bool)
  | virialRadius (H overdens : ℝ)

/-- The conversions (operations.py) and the other analysis functions do not touch the attributes; `half_mass_relaxation_time`
(cluster.py:2407-2437) and `virial_radius(method='critical_density')` (cluster.py:2635-2681, `projected=False`) call the function of the same
name and store the result, `projected=None` being replaced by `self.projected`. -/
def MCall.exec (g : Galpy) : MCall → Sheet → Except Err Sheet
  | .convert op, x => (op.exec g x.c).map (fun c => { x with c := c })
  | .query q, x => (q.exec g x.c).map (fun c => { x with c := c })
  | .halfMassRelaxationTime γ pr, x =>
    (CT.halfMassRelaxationTime g γ (pr.getD x.c.projected) x.c).map (fun r => { x with c := r.2, trh := some r.1 })
  | .virialRadius H od, x => (virialCrit g H od x.c).map (fun r => { x with c := r.2, rv := some r.1 })

/-- A sequence of method calls. -/
def methods (g : Galpy) : List MCall → Sheet → Except Err Sheet
  | [], x => .ok x
  | a :: l, x => (a.exec g x).bind (methods g l)

end

end CT
