/- Histories of conversion calls on a cluster. -/
import Verif.Model.Ops

namespace CT

noncomputable section

/-- One conversion call by a user (or by an analysis function). -/
inductive Op
  | toPckms (analyze : Bool)
  | toKpckms (analyze : Bool)
  | toPcmyr (analyze : Bool)
  | toKpcgyr (analyze : Bool)
  | toNbody
  | toGalpy
  | toWDunits
  | toAmuse (analyze : Bool)
  | toUnits (t : Units)
  | toCentre (sort : Bool) (cm : Option CentreMethod)
  | toCluster (sort : Bool) (cm : Option CentreMethod)
  | toGalaxy (sort : Bool)
  | toOrigin (t : Origin) (sort : Bool) (cm : Option CentreMethod)
  | analyze (sort projected : Bool)
  | toAudays
  | toSudays

/-- The call, dispatched as `StarCluster` does (cluster.py:1556-1960). -/
def Op.exec (g : Galpy) : Op → Cluster → Except Err Cluster
  | .toPckms a, c => CT.toPckms g a c
  | .toKpckms a, c => CT.toKpckms g a c
  | .toPcmyr a, c => CT.toPcmyr g a c
  | .toKpcgyr a, c => CT.toKpcgyr g a c
  | .toNbody, c => CT.toNbody g c
  | .toGalpy, c => CT.toGalpy g c
  | .toWDunits, c => CT.toWD g c
  | .toAmuse a, c => CT.toAmuse g a c
  | .toUnits t, c => CT.toUnits g t c
  | .toCentre s cm, c => CT.toCentre s cm c
  | .toCluster s cm, c => CT.toCluster s cm c
  | .toGalaxy s, c => CT.toGalaxy g s c
  | .toOrigin t s cm, c => CT.toOrigin g t.target s cm c
  | .analyze s p, c => CT.analyze s c p
  | .toAudays, c => .ok (CT.toAudays c)
  | .toSudays, c => .ok (CT.toSudays c)

/-- Run a history of calls; the first exception stops it. -/
def run (g : Galpy) : List Op → Cluster → Except Err Cluster
  | [], c => .ok c
  | op :: ops, c => (op.exec g c).bind (run g ops)

/-- Unit system requested by a call, if any. -/
def Op.unitTarget : Op → Option Units
  | .toPckms _ => some .pckms
  | .toKpckms _ => some .kpckms
  | .toPcmyr _ => some .pcmyr
  | .toKpcgyr _ => some .kpcgyr
  | .toNbody => some .nbody
  | .toGalpy => some .galpy
  | .toWDunits => some .WDunits
  | .toAmuse _ => some .amuse
  | .toUnits t => some t
  | _ => none

/-- Origin requested by a call, if any. -/
def Op.originTarget : Op → Option Origin
  | .toCentre _ _ => some .centre
  | .toCluster _ _ => some .cluster
  | .toGalaxy _ => some .galaxy
  | .toOrigin t _ _ => some t
  | _ => none

/-- The last unit system requested in a history. -/
def lastUnits : List Op → Option Units
  | [] => none
  | op :: ops => (lastUnits ops).or op.unitTarget

/-- The last origin requested in a history. -/
def lastOrigin : List Op → Option Origin
  | [] => none
  | op :: ops => (lastOrigin ops).or op.originTarget

end

end CT
