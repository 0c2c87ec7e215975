/- Vocabulary for sessions that leave the linear units for the sky and come back. -/
import Verif.Spec.SkyAnalysis
import Verif.Spec.Session
import Verif.Model.SkyTail

namespace CT

noncomputable section

/-- A question asked of a cluster: an analysis function, one of the functions with `skypath=True`, or the user's own `save_cluster`, any calls of
conversions, `return_cluster`. -/
inductive SkyQuery
  | plain (q : Query)
  | matchSky (flow : ℝ → Ph → Ph) (a : MatchArgs)
  | tailSky (flow : ℝ → Ph → Ph) (sky : Ph → Ph) (a : TailArgs)
  | tailMatchSky (flow : ℝ → Ph → Ph) (sky : Ph → Ph) (a : TailArgs) (path : Option (List PathPt))
  | bracket (ks : List Call) (sort : Bool) (cm : Option CentreMethod)

/-- The cluster after the question. -/
def SkyQuery.exec (g : Galpy) : SkyQuery → Cluster → Except Err Cluster
  | .plain q, c => q.exec g c
  | .matchSky flow a, c => (orbitalPathMatchSky g flow a c).map Prod.snd
  | .tailSky flow sky a, c => (tailPathSky g flow sky a c).map Prod.snd
  | .tailMatchSky flow sky a path, c => (tailPathMatchSky g flow sky a path c).map Prod.snd
  | .bracket ks s cm, c => (calls g ks c).bind (returnCluster g (saveCluster c) s cm)

/-- Left out: the core radii, which may look for a centre and store it; and `find_centre` of an empty selection, which returns early. -/
def SkyQuery.Observing : SkyQuery → Prop
  | .plain (.coreRelaxationTime ..) => False
  | .plain (.rcore ..) => False
  | .plain (.rcoreDensity ..) => False
  | .plain (.findCentre _ _ _ mask _) => ∀ m, mask = some m → true ∈ m
  | _ => True

/-- One call of a session. -/
inductive SkyCall
  | convert (k : Call)
  | ask (q : SkyQuery)

def SkyCall.exec (g : Galpy) : SkyCall → Cluster → Except Err Cluster
  | .convert k, c => k.exec g c
  | .ask q, c => q.exec g c

/-- A session; the first exception stops it. -/
def skySession (g : Galpy) : List SkyCall → Cluster → Except Err Cluster
  | [], c => .ok c
  | a :: l, c => (a.exec g c).bind (skySession g l)

/-- The conversions of a session, in order. -/
def skyConversions : List SkyCall → List Call
  | [] => []
  | .convert k :: l => k :: skyConversions l
  | .ask _ :: l => skyConversions l

/-- A conversion with analysis on. -/
def Call.analysed : Call → Prop
  | .op o => o.analysed
  | .toRadec _ _ a => a = true
  | .toSky _ _ => True

def SkyCall.Admissible : SkyCall → Prop
  | .convert k => k.analysed
  | .ask q => q.Observing

/-- `c'` shows the same cluster as `c` in the same frame: on the sky the same sky coordinates; in linear units from the Galactic centre or from the
cluster's position the same rows. -/
structure SameView (c c' : Cluster) : Prop where
  units : c'.units = c.units
  origin : c'.origin = c.origin
  m : c'.m = c.m
  gc : c'.gc = c.gc
  tphys : c'.tphys = c.tphys
  nbody : (c'.zmbar, c'.rbar, c'.vbar, c'.tbar) = (c.zmbar, c.rbar, c.vbar, c.tbar)
  sky : c.units = some .radec → c'.sky = c.sky
  st : c.origin = some .sky ∨ (c.units ≠ some .radec ∧ c.origin ≠ some .centre) → c'.st = c.st

/-- Units and origin once moved to an origin.  Leaving the sky leads to kpc and km/s; going to the sky from the Galactic centre takes the origin along. -/
def labelsAt (x : Option Units × Option Origin) : OriginTarget → Option Units × Option Origin
  | .centre => (x.1, some .centre)
  | .cluster => (x.1, some .cluster)
  | .galaxy => (if x.1 = some .radec then some .kpckms else x.1, some .galaxy)
  | .sky => (some .radec, some .sky)
  | .radec => if x.1 = some .radec then x else (some .radec, if x.2 = some .galaxy then some .sky else x.2)
  | .other => x

/-- Units and origin once in other units.  Leaving the sky leads to the Galactic centre. -/
def labelsIn (x : Option Units × Option Origin) : Units → Option Units × Option Origin
  | .radec => labelsAt x .radec
  | .other => x
  | t => (some t, if x.1 = some .radec then some .galaxy else x.2)

/-- Units and origin after a conversion. -/
def Call.labels (x : Option Units × Option Origin) : Call → Option Units × Option Origin
  | .toRadec .. => labelsAt x .radec
  | .toSky .. => labelsAt x .sky
  | .op (.toPckms _) => labelsIn x .pckms
  | .op (.toKpckms _) => labelsIn x .kpckms
  | .op (.toPcmyr _) => labelsIn x .pcmyr
  | .op (.toKpcgyr _) => labelsIn x .kpcgyr
  | .op .toNbody => labelsIn x .nbody
  | .op .toGalpy => labelsIn x .galpy
  | .op .toWDunits => labelsIn x .WDunits
  | .op (.toAmuse _) => labelsIn x .amuse
  | .op (.toUnits t) => labelsIn x t
  | .op (.toCentre ..) => labelsAt x .centre
  | .op (.toCluster ..) => labelsAt x .cluster
  | .op (.toGalaxy _) => labelsAt x .galaxy
  | .op (.toOrigin t _ _) => labelsAt x t.target
  | _ => x

end

end CT
