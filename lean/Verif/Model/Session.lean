/- Sessions: a user's sequence of conversions and analysis calls on one cluster. -/
import Verif.Model.History
import Verif.Model.Coords
import Verif.Model.DensityRadius
import Verif.Model.Lagrange
import Verif.Model.Relax
import Verif.Model.Neighbours
import Verif.Model.VirialCrit
import Verif.Model.Grav
import Verif.Model.Energy
import Verif.Model.MassFunction
import Verif.Model.Eta
import Verif.Model.SlopeProf
import Verif.Model.Profiles
import Verif.Model.Vcirc
import Verif.Model.Tidal
import Verif.Model.Orbits
import Verif.Model.Interp
import Verif.Model.Tails
import Verif.Model.Centre
import Verif.Model.Output

namespace CT

noncomputable section

/-- One call of an analysis function, with its arguments.  `e` holds the columns of the stars the model of a cluster lacks (stellar types,
energies, populations); `indx` and `mem` are the mask and the boolean arrays of the caller.  Functions of galpy, scipy and numpy the
calls depend on are arguments. -/
inductive Query
  | sphereCoords
  | cylCoords
  | rlagrange (n : ℕ) (projected : Bool)
  | rlagrangeFrac (f : ℝ) (projected : Bool)
  | relaxationTime (rad : Option ℝ) (coulomb : ℝ) (projected : Bool)
  | halfMassRelaxationTime (coulomb : ℝ) (projected : Bool)
  | coreRelaxationTime (kd : KDTree) (coulomb : ℝ) (projected : Bool)
  | rcore (kd : KDTree) (k : ℕ) (projected : Bool)
  | rcoreDensity (find : Cluster → Except Err Cluster) (e : PStars) (mfrac : ℝ) (projected : Bool)
  | virialInverse (full projected : Bool)
  | virialCrit (H overdens : ℝ)
  | energies (specific full projected : Bool) (soft : ℝ)
  | energiesIds (specific projected : Bool) (mask : List Bool) (soft : ℝ)
  | massFunction (a : MassArgs) (e : PStars) (indx : Option ℕ) (mem : Mem)
  | etaFunction (a : EtaArgs) (meq : Option CurveFit) (e : PStars) (indx : Option ℕ) (mem : Mem)
  | meqFunction (a : EtaArgs) (q : CurveFit) (e : PStars) (indx : Option ℕ) (mem : Mem)
  | ckin (a : EtaArgs) (q : CurveFit) (e : PStars) (indx : Option ℕ) (mem : Mem)
  | mProf (a : ProfArgs) (cumulative : Bool) (e : PStars) (indx : Option ℕ) (mem : Mem)
  | rhoProf (a : ProfArgs) (e : PStars) (indx : Option ℕ) (mem : Mem)
  | velProf (k : VKind) (a : ProfArgs) (coord : Option VCoord) (e : PStars) (indx : Option ℕ) (mem : Mem)
  | betaProf (a : ProfArgs) (e : PStars) (indx : Option ℕ) (mem : Mem)
  | vcircProf (a : ProfArgs) (all : Bool) (e : PStars) (indx : Option ℕ) (mem : Mem)
  | alphaProf (a : AlphaArgs) (e : PStars) (indx : Option ℕ) (mem : Mem)
  | etaProf (a : EtaProfArgs) (q : Option CurveFit) (e : PStars) (indx : Option ℕ) (mem : Mem)
  | rtidal (tide : ℝ → ℝ → ℝ → ℝ) (a : TideArgs) (indx : Option (List Bool))
  | rlimiting (dens : ℝ → ℝ → ℝ) (a : TideArgs) (nrad : ℕ) (projected : Bool) (e : PStars)
  | initializeOrbit (fromCentre : Bool)
  | initializeOrbits
  | interpolateOrbit (flow : ℝ → Ph → Ph) (a : PathArgs)
  | interpolateOrbits (flow : ℝ → Ph → Ph) (a : PathArgs)
  | orbitalPath (flow : ℝ → Ph → Ph) (a : PathArgs)
  | orbitalPathSky (flow : ℝ → Ph → Ph) (a : PathArgs)
  | orbitalPathMatch (flow : ℝ → Ph → Ph) (a : MatchArgs)
  | toTail (rotTo : ℝ × ℝ × ℝ → Mat3)
  | tailPath (flow : ℝ → Ph → Ph) (a : TailArgs)
  | tailPathMatch (flow : ℝ → Ph → Ph) (a : TailArgs) (path : Option (List PathPt))
  | findCentre (a : CentreArgs) (meth : DensityMethod) (fuel : ℕ) (mask : Option (List Bool)) (ids : List ℤ)
  | gyrout (vk : ℝ)

/-- The cluster after the call (the functions of `analysis/`, `tidaltail/` and `util/` cited at their models). -/
def Query.exec (g : Galpy) : Query → Cluster → Except Err Cluster
  | .sphereCoords, c => (CT.sphereCoords g c).map Prod.snd
  | .cylCoords, c => (CT.cylCoords g c).map Prod.snd
  | .rlagrange n pr, c => (CT.rlagrange g n pr c).map Prod.snd
  | .rlagrangeFrac f pr, c => (CT.rlagrangeFrac g f pr c).map Prod.snd
  | .relaxationTime rad γ pr, c => (CT.relaxationTime g rad γ pr c).map Prod.snd
  | .halfMassRelaxationTime γ pr, c => (CT.halfMassRelaxationTime g γ pr c).map Prod.snd
  | .coreRelaxationTime kd γ pr, c => (CT.coreRelaxationTime g kd γ pr c).map Prod.snd
  | .rcore kd k pr, c => (CT.rcore g kd k pr c).map Prod.snd
  | .rcoreDensity find e q pr, c => (CT.rcoreDensity g find e q pr c).map Prod.snd
  | .virialInverse f pr, c => (CT.virialInverse g f pr c).map Prod.snd
  | .virialCrit H d, c => (CT.virialCrit g H d c).map Prod.snd
  | .energies s f pr soft, c => (CT.energies g s f pr soft c).map (fun x => x.2.2)
  | .energiesIds s pr mask soft, c => (CT.energiesIds g s pr mask soft c).map (fun x => x.2.2)
  | .massFunction a e indx mem, c => (CT.massFunction g a e indx mem c).map (fun x => x.2.1)
  | .etaFunction a q e indx mem, c => (CT.etaFunction g a q e indx mem c).map (fun x => x.2.1)
  | .meqFunction a q e indx mem, c => (CT.meqFunction g a q e indx mem c).map (fun x => x.2.1)
  | .ckin a q e indx mem, c => (CT.ckin g a q e indx mem c).map (fun x => x.2.1)
  | .mProf a cum e indx mem, c => (CT.mProf g a cum e indx mem c).map (fun x => x.2.cluster)
  | .rhoProf a e indx mem, c => (CT.rhoProf g a e indx mem c).map (fun x => x.2.cluster)
  | .velProf k a co e indx mem, c => (CT.velProf g k a co e indx mem c).map (fun x => x.2.cluster)
  | .betaProf a e indx mem, c => (CT.betaProf g a e indx mem c).map (fun x => x.2.cluster)
  | .vcircProf a all e indx mem, c => (CT.vcircProf g a all e indx mem c).map (fun x => x.2.cluster)
  | .alphaProf a e indx mem, c => (CT.alphaProf g a e indx mem c).map (fun x => x.2.cluster)
  | .etaProf a q e indx mem, c => (CT.etaProf g a q e indx mem c).map (fun x => x.2.cluster)
  | .rtidal tide a indx, c => (CT.rtidal g tide a indx c).map (fun x => x.2.2)
  | .rlimiting dens a n pr e, c => (CT.rlimiting g dens a n pr e c).map Prod.snd
  | .initializeOrbit fc, c => (CT.initializeOrbit g fc c).map Prod.snd
  | .initializeOrbits, c => (CT.initializeOrbits g c).map Prod.snd
  | .interpolateOrbit flow a, c => (CT.interpolateOrbit g flow a c).map Prod.snd
  | .interpolateOrbits flow a, c => (CT.interpolateOrbits g flow a c).map Prod.snd
  | .orbitalPath flow a, c => (CT.orbitalPath g flow a c).map Prod.snd
  | .orbitalPathSky flow a, c => (CT.orbitalPathSky g flow a c).map Prod.snd
  | .orbitalPathMatch flow a, c => (CT.orbitalPathMatch g flow a c).map Prod.snd
  | .toTail rot, c => (CT.toTail g rot c).map Prod.snd
  | .tailPath flow a, c => (CT.tailPath g flow a c).map Prod.snd
  | .tailPathMatch flow a path, c => (CT.tailPathMatch g flow a path c).map Prod.snd
  | .findCentre a meth fuel mask ids, c => (CT.findCentre g a meth fuel mask ids c).map Prod.snd
  | .gyrout vk, c => (CT.gyrout g vk none none c).map (fun x => x.cluster)

/-- One call of a session. -/
inductive SCall
  | convert (op : Op)
  | query (q : Query)

/-- The cluster after the call. -/
def SCall.exec (g : Galpy) : SCall → Cluster → Except Err Cluster
  | .convert op, c => op.exec g c
  | .query q, c => q.exec g c

/-- A session; the first exception stops it. -/
def session (g : Galpy) : List SCall → Cluster → Except Err Cluster
  | [], c => .ok c
  | a :: l, c => (a.exec g c).bind (session g l)

end

end CT
