/- Specification vocabulary for sessions with changing calls. -/
import Verif.Model.Mutate
import Verif.Spec.Session

namespace CT

noncomputable section

/-- Where a star is. -/
def place (p : Ph) : ℝ × ℝ × ℝ := (p.x, p.y, p.z)

/-- Galactocentric places of all stars. -/
def World.places (w : World) : List (Option (ℝ × ℝ × ℝ)) := w.stars.map (Option.map place)

/-- The same stars at the same time, with the same masses and at the same places in the galaxy. -/
structure Unmoved (w w' : World) : Prop where
  time : w'.time = w.time
  mass : w'.mass = w.mass
  places : w'.places = w.places

/-- Calls that are not meant to touch velocities. -/
def XCall.keepsVelocities : XCall → Prop
  | .virialize .. => False
  | .addRotation .. => False
  | _ => True

/-- Calls that are not meant to move the centre or the orbit position. -/
def XCall.keepsCentre : XCall → Prop
  | .findCentreOfMass .. => False
  | .findCentre .. => False
  | _ => True

/-- A stored radial order belongs to the frame the cluster is in. -/
def OrderHere (c : Cluster) : Prop := ∀ o, c.rorder = some o → c.rorderOrigin = c.origin

/-- The calls considered, at the moment they are made.  Rotation: not for a cluster given from the galactic centre (`C73`), one random number for
each star.  N-body scales: not for a cluster in N-body units (`C46`), and mass and radius measured must be positive.  `find_centre_of_mass` when
the stored radial order is that of the current frame (`C153`).  `find_centre` with at least one star selected. -/
def XCall.Allowed (g : Galpy) (e : ECluster) : XCall → Prop
  | .call a => ∀ w, world g e.c = some w → a.Admissible w
  | .energies .. => True
  | .virialize .. => True
  | .addRotation _ draws => (e.c.origin = some .cluster ∨ e.c.origin = some .centre) ∧ draws.length = e.c.st.length
  | .resetNbodyScale m r v pr => e.c.units ≠ some .nbody ∧
      ∀ c', CT.resetNbodyScale g m r v pr e.c = .ok c' → 0 < c'.zmbar ∧ 0 < c'.rbar
  | .findCentreOfMass _ => OrderHere e.c
  | .findCentre _ _ _ mask _ _ => ∀ m, mask = some m → true ∈ m

/-- Every call of a session is an allowed one when its turn comes. -/
def Allowed (g : Galpy) : List XCall → ECluster → Prop
  | [], _ => True
  | a :: l, e => a.Allowed g e ∧ ∀ e', a.exec g e = .ok e' → Allowed g l e'

end

end CT
