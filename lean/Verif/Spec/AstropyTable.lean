/- Specification vocabulary for astropy tables. -/
import Verif.Model.AstropyTable
import Verif.Spec.IO

namespace CT

noncomputable section

/-- A table of `n` rows: column names are distinct, columns have equal lengths (astropy guarantees both). -/
structure ATable.Ok (t : ATable) (n : ℕ) : Prop where
  names : (t.cols.map Prod.fst).Nodup
  rows : ∀ c ∈ t.cols, c.2.length = n

/-- Column `l` of the table is the only one whose name is, up to case, among `vs`. -/
def OnlyCol (low : String → String) (t : ATable) (vs : List String) (l : List ℝ) : Prop :=
  ∃ nm, (nm, l) ∈ t.cols ∧ low nm ∈ vs ∧ ∀ c ∈ t.cols, low c.1 ∈ vs → c = (nm, l)

/-- No column has a name that is, up to case, among `vs`. -/
def NoCol (low : String → String) (t : ATable) (vs : List String) : Prop := ∀ c ∈ t.cols, low c.1 ∉ vs

/-- An optional column: the only one of that name, or none. -/
def OptCol (low : String → String) (t : ATable) (vs : List String) (l : Option (List ℝ)) : Prop :=
  (∀ a, l = some a → OnlyCol low t vs a) ∧ (l = none → NoCol low t vs)

/-- The columns of the table with Cartesian coordinates. -/
structure Cartesian (low : String → String) (t : ATable) (k : ATCols) : Prop where
  x : OnlyCol low t ["x"] k.x
  y : OnlyCol low t ["y"] k.y
  z : OnlyCol low t ["z"] k.z
  vx : OnlyCol low t ["v_x", "vx"] k.vx
  vy : OnlyCol low t ["v_y", "vy"] k.vy
  vz : OnlyCol low t ["v_z", "vz"] k.vz
  m : OptCol low t ["m", "mass"] k.m
  id : OptCol low t ["id"] k.id

/-- The columns of the table with coordinates on the sky. -/
structure OnSky (low : String → String) (t : ATable) (k : ATCols) : Prop where
  x : OnlyCol low t ["right ascension", "ra"] k.x
  y : OnlyCol low t ["declination", "dec"] k.y
  z : OnlyCol low t ["distance", "dist", "d"] k.z
  vx : OnlyCol low t ["pm_ra_cosdec", "pm_ra", "pmra"] k.vx
  vy : OnlyCol low t ["pm_dec", "pmdec"] k.vy
  vz : OnlyCol low t ["radial_velocity", "rvel", "v_los", "vlos"] k.vz
  m : OptCol low t ["m", "mass"] k.m
  id : OptCol low t ["id"] k.id

/-- The names, up to case, by which the six coordinates are found: on the sky, or Cartesian. -/
def coordNames (sky : Prop) [Decidable sky] : List (List String) :=
  if sky then [["right ascension", "ra"], ["declination", "dec"], ["distance", "dist", "d"], ["pm_ra_cosdec", "pm_ra", "pmra"],
    ["pm_dec", "pmdec"], ["radial_velocity", "rvel", "v_los", "vlos"]]
  else [["x"], ["y"], ["z"], ["v_x", "vx"], ["v_y", "vy"], ["v_z", "vz"]]

/-- The columns of the table named by a dictionary. -/
structure Mapped (t : ATable) (cm : Mapper) (k : ATCols) : Prop where
  x : ∃ nm, cm "x" = some nm ∧ (nm, k.x) ∈ t.cols
  y : ∃ nm, cm "y" = some nm ∧ (nm, k.y) ∈ t.cols
  z : ∃ nm, cm "z" = some nm ∧ (nm, k.z) ∈ t.cols
  vx : ∃ nm, cm "vx" = some nm ∧ (nm, k.vx) ∈ t.cols
  vy : ∃ nm, cm "vy" = some nm ∧ (nm, k.vy) ∈ t.cols
  vz : ∃ nm, cm "vz" = some nm ∧ (nm, k.vz) ∈ t.cols
  m : (∀ l, k.m = some l → ∃ nm, cm "m" = some nm ∧ (nm, l) ∈ t.cols) ∧ (k.m = none → cm "m" = none)
  id : (∀ l, k.id = some l → ∃ nm, cm "id" = some nm ∧ (nm, l) ∈ t.cols) ∧ (k.id = none → cm "id" = none)

/-- The cluster has one star per row of the columns. -/
structure HasCols (n : ℕ) (k : ATCols) (r : Run) : Prop where
  ntot : r.ntot = n
  st : r.base.st.length = n
  m : r.base.m.length = n
  id : r.id.length = n
  star : ∀ i < n, r.base.st[i]! = ⟨k.x[i]!, k.y[i]!, k.z[i]!, k.vx[i]!, k.vy[i]!, k.vz[i]!⟩
  mass : ∀ i < n, r.base.m[i]! = (k.m.map (·[i]!)).getD 1
  ids : ∀ l, k.id = some l → ∀ i < n, ∀ j : ℤ, l[i]! = j → r.id[i]! = j
  noIds : k.id = none → ∀ i < n, r.id[i]! = (i : ℤ)

end

end CT
