/- The tidal radius (analysis/functions.py:2303-2488). -/
import Verif.Model.Profiles

namespace CT

noncomputable section

/-- The arguments `rtiterate`, `rtconverge`, `rgc`, `zgc`, `from_centre` of `rtidal` (functions.py:2303-2315). -/
structure TideArgs where
  iterate : ℕ := 0
  converge : ℝ := 0.9
  rgc : Option ℝ := none
  zgc : Option ℝ := none
  fromCentre : Bool := false

/-- `R` (functions.py:2378-2384), the cluster being in galpy units. -/
def tideR (g : Galpy) (a : TideArgs) (c : Cluster) : ℝ :=
  a.rgc.elim
    (if a.fromCentre then Real.sqrt ((c.gc.x + c.c.x) ^ 2 + (c.gc.y + c.c.y) ^ 2)
      else Real.sqrt (c.gc.x ^ 2 + c.gc.y ^ 2))
    (fun R => R / g.ro)

/-- `z` (functions.py:2386-2392). -/
def tideZ (g : Galpy) (a : TideArgs) (c : Cluster) : ℝ :=
  a.zgc.elim (if a.fromCentre then c.gc.z + c.c.z else c.gc.z) (fun z => z / g.ro)

/-- The loop `for i in range(0, rtiterate)` (functions.py:2400-2419) with `f M = rtide(pot, R, z, M=M)`: the radius and the
selection when it ends.  A first radius of zero makes `rtnew / rt` infinite or undefined in numpy; no star is then inside. -/
def tideLoop (f : ℝ → ℝ) (converge : ℝ) (m r : List ℝ) : ℕ → ℝ → List Bool → ℝ × List Bool
  | 0, rt, w => (rt, w)
  | k + 1, rt, w =>
    let w := List.zipWith and w (r.map (fun x => decide (x < rt)))
    let rtnew := f (maskSel w m).sum
    if rtnew = 0 then (0, w)
    else if converge ≤ rtnew / rt then (rt, w)
    else tideLoop f converge m r k rtnew w

/-- `rtidal` (functions.py:2303-2488) without plotting: the tidal radius, the caller's array `indx` afterwards (line 2403 changes it in
place) and the cluster.  `tide R z M` is galpy's `rtide(pot, R, z, M=M, use_physical=False)`.  The first steps are those of
the profiles (`profStart`).  A boolean array of another length raises `IndexError`. -/
def rtidal (g : Galpy) (tide : ℝ → ℝ → ℝ → ℝ) (a : TideArgs) (indx : Option (List Bool)) (c : Cluster) :
    Except Err (ℝ × Option (List Bool) × Cluster) := do
  let c1 ← profStart g false false c
  let c2 ← toGalpy g c1
  let w := indx.getD (List.replicate c2.m.length true)
  if w.length ≠ c2.m.length then throw .indexError
  let f := tide (tideR g a c2) (tideZ g a c2)
  let r := tideLoop f a.converge c2.m c2.d.r a.iterate (f (maskSel w c2.m).sum) w
  let c3 ← returnCluster g (saveCluster c) false none c2
  return (c3.units.elim r.1 (fun t => convertLength g c3 .galpy t r.1), indx.map (fun _ => r.2), c3)

end

end CT
