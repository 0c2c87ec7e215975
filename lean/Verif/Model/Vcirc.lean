/- Circular velocity profile (analysis/profiles.py:1837-2072). -/
import Verif.Model.Profiles

namespace CT

noncomputable section

open Classical in
/-- `np.argmin` (first index of a smallest value; the empty array raises). -/
def argminE (l : List ℝ) : Except Err ℕ :=
  if l = [] then .error .valueError else .ok (l.findIdx (fun x => decide (x = minOf l)))

open Classical in
/-- `np.argmax` (first index of a largest value; the empty array raises). -/
def argmaxE (l : List ℝ) : Except Err ℕ :=
  if l = [] then .error .valueError else .ok (l.findIdx (fun x => decide (x = maxOf l)))

/-- `x[order]` (profiles.py:1931-1938).  With `order=None` the array gets a new axis and the boolean selection of line 1979
does not fit it. -/
def takeOrder (o : Option (List ℕ)) (l : List ℝ) : Except Err (List ℝ) :=
  match o with
  | none => .error .indexError
  | some o => .ok (o.map (fun i => l.getD i 0))

/-- The entries reported (profiles.py:1988-2007): for every bin radius the star whose radius is nearest to it, the bins
being made from `x = cluster.r[indx]`; without bins (`all`: `nrad=None`) every star. -/
def vcircArgs (a : ProfArgs) (all : Bool) (r x : List ℝ) : Except Err (List ℕ) :=
  if a.bins = none ∧ all then .ok (List.range r.length)
  else do
    let b ← profBins a x
    b.2.1.mapM (fun ρ => argminE (r.map (fun y => |y - ρ|)))

/-- `vcirc_prof` (profiles.py:1837-2072): radii, circular velocities, `rvmax`, `vmax`.  The selection of line 1977, made in the
order of the stars, is applied to the sorted arrays (1979-1981).  A failed selection (`-1`) makes `r` a scalar, which line 1986
cannot index. Division by a zero radius gives `inf` in numpy and zero here. -/
def vcircProf (g : Galpy) (a : ProfArgs) (all : Bool) (e : PStars) (indx : Option ℕ) (mem : Mem) (c : Cluster) :
    Except Err ((List ℝ × List ℝ × ℝ × ℝ) × After) := do
  let c1 ← profStart g a.normalize true c
  let o := if a.sub.projected then c1.rproorder else c1.rorder
  let r ← takeOrder o (if a.sub.projected then c1.d.rpro else c1.d.r)
  let m ← takeOrder o c1.m
  let sel ← getSubset a.sub (viewOf c1 e) indx mem
  match sel.1 with
  | none => .error .indexError
  | some k =>
    let w := sel.2[k]!
    let r := maskSel w r
    let m := maskSel w m
    let vc := List.zipWith (fun M ρ => Real.sqrt (getGrav c1.units * M / ρ)) (cumsum m) r
    let j ← argmaxE vc
    let args ← vcircArgs a all r (maskSel w c1.d.r)
    let rs ← if a.normalize then divRm (if a.sub.projected then c1.d.rmpro else c1.d.rm) (args.map (fun i => r[i]!))
      else .ok (args.map (fun i => r[i]!))
    let c2 ← returnCluster g (saveCluster c) false none c1
    let rs ← if a.normalize then .ok rs else convUnits (fun u t v => .ok (convertLength g c2 u t v)) c1 c2 rs
    let vs ← convUnits (fun u t v => .ok (convertVelocity g c2 u t v)) c1 c2 (args.map (fun i => vc[i]!))
    let rv ← convUnits (fun u t v => .ok (convertLength g c2 u t v)) c1 c2 [r[j]!]
    let vm ← convUnits (fun u t v => .ok (convertVelocity g c2 u t v)) c1 c2 [maxOf vc]
    return ((rs, vs, rv.headD 0, vm.headD 0), ⟨c2, sel.2, a.bins.map (fun b => b.2.1)⟩)

end

end CT
