/- Specification vocabulary for selecting stars. -/
import Verif.Model.Subset

namespace CT

noncomputable section

/-- Radius and speed of star `i` as the filter means them. -/
def View.rAt (c : View) (projected : Bool) (i : ℕ) : ℝ := if projected then c.rpro[i]! else c.r[i]!
def View.vAt (c : View) (projected : Bool) (i : ℕ) : ℝ := if projected then c.vpro[i]! else c.v[i]!

/-- `x` respects the given inclusive bounds; an absent bound is no restriction. -/
def Within (lo hi : Option ℝ) (x : ℝ) : Prop := (∀ b, lo = some b → b ≤ x) ∧ (∀ b, hi = some b → x ≤ b)

/-- Star `i` passes the filter: all given inclusive bounds on radius, mass, speed and energy, the requested population,
and, if the cluster has stellar types, the range of types. -/
structure Passes (q : SubArgs) (c : View) (i : ℕ) : Prop where
  r : Within q.rmin q.rmax (c.rAt q.projected i)
  m : Within q.mmin q.mmax c.m[i]!
  v : Within q.vmin q.vmax (c.vAt q.projected i)
  e : Within q.emin q.emax c.etot[i]!
  npop : ∀ p, q.npop = some p → c.npop[i]! = p
  kw : c.kw ≠ [] → q.kwmin ≤ c.kw[i]! ∧ c.kw[i]! ≤ q.kwmax

/-- A cluster with `n ≥ 1` stars whose arrays have one entry per star; stellar types may be absent. -/
structure View.Arrays (c : View) (n : ℕ) : Prop where
  pos : 1 ≤ n
  ntot : c.ntot = n
  r : c.r.length = n
  rpro : c.rpro.length = n
  v : c.v.length = n
  vpro : c.vpro.length = n
  m : c.m.length = n
  npop : c.npop.length = n
  kw : c.kw = [] ∨ c.kw.length = n

/-- … and energies are there if the filter asks for them. -/
structure View.Ok (c : View) (q : SubArgs) (n : ℕ) : Prop extends c.Arrays n where
  etot : (q.emin = none ∧ q.emax = none) ∨ c.etot.length = n

end

end CT
