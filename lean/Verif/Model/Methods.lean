/- The analysis methods of a StarCluster and the attributes in which they leave their results (cluster.py:2371-3308). -/
import Verif.Model.Session

namespace CT

noncomputable section

/-- Attributes that hold results of methods (cluster.py:370-399, 2402-3306). -/
inductive Attr
  | trelax | trh | trc | rn | rv | alpha | eta | meq | ck | rc | rt | rl | dclosest
  deriving DecidableEq

/-- A StarCluster with its stored results (a single number is a list of one). -/
structure Notes where
  c : Cluster
  attr : Attr → Option (List ℝ)

/-- `self.a = v`. -/
def Notes.set (x : Notes) (c : Cluster) (a : Attr) (v : List ℝ) : Notes :=
  { c := c, attr := fun b => if b = a then some v else x.attr b }

/-- A call of a method.  Arguments as for the functions (`Query`); `projected` is `none` when the caller does not give it. -/
inductive Method
  | relaxationTime (rad : Option ℝ) (coulomb : ℝ) (projected : Option Bool)
  | halfMassRelaxationTime (coulomb : ℝ) (projected : Option Bool)
  | coreRelaxationTime (kd : KDTree) (coulomb : ℝ) (projected : Option Bool)
  | rlagrange (n : ℕ) (projected : Option Bool)
  | virialRadius (full : Bool) (projected : Option Bool)
  | closestStar (kd : KDTree) (projected : Option Bool)
  | massFunction (a : MassArgs) (projected : Option Bool) (e : PStars) (indx : Option ℕ) (mem : Mem)
  | etaFunction (a : EtaArgs) (projected : Option Bool) (e : PStars) (indx : Option ℕ) (mem : Mem)
  | meqFunction (a : EtaArgs) (projected : Option Bool) (q : CurveFit) (e : PStars) (indx : Option ℕ) (mem : Mem)
  | ckin (a : EtaArgs) (projected : Option Bool) (q : CurveFit) (e : PStars) (indx : Option ℕ) (mem : Mem)
  | rcore (kd : KDTree) (k : ℕ) (projected : Option Bool)
  | rtidal (tide : ℝ → ℝ → ℝ → ℝ) (a : TideArgs) (indx : Option (List Bool))
  | rlimiting (dens : ℝ → ℝ → ℝ) (a : TideArgs) (nrad : ℕ) (projected : Option Bool) (e : PStars)

/-- The attribute a method writes (cluster.py:2403, 2435, 2470, 2631, 2679, 2594, 2769, 2959, 3052, 3131, 3183, 3241, 3296). -/
def Method.attr : Method → Attr
  | .relaxationTime .. => .trelax
  | .halfMassRelaxationTime .. => .trh
  | .coreRelaxationTime .. => .trc
  | .rlagrange .. => .rn
  | .virialRadius .. => .rv
  | .closestStar .. => .dclosest
  | .massFunction .. => .alpha
  | .etaFunction .. => .eta
  | .meqFunction .. => .meq
  | .ckin .. => .ck
  | .rcore .. => .rc
  | .rtidal .. => .rt
  | .rlimiting .. => .rl

/-- A selection with `projected` set. -/
def SubArgs.proj (s : SubArgs) (b : Bool) : SubArgs := { s with projected := b }

/-- What a method returns, and the cluster after it (cluster.py:2371-3308).  `projected=None` is replaced by `self.projected` in
`relaxation_time`, `half_mass_relaxation_time`, `core_relaxation_time`, `closest_star`, `rlagrange` and `virial_radius`; the others have
`projected=False` as default.  `closest_star` does not raise on the sky but prints a message and returns `None`, not modelled here;
`virial_radius` by the inverse distances, `rcore` by Casertano & Hut. -/
def Method.value (g : Galpy) : Method → Cluster → Except Err (List ℝ × Cluster)
  | .relaxationTime rad γ p, c => (CT.relaxationTime g rad γ (p.getD c.projected) c).map (fun r => ([r.1], r.2))
  | .halfMassRelaxationTime γ p, c => (CT.halfMassRelaxationTime g γ (p.getD c.projected) c).map (fun r => ([r.1], r.2))
  | .coreRelaxationTime kd γ p, c => (CT.coreRelaxationTime g kd γ (p.getD c.projected) c).map (fun r => ([r.1], r.2))
  | .rlagrange n p, c => CT.rlagrange g n (p.getD c.projected) c
  | .virialRadius f p, c => (CT.virialInverse g f (p.getD c.projected) c).map (fun r => ([r.1], r.2))
  | .closestStar kd p, c => (CT.closestStar kd (p.getD c.projected) c).elim (.error .typeError) (fun r => .ok (r.1, c))
  | .massFunction a p e i mem, c =>
    (massFunctionMethod g { a with sub := a.sub.proj (p.getD false) } e i mem c).map (fun r => ([r.1], r.2.1))
  | .etaFunction a p e i mem, c =>
    (CT.etaFunction g { a with sub := a.sub.proj (p.getD false) } none e i mem c).map (fun r => ([r.1.fit.slope], r.2.1))
  | .meqFunction a p q e i mem, c =>
    (CT.meqFunction g { a with sub := a.sub.proj (p.getD false) } q e i mem c).map (fun r => ([r.1.fit.slope], r.2.1))
  | .ckin a p q e i mem, c => (CT.ckin g { a with sub := a.sub.proj (p.getD false) } q e i mem c).map (fun r => ([r.1], r.2.1))
  | .rcore kd k p, c => (CT.rcore g kd k (p.getD false) c).map (fun r => ([r.1], r.2))
  | .rtidal tide a i, c => (CT.rtidal g tide a i c).map (fun r => ([r.1], r.2.2))
  | .rlimiting dens a n p e, c => (CT.rlimiting g dens a n (p.getD false) e c).map (fun r => ([r.1], r.2))

/-- The method: the result is stored and returned. -/
def Method.exec (g : Galpy) (m : Method) (x : Notes) : Except Err (List ℝ × Notes) :=
  (m.value g x.c).map (fun r => (r.1, x.set r.2 m.attr r.1))

/-- One call of a session with methods; `ask` is a call of an analysis function, which stores nothing. -/
inductive NCall
  | convert (op : Op)
  | ask (q : Query)
  | method (m : Method)

/-- The call: the attribute written and the value returned, if any, and the cluster. -/
def NCall.exec (g : Galpy) : NCall → Notes → Except Err (Option (Attr × List ℝ) × Notes)
  | .convert op, x => (op.exec g x.c).map (fun c => (none, { x with c := c }))
  | .ask q, x => (q.exec g x.c).map (fun c => (none, { x with c := c }))
  | .method m, x => (m.exec g x).map (fun r => (some (m.attr, r.1), r.2))

/-- A session: what its methods returned, in order, and the cluster at the end. -/
def nsession (g : Galpy) : List NCall → Notes → Except Err (List (Attr × List ℝ) × Notes)
  | [], x => .ok ([], x)
  | a :: l, x => do
    let r ← a.exec g x
    let s ← nsession g l r.2
    return (r.1.toList ++ s.1, s.2)

end

end CT
