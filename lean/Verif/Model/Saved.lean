/- The methods save_cluster and return_cluster and the attributes they share with the analysis functions (cluster.py:1962-2009). -/
import Verif.Model.Crash

namespace CT

noncomputable section

/-- `units0, origin0, rorder0, rorder_origin0` (operations.py:1337). -/
abbrev Saved := Option Units × Option Origin × Option (List ℕ) × Option Origin

/-- A cluster and its attributes `units0 … rorder_origin0` (cluster.py:1979), which do not exist (`none`) before the first `save_cluster`. -/
structure Keeper where
  c : Cluster
  saved : Option Saved

/-- `StarCluster.save_cluster` (cluster.py:1962-1979). -/
def Keeper.save (k : Keeper) : Keeper := { k with saved := some (saveCluster k.c) }

/-- `if units0 is None: units0=self.units0` (cluster.py:2004-2007). -/
def argOr {α : Type} (a : Option α) (b : Option (Option α)) : Except Err (Option α) :=
  a.elim (b.elim (.error .attributeError) .ok) (fun a => .ok (some a))

/-- `StarCluster.return_cluster` (cluster.py:1981-2009). -/
def Keeper.back (g : Galpy) (s : Saved) (sort : Bool) (k : Keeper) : Except Err Keeper := do
  let u ← argOr s.1 (k.saved.map (fun x => x.1))
  let o ← argOr s.2.1 (k.saved.map (fun x => x.2.1))
  let r ← argOr s.2.2.1 (k.saved.map (fun x => x.2.2.1))
  let ro ← argOr s.2.2.2 (k.saved.map (fun x => x.2.2.2))
  let c ← returnCluster g (u, o, r, ro) sort none k.c
  return { k with c := c }

/-- `return_cluster()`: no arguments. -/
def noArgs : Saved := (none, none, none, none)

/-- `rlagrange(cluster, …)` (functions.py:1002-1045): it saves once, at its start. -/
def Keeper.rlagrange (g : Galpy) (n : ℕ) (projected : Bool) (k : Keeper) : Except Err (List ℝ × Keeper) := do
  let r ← CT.rlagrange g n projected k.c
  return (r.1, ⟨r.2, some (saveCluster k.c)⟩)

/-- Calls of a session. -/
inductive KCall
  | save
  | restore
  | convert (op : Op)
  | ask (q : Query)

/-- What a call may do to the object.  Analysis functions begin with `cluster.save_cluster()`, and functions they call do so again at a later
moment: which of the clusters on the way was saved last is left open here (`ask`); some do not save (`quiet`); exceptions are caught (`raised`).
Inside the functions the modelled `return_cluster` gets all its values from its arguments. -/
inductive KStep (g : Galpy) : KCall → Keeper → Keeper → Prop
  | save (k : Keeper) : KStep g .save k k.save
  | restore {k k' : Keeper} (h : k.back g noArgs false = .ok k') : KStep g .restore k k'
  | convert {k : Keeper} {op : Op} {c : Cluster} (h : op.exec g k.c = .ok c) : KStep g (.convert op) k { k with c := c }
  | ask {k : Keeper} {q : Query} {c s : Cluster} (h : q.exec g k.c = .ok c) (hs : s ∈ k.c :: (q.trace g k.c).states) :
    KStep g (.ask q) k ⟨c, some (saveCluster s)⟩
  | quiet {k : Keeper} {q : Query} {c : Cluster} (h : q.exec g k.c = .ok c) : KStep g (.ask q) k { k with c := c }
  | raised {k : Keeper} {q : Query} {e : Err} {s : Cluster} (h : q.exec g k.c = .error e) (hs : s ∈ k.c :: (q.trace g k.c).states) :
    KStep g (.ask q) k ⟨(q.trace g k.c).after k.c, some (saveCluster s)⟩

/-- Sessions. -/
inductive KRun (g : Galpy) : List KCall → Keeper → Keeper → Prop
  | nil (k : Keeper) : KRun g [] k k
  | cons {a : KCall} {l : List KCall} {k k1 k2 : Keeper} (h : KStep g a k k1) (t : KRun g l k1 k2) : KRun g (a :: l) k k2

end

end CT
