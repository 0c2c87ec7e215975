/- Specification vocabulary for gyrfalcON/NEMO ascii files. -/
import Verif.Model.Gyr
import Verif.Spec.IO

namespace CT

noncomputable section

/-- One snapshot of a simulation: its time, and for each star mass, position, velocity and possibly more. -/
structure GSnap where
  t : ℝ
  rows : List (List ℝ)

/-- A header of comment lines with the number of stars (`# Ntot: n, …`) and the time (`# time: t`). -/
structure IsGyrHeader (P : Parse) (n : ℕ) (t : ℝ) (L : List Toks) : Prop where
  comment : ∀ d ∈ L, "#" ∈ d
  hasN : ∃ d ∈ L, mentions "Ntot" d
  hasT : ∃ d ∈ L, mentions "time" d
  num : ∀ d ∈ L, mentions "Ntot" d → ∃ (v w s : String) (z : Char) (more : Toks), d = v :: w :: String.ofList (s.toList ++ [z]) :: more ∧ P.int s = .ok (n : ℤ)
  time : ∀ d ∈ L, mentions "time" d → ∃ (v w s : String) (more : Toks), d = v :: w :: s :: more ∧ P.flt s = .ok t

/-- A line with the numbers `r`: as many words, without comment signs. -/
structure IsGyrRow (P : Parse) (r : List ℝ) (d : Toks) : Prop where
  plain : ∀ w ∈ d, '#' ∉ w.toList
  vals : List.Forall₂ (fun w v => P.flt w = .ok v) d r

/-- A file that begins with the snapshots `S`, one after the other, each under a header of at most `skip` lines, all of their rows with `w`
numbers, and goes on with `T`. -/
inductive GyrStart (P : Parse) (T : List Toks) (skip w : ℕ) : List GSnap → List Toks → Prop
  | nil : GyrStart P T skip w [] T
  | cons {s : GSnap} {S : List GSnap} {H B L : List Toks} : IsGyrHeader P s.rows.length s.t H → H.length ≤ skip → s.rows ≠ [] →
      List.Forall₂ (IsGyrRow P) s.rows B → (∀ r ∈ s.rows, r.length = w) → GyrStart P T skip w S L →
      GyrStart P T skip w (s :: S) (H ++ B ++ L)

/-- A file with the snapshots `S` and nothing more. -/
abbrev IsGyrFile (P : Parse) (skip w : ℕ) : List GSnap → List Toks → Prop := GyrStart P [] skip w

/-- A file that begins with the snapshots `S` in a regular way: every header has `skip` lines, every snapshot `n` stars. -/
inductive IsRegularFile (P : Parse) (skip w n : ℕ) : List GSnap → List Toks → Prop
  | nil (L : List Toks) : IsRegularFile P skip w n [] L
  | cons {s : GSnap} {S : List GSnap} {H B L : List Toks} : IsGyrHeader P n s.t H → H.length = skip → s.rows.length = n →
      List.Forall₂ (IsGyrRow P) s.rows B → (∀ r ∈ s.rows, r.length = w) → IsRegularFile P skip w n S L →
      IsRegularFile P skip w n (s :: S) (H ++ B ++ L)

/-- The stars are those of the snapshot `s`, numbered from `id0`, and the time is its time. -/
structure HasSnap (id0 : ℤ) (s : GSnap) (r : Run) : Prop where
  ntot : r.ntot = s.rows.length
  st : r.base.st = s.rows.map (fun l => ⟨l[1]!, l[2]!, l[3]!, l[4]!, l[5]!, l[6]!⟩)
  m : r.base.m = s.rows.map (fun l => l[0]!)
  id : r.id = (List.range s.rows.length).map (fun (i : ℕ) => id0 + (i : ℤ))

/-- The file names `advance_cluster(…, a)` tries first for snapshot `n` of a cluster loaded with `kw`. -/
def advNames (kw a : Kw) (n : ℕ) : Kw :=
  { nsnap := some n, nzfill := some ((a.nzfill.or kw.nzfill).getD 5), wdir := some ((a.wdir.or kw.wdir).getD "./")
    snapdir := some ((a.snapdir.or kw.snapdir).getD ""), snapbase := some ((a.snapbase.or kw.snapbase).getD "")
    snapend := some ((a.snapend.or kw.snapend).getD ".dat") }

/-- No numbered snapshot files that `advance_cluster` would read instead of the open file. -/
def NoNumbered (fs : GFS) (kw a : Kw) : Prop := ∀ n, kw.nsnap.getD 0 < n → gyrFile fs none (advNames kw a n) = none

end

end CT
