/- C39: advancing through snapshots. -/
import Verif.Spec.IO
import Verif.Lemmas.Ops

namespace CT

noncomputable section

/-- The options that a loaded cluster remembers for advancing, given once more explicitly. -/
def Kw.explicit (kw : Kw) (n : ℕ) : Kw :=
  { kw with
    nsnap := some n, nzfill := some (kw.nzfill.getD 5), wdir := some (kw.wdir.getD "./")
    snapdir := some (kw.snapdir.getD ""), snapbase := some (kw.snapbase.getD "")
    snapend := some (kw.snapend.getD ".dat"), skiprows := some (kw.skiprows.getD 0)
    analyze := some (kw.analyze.getD true), sort := some (kw.sort.getD true), otime := some (kw.otime.getD false) }

theorem snapFile_explicit {fs : FS} {kw : Kw} {n : ℕ} (hd : kw.wdir = none → ∀ p, fs.file ("./" ++ p) = fs.file p) :
    snapFile fs none (kw.explicit n) = snapFile fs none { kw with nsnap := some n } := by
  cases hw : kw.wdir with
  | none =>
    have e1 : dirSlash "./" = "./" := by decide
    have e2 : dirSlash "" = "" := by decide
    simp [snapFile, Kw.explicit, hw, e1, e2, hd hw]
  | some w => simp [snapFile, Kw.explicit, hw]

theorem runOf_explicit {kw : Kw} {n : ℕ} : runOf (kw.explicit n) = runOf { kw with nsnap := some n } := by
  funext units origin t kws b
  simp [runOf, Kw.explicit]

theorem readOrbitIf_explicit {g : Galpy} {kw : Kw} {n : ℕ} {a : Bool} :
    readOrbitIf g (kw.explicit n) a = readOrbitIf g { kw with nsnap := some n } a := by
  funext f c
  cases f with
  | none => rfl
  | some f =>
    have e : orbitLines (kw.explicit n) a = orbitLines { kw with nsnap := some n } a := rfl
    simp only [readOrbitIf, readOrbit, e]
    rfl

theorem settle_explicit {g : Galpy} {fc : Cluster → Except Err Cluster} {kw : Kw} {n : ℕ} {a : Bool} {o : Option Origin} :
    settle g fc (kw.explicit n) o a = settle g fc { kw with nsnap := some n } o a := by
  funext f c
  have e1 : settleGalaxy g fc (kw.explicit n) = settleGalaxy g fc { kw with nsnap := some n } := rfl
  have e2 : settleCluster fc (kw.explicit n) = settleCluster fc { kw with nsnap := some n } := rfl
  simp only [settle, placeGalaxy, readOrbitIf_explicit, e1, e2]

theorem getSnapshot_explicit {g : Galpy} {fc : Cluster → Except Err Cluster} {fs : FS} {kw : Kw} {n : ℕ} {a : Bool}
    {u : Option Units} {o : Option Origin} {f : Option (List Line)}
    (hd : kw.wdir = none → ∀ p, fs.file ("./" ++ p) = fs.file p) :
    getSnapshot g fc fs none (kw.explicit n) u o f a = getSnapshot g fc fs none { kw with nsnap := some n } u o f a := by
  simp only [getSnapshot, snapFile_explicit hd, settle_explicit, runOf_explicit, emptyRun]
  rfl

/-- What is left of the orbit file after loading snapshot `n` (nothing is read without an origin). -/
def leftOver (o : Option Origin) (n : ℕ) (f : Option (List Line)) : Option (List Line) :=
  if o = some .galaxy ∨ o = some .cluster ∨ o = some .centre then f.map (List.drop (n + 1)) else f

theorem orbit_left {kw : Kw} {n : ℕ} : orbitLines { kw with nsnap := some n } false = n + 1 := by
  simp only [orbitLines, Option.getD_some]
  split
  · rfl
  · rename_i h
    have : n = 0 := by simpa using h
    omega

theorem readOrbitIf_left {g : Galpy} {kw : Kw} {n : ℕ} {f : Option (List Line)} {c c' : Cluster} {f' : Option (List Line)}
    (h : readOrbitIf g { kw with nsnap := some n } false f c = .ok (c', f')) : f' = f.map (List.drop (n + 1)) := by
  cases f with
  | none => simp only [readOrbitIf, Option.elim_none] at h; cases h; rfl
  | some f =>
    simp only [readOrbitIf, Option.elim_some, readOrbit, orbit_left] at h
    obtain ⟨r, hr, h⟩ := bind_ok h
    obtain ⟨v, -, hv⟩ := bind_ok hr
    cases hv; cases h; rfl

theorem settle_left {g : Galpy} {fc : Cluster → Except Err Cluster} {kw : Kw} {n : ℕ} {o : Option Origin}
    {f : Option (List Line)} {c c' : Cluster} {f' : Option (List Line)}
    (h : settle g fc { kw with nsnap := some n } o false f c = .ok (c', f')) : f' = leftOver o n f := by
  unfold settle at h
  split at h
  · rename_i ho
    obtain ⟨r, hr, h⟩ := bind_ok h
    obtain ⟨c1, -, h⟩ := bind_ok h
    cases h
    rw [leftOver, if_pos (.inl ho)]
    unfold placeGalaxy at hr
    split at hr
    · rename_i hf
      obtain ⟨c2, -, hr⟩ := bind_ok hr
      cases hr
      cases f with
      | none => rfl
      | some f => simp at hf
    · exact readOrbitIf_left hr
  · split at h
    · rename_i ho
      obtain ⟨c1, -, h⟩ := bind_ok h
      rw [leftOver, if_pos (.inr ho)]
      exact readOrbitIf_left h
    · rename_i h1 h2
      cases h
      rw [leftOver, if_neg (by tauto)]

/-- Reading the next line of what is left equals reading from the start of the file. -/
theorem readOrbitIf_next {g : Galpy} {kw : Kw} {n : ℕ} {f : Option (List Line)} {c : Cluster} :
    readOrbitIf g { kw with nsnap := some (n + 1) } true (f.map (List.drop (n + 1))) c =
      readOrbitIf g { kw with nsnap := some (n + 1) } false f c := by
  cases f with
  | none => rfl
  | some f =>
    have e : orbitLines { kw with nsnap := some (n + 1) } true = 1 := by simp [orbitLines]
    simp only [readOrbitIf, Option.map_some, Option.elim_some, readOrbit, orbit_left, e, List.drop_drop,
      List.getElem?_drop, Nat.add_sub_cancel, Nat.sub_self, Nat.add_zero]

theorem settle_next {g : Galpy} {fc : Cluster → Except Err Cluster} {kw : Kw} {n : ℕ} {o : Option Origin}
    {f : Option (List Line)} {c : Cluster} :
    settle g fc { kw with nsnap := some (n + 1) } o true (leftOver o n f) c =
      settle g fc { kw with nsnap := some (n + 1) } o false f c := by
  unfold settle placeGalaxy leftOver
  by_cases h1 : o = some .galaxy
  · simp only [if_pos h1, h1, true_or, if_true, readOrbitIf_next]
    cases f <;> rfl
  · by_cases h2 : o = some .cluster ∨ o = some .centre
    · rw [if_neg h1, if_pos h2, if_neg h1, if_pos h2, if_pos (.inr h2)]
      simp only [readOrbitIf_next]
    · rw [if_neg h1, if_neg h2, if_neg h1, if_neg h2, if_neg (by tauto)]

theorem getSnapshot_next {g : Galpy} {fc : Cluster → Except Err Cluster} {fs : FS} {kw : Kw} {n : ℕ}
    {u : Option Units} {o : Option Origin} {f : Option (List Line)}
    (he : snapFile fs none { kw with nsnap := some (n + 1) } ≠ none) :
    getSnapshot g fc fs none { kw with nsnap := some (n + 1) } u o (leftOver o n f) true =
      getSnapshot g fc fs none { kw with nsnap := some (n + 1) } u o f false := by
  unfold getSnapshot
  cases hs : snapFile fs none { kw with nsnap := some (n + 1) } with
  | none => exact absurd hs he
  | some L => simp only [Option.elim_some, settle_next]

theorem or_or {α : Type} (a b : Option α) : a.or (a.or b) = a.or b := by cases a <;> rfl

theorem or_getD {α : Type} (a b : Option α) (d : α) : (a.or b).getD d = a.getD (b.getD d) := by
  cases a <;> rfl

/-- What a cluster loaded from an existing file remembers. -/
structure Remembers (kw : Kw) (n : ℕ) (u : Option Units) (o : Option Origin) (f : Option (List Line)) (r : Run) : Prop where
  units : r.unitsInit = u
  origin : r.originInit = o
  nsnap : r.nsnap = n
  nzfill : r.nzfill = kw.nzfill.getD 5
  wdir : r.wdir = kw.wdir.getD "./"
  snapdir : r.snapdir = kw.snapdir.getD ""
  snapbase : r.snapbase = kw.snapbase.getD ""
  snapend : r.snapend = kw.snapend.getD ".dat"
  skiprows : r.skiprows = kw.skiprows.getD 0
  ofile : r.ofile = leftOver o n f

theorem advKw_eq {kw a : Kw} {n : ℕ} {u : Option Units} {o : Option Origin} {f : Option (List Line)} {r : Run}
    (h : Remembers kw n u o f r) (ha : a.nsnap.getD 0 ≤ n) : advKw a r = (kw.then a).explicit (n + 1) := by
  simp only [advKw, Kw.explicit, Kw.then, h.nsnap, h.nzfill, h.wdir, h.snapdir, h.snapbase, h.snapend, h.skiprows, or_getD,
    max_eq_right ha]

theorem empty_ntot (kw : Kw) : (emptyRun kw).ntot = 0 := rfl

/-- Loading a snapshot that has stars. -/
theorem load_facts {g : Galpy} {fc : Cluster → Except Err Cluster} {fs : FS} {kw : Kw} {n : ℕ} {u : Option Units}
    {o : Option Origin} {f : Option (List Line)} {r : Run}
    (h : loadCluster g fc fs none { kw with nsnap := some n } u o f = .ok r) (hn : r.ntot ≠ 0) :
    Remembers kw n u o f r ∧ snapFile fs none { kw with nsnap := some n } ≠ none := by
  unfold loadCluster at h
  obtain ⟨q, hq, h⟩ := bind_ok h
  cases h
  unfold getSnapshot at hq
  cases hs : snapFile fs none { kw with nsnap := some n } with
  | none =>
    rw [hs, Option.elim_none] at hq
    cases hq
    exact absurd rfl hn
  | some L =>
    rw [hs, Option.elim_some] at hq
    obtain ⟨a, -, hq⟩ := bind_ok hq
    obtain ⟨s, -, hq⟩ := bind_ok hq
    obtain ⟨t, -, hq⟩ := bind_ok hq
    obtain ⟨p, hp, hq⟩ := bind_ok hq
    cases hq
    exact ⟨⟨rfl, rfl, rfl, rfl, rfl, rfl, rfl, rfl, rfl, settle_left hp⟩, by simp⟩

/-- One step: advancing a cluster loaded at snapshot `n` gives what loading snapshot `n+1` gives. -/
theorem advance_load {g : Galpy} {fc : Cluster → Except Err Cluster} {fs : FS} {kw a : Kw} {n : ℕ} {u : Option Units}
    {o : Option Origin} {f : Option (List Line)} {r r' : Run} (ha : a.nsnap.getD 0 ≤ n)
    (hd : (kw.then a).wdir = none → ∀ p, fs.file ("./" ++ p) = fs.file p)
    (h : Remembers kw n u o f r)
    (h' : loadCluster g fc fs none { (kw.then a) with nsnap := some (n + 1) } u o f = .ok r') (hn' : r'.ntot ≠ 0) :
    advanceCluster g fc fs none a none r = .ok r' := by
  obtain ⟨-, he⟩ := load_facts h' hn'
  unfold loadCluster at h'
  obtain ⟨q, hq, h'⟩ := bind_ok h'
  cases h'
  unfold advanceCluster
  simp only [advKw_eq h ha, h.units, h.origin, h.ofile, Option.none_or, getSnapshot_explicit hd, getSnapshot_next he, hq]
  exact if_neg hn'

/-- **C39.** A chain of advances through existing snapshots.  A cluster loaded at snapshot `n` and advanced `k ≥ 1` times
with keyword arguments `a` is exactly — stars, units, origin, centre, orbital position, remembered options, position in
the orbit file — the cluster obtained by loading snapshot `n + k` directly, with the file-name options of the first
call and the other options of `a`. -/
theorem C39_chain {g : Galpy} {fc : Cluster → Except Err Cluster} {fs : FS} {kw a : Kw} {u : Option Units}
    {o : Option Origin} {f : Option (List Line)} {n k : ℕ} {r : Run} (hk : 1 ≤ k) (ha : a.nsnap.getD 0 ≤ n)
    (hd : (kw.then a).wdir = none → ∀ p, fs.file ("./" ++ p) = fs.file p)
    (h0 : loadCluster g fc fs none { kw with nsnap := some n } u o f = .ok r) (hn : r.ntot ≠ 0)
    (hall : ∀ j, 1 ≤ j → j ≤ k →
      ∃ c, loadCluster g fc fs none { (kw.then a) with nsnap := some (n + j) } u o f = .ok c ∧ c.ntot ≠ 0) :
    advanceMany g fc fs a k r = loadCluster g fc fs none { (kw.then a) with nsnap := some (n + k) } u o f := by
  have hm := (load_facts h0 hn).1
  clear h0 hn
  induction k generalizing kw n r with
  | zero => omega
  | succ k ih =>
    obtain ⟨c, hc, hcn⟩ := hall 1 le_rfl (by omega)
    have e1 := advance_load ha hd hm hc hcn
    have e2 : advanceMany g fc fs a (k + 1) r = advanceMany g fc fs a k c := by
      simp only [advanceMany, e1, bind, Except.bind]
    rw [e2]
    have hm' := (load_facts hc hcn).1
    rcases Nat.eq_zero_or_pos k with rfl | hk
    · rw [hc]; rfl
    · have et : (kw.then a).then a = kw.then a := by
        simp only [Kw.then, or_or]
      have := ih (kw := kw.then a) (n := n + 1) (r := c) hk (by omega) (by rw [et]; exact hd) (by
        intro j h1 h2
        rw [et, show n + 1 + j = n + (j + 1) by omega]
        exact hall (j + 1) (by omega) (by omega)) hm'
      rw [this, et, show n + 1 + k = n + (k + 1) by omega]

end

end CT
