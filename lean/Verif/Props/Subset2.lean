/- C22, C23: sub_cluster and overlap_cluster. -/
import Verif.Props.Subset
import Verif.Props.Stars
import Verif.Lemmas.Mask

namespace CT

noncomputable section

set_option linter.unusedSimpArgs false

/-- The given mask, if any. -/
def given (indx : Option ℕ) (mem : Mem) (i : ℕ) : Prop :=
  match indx with
  | none => True
  | some p => (mem[p]!)[i]! = true

/-- The mask, if given, has one entry per star. -/
def GivenOk (indx : Option ℕ) (mem : Mem) (n : ℕ) : Prop := ∀ p, indx = some p → mem[p]!.length = n

theorem subset_any {q : SubArgs} {c : View} {n : ℕ} {indx : Option ℕ} {mem : Mem} (ok : c.Ok q n)
    (hi : GivenOk indx mem n) :
    ∃ k mem', getSubset q c indx mem = .ok (some k, mem') ∧
      MaskOf mem'[k]! n (fun i => given indx mem i ∧ Passes q c i) := by
  cases indx with
  | none =>
    obtain ⟨w, h, hw⟩ := subset_new (mem := mem) ok
    refine ⟨_, _, h, ?_⟩
    have : (mem ++ [w])[mem.length]! = w := by rw [getElem!_pos _ _ (by simp)]; simp
    rw [this]
    exact hw.congr fun i _ => by simp [given]
  | some p =>
    have hM : MaskOf mem[p]! n (fun i => (mem[p]!)[i]! = true) := ⟨hi p rfl, fun i _ => Iff.rfl⟩
    obtain ⟨w, h, hw⟩ := subset_mask ok hM
    refine ⟨_, _, h, ?_⟩
    rw [set_get! (mask_lt ok.pos hM)]
    exact hw

theorem subArgs_fits {mask : List Bool} {t : Tab} {n : ℕ} (al : Aligned t n) (hl : mask.length = n)
    (hne : maskPos mask ≠ []) : (subArgs mask t).Fits (maskPos mask).length := by
  have e : ∀ {α : Type} [Inhabited α] {l : List α}, l.length = n → (maskSel mask l).length = (maskPos mask).length :=
    fun h => maskSel_length (by rw [hl, h])
  have hpos := List.length_pos_iff.mpr hne
  constructor
  · exact hpos
  · exact e al.x
  · exact e al.y
  · exact e al.z
  · exact e al.vx
  · exact e al.vy
  · exact e al.vz
  · rintro v ⟨⟩; exact e al.m
  · rintro v ⟨⟩; exact e al.id
  · rintro v ⟨⟩; exact e al.m0
  · rintro v ⟨⟩; exact e al.npop
  · right; left; trivial

theorem subArgs_star {mask : List Bool} {t : Tab} {n : ℕ} (al : Aligned t n) (hl : mask.length = n) {j : ℕ}
    (hj : j < (maskPos mask).length) : (subArgs mask t).star j = t.star (maskPos mask)[j]! := by
  have e : ∀ {α : Type} [Inhabited α] {l : List α}, l.length = n → (maskSel mask l)[j]! = l[(maskPos mask)[j]!]! :=
    fun h => maskSel_get! (by rw [hl, h]) hj
  simp only [StarArgs.star, subArgs, Val.at, Option.map_some, Option.getD_some, Tab.star]
  rw [e al.x, e al.y, e al.z, e al.vx, e al.vy, e al.vz, e al.m, e al.m0, e al.npop]

theorem newTab_aligned (b : Cluster) : Aligned (newTab b) 0 := by constructor <;> rfl

theorem subSse_tab (mask : List Bool) (p s : Full) : (subSse mask p s).tab = s.tab ∧ (subSse mask p s).id1 = s.id1 := by
  unfold subSse
  split
  · dsimp only; split <;> exact ⟨rfl, rfl⟩
  · split <;> exact ⟨rfl, rfl⟩

theorem subSse_cols (mask : List Bool) (p s : Full) (h1 : s.kw = []) (h2 : s.logl = []) (h3 : s.logr = [])
    (h4 : s.ep = []) (h5 : s.ospin = []) :
    (subSse mask p s).kw = (if 0 < p.logl.length ∨ 0 < p.kw.length then maskSel mask p.kw else []) ∧
    (subSse mask p s).logl = (if 0 < p.logl.length then maskSel mask p.logl else []) ∧
    (subSse mask p s).logr = (if 0 < p.logl.length then maskSel mask p.logr else []) ∧
    (subSse mask p s).ep = (if 0 < p.logl.length then
      (if p.ep.length ≠ 0 ∧ p.ospin.length ≠ 0 then maskSel mask p.ep
        else List.replicate (maskSel mask p.kw).length 0) else []) ∧
    (subSse mask p s).ospin = (if 0 < p.logl.length then
      (if p.ep.length ≠ 0 ∧ p.ospin.length ≠ 0 then maskSel mask p.ospin
        else List.replicate (maskSel mask p.kw).length 0) else []) := by
  unfold subSse
  by_cases h : 0 < p.logl.length
  · have h' : 0 < p.logl.length ∨ 0 < p.kw.length := .inl h
    by_cases h6 : p.ep.length ≠ 0 ∧ p.ospin.length ≠ 0
    · simp only [if_pos h, if_pos h', if_pos h6, h1, h2, h3, h4, h5, List.nil_append, and_self]
    · simp only [if_pos h, if_pos h', if_neg h6, h1, h2, h3, h4, h5, List.nil_append, and_self]
  · by_cases h' : 0 < p.kw.length
    · have h7 : 0 < p.logl.length ∨ 0 < p.kw.length := .inr h'
      simp only [if_neg h, if_pos h', if_pos h7, h2, h3, h4, h5, and_self]
    · have h7 : ¬(0 < p.logl.length ∨ 0 < p.kw.length) := by tauto
      simp only [if_neg h, if_neg h', if_neg h7, h1, h2, h3, h4, h5, and_self]

theorem subBse_cols (mask : List Bool) (p s : Full) :
    (subBse mask p s).kw = s.kw ∧ (subBse mask p s).logl = s.logl ∧ (subBse mask p s).logr = s.logr ∧
    (subBse mask p s).ep = s.ep ∧ (subBse mask p s).ospin = s.ospin ∧ (subBse mask p s).kin = s.kin ∧
    (subBse mask p s).pot = s.pot ∧ (subBse mask p s).etot = s.etot := by
  unfold subBse
  split <;> exact ⟨rfl, rfl, rfl, rfl, rfl, rfl, rfl, rfl⟩

theorem subBse_tab (mask : List Bool) (p s : Full) : ∃ nb id2 b, (subBse mask p s).tab =
      { s.tab with base := b, nb := nb, id2 := id2 } ∧ b.units = s.tab.base.units ∧ b.origin = s.tab.base.origin ∧
      b.tphys = s.tab.base.tphys ∧ b.bunits = s.tab.base.bunits ∧ b.rorder = s.tab.base.rorder ∧
      b.rproorder = s.tab.base.rproorder ∧ (p.tab.id2 = [] → nb = s.tab.nb) := by
  unfold subBse
  split
  · rename_i h
    exact ⟨_, _, _, rfl, rfl, rfl, rfl, rfl, rfl, rfl, fun e => by rw [e] at h; simp at h⟩
  · exact ⟨_, _, _, rfl, rfl, rfl, rfl, rfl, rfl, rfl, fun _ => rfl⟩

theorem subEnergies_cols (mask : List Bool) (p s : Full) (h1 : s.kin = []) (h2 : s.pot = []) (h3 : s.etot = []) :
    (subEnergies mask p s).tab = s.tab ∧ (subEnergies mask p s).id1 = s.id1 ∧ (subEnergies mask p s).kw = s.kw ∧
    (subEnergies mask p s).logl = s.logl ∧ (subEnergies mask p s).logr = s.logr ∧ (subEnergies mask p s).ep = s.ep ∧
    (subEnergies mask p s).ospin = s.ospin ∧
    (subEnergies mask p s).kin = (if 0 < p.etot.length then maskSel mask p.kin else []) ∧
    (subEnergies mask p s).pot = (if 0 < p.etot.length then maskSel mask p.pot else []) ∧
    (subEnergies mask p s).etot = (if 0 < p.etot.length then
      List.zipWith (· + ·) (maskSel mask p.kin) (maskSel mask p.pot) else []) := by
  unfold subEnergies
  split
  · exact ⟨rfl, rfl, rfl, rfl, rfl, rfl, rfl, rfl, rfl, rfl⟩
  · exact ⟨rfl, rfl, rfl, rfl, rfl, rfl, rfl, h1, h2, h3⟩

/-- Column values of a selection: `l'` is `l` at the positions `sel`. -/
def Picked {α : Type} [Inhabited α] (sel : List ℕ) (l l' : List α) : Prop :=
  l'.length = sel.length ∧ ∀ j < sel.length, l'[j]! = l[sel[j]!]!

theorem Picked.of_mask {α : Type} [Inhabited α] {mask : List Bool} {l : List α} (h : mask.length = l.length) :
    Picked (maskPos mask) l (maskSel mask l) :=
  ⟨maskSel_length h, fun _ hj => maskSel_get! h hj⟩

/-- The copying steps of `sub_cluster`. -/
def copied (mask : List Bool) (p s : Full) : Full :=
  subOrbit p (subEnergies mask p (subBse mask p (subSse mask p (subNbody6 mask p s))))

/-- A cluster just filled by `add_stars`. -/
def fresh (p : Full) (t : Tab) : Full :=
  { newFull (newCluster p.tab.base.units p.tab.base.origin (bunitsOfUnits p.tab.base.units) p.tab.base.tphys) with tab := t }

theorem subSse_energies (mask : List Bool) (p s : Full) : (subSse mask p s).kin = s.kin ∧ (subSse mask p s).pot = s.pot ∧
    (subSse mask p s).etot = s.etot := by
  unfold subSse
  split
  · dsimp only; split <;> exact ⟨rfl, rfl, rfl⟩
  · split <;> exact ⟨rfl, rfl, rfl⟩

theorem copied_cols {mask : List Bool} {p : Full} {t : Tab} :
    (copied mask p (fresh p t)).kw = (if 0 < p.logl.length ∨ 0 < p.kw.length then maskSel mask p.kw else []) ∧
    (copied mask p (fresh p t)).logl = (if 0 < p.logl.length then maskSel mask p.logl else []) ∧
    (copied mask p (fresh p t)).logr = (if 0 < p.logl.length then maskSel mask p.logr else []) ∧
    (copied mask p (fresh p t)).ep = (if 0 < p.logl.length then
      (if p.ep.length ≠ 0 ∧ p.ospin.length ≠ 0 then maskSel mask p.ep
        else List.replicate (maskSel mask p.kw).length 0) else []) ∧
    (copied mask p (fresh p t)).ospin = (if 0 < p.logl.length then
      (if p.ep.length ≠ 0 ∧ p.ospin.length ≠ 0 then maskSel mask p.ospin
        else List.replicate (maskSel mask p.kw).length 0) else []) ∧
    (copied mask p (fresh p t)).kin = (if 0 < p.etot.length then maskSel mask p.kin else []) ∧
    (copied mask p (fresh p t)).pot = (if 0 < p.etot.length then maskSel mask p.pot else []) ∧
    (copied mask p (fresh p t)).etot = (if 0 < p.etot.length then
      List.zipWith (· + ·) (maskSel mask p.kin) (maskSel mask p.pot) else []) := by
  obtain ⟨s0, hs0⟩ : ∃ s0, s0 = subNbody6 mask p (fresh p t) := ⟨_, rfl⟩
  have e0 : s0.kw = [] ∧ s0.logl = [] ∧ s0.logr = [] ∧ s0.ep = [] ∧ s0.ospin = [] ∧ s0.kin = [] ∧ s0.pot = [] ∧
      s0.etot = [] := by rw [hs0]; exact ⟨rfl, rfl, rfl, rfl, rfl, rfl, rfl, rfl⟩
  obtain ⟨a1, a2, a3, a4, a5, a6, a7, a8⟩ := e0
  obtain ⟨b1, b2, b3, b4, b5⟩ := subSse_cols mask p s0 a1 a2 a3 a4 a5
  obtain ⟨c1, c2, c3⟩ := subSse_energies mask p s0
  obtain ⟨d1, d2, d3, d4, d5, d6, d7, d8⟩ := subBse_cols mask p (subSse mask p s0)
  obtain ⟨-, -, f1, f2, f3, f4, f5, f6, f7, f8⟩ := subEnergies_cols mask p (subBse mask p (subSse mask p s0))
    (by rw [d6, c1, a6]) (by rw [d7, c2, a7]) (by rw [d8, c3, a8])
  unfold copied
  rw [← hs0]
  refine ⟨?_, ?_, ?_, ?_, ?_, f6, f7, f8⟩
  · exact f1.trans (d1.trans b1)
  · exact f2.trans (d2.trans b2)
  · exact f3.trans (d3.trans b3)
  · exact f4.trans (d4.trans b4)
  · exact f5.trans (d5.trans b5)

/-- The star table after the copying steps. -/
theorem copied_tab {mask : List Bool} {p : Full} {t : Tab} : ∃ nb id2 b, (copied mask p (fresh p t)).tab =
      { t with base := b, nb := nb, id2 := id2, ns := p.tab.ns } ∧ b.units = t.base.units ∧ b.origin = t.base.origin ∧
      b.tphys = t.base.tphys ∧ b.bunits = t.base.bunits ∧ b.c = p.tab.base.c ∧ b.gc = p.tab.base.gc ∧
      b.rorder = t.base.rorder ∧ b.rproorder = t.base.rproorder ∧ (p.tab.id2 = [] → nb = p.tab.nb) := by
  obtain ⟨s0, hs0⟩ : ∃ s0, s0 = subNbody6 mask p (fresh p t) := ⟨_, rfl⟩
  obtain ⟨c1, c2, c3⟩ := subSse_energies mask p s0
  obtain ⟨-, -, -, -, -, d6, d7, d8⟩ := subBse_cols mask p (subSse mask p s0)
  obtain ⟨t1, -⟩ := subSse_tab mask p s0
  obtain ⟨nb, id2, b, h1, u1, u2, u3, u4, u5, u6, u7⟩ := subBse_tab mask p (subSse mask p s0)
  have k : s0.kin = [] ∧ s0.pot = [] ∧ s0.etot = [] := by rw [hs0]; exact ⟨rfl, rfl, rfl⟩
  obtain ⟨f0, -⟩ := subEnergies_cols mask p (subBse mask p (subSse mask p s0))
    (by rw [d6, c1, k.1]) (by rw [d7, c2, k.2.1]) (by rw [d8, c3, k.2.2])
  rw [t1] at u1 u2 u3 u4 u5 u6 u7 h1
  have e : (copied mask p (fresh p t)).tab = { (subEnergies mask p (subBse mask p (subSse mask p s0))).tab with
      base := { (subEnergies mask p (subBse mask p (subSse mask p s0))).tab.base with
        gc := p.tab.base.gc, c := p.tab.base.c, skyGc := p.tab.base.skyGc } } := by
    rw [hs0]; rfl
  rw [e, f0, h1]
  refine ⟨nb, id2, { b with gc := p.tab.base.gc, c := p.tab.base.c, skyGc := p.tab.base.skyGc }, ?_, u1.trans ?_, u2.trans ?_, u3.trans ?_, u4.trans ?_, rfl, rfl, u5.trans ?_, u6.trans ?_,
    fun h => (u7 h).trans ?_⟩
  all_goals (rw [hs0]; rfl)

theorem copied_bse {mask : List Bool} {p : Full} {t : Tab} (hb : t.base.bin = ⟨[], [], [], []⟩) (hid : t.id2 = [])
    (h : 0 < p.tab.id2.length) :
    let b := List.zipWith or (isinMask p.id1 (maskSel mask p.tab.id)) (isinMask p.tab.id2 (maskSel mask p.tab.id))
    (copied mask p (fresh p t)).id1 = maskSel b p.id1 ∧
    (copied mask p (fresh p t)).tab.id2 = maskSel b p.tab.id2 ∧
    (copied mask p (fresh p t)).tab.nb = (maskSel b p.id1).length ∧
    (copied mask p (fresh p t)).tab.base.bin.semi = maskSel b p.tab.base.bin.semi ∧
    (copied mask p (fresh p t)).tab.base.bin.pb = maskSel b p.tab.base.bin.pb ∧
    (copied mask p (fresh p t)).tab.base.bin.m1 = maskSel b p.tab.base.bin.m1 ∧
    (copied mask p (fresh p t)).tab.base.bin.m2 = maskSel b p.tab.base.bin.m2 := by
  intro b
  obtain ⟨s0, hs0⟩ : ∃ s0, s0 = subNbody6 mask p (fresh p t) := ⟨_, rfl⟩
  obtain ⟨c1, c2, c3⟩ := subSse_energies mask p s0
  obtain ⟨-, -, -, -, -, d6, d7, d8⟩ := subBse_cols mask p (subSse mask p s0)
  obtain ⟨t1, t2⟩ := subSse_tab mask p s0
  have k : s0.kin = [] ∧ s0.pot = [] ∧ s0.etot = [] ∧ s0.tab.base.bin = ⟨[], [], [], []⟩ ∧ s0.tab.id2 = [] ∧
      s0.id1 = [] := by
    rw [hs0]; exact ⟨rfl, rfl, rfl, hb, hid, rfl⟩
  obtain ⟨k1, k2, k3, k4, k5, k6⟩ := k
  obtain ⟨f0, f1, -⟩ := subEnergies_cols mask p (subBse mask p (subSse mask p s0))
    (by rw [d6, c1, k1]) (by rw [d7, c2, k2]) (by rw [d8, c3, k3])
  have e1 : (copied mask p (fresh p t)).id1 = (subBse mask p (subSse mask p s0)).id1 := by
    rw [← f1, hs0]; rfl
  have e2 : (copied mask p (fresh p t)).tab.id2 = (subBse mask p (subSse mask p s0)).tab.id2 ∧
      (copied mask p (fresh p t)).tab.nb = (subBse mask p (subSse mask p s0)).tab.nb ∧
      (copied mask p (fresh p t)).tab.base.bin = (subBse mask p (subSse mask p s0)).tab.base.bin := by
    rw [← f0, hs0]; exact ⟨rfl, rfl, rfl⟩
  rw [e1, e2.1, e2.2.1, e2.2.2]
  unfold subBse
  rw [if_pos h]
  dsimp only
  rw [t1, t2, k4, k5, k6]
  simp only [List.nil_append]
  exact ⟨rfl, rfl, rfl, rfl, rfl, rfl, rfl⟩

/-- What `sub_cluster` does, step by step. -/
theorem subCluster_run {q : SubArgs} {sort : Bool} {p s : Full} {indx : Option ℕ} {mem mem' : Mem} {n : ℕ}
    (ok : p.view.Ok q n) (hi : GivenOk indx mem n) (h : subCluster q sort p indx mem = .ok (s, mem')) :
    ∃ mask, MaskOf mask n (fun i => given indx mem i ∧ Passes q p.view i) ∧
      ((maskPos mask = [] ∧ s = newFull (newCluster none none none p.tab.base.tphys)) ∨
       (maskPos mask ≠ [] ∧ ∃ t t', addStars (subArgs mask p.tab) 0 sort true
          (newTab (newCluster p.tab.base.units p.tab.base.origin (bunitsOfUnits p.tab.base.units) p.tab.base.tphys)) = .ok t ∧
          analyzeTab sort (copied mask p (fresh p t)).tab = .ok t' ∧
          s = { copied mask p (fresh p t) with tab := t' })) := by
  obtain ⟨k, mem1, h1, hm⟩ := subset_any ok hi
  refine ⟨mem1[k]!, hm, ?_⟩
  unfold subCluster at h
  simp only [h1, bind, Except.bind, pure, Except.pure] at h
  by_cases hc : 0 < (mem1[k]!).count true
  · rw [if_pos hc] at h
    right
    refine ⟨count_pos_iff.mp hc, ?_⟩
    split at h
    · simp at h
    · rename_i t ht
      split at h
      · simp at h
      · rename_i t' ht'
        refine ⟨t, t', ht, ht', ?_⟩
        simp only [Except.ok.injEq, Prod.mk.injEq] at h
        exact h.1.symm
  · rw [if_neg hc] at h
    left
    refine ⟨by_contra fun hne => hc (count_pos_iff.mpr hne), ?_⟩
    simp only [Except.ok.injEq, Prod.mk.injEq] at h
    exact h.1.symm

theorem analyzeTab_base {sort : Bool} {t t' : Tab} (h : analyzeTab sort t = .ok t') :
    ∃ b, t' = { t with base := b } ∧
      analyze sort { t.base with st := rowsOf t.x t.y t.z t.vx t.vy t.vz, m := t.m } = .ok b := by
  unfold analyzeTab at h
  split at h
  · simp [throw, throwThe, MonadExceptOf.throw, bind, Except.bind] at h
  · simp only [pure, Except.pure, bind, Except.bind] at h
    split at h
    · simp at h
    · rename_i b hb
      exact ⟨b, (Except.ok.inj h).symm, hb⟩

/-- `add_stars` leaves the data that are not about stars. -/
theorem addStars_base {a : StarArgs} {n k : ℕ} {sort : Bool} {t t' : Tab} (f : a.Fits n) (al : Aligned t k)
    (h : addStars a 0 sort true t = .ok t') :
    t'.base.units = t.base.units ∧ t'.base.origin = t.base.origin ∧ t'.base.tphys = t.base.tphys ∧
    t'.base.bunits = t.base.bunits ∧ t'.base.bin = t.base.bin ∧ t'.id2 = t.id2 ∧ t'.nb = t.nb := by
  unfold addStars at h
  simp only [Nat.lt_irrefl, if_false, bind, Except.bind, Nat.mul_zero, addSingles_eq f,
    (al.appended (a := a) (n := n)).fix, if_true] at h
  obtain ⟨s, hs, s1, s2, s3, s4, s5⟩ : ∃ s, addSkyCols a.expand (appended a n t) = { appended a n t with base := s } ∧
      s.units = t.base.units ∧ s.origin = t.base.origin ∧ s.tphys = t.base.tphys ∧ s.bunits = t.base.bunits ∧
      s.bin = t.base.bin := by
    unfold addSkyCols
    split
    · exact ⟨_, rfl, rfl, rfl, rfl, rfl, rfl⟩
    · exact ⟨_, rfl, rfl, rfl, rfl, rfl, rfl⟩
  rw [hs] at h
  split at h
  · simp at h
  · rename_i u hu
    obtain ⟨b, rfl, hb⟩ := analyzeTab_base hu
    have hc := analyze_core hb
    obtain ⟨k1, k2, k3, -⟩ := core_fields hc
    have k4 : b.bunits = s.bunits := (congrArg Cluster.bunits hc :)
    have k5 : b.bin = s.bin := (congrArg Cluster.bin hc :)
    rw [← Except.ok.inj h]
    exact ⟨k1.trans s1, k2.trans s2, k3.trans s3, k4.trans s4, k5.trans s5, rfl, rfl⟩

/-- **C22 (rows).**  `sub_cluster` returns exactly the selected stars in the original order, every star with all the
values of its row in the parent; `ntot` is the number of selected stars. -/
theorem C22_rows {q : SubArgs} {sort : Bool} {p s : Full} {indx : Option ℕ} {mem mem' : Mem} {n : ℕ}
    (al : Aligned p.tab n) (ok : p.view.Ok q n) (hi : GivenOk indx mem n)
    (h : subCluster q sort p indx mem = .ok (s, mem')) :
    ∃ sel : List ℕ, sel.Pairwise (· < ·) ∧
      (∀ i, i ∈ sel ↔ i < n ∧ given indx mem i ∧ Passes q p.view i) ∧
      Aligned s.tab sel.length ∧ s.tab.ntot = sel.length ∧
      (∀ j < sel.length, s.tab.star j = p.tab.star sel[j]! ∧ s.tab.id[j]! = p.tab.id[sel[j]!]!) ∧
      (sel ≠ [] →
        s.tab.base.units = p.tab.base.units ∧ s.tab.base.origin = p.tab.base.origin ∧
        s.tab.base.tphys = p.tab.base.tphys ∧ s.tab.base.c = p.tab.base.c ∧ s.tab.base.gc = p.tab.base.gc ∧
        (p.kw.length = n → Picked sel p.kw s.kw) ∧
        (p.logl.length = n → Picked sel p.logl s.logl) ∧
        (p.logl.length = n → p.logr.length = n → Picked sel p.logr s.logr) ∧
        (p.logl.length = n → p.ep.length = n → p.ospin.length = n → Picked sel p.ep s.ep ∧ Picked sel p.ospin s.ospin) ∧
        (p.etot.length = n → p.kin.length = n → p.pot.length = n → Picked sel p.kin s.kin ∧ Picked sel p.pot s.pot)) := by
  obtain ⟨mask, hm, hcase⟩ := subCluster_run ok hi h
  refine ⟨maskPos mask, maskPos_sorted mask, ?_, ?_⟩
  · intro i
    rw [mem_maskPos, hm.len]
    constructor
    · rintro ⟨h1, h2⟩; exact ⟨h1, (hm.val i h1).mp h2⟩
    · rintro ⟨h1, h2⟩; exact ⟨h1, (hm.val i h1).mpr h2⟩
  · rcases hcase with ⟨he, rfl⟩ | ⟨hne, t, t', ht, ht', rfl⟩
    · rw [he]
      refine ⟨newTab_aligned _, rfl, ?_, fun h => (h rfl).elim⟩
      intro j hj
      simp at hj
    · have hf := subArgs_fits al hm.len hne
      obtain ⟨al1, n1, -, -, s1, i1, -⟩ := C18_add_stars hf (newTab_aligned _) ht
      simp only [Nat.zero_add] at al1 n1 s1 i1
      obtain ⟨nb, id2, b, hb, b1, b2, b3, -, b5, b6, -⟩ := copied_tab (mask := mask) (p := p) (t := t)
      obtain ⟨t1, t2, t3, -⟩ := addStars_base hf (newTab_aligned _) ht
      rw [hb] at ht'
      obtain ⟨d, rfl, hd⟩ := analyzeTab_base ht'
      obtain ⟨d1, d2, d3, -, -, d4, d5, -⟩ := core_fields (analyze_core hd)
      obtain ⟨v1, v2, v3, v4, v5, v6, v7, -⟩ := copied_cols (mask := mask) (p := p) (t := t)
      refine ⟨⟨al1.x, al1.y, al1.z, al1.vx, al1.vy, al1.vz, al1.m, al1.m0, al1.npop, al1.id⟩, n1, ?_, ?_⟩
      · intro j hj
        refine ⟨(s1 j hj).trans (subArgs_star al hm.len hj), ?_⟩
        refine (i1 _ rfl j hj).trans ?_
        exact maskSel_get! (by rw [hm.len, al.id]) hj
      · intro _
        have npos := ok.pos
        refine ⟨d1.trans (b1.trans t1), d2.trans (b2.trans t2), d3.trans (b3.trans t3), d4.trans b5, d5.trans b6,
          ?_, ?_, ?_, ?_, ?_⟩
        · intro e
          show Picked _ _ (copied mask p (fresh p t)).kw
          rw [v1, if_pos (.inr (by omega))]
          exact Picked.of_mask (by rw [hm.len, e])
        · intro e
          show Picked _ _ (copied mask p (fresh p t)).logl
          rw [v2, if_pos (by omega)]
          exact Picked.of_mask (by rw [hm.len, e])
        · intro e e'
          show Picked _ _ (copied mask p (fresh p t)).logr
          rw [v3, if_pos (by omega)]
          exact Picked.of_mask (by rw [hm.len, e'])
        · intro e e1 e2
          show Picked _ _ (copied mask p (fresh p t)).ep ∧ Picked _ _ (copied mask p (fresh p t)).ospin
          rw [v4, v5, if_pos (by omega), if_pos (by omega), if_pos (by omega), if_pos (by omega)]
          exact ⟨Picked.of_mask (by rw [hm.len, e1]), Picked.of_mask (by rw [hm.len, e2])⟩
        · intro e e1 e2
          show Picked _ _ (copied mask p (fresh p t)).kin ∧ Picked _ _ (copied mask p (fresh p t)).pot
          rw [v6, v7, if_pos (by omega), if_pos (by omega)]
          exact ⟨Picked.of_mask (by rw [hm.len, e1]), Picked.of_mask (by rw [hm.len, e2])⟩

end

end CT
