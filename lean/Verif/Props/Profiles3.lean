/- Property theorems C53 (arguments are left alone), C54 (normalised radii). -/
import Verif.Props.Profiles2
import Verif.Props.Analysis

namespace CT

noncomputable section

set_option linter.unusedSimpArgs false

/-! ### Taking runs apart -/

theorem mProf_parts {g : Galpy} {a : ProfArgs} {cum : Bool} {e : PStars} {indx : Option ℕ} {mem : Mem} {c : Cluster}
    {x : List ℝ × List ℝ × List ℕ} {after : After} (h : mProf g a cum e indx mem c = .ok (x, after)) :
    ∃ c1 sel B, profStart g a.normalize a.normalize c = .ok c1 ∧ getSubset a.sub (viewOf c1 e) indx mem = .ok sel ∧
      profBinned a (if a.sub.projected then c1.d.rpro else c1.d.r) sel = .ok B ∧
      returnCluster g (saveCluster c) false none c1 = .ok after.cluster ∧ massRadiiOut g a c1 after.cluster B.mid = .ok x.1 ∧
      after.mem = sel.2 ∧ after.mid = midAfter a c1 after.cluster x.1 := by
  unfold mProf at h
  simp only [bind] at h
  obtain ⟨c1, h1, h⟩ := bind_ok h
  obtain ⟨sel, h2, h⟩ := bind_ok h
  obtain ⟨B, h3, h⟩ := bind_ok h
  obtain ⟨c2, h4, h⟩ := bind_ok h
  obtain ⟨r, h5, h⟩ := bind_ok h
  obtain ⟨ms, h6, h⟩ := bind_ok h
  simp only [pure, Except.pure, Except.ok.injEq, Prod.mk.injEq] at h
  obtain ⟨rfl, rfl⟩ := h
  exact ⟨c1, sel, B, h1, h2, h3, h4, h5, rfl, rfl⟩

theorem rhoProf_parts {g : Galpy} {a : ProfArgs} {e : PStars} {indx : Option ℕ} {mem : Mem} {c : Cluster}
    {x : List ℝ × List ℝ × List ℕ} {after : After} (h : rhoProf g a e indx mem c = .ok (x, after)) :
    ∃ c1 sel B, profStart g a.normalize a.normalize c = .ok c1 ∧ getSubset a.sub (viewOf c1 e) indx mem = .ok sel ∧
      profBinned a (if a.sub.projected then c1.d.rpro else c1.d.r) sel = .ok B ∧
      returnCluster g (saveCluster c) false none c1 = .ok after.cluster ∧ massRadiiOut g a c1 after.cluster B.mid = .ok x.1 ∧
      after.mem = sel.2 ∧ after.mid = midAfter a c1 after.cluster x.1 := by
  unfold rhoProf at h
  simp only [bind] at h
  obtain ⟨c1, h1, h⟩ := bind_ok h
  obtain ⟨sel, h2, h⟩ := bind_ok h
  obtain ⟨B, h3, h⟩ := bind_ok h
  obtain ⟨c2, h4, h⟩ := bind_ok h
  obtain ⟨r, h5, h⟩ := bind_ok h
  obtain ⟨ms, h6, h⟩ := bind_ok h
  simp only [pure, Except.pure, Except.ok.injEq, Prod.mk.injEq] at h
  obtain ⟨rfl, rfl⟩ := h
  exact ⟨c1, sel, B, h1, h2, h3, h4, h5, rfl, rfl⟩

theorem velProf_parts {g : Galpy} {k : VKind} {a : ProfArgs} {coord : Option VCoord} {e : PStars} {indx : Option ℕ} {mem : Mem}
    {c : Cluster} {x : List ℝ × List ℝ} {after : After} (h : velProf g k a coord e indx mem c = .ok (x, after)) :
    ∃ c1 sel, profStart g a.normalize a.normalize c = .ok c1 ∧ getSubset a.sub (viewOf c1 e) indx mem = .ok sel ∧
      after.mem = sel.2 ∧ after.mid = a.bins.map (fun b => b.2.1) := by
  unfold velProf at h
  simp only [bind] at h
  obtain ⟨c1, h1, h⟩ := bind_ok h
  obtain ⟨sel, h2, h⟩ := bind_ok h
  obtain ⟨⟨r, v, c1'⟩, h3, h⟩ := bind_ok h
  obtain ⟨B, h4, h⟩ := bind_ok h
  obtain ⟨rn, h5, h⟩ := bind_ok h
  obtain ⟨c2, h6, h⟩ := bind_ok h
  refine ⟨c1, sel, h1, h2, ?_⟩
  split at h
  · obtain ⟨rn', -, h⟩ := bind_ok h
    obtain ⟨ps, -, h⟩ := bind_ok h
    simp only [pure, Except.pure, Except.ok.injEq, Prod.mk.injEq] at h
    obtain ⟨-, rfl⟩ := h
    exact ⟨rfl, rfl⟩
  · obtain ⟨rn', -, h⟩ := bind_ok h
    obtain ⟨ps, -, h⟩ := bind_ok h
    simp only [pure, Except.pure, Except.ok.injEq, Prod.mk.injEq] at h
    obtain ⟨-, rfl⟩ := h
    exact ⟨rfl, rfl⟩

theorem profBinned_given {a : ProfArgs} {r : List ℝ} {sel : Option ℕ × Mem} {B : Binned} {b : List ℝ × List ℝ × List ℝ}
    (h : profBinned a r sel = .ok B) (hb : a.bins = some b) : B.mid = b.2.1 := by
  unfold profBinned at h
  split at h
  · cases h
  · simp only [profBins, hb, bind, Except.bind, pure, Except.pure, Except.ok.injEq] at h
    rw [← h]

/-! ### C53 -/

/-- The arrays named by `indx`, as they were before a call. -/
def MasksKept (mem mem' : Mem) : Prop := ∀ k < mem.length, mem'[k]! = mem[k]!

/-- **C53 (what is kept).**  Whatever the cluster and the result: a profile call without a mask changes no boolean array; the
velocity profiles never change the caller's bins, and `m_prof` and `rho_prof` do not without `normalize`. -/
theorem C53_kept_partial {g : Galpy} {a : ProfArgs} {e : PStars} {indx : Option ℕ} {mem : Mem} {c : Cluster} :
    (∀ cum x after, mProf g a cum e indx mem c = .ok (x, after) →
      (indx = none → MasksKept mem after.mem) ∧ (a.normalize = false → after.mid = a.bins.map (fun b => b.2.1))) ∧
    (∀ x after, rhoProf g a e indx mem c = .ok (x, after) →
      (indx = none → MasksKept mem after.mem) ∧ (a.normalize = false → after.mid = a.bins.map (fun b => b.2.1))) ∧
    (∀ k coord x after, velProf g k a coord e indx mem c = .ok (x, after) →
      (indx = none → MasksKept mem after.mem) ∧ after.mid = a.bins.map (fun b => b.2.1)) := by
  have hmid : ∀ {c1 c2 : Cluster} {B : Binned} {sel : Option ℕ × Mem} {r x : List ℝ}, a.normalize = false →
      profBinned a r sel = .ok B → massRadiiOut g a c1 c2 B.mid = .ok x → midAfter a c1 c2 x = a.bins.map (fun b => b.2.1) := by
    intro c1 c2 B sel r x hn hB hx
    unfold midAfter
    cases hb : a.bins with
    | none => rfl
    | some b =>
      simp only [Option.map_some, Option.some.injEq]
      split
      · rename_i hu
        have hBm := profBinned_given hB hb
        unfold massRadiiOut at hx
        simp only [hn, Bool.false_eq_true, and_false, if_false, bind, Except.bind] at hx
        have : convUnits (fun u t v => .ok (convertLength g c2 u t v)) c1 c2 B.mid = .ok B.mid := by
          unfold convUnits
          rw [hu]
          split
          · rename_i u t h1 h2
            rw [h1] at h2
            cases h2
            have := mapM_ok B.mid (fun v => .ok (convertLength g c2 u u v)) (fun x => x) (fun x _ => by simp [convertLength])
            simpa using this
          · rfl
        rw [this] at hx
        injection hx with hx
        rw [← hx, hBm]
      · rfl
  have hmem : ∀ {c1 : Cluster} {sel : Option ℕ × Mem}, getSubset a.sub (viewOf c1 e) indx mem = .ok sel → indx = none →
      MasksKept mem sel.2 := by
    intro c1 sel h hi
    subst hi
    obtain ⟨r, m'⟩ := sel
    exact C21_no_mask h
  refine ⟨fun cum x after h => ?_, fun x after h => ?_, fun k coord x after h => ?_⟩
  · obtain ⟨c1, sel, B, -, h2, h3, -, h5, h6, h7⟩ := mProf_parts h
    exact ⟨fun hi => by rw [h6]; exact hmem h2 hi, fun hn => by rw [h7]; exact hmid hn h3 h5⟩
  · obtain ⟨c1, sel, B, -, h2, h3, -, h5, h6, h7⟩ := rhoProf_parts h
    exact ⟨fun hi => by rw [h6]; exact hmem h2 hi, fun hn => by rw [h7]; exact hmid hn h3 h5⟩
  · obtain ⟨c1, sel, -, h2, h6, h7⟩ := velProf_parts h
    exact ⟨fun hi => by rw [h6]; exact hmem h2 hi, h7⟩

/-- **C53 fails for masks.**  After any of the profiles the caller's mask holds only the stars that also passed the filter. -/
theorem C53_mask_violated {g : Galpy} {c : Cluster} (p : Pos g c) (l : Lin c) (hg : Good c) (f : Fresh c) {a : ProfArgs} {e : PStars}
    {q : ℕ} {mem : Mem} (he : e.Ok a.sub c.st.length) (hm : mem[q]!.length = c.st.length) {cum : Bool}
    {x : List ℝ × List ℝ × List ℕ} {after : After} (h : mProf g a cum e (some q) mem c = .ok (x, after)) :
    ∀ i < c.st.length, (after.mem[q]!)[i]! = true ↔
      ((mem[q]!)[i]! = true ∧ Passes a.sub (rowsView (centred c) c.m e) i) := by
  obtain ⟨c1, sel, B, h1, h2, -, -, -, h6, -⟩ := mProf_parts h
  obtain ⟨c1', h1', s1⟩ := profStart_spec (g := g) a.normalize a.normalize p l hg f
  rw [h1] at h1'
  cases h1'
  have hn : 1 ≤ c.st.length := List.length_pos_iff.mpr hg.ne
  have ok := rowsView_ok (q := a.sub) hn (centred_length c) hg.len he
  rw [s1.view] at h2
  obtain ⟨mem', k1, k2⟩ := C21_mask_overwritten_violated (mem := mem) (p := q) ok hm
  rw [h2] at k1
  injection k1 with k1
  rw [h6, k1]
  exact k2

/-- **C53 fails for bins.**  With `normalize=True` the middle values of the caller's bins have been divided by the half-mass
radius after the call, so the next call with the same bins divides them once more. -/
theorem C53_bins_violated {g : Galpy} {c : Cluster} (p : Pos g c) (l : Lin c) (hg : Good c) (f : Fresh c) (hu : c.units ≠ some .amuse)
    {a : ProfArgs} {e : PStars} {indx : Option ℕ} {mem : Mem} {cum : Bool} {b : List ℝ × List ℝ × List ℝ} (hb : a.bins = some b)
    (hn : a.normalize = true) (hp : a.plot = false) {x : List ℝ × List ℝ × List ℕ} {after : After}
    (h : mProf g a cum e indx mem c = .ok (x, after)) :
    ∃ rm, after.cluster.d.rm = some rm ∧ x.1 = b.2.1.map (· / rm) ∧ after.mid = some (b.2.1.map (· / rm)) ∧
      ∀ {indx' : Option ℕ} {mem' : Mem} {y : List ℝ × List ℝ × List ℕ} {after' : After},
        mProf g { a with bins := some (b.1, after.mid.getD [], b.2.2) } cum e indx' mem' after.cluster = .ok (y, after') →
        ∃ rm', after'.cluster.d.rm = some rm' ∧ y.1 = (b.2.1.map (· / rm)).map (· / rm') := by
  have one : ∀ {c : Cluster} (p : Pos g c) (l : Lin c) (hg : Good c) (f : Fresh c) (hu : c.units ≠ some .amuse)
      {a : ProfArgs} {indx : Option ℕ} {mem : Mem} {b : List ℝ × List ℝ × List ℝ} (hb : a.bins = some b)
      (hn : a.normalize = true) (hp : a.plot = false) {x : List ℝ × List ℝ × List ℕ} {after : After}
      (h : mProf g a cum e indx mem c = .ok (x, after)),
      ∃ rm, after.cluster.d.rm = some rm ∧ x.1 = b.2.1.map (· / rm) ∧ after.mid = some (b.2.1.map (· / rm)) ∧
        after.cluster.data = c.data ∧ Fresh after.cluster ∧ Good after.cluster ∧ after.cluster.rest = c.rest := by
    intro c p l hg f hu a indx mem b hb hn hp x after h
    obtain ⟨c1, sel, B, h1, h2, h3, h4, h5, h6, h7⟩ := mProf_parts h
    obtain ⟨c1', h1', s1⟩ := profStart_spec (g := g) a.normalize a.normalize p l hg f
    rw [h1] at h1'
    cases h1'
    obtain ⟨c2, h4', d2, f2, g2, -, r2⟩ := return_of_world (sort := false) (cm := none) p l hg s1.good s1.lin s1.rest s1.world
    rw [h4] at h4'
    cases h4'
    obtain ⟨c0, ha, -, -⟩ := return_analyze h4
    obtain ⟨rm, -, hrm, -⟩ := analyze_rm_some ha
    have hu2 : after.cluster.units = c.units := congrArg Data.units d2
    have hr := radii_out s1 hu2 (a := a) (.inl hp) hrm B.mid
    rw [h5, hn, if_pos rfl, profBinned_given h3 hb] at hr
    injection hr with hr
    refine ⟨rm, hrm, hr, ?_, d2, f2, g2, r2⟩
    rw [h7]
    unfold midAfter
    have : c1.units = after.cluster.units := by rw [s1.units, if_neg hu, hu2]
    rw [hb, Option.map_some, if_pos this, hr]
  obtain ⟨rm, k1, k2, k3, k4, k5, k6, k7⟩ := one p l hg f hu hb hn hp h
  refine ⟨rm, k1, k2, k3, ?_⟩
  intro indx' mem' y after' h'
  have hd : ∀ {α : Type} (q : Data → α), q after.cluster.data = q c.data := fun q => congrArg q k4
  have l2 : Lin after.cluster := ⟨by rw [show after.cluster.units = c.units from hd Data.units]; exact l.1,
    by rw [show after.cluster.origin = c.origin from hd Data.origin]; exact l.2⟩
  obtain ⟨rm', m1, m2, -⟩ := one (p.of_rest k7) l2 k6 k5 (by rw [show after.cluster.units = c.units from hd Data.units]; exact hu)
    (a := { a with bins := some (b.1, after.mid.getD [], b.2.2) }) rfl hn hp h'
  refine ⟨rm', m1, ?_⟩
  rw [m2, k3]; rfl

/-! ### C54 -/

/-- The stored order, if it was made for the present origin, is a sort of the present radii. -/
def OrderCurrent (c : Cluster) : Prop := ∀ o, c.rorder = some o → c.rorderOrigin = c.origin → SortedBy (c.st.map Ph.r) o

/-- The stored half-mass radius is that of the present rows. -/
def RmCurrent (c : Cluster) : Prop := ∃ rm, c.d.rm = some rm ∧ IsMassRadius 0.5 c.m (c.st.map Ph.r) rm

theorem analyze_current {q : Bool} {c c' : Cluster} (hl : c.m.length = c.st.length) (hm : ∀ x ∈ c.m, 0 ≤ x) (ho : OrderCurrent c)
    (h : analyze true c q = .ok c') : OrderCurrent c' ∧ RmCurrent c' := by
  obtain ⟨k1, k2, k3, k4, -⟩ := analyze_same h
  constructor
  · intro o h1 h2
    obtain ⟨o', x1, x2, x3⟩ := analyze_rorder_sorted h
    rw [x1] at h1
    cases h1
    rw [k2]
    rcases x3 with rfl | ⟨y1, y2⟩
    · exact SortedBy.argsort _
    · exact ho _ y1 y2
  · obtain ⟨rm, -, x1, -, x2, -⟩ := C16_half_mass_radius q c c' hl hm ho h
    exact ⟨rm, x1, by rw [k1, k2]; exact x2⟩

theorem sortstars_current {c : Cluster} (hf : c.d.r = c.st.map Ph.r) (ho : OrderCurrent c) (hr : RmCurrent c) :
    OrderCurrent (sortstars true c.d.r c.d.rpro c) ∧ RmCurrent (sortstars true c.d.r c.d.rpro c) := by
  obtain ⟨k1, k2, -, k4, k5, -⟩ := core_fields (sortstars_core true c.d.r c.d.rpro c)
  have hd : (sortstars true c.d.r c.d.rpro c).d = c.d := by
    unfold sortstars; dsimp only; repeat' split
    all_goals rfl
  have hor : (sortstars true c.d.r c.d.rpro c).rorder = some (argsort c.d.r) ∨
      ((sortstars true c.d.r c.d.rpro c).rorder = c.rorder ∧ (sortstars true c.d.r c.d.rpro c).rorderOrigin = c.rorderOrigin) := by
    unfold sortstars; dsimp only; repeat' split
    all_goals simp
  constructor
  · intro o h1 h2
    rw [k5]
    rcases hor with h | ⟨h, h'⟩
    · rw [h] at h1; cases h1; rw [hf]; exact SortedBy.argsort _
    · rw [h] at h1; rw [h', k2] at h2; exact ho o h1 h2
  · obtain ⟨rm, x1, x2⟩ := hr
    exact ⟨rm, by rw [hd]; exact x1, by rw [k4, k5]; exact x2⟩

/-- The start of a normalised profile leaves a current half-mass radius about the centre. -/
theorem profStart_current {g : Galpy} {c c1 : Cluster} (l : Lin c) (hg : Good c) (f : Fresh c) (hm : ∀ x ∈ c.m, 0 ≤ x)
    (ho : OrderCurrent c) (hr : c.origin ≠ some .galaxy → RmCurrent c) (h : profStart g true true c = .ok c1) :
    OrderCurrent c1 ∧ RmCurrent c1 := by
  have fin : ∀ (x : Cluster), Good x → Fresh x → OrderCurrent x → (c.origin ≠ some .galaxy → RmCurrent x) →
      (∀ y ∈ x.m, 0 ≤ y) → x.origin = c.origin → x.units ≠ some .radec →
      (if c.origin ≠ some .cluster ∧ c.origin ≠ some .centre then toCentre true none x
        else if true then .ok (sortstars true x.d.r x.d.rpro x) else .ok x) = .ok c1 → OrderCurrent c1 ∧ RmCurrent c1 := by
    intro x gx fx ox rx mx xo xu h
    obtain ⟨-, o, ho', hl⟩ := l
    split at h
    · have hgal : x.origin = some .galaxy := by
        rw [xo, ho']; cases o <;> simp_all [Origin.linear]
      obtain ⟨ca, a1, a2⟩ := toCentre_galaxy hgal xu h
      have hs : setMethod none x = x := rfl
      unfold toCluster at a1
      rw [hgal] at a1
      simp only [bind, hs] at a1
      rw [if_pos (by simp), if_neg xu, if_neg (by simp), if_pos trivial] at a1
      simp only [Except.bind] at a1
      obtain ⟨o', y1, y2, -⟩ := analyze_rorder_sorted a1
      obtain ⟨k1, k2, -⟩ := analyze_same a1
      refine analyze_current (c := { ca with st := ca.st.map (·.sub ca.c), origin := some .centre }) ?_ ?_ ?_ a2
      · show ca.m.length = (ca.st.map _).length
        rw [k1, k2]; simp [gx.len]
      · show ∀ z ∈ ca.m, 0 ≤ z
        rw [k1]; exact mx
      · intro o2 z1 z2
        have z2' : ca.rorderOrigin = some .centre := z2
        rw [y2] at z2'
        cases z2'
    · rename_i hno
      rw [if_pos rfl] at h
      injection h with h
      rw [← h]
      refine sortstars_current ?_ ox (rx ?_)
      · rw [fx.r.eq_map]; rfl
      · intro hgal
        exact hno (by rw [hgal]; simp)
  unfold profStart at h
  simp only [bind, Except.bind] at h
  obtain ⟨⟨u, hu, hul⟩, -⟩ := id l
  by_cases ha : c.units = some .amuse
  · rw [if_pos ha] at h
    split at h
    · cases h
    · rename_i h1
      have k := toPckms_amuse ha h1
      simp only [toPckms, ha, bind, Except.bind, reduceCtorEq, or_self, if_false, if_true, analyzeIf, fromAmuse, pckmsStep,
        Option.some.injEq] at h1
      rename_i v
      have gv : Good v := by
        obtain ⟨v', y1, y2⟩ := analyze_total (s := true) (p := true) (c := { c with units := some .pckms })
          ⟨hg.ne, hg.len, hg.mass, hg.ro, hg.rpo⟩
        rw [h1] at y1
        cases y1; exact y2
      have hcur := analyze_current (c := { c with units := some .pckms }) hg.len hm ho h1
      exact fin v gv k.2.2.2.2 hcur.1 (fun _ => hcur.2) (by rw [k.1]; exact hm) k.2.2.2.1 (by rw [k.2.2.1]; simp) h
  · rw [if_neg ha] at h
    exact fin c hg f ho hr hm rfl (by rw [hu]; rintro e; cases e; exact hul) h

/-- After `return_cluster` of a saved cluster the half-mass radius is that of the saved rows. -/
theorem return_current {g : Galpy} {c c1 c2 : Cluster} (hg : Good c) (hm : ∀ x ∈ c.m, 0 ≤ x) (ho : OrderCurrent c)
    (h : returnCluster g (saveCluster c) false none c1 = .ok c2) (hd : c2.data = c.data) : RmCurrent c2 := by
  obtain ⟨c0, h0, h1, h2⟩ := return_analyze h
  obtain ⟨k1, k2, k3, k4, -⟩ := analyze_same h0
  have e1 : c2.m = c.m := congrArg Data.m hd
  have e2 : c2.st = c.st := congrArg Data.st hd
  have e3 : c2.origin = c.origin := congrArg Data.origin hd
  refine (analyze_current ?_ ?_ ?_ h0).2
  · rw [← k1, ← k2, e1, e2]; exact hg.len
  · rw [← k1, e1]; exact hm
  · intro o x1 x2
    rw [← k2, e2]
    refine ho o (by rw [← x1, h1]; rfl) ?_
    rw [← e3, k4, ← x2, h2]; rfl

/-- **C54 (mass and density profiles).**  Without plotting, the radii of a normalised `m_prof` or `rho_prof` are the bin radii
divided by the half-mass radius of the *three-dimensional* radii in the frame of the *caller's* cluster. -/
theorem C54_mass_type_partial {g : Galpy} {c : Cluster} (p : Pos g c) (l : Lin c) (hg : Good c) (f : Fresh c) (hmass : ∀ x ∈ c.m, 0 ≤ x)
    (ho : OrderCurrent c) {a : ProfArgs} {e : PStars}
    {indx : Option ℕ} {mem : Mem} (he : e.Ok a.sub c.st.length) (hm : ∀ q, indx = some q → mem[q]!.length = c.st.length)
    (hp : a.plot = false) (hn : a.normalize = true)
    (hc : BinsCover a c.st.length (Chosen a.sub e indx mem c) (radiusOf a.sub c)) :
    ∃ P mid rm rs, BinRadii a e indx mem c P mid ∧ IsMassRadius 0.5 c.m (c.st.map Ph.r) rm ∧ rs = mid.map (· / rm) ∧
      (∀ cum, ∃ ms ns after, mProf g a cum e indx mem c = .ok ((rs, ms, ns), after)) ∧
      (∃ ds ns after, rhoProf g a e indx mem c = .ok ((rs, ds, ns), after)) := by
  obtain ⟨c1, k, mem', B, P, c2, h1, s1, h2, h3, hB, h4, d2, f2, g2, r2⟩ := prof_parts a.normalize a.normalize p l hg f he hm hc
  obtain ⟨rm, hrm, hrad⟩ := return_current hg hmass ho h4 d2
  have hu : c2.units = c.units := congrArg Data.units d2
  have hr := radii_out s1 hu (a := a) (.inl hp) hrm B.mid
  rw [hn, if_pos rfl] at hr
  have hcm := fun x => conv_id s1 hu (f := fun u t v => convertMass c2 u t v) (by simp [convertMass]) (by simp [convertMass]) x
  have hcd := fun x => conv_id s1 hu (f := fun u t v => convertDensity g c2 a.sub.projected u t v)
    (by intro u x; simp [convertDensity, pure, Except.pure])
    (by intro x; simp [convertDensity, convertMass, Units.isPc, Units.isKpc, bind, Except.bind, pure, Except.pure]) x
  have e1 : c2.m = c.m := congrArg Data.m d2
  have e2 : c2.st = c.st := congrArg Data.st d2
  rw [e1, e2] at hrad
  refine ⟨P, B.mid, rm, B.mid.map (· / rm), hB.radii, hrad, rfl, fun cum => ?_, ?_⟩
  · refine ⟨((List.range B.mid.length).map (fun i => if cum then B.upTo i else B.at i)).map (fun w => (maskSel w c1.m).sum),
      ((List.range B.mid.length).map (fun i => if cum then B.upTo i else B.at i)).map (fun w => w.count true),
      ⟨c2, mem', midAfter a c1 c2 (B.mid.map (· / rm))⟩, ?_⟩
    simp only [mProf, bind, Except.bind, pure, Except.pure, h1, h2, h3, h4, hr, hcm]
  · refine ⟨(List.range B.mid.length).map (fun i =>
      ((maskSel (B.at i) c1.m).map (· / shell a.sub.projected B.lower[i]! B.upper[i]!)).sum),
      (List.range B.mid.length).map (fun i => (B.at i).count true), ⟨c2, mem', midAfter a c1 c2 (B.mid.map (· / rm))⟩, ?_⟩
    simp only [rhoProf, bind, Except.bind, pure, Except.pure, h1, h2, h3, h4, hr, hcd]

/-- So for clusters given from their position or centre, unprojected, they are in units of the half-mass radius. -/
theorem C54_mass_type_cluster_partial {g : Galpy} {c : Cluster} (p : Pos g c) (l : Lin c) (hg : Good c) (f : Fresh c)
    (hmass : ∀ x ∈ c.m, 0 ≤ x) (ho : OrderCurrent c) {a : ProfArgs} {e : PStars} {indx : Option ℕ} {mem : Mem}
    (he : e.Ok a.sub c.st.length) (hm : ∀ q, indx = some q → mem[q]!.length = c.st.length)
    (hp : a.plot = false) (hn : a.normalize = true) (hpr : a.sub.projected = false) (hor : c.origin ≠ some .galaxy)
    (hc : BinsCover a c.st.length (Chosen a.sub e indx mem c) (radiusOf a.sub c)) :
    ∃ P mid rm rs, BinRadii a e indx mem c P mid ∧
      IsMassRadius 0.5 c.m ((List.range c.st.length).map (radiusOf a.sub c)) rm ∧ rs = mid.map (· / rm) ∧
      (∀ cum, ∃ ms ns after, mProf g a cum e indx mem c = .ok ((rs, ms, ns), after)) ∧
      (∃ ds ns after, rhoProf g a e indx mem c = .ok ((rs, ds, ns), after)) := by
  obtain ⟨P, mid, rm, rs, x1, x2, x3⟩ := C54_mass_type_partial p l hg f hmass ho he hm hp hn hc
  refine ⟨P, mid, rm, rs, x1, ?_, x3⟩
  have : (List.range c.st.length).map (radiusOf a.sub c) = c.st.map Ph.r := by
    unfold radiusOf centred
    rw [if_neg hor, hpr]
    apply List.ext_getElem
    · simp
    · intro i h1 h2
      have : i < c.st.length := by simpa using h1
      simp only [List.getElem_map, List.getElem_range, getElem!_pos c.st i this]
      rfl
  rw [this]
  exact x2

/-- **C54 (velocity profiles).**  Unprojected, with any component it can compute and from any origin, the radii of a normalised
velocity profile are the bin radii divided by the half-mass radius about the cluster centre. -/
theorem C54_velocity_partial {g : Galpy} {c : Cluster} (p : Pos g c) (l : Lin c) (hg : Good c) (f : Fresh c)
    (hmass : ∀ x ∈ c.m, 0 ≤ x) (ho : OrderCurrent c) (hrc : RmCurrent c) (hr : HasRm c) {a : ProfArgs} {e : PStars} {indx : Option ℕ}
    {mem : Mem} (he : e.Ok a.sub c.st.length) (hm : ∀ q, indx = some q → mem[q]!.length = c.st.length)
    (hn : a.normalize = true) (hpr : a.sub.projected = false) (k : VKind) (coord : Option VCoord)
    (hs : ∀ x, coord = some x → Supported k a.sub.projected x) (hax : coord ≠ none → ∀ q ∈ centred c, OffAxis q)
    (hc : BinsCover a c.st.length (Chosen a.sub e indx mem c) (radiusOf a.sub c)) :
    ∃ P mid rm vs after, BinRadii a e indx mem c P mid ∧
      IsMassRadius 0.5 c.m ((List.range c.st.length).map (radiusOf a.sub c)) rm ∧
      velProf g k a coord e indx mem c = .ok ((mid.map (· / rm), vs), after) := by
  obtain ⟨rs, vs, after, P, x1, -, -, ⟨c1, c1', mid, y1, s1, s1', y2, y3, y4⟩, -⟩ := velProf_core p l hg f he hm (.inl hr) k coord hs hax hc
  rw [hn] at y1
  obtain ⟨o1, r1⟩ := profStart_current l hg f hmass ho (fun _ => hrc) y1
  have r1' : RmCurrent c1' := by
    rcases y2 with rfl | y2
    · exact r1
    · have p1 := p.of_rest s1.rest
      obtain ⟨c2, h2, d2, -⟩ := return_of_world (sort := false) (cm := none) p1 s1.lin s1.good s1.good s1.lin rfl rfl
      rw [y2] at h2
      cases h2
      exact return_current s1.good (by rw [s1.m]; exact hmass) o1 y2 d2
  obtain ⟨rm, z1, z2⟩ := r1'
  refine ⟨P, mid, rm, vs, after, y3, ?_, ?_⟩
  · rw [s1'.m, s1'.st] at z2
    have : (List.range c.st.length).map (radiusOf a.sub c) = (centred c).map Ph.r := by
      unfold radiusOf
      rw [hpr]
      apply List.ext_getElem
      · simp [centred_length]
      · intro i h1 h2
        have : i < (centred c).length := by simpa using h2
        simp only [List.getElem_map, List.getElem_range, getElem!_pos (centred c) i this]
        rfl
    rw [this]
    exact z2
  · unfold velRadii at y4
    rw [hn, hpr, if_pos rfl, if_neg (by simp), divRm_some z1] at y4
    injection y4 with y4
    rw [x1, y4]

/-- **C54 fails when the profile is also plotted**: the radii are divided by a half-mass radius twice. -/
theorem C54_plot_violated {g : Galpy} {c : Cluster} (p : Pos g c) (l : Lin c) (hg : Good c) (f : Fresh c) {a : ProfArgs} {e : PStars}
    {indx : Option ℕ} {mem : Mem} (hp : a.plot = true) (hn : a.normalize = true) {cum : Bool} {b : List ℝ × List ℝ × List ℝ}
    (hb : a.bins = some b) {x : List ℝ × List ℝ × List ℕ} {after : After} (h : mProf g a cum e indx mem c = .ok (x, after)) :
    ∃ rm1 rm2, after.cluster.d.rm = some rm2 ∧ x.1 = (b.2.1.map (· / rm1)).map (· / rm2) := by
  obtain ⟨c1, sel, B, h1, h2, h3, h4, h5, -⟩ := mProf_parts h
  obtain ⟨c1', h1', s1⟩ := profStart_spec (g := g) a.normalize a.normalize p l hg f
  rw [h1] at h1'
  cases h1'
  obtain ⟨c2, h4', d2, -⟩ := return_of_world (sort := false) (cm := none) p l hg s1.good s1.lin s1.rest s1.world
  rw [h4] at h4'
  cases h4'
  have hu : after.cluster.units = c.units := congrArg Data.units d2
  have hcl := fun x => conv_id s1 hu (f := fun u t v => .ok (convertLength g after.cluster u t v)) (by simp [convertLength])
    (by simp [convertLength, Units.isPc, Units.isKpc]) x
  obtain ⟨rm2, hr2⟩ := Option.ne_none_iff_exists'.mp (return_hasRm h4).1
  unfold massRadiiOut at h5
  rw [if_pos ⟨hp, hn⟩] at h5
  simp only [bind, if_pos hn, profBinned_given h3 hb] at h5
  obtain ⟨y, z1, h5⟩ := bind_ok h5
  obtain ⟨y', z2, h5⟩ := bind_ok h5
  cases h0 : c1.d.rm with
  | none => rw [h0] at z1; cases z1
  | some rm1 =>
    rw [divRm_some h0] at z1
    injection z1 with z1
    rw [hcl] at z2
    injection z2 with z2
    rw [divRm_some hr2] at h5
    injection h5 with h5
    exact ⟨rm1, rm2, hr2, by rw [← h5, ← z2, ← z1]⟩

/-- **C54 fails for clusters given from the galactic centre**: the half-mass radius used is that of the distances from the
galactic centre (6 in this example; about the cluster centre it is 4). -/
theorem C54_galaxy_violated : ∃ c a e rs ms ns after, Pos demoG c ∧ Lin c ∧ Good c ∧ Fresh c ∧ OrderCurrent c ∧ c.st = demoFive.st ∧
    a.normalize = true ∧ a.bins = some ([0, 7], [3, 8], [7, 9]) ∧ mProf demoG a false e none [] c = .ok ((rs, ms, ns), after) ∧
    rs = [3 / 6, 8 / 6] ∧ ¬ IsMassRadius 0.5 c.m ((List.range c.st.length).map (radiusOf a.sub c)) 6 := by
  have g0 : Good demoFive := ⟨by simp [demoFive], by simp [demoFive], by norm_num [demoFive], by simp [demoFive], by simp [demoFive]⟩
  obtain ⟨c, h, hg⟩ := analyze_total (s := true) (p := true) g0
  obtain ⟨k1, k2, -, k4, k5, kc, kg, -, -, -, -, kr⟩ := core_fields (analyze_core h)
  have p0 : Pos demoG demoFive := ⟨demo_pos.rbar, demo_pos.vbar, demo_pos.zmbar, demo_pos.tbar, demo_pos.ro, demo_pos.vo,
    demo_pos.time, demo_pos.mass, demo_pos.vel⟩
  have hcen : centred c = [⟨1, 0, 0, 1, 0, 0⟩, ⟨2, 0, 0, 0, 1, 0⟩, ⟨3, 0, 0, 0, 0, 1⟩, ⟨-4, 0, 0, -1, 0, 0⟩, ⟨-5, 0, 0, 0, 0, 2⟩] := by
    unfold centred
    rw [k2, if_pos (by rfl), k5, kc, kg]
    norm_num [demoFive]
  have hrad : ∀ i < 5, radiusOf {} c i = i + 1 := by
    intro i hi
    unfold radiusOf
    rw [hcen]
    interval_cases i <;> simp [dist0, Real.sqrt_sq_eq_abs] <;> norm_num
  have hmass : ∀ x ∈ demoFive.m, (0 : ℝ) ≤ x := by intro x hx; simp [demoFive] at hx; rcases hx with rfl | rfl | rfl | rfl | rfl <;> norm_num
  have hoc : OrderCurrent c := (analyze_current g0.len hmass (by intro o ho; simp [demoFive] at ho) h).1
  have l0 : Lin c := ⟨by rw [k1]; exact ⟨_, rfl, trivial⟩, by rw [k2]; exact ⟨_, rfl, trivial⟩⟩
  have hbc : BinsCover { bins := some ([0, 7], [3, 8], [7, 9]), normalize := true } c.st.length
      (Chosen {} ⟨[1, 1, 1, 1, 1], [], []⟩ none [] c) (radiusOf {} c) := by
    refine .inr ⟨_, 0, 9, rfl, rfl, rfl, .cons (by norm_num) (.one (by norm_num)), ?_⟩
    intro i hi _
    rw [k5] at hi
    have hi' : i < 5 := hi
    rw [hrad i hi']
    interval_cases i <;> norm_num
  obtain ⟨P, mid, rm, rs, x1, x2, x3, x4, -⟩ := C54_mass_type_partial (a := { bins := some ([0, 7], [3, 8], [7, 9]), normalize := true })
    (e := ⟨[1, 1, 1, 1, 1], [], []⟩) (indx := none) (mem := []) (p0.of_rest kr) l0 hg (analyze_fresh h) (by rw [k4]; exact hmass) hoc
    (by rw [k5]; exact ⟨rfl, .inl rfl, .inl ⟨rfl, rfl⟩⟩) (by simp) rfl rfl hbc
  obtain ⟨ms, ns, after, x4⟩ := x4 false
  have hrs : c.st.map Ph.r = [11, 12, 13, 6, 5] := by
    rw [k5]
    simp [demoFive, Ph.r, Real.sqrt_sq_eq_abs]
  rw [hrs, k4] at x2
  have hrm : rm = 6 := by
    obtain ⟨y1, y2, y3⟩ := x2
    have hmm : demoFive.m = [1, 2, 3, 4, 5] := rfl
    rw [hmm] at y2 y3
    simp only [List.mem_cons, List.not_mem_nil, or_false] at y1
    rcases y1 with rfl | rfl | rfl | rfl | rfl
    · have := y3 6 (by simp) (by norm_num); norm_num [massWhere] at this
    · have := y3 6 (by simp) (by norm_num); norm_num [massWhere] at this
    · have := y3 6 (by simp) (by norm_num); norm_num [massWhere] at this
    · rfl
    · norm_num [massWhere] at y2
  refine ⟨c, { bins := some ([0, 7], [3, 8], [7, 9]), normalize := true }, ⟨[1, 1, 1, 1, 1], [], []⟩, rs, ms, ns, after, p0.of_rest kr, l0, hg,
    analyze_fresh h, hoc, k5, rfl, rfl, x4, ?_, ?_⟩
  · rw [x3, x1.given _ rfl, hrm]; simp
  · intro hbad
    have h5 : c.st.length = 5 := by rw [k5]; rfl
    have hm6 := hbad.1
    rw [h5] at hm6
    simp only [List.mem_map, List.mem_range] at hm6
    obtain ⟨i, hi, hi6⟩ := hm6
    have e6 : radiusOf {} c i = 6 := hi6
    rw [hrad i hi] at e6
    interval_cases i <;> norm_num at e6

/-- Two stars of unequal mass whose half-mass radius differs in projection. -/
def demoTwo : Cluster := { demo with m := [3, 1], rorder := none, rproorder := none }

/-- **C54 fails for projected mass and density profiles**: the projected radii are divided by the three-dimensional half-mass
radius (5 in this example; in projection it is 3). -/
theorem C54_projected_violated : ∃ c a e rs ms ns after, Pos demoG c ∧ Lin c ∧ Good c ∧ Fresh c ∧ OrderCurrent c ∧
    c.origin = some .cluster ∧ a.sub.projected = true ∧ a.normalize = true ∧ a.bins = some ([0], [2], [4]) ∧
    mProf demoG a false e none [] c = .ok ((rs, ms, ns), after) ∧
    rs = [2 / 5] ∧ ¬ IsMassRadius 0.5 c.m ((List.range c.st.length).map (radiusOf a.sub c)) 5 := by
  have g0 : Good demoTwo := ⟨by simp [demoTwo, demo], by simp [demoTwo, demo], by norm_num [demoTwo], by simp [demoTwo], by simp [demoTwo]⟩
  obtain ⟨c, h, hg⟩ := analyze_total (s := true) (p := true) g0
  obtain ⟨k1, k2, -, k4, k5, kc, kg, -, -, -, -, kr⟩ := core_fields (analyze_core h)
  have p0 : Pos demoG demoTwo := ⟨demo_pos.rbar, demo_pos.vbar, demo_pos.zmbar, demo_pos.tbar, demo_pos.ro, demo_pos.vo,
    demo_pos.time, demo_pos.mass, demo_pos.vel⟩
  have hcen : centred c = [⟨3, 0, 4, 1, 0, 0⟩, ⟨0, 1, 0, 0, -2, 5⟩] := by
    unfold centred
    rw [k2, if_neg (by simp [demoTwo, demo]), k5]; rfl
  have hrad : ∀ i < 2, radiusOf { projected := true } c i = if i = 0 then 3 else 1 := by
    intro i hi
    unfold radiusOf
    rw [hcen]
    interval_cases i <;> simp [dist0, Real.sqrt_sq_eq_abs]
  have hmass : ∀ x ∈ demoTwo.m, (0 : ℝ) ≤ x := by intro x hx; simp [demoTwo] at hx; rcases hx with rfl | rfl <;> norm_num
  have hoc : OrderCurrent c := (analyze_current g0.len hmass (by intro o ho; simp [demoTwo] at ho) h).1
  have l0 : Lin c := ⟨by rw [k1]; exact ⟨_, rfl, trivial⟩, by rw [k2]; exact ⟨_, rfl, trivial⟩⟩
  have hbc : BinsCover { sub := { projected := true }, bins := some ([0], [2], [4]), normalize := true } c.st.length
      (Chosen { projected := true } ⟨[1, 1], [], []⟩ none [] c) (radiusOf { projected := true } c) := by
    refine .inr ⟨_, 0, 4, rfl, rfl, rfl, .one (by norm_num), ?_⟩
    intro i hi _
    rw [k5] at hi
    have hi' : i < 2 := hi
    rw [hrad i hi']
    interval_cases i <;> norm_num
  obtain ⟨P, mid, rm, rs, x1, x2, x3, x4, -⟩ := C54_mass_type_partial
    (a := { sub := { projected := true }, bins := some ([0], [2], [4]), normalize := true })
    (e := ⟨[1, 1], [], []⟩) (indx := none) (mem := []) (p0.of_rest kr) l0 hg (analyze_fresh h) (by rw [k4]; exact hmass) hoc
    (by rw [k5]; exact ⟨rfl, .inl rfl, .inl ⟨rfl, rfl⟩⟩) (by simp) rfl rfl hbc
  obtain ⟨ms, ns, after, x4⟩ := x4 false
  have hrs : c.st.map Ph.r = [5, 1] := by
    rw [k5]
    simp only [demoTwo, demo, Ph.r, List.map_cons, List.map_nil]
    rw [show (3 : ℝ) ^ 2 + 0 ^ 2 + 4 ^ 2 = 5 ^ 2 by norm_num, show (0 : ℝ) ^ 2 + 1 ^ 2 + 0 ^ 2 = 1 ^ 2 by norm_num,
      Real.sqrt_sq (by norm_num), Real.sqrt_sq (by norm_num)]
  rw [hrs, k4] at x2
  have hrm : rm = 5 := by
    obtain ⟨y1, y2, y3⟩ := x2
    have hmm : demoTwo.m = [3, 1] := rfl
    rw [hmm] at y2 y3
    simp only [List.mem_cons, List.not_mem_nil, or_false] at y1
    rcases y1 with rfl | rfl
    · rfl
    · norm_num [massWhere] at y2
  refine ⟨c, { sub := { projected := true }, bins := some ([0], [2], [4]), normalize := true }, ⟨[1, 1], [], []⟩, rs, ms, ns, after,
    p0.of_rest kr, l0, hg, analyze_fresh h, hoc, k2, rfl, rfl, rfl, x4, ?_, ?_⟩
  · rw [x3, x1.given _ rfl, hrm]; simp
  · intro hbad
    have h2 : c.st.length = 2 := by rw [k5]; rfl
    have hm6 := hbad.1
    rw [h2] at hm6
    simp only [List.mem_map, List.mem_range] at hm6
    obtain ⟨i, hi, hi6⟩ := hm6
    have e6 : radiusOf { projected := true } c i = 5 := hi6
    rw [hrad i hi] at e6
    interval_cases i <;> norm_num at e6

end

end CT
