/- Property theorems C96 (profiles of the slope of the mass function) and C97 (where they fail). -/
import Verif.Spec.SlopeProf
import Verif.Props.MassFunction2
import Verif.Props.Profiles3
import Verif.Props.Eta3

namespace CT

noncomputable section

set_option linter.unusedSimpArgs false

/-! ### Half-mass radii are radii of stars -/

theorem massFracRadius_mem {f mt : ℝ} {m r : List ℝ} {o : List ℕ} {x : ℝ} (h : massFracRadius f mt m r o = .ok x) : x ∈ r := by
  unfold massFracRadius at h
  repeat' split at h
  all_goals first
    | cases h; done
    | (injection h with h; subst h; rename_i hx; exact List.mem_of_getElem? hx)

theorem massRadii_mem {o : Option (List ℕ)} {mt : ℝ} {m r : List ℝ} {old : Option ℝ × Option ℝ} {x y : ℝ} (ho : o ≠ none)
    (h : massRadii o mt m r old = .ok (some x, some y)) : x ∈ r := by
  cases o with
  | none => exact absurd rfl ho
  | some o =>
    simp only [massRadii, bind] at h
    obtain ⟨a, ha, h⟩ := bind_ok h
    obtain ⟨b, -, h⟩ := bind_ok h
    simp only [pure, Except.pure, Except.ok.injEq, Prod.mk.injEq, Option.some.injEq] at h
    rw [← h.1]; exact massFracRadius_mem ha

theorem analyze_rm_mem {c c' : Cluster} (h : analyze true c true = .ok c') :
    ∃ x y, c'.d.rm = some x ∧ c'.d.rmpro = some y ∧ x ∈ c'.st.map Ph.r ∧ y ∈ c'.st.map Ph.rpro := by
  have k := (analyze_same h).2.1
  rw [k]
  unfold analyze at h
  simp only [bind, Except.bind, pure, Except.pure, if_true] at h
  split at h
  · cases h
  · split at h
    · cases h
    · rename_i h1
      split at h
      · cases h
      · rename_i h2
        injection h with h
        obtain ⟨a, b, e1⟩ := massRadii_some (sortstars_some _ _ c).1 h1
        obtain ⟨a', b', e2⟩ := massRadii_some (sortstars_some _ _ c).2 h2
        refine ⟨a, a', ?_, ?_, massRadii_mem (sortstars_some _ _ c).1 (e1 ▸ h1), massRadii_mem (sortstars_some _ _ c).2 (e2 ▸ h2)⟩
        · rw [← h, e1]
        · rw [← h, e2]

theorem return_current' {g : Galpy} {c c1 c2 : Cluster} (hg : Good c) (hm : ∀ x ∈ c.m, 0 ≤ x) (ho : OrderCurrent c)
    (h : returnCluster g (saveCluster c) false none c1 = .ok c2) (hd : c2.data = c.data) : OrderCurrent c2 ∧ RmCurrent c2 := by
  obtain ⟨c0, h0, h1, h2⟩ := return_analyze h
  obtain ⟨k1, k2, k3, k4, -⟩ := analyze_same h0
  have e1 : c2.m = c.m := congrArg Data.m hd
  have e2 : c2.st = c.st := congrArg Data.st hd
  have e3 : c2.origin = c.origin := congrArg Data.origin hd
  refine analyze_current ?_ ?_ ?_ h0
  · rw [← k1, ← k2, e1, e2]; exact hg.len
  · rw [← k1, e1]; exact hm
  · intro o x1 x2
    rw [← k2, e2]
    refine ho o (by rw [← x1, h1]; rfl) ?_
    rw [← e3, k4, ← x2, h2]; rfl

/-- The first lines of a profile leave a stored order that is current or of another frame. -/
theorem profStart_order {g : Galpy} {sm ss : Bool} {c c1 : Cluster} (l : Lin c) (hg : Good c) (f : Fresh c) (hm : ∀ x ∈ c.m, 0 ≤ x)
    (ho : OrderCurrent c) (h : profStart g sm ss c = .ok c1) : OrderCurrent c1 := by
  have fin : ∀ (x : Cluster), Good x → Fresh x → OrderCurrent x →
      (∀ y ∈ x.m, 0 ≤ y) → x.origin = c.origin → x.units ≠ some .radec →
      (if c.origin ≠ some .cluster ∧ c.origin ≠ some .centre then toCentre sm none x
        else if ss then .ok (sortstars true x.d.r x.d.rpro x) else .ok x) = .ok c1 → OrderCurrent c1 := by
    intro x gx fx ox mx xo xu h
    obtain ⟨-, o, ho', hl⟩ := l
    split at h
    · have hgal : x.origin = some .galaxy := by
        rw [xo, ho']; cases o <;> simp_all [Origin.linear]
      obtain ⟨ca, a1, a2⟩ := toCentre_galaxy hgal xu h
      have hs : setMethod none x = x := rfl
      unfold toCluster at a1
      rw [hgal] at a1
      simp only [bind, hs] at a1
      rw [if_pos (by simp), if_neg xu, if_neg (by simp), if_pos trivial] at a1
      simp only [Except.bind] at a1
      obtain ⟨o', y1, y2, -⟩ := analyze_rorder_sorted a1
      obtain ⟨k1, k2, -⟩ := analyze_same a1
      have hne : OrderCurrent { ca with st := ca.st.map (·.sub ca.c), origin := some .centre } := by
        intro o2 z1 z2
        have z2' : ca.rorderOrigin = some .centre := z2
        rw [y2] at z2'
        cases z2'
      cases sm
      · intro o2 z1 z2
        obtain ⟨b1, b2⟩ := (analyze_rorder a2).resolve_right (by rintro ⟨hs, -⟩; cases hs)
        rw [b1] at z1
        rw [b2] at z2
        have q := (analyze_same a2).2.2.2.1
        rw [q] at z2
        exact absurd z2 (by
          show ca.rorderOrigin ≠ some .centre
          rw [y2]; simp)
      · refine (analyze_current (c := { ca with st := ca.st.map (·.sub ca.c), origin := some .centre }) ?_ ?_ hne a2).1
        · show ca.m.length = (ca.st.map _).length
          rw [k1, k2]; simp [gx.len]
        · show ∀ z ∈ ca.m, 0 ≤ z
          rw [k1]; exact mx
    · rename_i hno
      cases ss
      · injection h with h; rw [← h]; exact ox
      · injection h with h
        rw [← h]
        intro o2 z1 z2
        have hf : x.d.r = x.st.map Ph.r := by rw [fx.r.eq_map]; rfl
        obtain ⟨k1, k2, -, k4, k5, -⟩ := core_fields (sortstars_core true x.d.r x.d.rpro x)
        have hor : (sortstars true x.d.r x.d.rpro x).rorder = some (argsort x.d.r) ∨
            ((sortstars true x.d.r x.d.rpro x).rorder = x.rorder ∧ (sortstars true x.d.r x.d.rpro x).rorderOrigin = x.rorderOrigin) := by
          unfold sortstars; dsimp only; repeat' split
          all_goals simp
        rw [k5]
        rcases hor with h | ⟨h, h'⟩
        · rw [h] at z1; cases z1; rw [hf]; exact SortedBy.argsort _
        · rw [h] at z1; rw [h', k2] at z2; exact ox o2 z1 z2
  unfold profStart at h
  simp only [bind, Except.bind] at h
  obtain ⟨⟨u, hu, hul⟩, -⟩ := id l
  by_cases ha : c.units = some .amuse
  · rw [if_pos ha] at h
    split at h
    · cases h
    · rename_i h1
      have k := toPckms_amuse ha h1
      simp only [toPckms, ha, bind, Except.bind, reduceCtorEq, or_self, if_false, if_true, analyzeIf, fromAmuse, pckmsStep,
        Option.some.injEq] at h1
      rename_i v
      have gv : Good v := by
        obtain ⟨v', y1, y2⟩ := analyze_total (s := true) (p := true) (c := { c with units := some .pckms })
          ⟨hg.ne, hg.len, hg.mass, hg.ro, hg.rpo⟩
        rw [h1] at y1
        cases y1; exact y2
      have hcur := analyze_current (c := { c with units := some .pckms }) hg.len hm ho h1
      exact fin v gv k.2.2.2.2 hcur.1 (by rw [k.1]; exact hm) k.2.2.2.1 (by rw [k.2.2.1]; simp) h
  · rw [if_neg ha] at h
    exact fin c hg f ho hm rfl (by rw [hu]; rintro e; cases e; exact hul) h

/-! ### The loop of `alpha_prof` -/

/-- The cluster a step of the loop works on: that of the beginning, up to derived quantities and stored orders. -/
structure LeftAs (c1 d : Cluster) : Prop where
  data : d.data = c1.data
  fresh : Fresh d
  good : Good d
  rest : d.rest = c1.rest

theorem LeftAs.lin {c1 d : Cluster} (k : LeftAs c1 d) (l : Lin c1) : Lin d := by
  obtain ⟨⟨u, hu, hul⟩, o, ho, hol⟩ := l
  exact ⟨⟨u, (congrArg Data.units k.data).trans hu, hul⟩, o, (congrArg Data.origin k.data).trans ho, hol⟩

theorem LeftAs.trans {c1 d d' : Cluster} (k : LeftAs c1 d) (k' : LeftAs d d') : LeftAs c1 d' :=
  ⟨k'.data.trans k.data, k'.fresh, k'.good, k'.rest.trans k.rest⟩

/-- What `mass_function` leaves. -/
theorem mass_after {g : Galpy} {c : Cluster} (p : Pos g c) (l : Lin c) (hg : Good c) (f : Fresh c) {a : MassArgs} {e : PStars}
    {indx : Option ℕ} {mem : Mem} {o : MassOut} {c2 : Cluster} {mem' : Mem} (h : massFunction g a e indx mem c = .ok (o, c2, mem')) :
    LeftAs c c2 ∧ ∃ c1, returnCluster g (saveCluster c) false none c1 = .ok c2 := by
  obtain ⟨c1, h1, s1, m1, g1, l1, f1, r1, w1, -, -⟩ := strip_amuse p l hg f
  obtain ⟨c3, h4, d2, f2, g2, -, r2⟩ := return_of_world (sort := false) (cm := none) p l hg g1 l1 r1 w1
  suffices hs : returnCluster g (saveCluster c) false none c1 = .ok c2 by
    rw [h4] at hs; cases hs
    exact ⟨⟨d2, f2, g2, r2⟩, c1, h4⟩
  unfold massFunction at h
  simp only [bind] at h
  have rest : ∀ c1', c1' = c1 → ((getSubset a.sub (viewOf c1' e) indx mem).bind fun sel =>
      if enough a.nmass sel = true then (massFit a c1'.m sel).bind fun out =>
        (returnCluster g (saveCluster c) false none c1').bind fun c2 => pure (out, c2, sel.2)
      else (Except.ok a.tooFew).bind fun out =>
        (returnCluster g (saveCluster c) false none c1').bind fun c2 => pure (out, c2, sel.2)) = .ok (o, c2, mem') →
      returnCluster g (saveCluster c) false none c1 = .ok c2 := by
    rintro c1' rfl h
    obtain ⟨sel, -, h⟩ := bind_ok h
    split at h
    all_goals
      obtain ⟨out, -, h⟩ := bind_ok h
      obtain ⟨c4, h5, h⟩ := bind_ok h
      simp only [pure, Except.pure, Except.ok.injEq, Prod.mk.injEq] at h
      rw [h5, h.2.1]
  split at h1
  · rename_i hu
    rw [if_pos hu, h1] at h
    exact rest c1 rfl h
  · rename_i hu
    rw [if_neg hu] at h
    injection h1 with h1
    exact rest c h1 h

theorem alphaBins_run {g : Galpy} {c1 : Cluster} (p : Pos g c1) (l : Lin c1) {q : MassArgs} {e : PStars} {B : Binned} :
    ∀ (is : List ℕ) {d : Cluster} {mem : Mem} {t : List (ℝ × ℝ) × Cluster × Mem}, LeftAs c1 d → alphaBins g q e B is d mem = .ok t →
      LeftAs c1 t.2.1 ∧ t.1.length = is.length ∧
      (∀ j < is.length, ∃ d' m' M c' m'', LeftAs c1 d' ∧ massFunction g q e (some m'.length) (m' ++ [B.at is[j]!]) d' = .ok (M, c', m'') ∧
        t.1[j]! = keepSlope M.fit) ∧
      (OrderCurrent d → (∀ x ∈ c1.m, 0 ≤ x) → OrderCurrent t.2.1 ∧ (is ≠ [] → RmCurrent t.2.1)) ∧
      (is ≠ [] → ∃ x y, t.2.1.d.rm = some x ∧ t.2.1.d.rmpro = some y ∧ x ∈ c1.st.map Ph.r ∧ y ∈ c1.st.map Ph.rpro)
  | [], d, mem, t, hk, h => by
    simp only [alphaBins, Except.ok.injEq] at h
    subst h
    exact ⟨hk, rfl, fun j hj => by simp at hj, fun ho _ => ⟨ho, fun h => absurd rfl h⟩, fun h => absurd rfl h⟩
  | i :: is, d, mem, t, hk, h => by
    simp only [alphaBins, bind] at h
    obtain ⟨⟨M, d1, m1⟩, h1, h⟩ := bind_ok h
    obtain ⟨⟨s, d2, m2⟩, h2, h⟩ := bind_ok h
    simp only [pure, Except.pure, Except.ok.injEq] at h
    subst h
    obtain ⟨k1, cx, hr⟩ := mass_after (p.of_rest hk.rest) (hk.lin l) hk.good hk.fresh h1
    have hk1 := hk.trans k1
    obtain ⟨z1, z2, z3, z4, z5⟩ := alphaBins_run p l is hk1 h2
    have dm : d.m = c1.m := congrArg Data.m hk.data
    refine ⟨z1, by simp [z2], ?_, ?_, ?_⟩
    · intro j hj
      cases j with
      | zero => exact ⟨d, mem, M, d1, m1, hk, h1, rfl⟩
      | succ j =>
        obtain ⟨d', m', M', c', m'', y1, y2, y3⟩ := z3 j (by simpa using hj)
        exact ⟨d', m', M', c', m'', y1, by simpa using y2, by simpa using y3⟩
    · intro ho hm
      obtain ⟨x1, x2⟩ := return_current' hk.good (by rw [dm]; exact hm) ho hr k1.data
      obtain ⟨y1, y2⟩ := z4 x1 hm
      refine ⟨y1, fun _ => ?_⟩
      by_cases hi : is = []
      · subst hi
        simp only [alphaBins, Except.ok.injEq, Prod.mk.injEq] at h2
        show RmCurrent d2
        rw [← h2.2.1]; exact x2
      · exact y2 hi
    · intro _
      by_cases hi : is = []
      · subst hi
        simp only [alphaBins, Except.ok.injEq, Prod.mk.injEq] at h2
        obtain ⟨c0, h0, -⟩ := return_analyze hr
        have := analyze_rm_mem h0
        rw [show d1.st = c1.st from congrArg Data.st hk1.data] at this
        show ∃ x y, d2.d.rm = some x ∧ d2.d.rmpro = some y ∧ _
        rw [← h2.2.1]; exact this
      · exact z5 hi

end

end CT
