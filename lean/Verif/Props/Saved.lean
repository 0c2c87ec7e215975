/- Property theorems C150, C151: save_cluster and return_cluster. -/
import Verif.Spec.Saved
import Verif.Props.Crash

namespace CT

noncomputable section

/-- The values saved are those of some description of the same cluster. -/
def SavedOk (g : Galpy) (w : World) (c0 : Cluster) (k : Keeper) : Prop := ∃ x, Rel g w c0 x ∧ k.saved = some (saveCluster x)

theorem back_noArgs {g : Galpy} {k : Keeper} {x : Cluster} {s : Bool} (h : k.saved = some (saveCluster x)) :
    k.back g noArgs s = (returnCluster g (saveCluster x) s none k.c).map (fun c => { k with c := c }) := by
  unfold Keeper.back noArgs argOr
  simp only [h, Option.map_some, Option.elim_none, Option.elim_some]
  show (returnCluster g _ s none k.c).bind _ = _
  unfold saveCluster
  cases returnCluster g (x.units, x.origin, x.rorder, x.rorderOrigin) s none k.c <;> rfl

/-- Returning to the labels of `x` from another description. -/
theorem return_total {g : Galpy} {w : World} {x c : Cluster} {s : Bool} {cm : Option CentreMethod} (d : Describes g w x) (h : Rel g w x c) :
    ∃ c', returnCluster g (saveCluster x) s cm c = .ok c' ∧ Back g w x c' := by
  obtain ⟨c', e, -⟩ := return_of_world (sort := s) (cm := cm) d.pos d.lin d.good h.1.good h.1.lin h.2 (h.1.world.trans d.world.symm)
  exact ⟨c', e, ret_back d h c' e⟩

theorem restore_total {g : Galpy} {w : World} {c0 x : Cluster} {k : Keeper} {s : Bool} (hx : Rel g w c0 x) (hk : Rel g w c0 k.c)
    (h : k.saved = some (saveCluster x)) : ∃ c', k.back g noArgs s = .ok { k with c := c' } ∧ Back g w x c' := by
  obtain ⟨c', e, b⟩ := return_total (s := s) (cm := none) hx.1 (c := k.c) ⟨hk.1, hk.2.trans hx.2.symm⟩
  exact ⟨c', by rw [back_noArgs h, e]; rfl, b⟩

theorem kstep_inv {g : Galpy} {w : World} {c0 : Cluster} {a : KCall} {k k' : Keeper} (ha : a.Admissible w) (hk : Rel g w c0 k.c)
    (hs : SavedOk g w c0 k) (h : KStep g a k k') : Rel g w c0 k'.c ∧ SavedOk g w c0 k' := by
  cases h with
  | save k => exact ⟨hk, k.c, hk, rfl⟩
  | restore h =>
    obtain ⟨x, hx, e⟩ := hs
    obtain ⟨c', e', b⟩ := restore_total (s := false) hx hk e
    rw [e'] at h
    cases h
    exact ⟨⟨b.1, b.2.1.trans hx.2⟩, x, hx, e⟩
  | convert h => exact ⟨hk.exec _ ha.1 ha.2 _ h, hs⟩
  | ask h hm =>
    obtain ⟨k1, k2⟩ := C148_on_the_way ha hk.1 hm
    have b := (C148_after ha hk.1).1 _ h
    have e := C148_on_the_way ha hk.1 (C148_after ha hk.1).2
    rw [b] at e
    exact ⟨⟨e.1, e.2.trans hk.2⟩, _, ⟨k1, k2.trans hk.2⟩, rfl⟩
  | quiet h =>
    have b := (C148_after ha hk.1).1 _ h
    have e := C148_on_the_way ha hk.1 (C148_after ha hk.1).2
    rw [b] at e
    exact ⟨⟨e.1, e.2.trans hk.2⟩, hs⟩
  | raised h hm =>
    obtain ⟨k1, k2⟩ := C148_on_the_way ha hk.1 hm
    have e := C148_on_the_way ha hk.1 (C148_after ha hk.1).2
    exact ⟨⟨e.1, e.2.trans hk.2⟩, _, ⟨k1, k2.trans hk.2⟩, rfl⟩

theorem krun_inv {g : Galpy} {w : World} {c0 : Cluster} {l : List KCall} {k k' : Keeper} (hl : ∀ a ∈ l, a.Admissible w) (hk : Rel g w c0 k.c)
    (hs : SavedOk g w c0 k) (h : KRun g l k k') : Rel g w c0 k'.c ∧ SavedOk g w c0 k' := by
  induction h with
  | nil k => exact ⟨hk, hs⟩
  | cons h t ih =>
    obtain ⟨h1, h2⟩ := kstep_inv (hl _ (by simp)) hk hs h
    exact ih (fun a ha => hl a (by simp [ha])) h1 h2

/-- **C150 (values kept by the caller).**  `cluster.save_cluster()`, the four saved values copied; then any session of conversions, analysis calls
(whose exceptions are caught), other `save_cluster()` and `return_cluster()`; then `cluster.return_cluster(units0, origin0, rorder0,
rorder_origin0)` with the copies does not raise and gives back exactly the data the cluster had, described with fresh radii and orders, although a
value `None` among the copies is replaced by whatever was saved last. -/
theorem C150_kept_values {g : Galpy} {w : World} {c : Cluster} {sv : Option Saved} {l : List KCall} {k : Keeper} (hl : ∀ a ∈ l, a.Admissible w)
    (d : Describes g w c) (hn : c.rorder = none → c.rorderOrigin = none) (h : KRun g l (Keeper.save ⟨c, sv⟩) k) :
    ∃ k', k.back g (saveCluster c) false = .ok k' ∧ Describes g w k'.c ∧ k'.c.data = c.data ∧ k'.c.rest = c.rest := by
  obtain ⟨hk, x, hx, e⟩ := krun_inv (c0 := c) hl (Rel.refl d) ⟨c, Rel.refl d, rfl⟩ h
  obtain ⟨⟨u, hu, -⟩, ⟨o, ho, -⟩⟩ := d.lin
  cases hr : c.rorder with
  | some r =>
    obtain ⟨f, hf, -⟩ := d.order r hr
    obtain ⟨c', e', b⟩ := return_total (s := false) (cm := none) d hk
    refine ⟨{ k with c := c' }, ?_, b.1, b.2.2, b.2.1⟩
    unfold saveCluster at e'
    rw [hu, ho, hr, hf] at e'
    unfold Keeper.back saveCluster argOr
    simp only [hu, ho, hr, hf, Option.elim_some]
    show (returnCluster g _ false none k.c).bind _ = _
    rw [e']
    rfl
  | none =>
    obtain ⟨y, hy⟩ : ∃ y : Cluster, y = { c with rorder := x.rorder, rorderOrigin := x.rorderOrigin } := ⟨_, rfl⟩
    have ed : y.data = c.data := by rw [hy]; rfl
    have er : y.rest = c.rest := by rw [hy]; rfl
    have g' : Good y := by
      rw [hy]
      refine ⟨d.good.ne, d.good.len, d.good.mass, fun z hz => ?_, d.good.rpo⟩
      rw [show Cluster.st { c with rorder := x.rorder, rorderOrigin := x.rorderOrigin } = c.st from rfl, d.length hx.1]
      exact hx.1.good.ro z hz
    have dy : Describes g w y := by
      refine ⟨d.pos.of_rest er, ?_, g', ?_, (world_of_data ed er).trans d.world, ?_⟩
      · rw [hy]; exact ⟨d.lin.1, d.lin.2⟩
      · rw [hy]; exact ⟨d.fresh.units, d.fresh.origin, d.fresh.r, d.fresh.rpro, d.fresh.v, d.fresh.vpro, d.fresh.mtot, d.fresh.mmean, d.fresh.rmean,
          d.fresh.rmeanpro, d.fresh.rmax, d.fresh.rmaxpro⟩
      · rw [hy]; exact hx.1.order
    obtain ⟨c', e', b⟩ := return_total (s := false) (cm := none) dy (c := k.c) ⟨hk.1, hk.2.trans er.symm⟩
    refine ⟨{ k with c := c' }, ?_, b.1, b.2.2.trans ed, b.2.1.trans er⟩
    have hu' : y.units = some u := by rw [hy]; exact hu
    have ho' : y.origin = some o := by rw [hy]; exact ho
    have h1 : y.rorder = x.rorder := by rw [hy]
    have h2 : y.rorderOrigin = x.rorderOrigin := by rw [hy]
    unfold saveCluster at e'
    rw [hu', ho', h1, h2] at e'
    unfold Keeper.back argOr
    simp only [e]
    unfold saveCluster
    simp only [hu, ho, hr, hn hr, Option.elim_some, Option.elim_none, Option.map_some]
    show (returnCluster g _ false none k.c).bind _ = _
    rw [e']
    rfl

/-- **C150 (bracket).**  `save_cluster()`, then conversions and `return_cluster()` in any number, then `return_cluster()`: the last one does not raise
and gives back exactly the data the cluster had. -/
theorem C150_bracket {g : Galpy} {w : World} {c : Cluster} {sv : Option Saved} {l : List KCall} {k : Keeper} (hl : ∀ a ∈ l, a.Plain)
    (d : Describes g w c) (h : KRun g l (Keeper.save ⟨c, sv⟩) k) :
    ∃ k', KStep g .restore k k' ∧ Describes g w k'.c ∧ k'.c.data = c.data ∧ k'.c.rest = c.rest := by
  have key : ∀ {l : List KCall} {a b : Keeper}, (∀ x ∈ l, x.Plain) → KRun g l a b → Rel g w c a.c → a.saved = some (saveCluster c) →
      Rel g w c b.c ∧ b.saved = some (saveCluster c) := by
    intro l a b hl h
    induction h with
    | nil k => exact fun h1 h2 => ⟨h1, h2⟩
    | @cons a l k k1 k2 h t ih =>
      intro h1 h2
      have hp := hl a (by simp)
      refine ih (fun x hx => hl x (by simp [hx])) ?_ ?_
      · cases h with
        | restore h =>
          exact (kstep_inv (w := w) (a := .restore) trivial h1 ⟨c, Rel.refl d, h2⟩ (.restore h)).1
        | convert h => exact h1.exec _ hp.1 hp.2 _ h
        | save | ask | quiet | raised => exact absurd hp id
      · cases h with
        | restore h =>
          obtain ⟨c', e', -⟩ := restore_total (s := false) (Rel.refl d) h1 h2
          rw [e'] at h
          cases h
          exact h2
        | convert h => exact h2
        | save | ask | quiet | raised => exact absurd hp id
  obtain ⟨h1, h2⟩ := key hl h (Rel.refl d) rfl
  obtain ⟨c', e', b⟩ := restore_total (s := false) (Rel.refl d) h1 h2
  exact ⟨_, .restore e', b.1, b.2.2, b.2.1⟩

/-- `rlagrange` is one of the analysis calls of the sessions. -/
theorem C150_rlagrange_step {g : Galpy} {n : ℕ} {pr : Bool} {k k' : Keeper} {rn : List ℝ} (h : k.rlagrange g n pr = .ok (rn, k')) :
    KStep g (.ask (.rlagrange n pr)) k k' := by
  obtain ⟨r, h1, h2⟩ := bind_ok h
  cases h2
  refine .ask ?_ (by simp)
  show (do let x ← CT.rlagrange g n pr k.c; return x.2) = _
  rw [h1]
  rfl

/-! ### C151: saves do not nest -/

/-- **C151 (analysis in between).**  `save_cluster()`, conversions to other units or another origin, one `rlagrange(cluster)`, `return_cluster()`:
the cluster is left where `rlagrange` was called, not where it was saved. -/
theorem C151_analysis_violated {g : Galpy} {w : World} {c : Cluster} {sv : Option Saved} {l : List KCall} {k k1 : Keeper} {n : ℕ} {pr : Bool}
    {rn : List ℝ} (hl : ∀ a ∈ l, a.Admissible w) (d : Describes g w c) (h : KRun g l (Keeper.save ⟨c, sv⟩) k)
    (h1 : k.rlagrange g n pr = .ok (rn, k1)) :
    ∃ k2, KStep g .restore k1 k2 ∧ k2.c.units = k.c.units ∧ k2.c.origin = k.c.origin ∧ k2.c.data = k.c.data ∧
      (k.c.units ≠ c.units ∨ k.c.origin ≠ c.origin → k2.c.data ≠ c.data) := by
  obtain ⟨hk, hs⟩ := krun_inv (c0 := c) hl (Rel.refl d) ⟨c, Rel.refl d, rfl⟩ h
  obtain ⟨hk1, -⟩ := kstep_inv (a := .ask (.rlagrange n pr)) trivial hk hs (C150_rlagrange_step h1)
  obtain ⟨r, -, h2⟩ := bind_ok h1
  cases h2
  obtain ⟨c', e', b⟩ := restore_total (s := false) (x := k.c) (k := ⟨r.2, some (saveCluster k.c)⟩) hk hk1 rfl
  have eu : c'.units = k.c.units := congrArg Data.units b.2.2
  have eo : c'.origin = k.c.origin := congrArg Data.origin b.2.2
  refine ⟨_, .restore e', eu, eo, b.2.2, fun hne e => ?_⟩
  rcases hne with hne | hne
  · exact hne (eu.symm.trans (congrArg Data.units e))
  · exact hne (eo.symm.trans (congrArg Data.origin e))

/-- **C151 (nested pairs).**  An inner `save_cluster() … return_cluster()` makes the outer `return_cluster()` come back to the inner place. -/
theorem C151_nested_violated {g : Galpy} {w : World} {c : Cluster} {sv : Option Saved} {l l' : List KCall} {k k1 k2 : Keeper}
    (hl : ∀ a ∈ l, a.Admissible w) (hl' : ∀ a ∈ l', a.Plain) (d : Describes g w c) (h : KRun g l (Keeper.save ⟨c, sv⟩) k)
    (h1 : KRun g l' k.save k1) (h2 : KStep g .restore k1 k2) :
    ∃ k3, KStep g .restore k2 k3 ∧ k3.c.data = k.c.data ∧ (k.c.units ≠ c.units ∨ k.c.origin ≠ c.origin → k3.c.data ≠ c.data) := by
  obtain ⟨hk, -⟩ := krun_inv (c0 := c) hl (Rel.refl d) ⟨c, Rel.refl d, rfl⟩ h
  have t : ∀ {l : List KCall} {a b : Keeper}, KRun g l a b → ∀ {b'}, KStep g .restore b b' → KRun g (l ++ [.restore]) a b' := by
    intro l a b h
    induction h with
    | nil k => exact fun h => .cons h (.nil _)
    | cons h t ih => exact fun h' => .cons h (ih h')
  have hp : ∀ a ∈ l' ++ [.restore], a.Plain := by
    intro a ha
    rcases List.mem_append.mp ha with ha | ha
    · exact hl' a ha
    · rw [List.mem_singleton.mp ha]; trivial
  obtain ⟨k3, e, -, ed, -⟩ := C150_bracket (c := k.c) (sv := k.saved) hp hk.1 (t h1 h2)
  refine ⟨k3, e, ed, fun hne e' => ?_⟩
  rcases hne with hne | hne
  · exact hne (congrArg Data.units (ed.symm.trans e'))
  · exact hne (congrArg Data.origin (ed.symm.trans e'))

/-- **C151 (nothing saved).**  `return_cluster()` without a `save_cluster()` before raises `AttributeError`, whatever the cluster. -/
theorem C151_unsaved_violated (g : Galpy) (c : Cluster) (s : Bool) : Keeper.back g noArgs s ⟨c, none⟩ = .error .attributeError := rfl

/-- The demo cluster: saved around its position, taken to the galaxy's frame, Lagrange radii, `return_cluster()`: it is still in the galaxy's frame;
with the values kept by the caller it comes back. -/
example : ∃ (c : Cluster) (w : World) (k k1 k2 k3 : Keeper) (rn : List ℝ), Describes demoG w c ∧ c.origin = some .cluster ∧
    KRun demoG [.convert (.toGalaxy false)] (Keeper.save ⟨c, none⟩) k ∧ k.rlagrange demoG 10 false = .ok (rn, k1) ∧
    KStep demoG .restore k1 k2 ∧ k2.c.origin = some .galaxy ∧ k1.back demoG (saveCluster c) false = .ok k3 ∧ k3.c.data = c.data := by
  obtain ⟨c, w, h0, p, l, hg, f, hm, hM, hw, i, hu, -⟩ := demo_analysed
  have ho : c.origin = some .cluster := (core_fields (analyze_core h0)).2.1
  have d : Describes demoG w c := ⟨p, l, hg, f, hw, i⟩
  have k2 : Op.linear (.toGalaxy false) := by simp [Op.linear, Op.unitTarget, Op.originTarget, Origin.linear]
  obtain ⟨c1, h1, -⟩ := exec_total d.pos d.lin k2 d.good
  obtain ⟨d1, -⟩ := (Rel.refl d).exec _ k2 trivial c1 h1
  have st := exec_step d.pos.nz d.lin k2 h1
  have u1 : c1.units = some .pckms := by rw [st.units, hu]; rfl
  have o1 : c1.origin = some .galaxy := by rw [st.origin]; rfl
  have em : c1.m = c.m := by
    have a := d.world
    have b := d1.world
    unfold CT.world phys at a b
    simp only [hu, ho, u1, o1, unitScale, Option.some.injEq] at a b
    have e : World.mass w = c.m := by rw [← a]; simp
    have e' : World.mass w = c1.m := by rw [← b]; simp
    exact e'.symm.trans e
  obtain ⟨s, hs⟩ := unitScale_linear (g := demoG) (c := c1) (u := .pckms) trivial
  obtain ⟨rn, c2, h2, -⟩ := C17_lagrange_radii demoG c1 10 w .pckms s (by norm_num) d1.pos d1.lin d1.good d1.fresh (by rw [em]; exact hm) d1.world
    d1.order u1 hs
  have r : KRun demoG [.convert (.toGalaxy false)] (Keeper.save ⟨c, none⟩) ⟨c1, some (saveCluster c)⟩ :=
    .cons (.convert (k := Keeper.save ⟨c, none⟩) h1) (.nil _)
  have ha : ∀ a ∈ [KCall.convert (.toGalaxy false)], a.Admissible w := by
    intro a ha
    rw [List.mem_singleton.mp ha]
    exact ⟨k2, trivial⟩
  have e : Keeper.rlagrange demoG 10 false ⟨c1, some (saveCluster c)⟩ = .ok (rn, ⟨c2, some (saveCluster c1)⟩) := by
    unfold Keeper.rlagrange
    rw [h2]
    rfl
  obtain ⟨k3, e3, -, e4, -⟩ := C151_analysis_violated ha d r e
  have r' : KRun demoG [.convert (.toGalaxy false), .ask (.rlagrange 10 false)] (Keeper.save ⟨c, none⟩) ⟨c2, some (saveCluster c1)⟩ :=
    .cons (.convert (k := Keeper.save ⟨c, none⟩) h1) (.cons (C150_rlagrange_step e) (.nil _))
  have ha' : ∀ a ∈ [KCall.convert (.toGalaxy false), .ask (.rlagrange 10 false)], a.Admissible w := by
    intro a ha
    simp only [List.mem_cons, List.not_mem_nil, or_false] at ha
    rcases ha with rfl | rfl
    · exact ⟨k2, trivial⟩
    · trivial
  obtain ⟨k4, e5, -, e6, -⟩ := C150_kept_values ha' d (fun h => by
    obtain ⟨o, hro⟩ : ∃ o, c.rorder = some o := by
      rcases analyze_rorder h0 with ⟨a, -⟩ | ⟨-, a, -⟩
      · exact ⟨_, a.trans rfl⟩
      · exact ⟨_, a⟩
    rw [hro] at h; cases h) r'
  exact ⟨c, w, _, _, k3, k4, rn, d, ho, r, e, e3, by rw [e4]; exact o1, e5, e6⟩

end

end CT
