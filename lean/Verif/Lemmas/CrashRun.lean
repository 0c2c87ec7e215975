/- Every cluster on the way of an analysis call describes the world of the cluster given, and the last one is the one returned. -/
import Verif.Lemmas.Crash

namespace CT

noncomputable section

/-- All clusters on the way have `R`; if the call returns `a`, the object holds `out a`. -/
def Along {α : Type} (R : Cluster → Prop) (cur : Cluster) (x : Tr α) (out : α → Cluster) : Prop :=
  (∀ s ∈ x.states, R s) ∧ ∀ a, x.value = .ok a → x.states.getLastD cur = out a

section
variable {α β : Type} {R : Cluster → Prop} {cur : Cluster} {out : β → Cluster}

theorem getLastD_of {l : List Cluster} (h : ∀ s ∈ l, R s) (hc : R cur) : R (l.getLastD cur) := by
  rcases List.eq_nil_or_concat l with rfl | ⟨l', a, rfl⟩
  · exact hc
  · simpa using h a (by simp)

theorem getLastD_append' (l m : List Cluster) (c : Cluster) : (l ++ m).getLastD c = m.getLastD (l.getLastD c) := by
  rcases List.eq_nil_or_concat m with rfl | ⟨m', a, rfl⟩
  · simp
  · simp [← List.append_assoc]

theorem Along.bind {o : α → Cluster} {x : Tr α} {f : α → Tr β} (hc : R cur) (h : Along R cur x o) (k : ∀ a, R (o a) → Along R (o a) (f a) out) :
    Along R cur (x >>= f) out := by
  show Along R cur (Tr.bind x f) out
  unfold Tr.bind
  obtain ⟨h1, h2⟩ := h
  cases hx : x.value with
  | error e => exact ⟨h1, by simp⟩
  | ok a =>
    have e := h2 a hx
    obtain ⟨k1, k2⟩ := k a (e ▸ getLastD_of h1 hc)
    refine ⟨fun s hs => ?_, fun b hb => ?_⟩
    · rcases List.mem_append.mp hs with hs | hs
      · exact h1 s hs
      · exact k1 s hs
    · show (x.states ++ (f a).states).getLastD cur = _
      rw [getLastD_append', e]
      exact k2 b hb

theorem Along.step {x : Except Err Cluster} (h : Ok x R) : Along R cur (Tr.step x) (fun c => c) := by
  unfold Tr.step
  cases x with
  | error e => exact ⟨by simp [Except.toOption], by simp⟩
  | ok a => exact ⟨by simpa [Except.toOption] using h a rfl, by simp [Except.toOption]⟩

theorem Along.lift {x : Except Err α} : Along R cur (liftM x : Tr α) (fun _ => cur) := ⟨by rintro s ⟨⟩, fun _ _ => rfl⟩
theorem Along.ok {b : β} (h : cur = out b) : Along R cur (Tr.ok b) out := ⟨by rintro s ⟨⟩, by rintro a ⟨⟩; exact h⟩
theorem Along.pure {b : β} (h : cur = out b) : Along R cur (Pure.pure b : Tr β) out := Along.ok h
theorem Along.error {e : Err} : Along R cur (Tr.error e : Tr β) out := ⟨by rintro s ⟨⟩, by rintro a ⟨⟩⟩
theorem Along.throw {e : Err} : Along R cur (MonadExcept.throw e : Tr β) out := ⟨by rintro s ⟨⟩, by rintro a ⟨⟩⟩
theorem Along.ite {p : Prop} [Decidable p] {x y : Tr β} (h1 : p → Along R cur x out) (h2 : ¬ p → Along R cur y out) :
    Along R cur (if p then x else y) out := by
  split
  · exact h1 (by assumption)
  · exact h2 (by assumption)
theorem Along.elim {γ : Type} {o : Option γ} {x : Tr β} {f : γ → Tr β} (h1 : Along R cur x out) (h2 : ∀ a, Along R cur (f a) out) :
    Along R cur (o.elim x f) out := by
  cases o with
  | none => exact h1
  | some a => exact h2 a

theorem Along.bindStep {x : Except Err Cluster} {f : Cluster → Tr β} (hc : R cur) (h : Ok x R) (k : ∀ a, R a → Along R a (f a) out) :
    Along R cur (Tr.step x >>= f) out := Along.bind hc (Along.step h) k
theorem Along.bindLift {x : Except Err α} {f : α → Tr β} (hc : R cur) (k : ∀ a, Along R cur (f a) out) :
    Along R cur ((liftM x : Tr α) >>= f) out := Along.bind hc Along.lift (fun a _ => k a)
theorem Along.bindOk {a : α} {f : α → Tr β} (hc : R cur) (k : Along R cur (f a) out) : Along R cur (Tr.ok a >>= f) out :=
  by
    show Along R cur (Tr.bind (Tr.ok a) f) out
    simpa [Tr.bind, Tr.ok] using k
theorem Along.bindThrow {e : Err} {f : α → Tr β} : Along R cur ((MonadExcept.throw e : Tr α) >>= f) out := ⟨by rintro s ⟨⟩, by rintro a ⟨⟩⟩
theorem Along.bindError {e : Err} {f : α → Tr β} : Along R cur ((Tr.error e : Tr α) >>= f) out := ⟨by rintro s ⟨⟩, by rintro a ⟨⟩⟩
theorem Along.bindPure {a : α} {f : α → Tr β} (hc : R cur) (k : Along R cur (f a) out) : Along R cur ((Pure.pure a : Tr α) >>= f) out :=
  Along.bindOk hc k
theorem Along.mono {x : Tr β} {R' : Cluster → Prop} (h : Along R cur x out) (k : ∀ s, R s → R' s) : Along R' cur x out := ⟨fun s hs => k s (h.1 s hs), h.2⟩

end

variable {g : Galpy} {w : World} {c0 cur : Cluster}

/-- An inner call. -/
theorem Rel.trace {α : Type} {x : Tr α} {out : α → Cluster} (h : Rel g w c0 cur) (k : Describes g w cur → Along (Rel g w cur) cur x out) :
    Along (Rel g w c0) cur x out := (k h.1).mono (fun _ b => h.trans b)

theorem Describes.length {c c' : Cluster} (d : Describes g w c) (d' : Describes g w c') : c.st.length = c'.st.length := by
  have key : ∀ x : Cluster, Describes g w x → w.stars.length = x.st.length := by
    intro x d
    obtain ⟨⟨u, hu, hul⟩, ⟨o, ho, hol⟩⟩ := d.lin
    obtain ⟨sc, hsc⟩ := unitScale_linear (g := g) (c := x) hul
    have h := d.world
    unfold CT.world phys at h
    simp only [hu, ho, hsc, Option.some.injEq] at h
    rw [← h]
    simp [galRows]
  rw [← key c d, key c' d']

/-- The last step of `return_cluster`. -/
theorem restore_rel {x : Cluster} (d : Describes g w c0) (h : Rel g w c0 x) :
    Ok (analyze true { x with rorder := c0.rorder, rorderOrigin := c0.rorderOrigin }) (Rel g w c0) := by
  intro c' e
  have g4 : Good { x with rorder := c0.rorder, rorderOrigin := c0.rorderOrigin } :=
    ⟨h.1.good.ne, h.1.good.len, h.1.good.mass, fun y hy => by
      rw [show Cluster.st { x with rorder := c0.rorder, rorderOrigin := c0.rorderOrigin } = x.st from rfl, h.1.length d]
      exact d.good.ro y hy, h.1.good.rpo⟩
  obtain ⟨c4, h4, g4'⟩ := analyze_total (s := true) (p := true) g4
  rw [e] at h4
  cases h4
  have hc := analyze_core e
  obtain ⟨k1, k2, -, -, -, -, -, -, -, -, -, kr⟩ := core_fields hc
  have hr : c'.rest = x.rest := kr
  have hw : CT.world g c' = some w := ((world_core hc).trans (world_of_data (c := x) rfl rfl)).trans h.1.world
  have p := h.1.pos.of_rest hr
  have l : Lin c' := ⟨by rw [k1]; exact h.1.lin.1, by rw [k2]; exact h.1.lin.2⟩
  exact ⟨⟨p, l, g4', analyze_fresh e, hw, OrderInv.analyze p l hw (c := { x with rorder := c0.rorder, rorderOrigin := c0.rorderOrigin })
    (d.order.of_eq rfl rfl) e⟩, hr.trans h.2⟩

theorem toUnits_rel {u : Units} (hl : u.linear) (h : Rel g w c0 cur) : Ok (toUnits g u cur) (Rel g w c0) :=
  h.exec (.toUnits u) (by simpa [Op.linear, Op.unitTarget, Op.originTarget] using hl) trivial
theorem toOrigin_rel {o : Origin} {s : Bool} {cm : Option CentreMethod} (hl : o.linear) (h : Rel g w c0 cur) :
    Ok (toOrigin g o.target s cm cur) (Rel g w c0) :=
  h.exec (.toOrigin o s cm) (by simpa [Op.linear, Op.unitTarget, Op.originTarget] using hl) trivial

/-- `return_cluster`, step by step. -/
theorem retT_along {s : Bool} {cm : Option CentreMethod} (d : Describes g w c0) (h : Rel g w c0 cur) :
    Along (Rel g w c0) cur (retT g (saveCluster c0) s cm cur) (fun c => c) := by
  obtain ⟨⟨u, hu, hul⟩, ⟨o, ho, hol⟩⟩ := d.lin
  have fin : ∀ x, Rel g w c0 x → Along (Rel g w c0) x
      (if x.origin ≠ some o then
        Tr.step (toOrigin g o.target s cm x) >>= fun c => Tr.step (analyze true { c with rorder := c0.rorder, rorderOrigin := c0.rorderOrigin })
      else Tr.ok x >>= fun c => Tr.step (analyze true { c with rorder := c0.rorder, rorderOrigin := c0.rorderOrigin })) (fun c => c) := by
    intro x hx
    refine Along.ite (fun _ => ?_) (fun _ => ?_)
    · exact Along.bindStep hx (toOrigin_rel hol hx) (fun a ha => Along.step (restore_rel d ha))
    · exact Along.bindOk hx (Along.step (restore_rel d hx))
  unfold retT saveCluster
  simp only [hu, ho]
  refine Along.ite (fun _ => ?_) (fun _ => ?_)
  · exact Along.bindStep h (toUnits_rel hul h) (fun a ha => fin a ha)
  · exact Along.bindOk h (fin cur h)

theorem Along.bindRet {β : Type} {s : Bool} {cm : Option CentreMethod} {f : Cluster → Tr β} {out : β → Cluster} (d : Describes g w c0)
    (h : Rel g w c0 cur) (k : ∀ a, Rel g w c0 a → Along (Rel g w c0) a (f a) out) :
    Along (Rel g w c0) cur (retT g (saveCluster c0) s cm cur >>= f) out := Along.bind h (retT_along d h) k

end

end CT
