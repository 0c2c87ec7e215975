/- Every analysis function returns the cluster it was given. -/
import Verif.Spec.Session
import Verif.Props.Relax
import Verif.Lemmas.Return

namespace CT

noncomputable section

/-- What holds of the result of a call that does not raise. -/
def Ok {α : Type} (x : Except Err α) (P : α → Prop) : Prop := ∀ a, x = .ok a → P a

theorem Ok.bind {α β : Type} {x : Except Err α} {f : α → Except Err β} {P : α → Prop} {Q : β → Prop} (h : Ok x P)
    (k : ∀ a, P a → Ok (f a) Q) : Ok (x >>= f) Q := by
  intro b hb
  cases x with
  | error e => cases hb
  | ok a => exact k a (h a rfl) b hb

theorem Ok.map {α β : Type} {x : Except Err α} {f : α → β} {P : β → Prop} (h : Ok x (fun a => P (f a))) : Ok (x.map f) P := by
  intro b hb
  cases x with
  | error e => cases hb
  | ok a => cases hb; exact h a rfl

theorem Ok.any {α : Type} {x : Except Err α} : Ok x (fun _ => True) := fun _ _ => trivial

theorem Ok.pure {α : Type} {a : α} {P : α → Prop} (h : P a) : Ok (Pure.pure a : Except Err α) P := by
  rintro b ⟨⟩; exact h

theorem Ok.ok {α : Type} {a : α} {P : α → Prop} (h : P a) : Ok (.ok a : Except Err α) P := by
  rintro b ⟨⟩; exact h

theorem Ok.err {α : Type} {e : Err} {P : α → Prop} : Ok (.error e : Except Err α) P := by
  rintro b ⟨⟩

theorem Ok.thrown {α : Type} {e : Err} {P : α → Prop} : Ok (throw e : Except Err α) P := by
  rintro b ⟨⟩

theorem Ok.ite {α : Type} {p : Prop} [Decidable p] {x y : Except Err α} {P : α → Prop} (h1 : p → Ok x P) (h2 : ¬ p → Ok y P) :
    Ok (if p then x else y) P := by
  split
  · exact h1 (by assumption)
  · exact h2 (by assumption)

theorem Ok.mono {α : Type} {x : Except Err α} {P Q : α → Prop} (h : Ok x P) (k : ∀ a, P a → Q a) : Ok x Q := fun a ha => k a (h a ha)

/-- `c` describes the same cluster as `c0` does. -/
def Rel (g : Galpy) (w : World) (c0 c : Cluster) : Prop := Describes g w c ∧ c.rest = c0.rest

/-- `c` is `c0` again. -/
def Back (g : Galpy) (w : World) (c0 c : Cluster) : Prop := Describes g w c ∧ c.rest = c0.rest ∧ c.data = c0.data

theorem Back.rel {g : Galpy} {w : World} {c0 c : Cluster} (h : Back g w c0 c) : Rel g w c0 c := ⟨h.1, h.2.1⟩
theorem Rel.refl {g : Galpy} {w : World} {c : Cluster} (h : Describes g w c) : Rel g w c c := ⟨h, rfl⟩
theorem Rel.trans {g : Galpy} {w : World} {a b c : Cluster} (h : Rel g w a b) (k : Rel g w b c) : Rel g w a c := ⟨k.1, k.2.trans h.2⟩

theorem Rel.exec {g : Galpy} {w : World} {c0 c : Cluster} (h : Rel g w c0 c) (op : Op) (hl : op.linear) (ha : op.analysed) :
    Ok (op.exec g c) (Rel g w c0) := by
  intro c' e
  obtain ⟨⟨p, l, hg, f, hw, i⟩, hr⟩ := h
  have st := exec_step p.nz l hl e
  obtain ⟨x, e', g'⟩ := exec_total p l hl hg
  rw [e] at e'
  cases e'
  exact ⟨⟨p.of_rest st.rest, st.lin hl l, g', exec_fresh l hl ha f e, st.world.trans hw, (kept_orderInv g w).exec p l hl hw i e⟩, st.rest.trans hr⟩

theorem Rel.toPckms {g : Galpy} {w : World} {c0 c : Cluster} (h : Rel g w c0 c) : Ok (CT.toPckms g true c) (Rel g w c0) :=
  h.exec (.toPckms true) (by simp [Op.linear, Op.unitTarget, Op.originTarget, Units.linear]) rfl
theorem Rel.toKpckms {g : Galpy} {w : World} {c0 c : Cluster} (h : Rel g w c0 c) : Ok (CT.toKpckms g true c) (Rel g w c0) :=
  h.exec (.toKpckms true) (by simp [Op.linear, Op.unitTarget, Op.originTarget, Units.linear]) rfl
theorem Rel.toGalpy {g : Galpy} {w : World} {c0 c : Cluster} (h : Rel g w c0 c) : Ok (CT.toGalpy g c) (Rel g w c0) :=
  h.exec .toGalpy (by simp [Op.linear, Op.unitTarget, Op.originTarget, Units.linear]) trivial
theorem Rel.toNbody {g : Galpy} {w : World} {c0 c : Cluster} (h : Rel g w c0 c) : Ok (CT.toNbody g c) (Rel g w c0) :=
  h.exec .toNbody (by simp [Op.linear, Op.unitTarget, Op.originTarget, Units.linear]) trivial
theorem Rel.toCentre {g : Galpy} {w : World} {c0 c : Cluster} {s : Bool} {cm : Option CentreMethod} (h : Rel g w c0 c) :
    Ok (CT.toCentre s cm c) (Rel g w c0) :=
  h.exec (.toCentre s cm) (by simp [Op.linear, Op.unitTarget, Op.originTarget, Origin.linear]) trivial
theorem Rel.toCluster {g : Galpy} {w : World} {c0 c : Cluster} {s : Bool} {cm : Option CentreMethod} (h : Rel g w c0 c) :
    Ok (CT.toCluster s cm c) (Rel g w c0) :=
  h.exec (.toCluster s cm) (by simp [Op.linear, Op.unitTarget, Op.originTarget, Origin.linear]) trivial
theorem Rel.toGalaxy {g : Galpy} {w : World} {c0 c : Cluster} {s : Bool} (h : Rel g w c0 c) :
    Ok (CT.toGalaxy g s c) (Rel g w c0) :=
  h.exec (.toGalaxy s) (by simp [Op.linear, Op.unitTarget, Op.originTarget, Origin.linear]) trivial

theorem Rel.sort {g : Galpy} {w : World} {c0 c : Cluster} (h : Rel g w c0 c) : Rel g w c0 (sortstars true c.d.r c.d.rpro c) := by
  obtain ⟨⟨p, l, hg, f, hw, i⟩, hr⟩ := h
  have hcore := sortstars_core true c.d.r c.d.rpro c
  obtain ⟨k1, k2, k3, k4, k5, k6, k7, k8, k9, k10, k11, k12⟩ := core_fields hcore
  refine ⟨⟨p.of_rest k12, ⟨by rw [k1]; exact l.1, by rw [k2]; exact l.2⟩, sortstars_good hg f.r.length_eq.symm f.rpro.length_eq.symm, ?_,
    (world_core hcore).trans hw, sortstars_orderInv p l f hw i⟩, k12.trans hr⟩
  have hd := sortstars_d true c.d.r c.d.rpro c
  exact ⟨by rw [hd, k1]; exact f.units, by rw [hd, k2]; exact f.origin, by rw [hd, k5]; exact f.r, by rw [hd, k5]; exact f.rpro,
    by rw [hd, k5]; exact f.v, by rw [hd, k5]; exact f.vpro, by rw [hd, k4]; exact f.mtot, by rw [hd, k4]; exact f.mmean,
    by rw [hd, k5]; exact f.rmean, by rw [hd, k5]; exact f.rmeanpro, by rw [hd]; exact f.rmax, by rw [hd]; exact f.rmaxpro⟩

theorem bind_ite_ok {α β : Type} {p : Prop} [Decidable p] {x y : Except Err α} {f : α → Except Err β} {b : β}
    (h : (if p then x.bind f else y.bind f) = .ok b) : ∃ a, f a = .ok b := by
  split at h
  · obtain ⟨a, -, e⟩ := bind_ok h; exact ⟨a, e⟩
  · obtain ⟨a, -, e⟩ := bind_ok h; exact ⟨a, e⟩

theorem ret_back {g : Galpy} {w : World} {c0 c : Cluster} {s : Bool} {cm : Option CentreMethod} (d : Describes g w c0) (h : Rel g w c0 c) :
    Ok (returnCluster g (saveCluster c0) s cm c) (Back g w c0) := by
  intro c' e
  obtain ⟨x, e', hd, f, hg, -, hr⟩ := return_of_world (sort := s) (cm := cm) d.pos d.lin d.good h.1.good h.1.lin h.2 (h.1.world.trans d.world.symm)
  rw [e] at e'
  cases e'
  have u : c'.units = c0.units := congrArg Data.units hd
  have o : c'.origin = c0.origin := congrArg Data.origin hd
  have p := d.pos.of_rest hr
  have l : Lin c' := ⟨by rw [u]; exact d.lin.1, by rw [o]; exact d.lin.2⟩
  have hw : world g c' = some w := (world_of_data hd hr).trans d.world
  refine ⟨⟨p, l, hg, f, hw, ?_⟩, hr, hd⟩
  obtain ⟨⟨u0, hu0, -⟩, ⟨o0, ho0, -⟩⟩ := d.lin
  unfold returnCluster saveCluster at e
  simp only [hu0, ho0, bind] at e
  obtain ⟨x1, e⟩ := bind_ite_ok e
  obtain ⟨x2, e⟩ := bind_ite_ok e
  exact OrderInv.analyze p l hw (c := { x2 with rorder := c0.rorder, rorderOrigin := c0.rorderOrigin }) (d.order.of_eq rfl rfl) e

end

end CT
