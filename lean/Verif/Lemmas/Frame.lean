import Verif.Spec.Frame
import Verif.Lemmas.Complete

/-! Lemmas for C60: what is added to the tables. -/

namespace Dxf

variable {Img : Type}

namespace Drawing

/-- All additional entries have names that are needed. -/
def Only (needs : TName → Str → Prop) (d d' : Drawing Img) : Prop :=
  ∀ t, ∀ x ∈ d'.tables t, x ∈ d.tables t ∨ needs t (t.name x)

namespace Only

variable {needs : TName → Str → Prop}

theorem of_eq {d d' : Drawing Img} (h : d'.tables = d.tables) : Only needs d d' :=
  fun t x hx => .inl (by rwa [h] at hx)

theorem trans {d d' d'' : Drawing Img} (g : Only needs d d') (k : Only needs d' d'') :
    Only needs d d'' :=
  fun t x hx => (k t x hx).elim (g t x) .inr

theorem push (d : Drawing Img) (t : TName) (x : t.Item) (h : needs t (t.name x)) :
    Only needs d (d.push t x) := by
  intro t' y hy
  by_cases ht : t = t'
  · subst ht
    rw [Drawing.push, tables_set, List.mem_append, List.mem_singleton] at hy
    rcases hy with hy | rfl
    · exact .inl hy
    · exact .inr h
  · rw [Drawing.push, tables_set_ne _ _ ht] at hy
    exact .inl hy

theorem next {d d' : Drawing Img} {h : Handle} (hh : d.nextHandle = .ok (h, d')) : Only needs d d' := by
  obtain ⟨-, rfl, -⟩ := nextHandle_ok hh
  exact of_eq rfl

theorem ensurePlain {d d' : Drawing Img} {t : TName} {s : Str} (hs : needs t s)
    (h : d.ensurePlain t s = .ok d') : Only needs d d' := by
  rw [Drawing.ensurePlain] at h
  split at h
  · cases h
    exact of_eq rfl
  · obtain ⟨⟨x, d1⟩, h1, h⟩ := bind_ok h
    cases h
    refine (next h1).trans (push d1 t _ ?_)
    rwa [TName.name_setHandle, TName.name_named]

theorem ensure {d d' : Drawing Img} {t : TName} {s : Str} (hs : needs t s)
    (hl : t = .layer → needs .lineType str!"CONTINUOUS") (h : d.ensure t s = .ok d') :
    Only needs d d' := by
  rw [Drawing.ensure] at h
  split at h
  · cases h
    exact of_eq rfl
  · obtain ⟨⟨x, d1⟩, h1, h⟩ := bind_ok h
    cases h
    obtain ⟨⟨n, d2⟩, h2, h1⟩ := bind_ok h1
    obtain ⟨d3, h3, h1⟩ := bind_ok h1
    cases h1
    have hn : needs t (t.name (t.setHandle (t.named s) n)) := by
      rwa [TName.name_setHandle, TName.name_named]
    refine (next h2).trans ?_
    cases t
    case layer =>
      obtain ⟨d4, h4, h3⟩ := bind_ok h3
      cases h3
      exact (ensurePlain (hl rfl) h4).trans (push d4 .layer _ hn)
    all_goals
      cases h3
      exact push d2 _ _ hn

theorem ensureAll {d d' : Drawing Img} {t : TName} {ss : List Str} (hs : ∀ s ∈ ss, needs t s)
    (hl : t = .layer → needs .lineType str!"CONTINUOUS") (h : d.ensureAll t ss = .ok d') :
    Only needs d d' := by
  induction ss generalizing d with
  | nil =>
    cases h
    exact of_eq rfl
  | cons s ss ih =>
    rw [Drawing.ensureAll, List.foldlM_cons] at h
    obtain ⟨d1, h1, h⟩ := bind_ok h
    exact (ensure (hs s List.mem_cons_self) hl h1).trans
      (ih (fun s hm => hs s (List.mem_cons_of_mem _ hm)) h)

end Only

theorem provides {needs : TName → Str → Prop} {d d' : Drawing Img} (g : Grows d d')
    (k : Only needs d d') : Provides needs d d' := by
  refine ⟨g.header, g.next, g.classes, g.thumbnail, fun t => ?_⟩
  obtain ⟨new, h1, h2, h3⟩ := g.tables t
  refine ⟨new, h1, h3, fun x hx => ⟨(k t x ?_).resolve_left fun hc => ?_, h2 x hx⟩⟩
  · rw [h1]
    exact List.mem_append_right _ hx
  · have := (h2 x hx).1
    rw [← Bool.not_eq_true, has_iff] at this
    exact this ⟨x, hc, rfl⟩

/-- The tables after the first part of adding an object. -/
theorem only_object {needs : TName → Str → Prop} {d d' : Drawing Img} {o : Object}
    (hn : ∀ t s, o.Needs t s → needs t s) (h : d.addObjectNoHandle o = .ok d') :
    Only needs d d' := by
  obtain ⟨d1, h1, h⟩ := bind_ok h
  obtain ⟨d2, h2, h⟩ := bind_ok h
  obtain ⟨d3, h3, h⟩ := bind_ok h
  obtain ⟨d4, h4, h⟩ := bind_ok h
  cases h
  exact (Only.ensureAll (fun s hs => hn _ _ hs) (fun _ => hn .lineType _ (.inr rfl)) h1).trans
    ((Only.ensureAll (fun s hs => hn .lineType _ (.inl (Option.mem_toList.mp hs))) nofun h2).trans
    ((Only.ensureAll (fun s hs => hn .style _ (Option.mem_toList.mp hs)) nofun h3).trans
    ((Only.ensureAll (fun s hs => hn .view _ (Option.mem_toList.mp hs)) nofun h4).trans
      (.of_eq rfl))))

theorem only_mline {e : Entity} {d d' : Drawing Img} (h : d.ensureMLineStyle e.mlineStyle = .ok d') :
    Only e.Needs d d' := by
  rcases he : e.mlineStyle with _ | s
  · rw [he] at h
    cases h
    exact .of_eq rfl
  · rw [he, ensureMLineStyle] at h
    split at h
    · cases h
      exact .of_eq rfl
    · obtain ⟨⟨x, d1⟩, h1, h⟩ := bind_ok h
      cases h
      obtain ⟨⟨n, d2⟩, h2, h1⟩ := bind_ok h1
      obtain ⟨d3, h3, h1⟩ := bind_ok h1
      cases h1
      refine (Only.next h2).trans (only_object (fun t u hu => ?_) h3)
      cases t
      case layer => cases hu
      case lineType =>
        rcases hu with hu | hu
        · cases hu
          exact .inr (.inr he)
        · exact .inr (.inl hu)
      case style =>
        cases hu
        exact .inr he
      case view => cases hu
      all_goals exact hu.elim

theorem only_entity {e : Entity} {d d' : Drawing Img} (h : d.addEntityNoHandle e = .ok d') :
    Only e.Needs d d' := by
  obtain ⟨d1, h1, h⟩ := bind_ok h
  obtain ⟨d2, h2, h⟩ := bind_ok h
  obtain ⟨d3, h3, h⟩ := bind_ok h
  obtain ⟨d4, h4, h⟩ := bind_ok h
  obtain ⟨d5, h5, h⟩ := bind_ok h
  cases h
  exact (only_mline h1).trans
    ((Only.ensureAll (fun s hs => Option.mem_toList.mp hs) nofun h2).trans
    ((Only.ensure (t := .layer) rfl (fun _ => .inr (.inl rfl)) h3).trans
    ((Only.ensure (t := .lineType) (.inl rfl) nofun h4).trans
    ((Only.ensureAll (fun s hs => .inl (Option.mem_toList.mp hs)) nofun h5).trans (.of_eq rfl)))))

theorem needs_flat {e e' : Entity} (h : e'.toFlat = e.toFlat) : e'.Needs = e.Needs := by
  obtain ⟨f, x⟩ := e
  obtain ⟨f', x'⟩ := e'
  cases h
  funext t s
  obtain ⟨k, a, b⟩ := f
  cases t <;> cases k <;> rfl

theorem needs_setHandle (e : Entity) (h : Handle) : (e.setHandle h).Needs = e.Needs := by
  obtain ⟨⟨k, a, b⟩, x⟩ := e
  funext t s
  cases t <;> cases k <;> rfl

theorem object_needs_setHandle (o : Object) (h : Handle) : (o.setHandle h).Needs = o.Needs := by
  obtain ⟨k, a, b⟩ := o
  funext t s
  cases t <;> cases k <;> rfl

end Drawing
end Dxf
