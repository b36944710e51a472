import Verif.Props.Unpin
import Verif.Spec.Support
/-!
# Fields without `#[pin]` have no effect on traits (C92)
-/
namespace PinProject
open Spec

theorem support_unpin (cx : Ctx) (ts : List Node) :
    (makeUnpinImpl cx ts).filter (isSupport cx.ident) = makeUnpinImpl cx ts := by
  rw [List.filter_eq_self]
  intro x hx
  unfold makeUnpinImpl at hx
  split at hx
  · simp only [List.mem_singleton] at hx; subst hx; rfl
  · simp only [List.mem_cons, List.not_mem_nil, or_false] at hx
    rcases hx with rfl | rfl <;> rfl
  · simp only [List.mem_cons, List.not_mem_nil, or_false] at hx
    rcases hx with rfl | rfl | rfl
    · exact beq_self_eq_true _
    · rfl
    · rfl

theorem support_drop (cx : Ctx) (n : String) :
    (makeDropImpl cx).filter (isSupport n) = makeDropImpl cx := by
  unfold makeDropImpl
  split <;> rfl

theorem longer (a b : String) (hb : b.toList ≠ []) : ((a ++ b) == a) = false := by
  rw [beq_eq_false_iff_ne]
  intro h
  have := congrArg (fun s => s.toList.length) h
  simp only [String.toList_append, List.length_append] at this
  cases hl : b.toList with
  | nil => exact hb hl
  | cons c cs => rw [hl] at this; simp at this

/-- The support of the expansion of a struct. -/
theorem support_struct (A : Args) (s : ItemStruct) :
    (structExpansion (s.ctx A) s.pre.fields).inScope.filter (isSupport s.ident) =
      makeUnpinImpl (s.ctx A) (pinnedTys s.pre.fields.list) ++ makeDropImpl (s.ctx A) := by
  have e1 : ∀ x : String, x.toList ≠ [] → (("__" ++ unraw s.ident ++ x) == "__" ++ noRaw s.ident) = false :=
    fun x hx => longer _ _ hx
  have h1 : (s.ctx A).project = false → isSupport s.ident (projItemS (s.ctx A) s.pre.fields) = false := by
    intro h
    have : A.project = none := by simpa [ItemStruct.ctx, mkCtx] using h
    simp only [projItemS, isSupport, ItemStruct.ctx, mkCtx, this, Option.getD_none]
    exact e1 "Projection" (by decide)
  have h2 : (s.ctx A).projectRef = false → isSupport s.ident (refItemS (s.ctx A) s.pre.fields) = false := by
    intro h
    have : A.projectRef = none := by simpa [ItemStruct.ctx, mkCtx] using h
    simp only [refItemS, isSupport, ItemStruct.ctx, mkCtx, this, Option.getD_none]
    exact e1 "ProjectionRef" (by decide)
  have h3 : (s.ctx A).projectReplace.ident.isSome = false →
      isSupport s.ident (ownItemS (s.ctx A) s.pre.fields) = false := by
    intro h
    have : A.projectReplace.ident = none := by simpa [ItemStruct.ctx, mkCtx] using h
    simp only [ownItemS, isSupport, ItemStruct.ctx, mkCtx, this, Option.getD_none]
    exact e1 "ProjectionOwned" (by decide)
  have hu := support_unpin (s.ctx A) (pinnedTys s.pre.fields.list)
  rw [show (s.ctx A).ident = s.ident from rfl] at hu
  simp only [structExpansion, List.filter_append, hu, support_drop]
  have a1 : (if (s.ctx A).project = true then [] else [projItemS (s.ctx A) s.pre.fields]).filter
      (isSupport s.ident) = [] := by
    cases hc : (s.ctx A).project
    · simp [h1 hc]
    · rfl
  have a2 : (if (s.ctx A).projectRef = true then [] else [refItemS (s.ctx A) s.pre.fields]).filter
      (isSupport s.ident) = [] := by
    cases hc : (s.ctx A).projectRef
    · simp [h2 hc]
    · rfl
  have a3 : (if (s.ctx A).projectReplace.ident.isSome = true then [] else
      if (s.ctx A).projectReplace.isSome = true then [ownItemS (s.ctx A) s.pre.fields] else []).filter
      (isSupport s.ident) = [] := by
    cases hc : (s.ctx A).projectReplace.ident.isSome
    · cases (s.ctx A).projectReplace.isSome
      · rfl
      · simp [h3 hc]
    · rfl
  rw [a1, a2, a3]
  rfl

/-- The support of the expansion of an enum. -/
theorem support_enum (A : Args) (e : ItemEnum) :
    (enumExpansion (e.ctx A) e.pre.variants).inScope.filter (isSupport e.ident) =
      makeUnpinImpl (e.ctx A) (e.pre.variants.flatMap (fun v => pinnedTys v.fields.list)) ++
        makeDropImpl (e.ctx A) := by
  have hu := support_unpin (e.ctx A) (e.pre.variants.flatMap (fun v => pinnedTys v.fields.list))
  rw [show (e.ctx A).ident = e.ident from rfl] at hu
  simp only [enumExpansion, List.filter_append, hu, support_drop]
  rfl

theorem pinned_visit (st : SelfTy) (fs : List Field) :
    pinnedTys (fs.map (Field.visit st)) = ((fs.filter Pinned).map (·.ty)).map (Node.visit st) := by
  unfold pinnedTys
  rw [List.filter_map, List.map_map, List.map_map]
  rfl

theorem pinned_variants (st : SelfTy) (vs : List Variant) :
    (vs.flatMap fun v => pinnedTys (v.visit st).fields.list) =
      (((vs.flatMap fun v => v.fields.list).filter Pinned).map (·.ty)).map (Node.visit st) := by
  induction vs with
  | nil => rfl
  | cons v vs ih =>
    rw [List.flatMap_cons, ih, List.flatMap_cons, List.filter_append, List.map_append, List.map_append]
    congr 1
    show pinnedTys (v.fields.visit st).list = _
    rw [visit_fields_list, pinned_visit]

/-- What the traits of an accepted definition depend on. -/
theorem support_eq (item : Item) (E : Expansion) (h : parseDerive item = .ok E) :
    ∃ hd A k, itemHeader item = some hd ∧ parseArgs hd.attrs = .ok A ∧
      E.inScope.filter (isSupport hd.name) =
        (let st := mkSelfTy hd.name hd.generics.tyGenerics
         let cx := mkCtx A hd.attrs hd.vis.visit hd.name (hd.generics.visit st) k
         makeUnpinImpl cx ((pinnedTypes item).map (Node.visit st)) ++ makeDropImpl cx) := by
  cases item with
  | other a => cases h
  | struct_ s =>
    obtain ⟨A, h1, -, -, -, -, -, rfl⟩ := (deriveStruct_iff s E).1 h
    refine ⟨_, A, .struct_, rfl, h1, ?_⟩
    have := support_struct A s
    rw [show s.pre.fields.list = _ from visit_fields_list _ _, pinned_visit] at this
    exact this
  | enum_ e =>
    obtain ⟨A, h1, -, -, -, -, -, -, rfl⟩ := (deriveEnum_iff e E).1 h
    refine ⟨_, A, .enum_, rfl, h1, ?_⟩
    have := support_enum A e
    rw [ItemEnum.pre_variants, List.flatMap_map] at this
    rw [pinned_variants] at this
    exact this

/-- **C92** Two definitions with the same attributes, visibility, name and generics, and with the same
types of `#[pin]` fields in the same order, have the same generated traits, impls of traits (`Unpin`,
`UnsafeUnpin`, `Drop`, `PinnedDrop`) and helper struct. So fields without `#[pin]`, the names of
fields, their grouping into variants, and even the difference between a struct and an enum have no
effect on traits. -/
theorem C92_same_traits (item item' : Item) (E E' : Expansion) (h : parseDerive item = .ok E)
    (h' : parseDerive item' = .ok E') (hd : Header) (hh : itemHeader item = some hd)
    (hh' : itemHeader item' = some hd) (hp : pinnedTypes item = pinnedTypes item') :
    E.inScope.filter (isSupport hd.name) = E'.inScope.filter (isSupport hd.name) := by
  obtain ⟨d, A, k, e1, e2, e3⟩ := support_eq item E h
  obtain ⟨d', A', k', e1', e2', e3'⟩ := support_eq item' E' h'
  obtain rfl := Option.some.inj (e1.symm.trans hh)
  obtain rfl := Option.some.inj (e1'.symm.trans hh')
  obtain rfl := Except.ok.inj (e2.symm.trans e2')
  rw [e3, e3', hp]
  rfl

/-- **C92** All traits and impls of traits are in the anonymous scope, so that these are all of them. -/
theorem C92_not_exposed (item : Item) (E : Expansion) (h : parseDerive item = .ok E) :
    ∀ x ∈ E.exposed, (∃ a v n ps pr fs, x = .struct_ a v n ps pr fs) ∨
      (∃ a v n ps pr vs, x = .enum_ a v n ps pr vs) := by
  intro x hx
  cases item with
  | other a => cases h
  | struct_ s =>
    obtain ⟨A, -, -, -, -, -, -, rfl⟩ := (deriveStruct_iff s E).1 h
    left
    simp only [structExpansion, List.mem_append] at hx
    rcases hx with (hx | hx) | hx
    · split at hx
      · obtain rfl := List.mem_singleton.1 hx; exact ⟨_, _, _, _, _, _, rfl⟩
      · cases hx
    · split at hx
      · obtain rfl := List.mem_singleton.1 hx; exact ⟨_, _, _, _, _, _, rfl⟩
      · cases hx
    · split at hx
      · split at hx
        · obtain rfl := List.mem_singleton.1 hx; exact ⟨_, _, _, _, _, _, rfl⟩
        · cases hx
      · cases hx
  | enum_ e =>
    obtain ⟨A, -, -, -, -, -, -, -, rfl⟩ := (deriveEnum_iff e E).1 h
    right
    simp only [enumExpansion, List.mem_append] at hx
    rcases hx with (hx | hx) | hx
    · split at hx
      · obtain rfl := List.mem_singleton.1 hx; exact ⟨_, _, _, _, _, _, rfl⟩
      · cases hx
    · split at hx
      · obtain rfl := List.mem_singleton.1 hx; exact ⟨_, _, _, _, _, _, rfl⟩
      · cases hx
    · split at hx
      · obtain rfl := List.mem_singleton.1 hx; exact ⟨_, _, _, _, _, _, rfl⟩
      · cases hx

/-! ## Examples -/

/-- `#[pin_project] struct G<'a, T: Tr, U> where U: Copy { #[pin] x: T, y: U, _pin: PhantomPinned }`: a
`PhantomPinned` without `#[pin]` has no effect. -/
def demoPhantom : ItemStruct :=
  { demoGeneric [] with fields := .named [
    { attrs := [⟨.path { segs := ["pin"] }⟩], ident := some "x", ty := Node.tyIdent "T" },
    { ident := some "y", ty := .tyIdent "U" },
    { ident := some "_pin", ty := .tyIdent "PhantomPinned" }] }

example : ∃ E E', parseDerive (.struct_ (demoGeneric [])) = .ok E ∧
    parseDerive (.struct_ demoPhantom) = .ok E' ∧
    E.inScope.filter (isSupport "G") = E'.inScope.filter (isSupport "G") ∧
    E.inScope.filter (isSupport "G") ≠ [] := by
  have h : ∃ E, parseDerive (.struct_ (demoGeneric [])) = .ok E := ⟨_, rfl⟩
  have h' : ∃ E, parseDerive (.struct_ demoPhantom) = .ok E := ⟨_, rfl⟩
  obtain ⟨E, h⟩ := h
  obtain ⟨E', h'⟩ := h'
  refine ⟨E, E', h, h', C92_same_traits _ _ E E' h h' _ rfl rfl rfl, ?_⟩
  obtain ⟨d, A, k, e1, e2, e3⟩ := support_eq _ E h
  obtain rfl := Option.some.inj e1
  rw [show ("G" : String) = (demoGeneric []).ident from rfl, e3]
  intro h0
  have h0 := (List.append_eq_nil_iff.1 h0).2
  unfold makeDropImpl at h0
  simp only at h0
  split at h0 <;> cases h0

/-- The same generics and pinned types in an enum. -/
def demoAsEnum : ItemEnum where
  attrs := (demoGeneric []).attrs
  vis := (demoGeneric []).vis
  ident := (demoGeneric []).ident
  generics := (demoGeneric []).generics
  variants := [
    { ident := "A", fields := .unit },
    { ident := "B", fields := .unnamed [
      { ident := none, ty := .tyIdent "U" },
      { attrs := [⟨.path { segs := ["pin"] }⟩], ident := none, ty := Node.tyIdent "T" }] }]

example : ∃ E E', parseDerive (.struct_ (demoGeneric [])) = .ok E ∧
    parseDerive (.enum_ demoAsEnum) = .ok E' ∧
    E.inScope.filter (isSupport "G") = E'.inScope.filter (isSupport "G") := by
  have h : ∃ E, parseDerive (.struct_ (demoGeneric [])) = .ok E := ⟨_, rfl⟩
  have h' : ∃ E, parseDerive (.enum_ demoAsEnum) = .ok E := ⟨_, rfl⟩
  obtain ⟨E, h⟩ := h
  obtain ⟨E', h'⟩ := h'
  exact ⟨E, E', h, h', C92_same_traits _ _ E E' h h' _ rfl rfl rfl⟩

/-- With `#[pin]` it has one: the types of the pinned fields differ. -/
example : pinnedTypes (.struct_ demoPhantom) = [.tyIdent "T"] ∧
    pinnedTypes (.struct_ { demoPhantom with fields := .named [
      { attrs := [⟨.path { segs := ["pin"] }⟩], ident := some "x", ty := Node.tyIdent "T" },
      { attrs := [⟨.path { segs := ["pin"] }⟩], ident := some "_pin", ty := .tyIdent "PhantomPinned" }] }) =
      [.tyIdent "T", .tyIdent "PhantomPinned"] := ⟨rfl, rfl⟩

end PinProject
