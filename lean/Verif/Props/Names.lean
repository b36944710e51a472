import Verif.Props.Types
/-!
# Visibility, placement, generics of the generated types: C15, C17, C18, C19, C43
-/
namespace PinProject
open Spec

/-- The exposed items, one by one: the definitions of the modes the user named. -/
theorem exposed_eq (item : Item) (E : Expansion) (h : parseDerive item = .ok E) :
    ∃ A ident, parseArgs (itemAttrs item) = .ok A ∧ itemName item = some ident ∧
      E.exposed.map asTypeDef =
        ([Mode.proj, .projRef, .replace].filter (fun m => (modeName A m).isSome)).map (fun m =>
          some (modeDef A m (itemVis item).visit ident (preGenerics item) (preVariants item))) := by
  cases item with
  | other a => simp [parseDerive] at h
  | struct_ s =>
    obtain ⟨A, h1, -, -, -, -, -, rfl⟩ := (deriveStruct_iff s E).1 h
    refine ⟨A, s.ident, h1, rfl, ?_⟩
    have hp : (s.ctx A).project = A.project.isSome := rfl
    have hr : (s.ctx A).projectRef = A.projectRef.isSome := rfl
    have ho : (s.ctx A).projectReplace = A.projectReplace := rfl
    simp only [structExpansion, hp, hr, ho]
    have e1 : asTypeDef (projItemS (s.ctx A) s.pre.fields) = some (modeDef A .proj s.vis.visit s.ident
      (preGenerics (.struct_ s)) (preVariants (.struct_ s))) := rfl
    have e2 : asTypeDef (refItemS (s.ctx A) s.pre.fields) = some (modeDef A .projRef s.vis.visit s.ident
      (preGenerics (.struct_ s)) (preVariants (.struct_ s))) := rfl
    have e3 : asTypeDef (ownItemS (s.ctx A) s.pre.fields) = some (modeDef A .replace s.vis.visit s.ident
      (preGenerics (.struct_ s)) (preVariants (.struct_ s))) := rfl
    cases h1 : A.project <;> cases h2 : A.projectRef <;> cases h3 : A.projectReplace <;>
      simp [modeName, h1, h2, h3, ProjReplace.ident, ProjReplace.isSome, e1, e2, e3, itemVis]
  | enum_ e =>
    obtain ⟨A, h1, -, -, -, -, -, -, rfl⟩ := (deriveEnum_iff e E).1 h
    refine ⟨A, e.ident, h1, rfl, ?_⟩
    have hp : (e.ctx A).project = A.project.isSome := rfl
    have hr : (e.ctx A).projectRef = A.projectRef.isSome := rfl
    have ho : (e.ctx A).projectReplace = A.projectReplace := rfl
    simp only [enumExpansion, hp, hr, ho]
    have e1 : asTypeDef (projItemE (e.ctx A) e.pre.variants) = some (modeDef A .proj e.vis.visit e.ident
        (preGenerics (.enum_ e)) (preVariants (.enum_ e))) := by
      simp only [projItemE, asTypeDef, modeDef, preVariants, itemVariants, List.map_map]
      simp only [ItemEnum.pre, ItemEnum.visit, List.map_map]
      rfl
    have e2 : asTypeDef (refItemE (e.ctx A) e.pre.variants) = some (modeDef A .projRef e.vis.visit e.ident
        (preGenerics (.enum_ e)) (preVariants (.enum_ e))) := by
      simp only [refItemE, asTypeDef, modeDef, preVariants, itemVariants, List.map_map]
      simp only [ItemEnum.pre, ItemEnum.visit, List.map_map]
      rfl
    have e3 : asTypeDef (ownItemE (e.ctx A) e.pre.variants) = some (modeDef A .replace e.vis.visit e.ident
        (preGenerics (.enum_ e)) (preVariants (.enum_ e))) := by
      simp only [ownItemE, asTypeDef, modeDef, preVariants, itemVariants, List.map_map]
      simp only [ItemEnum.pre, ItemEnum.visit, List.map_map]
      rfl
    cases h1 : A.project <;> cases h2 : A.projectRef <;> cases h3 : A.projectReplace <;>
      simp [modeName, h1, h2, h3, ProjReplace.ident, e1, e2, e3, itemVis]

theorem mem_exposed {item : Item} {E : Expansion} (h : parseDerive item = .ok E) {d : TypeDef}
    (hd : d ∈ typeDefs E.exposed) : ∃ A ident mode, parseArgs (itemAttrs item) = .ok A ∧
      itemName item = some ident ∧ (modeName A mode).isSome ∧
      d = modeDef A mode (itemVis item).visit ident (preGenerics item) (preVariants item) := by
  obtain ⟨A, ident, h1, h2, h3⟩ := exposed_eq item E h
  have : some d ∈ E.exposed.map asTypeDef := by
    obtain ⟨x, hx, he⟩ := List.mem_filterMap.1 hd
    exact List.mem_map.2 ⟨x, hx, he⟩
  rw [h3] at this
  obtain ⟨m, hm, he⟩ := List.mem_map.1 this
  exact ⟨A, ident, m, h1, h2, (List.mem_filter.1 hm).2, (Option.some.inj he).symm⟩

/-! ## C17 -/

/-- **C17** What the expansion places next to the annotated type is exactly one type definition for
each name the user gave, with that name. Everything else generated is inside the anonymous scope. -/
theorem C17_exposed_names (item : Item) (E : Expansion) (h : parseDerive item = .ok E) :
    ∃ A, parseArgs (itemAttrs item) = .ok A ∧
      E.exposed.map (fun i => (asTypeDef i).map (·.name)) = (userNames A).map some := by
  obtain ⟨A, ident, h1, -, h3⟩ := exposed_eq item E h
  refine ⟨A, h1, ?_⟩
  have : E.exposed.map (fun i => (asTypeDef i).map (·.name)) =
      (E.exposed.map asTypeDef).map (Option.map (·.name)) := by rw [List.map_map]; rfl
  rw [this, h3]
  cases h1 : A.project <;> cases h2 : A.projectRef <;> cases h3 : A.projectReplace <;>
    simp [modeName, h1, h2, h3, ProjReplace.ident, userNames, modeDef]

/-- **C17** A projection type the user did not name is defined inside the anonymous scope. -/
theorem C17_unnamed_in_scope (item : Item) (E : Expansion) (h : parseDerive item = .ok E) (mode : Mode)
    (fn : GFn) (hfn : method E mode.fn = some fn) (A : Args) (hA : parseArgs (itemAttrs item) = .ok A)
    (hn : modeName A mode = none) :
    ∃ d ∈ typeDefs E.inScope, ∃ args, fn.ret = .adt d.name args := by
  obtain ⟨A', ident, h1, -, h3, h4, -⟩ := method_def item E h mode fn hfn
  obtain rfl := Except.ok.inj (hA.symm.trans h1)
  rw [hn] at h3
  exact ⟨_, h3, _, h4⟩

/-- **C17** A projection type the user named is the type of that name. -/
theorem C17_named (item : Item) (E : Expansion) (h : parseDerive item = .ok E) (mode : Mode)
    (fn : GFn) (hfn : method E mode.fn = some fn) (A : Args) (hA : parseArgs (itemAttrs item) = .ok A)
    (n : String) (hn : modeName A mode = some n) :
    (∃ args, fn.ret = .adt n args) ∧ ∃ d ∈ typeDefs E.exposed, d.name = n := by
  obtain ⟨A', ident, h1, -, h3, h4, -⟩ := method_def item E h mode fn hfn
  obtain rfl := Except.ok.inj (hA.symm.trans h1)
  have hd : (modeDef A mode (itemVis item).visit ident (preGenerics item) (preVariants item)).name = n := by
    simp [modeDef, hn]
  simp only [hn, Option.isSome_some, if_true] at h3
  exact ⟨⟨_, by rw [h4, hd]⟩, _, h3, hd⟩

example : ∃ E A, parseDerive (.enum_ demoEnum) = .ok E ∧ parseArgs demoEnum.attrs = .ok A ∧
    (method E Mode.proj.fn).isSome ∧ modeName A .proj = some "P" := ⟨_, _, rfl, rfl, rfl, rfl⟩
example : ∃ E, parseDerive (.enum_ demoEnum) = .ok E ∧
    E.exposed.map (fun i => (asTypeDef i).map (·.name)) = [some "P"] ∧
    (typeDefs E.inScope).map (·.name) = ["__E"] := ⟨_, rfl, rfl, rfl⟩
example : ∃ E, parseDerive (.struct_ demoStruct) = .ok E ∧ E.exposed = [] ∧
    (typeDefs E.inScope).map (·.name) = ["__SProjection", "__SProjectionRef", "__S"] := ⟨_, rfl, rfl, rfl⟩

/-! ## C15 and C43 -/

/-- What `determine_visibility` does, semantically. -/
theorem determineVisibility_visible (v : Vis) (m at_ : ModAt) :
    Visible (determineVisibility v) m at_ ↔ Visible v m at_ ∧ at_.crate = m.crate := by
  cases v with
  | pub => simp [determineVisibility, Vis.pubCrate, Visible, resolveMod]
  | inherited => exact ⟨fun h => ⟨h, h.1⟩, fun h => h.1⟩
  | restricted i p => exact ⟨fun h => ⟨h, h.1⟩, fun h => h.1⟩

/-- `pub(super)` in `a::b` is visible in `a` but not in `c`. -/
example (k : Nat) : Visible (.restricted false { segs := ["super"] }) ⟨k, ["a", "b"]⟩ ⟨k, ["a", "d"]⟩ ∧
    ¬ Visible (.restricted false { segs := ["super"] }) ⟨k, ["a", "b"]⟩ ⟨k, ["c"]⟩ := by
  simp [Visible, resolveMod, resolveRel]

/-- **C15** A method or a projection type is visible from exactly the places of the same crate from
which the annotated type is visible. -/
theorem C15_visibility (item : Item) (E : Expansion) (h : parseDerive item = .ok E)
    (hself : isPubSelf (itemVis item) = false) (mode : Mode) (fn : GFn)
    (hfn : method E mode.fn = some fn) :
    ∃ d ∈ typeDefs (allItems E), (∃ args, fn.ret = .adt d.name args) ∧
      ∀ m at_, (Visible d.vis m at_ ↔ Visible (itemVis item) m at_ ∧ at_.crate = m.crate) ∧
        (Visible fn.vis m at_ ↔ Visible (itemVis item) m at_ ∧ at_.crate = m.crate) := by
  obtain ⟨A, ident, h1, h2, h3, h4, h5, h6⟩ := method_def item E h mode fn hfn
  refine ⟨_, typeDefs_all h3, ⟨_, h4⟩, fun m at_ => ?_⟩
  have hd : ∀ m at_, Visible (modeDef A mode (itemVis item).visit ident (preGenerics item)
      (preVariants item)).vis m at_ ↔ Visible (itemVis item) m at_ ∧ at_.crate = m.crate := by
    intro m at_
    simp only [modeDef]
    rw [visit_vis hself, determineVisibility_visible]
  exact ⟨hd m at_, by rw [h5]; exact hd m at_⟩

/-- **C15** The same for every type definition placed next to the annotated type. -/
theorem C15_exposed (item : Item) (E : Expansion) (h : parseDerive item = .ok E)
    (hself : isPubSelf (itemVis item) = false) (d : TypeDef) (hd : d ∈ typeDefs E.exposed) (m at_ : ModAt) :
    Visible d.vis m at_ ↔ Visible (itemVis item) m at_ ∧ at_.crate = m.crate := by
  obtain ⟨A, ident, mode, -, -, -, rfl⟩ := mem_exposed h hd
  simp only [modeDef]
  rw [visit_vis hself, determineVisibility_visible]

/-- **C15** Whatever the visibility of the annotated type, nothing placed next to it and no method is
visible from another crate. -/
theorem C15_crate_only (item : Item) (E : Expansion) (h : parseDerive item = .ok E) (m at_ : ModAt)
    (hc : at_.crate ≠ m.crate) :
    (∀ d ∈ typeDefs E.exposed, ¬ Visible d.vis m at_) ∧
    ∀ (mode : Mode) fn, method E mode.fn = some fn → ¬ Visible fn.vis m at_ := by
  constructor
  · intro d hd
    obtain ⟨A, ident, mode, -, -, -, rfl⟩ := mem_exposed h hd
    simp only [modeDef]
    rw [determineVisibility_visible]
    exact fun h => hc h.2
  · intro mode fn hfn
    obtain ⟨A, ident, h1, h2, h3, h4, h5, h6⟩ := method_def item E h mode fn hfn
    rw [h5]
    simp only [modeDef]
    rw [determineVisibility_visible]
    exact fun h => hc h.2

/-- A public type at crate 0, module `a`: its methods can be used in module `b` of crate 0 and not in
crate 1. -/
example : ∃ E fn, parseDerive (.struct_ demoStruct) = .ok E ∧ method E "project" = some fn ∧
    Visible fn.vis ⟨0, ["a"]⟩ ⟨0, ["b"]⟩ ∧ ¬ Visible fn.vis ⟨0, ["a"]⟩ ⟨1, []⟩ ∧
    Visible demoStruct.vis ⟨0, ["a"]⟩ ⟨1, []⟩ := by
  refine ⟨_, _, rfl, rfl, ⟨rfl, ?_⟩, ?_, trivial⟩
  · simp [resolveMod]
  · rintro ⟨h, -⟩; simp at h

/-- **C43** What happens to a visibility other than `pub`: it is copied verbatim to every projection
type placed next to the annotated type, to every method and to the type the method returns, with the
single exception of `pub(self)` (or `pub(in self)`), where the word `self` becomes `__self`. -/
theorem C43_visibility (item : Item) (E : Expansion) (h : parseDerive item = .ok E)
    (hpub : itemVis item ≠ .pub) :
    let expected := match itemVis item with
      | .restricted i p => if p.segs = ["self"] then .restricted i { p with segs := ["__self"] } else .restricted i p
      | v => v
    (∀ d ∈ typeDefs E.exposed, d.vis = expected) ∧
    ∀ (mode : Mode) fn, method E mode.fn = some fn → fn.vis = expected ∧
      ∃ d ∈ typeDefs (allItems E), (∃ args, fn.ret = .adt d.name args) ∧ d.vis = expected := by
  intro expected
  have hv : ∀ A mode ident, (modeDef A mode (itemVis item).visit ident (preGenerics item)
      (preVariants item)).vis = expected := by
    intro A mode ident
    simp only [modeDef, expected]
    cases hi : itemVis item with
    | pub => exact absurd hi hpub
    | inherited => rfl
    | restricted i p =>
      dsimp only
      split
      · rename_i hs
        obtain ⟨l, segs⟩ := p
        dsimp only at hs
        subst hs
        rfl
      · rename_i hs
        rw [visit_vis (by simpa [isPubSelf] using hs)]
        rfl
  constructor
  · intro d hd
    obtain ⟨A, ident, mode, -, -, -, rfl⟩ := mem_exposed h hd
    exact hv _ _ _
  · intro mode fn hfn
    obtain ⟨A, ident, h1, h2, h3, h4, h5, h6⟩ := method_def item E h mode fn hfn
    exact ⟨h5.trans (hv _ _ _), _, typeDefs_all h3, ⟨_, h4⟩, hv _ _ _⟩

/-- **C43** So a method has the visibility written on the annotated type exactly when that is neither `pub` nor
`pub(self)`. -/
theorem C43_verbatim_iff (item : Item) (E : Expansion) (h : parseDerive item = .ok E)
    (mode : Mode) (fn : GFn) (hfn : method E mode.fn = some fn) :
    fn.vis = itemVis item ↔ itemVis item ≠ .pub ∧ isPubSelf (itemVis item) = false := by
  by_cases hpub : itemVis item = .pub
  · obtain ⟨A, ident, h1, h2, h3, h4, h5, h6⟩ := method_def item E h mode fn hfn
    rw [h5]
    refine iff_of_false ?_ (fun h => h.1 hpub)
    rw [hpub]
    exact fun h => nomatch h
  · have := ((C43_visibility item E h hpub).2 mode fn hfn).1
    rw [this]
    cases hi : itemVis item with
    | pub => exact absurd hi hpub
    | inherited => simp [isPubSelf]
    | restricted i p =>
      obtain ⟨l, segs⟩ := p
      by_cases hs : segs = ["self"]
      · simp [hs, isPubSelf]
      · simp [hs, isPubSelf]

/-- `pub(in crate::a) struct ..` -/
example : ∃ E fn, parseDerive (.struct_ { demoStruct with vis := .restricted true { segs := ["crate", "a"] } }) = .ok E ∧
    method E "project_ref" = some fn ∧ fn.vis = .restricted true { segs := ["crate", "a"] } := ⟨_, _, rfl, rfl, rfl⟩

/-- The exception in **C43**: on a struct declared `pub(self)` every method and projection type is
declared `pub(__self)`, and a `pub(self)` field becomes a `pub(__self)` field of the projections. -/
theorem C43_counterexample : ∃ (item : Item) (E : Expansion) (fn : GFn), parseDerive item = .ok E ∧
    method E "project" = some fn ∧ itemVis item = .restricted false { segs := ["self"] } ∧
    fn.vis = .restricted false { segs := ["__self"] } ∧
    (typeDefs (allItems E)).map (·.vis) = List.replicate 3 (.restricted false { segs := ["__self"] }) ∧
    -- the user meant the private visibility; the result is something else
    (∀ m at_, Visible (itemVis item) m at_ ↔ Visible .inherited m at_) ∧
    ¬ ∀ m at_, Visible fn.vis m at_ ↔ Visible (itemVis item) m at_ := by
  refine ⟨.struct_ { demoStruct with vis := .restricted false { segs := ["self"] } }, _, _, rfl, rfl, rfl, rfl,
    rfl, ?_, ?_⟩
  · intro m at_
    simp [itemVis, Visible, resolveMod, resolveRel]
  · intro hf
    have := ((hf ⟨0, []⟩ ⟨0, []⟩).2 ⟨rfl, List.prefix_refl _⟩).2
    exact absurd (List.IsPrefix.length_le this) (by decide)

/-! ## C18 -/

/-- **C18** The lifetime of `project` / `project_ref` is `'pin` followed by some underscores; it is
a prefix of no lifetime declared in the generics of the annotated type, so it differs from all of them;
and the number of underscores is the least with that property. (That the search terminates is part of
Lean accepting the definition of `lifetimeLoop`.) -/
theorem C18_lifetime_fresh (item : Item) (E : Expansion) (h : parseDerive item = .ok E) (mode : Mode)
    (hmode : mode ≠ .replace) (fn : GFn) (hfn : method E mode.fn = some fn) :
    ∃ lt k, fn.ltParam = some lt ∧ lt.toList = "'pin".toList ++ List.replicate k '_' ∧
      (∀ l, GenericsDeclare (itemGenerics item) l → ¬ lt.toList <+: l.toList) ∧
      ∀ j, j < k → ∃ l, GenericsDeclare (itemGenerics item) l ∧
        "'pin".toList ++ List.replicate j '_' <+: l.toList := by
  obtain ⟨A, ident, h1, h2, h3, h4, h5, h6⟩ := method_def item E h mode fn hfn
  rw [if_neg hmode] at h6
  obtain ⟨k, hk1, hk2, hk3⟩ := lifetimeLoop_spec (preGenerics item).declaredLifetimes "'pin"
  have hd : ∀ l, l ∈ (preGenerics item).declaredLifetimes ↔ GenericsDeclare (itemGenerics item) l := by
    intro l
    rw [preGenerics, itemSelfTy_eq, declaredLifetimes_visit (mkSelfTy_noBinder _ _), mem_declaredLifetimes]
  refine ⟨_, k, h6, hk1, fun l hl => hk2 l ((hd l).2 hl), fun j hj => ?_⟩
  obtain ⟨n, hn, hp⟩ := hk3 j hj
  exact ⟨n, (hd n).1 hn, hp⟩

/-- **C18**, the consequence that matters: it is none of the declared lifetimes. -/
theorem C18_lifetime_ne (item : Item) (E : Expansion) (h : parseDerive item = .ok E) (mode : Mode)
    (fn : GFn) (hfn : method E mode.fn = some fn) (lt : String) (hlt : fn.ltParam = some lt) :
    ¬ GenericsDeclare (itemGenerics item) lt := by
  intro hd
  by_cases hm : mode = .replace
  · obtain ⟨A, ident, h1, h2, h3, h4, h5, h6⟩ := method_def item E h mode fn hfn
    rw [if_pos hm, hlt] at h6
    simp at h6
  · obtain ⟨lt', k, h1, -, h3, -⟩ := C18_lifetime_fresh item E h mode hm fn hfn
    obtain rfl := Option.some.inj (hlt.symm.trans h1)
    exact h3 lt hd (List.prefix_refl _)

/-- `struct L<'pin, 'pin_, T: for<'pin__a> Tr<'pin__a>>(#[pin] &'pin T, &'pin_ T)`. -/
def demoLifetime : ItemStruct where
  attrs := [pinPrivateAttr []]
  vis := .inherited
  ident := "L"
  generics :=
    { params := [.lifetime "'pin" [], .lifetime "'pin_" ["'pin"],
        .type "T" [.other "bound" [.binder ["'pin__a"],
          .path (.mk false [.mk "Tr" (.angle false [.lifetime "'pin__a"])])]] none]
      whereClause := some [.user (.other "T: Copy" [])] }
  fields := .unnamed [
    { attrs := [⟨.path { segs := ["pin"] }⟩], ident := none, ty := .other "&" [.lifetime "'pin", Node.tyIdent "T"] },
    { ident := none, ty := .other "&" [.lifetime "'pin_", .tyIdent "T"] }]

example : ∃ E, parseDerive (.struct_ demoLifetime) = .ok E ∧ (method E "project").isSome ∧
    GenericsDeclare (itemGenerics (.struct_ demoLifetime)) "'pin" ∧
    GenericsDeclare (itemGenerics (.struct_ demoLifetime)) "'pin_" ∧
    GenericsDeclare (itemGenerics (.struct_ demoLifetime)) "'pin__a" := by
  refine ⟨_, rfl, rfl, ?_, ?_, ?_⟩
  · exact .inl ⟨.lifetime "'pin" [], by simp [itemGenerics, demoLifetime], rfl⟩
  · exact .inl ⟨.lifetime "'pin_" ["'pin"], by simp [itemGenerics, demoLifetime], rfl⟩
  · refine .inl ⟨_, List.mem_cons_of_mem _ (List.mem_cons_of_mem _ List.mem_cons_self), .inl ⟨_, List.mem_cons_self, ["'pin__a"], ?_, by simp⟩⟩
    exact .inside (by simp [Node.children]) (.here _)

/-! ## C19 -/

theorem lifetimesFirst_defParams {g : Generics} (h : LifetimesFirst g.params) : g.defParams = g.params := by
  obtain ⟨ls, ts, he, hl, ht⟩ := h
  unfold Generics.defParams
  rw [he, List.filter_append, List.filter_append]
  have a1 : ls.filter GParam.isLifetime = ls := by
    apply List.filter_eq_self.2
    intro p hp; obtain ⟨n, b, rfl⟩ := hl p hp; rfl
  have a2 : ts.filter GParam.isLifetime = [] := by
    apply List.filter_eq_nil_iff.2
    intro p hp
    have := ht p hp
    cases p with
    | lifetime n b => exact absurd rfl (this n b)
    | _ => simp [GParam.isLifetime]
  have a3 : ls.filter (fun p => !p.isLifetime) = [] := by
    apply List.filter_eq_nil_iff.2
    intro p hp; obtain ⟨n, b, rfl⟩ := hl p hp; simp [GParam.isLifetime]
  have a4 : ts.filter (fun p => !p.isLifetime) = ts := by
    apply List.filter_eq_self.2
    intro p hp
    have := ht p hp
    cases p with
    | lifetime n b => exact absurd rfl (this n b)
    | _ => simp [GParam.isLifetime]
  rw [a1, a2, a3, a4]
  simp

theorem lifetimesFirst_visit {st : SelfTy} {g : Generics} (h : LifetimesFirst g.params) :
    LifetimesFirst (g.visit st).params := by
  obtain ⟨ls, ts, he, hl, ht⟩ := h
  refine ⟨ls.map (GParam.visit st), ts.map (GParam.visit st), ?_, ?_, ?_⟩
  · simp [Generics.visit, he]
  · intro p hp
    obtain ⟨q, hq, rfl⟩ := List.mem_map.1 hp
    obtain ⟨n, b, rfl⟩ := hl q hq
    exact ⟨n, b, rfl⟩
  · intro p hp n b
    obtain ⟨q, hq, rfl⟩ := List.mem_map.1 hp
    have := ht q hq
    cases q <;> simp_all [GParam.visit]

theorem preGenerics_params (item : Item) (h : LifetimesFirst (itemGenerics item).params) :
    (preGenerics item).defParams = itemParams item := by
  rw [preGenerics, lifetimesFirst_defParams (lifetimesFirst_visit h), itemParams, resolvedParam_eq]; rfl

theorem preGenerics_preds (item : Item) : (preGenerics item).preds = itemPreds item := by
  simp only [preGenerics, Generics.preds, Generics.visit, itemPreds, resolvedPred_eq]
  cases (itemGenerics item).whereClause <;> rfl

/-- **C19** The types returned by `project` and `project_ref` have the parameters of the annotated type
preceded by the lifetime of `self`, and its where-clause followed by `Original<..>: 'lt`; the type returned
by `project_replace` has exactly the parameters and the where-clause of the annotated type. The methods
return them applied to exactly these parameters. -/
theorem C19_generics (item : Item) (E : Expansion) (h : parseDerive item = .ok E)
    (hlf : LifetimesFirst (itemGenerics item).params) (mode : Mode) (fn : GFn)
    (hfn : method E mode.fn = some fn) (ident : String) (hid : itemName item = some ident) :
    ∃ d ∈ typeDefs (allItems E), fn.ret = .adt d.name (d.params.map ownArg) ∧
      match mode with
      | .replace => fn.ltParam = none ∧ d.params = itemParams item ∧ d.preds = itemPreds item
      | _ => ∃ lt, fn.ltParam = some lt ∧ d.params = .lifetime lt [] :: itemParams item ∧
          d.preds = itemPreds item ++ [.outlives (.adt ident ((itemParams item).map ownArg)) lt] := by
  obtain ⟨A, ident', h1, h2, h3, h4, h5, h6⟩ := method_def item E h mode fn hfn
  rw [← ownArg_eq] at h4
  obtain rfl := Option.some.inj (hid.symm.trans h2)
  have hp := preGenerics_params item hlf
  have hw := preGenerics_preds item
  have ht : (preGenerics item).tyGenerics = (itemParams item).map ownArg := by
    rw [← defParams_args, hp, ownArg_eq]
  refine ⟨_, typeDefs_all h3, h4, ?_⟩
  cases mode with
  | replace => exact ⟨by simpa using h6, hp, hw⟩
  | proj =>
    refine ⟨_, by simpa using h6, ?_, ?_⟩
    · simp only [modeDef, modeGenerics]; rw [defParams_insert, hp]
    · simp only [modeDef, modePreds]; rw [hw, ht]
  | projRef =>
    refine ⟨_, by simpa using h6, ?_, ?_⟩
    · simp only [modeDef, modeGenerics]; rw [defParams_insert, hp]
    · simp only [modeDef, modePreds]; rw [hw, ht]

example : LifetimesFirst (itemGenerics (.struct_ demoLifetime)).params := by
  refine ⟨[.lifetime "'pin" [], .lifetime "'pin_" ["'pin"]], _, rfl, ?_, ?_⟩
  · intro p hp
    simp at hp
    rcases hp with rfl | rfl <;> exact ⟨_, _, rfl⟩
  · intro p hp n b
    simp at hp
    subst hp
    simp

end PinProject
