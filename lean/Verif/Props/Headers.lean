import Verif.Props.Unpin
/-!
# Headers of the generated impls and signatures of the generated methods: C48, C49
-/
namespace PinProject
open Spec

/-! ## C48 -/

/-- The trait an item implements. -/
def Spec.implTrait : GItem → Option GTrait
  | .traitImpl _ _ _ tr _ _ _ _ => some tr
  | _ => none

theorem implTrait_front {l : List GItem} (h : ∀ i ∈ l, i.noImpl = true) : l.filterMap implTrait = [] := by
  rw [List.filterMap_eq_nil_iff]
  intro i hi
  have := h i hi
  cases i <;> first | rfl | cases this

/-- **C48** The traits implemented by the expansion: `Unpin`; `UnsafeUnpin` unless this was left to the
user; and `Drop` if `PinnedDrop` was given, the helper trait and `PinnedDrop` otherwise. -/
theorem C48_traits (item : Item) (E : Expansion) (h : parseDerive item = .ok E)
    (A : Args) (hA : parseArgs (itemAttrs item) = .ok A) (ident : String) (hid : itemName item = some ident) :
    (allItems E).filterMap implTrait =
      (if A.unpinImpl = .unsafe_ then [.unpin] else [.unpin, .unsafeUnpin]) ++
      (if A.pinnedDrop then [.drop] else [.mustNotImplDrop (noRaw ident ++ "MustNotImplDrop"), .pinnedDrop]) := by
  obtain ⟨A', ident', attrs, kind, front, h1, h2, h3, h4, -⟩ := expansion_shape item E h
  obtain rfl := Except.ok.inj (hA.symm.trans h1)
  obtain rfl := Option.some.inj (hid.symm.trans h2)
  rw [h3, List.filterMap_append, List.filterMap_append, implTrait_front h4, List.nil_append]
  have c1 : (mkCtx A attrs (itemVis item).visit ident (preGenerics item) kind).unpinImpl = A.unpinImpl := rfl
  have c2 : (mkCtx A attrs (itemVis item).visit ident (preGenerics item) kind).pinnedDrop = A.pinnedDrop := rfl
  have c3 : (mkCtx A attrs (itemVis item).visit ident (preGenerics item) kind).ident = ident := rfl
  congr 1
  · rw [makeUnpinImpl, c1]
    cases A.unpinImpl <;> simp [implTrait, List.filterMap_cons]
  · rw [makeDropImpl, c2, c3, noRaw_eq]
    cases A.pinnedDrop <;> simp [implTrait, List.filterMap_cons]

/-- **C48** Every trait impl in the expansion is for the annotated type applied to its own parameters,
is generic over these parameters with their bounds, and has the where-clause of the type. Only the impls of
`Unpin` and `UnsafeUnpin` have one more parameter, a new lifetime, and one more predicate, about
`PinnedFieldsOf<..>`. The impls of the unsafe trait `UnsafeUnpin`, and only these, are `unsafe`. In
particular the `Drop` impl has exactly the parameters, bounds and where-clause of the type, as rustc
requires of `Drop` impls. -/
theorem C48_impl_headers (item : Item) (E : Expansion) (h : parseDerive item = .ok E)
    (hlf : LifetimesFirst (itemGenerics item).params) (ident : String) (hid : itemName item = some ident)
    (hidden isUnsafe : Bool) (ps : List GParam) (tr : GTrait) (n : String) (as : List GArg) (ws : List WPred)
    (fns : List GFn) (hm : GItem.traitImpl hidden isUnsafe ps tr n as ws fns ∈ allItems E) :
    n = ident ∧ as = (itemParams item).map ownArg ∧ (isUnsafe = true ↔ tr = .unsafeUnpin) ∧
    if tr = .unpin ∨ tr = .unsafeUnpin then
      ∃ lt t tr', ¬ GenericsDeclare (itemGenerics item) lt ∧
        ps = .lifetime lt [] :: (itemParams item).map withoutDefault ∧
        ws = itemPreds item ++ [.bound (.pinnedFieldsOf t) tr']
    else ps = (itemParams item).map withoutDefault ∧ ws = itemPreds item := by
  rw [withoutDefault_eq, ownArg_eq]
  obtain ⟨A, ident', attrs, kind, front, h1, h2, h3, h4, -⟩ := expansion_shape item E h
  obtain rfl := Option.some.inj (hid.symm.trans h2)
  obtain ⟨g1, g2, g3, g4, g5, g6, g7⟩ := item_generics hlf A attrs (itemVis item).visit ident kind
  obtain ⟨-, -, hfr⟩ := freshLt_spec item
  rw [h3] at hm
  generalize hcx : mkCtx A attrs (itemVis item).visit ident (preGenerics item) kind = cx at *
  have c2 : cx.ident = ident := by rw [← hcx]; rfl
  rcases List.mem_append.1 hm with hm | hm
  · rcases List.mem_append.1 hm with hm | hm
    · cases h4 _ hm
    · unfold makeUnpinImpl at hm
      simp only [g1, g2, g3, g4, g5, g7, c2] at hm
      split at hm
      all_goals
        simp only [List.mem_cons, List.not_mem_nil, or_false, reduceCtorEq, false_or, GItem.traitImpl.injEq] at hm
      · obtain ⟨rfl, rfl, rfl, rfl, rfl, rfl, rfl, rfl⟩ := hm
        exact ⟨rfl, rfl, by simp, by rw [if_pos (by simp)]; exact ⟨_, _, _, hfr, rfl, rfl⟩⟩
      · rcases hm with ⟨rfl, rfl, rfl, rfl, rfl, rfl, rfl, rfl⟩ | ⟨rfl, rfl, rfl, rfl, rfl, rfl, rfl, rfl⟩
        · exact ⟨rfl, rfl, by simp, by rw [if_pos (by simp)]; exact ⟨_, _, _, hfr, rfl, rfl⟩⟩
        · exact ⟨rfl, rfl, by simp, by rw [if_pos (by simp)]; exact ⟨_, _, _, hfr, rfl, rfl⟩⟩
      · rcases hm with ⟨rfl, rfl, rfl, rfl, rfl, rfl, rfl, rfl⟩ | ⟨rfl, rfl, rfl, rfl, rfl, rfl, rfl, rfl⟩
        · exact ⟨rfl, rfl, by simp, by rw [if_pos (by simp)]; exact ⟨_, _, _, hfr, rfl, rfl⟩⟩
        · exact ⟨rfl, rfl, by simp, by rw [if_pos (by simp)]; exact ⟨_, _, _, hfr, rfl, rfl⟩⟩
  · unfold makeDropImpl at hm
    simp only [g5, g6, g7, c2] at hm
    split at hm
    all_goals
      simp only [List.mem_cons, List.not_mem_nil, or_false, reduceCtorEq, false_or, GItem.traitImpl.injEq] at hm
    · obtain ⟨rfl, rfl, rfl, rfl, rfl, rfl, rfl, rfl⟩ := hm
      exact ⟨rfl, rfl, by simp, by simp⟩
    · rcases hm with ⟨rfl, rfl, rfl, rfl, rfl, rfl, rfl, rfl⟩ | ⟨rfl, rfl, rfl, rfl, rfl, rfl, rfl, rfl⟩
      · exact ⟨rfl, rfl, by simp, by simp⟩
      · exact ⟨rfl, rfl, by simp, by simp⟩

/-- `impl<'a, T: Tr, U> Drop for G<'a, T, U> where U: Copy` -/
example : ∃ E, parseDerive (.struct_ (demoGeneric [.ident "PinnedDrop"])) = .ok E ∧
    ∃ ps as ws fns, GItem.traitImpl false false ps .drop "G" as ws fns ∈ allItems E ∧
      ps = [.lifetime "'a" [], .type "T" [.path (.mk false [.mk "Tr" .none])] none, .type "U" [] none] ∧
      as = [.lifetime "'a", .ident "T", .ident "U"] ∧ ws = [.user (.other "U: Copy" [])] :=
  ⟨_, rfl, _, _, _, _, List.mem_of_getElem? (i := 7) rfl, rfl, rfl, rfl⟩

/-! ## C49 -/

/-- The function of a mode. -/
def modeFn (cx : Ctx) (b1 b2 b3 : GBody) : Mode → GFn
  | .proj => projectFn cx b1
  | .projRef => projectRefFn cx b2
  | .replace => projectReplaceFn cx b3

theorem find_modeFn {cx : Ctx} {b1 b2 b3 : GBody} {mode : Mode} {fn : GFn}
    (hf : (implFns cx b1 b2 b3).find? (fun f => f.name == mode.fn) = some fn) : fn = modeFn cx b1 b2 b3 mode := by
  have hn := List.find?_some hf
  have hm := List.mem_of_find?_eq_some hf
  rw [beq_iff_eq] at hn
  simp only [implFns, List.mem_append, List.mem_ite_nil_left, List.mem_singleton] at hm
  rcases hm with (⟨-, rfl⟩ | ⟨-, rfl⟩) | ⟨-, rfl⟩ <;> cases mode <;>
    first | rfl | simp [projectFn, projectRefFn, projectReplaceFn, Mode.fn] at hn

theorem method_sig (item : Item) (E : Expansion) (h : parseDerive item = .ok E) (mode : Mode) (fn : GFn)
    (hfn : method E mode.fn = some fn) :
    fn.isUnsafe = false ∧
      match mode with
      | .proj => fn.recv = .pin .local_ (.ref fn.ltParam true .selfTy) ∧ fn.params = []
      | .projRef => fn.recv = .pin .local_ (.ref fn.ltParam false .selfTy) ∧ fn.params = []
      | .replace => fn.recv = .pin .local_ (.ref fn.ltParam true .selfTy) ∧ fn.params.map Prod.snd = [.selfTy] := by
  cases item with
  | other a => simp [parseDerive] at h
  | struct_ s =>
    obtain ⟨A, h1, -, -, -, -, -, rfl⟩ := (deriveStruct_iff s E).1 h
    rw [method_struct] at hfn
    cases mode <;> obtain rfl := find_modeFn hfn <;> exact ⟨rfl, rfl, rfl⟩
  | enum_ s =>
    obtain ⟨A, h1, -, -, -, -, -, -, rfl⟩ := (deriveEnum_iff s E).1 h
    rw [method_enum] at hfn
    cases mode <;> obtain rfl := find_modeFn hfn <;> exact ⟨rfl, rfl, rfl⟩

/-- **C49** The signatures, up to the names of the lifetime and the parameter, all of them safe functions:
`fn project<'lt>(self: Pin<&'lt mut Self>) -> Proj<'lt, ..>`,
`fn project_ref<'lt>(self: Pin<&'lt Self>) -> ProjRef<'lt, ..>`,
`fn project_replace(self: Pin<&mut Self>, x: Self) -> ProjOwn<..>`.
So what `project` and `project_ref` return cannot be used after the borrow of `self` ends. -/
theorem C49_signatures (item : Item) (E : Expansion) (h : parseDerive item = .ok E)
    (hlf : LifetimesFirst (itemGenerics item).params) (mode : Mode) (fn : GFn)
    (hfn : method E mode.fn = some fn) :
    fn.isUnsafe = false ∧ ∃ d ∈ typeDefs (allItems E),
      match mode with
      | .proj => ∃ lt, ¬ GenericsDeclare (itemGenerics item) lt ∧ fn.ltParam = some lt ∧
          fn.recv = .pin .local_ (.ref (some lt) true .selfTy) ∧ fn.params = [] ∧
          fn.ret = .adt d.name (.lifetime lt :: (itemParams item).map ownArg)
      | .projRef => ∃ lt, ¬ GenericsDeclare (itemGenerics item) lt ∧ fn.ltParam = some lt ∧
          fn.recv = .pin .local_ (.ref (some lt) false .selfTy) ∧ fn.params = [] ∧
          fn.ret = .adt d.name (.lifetime lt :: (itemParams item).map ownArg)
      | .replace => fn.ltParam = none ∧
          fn.recv = .pin .local_ (.ref none true .selfTy) ∧ fn.params.map Prod.snd = [.selfTy] ∧
          fn.ret = .adt d.name ((itemParams item).map ownArg) := by
  obtain ⟨h1, h2⟩ := method_sig item E h mode fn hfn
  have hid : ∃ ident, itemName item = some ident := by
    obtain ⟨A, ident, -, h, -⟩ := method_def item E h mode fn hfn
    exact ⟨ident, h⟩
  obtain ⟨ident, hid⟩ := hid
  obtain ⟨d, hd, h3, h4⟩ := C19_generics item E h hlf mode fn hfn ident hid
  refine ⟨h1, d, hd, ?_⟩
  have hfr := (freshLt_spec item).2.2
  have hl : mode ≠ .replace → fn.ltParam = some (freshLt item) := by
    intro hm
    obtain ⟨A, ident, -, -, -, -, -, h6⟩ := method_def item E h mode fn hfn
    rw [h6, if_neg hm]; rfl
  cases mode with
  | proj =>
    obtain ⟨lt, h5, h6, -⟩ := h4
    obtain rfl := Option.some.inj (h5.symm.trans (hl (by simp)))
    rw [h5] at h2
    exact ⟨_, hfr, h5, h2.1, h2.2, by rw [h3, h6, List.map_cons]; rfl⟩
  | projRef =>
    obtain ⟨lt, h5, h6, -⟩ := h4
    obtain rfl := Option.some.inj (h5.symm.trans (hl (by simp)))
    rw [h5] at h2
    exact ⟨_, hfr, h5, h2.1, h2.2, by rw [h3, h6, List.map_cons]; rfl⟩
  | replace =>
    obtain ⟨h5, h6, -⟩ := h4
    rw [h5] at h2
    exact ⟨h5, h2.1, h2.2, by rw [h3, h6]⟩

example : LifetimesFirst (itemGenerics (.struct_ (demoGeneric []))).params := (demoGeneric_scoped []).lifetimesFirst
example : ∃ E, parseDerive (.struct_ (demoGeneric [.ident "project_replace"])) = .ok E ∧
    (method E Mode.proj.fn).isSome ∧ (method E Mode.projRef.fn).isSome ∧ (method E Mode.replace.fn).isSome :=
  ⟨_, rfl, rfl, rfl, rfl⟩

end PinProject
