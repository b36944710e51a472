import Verif.Spec.Conform
import Verif.Props.PinnedDrop
import Verif.Props.Typing
/-!
# Generated impls match the declarations of their traits: C59
-/
namespace PinProject
open Spec

/-- **C59** Every generated trait impl matches the declaration of its trait: it is `unsafe` exactly if the trait
is, and its functions are those of the trait, with the same signatures. It is left out of the documentation exactly
if it is an impl of `UnsafeUnpin` or `PinnedDrop`, or the impl of `Unpin` of a type that is `!Unpin`. -/
theorem C59_impls (item : Item) (E : Expansion) (h : parseDerive item = .ok E)
    (A : Args) (hA : parseArgs (itemAttrs item) = .ok A)
    (hidden isUnsafe : Bool) (ps : List GParam) (tr : GTrait) (n : String) (as : List GArg) (ws : List WPred)
    (fns : List GFn) (hm : GItem.traitImpl hidden isUnsafe ps tr n as ws fns ∈ allItems E) :
    isUnsafe = traitIsUnsafe tr ∧ ImplementsAll fns (traitFns tr) ∧
    (hidden = true ↔ tr = .unsafeUnpin ∨ tr = .pinnedDrop ∨ tr = .unpin ∧ A.unpinImpl = .negative) := by
  obtain ⟨A', ident, attrs, kind, front, h1, h2, h3, h4, -⟩ := expansion_shape item E h
  obtain rfl := Except.ok.inj (hA.symm.trans h1)
  have c1 : (mkCtx A attrs (itemVis item).visit ident (preGenerics item) kind).unpinImpl = A.unpinImpl := rfl
  rw [h3] at hm
  rcases List.mem_append.1 hm with hm | hm
  · rcases List.mem_append.1 hm with hm | hm
    · cases h4 _ hm
    · unfold makeUnpinImpl at hm
      simp only [c1] at hm
      split at hm
      all_goals
        rename_i hmode
        simp only [List.mem_cons, List.not_mem_nil, or_false, reduceCtorEq, false_or, GItem.traitImpl.injEq] at hm
      · obtain ⟨rfl, rfl, rfl, rfl, rfl, rfl, rfl, rfl⟩ := hm
        exact ⟨rfl, .nil, by simp [hmode]⟩
      · rcases hm with ⟨rfl, rfl, rfl, rfl, rfl, rfl, rfl, rfl⟩ | ⟨rfl, rfl, rfl, rfl, rfl, rfl, rfl, rfl⟩ <;>
          exact ⟨rfl, .nil, by simp [hmode]⟩
      · rcases hm with ⟨rfl, rfl, rfl, rfl, rfl, rfl, rfl, rfl⟩ | ⟨rfl, rfl, rfl, rfl, rfl, rfl, rfl, rfl⟩ <;>
          exact ⟨rfl, .nil, by simp [hmode]⟩
  · unfold makeDropImpl at hm
    simp only at hm
    split at hm
    all_goals
      simp only [List.mem_cons, List.not_mem_nil, or_false, reduceCtorEq, false_or, GItem.traitImpl.injEq] at hm
    · obtain ⟨rfl, rfl, rfl, rfl, rfl, rfl, rfl, rfl⟩ := hm
      exact ⟨rfl, .cons ⟨rfl, rfl, rfl, rfl, rfl, rfl, rfl⟩ .nil, by simp⟩
    · rcases hm with ⟨rfl, rfl, rfl, rfl, rfl, rfl, rfl, rfl⟩ | ⟨rfl, rfl, rfl, rfl, rfl, rfl, rfl, rfl⟩
      · exact ⟨rfl, .nil, by simp⟩
      · exact ⟨rfl, .cons ⟨rfl, rfl, rfl, rfl, rfl, rfl, rfl⟩ .nil, by simp⟩

/-- **C59** So do the impls of the runtime crate that take part in the resolution of generated bounds. -/
theorem C59_runtime (hidden isUnsafe : Bool) (ps : List GParam) (tr : GTrait) (n : String) (as : List GArg)
    (ws : List WPred) (fns : List GFn) (hm : GItem.traitImpl hidden isUnsafe ps tr n as ws fns ∈ runtimeItems) :
    isUnsafe = traitIsUnsafe tr ∧ ImplementsAll fns (traitFns tr) := by
  simp only [runtimeItems, List.mem_cons, List.not_mem_nil, or_false, reduceCtorEq, false_or,
    GItem.traitImpl.injEq] at hm
  rcases hm with ⟨rfl, rfl, rfl, rfl, rfl, rfl, rfl, rfl⟩ | ⟨rfl, rfl, rfl, rfl, rfl, rfl, rfl, rfl⟩ <;>
    exact ⟨rfl, .nil⟩

/-- **C59** An impl that `#[pinned_drop]` accepts matches the declaration of `PinnedDrop` after the expansion,
unless it is negative or `default`, or its `drop` has a visibility, qualifiers, generic parameters, predicates or `...`. -/
theorem C59_pinned_drop (args : List TT) (item : ItemImpl) (out : PinnedDropImpl)
    (h : pinnedDropAttribute args item = .expanded out) (neg : Bool) (p : Path)
    (htr : item.trait_ = some (neg, p)) (m : Method) (hm : item.items = [.fn m]) :
    MatchesPinnedDrop out ↔ neg = false ∧ m.sig.quals = [] ∧ m.sig.generics.params = [] ∧
      m.sig.generics.whereClause.getD [] = [] ∧ item.isDefault = false ∧ m.vis = .inherited ∧ m.sig.variadic = false := by
  rcases attribute_cases args item with ⟨neg', m', q, p', b, sh, ty, ⟨hc, -⟩, hty, hr, hpin, heq⟩ | ⟨_, h2⟩
  · rw [heq] at h
    simp only [PinnedDropOut.expanded.injEq] at h
    subst h
    have h1 := hc.onlyDrop
    rw [hm] at h1
    simp only [List.cons.injEq, ImplItem.fn.injEq, and_true] at h1
    subst h1
    have h2 := hc.pinnedDrop
    rw [htr] at h2
    simp only [Option.some.injEq, Prod.mk.injEq] at h2
    obtain ⟨rfl, rfl⟩ := h2
    constructor
    · rintro ⟨hb, -, hdf, attrs, sig, ias, block, im, s, ty', hi, hq, -, -, hg, hw, hva, -⟩
      simp only [List.cons.injEq, OutItem.drop.injEq, and_true] at hi
      obtain ⟨rfl, hv, rfl, rfl, rfl⟩ := hi
      exact ⟨hb, hq, hg, hw, hdf, hv, hva⟩
    · rintro ⟨hb, hq, hg, hw, hdf, hv, hva⟩
      exact ⟨hb, hc.safe, hdf, _, _, _, _, _, _, _, (congrArg (fun v => [OutItem.drop _ v _ _ _]) hv), hq, rfl, hc.drop.name, hg, hw, hva, rfl, hpin, hc.drop.output⟩
  · exact absurd h (h2 out)

/-- **C59** Every impl of the documented form (with no where-clause at `drop`) matches. -/
theorem C59_documented (args : List TT) (item : ItemImpl) (m : Method) (hd : Documented args item m)
    (hw : m.sig.generics.whereClause = none) :
    ∃ out, pinnedDropAttribute args item = .expanded out ∧ MatchesPinnedDrop out := by
  obtain ⟨out, h⟩ := C33_documented _ _ _ hd
  exact ⟨out, h, (C59_pinned_drop _ _ _ h _ _ hd.pinnedDrop m hd.onlyDrop).2
    ⟨rfl, hd.noQualifiers, hd.noGenerics, by rw [hw]; rfl, hd.noDefault.1, hd.noVisibility, hd.notVariadic⟩⟩

example : ∃ out, pinnedDropAttribute [] demoImpl = .expanded out ∧ MatchesPinnedDrop out :=
  C59_documented _ _ _ demoImpl_documented rfl

/-- `#[pin_project(PinnedDrop)] struct S { .. }` implements `Drop`, with one function. -/
example : ∃ E ps as ws f, parseDerive (.struct_ demoDrop) = .ok E ∧
    GItem.traitImpl false false ps .drop "S" as ws [f] ∈ allItems E ∧ ImplementsAll [f] (traitFns .drop) := by
  have hE : ∃ E, parseDerive (.struct_ demoDrop) = .ok E ∧ ∃ ps as ws f,
      GItem.traitImpl false false ps .drop "S" as ws [f] ∈ allItems E :=
    ⟨_, rfl, _, _, _, _, List.mem_of_getElem? (i := 7) rfl⟩
  obtain ⟨E, hE, ps, as, ws, f, hm⟩ := hE
  obtain ⟨A, hA⟩ : ∃ A, parseArgs (itemAttrs (.struct_ demoDrop)) = .ok A := ⟨_, rfl⟩
  exact ⟨E, ps, as, ws, f, hE, hm, (C59_impls _ E hE A hA _ _ _ _ _ _ _ _ hm).2.1⟩

end PinProject
