import Verif.Spec.NestedUnpin
import Verif.Props.Recursion
/-!
# C102: `Unpin` of values inside values

`C25` speaks of the fields of one type. Here the fields are of annotated types again, to any depth.
-/
namespace PinProject
open Spec

/-- **C102** If a value is `Unpin`, so is every value reached from it through `#[pin]` fields: who may move the outer value
may move all of them. -/
theorem C102_inward (P : Program) (N : Names) (hN : N.Lawful) (F : Facts) (hF : P.Solves N F) (t u : Ty)
    (hr : PinReaches P N t u) (ht : F.unpin t) : F.unpin u := by
  induction hr with
  | here => exact ht
  | field h _ ih =>
    obtain ⟨item, ident, args, ⟨hsc, hid, E, A, h', hA, hm, hok, hP⟩, hi, rfl, f, hf, hp, rfl⟩ := h
    exact ih ((C25_default_unpin item E h' hsc A hA hm ident hid hok P hP N hN F hF args hi).1 ht f hf hp)

/-- **C102** One value of a type with `!Unpin`, however deep, is enough to make the outer type `!Unpin`. -/
theorem C102_not_unpin (P : Program) (N : Names) (hN : N.Lawful) (F : Facts) (hF : P.Solves N F) (t : Ty)
    (item : Item) (E : Expansion) (h : parseDerive item = .ok E) (hsc : WellScoped item)
    (A : Args) (hA : parseArgs (itemAttrs item) = .ok A) (hm : A.unpinImpl = .negative)
    (ident : String) (hid : itemName item = some ident) (hP : Hosts ident E P)
    (args : List TArg) (hi : IsInstance item N args) (hr : PinReaches P N t (.adt ident args)) : ¬ F.unpin t :=
  fun ht => C26_not_unpin item E h hsc A hA hm ident hid P hP N hN F hF args hi (C102_inward P N hN F hF t _ hr ht)

/-- **C102** .. and so is one `PhantomPinned`. -/
theorem C102_phantom_pinned (P : Program) (N : Names) (hN : N.Lawful) (F : Facts) (hF : P.Solves N F) (t : Ty)
    (hr : PinReaches P N t .phantomPinned) : ¬ F.unpin t :=
  fun ht => (hF.unpin _).1 (C102_inward P N hN F hF t _ hr ht)

/-- **C102** Only the ends matter: however deep the annotated types are nested, the outer one is `Unpin` exactly if the types
where the chains of `#[pin]` fields stop are. -/
theorem C102_ends (P : Program) (N : Names) (hN : N.Lawful) (F : Facts) (hF : P.Solves N F) (t : Ty) (L : Ty → Prop)
    (h : PinEnds P N t L) : F.unpin t ↔ ∀ u, L u → F.unpin u := by
  induction h with
  | stop t => exact ⟨fun ht u hu => hu ▸ ht, fun h => h t rfl⟩
  | @fields item ident args hd hi L _ ih =>
    obtain ⟨hsc, hid, E, A, h', hA, hm, hok, hP⟩ := hd
    rw [C25_default_unpin item E h' hsc A hA hm ident hid hok P hP N hN F hF args hi]
    constructor
    · rintro hall u ⟨f, hf, hp, hu⟩
      exact (ih f hf hp).1 (hall f hf hp) u hu
    · intro hall f hf hp
      exact (ih f hf hp).2 fun u hu => hall u ⟨f, hf, hp, hu⟩

/-! ## A tree in a tree -/

/-- `Tree<Tree<PhantomPinned>>`: two `#[pin]` fields lead to the `PhantomPinned`, so it is not `Unpin`, for every solution of
trait resolution. In general `Tree<Tree<T>>` is `Unpin` exactly if `T` and the `Vec`s of both trees are. -/
example : ∃ E, parseDerive (.struct_ treeItem) = .ok E ∧ ∀ F : Facts,
    let P : Program := ⟨runtimeItems ++ (allItems E ++ [vecDef]), []⟩
    P.Solves treeNames F → PinReaches P treeNames (.adt "Tree" [.ty (.adt "Tree" [.ty .phantomPinned])]) .phantomPinned ∧
      ¬ F.unpin (.adt "Tree" [.ty (.adt "Tree" [.ty .phantomPinned])]) ∧
      ∀ t, F.unpin (.adt "Tree" [.ty (.adt "Tree" [.ty t])]) ↔
        F.unpin t ∧ F.unpin (.adt "Vec" [.ty (.adt "Tree" [.ty t])]) ∧
          F.unpin (.adt "Vec" [.ty (.adt "Tree" [.ty (.adt "Tree" [.ty t])])]) := by
  obtain ⟨E, hE⟩ : ∃ E, parseDerive (.struct_ treeItem) = .ok E := ⟨_, rfl⟩
  refine ⟨E, hE, fun F => ?_⟩
  intro P hF
  have hP : Hosts "Tree" E P := by
    refine ⟨⟨[], [vecDef], rfl, by simp [Unrelated, implsOf, typeDefs], ?_⟩, fun u hu => by cases hu⟩
    intro n hn
    refine ⟨rfl, rfl, ?_⟩
    intro d hd he
    obtain rfl := List.mem_singleton.1 hd
    subst he
    exact absurd hn (by decide)
  have hd : HostsDefault P (.struct_ treeItem) "Tree" :=
    ⟨treeItem_scoped, rfl, E, _, hE, rfl, rfl, ⟨nofun, nofun⟩, hP⟩
  have step : ∀ t, PinFieldOf P treeNames t (.adt "Tree" [.ty t]) := fun t =>
    ⟨_, _, _, hd, ⟨rfl, fun _ _ _ _ => trivial, fun _ _ => trivial⟩, rfl, _, .head _, rfl, rfl⟩
  have hr := PinReaches.field (step _) (.field (step .phantomPinned) .here)
  refine ⟨hr, C102_phantom_pinned P treeNames treeNames_lawful F hF _ hr, fun t => ?_⟩
  have hi : ∀ t, IsInstance (.struct_ treeItem) treeNames [.ty t] := fun _ =>
    ⟨rfl, fun _ _ _ _ => trivial, fun _ _ => trivial⟩
  -- the ends of a tree, given those of its `value`
  have tree : ∀ t L, PinEnds P treeNames t L → ∃ L', PinEnds P treeNames (.adt "Tree" [.ty t]) L' ∧
      ∀ u, L' u ↔ L u ∨ u = .adt "Vec" [.ty (.adt "Tree" [.ty t])] := by
    intro t L h
    refine ⟨_, .fields hd (hi t) (fun f => if f.ident = some "value" then L else
      (· = .adt "Vec" [.ty (.adt "Tree" [.ty t])])) ?_, fun u => ⟨?_, ?_⟩⟩
    · intro f hf _
      rcases hf with _ | ⟨_, _ | ⟨_, hf⟩⟩
      · exact h
      · exact .stop _
      · cases hf
    · rintro ⟨f, hf, _, hu⟩
      rcases hf with _ | ⟨_, _ | ⟨_, hf⟩⟩
      · exact .inl hu
      · exact .inr hu
      · cases hf
    · rintro (hu | hu)
      · exact ⟨_, .head _, rfl, hu⟩
      · exact ⟨_, .tail _ (.head _), rfl, hu⟩
  obtain ⟨L1, h1, e1⟩ := tree t _ (.stop t)
  obtain ⟨L2, h2, e2⟩ := tree _ L1 h1
  rw [C102_ends P treeNames treeNames_lawful F hF _ L2 h2]
  simp only [e2, e1]
  constructor
  · exact fun h => ⟨h _ (.inl (.inl rfl)), h _ (.inl (.inr rfl)), h _ (.inr rfl)⟩
  · rintro ⟨h0, h1, h2⟩ u ((rfl | rfl) | rfl)
    · exact h0
    · exact h1
    · exact h2

/-- `#[pin_project(!Unpin)] struct Knot { id: Id }` -/
def knotItem : ItemStruct where
  attrs := [pinPrivateAttr [.punct '!' false, .ident "Unpin"]]
  vis := .inherited
  ident := "Knot"
  generics := {}
  fields := .named [{ attrs := [], ident := some "id", ty := .other "Id" [] }]

theorem knotItem_scoped : WellScoped (.struct_ knotItem) := by
  refine ⟨⟨[], [], rfl, nofun, nofun⟩, List.nodup_nil, nofun, nofun, ?_, ?_⟩
  · intro n hn l _ hm
    exfalso
    revert hm
    cases hn with
    | field hf =>
      simp [itemFields, knotItem, Fields.list] at hf
      subst hf
      exact mentions_leaf rfl (by intro l; exact nofun) (by intro l; exact nofun) (by intro p t; exact ⟨nofun, nofun⟩) l
    | bound hp hb => cases hp
    | pred hp => cases hp
  · intro ident hid
    obtain rfl := Option.some.inj hid
    change ':' ∉ "Knot".toList ∧ '#' ∉ (noRaw "Knot").toList
    decide

/-- `Tree<Tree<Knot>>` is not `Unpin`: a `Knot` is reached through two `#[pin]` fields. -/
example : ∃ E E', parseDerive (.struct_ treeItem) = .ok E ∧ parseDerive (.struct_ knotItem) = .ok E' ∧ ∀ F : Facts,
    let P : Program := ⟨runtimeItems ++ (allItems E ++ vecDef :: allItems E'), []⟩
    P.Solves treeNames F → ¬ F.unpin (.adt "Tree" [.ty (.adt "Tree" [.ty (.adt "Knot" [])])]) := by
  obtain ⟨E, hE, hu⟩ : ∃ E, parseDerive (.struct_ treeItem) = .ok E ∧
      ∀ n ∈ ourNames "Knot", implsOf (allItems E ++ [vecDef]) .unpin n = [] ∧
        implsOf (allItems E ++ [vecDef]) .unsafeUnpin n = [] ∧
        ((typeDefs (allItems E ++ [vecDef])).map (·.name)).contains n = false := ⟨_, rfl, by decide⟩
  obtain ⟨E', hE', hu'⟩ : ∃ E, parseDerive (.struct_ knotItem) = .ok E ∧
      ∀ n ∈ ourNames "Tree", implsOf (vecDef :: allItems E) .unpin n = [] ∧
        implsOf (vecDef :: allItems E) .unsafeUnpin n = [] ∧
        ((typeDefs (vecDef :: allItems E)).map (·.name)).contains n = false := ⟨_, rfl, by decide⟩
  refine ⟨E, E', hE, hE', fun F => ?_⟩
  intro P hF
  have un : ∀ ident items, (∀ n ∈ ourNames ident, implsOf items .unpin n = [] ∧ implsOf items .unsafeUnpin n = [] ∧
      ((typeDefs items).map (·.name)).contains n = false) → Unrelated ident items := by
    intro ident items h n hn
    refine ⟨(h n hn).1, (h n hn).2.1, ?_⟩
    rintro d hd rfl
    have := (h _ hn).2.2
    simp at this
    exact absurd rfl (this d hd)
  have none : ∀ ident, Unrelated ident [] := fun ident n _ => ⟨rfl, rfl, nofun⟩
  have hP : Hosts "Tree" E P := ⟨⟨[], _, rfl, none _, un _ _ hu'⟩, nofun⟩
  have hP' : Hosts "Knot" E' P := ⟨⟨allItems E ++ [vecDef], [], by simp [P], un _ _ hu, none _⟩, nofun⟩
  have hd : HostsDefault P (.struct_ treeItem) "Tree" :=
    ⟨treeItem_scoped, rfl, E, _, hE, rfl, rfl, ⟨nofun, nofun⟩, hP⟩
  have step : ∀ t, PinFieldOf P treeNames t (.adt "Tree" [.ty t]) := fun t =>
    ⟨_, _, _, hd, ⟨rfl, fun _ _ _ _ => trivial, fun _ _ => trivial⟩, rfl, _, .head _, rfl, rfl⟩
  exact C102_not_unpin P treeNames treeNames_lawful F hF _ (.struct_ knotItem) E' hE' knotItem_scoped _ rfl rfl "Knot" rfl hP' []
    ⟨rfl, fun _ _ _ _ => trivial, fun _ _ => trivial⟩ (.field (step _) (.field (step _) .here))

end PinProject
