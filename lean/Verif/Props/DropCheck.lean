import Verif.Spec.DropCheck
import Verif.Props.Variance
import Verif.Props.Headers
/-!
# Values that go out of scope: C83
-/
namespace PinProject
open Spec

/-- Some field of a projection, in terms of the fields of the definition. -/
theorem modeDef_some {item : Item} {A : Args} {mode : Mode} {vis : Vis} {ident : String} {g : Generics} (Q : GTy → Prop) :
    (∃ v ∈ (modeDef A mode vis ident g (preVariants item)).variants, ∃ f ∈ v.2.fields, Q f.ty) ↔
      ∃ f ∈ itemFields item, Q (modeFieldTy mode (determineLifetimeName "'pin" g) (f.visit (itemSelfTy item))) := by
  have h := modeDef_fields (item := item) (A := A) (mode := mode) (vis := vis) (ident := ident) (g := g) (fun t => ¬ Q t)
  constructor
  · intro ⟨v, hv, f, hf, ho⟩
    apply Classical.byContradiction
    intro hc
    exact h.2 (fun f hf ho => hc ⟨f, hf, ho⟩) v hv f hf ho
  · intro ⟨f, hf, ho⟩
    apply Classical.byContradiction
    intro hc
    exact h.1 (fun v hv f hf ho => hc ⟨v, hv, f, hf, ho⟩) f hf ho

/-- Some field of the annotated type. -/
theorem source_some {item : Item} (Q : GTy → Prop) :
    (∃ v ∈ (sourceDef item).variants, ∃ f ∈ v.2.fields, Q f.ty) ↔ ∃ f ∈ itemFields item, Q (.user (resolved item f.ty)) := by
  constructor
  · rintro ⟨v, hv, f, hf, ho⟩
    obtain ⟨w, hw, rfl⟩ := List.mem_map.1 hv
    obtain ⟨f', hf', rfl⟩ := List.mem_map.1 hf
    refine ⟨f', ?_, ho⟩
    cases item with
    | struct_ s => simp [itemVariants] at hw; subst hw; exact hf'
    | enum_ e =>
      obtain ⟨w', hw', rfl⟩ := List.mem_map.1 hw
      exact List.mem_flatMap.2 ⟨w', hw', hf'⟩
    | other a => simp [itemVariants] at hw
  · rintro ⟨f, hf, ho⟩
    obtain ⟨v, hv, hf⟩ := mem_variant_field hf
    exact ⟨_, List.mem_map_of_mem hv, _, List.mem_map_of_mem hf, ho⟩

/-- Generated `Drop` impls: one, for the annotated type, with `PinnedDrop`, and none without. -/
theorem hasDrop_iff (item : Item) (E : Expansion) (h : parseDerive item = .ok E)
    (hlf : LifetimesFirst (itemGenerics item).params) (A : Args) (hA : parseArgs (itemAttrs item) = .ok A)
    (ident : String) (hid : itemName item = some ident) (own : String → Prop) (n : String) :
    HasDrop own (allItems E) n ↔ own n ∨ (A.pinnedDrop = true ∧ n = ident) := by
  have ht := C48_traits item E h A hA ident hid
  unfold HasDrop
  apply or_congr_right
  constructor
  · rintro ⟨hidden, uns, ps, as, ws, fns, hm⟩
    refine ⟨?_, (C48_impl_headers item E h hlf ident hid _ _ _ _ _ _ _ _ hm).1⟩
    have : GTrait.drop ∈ (allItems E).filterMap implTrait := List.mem_filterMap.2 ⟨_, hm, rfl⟩
    rw [ht] at this
    cases hp : A.pinnedDrop with
    | true => rfl
    | false =>
      rw [hp] at this
      split at this <;> simp at this
  · rintro ⟨hp, rfl⟩
    have : GTrait.drop ∈ (allItems E).filterMap implTrait := by rw [ht, hp]; simp
    obtain ⟨i, hi, he⟩ := List.mem_filterMap.1 this
    cases i <;> simp [implTrait] at he
    subst he
    obtain ⟨rfl, -⟩ := C48_impl_headers item E h hlf n hid _ _ _ _ _ _ _ _ hi
    exact ⟨_, _, _, _, _, _, hi⟩

/-- **C83** The results of `project` and `project_ref` have no destructor, whatever the types of the fields: nothing
happens when they go out of scope, so that the borrow ends with their last use, and they can be taken apart. (A type that
the user has given a name can get a `Drop` impl from the user, and its name must not be the one of the annotated type,
see C44.) -/
theorem C83_borrowed (item : Item) (E : Expansion) (h : parseDerive item = .ok E)
    (hlf : LifetimesFirst (itemGenerics item).params) (mode : Mode) (hmode : mode ≠ .replace) (fn : GFn)
    (hfn : method E mode.fn = some fn) :
    ∃ d ∈ typeDefs (allItems E), ∃ gas, fn.ret = .adt d.name gas ∧ ∀ own : String → Prop, ¬ own d.name →
      itemName item ≠ some d.name →
      ¬ HasDrop own (allItems E) d.name ∧
      ∀ D, ¬ NeedsDrop D own (allItems E) d ∧ ∀ x, ¬ AliveAtDrop D own (allItems E) d x := by
  obtain ⟨A, ident, h1, h2, h3, h4, h5, h6⟩ := method_def item E h mode fn hfn
  refine ⟨_, typeDefs_all h3, _, h4, fun own hown hne => ?_⟩
  have hd : ¬ HasDrop own (allItems E) (modeDef A mode (itemVis item).visit ident (preGenerics item) (preVariants item)).name := by
    rw [hasDrop_iff item E h hlf A h1 ident h2]
    rintro (ho | ⟨-, he⟩)
    · exact hown ho
    · exact hne (h2.trans (congrArg some he.symm))
  have key : ∀ D, ¬ NeedsDrop D own (allItems E) (modeDef A mode (itemVis item).visit ident (preGenerics item) (preVariants item)) := by
    rintro D (ho | hf)
    · exact hd ho
    · rw [modeDef_some (Glue D)] at hf
      obtain ⟨f, -, hg⟩ := hf
      cases mode <;> cases hpin : Pinned (f.visit (itemSelfTy item)) <;>
        simp [modeFieldTy, projField, projRefField, hpin, Glue] at hg hmode
  exact ⟨hd, fun D => ⟨key D, fun x hx => key D hx.1⟩⟩

/-- **C83** The result of `project_replace` has no `Drop` impl, so that it can be taken apart. Dropping it runs code exactly
when one of the fields that are not pinned has a destructor. What must then be alive is what the destructors of the fields
of the definition may access, so never more than for a value of the annotated type itself. -/
theorem C83_owned (item : Item) (E : Expansion) (h : parseDerive item = .ok E)
    (hlf : LifetimesFirst (itemGenerics item).params) (fn : GFn) (hfn : method E Mode.replace.fn = some fn) :
    ∃ d ∈ typeDefs (allItems E), ∃ gas, fn.ret = .adt d.name gas ∧ ∀ own : String → Prop, ¬ own d.name →
      itemName item ≠ some d.name →
      ¬ HasDrop own (allItems E) d.name ∧
      ∀ D, (NeedsDrop D own (allItems E) d ↔ ∃ f ∈ itemFields item, Pinned f = false ∧ D.glue (resolved item f.ty)) ∧
        ∀ x, (AliveAtDrop D own (allItems E) d x ↔
            NeedsDrop D own (allItems E) d ∧ ∃ f ∈ itemFields item, D.access (resolved item f.ty) x) ∧
          (AliveAtDrop D own (allItems E) d x → AliveAtDrop D own [] (sourceDef item) x) := by
  obtain ⟨A, ident, h1, h2, h3, h4, h5, h6⟩ := method_def item E h .replace fn hfn
  refine ⟨_, typeDefs_all h3, _, h4, fun own hown hne => ?_⟩
  have hd : ¬ HasDrop own (allItems E) (modeDef A .replace (itemVis item).visit ident (preGenerics item) (preVariants item)).name := by
    rw [hasDrop_iff item E h hlf A h1 ident h2]
    rintro (ho | ⟨-, he⟩)
    · exact hown ho
    · exact hne (h2.trans (congrArg some he.symm))
  refine ⟨hd, fun D => ?_⟩
  have n1 : NeedsDrop D own (allItems E) (modeDef A .replace (itemVis item).visit ident (preGenerics item) (preVariants item)) ↔
      ∃ f ∈ itemFields item, Pinned f = false ∧ D.glue (resolved item f.ty) := by
    unfold NeedsDrop
    rw [modeDef_some (Glue D)]
    simp only [hd, false_or]
    apply exists_congr; intro f
    apply and_congr_right; intro _
    have hp : Pinned (f.visit (itemSelfTy item)) = Pinned f := rfl
    have hty : (f.visit (itemSelfTy item)).ty = resolved item f.ty := rfl
    cases hpin : Pinned f <;> simp [modeFieldTy, projOwnField, hp, hty, hpin, Glue]
  refine ⟨n1, fun x => ?_⟩
  have a1 : AliveAtDrop D own (allItems E) (modeDef A .replace (itemVis item).visit ident (preGenerics item) (preVariants item)) x ↔
      NeedsDrop D own (allItems E) (modeDef A .replace (itemVis item).visit ident (preGenerics item) (preVariants item)) ∧
        ∃ f ∈ itemFields item, D.access (resolved item f.ty) x := by
    unfold AliveAtDrop
    rw [modeDef_some (fun t => Access D t x)]
    simp only [hd, false_and, false_or]
    apply and_congr_right; intro _
    apply exists_congr; intro f
    apply and_congr_right; intro _
    have hp : Pinned (f.visit (itemSelfTy item)) = Pinned f := rfl
    have hty : (f.visit (itemSelfTy item)).ty = resolved item f.ty := rfl
    cases hpin : Pinned f <;> simp [modeFieldTy, projOwnField, hp, hty, hpin, Access]
  refine ⟨a1, fun ha => ?_⟩
  obtain ⟨hn, hacc⟩ := a1.1 ha
  obtain ⟨f, hf, -, hg⟩ := n1.1 hn
  exact ⟨.inr ((source_some (Glue D)).2 ⟨f, hf, hg⟩), .inr ((source_some (fun t => Access D t x)).2 hacc)⟩

/-- **C83** Without `PinnedDrop`, the attribute changes nothing about dropping values of the annotated type: it has a
`Drop` impl only if it has had one (which C30 rules out for types of known size), so that values can still be taken apart,
and the same must be alive when they are dropped. -/
theorem C83_annotated (item : Item) (E : Expansion) (h : parseDerive item = .ok E)
    (hlf : LifetimesFirst (itemGenerics item).params) (A : Args) (hA : parseArgs (itemAttrs item) = .ok A)
    (hm : A.pinnedDrop = false) (own : String → Prop) :
    (HasDrop own (allItems E) (sourceDef item).name ↔ own (sourceDef item).name) ∧
    ∀ D, (NeedsDrop D own (allItems E) (sourceDef item) ↔ NeedsDrop D own [] (sourceDef item)) ∧
      ∀ x, AliveAtDrop D own (allItems E) (sourceDef item) x ↔ AliveAtDrop D own [] (sourceDef item) x := by
  obtain ⟨ident, hid⟩ : ∃ ident, itemName item = some ident := by
    cases item with
    | other a => simp [parseDerive] at h
    | struct_ s => exact ⟨_, rfl⟩
    | enum_ e => exact ⟨_, rfl⟩
  have e1 : ∀ n, HasDrop own (allItems E) n ↔ own n := by
    intro n
    rw [hasDrop_iff item E h hlf A hA ident hid, hm]
    simp
  have e2 : ∀ n, HasDrop own [] n ↔ own n := by intro n; simp [HasDrop]
  refine ⟨e1 _, fun D => ?_⟩
  simp only [NeedsDrop, AliveAtDrop, e1, e2, implies_true, and_self]

/-- **C83** With `PinnedDrop`, the annotated type has a `Drop` impl and every argument must be alive when a value is
dropped, as the function written by the user may access everything. -/
theorem C83_pinned_drop (item : Item) (E : Expansion) (h : parseDerive item = .ok E)
    (hlf : LifetimesFirst (itemGenerics item).params) (A : Args) (hA : parseArgs (itemAttrs item) = .ok A)
    (hm : A.pinnedDrop = true) (own : String → Prop) :
    HasDrop own (allItems E) (sourceDef item).name ∧
    ∀ D x, x ∈ (sourceDef item).params.map GParam.name → AliveAtDrop D own (allItems E) (sourceDef item) x := by
  obtain ⟨ident, hid⟩ : ∃ ident, itemName item = some ident := by
    cases item with
    | other a => simp [parseDerive] at h
    | struct_ s => exact ⟨_, rfl⟩
    | enum_ e => exact ⟨_, rfl⟩
  have e1 : HasDrop own (allItems E) (sourceDef item).name :=
    (hasDrop_iff item E h hlf A hA ident hid own _).2 (.inr ⟨hm, by simp [sourceDef, hid]⟩)
  exact ⟨e1, fun D x hx => ⟨.inl e1, .inl ⟨e1, hx⟩⟩⟩

/-- The facts about `struct W<'a: 'static, T: Tr = u8, const N: usize> where T: Copy { #[pin] x: T, y: &'a u8, z: [u8; N] }`, if
`T` is dropped: dropping the field `x` runs code that may access `T`. -/
def demoDrops : DropFacts := ⟨fun n => n = .tyIdent "T", fun n x => n = .tyIdent "T" ∧ x = "T"⟩

theorem demoWF_first : LifetimesFirst demoWF.generics.params := by
  refine ⟨[_], [_, _], rfl, ?_, ?_⟩
  · intro p hp; obtain rfl := List.mem_singleton.1 hp; exact ⟨_, _, rfl⟩
  · intro p hp n b he
    simp only [List.mem_cons, List.not_mem_nil, or_false] at hp
    rcases hp with rfl | rfl <;> cases he

/-- C83 for this struct: a value of the type needs `T` to be alive when it is dropped, its projections do not, and neither
needs `'a`. -/
example : ∃ E, parseDerive (.struct_ demoWF) = .ok E ∧
    (∃ d ∈ typeDefs (allItems E), d.name = "__WProjection" ∧ ¬ NeedsDrop demoDrops (fun _ => False) (allItems E) d) ∧
    AliveAtDrop demoDrops (fun _ => False) (allItems E) (sourceDef (.struct_ demoWF)) "T" ∧
    ¬ AliveAtDrop demoDrops (fun _ => False) (allItems E) (sourceDef (.struct_ demoWF)) "'a" := by
  obtain ⟨E, hE, f1, m1, g1, r1⟩ : ∃ E, parseDerive (.struct_ demoWF) = .ok E ∧
      ∃ fn, method E Mode.proj.fn = some fn ∧ ∃ gas, fn.ret = .adt "__WProjection" gas := ⟨_, rfl, _, rfl, _, rfl⟩
  refine ⟨E, hE, ?_, ?_, ?_⟩
  · obtain ⟨d, hd, gas, hr, hk⟩ := C83_borrowed _ E hE demoWF_first .proj (by simp) f1 m1
    obtain ⟨hn, -⟩ := GTy.adt.inj (r1.symm.trans hr)
    refine ⟨d, hd, hn.symm, ((hk (fun _ => False) id ?_).2 demoDrops).1⟩
    rw [← hn]
    intro he
    exact absurd (Option.some.inj he) (by decide)
  · rw [((C83_annotated _ E hE demoWF_first _ rfl rfl _).2 _).2]
    exact ⟨.inr ⟨_, .head _, _, .head _, rfl⟩, .inr ⟨_, .head _, _, .head _, rfl, rfl⟩⟩
  · rw [((C83_annotated _ E hE demoWF_first _ rfl rfl _).2 _).2]
    rintro ⟨-, ⟨h, -⟩ | h⟩
    · simp [HasDrop] at h
    · obtain ⟨f, -, -, h⟩ := (source_some (fun t => Access demoDrops t "'a")).1 h
      exact absurd h (by decide)

/-- C83 for this struct with `project_replace`: the result has no destructor, as `x` is pinned and stays behind; if
dropping `y` ran code, it would. -/
example : ∃ E, parseDerive (.struct_ { demoWF with attrs := [pinPrivateAttr [.ident "project_replace"]] }) = .ok E ∧
    ∃ d ∈ typeDefs (allItems E), d.name = "__WProjectionOwned" ∧
      ¬ NeedsDrop demoDrops (fun _ => False) (allItems E) d ∧
      NeedsDrop ⟨fun n => n = .other "&'a u8" [], fun _ _ => True⟩ (fun _ => False) (allItems E) d := by
  obtain ⟨E, hE, f1, m1, g1, r1⟩ : ∃ E,
      parseDerive (.struct_ { demoWF with attrs := [pinPrivateAttr [.ident "project_replace"]] }) = .ok E ∧
      ∃ fn, method E Mode.replace.fn = some fn ∧ ∃ gas, fn.ret = .adt "__WProjectionOwned" gas := ⟨_, rfl, _, rfl, _, rfl⟩
  obtain ⟨d, hd, gas, hr, hk⟩ := C83_owned _ E hE demoWF_first f1 m1
  obtain ⟨hn, -⟩ := GTy.adt.inj (r1.symm.trans hr)
  obtain ⟨-, hk⟩ := hk (fun _ => False) id (by rw [← hn]; intro he; exact absurd (Option.some.inj he) (by decide))
  refine ⟨E, hE, d, hd, hn.symm, ?_, (hk _).1.2 ⟨_, .tail _ (.head _), rfl, rfl⟩⟩
  rw [(hk demoDrops).1]
  rintro ⟨f, hf, hp, hg⟩
  rcases hf with _ | ⟨_, _ | ⟨_, _ | ⟨_, hf⟩⟩⟩
  · cases hp
  · cases hg
  · cases hg
  · cases hf

/-- C83 for this struct with `PinnedDrop`: now `'a` must be alive as well. -/
example : ∃ E, parseDerive (.struct_ { demoWF with attrs := [pinPrivateAttr [.ident "PinnedDrop"]] }) = .ok E ∧
    AliveAtDrop demoDrops (fun _ => False) (allItems E)
      (sourceDef (.struct_ { demoWF with attrs := [pinPrivateAttr [.ident "PinnedDrop"]] })) "'a" := by
  obtain ⟨E, hE⟩ : ∃ E, parseDerive (.struct_ { demoWF with attrs := [pinPrivateAttr [.ident "PinnedDrop"]] }) = .ok E := ⟨_, rfl⟩
  exact ⟨E, hE, (C83_pinned_drop _ E hE demoWF_first _ rfl rfl _).2 _ _ (.head _)⟩

end PinProject
