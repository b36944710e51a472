import Verif.Spec.Cfg
import Verif.Props.Unpin
/-!
# Conditional compilation: C66
-/
namespace PinProject
open Spec

theorem Cfg.attrs_append (C : Cfg) (a b : List Attribute) : C.attrs (a ++ b) = C.attrs a ++ C.attrs b := by
  simp [Cfg.attrs]

theorem Cfg.active_append (C : Cfg) (a b : List Attribute) : C.active (a ++ b) = (C.active a && C.active b) := by
  simp [Cfg.active]

theorem cfg_added (C : Cfg) (args : List TT) : C.attrs [deriveAttr, pinPrivateAttr args] = [deriveAttr, pinPrivateAttr args] ∧
    C.active [deriveAttr, pinPrivateAttr args] = true := by
  have h1 : C.resolve deriveAttr = [deriveAttr] := C.other _ rfl
  have h2 : C.resolve (pinPrivateAttr args) = [pinPrivateAttr args] := C.other _ rfl
  constructor
  · simp only [Cfg.attrs, List.flatMap_cons, List.flatMap_nil, h1, h2]
    rfl
  · simp only [Cfg.active, List.flatMap_cons, List.flatMap_nil, h1, h2]
    rfl

theorem itemAttrs_withAttrs (C : Cfg) (attrs : List Attribute) (item : Item) :
    itemAttrs (C.item (withAttrs attrs item)) = C.attrs attrs := by
  cases item <;> rfl

theorem itemAttrs_with (attrs : List Attribute) (item : Item) : itemAttrs (withAttrs attrs item) = attrs := by
  cases item <;> rfl

theorem withAttrs_withAttrs (a b : List Attribute) (item : Item) : withAttrs a (withAttrs b item) = withAttrs a item := by
  cases item <;> rfl

theorem Cfg.item_withAttrs (C : Cfg) (attrs : List Attribute) (item : Item) :
    C.item (withAttrs attrs item) = withAttrs (C.attrs attrs) (C.item item) := by
  cases item <;> rfl

/-- The attributes added by the attribute macro do not change what is compiled. -/
theorem configured_added (C : Cfg) (R : Parser) (args : List TT) (i : RawInput) :
    configured C R ⟨i.attrs ++ [deriveAttr, pinPrivateAttr args], i.body⟩ =
      (configured C R i).map (fun item => withAttrs (itemAttrs item ++ [deriveAttr, pinPrivateAttr args]) item) := by
  unfold configured
  dsimp only
  cases R.parse i.body with
  | none => rfl
  | some item =>
    dsimp only
    rw [Cfg.active_append, (cfg_added C args).2, Bool.and_true]
    split
    · simp only [Option.map_some, itemAttrs_with, Cfg.item_withAttrs, withAttrs_withAttrs, Cfg.attrs_append, (cfg_added C args).1]
    · rfl

theorem annotated_eq (C : Cfg) (R : Parser) (args : List TT) (i : RawInput) (item : Item) (hc : configured C R i = some item)
    (hs : StructOrEnum i.body) (ho : ∀ a ∈ i.attrs, isOurs a = false) :
    annotated C R args i =
      match parseDerive (withAttrs (itemAttrs item ++ [deriveHelper, carriedArgs args]) item) with
      | .ok E => some (withAttrs (itemAttrs item ++ [deriveHelper, carriedArgs args]) item, E)
      | .error _ => none := by
  have ha := (C05_attribute_stage args i _).2 ⟨hs, ho, rfl⟩
  have hc' : configured C R ⟨i.attrs ++ [deriveHelper, carriedArgs args], i.body⟩ = _ := configured_added C R args i
  unfold annotated pinProjectAttribute
  rw [ha]
  simp only [Res.toOut, hc', hc, Option.map_some]
  unfold pinProjectDerive
  change (match (parseDerive (withAttrs (itemAttrs item ++ [deriveHelper, carriedArgs args]) item)).toOut with
    | .code E => _
    | _ => _) = _
  cases parseDerive (withAttrs (itemAttrs item ++ [deriveHelper, carriedArgs args]) item) with
  | ok E => rfl
  | error e => cases e <;> rfl

theorem annotated_none (C : Cfg) (R : Parser) (args : List TT) (i : RawInput)
    (h : ¬ (StructOrEnum i.body ∧ ∀ a ∈ i.attrs, isOurs a = false)) : annotated C R args i = none := by
  unfold annotated pinProjectAttribute
  cases hp : parseAttribute args i with
  | ok out =>
    have := (C05_attribute_stage args i out).1 hp
    exact (h ⟨this.1, this.2.1⟩).elim
  | error e => cases e <;> rfl

/-- An attribute called `pin` or `pin_project` is not removed by conditional compilation. -/
theorem ours_kept {C : Cfg} {attrs : List Attribute} {a : Attribute} (ha : a ∈ attrs) (ho : isOurs a = true) : a ∈ C.attrs attrs := by
  have hne : ∀ k, k ≠ "pin" → k ≠ "pin_project" → a.path.isIdent k = false := by
    intro k h1 h2
    simp only [isOurs, Bool.or_eq_true, beq_iff_eq] at ho
    rcases ho with h | h <;> rw [h] <;> simp [SPath.isIdent]
    · exact fun h => h1 h.symm
    · exact fun h => h2 h.symm
  refine List.mem_filter.2 ⟨List.mem_flatMap.2 ⟨a, ha, by rw [C.other a (hne _ (by decide) (by decide))]; exact .head _⟩, ?_⟩
  rw [hne "cfg" (by decide) (by decide)]
  rfl

theorem configured_some {C : Cfg} {R : Parser} {i : RawInput} {item : Item} (hc : configured C R i = some item) :
    itemAttrs item = C.attrs i.attrs ∧ ((∃ as, item = .other as) ∨ StructOrEnum i.body) := by
  unfold configured at hc
  split at hc
  · rename_i item0 hp
    split at hc
    · obtain rfl := Option.some.inj hc
      refine ⟨itemAttrs_withAttrs _ _ _, ?_⟩
      cases item0 with
      | other as => exact .inl ⟨_, rfl⟩
      | struct_ s => exact .inr (R.starts _ _ hp (fun _ => by simp))
      | enum_ s => exact .inr (R.starts _ _ hp (fun _ => by simp))
    · cases hc
  · cases hc

/-- **C66** What `#[pin_project]` generates is determined by its arguments and by the item that is left after conditional
compilation: it is the result of the derive macro on that item, with two attributes added, one of which carries the arguments. So
all other theorems about definitions apply to that item: its fields are those that are compiled, and pinned are those with a `#[pin]`
that is in effect. -/
theorem C66_derives (C : Cfg) (R : Parser) (args : List TT) (i : RawInput) (item : Item) (hc : configured C R i = some item) :
    annotated C R args i =
      match parseDerive (withAttrs (itemAttrs item ++ [deriveHelper, carriedArgs args]) item) with
      | .ok E => some (withAttrs (itemAttrs item ++ [deriveHelper, carriedArgs args]) item, E)
      | .error _ => none := by
  obtain ⟨h1, h2⟩ := configured_some hc
  by_cases ho : ∀ a ∈ i.attrs, isOurs a = false
  · rcases h2 with ⟨as, rfl⟩ | h2
    · by_cases hs : StructOrEnum i.body
      · exact annotated_eq C R args i _ hc hs ho
      · rw [annotated_none C R args i (fun h => hs h.1)]
        rfl
    · exact annotated_eq C R args i item hc h2 ho
  · rw [annotated_none C R args i (fun h => ho h.2)]
    have hbad : ∃ a ∈ itemAttrs item, isOurs a = true := by
      simp only [Classical.not_forall, Bool.not_eq_false] at ho
      obtain ⟨a, ha, hb⟩ := ho
      exact ⟨a, by rw [h1]; exact ours_kept ha hb, hb⟩
    cases hd : parseDerive (withAttrs (itemAttrs item ++ [deriveHelper, carriedArgs args]) item) with
    | error e => rfl
    | ok E =>
      exfalso
      obtain ⟨A, -, -, -, -, hA, -⟩ := expansion_shape _ E hd
      rw [itemAttrs_with] at hA
      obtain ⟨a, ha, hb⟩ := hbad
      rw [isOurs_eq] at hb
      refine C05_duplicated _ ?_ A hA
      cases hpp : a.path.isIdent "pin_project" with
      | true => exact .inr ⟨a, List.mem_append_left _ ha, hpp⟩
      | false =>
        left
        rw [hpp, Bool.or_false] at hb
        rw [List.filter_append, List.length_append]
        have h3 : 1 ≤ ((itemAttrs item).filter isPinAttr).length :=
          List.length_pos_of_mem (List.mem_filter.2 ⟨ha, by rw [← isPinAttr_eq]; exact hb⟩)
        have h4 : ([deriveHelper, carriedArgs args].filter isPinAttr).length = 1 := rfl
        omega

/-- **C66** Fields and variants that are not compiled have no influence, and a `#[pin]` that comes from a `#[cfg_attr]` has the same
effect as one written directly: if two sources lead to the same item after conditional compilation, annotating them gives the same
result. -/
theorem C66_only_active (C C' : Cfg) (R R' : Parser) (args : List TT) (i i' : RawInput) (item : Item)
    (h : configured C R i = some item) (h' : configured C' R' i' = some item) :
    annotated C R args i = annotated C' R' args i' := by
  rw [C66_derives C R args i item h, C66_derives C' R' args i' item h']

/-- **C66** An item that is not compiled leads to nothing. -/
theorem C66_inactive (C : Cfg) (R : Parser) (args : List TT) (i : RawInput) (hc : configured C R i = none) :
    annotated C R args i = none := by
  unfold annotated pinProjectAttribute
  cases hp : parseAttribute args i with
  | error e => cases e <;> rfl
  | ok out =>
    obtain ⟨-, -, rfl⟩ := (C05_attribute_stage args i out).1 hp
    have hc' : configured C R ⟨i.attrs ++ [deriveHelper, carriedArgs args], i.body⟩ = _ := configured_added C R args i
    simp only [Res.toOut, hc', hc, Option.map_none]

theorem repr_added (args : List TT) (attrs : List Attribute) :
    (ReprsWellFormed (attrs ++ [deriveHelper, carriedArgs args]) ↔ ReprsWellFormed attrs) ∧
    (AsksForPacked (attrs ++ [deriveHelper, carriedArgs args]) ↔ AsksForPacked attrs) := by
  have h : ∀ a ∈ [deriveHelper, carriedArgs args], reprArgs a = none := by
    intro a ha
    simp only [List.mem_cons, List.not_mem_nil, or_false] at ha
    rcases ha with rfl | rfl <;> rfl
  have hm : ∀ {a ts}, reprArgs a = some ts → (a ∈ attrs ++ [deriveHelper, carriedArgs args] ↔ a ∈ attrs) := by
    intro a ts e
    rw [List.mem_append]
    refine ⟨fun ha => ha.elim id (fun hb => ?_), .inl⟩
    rw [h a hb] at e
    cases e
  refine ⟨⟨fun hr a ha ts e => hr a ((hm e).2 ha) ts e, fun hr a ha ts e => hr a ((hm e).1 ha) ts e⟩, ⟨?_, ?_⟩⟩
  · rintro ⟨a, ha, ts, ms, e, r⟩
    exact ⟨a, (hm e).1 ha, ts, ms, e, r⟩
  · rintro ⟨a, ha, ts, ms, e, r⟩
    exact ⟨a, (hm e).2 ha, ts, ms, e, r⟩

/-- **C07** From the source to the result: if conditional compilation leaves `item` of what is written after
`#[pin_project(ARGS)]`, the attribute leads to generated code, and to no error, exactly when the item has no other attribute
called `pin` or `pin_project` and the conditions of `C07_written_iff` hold of the arguments and the item. -/
theorem C07_source_iff (C : Cfg) (R : Parser) (args : List TT) (i : RawInput) (item : Item) (hc : configured C R i = some item) :
    (∃ r, annotated C R args i = some r) ↔
      (∀ a ∈ itemAttrs item, isOurs a = false) ∧
      ∃ as, ArgsToks as args ∧ Acceptable as ∧
        (∀ n, itemName item = some n → n ∉ as.filterMap Arg.name?) ∧
        ReprsWellFormed (itemAttrs item) ∧ ¬ AsksForPacked (itemAttrs item) ∧
        (∀ f ∈ itemFields item, PinOk f.attrs) ∧
        ShapeOk item ∧ ReplaceNamedIn as item := by
  have hsome : (∃ r, annotated C R args i = some r) ↔
      ∃ E, parseDerive (withAttrs (itemAttrs item ++ [deriveHelper, carriedArgs args]) item) = .ok E := by
    rw [C66_derives C R args i item hc]
    cases parseDerive (withAttrs (itemAttrs item ++ [deriveHelper, carriedArgs args]) item) <;> simp
  rw [hsome]
  have hadd : [deriveHelper, carriedArgs args].filter isOurs = [carriedArgs args] := rfl
  have key : (∀ a ∈ itemAttrs item, isOurs a = false) →
      Written args (withAttrs (itemAttrs item ++ [deriveHelper, carriedArgs args]) item) := by
    intro h
    unfold Written
    rw [itemAttrs_with, List.filter_append, hadd, List.filter_eq_nil_iff.2 (fun a ha => by rw [h a ha]; simp)]
    rfl
  obtain ⟨r1, r2⟩ := repr_added args (itemAttrs item)
  have hsame : ∀ attrs, itemName (withAttrs attrs item) = itemName item ∧ itemFields (withAttrs attrs item) = itemFields item ∧
      (ShapeOk (withAttrs attrs item) ↔ ShapeOk item) ∧
      ∀ as, (ReplaceNamedIn as (withAttrs attrs item) ↔ ReplaceNamedIn as item) := by
    intro attrs
    cases item <;> exact ⟨rfl, rfl, .rfl, fun _ => .rfl⟩
  obtain ⟨s1, s2, s3, s4⟩ := hsame (itemAttrs item ++ [deriveHelper, carriedArgs args])
  have fin : (∀ a ∈ itemAttrs item, isOurs a = false) → _ := fun h => C07_written_iff args _ (key h)
  simp only [s1, s2, s3, s4, itemAttrs_with, r1, r2] at fin
  constructor
  · rintro ⟨E, hE⟩
    have hno : ∀ a ∈ itemAttrs item, isOurs a = false := by
      intro a ha
      cases hb : isOurs a with
      | false => rfl
      | true =>
        exfalso
        obtain ⟨A, -, -, -, -, hA, -⟩ := expansion_shape _ E hE
        rw [itemAttrs_with] at hA
        rw [isOurs_eq] at hb
        refine C05_duplicated _ ?_ A hA
        cases hpp : a.path.isIdent "pin_project" with
        | true => exact .inr ⟨a, List.mem_append_left _ ha, hpp⟩
        | false =>
          left
          rw [hpp, Bool.or_false] at hb
          rw [List.filter_append, List.length_append]
          have h3 : 1 ≤ ((itemAttrs item).filter isPinAttr).length :=
            List.length_pos_of_mem (List.mem_filter.2 ⟨ha, by rw [← isPinAttr_eq]; exact hb⟩)
          have h4 : ([deriveHelper, carriedArgs args].filter isPinAttr).length = 1 := rfl
          omega
    exact ⟨hno, (fin hno).1 ⟨E, hE⟩⟩
  · rintro ⟨hno, h⟩
    exact (fin hno).2 h

/-! ## An example, from tests/cfg.rs:20-31

`struct SameName { #[cfg(not(any()))] #[pin] inner: Always, #[cfg(any())] #[pin] inner: Never }` -/

def cfgAny : List TT := [.ident "any", .group .paren []]
def cfgAttr (toks : List TT) : Attribute := ⟨.list { segs := ["cfg"] } .paren toks⟩
def pinAttr : Attribute := ⟨.path { segs := ["pin"] }⟩

/-- `any()` does not hold; there is no `cfg_attr`. -/
def demoCfg : Cfg where
  holds toks := match toks with
    | .ident "any" :: _ => false
    | _ => true
  resolve a := if a.path.isIdent "cfg_attr" then [] else [a]
  other a h := by simp [h]
  done a b h := by
    split at h
    · cases h
    · rename_i hb; rw [List.mem_singleton] at h; subst h; simpa using hb

def cfgBody : List TT := [.ident "struct", .ident "SameName", .group .brace []]

def cfgItem : Item := .struct_ {
  attrs := []
  vis := .inherited
  ident := "SameName"
  generics := {}
  fields := .named [
    { attrs := [cfgAttr [.ident "not", .group .paren cfgAny], pinAttr], ident := some "inner", ty := .tyIdent "Always" },
    { attrs := [cfgAttr cfgAny, pinAttr], ident := some "inner", ty := .tyIdent "Never" }] }

def cfgParser : Parser where
  parse body := match body with
    | .ident "struct" :: _ => some cfgItem
    | _ => none
  starts body item h _ := by
    split at h
    · exact ⟨[], _, _, .inherited, .inl rfl, rfl⟩
    · cases h

/-- The generated types have one field. -/
example : configured demoCfg cfgParser ⟨[], cfgBody⟩ = some (.struct_ {
    attrs := [], vis := .inherited, ident := "SameName", generics := {},
    fields := .named [{ attrs := [pinAttr], ident := some "inner", ty := .tyIdent "Always" }] }) := rfl

example : ∃ E, (annotated demoCfg cfgParser [] ⟨[], cfgBody⟩).map Prod.snd = some E ∧
    (typeDefs (allItems E)).map (fun d => d.variants.map (fun v => v.2.fields.map (fun f => f.ident))) =
      [[[some "inner"]], [[some "inner"]], [[some "__pin_project_use_generics", some "__field0"]]] := by
  refine ⟨_, rfl, ?_⟩
  decide

end PinProject
