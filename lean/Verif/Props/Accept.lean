import Verif.Props.Closed
import Verif.Props.Arguments
import Verif.Spec.Shape
/-!
# What is accepted: C04, C05, C06, C07, C08, C16 (acceptance part)
-/
namespace PinProject
open Spec

/-! ## Preprocessing keeps the shape -/

theorem visit_fields_list (st : SelfTy) (fs : Fields) :
    (fs.visit st).list = fs.list.map (Field.visit st) := by
  cases fs <;> simp [Fields.visit, Fields.list]

@[simp] theorem ItemStruct.pre_attrs (s : ItemStruct) : s.pre.attrs = s.attrs := rfl
@[simp] theorem ItemStruct.pre_ident (s : ItemStruct) : s.pre.ident = s.ident := rfl
@[simp] theorem ItemEnum.pre_attrs (s : ItemEnum) : s.pre.attrs = s.attrs := rfl
@[simp] theorem ItemEnum.pre_ident (s : ItemEnum) : s.pre.ident = s.ident := rfl

theorem ItemStruct.pre_fields (s : ItemStruct) :
    s.pre.fields = s.fields.visit (mkSelfTy s.ident s.generics.tyGenerics) := rfl
theorem ItemEnum.pre_variants (s : ItemEnum) :
    s.pre.variants = s.variants.map (Variant.visit (mkSelfTy s.ident s.generics.tyGenerics)) := rfl

theorem pre_shape (e : ItemEnum) : EnumShapeOk e.pre.variants ↔ ShapeOk (.enum_ e) := by
  rw [ItemEnum.pre_variants]
  generalize mkSelfTy e.ident e.generics.tyGenerics = st
  constructor
  · rintro ⟨h1, h2, h3, v, hv, h4⟩
    obtain ⟨w, hw, rfl⟩ := List.mem_map.1 hv
    refine ⟨by simpa using h1, ⟨w, hw, ?_⟩, fun u hu => ?_, fun u hu => ?_⟩
    · simpa [Variant.visit, visit_fields_list] using h4
    · simpa [Variant.visit] using h2 _ (List.mem_map_of_mem hu)
    · exact h3 (u.visit st) (List.mem_map_of_mem hu)
  · rintro ⟨h1, ⟨w, hw, h4⟩, h2, h3⟩
    refine ⟨by simpa using h1, ?_, ?_, w.visit st, List.mem_map_of_mem hw, ?_⟩
    · intro v hv
      obtain ⟨u, hu, rfl⟩ := List.mem_map.1 hv
      simpa [Variant.visit] using h2 u hu
    · intro v hv
      obtain ⟨u, hu, rfl⟩ := List.mem_map.1 hv
      exact h3 u hu
    · simpa [Variant.visit, visit_fields_list] using h4

/-! ## C07 -/

/-- **C07** (with C04, C06, C08, C16 as the individual conditions). The derive stage succeeds
exactly when: the carried arguments parse; none of the chosen names is the name of the type;
`#[repr]`s are well-formed and do not ask for packing; `#[pin]` is used legally on every field; the
item has an acceptable shape; and an enum does not use `project_replace` without a name. -/
theorem C07_accepted_iff (item : Item) :
    (∃ E, parseDerive item = .ok E) ↔
      ∃ A, parseArgs (itemAttrs item) = .ok A ∧
        (∀ n, itemName item = some n → n ∉ userNames A) ∧
        ReprsWellFormed (itemAttrs item) ∧ ¬ AsksForPacked (itemAttrs item) ∧
        (∀ f ∈ itemFields item, PinOk f.attrs) ∧
        ShapeOk item ∧ ReplaceNamedOnEnum A item := by
  cases item with
  | other attrs => simp [parseDerive, ShapeOk]
  | struct_ s =>
    simp only [parseDerive, itemAttrs, itemName, Option.some.injEq, forall_eq', itemFields, ShapeOk,
      ReplaceNamedOnEnum, and_true]
    constructor
    · rintro ⟨E, h⟩
      obtain ⟨A, h1, h2, h3, h4, h5, h6, -⟩ := (deriveStruct_iff _ _).1 h
      refine ⟨A, h1, h2, h3, h4, ?_, ?_⟩
      · intro f hf
        exact h6 (f.visit (mkSelfTy s.ident s.generics.tyGenerics))
          (by rw [ItemStruct.pre_fields, visit_fields_list]; exact List.mem_map_of_mem hf)
      · rw [ItemStruct.pre_fields, visit_fields_list] at h5
        simpa using h5
    · rintro ⟨A, h1, h2, h3, h4, h5, h6⟩
      refine ⟨_, (deriveStruct_iff _ _).2 ⟨A, h1, h2, h3, h4, ?_, ?_, rfl⟩⟩
      · rw [ItemStruct.pre_fields, visit_fields_list]; simpa using h6
      · rw [ItemStruct.pre_fields, visit_fields_list]
        simp only [List.forall_mem_map]
        exact h5
  | enum_ e =>
    simp only [parseDerive, itemAttrs, itemName, Option.some.injEq, forall_eq', itemFields,
      ReplaceNamedOnEnum]
    constructor
    · rintro ⟨E, h⟩
      obtain ⟨A, h1, h2, h0, h3, h4, h5, h6, -⟩ := (deriveEnum_iff _ _).1 h
      refine ⟨A, h1, h2, h3, h4, ?_, (pre_shape e).1 h5, h0⟩
      intro f hf
      obtain ⟨v, hv, hfv⟩ := List.mem_flatMap.1 hf
      refine h6 (v.visit (mkSelfTy e.ident e.generics.tyGenerics)) ?_
        (f.visit (mkSelfTy e.ident e.generics.tyGenerics)) ?_
      · rw [ItemEnum.pre_variants]; exact List.mem_map_of_mem hv
      · simp only [Variant.visit, visit_fields_list]; exact List.mem_map_of_mem hfv
    · rintro ⟨A, h1, h2, h3, h4, h5, h6, h0⟩
      refine ⟨_, (deriveEnum_iff _ _).2 ⟨A, h1, h2, h0, h3, h4, (pre_shape e).2 h6, ?_, rfl⟩⟩
      rw [ItemEnum.pre_variants]
      simp only [List.forall_mem_map, Variant.visit, visit_fields_list]
      intro v hv f hf
      exact h5 f (List.mem_flatMap.2 ⟨v, hv, hf⟩)

/-- Rejected shapes, one by one: whatever the attributes and arguments are, none of these
items expands. -/
theorem C07_rejects (item : Item) (h : ¬ ShapeOk item) : ∀ E, parseDerive item ≠ .ok E := by
  intro E hE
  obtain ⟨A, _, _, _, _, _, hs, _⟩ := (C07_accepted_iff item).1 ⟨E, hE⟩
  exact h hs

/-- A concrete accepted item: `#[pin(__private())] struct S { #[pin] a: T, b: U }`. -/
def demoStruct : ItemStruct where
  attrs := [pinPrivateAttr []]
  vis := .pub
  ident := "S"
  generics := { params := [.type "T" [] none, .type "U" [] none] }
  fields := .named [
    { attrs := [⟨.path { segs := ["pin"] }⟩], vis := .pub, ident := some "a", ty := .tyIdent "T" },
    { ident := some "b", ty := .tyIdent "U" }]

/-- `#[pin(__private(project = P))] enum E { V(#[pin] T, U), W { x: U }, N }`. -/
def demoEnum : ItemEnum where
  attrs := [pinPrivateAttr [.ident "project", .punct '=' false, .ident "P"]]
  vis := .pub
  ident := "E"
  generics := { params := [.type "T" [] none, .type "U" [] none] }
  variants := [
    { ident := "V", fields := .unnamed [
      { attrs := [⟨.path { segs := ["pin"] }⟩], ident := none, ty := .tyIdent "T" },
      { ident := none, ty := .tyIdent "U" }] },
    { ident := "W", fields := .named [{ ident := some "x", ty := .tyIdent "U" }] },
    { ident := "N", fields := .unit }]

theorem demoStruct_ok : ∃ E, parseDerive (.struct_ demoStruct) = .ok E := ⟨_, rfl⟩
theorem demoEnum_ok : ∃ E, parseDerive (.enum_ demoEnum) = .ok E := ⟨_, rfl⟩

example : ¬ ShapeOk (.enum_ { demoEnum with variants := [{ ident := "N", fields := .unit }] }) := by
  simp [ShapeOk, Fields.list]

/-! ## C04 -/

theorem config_replaceIdent (as : List Arg) (h : (as.map Arg.kind).Nodup) :
    (config as).projectReplace.ident = as.findSome? replaceOf := by
  rw [config_replace as h, ArgAcc.projectReplace, fold_prSpan, fold_prValue _ _ h]
  simp only [Bool.false_or, Option.or_none]
  cases hr : as.findSome? replaceOf with
  | none => split <;> simp_all [ProjReplace.ident]
  | some n =>
    have := replaceOf_some_mem hr
    simp [this, ProjReplace.ident]

/-- **C04** The names chosen by the user are pairwise distinct and none is the name of the
annotated type. -/
theorem C04_names_distinct (item : Item) (E : Expansion) (h : parseDerive item = .ok E) :
    ∃ A, parseArgs (itemAttrs item) = .ok A ∧
      (∀ n, itemName item = some n →
        (n :: userNames A).Nodup) := by
  obtain ⟨A, h1, h2, -⟩ := (C07_accepted_iff item).1 ⟨E, h⟩
  refine ⟨A, h1, fun n hn => ?_⟩
  rw [userNames, List.append_assoc]
  rw [List.nodup_cons]
  refine ⟨by simpa [userNames] using h2 n hn, ?_⟩
  obtain ⟨ts, hts⟩ : ∃ ts, Args.parse ts = .ok A := by
    unfold parseArgs at h1
    split at h1
    · simp at h1
    · split at h1
      · simp at h1
      · rw [bind_ok] at h1
        obtain ⟨_, _, h1⟩ := h1
        rw [bind_ok] at h1
        obtain ⟨_, _, h1⟩ := h1
        split at h1
        · rw [bind_ok] at h1
          obtain ⟨_, _, h1⟩ := h1
          rw [bind_ok] at h1
          obtain ⟨_, _, h1⟩ := h1
          simp at h1
        · split at h1
          · exact ⟨_, h1⟩
          · simp at h1
  obtain ⟨as, _, hacc, rfl⟩ := parse_ok_iff.1 hts
  have hn := (names_perm as hacc.noDup).nodup_iff.1 hacc.names
  rw [← config_replaceIdent as hacc.noDup] at hn
  exact hn

example : ∃ A, parseArgs (itemAttrs (.enum_ demoEnum)) = .ok A ∧
    A.project.toList ++ A.projectRef.toList ++ A.projectReplace.ident.toList = ["P"] :=
  ⟨{ project := some "P" }, rfl, rfl⟩

/-- A name equal to the type's name is refused, in any of the three roles. -/
theorem C04_own_name_rejected (item : Item) (A : Args) (n : String)
    (hA : parseArgs (itemAttrs item) = .ok A) (hn : itemName item = some n)
    (h : A.project = some n ∨ A.projectRef = some n ∨ A.projectReplace = .named n) :
    ∀ E, parseDerive item ≠ .ok E := by
  intro E hE
  obtain ⟨A', hA', hd⟩ := C04_names_distinct item E hE
  rw [hA] at hA'
  obtain rfl := Except.ok.inj hA'
  have := (List.nodup_cons.1 (hd n hn)).1
  rcases h with h | h | h <;> simp [userNames, h, ProjReplace.ident] at this

example : parseArgs (itemAttrs (.enum_ { demoEnum with ident := "P" })) = .ok { project := some "P" } := rfl

/-! ## C05 -/

theorem isOurs_eq (a : Attribute) :
    isOurs a = (a.path.isIdent "pin" || a.path.isIdent "pin_project") := by
  have h : ∀ s, a.path.isIdent s = (a.path == { leading := false, segs := [s] }) := by
    intro s; rw [Bool.eq_iff_iff, isIdent_iff]; simp
  rw [h, h]; rfl

theorem findAttr_none {attrs : List Attribute} {s : String} :
    findAttr attrs s = none ↔ ∀ a ∈ attrs, a.path.isIdent s = false := by
  simp [findAttr, List.find?_eq_none]

theorem not_both (p : SPath) (h : p.isIdent "pin" = true) : p.isIdent "pin_project" = false := by
  rw [isIdent_iff] at h
  subst h
  rfl

theorem isModWord_iff (s : String) : isModWord s = true ↔ PathWord s := by
  simp [isModWord, PathWord, isIdentWord_iff, or_assoc]

theorem modPathTail_iff (ts : List TT) : (∃ ss, modPathTail ts = .ok (ss, [])) ↔ PathTail ts := by
  fun_induction modPathTail ts with
  | case1 c d j hc s rest hw ih =>
    obtain ⟨rfl, rfl⟩ := hc
    constructor
    · rintro ⟨ss, h⟩
      rw [bind_ok] at h
      obtain ⟨⟨ss', r⟩, h1, h2⟩ := h
      obtain ⟨rfl, rfl⟩ := Prod.mk.inj (Except.ok.inj h2)
      exact .cons ((isModWord_iff s).1 hw) (ih.1 ⟨_, h1⟩)
    · intro h
      cases h with
      | cons _ ht =>
        obtain ⟨ss, hs⟩ := ih.2 ht
        exact ⟨s :: ss, by rw [hs]; rfl⟩
  | case2 c d j hc s rest hw =>
    constructor
    · rintro ⟨ss, h⟩; cases h
    · intro h; cases h with | cons hw' _ => exact absurd ((isModWord_iff s).2 hw') hw
  | case3 c d j rest hc hn =>
    constructor
    · rintro ⟨ss, h⟩; cases h
    · intro h; cases h with | cons _ _ => exact absurd rfl (hn _ _)
  | case4 c d j rest hc =>
    constructor
    · rintro ⟨ss, h⟩; cases h
    · intro h; cases h with | cons _ _ => exact absurd ⟨rfl, rfl⟩ hc
  | case5 ts hn =>
    constructor
    · rintro ⟨ss, h⟩
      obtain ⟨-, rfl⟩ := Prod.mk.inj (Except.ok.inj h)
      exact .nil
    · intro h
      cases h with
      | nil => exact ⟨_, rfl⟩
      | cons _ _ => exact absurd rfl (hn _ _ _ _)

theorem parseModPath_iff (ts : List TT) : (∃ p, parseModPath ts = .ok (p, [])) ↔ ModPath ts := by
  fun_cases parseModPath ts with
  | case1 c d j hc s rest hw =>
    obtain ⟨rfl, rfl⟩ := hc
    constructor
    · rintro ⟨p, h⟩
      rw [bind_ok] at h
      obtain ⟨⟨ss', r⟩, h1, h2⟩ := h
      obtain ⟨rfl, rfl⟩ := Prod.mk.inj (Except.ok.inj h2)
      exact .abs ((isModWord_iff s).1 hw) ((modPathTail_iff _).1 ⟨_, h1⟩)
    · intro h
      cases h with
      | abs _ ht =>
        obtain ⟨ss, hs⟩ := (modPathTail_iff _).2 ht
        exact ⟨_, by rw [hs]; rfl⟩
  | case2 c d j hc s rest hw =>
    constructor
    · rintro ⟨ss, h⟩; cases h
    · intro h; cases h with | abs hw' _ => exact absurd ((isModWord_iff s).2 hw') hw
  | case3 c d j rest hc hn =>
    constructor
    · rintro ⟨ss, h⟩; cases h
    · intro h; cases h with | abs _ _ => exact absurd rfl (hn _ _)
  | case4 c d j rest hc =>
    constructor
    · rintro ⟨ss, h⟩; cases h
    · intro h; cases h with | abs _ _ => exact absurd ⟨rfl, rfl⟩ hc
  | case5 s rest hw =>
    constructor
    · rintro ⟨p, h⟩
      rw [bind_ok] at h
      obtain ⟨⟨ss', r⟩, h1, h2⟩ := h
      obtain ⟨rfl, rfl⟩ := Prod.mk.inj (Except.ok.inj h2)
      exact .rel ((isModWord_iff s).1 hw) ((modPathTail_iff _).1 ⟨_, h1⟩)
    · intro h
      cases h with
      | rel _ ht =>
        obtain ⟨ss, hs⟩ := (modPathTail_iff _).2 ht
        exact ⟨_, by rw [hs]; rfl⟩
  | case6 s rest hw =>
    constructor
    · rintro ⟨ss, h⟩; cases h
    · intro h; cases h with | rel hw' _ => exact absurd ((isModWord_iff s).2 hw') hw
  | case7 ts hn hm =>
    constructor
    · rintro ⟨ss, h⟩; cases h
    · intro h
      cases h with
      | rel _ _ => exact absurd rfl (hm _ _)
      | abs _ _ => exact absurd rfl (hn _ _ _ _)

/-- Skipping the visibility leaves `struct`/`enum` exactly when the tokens are a visibility followed
by one of these words. -/
theorem skipVis_iff (body : List TT) :
    (∃ rest, skipVis body = .ok rest ∧ ∃ w more, rest = .ident w :: more ∧ (w = "struct" ∨ w = "enum")) ↔
      StructOrEnum body := by
  constructor
  · rintro ⟨rest, h, w, more, rfl, hw⟩
    unfold skipVis at h
    split at h
    · split at h
      · split at h
        · split at h
          · rename_i hk
            split at h
            · rename_i he
              obtain rfl := Except.ok.inj h
              obtain rfl := List.isEmpty_iff.1 he
              exact ⟨_, w, more, .word (by simpa using hk), hw, rfl⟩
            · cases h
          · split at h
            · rename_i hk
              subst hk
              rw [bind_ok] at h
              obtain ⟨⟨p, r⟩, h1, h2⟩ := h
              dsimp only at h2
              split at h2
              · rename_i he
                obtain rfl := List.isEmpty_iff.1 he
                obtain rfl := Except.ok.inj h2
                exact ⟨_, w, more, .inPath ((parseModPath_iff _).1 ⟨_, h1⟩), hw, rfl⟩
              · cases h2
            · cases h
        · cases h
      · obtain rfl := Except.ok.inj h
        exact ⟨_, w, more, .pub, hw, rfl⟩
    · obtain rfl := Except.ok.inj h
      exact ⟨_, w, more, .inherited, hw, rfl⟩
  · rintro ⟨vis, w, more, hv, hw, rfl⟩
    refine ⟨.ident w :: more, ?_, w, more, rfl, hw⟩
    cases hv with
    | inherited => rcases hw with rfl | rfl <;> rfl
    | pub => rfl
    | word hk =>
      simp only [List.mem_cons, List.not_mem_nil, or_false] at hk
      rcases hk with rfl | rfl | rfl <;> rfl
    | inPath hp =>
      obtain ⟨p, hp⟩ := (parseModPath_iff _).2 hp
      simp [skipVis, hp]

/-- `pub(in crate::a) enum ..` -/
example : StructOrEnum [.ident "pub", .group .paren [.ident "in", .ident "crate", .punct ':' true, .punct ':' false,
    .ident "a"], .ident "enum", .ident "E"] :=
  ⟨_, "enum", _, .inPath (.rel (.inr (by decide)) (.cons (.inl (by decide)) .nil)), .inr rfl, rfl⟩

/-- What the attribute stage accepts and produces: a (possibly visible) `struct` or `enum`, none
of whose attributes is `pin` or `pin_project`; all attributes and the body are kept, and the
arguments are carried verbatim. -/
theorem C05_attribute_stage (args : List TT) (i out : RawInput) :
    parseAttribute args i = .ok out ↔
      StructOrEnum i.body ∧
      (∀ a ∈ i.attrs, isOurs a = false) ∧
      out = ⟨i.attrs ++ [deriveHelper, carriedArgs args], i.body⟩ := by
  have hpeek : ∀ ts, peekStructOrEnum ts = true ↔
      ∃ w more, ts = .ident w :: more ∧ (w = "struct" ∨ w = "enum") := by
    intro ts
    unfold peekStructOrEnum
    split
    · simp
    · rename_i h
      simp only [Bool.false_eq_true, false_iff]
      rintro ⟨w, more, rfl, _⟩
      exact h _ _ rfl
  rw [← skipVis_iff]
  unfold parseAttribute parseInput
  rw [bind_ok]
  constructor
  · rintro ⟨j, h1, h2⟩
    rw [bind_ok] at h1
    obtain ⟨ahead, h3, h4⟩ := h1
    split at h4
    · simp at h4
    · rename_i hp
      split at h4
      · simp at h4
      · rename_i h5
        split at h4
        · simp at h4
        · rename_i h6
          obtain rfl := Except.ok.inj h4
          simp only [Bool.not_eq_true, Option.isSome_eq_false_iff, Option.isNone_iff_eq_none] at h5 h6
          refine ⟨⟨ahead, h3, (hpeek _).1 (by simpa using hp)⟩, ?_, (Except.ok.inj h2).symm⟩
          intro a ha
          rw [isOurs_eq, findAttr_none.1 h5 a ha, findAttr_none.1 h6 a ha]
          rfl
  · rintro ⟨⟨ahead, h3, h4⟩, h5, rfl⟩
    refine ⟨i, ?_, rfl⟩
    rw [bind_ok]
    refine ⟨ahead, h3, ?_⟩
    have h6 : findAttr i.attrs "pin" = none := findAttr_none.2 (fun a ha => by
      have := h5 a ha; rw [isOurs_eq] at this; simp at this; exact this.1)
    have h7 : findAttr i.attrs "pin_project" = none := findAttr_none.2 (fun a ha => by
      have := h5 a ha; rw [isOurs_eq] at this; simp at this; exact this.2)
    simp [(hpeek _).2 h4, h6, h7]

theorem parseArgs_private (attrs : List Attribute) (args : List TT)
    (h : attrs.filter isOurs = [pinPrivateAttr args]) : parseArgs attrs = Args.parse args := by
  have h1 : findAttr attrs "pin_project" = none := by
    rw [findAttr_none]
    intro a ha
    cases hp : a.path.isIdent "pin_project" with
    | false => rfl
    | true =>
      have hm : a ∈ attrs.filter isOurs := List.mem_filter.2 ⟨ha, by rw [isOurs_eq, hp, Bool.or_true]⟩
      rw [h, List.mem_singleton] at hm
      subst hm
      exact absurd hp (by simp [pinPrivateAttr, Attribute.path, Meta.getPath, SPath.isIdent])
  have h2 : attrs.filter (fun a => a.path.isIdent "pin") = [pinPrivateAttr args] := by
    rw [← h]
    apply List.filter_congr
    intro a ha
    rw [isOurs_eq, findAttr_none.1 h1 a ha, Bool.or_false]
  unfold parseArgs
  rw [h1, h2]
  rfl

/-- **C05** The configuration used by the derive stage is what parsing the tokens written in
`#[pin_project(..)]` gives, whatever the other attributes are and whatever happens to them
between the stages, as long as nobody touches `#[pin]`/`#[pin_project]` attributes. -/
theorem C05_transparent (args : List TT) (i out : RawInput) (h : parseAttribute args i = .ok out)
    (attrs' : List Attribute) (hs : attrs'.filter isOurs = out.attrs.filter isOurs) :
    parseArgs attrs' = Args.parse args := by
  obtain ⟨_, h2, rfl⟩ := (C05_attribute_stage args i out).1 h
  apply parseArgs_private
  rw [hs]
  simp only [List.filter_append]
  rw [List.filter_eq_nil_iff.2 (by intro a ha; simp [h2 a ha])]
  rfl

/-- **C05** What the derive macro then sees. -/
theorem C05_written (args : List TT) (i out : RawInput) (h : parseAttribute args i = .ok out)
    (item : Item) (hs : (itemAttrs item).filter isOurs = out.attrs.filter isOurs) : Written args item := by
  obtain ⟨_, h2, rfl⟩ := (C05_attribute_stage args i out).1 h
  unfold Written
  rw [hs]
  simp only [List.filter_append]
  rw [List.filter_eq_nil_iff.2 (by intro a ha; simp [h2 a ha])]
  rfl

/-- **C05** So the configuration is the one that the argument list written by the user means. -/
theorem C05_config (args : List TT) (item : Item) (h : Written args item) (A : Args) :
    parseArgs (itemAttrs item) = .ok A ↔ ∃ as, ArgsToks as args ∧ Acceptable as ∧ A = config as := by
  rw [parseArgs_private _ args h]
  exact C01_argument_grammar args A

/-- If another macro removed the carried attribute, expansion fails. -/
theorem C05_removed (attrs : List Attribute) (h : ∀ a ∈ attrs, isPinAttr a = false) :
    ∀ A, parseArgs attrs ≠ .ok A := by
  intro A hA
  unfold parseArgs at hA
  split at hA
  · simp at hA
  · have : attrs.filter (fun a => a.path.isIdent "pin") = [] := by
      rw [List.filter_eq_nil_iff]; intro a ha; rw [isPinAttr_eq, h a ha]; simp
    rw [this] at hA
    simp at hA

/-- If there is more than one `#[pin..]` attribute, or any `#[pin_project..]` attribute, on the
item given to the derive stage, expansion fails. -/
theorem C05_duplicated (attrs : List Attribute)
    (h : 2 ≤ (attrs.filter isPinAttr).length ∨ ∃ a ∈ attrs, a.path.isIdent "pin_project") :
    ∀ A, parseArgs attrs ≠ .ok A := by
  intro A hA
  unfold parseArgs at hA
  split at hA
  · simp at hA
  · rename_i hf
    rcases h with h | ⟨a, ha, hp⟩
    · have he : attrs.filter (fun a => a.path.isIdent "pin") = attrs.filter isPinAttr :=
        List.filter_congr (fun a _ => isPinAttr_eq a)
      rw [he] at hA
      split at hA
      · rename_i hn; rw [hn] at h; simp at h
      · rename_i a more hm
        rw [bind_ok] at hA
        obtain ⟨_, _, hA⟩ := hA
        rw [bind_ok] at hA
        obtain ⟨_, _, hA⟩ := hA
        cases more with
        | nil => rw [hm] at h; simp at h
        | cons b more =>
          simp only [bind_ok] at hA
          obtain ⟨_, _, _, _, hA⟩ := hA
          simp at hA
    · rw [findAttr_none.1 hf a ha] at hp; cases hp

/-- Conversely: any configuration the derive stage uses comes from exactly one carried attribute
`#[pin(__private(ARGS))]`, and is what `ARGS` means. -/
theorem C05_only_carried (attrs : List Attribute) (A : Args) (h : parseArgs attrs = .ok A) :
    ∃ (p : SPath) (d : Delim) (args : List TT),
      attrs.filter isPinAttr = [⟨.list p d [.ident "__private", .group .paren args]⟩] ∧
      Args.parse args = .ok A := by
  have he : attrs.filter (fun a => a.path.isIdent "pin") = attrs.filter isPinAttr :=
    List.filter_congr (fun a _ => isPinAttr_eq a)
  unfold parseArgs at h
  rw [he] at h
  split at h
  · simp at h
  · split at h
    · simp at h
    · rename_i a more hm
      rw [bind_ok] at h
      obtain ⟨ts, h1, h⟩ := h
      rw [bind_ok] at h
      obtain ⟨o, h2, h⟩ := h
      cases more with
      | cons b more =>
        simp only [bind_ok] at h
        obtain ⟨_, _, _, _, h⟩ := h
        simp at h
      | nil =>
        cases o with
        | none => simp at h
        | some toks =>
          obtain ⟨m⟩ := a
          cases m with
          | path p => simp [Meta.requireList] at h1
          | nameValue p v => simp [Meta.requireList] at h1
          | list p d ts' =>
            simp only [Meta.requireList, Except.ok.injEq] at h1
            subst h1
            refine ⟨p, d, toks, ?_, h⟩
            rw [hm]
            congr 3
            unfold parsePrivate at h2
            split at h2
            · split at h2
              · split at h2
                · rename_i hs
                  subst hs
                  split at h2
                  · split at h2
                    · rename_i hr
                      simp only [List.isEmpty_iff] at hr
                      subst hr
                      simp only [Except.ok.injEq, Option.some.injEq] at h2
                      rw [h2]
                    · simp at h2
                  · split at h2 <;> simp at h2
                · split at h2 <;> simp at h2
              · simp at h2
            · simp at h2
            · simp at h2

/-- `#[doc = ".."] #[pin_project(!Unpin)] #[allow(x)] pub struct S ..` -/
example : ∃ out, parseAttribute [.punct '!' false, .ident "Unpin"]
      ⟨[⟨.nameValue { segs := ["doc"] } [.lit "\"x\""]⟩, ⟨.list { segs := ["allow"] } .paren [.ident "x"]⟩],
       [.ident "pub", .ident "struct", .ident "S"]⟩ = .ok out ∧
    parseArgs (out.attrs.drop 1) = Args.parse [.punct '!' false, .ident "Unpin"] := ⟨_, rfl, rfl⟩
example : (2 ≤ ([pinPrivateAttr [], pinPrivateAttr []].filter isPinAttr).length) := by decide

/-! ## C06 -/

theorem positionExact_pinned (attrs : List Attribute) (r : Option Nat) :
    positionExact attrs "pin" = .ok r →
      PinOk attrs ∧ (r.isSome ↔ ∃ a ∈ attrs, isPinAttr a) := by
  intro h
  have := positionExactFrom_none _ _ _ h
  refine ⟨this.1, ?_⟩
  rw [this.2, List.any_eq_true]

/-- **C06** An accepted definition uses `#[pin]` legally on every field. -/
theorem C06_legal (item : Item) (E : Expansion) (h : parseDerive item = .ok E) :
    ∀ f ∈ itemFields item, PinOk f.attrs := by
  obtain ⟨A, _, _, _, _, h5, _⟩ := (C07_accepted_iff item).1 ⟨E, h⟩
  exact h5

/-- Illegal use of `#[pin]` on any field of any variant makes the whole expansion fail. -/
theorem C06_illegal_rejected (item : Item) (f : Field) (hf : f ∈ itemFields item)
    (h : 2 ≤ (f.attrs.filter isPinAttr).length ∨
      ∃ a ∈ f.attrs, isPinAttr a ∧ ∀ p, a.m ≠ .path p) :
    ∀ E, parseDerive item ≠ .ok E := by
  intro E hE
  obtain ⟨A, _, _, _, _, h5, _⟩ := (C07_accepted_iff item).1 ⟨E, hE⟩
  have hok := h5 f hf
  rcases h with h | ⟨a, ha, hp, hm⟩
  · rcases hok with hok | hok <;> rw [hok] at h <;> simp at h
  · have hmem : a ∈ f.attrs.filter isPinAttr := List.mem_filter.2 ⟨ha, hp⟩
    rcases hok with hok | hok <;> rw [hok] at hmem
    · simp at hmem
    · rw [List.mem_singleton] at hmem
      subst hmem
      exact hm _ rfl

/-- `#[doc(hidden)] #[pin] #[cfg(x)]` is legal and pins; `#[pin()]` is not; `#[pinned]` does not. -/
example : positionExact [⟨.list { segs := ["doc"] } .paren [.ident "hidden"]⟩,
    ⟨.path { segs := ["pin"] }⟩, ⟨.list { segs := ["cfg"] } .paren [.ident "x"]⟩] "pin" = .ok (some 1) := rfl
example : ∃ a ∈ [(⟨.list { segs := ["pin"] } .paren []⟩ : Attribute)],
    isPinAttr a ∧ ∀ p, a.m ≠ .path p := ⟨_, List.mem_cons_self, rfl, by simp⟩

/-! ## C08 -/

/-- **C08** A struct or enum that asks for `packed` in any `#[repr(..)]` never expands. -/
theorem C08_packed_rejected (item : Item) (h : AsksForPacked (itemAttrs item)) :
    ∀ E, parseDerive item ≠ .ok E := by
  intro E hE
  obtain ⟨A, _, _, _, h4, _⟩ := (C07_accepted_iff item).1 ⟨E, hE⟩
  exact h4 h

/-- **C08** All `#[repr(..)]` of an accepted item are well-formed and ask for no packing. -/
theorem C08_accepted_reprs (item : Item) (E : Expansion) (h : parseDerive item = .ok E) :
    ReprsWellFormed (itemAttrs item) ∧ ¬ AsksForPacked (itemAttrs item) := by
  obtain ⟨A, _, _, h3, h4, _⟩ := (C07_accepted_iff item).1 ⟨E, h⟩
  exact ⟨h3, h4⟩

/-- `#[repr(C)] #[repr(align(8), packed(2),)]` asks for packing. -/
example : AsksForPacked [⟨.list { segs := ["repr"] } .paren [.ident "C"]⟩,
    ⟨.list { segs := ["repr"] } .paren [.ident "align", .group .paren [.lit "8"], .punct ',' false,
      .ident "packed", .group .paren [.lit "2"], .punct ',' false]⟩] := by
  refine ⟨_, List.mem_cons_of_mem _ List.mem_cons_self, _, _, rfl,
    .cons false (.list .paren [.lit "8"] (.rel (.one (s := "align") (by decide))))
      (.cons false (.list .paren [.lit "2"] (.rel (.one (s := "packed") (by decide)))) .nil),
    _, List.mem_cons_of_mem _ List.mem_cons_self, rfl⟩

/-! ## C16, acceptance part -/

/-- An enum with an unnamed `project_replace` is rejected. -/
theorem C16_enum_unnamed_replace_rejected (e : ItemEnum) (A : Args)
    (hA : parseArgs e.attrs = .ok A) (h : A.projectReplace = .unnamed) :
    ∀ E, parseDerive (.enum_ e) ≠ .ok E := by
  intro E hE
  obtain ⟨A', h1, _, _, _, _, _, h7⟩ := (C07_accepted_iff _).1 ⟨E, hE⟩
  rw [show itemAttrs (.enum_ e) = e.attrs from rfl, hA] at h1
  obtain rfl := Except.ok.inj h1
  exact h7 h

example : parseArgs ({ demoEnum with attrs := [pinPrivateAttr [.ident "project_replace"]] } : ItemEnum).attrs =
    .ok { projectReplace := .unnamed } := rfl

/-! ## C07, in terms of what the user writes -/

theorem config_names (as : List Arg) (h : Acceptable as) (n : String) :
    n ∈ userNames (config as) ↔ n ∈ as.filterMap Arg.name? := by
  have := names_perm as h.noDup
  rw [← config_replaceIdent as h.noDup] at this
  rw [userNames, List.append_assoc]
  exact this.mem_iff.symm

theorem config_unnamed (as : List Arg) (h : Acceptable as) :
    (config as).projectReplace = .unnamed ↔ .projectReplace ∈ as := by
  constructor
  · intro hc
    have : ∃ a ∈ as, a = .projectReplace := by
      simp only [config] at hc
      rw [Option.getD_eq_iff] at hc
      rcases hc with hc | hc
      · obtain ⟨a, ha, hs⟩ := List.exists_of_findSome?_eq_some hc
        cases a <;> simp at hs
        exact ⟨_, ha, rfl⟩
      · simp at hc
    obtain ⟨a, ha, rfl⟩ := this
    exact ha
  · intro hm
    rw [config_perm (List.perm_cons_erase hm) h.noDup]
    rfl

theorem config_project_iff (as : List Arg) (n : String) (h : Acceptable as) :
    (config as).project = some n ↔ .project n ∈ as := by
  constructor
  · intro hc
    obtain ⟨a, ha, hs⟩ := List.exists_of_findSome?_eq_some hc
    cases a <;> simp at hs
    subst hs
    exact ha
  · intro hm
    rw [config_perm (List.perm_cons_erase hm) h.noDup]
    rfl

theorem config_projectRef_iff (as : List Arg) (n : String) (h : Acceptable as) :
    (config as).projectRef = some n ↔ .projectRef n ∈ as := by
  constructor
  · intro hc
    obtain ⟨a, ha, hs⟩ := List.exists_of_findSome?_eq_some hc
    cases a <;> simp at hs
    subst hs
    exact ha
  · intro hm
    rw [config_perm (List.perm_cons_erase hm) h.noDup]
    rfl

theorem config_named (as : List Arg) (n : String) (h : Acceptable as) :
    (config as).projectReplace = .named n ↔ .projectReplaceNamed n ∈ as := by
  constructor
  · intro hc
    have : ∃ a ∈ as, a = .projectReplaceNamed n := by
      simp only [config] at hc
      rw [Option.getD_eq_iff] at hc
      rcases hc with hc | hc
      · obtain ⟨a, ha, hs⟩ := List.exists_of_findSome?_eq_some hc
        cases a <;> simp at hs
        subst hs
        exact ⟨_, ha, rfl⟩
      · simp at hc
    obtain ⟨a, ha, rfl⟩ := this
    exact ha
  · intro hm
    rw [config_perm (List.perm_cons_erase hm) h.noDup]
    rfl

/-- **C07** The macro accepts `#[pin_project(ARGS)] item` exactly when: `ARGS` is an acceptable list of
arguments; none of the names in it is the name of the type; `#[repr]`s are well-formed and do not ask for
packing; `#[pin]` is used legally on every field; the item has an acceptable shape; and an enum does not use
`project_replace` without a name. -/
theorem C07_written_iff (args : List TT) (item : Item) (hw : Written args item) :
    (∃ E, parseDerive item = .ok E) ↔
      ∃ as, ArgsToks as args ∧ Acceptable as ∧
        (∀ n, itemName item = some n → n ∉ as.filterMap Arg.name?) ∧
        ReprsWellFormed (itemAttrs item) ∧ ¬ AsksForPacked (itemAttrs item) ∧
        (∀ f ∈ itemFields item, PinOk f.attrs) ∧
        ShapeOk item ∧ ReplaceNamedIn as item := by
  have hr : ∀ as, Acceptable as → (ReplaceNamedOnEnum (config as) item ↔ ReplaceNamedIn as item) := by
    intro as ha
    cases item <;> simp [ReplaceNamedOnEnum, ReplaceNamedIn, config_unnamed as ha]
  rw [C07_accepted_iff]
  constructor
  · rintro ⟨A, h1, h2, h3, h4, h5, h6, h7⟩
    obtain ⟨as, ha, hacc, rfl⟩ := (C05_config args item hw A).1 h1
    exact ⟨as, ha, hacc, fun n hn hc => h2 n hn ((config_names as hacc n).2 hc), h3, h4, h5, h6, (hr as hacc).1 h7⟩
  · rintro ⟨as, ha, hacc, h2, h3, h4, h5, h6, h7⟩
    exact ⟨config as, (C05_config args item hw _).2 ⟨as, ha, hacc, rfl⟩,
      fun n hn hc => h2 n hn ((config_names as hacc n).1 hc), h3, h4, h5, h6, (hr as hacc).2 h7⟩

example : Written [.ident "project", .punct '=' false, .ident "P"] (.enum_ demoEnum) := rfl

end PinProject
