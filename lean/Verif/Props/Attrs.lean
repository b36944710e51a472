import Verif.Spec.Attrs
import Verif.Props.Accept
/-!
# Attributes of other macros and tools: C51
-/
namespace PinProject
open Spec

theorem isAttr_eq (name : String) (a : Attribute) : isAttr name a = a.path.isIdent name := rfl

/-! ## Searching among the attributes -/

theorem find_filter {α} (l : List α) (k q : α → Bool) (h : ∀ a, q a = true → k a = true) :
    (l.filter k).find? q = l.find? q := by
  induction l with
  | nil => rfl
  | cons a l ih =>
    by_cases hk : k a
    · rw [List.filter_cons_of_pos hk, List.find?_cons, List.find?_cons, ih]
    · have hq : q a = false := by
        cases hq : q a with
        | false => rfl
        | true => exact absurd (h a hq) hk
      rw [List.filter_cons_of_neg hk, List.find?_cons, hq, ih]

theorem filter_filter_of_imp {α} (l : List α) (k q : α → Bool) (h : ∀ a, q a = true → k a = true) :
    (l.filter k).filter q = l.filter q := by
  rw [List.filter_filter]
  apply List.filter_congr
  intro a _
  cases hq : q a with
  | false => rfl
  | true => simp [h a hq]

theorem parseArgs_bare (l : List Attribute) : parseArgs (bareAttrs l) = parseArgs l := by
  unfold parseArgs findAttr bareAttrs
  rw [find_filter _ _ _ (fun a ha => by simp [isAttr_eq, ha]),
    filter_filter_of_imp _ _ _ (fun a ha => by simp [isAttr_eq, ha])]

theorem checkPacked_bare (b : Bool) (l : List Attribute) : checkPacked b (bareAttrs l) = checkPacked b l := by
  induction l with
  | nil => rfl
  | cons a l ih =>
    by_cases hr : isAttr "repr" a
    · have : bareAttrs (a :: l) = a :: bareAttrs l := by
        rw [bareAttrs, List.filter_cons_of_pos (by simp [hr])]; rfl
      rw [this]
      unfold checkPacked
      rw [ih]
    · have hskip : checkPacked b (a :: l) = checkPacked b l := by
        obtain ⟨m⟩ := a
        cases m with
        | path p => rfl
        | nameValue p v => rfl
        | list p d toks =>
          have hr' : p.isIdent "repr" = false := by simpa [isAttr_eq, Attribute.path, Meta.getPath] using hr
          simp [checkPacked, hr']
      rw [hskip]
      by_cases hk : isAttr "pin" a || isAttr "pin_project" a
      · have h1 : bareAttrs (a :: l) = a :: bareAttrs l := by
          rw [bareAttrs, List.filter_cons_of_pos (by simp [hk])]; rfl
        rw [h1]
        obtain ⟨m⟩ := a
        cases m with
        | path p => exact ih
        | nameValue p v => exact ih
        | list p d toks =>
          have hr' : p.isIdent "repr" = false := by simpa [isAttr_eq, Attribute.path, Meta.getPath] using hr
          simp [checkPacked, hr', ih]
      · have h1 : bareAttrs (a :: l) = bareAttrs l := by
          rw [bareAttrs, List.filter_cons_of_neg (by simp [hr] at hk ⊢; exact hk)]; rfl
        rw [h1, ih]

theorem positionExactFrom_filter (name : String) (l : List Attribute) (i j : Nat) (x y : Option Nat)
    (h : x.isSome = y.isSome) :
    (positionExactFrom name (l.filter (isAttr name)) i x).map Option.isSome =
      (positionExactFrom name l j y).map Option.isSome := by
  induction l generalizing i j x y with
  | nil => exact congrArg Except.ok h
  | cons a l ih =>
    by_cases hk : a.path.isIdent name
    · rw [List.filter_cons_of_pos (by rw [isAttr_eq, hk])]
      simp only [positionExactFrom, hk, if_true, h]
      split
      · rfl
      · cases a.m.requirePathOnly with
        | error e => rfl
        | ok u => exact ih _ _ _ _ rfl
    · rw [List.filter_cons_of_neg (by rw [isAttr_eq]; exact hk)]
      rw [show positionExactFrom name (a :: l) j y = positionExactFrom name l (j + 1) y by
        simp [positionExactFrom, hk]]
      exact ih _ _ _ _ h

/-! ## The fields -/

theorem visitField_bare (cx : Ctx) (at_ : List Attribute) (a : FieldAcc) (i : Nat) (f : Field) :
    visitField { cx with attrs := at_ } a i (bareField f) = visitField cx a i f := by
  have h := positionExactFrom_filter "pin" f.attrs 0 0 none none rfl
  unfold visitField
  show (positionExact (f.attrs.filter (isAttr "pin")) "pin" >>= _) = (positionExact f.attrs "pin" >>= _)
  unfold positionExact
  cases h1 : positionExactFrom "pin" (f.attrs.filter (isAttr "pin")) 0 none with
  | error e =>
    cases h2 : positionExactFrom "pin" f.attrs 0 none with
    | error e' => rw [h1, h2] at h; exact congrArg Except.error (Except.error.inj h)
    | ok x => rw [h1, h2] at h; cases h
  | ok x =>
    cases h2 : positionExactFrom "pin" f.attrs 0 none with
    | error e' => rw [h1, h2] at h; cases h
    | ok y =>
      rw [h1, h2] at h
      have hxy : x.isSome = y.isSome := Except.ok.inj h
      show (if x.isSome = true then _ else _) = (if y.isSome = true then _ else _)
      rw [hxy]
      rfl

theorem visitFieldsLoop_bare (cx : Ctx) (at_ : List Attribute) (l : List Field) (a : FieldAcc) (i : Nat) :
    visitFieldsLoop { cx with attrs := at_ } a i (l.map bareField) = visitFieldsLoop cx a i l := by
  induction l generalizing a i with
  | nil => rfl
  | cons f l ih =>
    rw [List.map_cons, visitFieldsLoop, visitFieldsLoop, visitField_bare]
    cases visitField cx a i f with
    | error e => rfl
    | ok a' => exact ih a' (i + 1)

theorem bareFields_list (fs : Fields) : (bareFields fs).list = fs.list.map bareField := by cases fs <;> rfl

theorem visitFields_bare (cx : Ctx) (at_ : List Attribute) (v : Option String) (fs : Fields) (d : Delim) :
    visitFields { cx with attrs := at_ } v (bareFields fs) d = visitFields cx v fs d := by
  unfold visitFields
  rw [bareFields_list, visitFieldsLoop_bare]
  rfl

theorem visitFieldsOf_bare (cx : Ctx) (at_ : List Attribute) (v : Option String) (fs : Fields) :
    visitFieldsOf { cx with attrs := at_ } v (bareFields fs) = visitFieldsOf cx v fs := by
  cases fs with
  | named l => exact visitFields_bare cx at_ v (.named l) .brace
  | unnamed l => exact visitFields_bare cx at_ v (.unnamed l) .paren
  | unit => rfl

theorem visitVariants_bare (cx : Ctx) (at_ : List Attribute) (vs : List Variant) (a : ProjectedVariants) :
    visitVariants { cx with attrs := at_ } a (vs.map bareVariant) = visitVariants cx a vs := by
  induction vs generalizing a with
  | nil => rfl
  | cons v vs ih =>
    rw [List.map_cons, visitVariants, visitVariants]
    show (visitFieldsOf { cx with attrs := at_ } (some v.ident) (bareFields v.fields) >>= _) = _
    rw [visitFieldsOf_bare]
    cases visitFieldsOf cx (some v.ident) v.fields with
    | error e => rfl
    | ok r =>
      obtain ⟨pf, tys⟩ := r
      exact ih _

theorem fieldRefs_bare (fs : Fields) : fieldRefs (bareFields fs) = fieldRefs fs := by
  cases fs <;> simp [fieldRefs, bareFields, Function.comp_def, bareField]

theorem validateStruct_bare (fs : Fields) : validateStruct (bareFields fs) = validateStruct fs := by
  simp [validateStruct, bareFields_list]

theorem enumHasField_bare (vs : List Variant) (b : Bool) :
    enumHasField (vs.map bareVariant) b = enumHasField vs b := by
  induction vs generalizing b with
  | nil => rfl
  | cons v vs ih =>
    rw [List.map_cons, enumHasField, enumHasField]
    have h1 : findAttr (bareVariant v).attrs "pin" = findAttr v.attrs "pin" := by
      unfold findAttr bareVariant
      exact find_filter _ _ _ (fun a ha => by rw [isAttr_eq, ha])
    have h2 : (bareVariant v).fields.list.isEmpty = v.fields.list.isEmpty := by
      simp [bareVariant, bareFields_list]
    rw [h1, h2, ih, ih]
    rfl

theorem validateEnum_bare (vs : List Variant) : validateEnum (vs.map bareVariant) = validateEnum vs := by
  unfold validateEnum
  rw [enumHasField_bare]
  simp

/-! ## The items -/

theorem parseStruct_bare (cx : Ctx) (fs : Fields) :
    parseStruct { cx with attrs := bareAttrs cx.attrs } (bareFields fs) = parseStruct cx fs := by
  unfold parseStruct ensureNotPacked
  simp only [checkPacked_bare, validateStruct_bare, fieldRefs_bare]
  have h : visitStructFields { cx with attrs := bareAttrs cx.attrs } (bareFields fs) = visitStructFields cx fs := by
    cases fs with
    | named l => exact visitFieldsOf_bare cx _ none (.named l)
    | unnamed l => exact visitFieldsOf_bare cx _ none (.unnamed l)
    | unit => rfl
  rw [h]
  rfl

theorem parseEnum_bare (cx : Ctx) (vs : List Variant) :
    parseEnum { cx with attrs := bareAttrs cx.attrs } (vs.map bareVariant) = parseEnum cx vs := by
  unfold parseEnum ensureNotPacked
  simp only [checkPacked_bare, validateEnum_bare, visitVariants_bare]
  rfl

theorem ctxNew_bare (l : List Attribute) (vis : Vis) (ident : String) (g : Generics) (k : TypeKind) :
    Ctx.new (bareAttrs l) vis ident g k =
      (Ctx.new l vis ident g k).map (fun cx => { cx with attrs := bareAttrs cx.attrs }) := by
  unfold Ctx.new
  rw [parseArgs_bare]
  cases parseArgs l with
  | error e => rfl
  | ok A =>
    show (if _ then _ else _) = Except.map _ (if _ then _ else _)
    split <;> rfl

theorem bareFields_visit (s : SelfTy) (fs : Fields) : (bareFields fs).visit s = bareFields (fs.visit s) := by
  cases fs <;> simp [bareFields, Fields.visit, Function.comp_def, bareField, Field.visit]

/-- **C51** Attributes other than `#[pin]`, and `#[pin_project]` and `#[repr]` on the item itself, have no
influence on whether an item is accepted and on what is generated for it: the result is the same for
the item from which all of them were removed. -/
theorem C51_other_attributes (item : Item) : parseDerive (bare item) = parseDerive item := by
  cases item with
  | other l => rfl
  | struct_ s =>
    show deriveStruct _ = deriveStruct s
    unfold deriveStruct
    simp only [ItemStruct.visit, ctxNew_bare, bareFields_visit]
    cases h : Ctx.new s.attrs s.vis.visit s.ident (s.generics.visit (mkSelfTy s.ident s.generics.tyGenerics)) .struct_ with
    | error e => rfl
    | ok cx =>
      show (parseStruct _ (bareFields _) >>= _) = (parseStruct cx _ >>= _)
      rw [parseStruct_bare]
      rfl
  | enum_ e =>
    show deriveEnum _ = deriveEnum e
    unfold deriveEnum
    have hv : ∀ s : SelfTy, (e.variants.map bareVariant).map (Variant.visit s) =
        (e.variants.map (Variant.visit s)).map bareVariant := by
      intro s
      simp only [List.map_map]
      apply List.map_congr_left
      intro v _
      simp [bareVariant, Variant.visit, bareFields_visit]
    simp only [ItemEnum.visit, ctxNew_bare, hv]
    cases h : Ctx.new e.attrs e.vis.visit e.ident (e.generics.visit (mkSelfTy e.ident e.generics.tyGenerics)) .enum_ with
    | error e => rfl
    | ok cx =>
      show (parseEnum _ (List.map bareVariant _) >>= _) = (parseEnum cx _ >>= _)
      rw [parseEnum_bare]
      rfl

/-- **C51** Two items that differ in such attributes only have the same expansion. -/
theorem C51_same_expansion (i j : Item) (h : bare i = bare j) : parseDerive i = parseDerive j := by
  rw [← C51_other_attributes i, h, C51_other_attributes]

/-- `demoStruct` with `#[derive(Debug)]`, `#[doc = ".."]` on the first field and `#[other::pin]` on the
second. -/
def demoAttrs : ItemStruct :=
  { demoStruct with
    attrs := ⟨.list { segs := ["derive"] } .paren [.ident "Debug"]⟩ :: demoStruct.attrs
    fields := .named [
      { attrs := [⟨.nameValue { segs := ["doc"] } [.lit "a field"]⟩, ⟨.path { segs := ["pin"] }⟩], vis := .pub,
        ident := some "a", ty := .tyIdent "T" },
      { attrs := [⟨.path { segs := ["other", "pin"] }⟩], ident := some "b", ty := .tyIdent "U" }] }

example : bare (.struct_ demoAttrs) = bare (.struct_ demoStruct) := rfl
example : (parseDerive (.struct_ demoAttrs)).toOption.isSome = true := rfl
/-- The attributes that are kept do matter. -/
example : ∃ s : ItemStruct, s.fields.list.map (·.ident) = demoStruct.fields.list.map (·.ident) ∧
    bare (.struct_ s) ≠ bare (.struct_ demoStruct) ∧
    (parseDerive (.struct_ s)).toOption.isSome = false :=
  ⟨{ demoStruct with attrs := ⟨.list { segs := ["repr"] } .paren [.ident "packed"]⟩ :: demoStruct.attrs },
    rfl, by intro h; simp [bare, bareAttrs, demoStruct, isAttr, Attribute.path, Meta.getPath, pinPrivateAttr] at h, rfl⟩

/-! ## C08: other `#[repr(..)]` -/

theorem parseArgs_withoutRepr (l : List Attribute) : parseArgs (l.filter (fun a => !isAttr "repr" a)) = parseArgs l := by
  have key : ∀ n : String, n ≠ "repr" → ∀ a : Attribute, a.path.isIdent n = true → (!isAttr "repr" a) = true := by
    intro n hn a ha
    simp only [SPath.isIdent, Bool.and_eq_true, Bool.not_eq_true', beq_iff_eq] at ha
    simp only [isAttr, ha.1, ha.2, Bool.not_false, Bool.true_and, Bool.not_eq_true', beq_eq_false_iff_ne, ne_eq, List.cons.injEq, and_true]
    exact hn
  unfold parseArgs findAttr
  rw [find_filter _ _ _ (key "pin_project" (by decide)), filter_filter_of_imp _ _ _ (key "pin" (by decide))]

theorem checkPacked_withoutRepr (b : Bool) (l : List Attribute) :
    checkPacked b (l.filter (fun a => !isAttr "repr" a)) = .ok () := by
  induction l with
  | nil => rfl
  | cons a l ih =>
    by_cases hr : isAttr "repr" a
    · rw [List.filter_cons_of_neg (by simp [hr])]
      exact ih
    · rw [List.filter_cons_of_pos (by simp [hr])]
      obtain ⟨m⟩ := a
      cases m with
      | path p => exact ih
      | nameValue p v => exact ih
      | list p d toks =>
        have hr' : p.isIdent "repr" = false := by simpa [isAttr_eq, Attribute.path, Meta.getPath] using hr
        simp [checkPacked, hr', ih]

theorem ctxNew_withoutRepr (l : List Attribute) (vis : Vis) (ident : String) (g : Generics) (k : TypeKind) :
    Ctx.new (l.filter (fun a => !isAttr "repr" a)) vis ident g k =
      (Ctx.new l vis ident g k).map (fun cx => { cx with attrs := l.filter (fun a => !isAttr "repr" a) }) := by
  unfold Ctx.new
  rw [parseArgs_withoutRepr]
  cases parseArgs l with
  | error e => rfl
  | ok A =>
    show (if _ then _ else _) = Except.map _ (if _ then _ else _)
    split <;> rfl

theorem ctxNew_attrs {l : List Attribute} {vis : Vis} {ident : String} {g : Generics} {k : TypeKind} {cx : Ctx}
    (h : Ctx.new l vis ident g k = .ok cx) : cx.attrs = l := by
  unfold Ctx.new at h
  cases hp : parseArgs l with
  | error e => rw [hp] at h; cases h
  | ok A =>
    rw [hp] at h
    change (if _ then _ else _) = _ at h
    split at h <;> cases h
    rfl

theorem visitFieldsLoop_attrs (cx : Ctx) (at_ : List Attribute) (l : List Field) (a : FieldAcc) (i : Nat) :
    visitFieldsLoop { cx with attrs := at_ } a i l = visitFieldsLoop cx a i l := by
  induction l generalizing a i with
  | nil => rfl
  | cons f l ih =>
    rw [visitFieldsLoop, visitFieldsLoop]
    show (visitField cx a i f >>= _) = _
    cases visitField cx a i f with
    | error e => rfl
    | ok a' => exact ih a' (i + 1)

theorem visitFieldsOf_attrs (cx : Ctx) (at_ : List Attribute) (v : Option String) (fs : Fields) :
    visitFieldsOf { cx with attrs := at_ } v fs = visitFieldsOf cx v fs := by
  unfold visitFieldsOf
  cases fs <;> first | rfl | (unfold visitFields; simp only [visitFieldsLoop_attrs]; rfl)

theorem visitVariants_attrs (cx : Ctx) (at_ : List Attribute) (vs : List Variant) (a : ProjectedVariants) :
    visitVariants { cx with attrs := at_ } a vs = visitVariants cx a vs := by
  induction vs generalizing a with
  | nil => rfl
  | cons v vs ih =>
    rw [visitVariants, visitVariants, visitFieldsOf_attrs]
    cases visitFieldsOf cx (some v.ident) v.fields with
    | error e => rfl
    | ok r =>
      obtain ⟨pf, tys⟩ := r
      exact ih _

theorem parseStruct_attrs (cx : Ctx) (at_ : List Attribute) (fs : Fields) (h1 : checkPacked true cx.attrs = .ok ())
    (h2 : checkPacked true at_ = .ok ()) : parseStruct { cx with attrs := at_ } fs = parseStruct cx fs := by
  unfold parseStruct ensureNotPacked
  have h : visitStructFields { cx with attrs := at_ } fs = visitStructFields cx fs := by
    cases fs with
    | named l => exact visitFieldsOf_attrs cx _ none (.named l)
    | unnamed l => exact visitFieldsOf_attrs cx _ none (.unnamed l)
    | unit => rfl
  simp only [Option.isSome_some, h1, h2, h]
  rfl

theorem parseEnum_attrs (cx : Ctx) (at_ : List Attribute) (vs : List Variant) (h1 : checkPacked false cx.attrs = .ok ())
    (h2 : checkPacked false at_ = .ok ()) : parseEnum { cx with attrs := at_ } vs = parseEnum cx vs := by
  unfold parseEnum ensureNotPacked
  simp only [Option.isSome_none, h1, h2, visitVariants_attrs]
  rfl

/-- **C08** Packing is the only thing refused: a `#[repr(..)]` that does not ask for it has no influence on what is
generated, or on the error if there is one. -/
theorem C08_other_repr_ignored (item : Item) (hr : ReprsWellFormed (itemAttrs item)) (hp : ¬ AsksForPacked (itemAttrs item)) :
    parseDerive (withoutRepr item) = parseDerive item := by
  cases item with
  | other l => rfl
  | struct_ s =>
    show deriveStruct _ = deriveStruct s
    unfold deriveStruct
    simp only [ItemStruct.visit, ctxNew_withoutRepr]
    cases h : Ctx.new s.attrs s.vis.visit s.ident (s.generics.visit (mkSelfTy s.ident s.generics.tyGenerics)) .struct_ with
    | error e => rfl
    | ok cx =>
      show (parseStruct _ _ >>= _) = (parseStruct cx _ >>= _)
      rw [parseStruct_attrs cx _ _ (by rw [ctxNew_attrs h]; exact checkPacked_iff.2 ⟨hr, hp⟩) (checkPacked_withoutRepr _ _)]
      rfl
  | enum_ e =>
    show deriveEnum _ = deriveEnum e
    unfold deriveEnum
    simp only [ItemEnum.visit, ctxNew_withoutRepr]
    cases h : Ctx.new e.attrs e.vis.visit e.ident (e.generics.visit (mkSelfTy e.ident e.generics.tyGenerics)) .enum_ with
    | error e => rfl
    | ok cx =>
      show (parseEnum _ _ >>= _) = (parseEnum cx _ >>= _)
      rw [parseEnum_attrs cx _ _ (by rw [ctxNew_attrs h]; exact checkPacked_iff.2 ⟨hr, hp⟩) (checkPacked_withoutRepr _ _)]
      rfl

/-- `demoStruct` with `#[repr(C, align(8))]`. -/
def demoRepr : ItemStruct := { demoStruct with
  attrs := ⟨.list { segs := ["repr"] } .paren [.ident "C", .punct ',' false, .ident "align", .group .paren [.lit "8"]]⟩ :: demoStruct.attrs }

example : parseDerive (.struct_ demoRepr) = parseDerive (.struct_ demoStruct) :=
  (C08_other_repr_ignored (.struct_ demoRepr) (checkPacked_iff (b := true).1 rfl).1 (checkPacked_iff (b := true).1 rfl).2).symm.trans rfl

end PinProject
