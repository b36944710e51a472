import Verif.Spec.Errors
import Verif.Model.Locate
/-!
# Specification: where errors are shown

For each message, the piece of the user's input it points to: the one at fault. This is `Spec/Errors` with places.
-/
namespace PinProject.Spec
open Locate (Shown Place RawPlace DropPlace)

/-- The error is shown from the first to the last of these tokens. -/
inductive ShownAt {σ : Type} (piece : List (TT × σ)) : Shown σ → Prop
  | mk {x y : TT × σ} : piece.head? = some x → piece.getLast? = some y → ShownAt piece (.range x.2 y.2)

/-! ## The arguments of `#[pin_project(..)]` -/

/-- `ArgShown before rest msg piece`: after the arguments `before`, the tokens `rest` do not begin with a further
argument; `msg` says why, and is shown at `piece`. -/
inductive ArgShown {σ : Type} (before : List Arg) : List (TT × σ) → String → List (TT × σ) → Prop
  /-- the name without a value -/
  | noValue {k : Kind} {p : σ} : k ∈ [.project, .projectRef] →
      ArgShown before [(.ident k.text, p)] s!"expected `{k.text} = <identifier>`, found `{k.text}`"
        [(.ident k.text, p)]
  /-- the name and the `=` -/
  | noName {k : Kind} {j : Bool} {p q : σ} : k ∈ [.project, .projectRef, .projectReplace] →
      ArgShown before [(.ident k.text, p), (.punct '=' j, q)]
        s!"expected `{k.text} = <identifier>`, found `{k.text} =`" [(.ident k.text, p), (.punct '=' j, q)]
  /-- the second one of two arguments of the same kind, with its value -/
  | duplicate {a : Arg} {ts more : List (TT × σ)} : ArgToks a (ts.map (·.1)) → a.kind ∈ before.map Arg.kind →
      (a = .projectReplace → ∀ t us, more = t :: us → ¬ IsPunct '=' t.1) →
      ArgShown before (ts ++ more) s!"duplicate `{a.kind.text}` argument" ts
  | bang {j : Bool} {p : σ} : ArgShown before [(.punct '!' j, p)] "expected `!Unpin`, found `!`" [(.punct '!' j, p)]
  /-- the word -/
  | replace {p : σ} {more : List (TT × σ)} : ArgShown before ((.ident "Replace", p) :: more)
      "`Replace` argument was removed, use `project_replace` argument instead" [(.ident "Replace", p)]
  | unknown {s : String} {p : σ} {more : List (TT × σ)} : s ≠ "Replace" → (∀ k : Kind, k ≠ .notUnpin → s ≠ k.text) →
      ArgShown before ((.ident s, p) :: more) s!"unexpected argument: {s}" [(.ident s, p)]
  -- The remaining messages are those of `syn`, shown at the unexpected token.
  | bangOther {j : Bool} {t : TT} {p q : σ} {more : List (TT × σ)} : t ≠ .ident "Unpin" →
      ArgShown before ((.punct '!' j, p) :: (t, q) :: more) "expected `Unpin`" [(t, q)]
  | noEquals {k : Kind} {t : TT} {p q : σ} {more : List (TT × σ)} : k ∈ [.project, .projectRef] → ¬ IsPunct '=' t →
      ArgShown before ((.ident k.text, p) :: (t, q) :: more) "expected `=`" [(t, q)]
  | noComma {a : Arg} {ts : List (TT × σ)} {t : TT} {p : σ} {more : List (TT × σ)} : ArgToks a (ts.map (·.1)) →
      ¬ IsPunct ',' t → (a = .projectReplace → ¬ IsPunct '=' t) →
      ArgShown before (ts ++ (t, p) :: more) "expected `,`" [(t, p)]
  | noWord {t : TT} {p : σ} {more : List (TT × σ)} : ¬ IsWordTok t → ¬ IsPunct '!' t →
      ArgShown before ((t, p) :: more) "expected identifier" [(t, p)]
  | keyword {s : String} {p : σ} {more : List (TT × σ)} : ¬ Identifier s →
      ArgShown before ((.ident s, p) :: more) s!"expected identifier, found keyword `{s}`" [(.ident s, p)]
  | valueNoWord {k : Kind} {j : Bool} {t : TT} {p q r : σ} {more : List (TT × σ)} :
      k ∈ [.project, .projectRef, .projectReplace] → ¬ IsWordTok t →
      ArgShown before ((.ident k.text, p) :: (.punct '=' j, q) :: (t, r) :: more) "expected identifier" [(t, r)]
  | valueKeyword {k : Kind} {j : Bool} {s : String} {p q r : σ} {more : List (TT × σ)} :
      k ∈ [.project, .projectRef, .projectReplace] → ¬ Identifier s →
      ArgShown before ((.ident k.text, p) :: (.punct '=' j, q) :: (.ident s, r) :: more)
        s!"expected identifier, found keyword `{s}`" [(.ident s, r)]

/-- A comma separated argument list, and the tokens each of the arguments consists of. -/
inductive ArgPieces {σ : Type} : List (Arg × List (TT × σ)) → List (TT × σ) → Prop
  | nil : ArgPieces [] []
  | last {a : Arg} {ts : List (TT × σ)} : ArgToks a (ts.map (·.1)) → ArgPieces [(a, ts)] ts
  | cons {a : Arg} {as : List (Arg × List (TT × σ))} {ts us : List (TT × σ)} (j : Bool) (p : σ) :
      ArgToks a (ts.map (·.1)) → ArgPieces as us → ArgPieces ((a, ts) :: as) (ts ++ (.punct ',' j, p) :: us)

/-- The arguments are well written and none is repeated, but they do not go together: which of them is shown. Of
`name = value`, the value is the third token. -/
inductive ListShown {σ : Type} (as : List (Arg × List (TT × σ))) : String → List (TT × σ) → Prop
  | projectRef {n : String} {ts us : List (TT × σ)} : (.project n, ts) ∈ as → (.projectRef n, us) ∈ as →
      ListShown as s!"name `{n}` is already specified by `project` argument" (us.drop 2)
  | projectReplace {n : String} {ts us : List (TT × σ)} : (.project n, ts) ∈ as → (.projectReplaceNamed n, us) ∈ as →
      ListShown as s!"name `{n}` is already specified by `project` argument" (us.drop 2)
  | refReplace {n : String} {ts us : List (TT × σ)} : (.projectRef n, ts) ∈ as → (.projectReplaceNamed n, us) ∈ as →
      ListShown as s!"name `{n}` is already specified by `project_ref` argument" (us.drop 2)
  | dropReplace {ts : List (TT × σ)} : (.pinnedDrop, ts) ∈ as → Kind.projectReplace ∈ as.map (·.1.kind) →
      ListShown as "arguments `PinnedDrop` and `project_replace` are mutually exclusive" ts
  | unpin {ts us : List (TT × σ)} : (.unsafeUnpin, ts) ∈ as → (.notUnpin, us) ∈ as →
      ListShown as "arguments `UnsafeUnpin` and `!Unpin` are mutually exclusive" ts

/-- The argument list `toks` is rejected with `msg`, shown at `s`. -/
inductive ArgsShown {σ : Type} (toks : List (TT × σ)) (msg : String) (s : Shown σ) : Prop
  | at_ {before : List Arg} {front rest piece : List (TT × σ)} : toks = front ++ rest →
      ArgsBefore before (front.map (·.1)) → (before.map Arg.kind).Nodup → ArgShown before rest msg piece →
      ShownAt piece s → ArgsShown toks msg s
  | whole {as : List (Arg × List (TT × σ))} {piece : List (TT × σ)} : ArgPieces as toks →
      (as.map (·.1.kind)).Nodup → ListShown as msg piece → ShownAt piece s → ArgsShown toks msg s

/-! ## The item under `#[pin_project]` -/

/-- The first attribute with the property is the one at position `i`. -/
def FirstAttr (attrs : List Attribute) (p : Attribute → Bool) (i : Nat) : Prop :=
  (∃ a, attrs[i]? = some a ∧ p a = true) ∧ ∀ j, j < i → ∀ a, attrs[j]? = some a → p a = false

/-- The second attribute with the property is the one at position `j`, the first one at `i`. -/
def SecondAttr (attrs : List Attribute) (p : Attribute → Bool) (i j : Nat) : Prop :=
  FirstAttr attrs p i ∧ i < j ∧ (∃ a, attrs[j]? = some a ∧ p a = true) ∧
    ∀ k, i < k → k < j → ∀ a, attrs[k]? = some a → p a = false

/-- `AttributeShown i msg s`: the attribute stage rejects the item `i` with `msg`, shown at `s`. -/
inductive AttributeShown (i : RawInput) : String → Shown RawPlace → Prop
  /-- the item without its attributes -/
  | notType : ¬ StructOrEnum i.body → i.body ≠ [] →
      AttributeShown i "#[pin_project] attribute may only be used on structs or enums" (.one .body)
  | nothing : i.body = [] →
      AttributeShown i "#[pin_project] attribute may only be used on structs or enums" .callSite
  | pin {j : Nat} : FirstAttr i.attrs isPinAttr j →
      AttributeShown i "#[pin] attribute may only be used on fields of structs or variants" (.one (.attr j))
  | twice {j : Nat} : FirstAttr i.attrs isPinProjectAttr j →
      AttributeShown i "duplicate #[pin_project] attribute" (.one (.attr j))
  | badVis {ts more : List TT} {msg : String} :
      i.body = .ident "pub" :: .group .paren (.ident "in" :: ts) :: more → ¬ ModPath ts →
      msg ∈ ["expected identifier", "unexpected token"] → AttributeShown i msg (.one .inVis)

/-- An attribute written by the attribute stage, with the arguments of the user. -/
def CarriedArgs (a : Attribute) (args : List TT) : Prop :=
  ∃ p d, a.m = .list p d [.ident "__private", .group .paren args]

/-- The fields of the struct (`v = none`) or of a variant. -/
def fieldsOf : Item → Option Nat → List Field
  | .struct_ s, none => s.fields.list
  | .enum_ e, some v => ((e.variants[v]?).map (·.fields.list)).getD []
  | _, _ => []

/-- The tokens of the arguments of `#[pin_project(..)]`, numbered. -/
def numbered (ts : List TT) : List (TT × Place) := ts.mapIdx (fun i t => (t, .arg i))

/-- The argument `j` of the `#[repr(..)]` attribute `i`. -/
def ReprArg (attrs : List Attribute) (i j : Nat) (m : Meta) : Prop :=
  ∃ a ts ms, attrs[i]? = some a ∧ reprArgs a = some ts ∧ MetasToks ms ts ∧ ms[j]? = some m

/-- `DeriveShown item msg s`: the derive stage rejects the item with `msg`, shown at `s`. -/
inductive DeriveShown (item : Item) : String → Shown Place → Prop
  | notType {attrs : List Attribute} : item = .other attrs →
      DeriveShown item "#[pin_project] attribute may only be used on structs or enums" (.one .item)
  -- Attributes of the item.
  | twice {i : Nat} : FirstAttr (itemAttrs item) isPinProjectAttr i →
      DeriveShown item "duplicate #[pin_project] attribute" (.one (.attr i))
  | removed : (∀ a ∈ itemAttrs item, isPinAttr a = false) →
      DeriveShown item "#[pin_project] attribute has been removed" .callSite
  /-- The attribute shown is the one that the attribute stage has not written: the second one, if the first one has
  its form ... -/
  | pinAfter {i j : Nat} {a : Attribute} {args : List TT} : SecondAttr (itemAttrs item) isPinAttr i j →
      (itemAttrs item)[i]? = some a → CarriedArgs a args →
      DeriveShown item "duplicate #[pin] attribute" (.one (.attr j))
  /-- ... and the first one, if not. -/
  | pinBefore {i j : Nat} {a : Attribute} : SecondAttr (itemAttrs item) isPinAttr i j →
      (itemAttrs item)[i]? = some a → (∀ args, ¬ CarriedArgs a args) →
      DeriveShown item "duplicate #[pin] attribute" (.one (.attr i))
  | noList {i : Nat} {a : Attribute} : (itemAttrs item)[i]? = some a → isPinAttr a = true →
      (∀ p d ts, a.m ≠ .list p d ts) →
      DeriveShown item "expected attribute arguments in parentheses" (.one (.inAttr i))
  | notOurs {i : Nat} {a : Attribute} : (itemAttrs item)[i]? = some a → isPinAttr a = true →
      (∀ args, ¬ CarriedArgs a args) → DeriveShown item "unexpected token" (.one (.inAttr i))
  -- Arguments.
  | args {a : Attribute} {ts : List TT} {msg : String} {s : Shown Place} :
      (itemAttrs item).filter isPinAttr = [a] → CarriedArgs a ts → ArgsShown (numbered ts) msg s →
      DeriveShown item msg s
  /-- the name given in the argument -/
  | ownName {a : Attribute} {ts : List TT} {as : List (Arg × List (TT × Place))} {x : Arg}
      {us : List (TT × Place)} {n : String} {s : Shown Place} :
      (itemAttrs item).filter isPinAttr = [a] → CarriedArgs a ts → ArgPieces as (numbered ts) → (x, us) ∈ as →
      x.name? = some n → itemName item = some n → ShownAt (us.drop 2) s →
      DeriveShown item s!"name `{n}` is the same as the original type name" s
  | replaceUnnamed {e : ItemEnum} {a : Attribute} {ts : List TT} {as : List (Arg × List (TT × Place))}
      {us : List (TT × Place)} {s : Shown Place} : item = .enum_ e →
      e.attrs.filter isPinAttr = [a] → CarriedArgs a ts → ArgPieces as (numbered ts) →
      (.projectReplace, us) ∈ as → ShownAt us s →
      DeriveShown item "`project_replace` argument requires a value when used on enums" s
  -- `#[repr(..)]`.
  | reprSyntax {i : Nat} {a : Attribute} {ts : List TT} {msg : String} : (itemAttrs item)[i]? = some a →
      reprArgs a = some ts → (¬ ∃ ms, MetasToks ms ts) → msg ∈ synMessages →
      DeriveShown item msg (.one (.inAttr i))
  | packedEnum {e : ItemEnum} {i j : Nat} {m : Meta} : item = .enum_ e → ReprArg e.attrs i j m → isPacked m = true →
      DeriveShown item "#[repr(packed)] attribute should be applied to a struct or union" (.one (.repr i j))
  | packedValue {s : ItemStruct} {i j : Nat} {v : List TT} : item = .struct_ s →
      ReprArg s.attrs i j (.nameValue { leading := false, segs := ["packed"] } v) →
      DeriveShown item "#[repr(packed)] attribute should not be name-value pair" (.one (.repr i j))
  | packed {s : ItemStruct} {i j : Nat} {m : Meta} : item = .struct_ s → ReprArg s.attrs i j m → isPacked m = true →
      DeriveShown item "#[pin_project] attribute may not be used on #[repr(packed)] types" (.one (.repr i j))
  -- Fields and variants.
  | unit {s : ItemStruct} : item = .struct_ s → s.fields = .unit →
      DeriveShown item "#[pin_project] attribute may not be used on structs with zero fields" (.one .name)
  | noFields {s : ItemStruct} : item = .struct_ s → s.fields = .named [] ∨ s.fields = .unnamed [] →
      DeriveShown item "#[pin_project] attribute may not be used on structs with zero fields" (.one .fields)
  | noVariants {e : ItemEnum} : item = .enum_ e → e.variants = [] →
      DeriveShown item "#[pin_project] attribute may not be used on enums without variants" (.one .braces)
  | noVariantFields {e : ItemEnum} : item = .enum_ e → (∀ v ∈ e.variants, v.fields.list = []) →
      DeriveShown item "#[pin_project] attribute may not be used on enums with zero fields" (.one .variants)
  | discriminant {e : ItemEnum} {k : Nat} {v : Variant} {n : Node} : item = .enum_ e → e.variants[k]? = some v →
      v.discriminant = some n →
      DeriveShown item "#[pin_project] attribute may not be used on enums with discriminants" (.one (.discriminant k))
  | pinOnVariant {e : ItemEnum} {k i : Nat} {v : Variant} : item = .enum_ e → e.variants[k]? = some v →
      FirstAttr v.attrs isPinAttr i →
      DeriveShown item "#[pin] attribute may only be used on fields of structs or variants" (.one (.variantAttr k i))
  /-- the second one of the attributes -/
  | fieldPinTwice {v : Option Nat} {k i j : Nat} {f : Field} : (fieldsOf item v)[k]? = some f →
      SecondAttr f.attrs isPinAttr i j →
      DeriveShown item "duplicate #[pin] attribute" (.one (.fieldAttr v k j))
  | fieldPinArgs {v : Option Nat} {k i : Nat} {f : Field} {a : Attribute} : (fieldsOf item v)[k]? = some f →
      f.attrs[i]? = some a → isPinAttr a = true → (∀ p, a.m ≠ .path p) →
      DeriveShown item "unexpected token in attribute" (.one (.inFieldAttr v k i))

/-! ## `#[pinned_drop]` -/

/-- The signature of the method at position `i` of the impl is wrong. -/
inductive SigShown (sig : Signature) (i : Nat) : String → Shown DropPlace → Prop
  | name : sig.ident ≠ "drop" →
      SigShown sig i s!"method `{sig.ident}` is not a member of trait `PinnedDrop`" (.one (.name i))
  | output {ty : Node} : sig.output = some ty → ty ≠ .other "tuple" [] →
      SigShown sig i "method `drop` must return the unit type" (.one (.output i))
  | noParams : sig.inputs = [] →
      SigShown sig i "method `drop` must take an argument `self: Pin<&mut Self>`" (.one (.parens i))
  | manyParams : 2 ≤ sig.inputs.length →
      SigShown sig i "method `drop` must take an argument `self: Pin<&mut Self>`" (.one (.params i))
  | param {p : FnArg} : sig.inputs = [p] → (∀ isMut short ty, p = .receiver isMut short ty → ¬ IsPinMutSelf ty) →
      SigShown sig i "method `drop` must take an argument `self: Pin<&mut Self>`" (.one (.param i))
  | unsafe_ : sig.isUnsafe = true →
      SigShown sig i "implementing the method `drop` is not unsafe" (.one (.unsafeFn i))

/-- `#[pinned_drop(args)] item` is rejected with a message, shown at the given place. -/
inductive PinnedDropShown (args : List TT) (item : ItemImpl) : String → Shown DropPlace → Prop
  | args : args ≠ [] → PinnedDropShown args item "unexpected argument" (.one .args)
  | twice {i : Nat} : FirstAttr (item.attrs ++ item.innerAttrs) (fun a => a.path.isIdent "pinned_drop") i →
      PinnedDropShown args item "duplicate #[pinned_drop] attribute" (.one (.attr i))
  | otherTrait {negative : Bool} {p : Path} : item.trait_ = some (negative, p) →
      p ≠ .mk false [.mk "PinnedDrop" .none] →
      PinnedDropShown args item
        "#[pinned_drop] may only be used on implementation for the `PinnedDrop` trait" (.one .traitPath)
  | noTrait : item.trait_ = none →
      PinnedDropShown args item
        "#[pinned_drop] may only be used on implementation for the `PinnedDrop` trait" (.one .selfTy)
  | unsafe_ : item.isUnsafe = true →
      PinnedDropShown args item "implementing the trait `PinnedDrop` is not unsafe" (.one .unsafe_)
  | noItems : item.items = [] →
      PinnedDropShown args item "not all trait items implemented, missing: `drop`" (.one .item)
  | selfTy : (¬ ∃ q p, item.selfTy = .tyPath q p) →
      PinnedDropShown args item "implementing the trait `PinnedDrop` on this type is unsupported" (.one .selfTy)
  | const {i : Nat} {n : String} : item.items[i]? = some (.const n) →
      PinnedDropShown args item s!"const `{n}` is not a member of trait `PinnedDrop`" (.one (.member i))
  | type {i : Nat} {n : String} : item.items[i]? = some (.type n) →
      PinnedDropShown args item s!"type `{n}` is not a member of trait `PinnedDrop`" (.one (.member i))
  | sig {i : Nat} {m : Method} {msg : String} {s : Shown DropPlace} : item.items[i]? = some (.fn m) →
      SigShown m.sig i msg s → PinnedDropShown args item msg s
  /-- the second one of the methods -/
  | dropTwice {m m' : Method} : item.items[0]? = some (.fn m) → item.items[1]? = some (.fn m') →
      m.sig.ident = "drop" → m'.sig.ident = "drop" →
      PinnedDropShown args item "duplicate definitions with name `drop`" (.one (.member 1))

end PinProject.Spec
