import Verif.Spec.Shape
import Verif.Spec.PinnedDrop
/-!
# Specification: what the error messages say

For each message, the fault in the user's input that it claims. The texts are those of the
`bail!`/`format_err!` calls of pin-project-internal (and, where noted, of `syn`).
-/
namespace PinProject.Spec

/-! ## The arguments of `#[pin_project(..)]` -/

/-- How the keyword of an argument is written. -/
def Kind.text : Kind → String
  | .pinnedDrop => "PinnedDrop"
  | .unsafeUnpin => "UnsafeUnpin"
  | .notUnpin => "!Unpin"
  | .project => "project"
  | .projectRef => "project_ref"
  | .projectReplace => "project_replace"

/-- Complete arguments, each followed by a comma. -/
inductive ArgsBefore : List Arg → List TT → Prop
  | nil : ArgsBefore [] []
  | cons {a : Arg} {as : List Arg} {ts us : List TT} (j : Bool) : ArgToks a ts → ArgsBefore as us →
      ArgsBefore (a :: as) (ts ++ .punct ',' j :: us)

/-- The token is the character `c`. -/
def IsPunct (c : Char) (t : TT) : Prop := ∃ j, t = .punct c j

def IsWordTok (t : TT) : Prop := ∃ s, t = .ident s

/-- `ArgFault before rest msg`: after the arguments `before`, the tokens `rest` do not begin with a
further argument, for the reason given by `msg`. -/
inductive ArgFault (before : List Arg) : List TT → String → Prop
  /-- the list ends after `project` -/
  | noValue {k : Kind} : k ∈ [.project, .projectRef] →
      ArgFault before [.ident k.text] s!"expected `{k.text} = <identifier>`, found `{k.text}`"
  /-- the list ends after `project =` -/
  | noName {k : Kind} {j : Bool} : k ∈ [.project, .projectRef, .projectReplace] →
      ArgFault before [.ident k.text, .punct '=' j]
        s!"expected `{k.text} = <identifier>`, found `{k.text} =`"
  /-- the argument has been given before -/
  | duplicate {a : Arg} {ts more : List TT} : ArgToks a ts → a.kind ∈ before.map Arg.kind →
      ArgFault before (ts ++ more) s!"duplicate `{a.kind.text}` argument"
  | bang {j : Bool} : ArgFault before [.punct '!' j] "expected `!Unpin`, found `!`"
  | replace {more : List TT} : ArgFault before (.ident "Replace" :: more)
      "`Replace` argument was removed, use `project_replace` argument instead"
  /-- a word that is not the keyword of any argument -/
  | unknown {s : String} {more : List TT} : s ≠ "Replace" → (∀ k : Kind, k ≠ .notUnpin → s ≠ k.text) →
      ArgFault before (.ident s :: more) s!"unexpected argument: {s}"
  -- The remaining messages are those of `syn`.
  | bangOther {j : Bool} {t : TT} {more : List TT} : t ≠ .ident "Unpin" →
      ArgFault before (.punct '!' j :: t :: more) "expected `Unpin`"
  | noEquals {k : Kind} {t : TT} {more : List TT} : k ∈ [.project, .projectRef] → ¬ IsPunct '=' t →
      ArgFault before (.ident k.text :: t :: more) "expected `=`"
  | noComma {a : Arg} {ts : List TT} {t : TT} {more : List TT} : ArgToks a ts → ¬ IsPunct ',' t →
      ArgFault before (ts ++ t :: more) "expected `,`"
  | noWord {t : TT} {more : List TT} : ¬ IsWordTok t → ¬ IsPunct '!' t →
      ArgFault before (t :: more) "expected identifier"
  | keyword {s : String} {more : List TT} : ¬ Identifier s →
      ArgFault before (.ident s :: more) s!"expected identifier, found keyword `{s}`"
  | valueNoWord {k : Kind} {j : Bool} {t : TT} {more : List TT} :
      k ∈ [.project, .projectRef, .projectReplace] → ¬ IsWordTok t →
      ArgFault before (.ident k.text :: .punct '=' j :: t :: more) "expected identifier"
  | valueKeyword {k : Kind} {j : Bool} {s : String} {more : List TT} :
      k ∈ [.project, .projectRef, .projectReplace] → ¬ Identifier s →
      ArgFault before (.ident k.text :: .punct '=' j :: .ident s :: more)
        s!"expected identifier, found keyword `{s}`"

/-- The arguments are well written and none is repeated, but they do not go together. -/
inductive ListFault (as : List Arg) : String → Prop
  | projectRef {n : String} : .project n ∈ as → .projectRef n ∈ as →
      ListFault as s!"name `{n}` is already specified by `project` argument"
  | projectReplace {n : String} : .project n ∈ as → .projectReplaceNamed n ∈ as →
      ListFault as s!"name `{n}` is already specified by `project` argument"
  | refReplace {n : String} : .projectRef n ∈ as → .projectReplaceNamed n ∈ as →
      ListFault as s!"name `{n}` is already specified by `project_ref` argument"
  | dropReplace : .pinnedDrop ∈ as → Kind.projectReplace ∈ as.map Arg.kind →
      ListFault as "arguments `PinnedDrop` and `project_replace` are mutually exclusive"
  | unpin : .unsafeUnpin ∈ as → .notUnpin ∈ as →
      ListFault as "arguments `UnsafeUnpin` and `!Unpin` are mutually exclusive"

/-- The fault `msg` claims of the argument list `toks`: at the first place where the list goes
wrong, or of the list as a whole. -/
inductive ArgsFault (toks : List TT) (msg : String) : Prop
  | at_ {before : List Arg} {front rest : List TT} : toks = front ++ rest → ArgsBefore before front →
      (before.map Arg.kind).Nodup → ArgFault before rest msg → ArgsFault toks msg
  | whole {as : List Arg} : ArgsToks as toks → (as.map Arg.kind).Nodup → ListFault as msg →
      ArgsFault toks msg

/-! ## The item under `#[pin_project]` -/

def isPinProjectAttr (a : Attribute) : Bool := a.path == { leading := false, segs := ["pin_project"] }

/-- The attribute stage rejects the item `i`. -/
inductive AttributeFault (i : RawInput) : String → Prop
  | notType : ¬ StructOrEnum i.body →
      AttributeFault i "#[pin_project] attribute may only be used on structs or enums"
  | pin {a : Attribute} : a ∈ i.attrs → isPinAttr a = true →
      AttributeFault i "#[pin] attribute may only be used on fields of structs or variants"
  | twice {a : Attribute} : a ∈ i.attrs → isPinProjectAttr a = true →
      AttributeFault i "duplicate #[pin_project] attribute"
  /-- `syn`: the visibility `pub(in ..)` does not contain a path -/
  | badVis {ts more : List TT} {msg : String} :
      i.body = .ident "pub" :: .group .paren (.ident "in" :: ts) :: more → ¬ ModPath ts →
      msg ∈ ["expected identifier", "unexpected token"] → AttributeFault i msg

/-- A message of `syn` about a list of attribute arguments. -/
def synMessages : List String := ["expected identifier", "expected `,`", "expected expression"]

/-- The derive stage rejects the item. -/
inductive DeriveFault (item : Item) : String → Prop
  | notType {attrs : List Attribute} : item = .other attrs →
      DeriveFault item "#[pin_project] attribute may only be used on structs or enums"
  -- Attributes of the item.
  | twice {a : Attribute} : a ∈ itemAttrs item → isPinProjectAttr a = true →
      DeriveFault item "duplicate #[pin_project] attribute"
  | removed : (∀ a ∈ itemAttrs item, isPinAttr a = false) →
      DeriveFault item "#[pin_project] attribute has been removed"
  | pinTwice : 2 ≤ ((itemAttrs item).filter isPinAttr).length →
      DeriveFault item "duplicate #[pin] attribute"
  /-- `syn`: `#[pin]` or `#[pin = ..]` on the item -/
  | noList {a : Attribute} : a ∈ itemAttrs item → isPinAttr a = true → (∀ p d ts, a.m ≠ .list p d ts) →
      DeriveFault item "expected attribute arguments in parentheses"
  /-- `syn`: `#[pin(..)]` on the item, with other contents than those written by the attribute stage -/
  | notOurs {a : Attribute} {p : SPath} {d : Delim} {ts : List TT} : a ∈ itemAttrs item →
      isPinAttr a = true → a.m = .list p d ts → (∀ args, ts ≠ [.ident "__private", .group .paren args]) →
      DeriveFault item "unexpected token"
  -- Arguments.
  | args {a : Attribute} {p : SPath} {d : Delim} {ts : List TT} {msg : String} :
      (itemAttrs item).filter isPinAttr = [a] → a.m = .list p d [.ident "__private", .group .paren ts] →
      ArgsFault ts msg → DeriveFault item msg
  | ownName {a : Attribute} {p : SPath} {d : Delim} {ts : List TT} {as : List Arg} {n : String} :
      (itemAttrs item).filter isPinAttr = [a] → a.m = .list p d [.ident "__private", .group .paren ts] →
      ArgsToks as ts → itemName item = some n → n ∈ as.filterMap Arg.name? →
      DeriveFault item s!"name `{n}` is the same as the original type name"
  | replaceUnnamed {e : ItemEnum} {a : Attribute} {p : SPath} {d : Delim} {ts : List TT} {as : List Arg} :
      item = .enum_ e →
      e.attrs.filter isPinAttr = [a] → a.m = .list p d [.ident "__private", .group .paren ts] →
      ArgsToks as ts → .projectReplace ∈ as →
      DeriveFault item "`project_replace` argument requires a value when used on enums"
  -- `#[repr(..)]`.
  | reprSyntax {msg : String} : ¬ ReprsWellFormed (itemAttrs item) → msg ∈ synMessages →
      DeriveFault item msg
  | packedEnum {e : ItemEnum} : item = .enum_ e → AsksForPacked e.attrs →
      DeriveFault item "#[repr(packed)] attribute should be applied to a struct or union"
  | packedValue {s : ItemStruct} {a : Attribute} {ts v : List TT} {ms : List Meta} : item = .struct_ s →
      a ∈ s.attrs → reprArgs a = some ts → MetasToks ms ts →
      .nameValue { leading := false, segs := ["packed"] } v ∈ ms →
      DeriveFault item "#[repr(packed)] attribute should not be name-value pair"
  | packed {s : ItemStruct} : item = .struct_ s → AsksForPacked s.attrs →
      DeriveFault item "#[pin_project] attribute may not be used on #[repr(packed)] types"
  -- Fields and variants.
  | noFields {s : ItemStruct} : item = .struct_ s → s.fields.list = [] →
      DeriveFault item "#[pin_project] attribute may not be used on structs with zero fields"
  | noVariants {e : ItemEnum} : item = .enum_ e → e.variants = [] →
      DeriveFault item "#[pin_project] attribute may not be used on enums without variants"
  | noVariantFields {e : ItemEnum} : item = .enum_ e → (∀ v ∈ e.variants, v.fields.list = []) →
      DeriveFault item "#[pin_project] attribute may not be used on enums with zero fields"
  | discriminant {e : ItemEnum} {v : Variant} {n : Node} : item = .enum_ e → v ∈ e.variants →
      v.discriminant = some n →
      DeriveFault item "#[pin_project] attribute may not be used on enums with discriminants"
  | pinOnVariant {e : ItemEnum} {v : Variant} {a : Attribute} : item = .enum_ e → v ∈ e.variants →
      a ∈ v.attrs → isPinAttr a = true →
      DeriveFault item "#[pin] attribute may only be used on fields of structs or variants"
  | fieldPinTwice {f : Field} : f ∈ itemFields item → 2 ≤ (f.attrs.filter isPinAttr).length →
      DeriveFault item "duplicate #[pin] attribute"
  /-- `syn`: `#[pin(..)]` or `#[pin = ..]` on a field -/
  | fieldPinArgs {f : Field} {a : Attribute} : f ∈ itemFields item → a ∈ f.attrs → isPinAttr a = true →
      (∀ p, a.m ≠ .path p) → DeriveFault item "unexpected token in attribute"

/-! ## `#[pinned_drop]` -/

/-- The signature of a method of the impl is wrong. -/
inductive SigFault (sig : Signature) : String → Prop
  | name : sig.ident ≠ "drop" → SigFault sig s!"method `{sig.ident}` is not a member of trait `PinnedDrop`"
  | output : sig.ident = "drop" → ¬ (sig.output = none ∨ sig.output = some (.other "tuple" [])) →
      SigFault sig "method `drop` must return the unit type"
  | receiver : sig.ident = "drop" → (¬ ∃ isMut short ty, sig.inputs = [.receiver isMut short ty] ∧ IsPinMutSelf ty) →
      SigFault sig "method `drop` must take an argument `self: Pin<&mut Self>`"
  | unsafe_ : sig.ident = "drop" → sig.isUnsafe = true →
      SigFault sig "implementing the method `drop` is not unsafe"

/-- `#[pinned_drop(args)] item` is rejected. -/
inductive PinnedDropFault (args : List TT) (item : ItemImpl) : String → Prop
  | args : args ≠ [] → PinnedDropFault args item "unexpected argument"
  | twice {a : Attribute} : a ∈ item.attrs ++ item.innerAttrs → a.path.isIdent "pinned_drop" = true →
      PinnedDropFault args item "duplicate #[pinned_drop] attribute"
  | trait_ : (¬ ∃ negative, item.trait_ = some (negative, .mk false [.mk "PinnedDrop" .none])) →
      PinnedDropFault args item
        "#[pinned_drop] may only be used on implementation for the `PinnedDrop` trait"
  | unsafe_ : item.isUnsafe = true →
      PinnedDropFault args item "implementing the trait `PinnedDrop` is not unsafe"
  | noItems : item.items = [] →
      PinnedDropFault args item "not all trait items implemented, missing: `drop`"
  | selfTy : (¬ ∃ q p, item.selfTy = .tyPath q p) →
      PinnedDropFault args item "implementing the trait `PinnedDrop` on this type is unsupported"
  | const {n : String} : .const n ∈ item.items →
      PinnedDropFault args item s!"const `{n}` is not a member of trait `PinnedDrop`"
  | type {n : String} : .type n ∈ item.items →
      PinnedDropFault args item s!"type `{n}` is not a member of trait `PinnedDrop`"
  | sig {m : Method} {msg : String} : .fn m ∈ item.items → SigFault m.sig msg →
      PinnedDropFault args item msg
  | dropTwice {m m' : Method} {front mid rest : List ImplItem} :
      item.items = front ++ .fn m :: (mid ++ .fn m' :: rest) → m.sig.ident = "drop" → m'.sig.ident = "drop" →
      PinnedDropFault args item "duplicate definitions with name `drop`"

end PinProject.Spec
