import Verif.Model.Receiver
/-!
# pin-project-internal/src/pinned_drop.rs
-/
namespace PinProject

/-- `syn::FnArg`. For a receiver, `ty` is its type; `syn` fills in `Self`, `&Self` or `&mut Self`
for the shorthands `self`, `&self`, `&mut self` (recorded in `shorthand`). (pinned_drop.rs:127, 202) -/
inductive FnArg
  | receiver (isMut : Bool) (shorthand : Bool) (ty : Node)
  | typed (pat : Node) (ty : Node)
  deriving Inhabited

/-- `syn::Signature`. `quals` are `const`/`async`/`extern "abi"`, `generics` the method's own
generics: neither is inspected by pin-project. `recvAttrs` are the attributes of the first parameter, `comma` says that there
is a comma after the last one, and `variadic` that the list ends with `...`, which is no parameter for `syn`. (Simplification:
other parameters have no attributes, and `...` has no name.) (pinned_drop.rs:103) -/
structure Signature where
  quals : List String := []
  isUnsafe : Bool := false
  ident : String
  generics : Generics := {}
  inputs : List FnArg
  output : Option Node := none
  recvAttrs : List Attribute := []
  comma : Bool := false
  variadic : Bool := false
  deriving Inhabited

/-- `syn::ImplItemFn`; the body is its list of statements. `syn` has one list of attributes; `attrs` are those before the method,
`innerAttrs` those at the start of its body, `#![..]`, which come after the others in that list.
(pinned_drop.rs:92, 184) -/
structure Method where
  attrs : List Attribute := []
  innerAttrs : List Attribute := []
  vis : Vis := .inherited
  isDefault : Bool := false
  sig : Signature
  block : List Node
  deriving Inhabited

/-- `syn::ImplItem`. (pinned_drop.rs:85-97) -/
inductive ImplItem
  | const (name : String)
  | type (name : String)
  | fn (m : Method)
  /-- `ImplItem::Macro`, `ImplItem::Verbatim` -/
  | other
  deriving Inhabited

/-- `syn::ItemImpl`. `bang` is the `!` of a negative impl; `selfToks` are the tokens of `selfTy`.
`attrs` and `innerAttrs` are as for `Method`. (pinned_drop.rs:13, 55) -/
structure ItemImpl where
  attrs : List Attribute := []
  innerAttrs : List Attribute := []
  isDefault : Bool := false
  isUnsafe : Bool := false
  generics : Generics := {}
  trait_ : Option (Bool × Path)
  selfTy : Node
  selfToks : List TT := []
  items : List ImplItem
  deriving Inhabited

/-- The attributes of `syn::ItemImpl`. (pinned_drop.rs:59) -/
def ItemImpl.allAttrs (item : ItemImpl) : List Attribute := item.attrs ++ item.innerAttrs

/-- `Type::Reference` with `mut`: its element. (`&'a mut T` has the lifetime as first child.)
(pinned_drop.rs:134-138) -/
def Node.asMutRef : Node → Option Node
  | .other l [e] => if l = "&mut" then some e else none
  | .other l [.lifetime _, e] => if l = "&mut" then some e else none
  | _ => none

/-- `Type::Tuple` with no elements. (pinned_drop.rs:116) -/
def Node.isUnitTuple : Node → Bool
  | .other l [] => l == "tuple"
  | _ => false

/-- pinned_drop.rs:104-106 `get_ty_path`. -/
def Node.tyPathNoQself : Node → Option Path
  | .tyPath .none p => some p
  | _ => none

/-- pinned_drop.rs:127-153: is the receiver type `(<path>::)Pin<&mut Self>`? -/
def isPinMutSelf (ty : Node) : Bool :=
  match ty.tyPathNoQself with
  | some p =>
    match p.segs.getLast? with
    | some (.mk i (.angle _ args)) =>
      match args with
      | a :: more =>
        match a.asMutRef with
        | some e =>
          more.isEmpty && i == "Pin" &&
            (match e.tyPathNoQself with | some q => q.isIdent "Self" | none => false)
        | none => false
      | [] => false
    | _ => false
  | none => false

/-- pinned_drop.rs:114-119: no return type, or `-> ()`. -/
def outputIsUnit : Option Node → Bool
  | some ty => ty.isUnitTuple
  | none => true

/-- pinned_drop.rs:103-156 `validate_sig`. -/
def validateSig (sig : Signature) : Res Unit :=
  let invalid : Res Unit := .error (.bail "method `drop` must take an argument `self: Pin<&mut Self>`")
  if sig.ident ≠ "drop" then
    .error (.bail s!"method `{sig.ident}` is not a member of trait `PinnedDrop`")
  else if !outputIsUnit sig.output then
    .error (.bail "method `drop` must return the unit type")
  else
    match sig.inputs with
    | [.receiver _ _ ty] =>
      if isPinMutSelf ty then
        if sig.isUnsafe then .error (.bail "implementing the method `drop` is not unsafe") else .ok ()
      else invalid
    | _ => invalid

/-- pinned_drop.rs:85-97: the check of the items. -/
def validateItems : Nat → List ImplItem → Res Unit
  | _, [] => .ok ()
  | i, it :: its => do
    match it with
    | .const n => .error (.bail s!"const `{n}` is not a member of trait `PinnedDrop`")
    | .type n => .error (.bail s!"type `{n}` is not a member of trait `PinnedDrop`")
    | .fn m => do
      validateSig m.sig
      if i = 0 then .ok () else .error (.bail "duplicate definitions with name `drop`")
    | .other => .error (.panic "unexpected ImplItem")
    validateItems (i + 1) its

/-- `Type::Path(_)`, pinned_drop.rs:25, 79. -/
def Node.isTyPath : Node → Bool
  | .tyPath _ _ => true
  | _ => false

/-- pinned_drop.rs:63-69: the trait is `PinnedDrop`. -/
def traitIsPinnedDrop : Option (Bool × Path) → Bool
  | some (_, p) => p.isIdent "PinnedDrop"
  | none => false

/-- pinned_drop.rs:55-98 `validate_impl`. -/
def validateImpl (item : ItemImpl) : Res Unit :=
  let invalidItem : Res Unit :=
    .error (.bail "#[pinned_drop] may only be used on implementation for the `PinnedDrop` trait")
  if (findAttr item.allAttrs "pinned_drop").isSome then
    .error (.bail "duplicate #[pinned_drop] attribute")
  else if !traitIsPinnedDrop item.trait_ then
    invalidItem
  else if item.isUnsafe then
    .error (.bail "implementing the trait `PinnedDrop` is not unsafe")
  else if item.items.isEmpty then
    .error (.bail "not all trait items implemented, missing: `drop`")
  else if !item.selfTy.isTyPath then
    .error (.bail "implementing the trait `PinnedDrop` on this type is unsupported")
  else validateItems 0 item.items

/-- The inner function of the expansion, pinned_drop.rs:187-213: a copy of the user's method with a
new name, the generics of the impl and an ordinary parameter instead of the receiver. -/
structure DropInner where
  attrs : List Attribute
  innerAttrs : List Attribute
  vis : Vis
  quals : List String
  isUnsafe : Bool
  name : String
  generics : Generics
  paramAttrs : List Attribute
  /-- is the parameter `mut`? -/
  isMut : Bool
  param : String
  paramTy : Node
  comma : Bool
  variadic : Bool
  output : Option Node
  /-- the statements; the first one is the dummy item `fn __drop_inner() {}` -/
  body : List Node
  deriving Inhabited

/-- A statement of the outer `drop` in the expansion, pinned_drop.rs:224-232. -/
inductive OutStmt
  /-- the definition of the inner function (with `#[allow(clippy::..)]`) -/
  | fnItem (f : DropInner)
  /-- `f(x);` -/
  | call (f x : String)
  deriving Inhabited

/-- An item of the expanded impl. (pinned_drop.rs:183-184, 216-232) -/
inductive OutItem
  | drop (attrs : List Attribute) (vis : Vis) (sig : Signature) (innerAttrs : List Attribute) (block : List OutStmt)
  /-- an item that was not touched -/
  | asIs (i : ImplItem)
  deriving Inhabited

/-- `::pin_project::__private::PinnedDrop`. (pinned_drop.rs:180) -/
def privatePinnedDropPath : Path :=
  .mk true [.mk "pin_project" .none, .mk "__private" .none, .mk "PinnedDrop" .none]

/-- The expanded impl: `[default] [unsafe] impl<generics> [!]traitPath for selfTy { items }`.
(pinned_drop.rs:174-233) -/
structure PinnedDropImpl where
  attrs : List Attribute
  innerAttrs : List Attribute
  isDefault : Bool
  isUnsafe : Bool
  generics : Generics
  bang : Bool
  traitPath : Path
  selfTy : Node
  items : List OutItem
  deriving Inhabited

/-- The attribute `#[doc(hidden)]`. (pinned_drop.rs:176) -/
def docHidden : Attribute := ⟨.list { segs := ["doc"] } .paren [.ident "hidden"]⟩

/-- The dummy item `fn __drop_inner() {}` (pinned_drop.rs:191). -/
def dummyDropInner : Node := .item "fn __drop_inner" []

/-- pinned_drop.rs:187-213: the inner function. The visitor goes over the signature and the body. -/
def dropInner (s : SelfTy) (generics : Generics) (m : Method) (isMut : Bool) (ty : Node) : DropInner :=
  { attrs := m.attrs
    innerAttrs := m.innerAttrs
    vis := m.vis
    quals := m.sig.quals
    isUnsafe := m.sig.isUnsafe
    name := "__drop_inner"
    generics := generics.visit s
    paramAttrs := m.sig.recvAttrs
    isMut
    param := "__self"
    paramTy := ty.visit s
    comma := m.sig.comma
    variadic := m.sig.variadic
    output := m.sig.output.map (Node.visit s)
    body := visitNodes s (dummyDropInner :: m.block) }

/-- pinned_drop.rs:174-233 `expand_impl`. The panics are the `expect`s and `unreachable!`s of
the code. Simplification: the inner function of the code also keeps the arguments after the
receiver; `validate_sig` has made sure that there are none (`C33_accepts_iff`).

The last panic is that of `parse_quote!` (pinned_drop.rs:224-232): the inner function is a copy of the method, and `default fn` is
no statement for `syn`. -/
def expandImpl (item : ItemImpl) : Res PinnedDropImpl :=
  match item.trait_ with
  | none => .error (.panic "unexpected inherent impl")
  | some (bang, _) =>
    match item.items with
    | .fn m :: others =>
      match m.sig.inputs with
      | .receiver isMut sh ty :: more =>
        match item.selfTy with
        | .tyPath q p =>
          let inner := dropInner ⟨q, p, item.selfToks⟩ item.generics m isMut ty
          if m.isDefault then .error (.panic "expected `;`")
          else .ok
            { attrs := item.attrs ++ [docHidden]
              innerAttrs := item.innerAttrs
              isDefault := item.isDefault
              isUnsafe := item.isUnsafe
              generics := item.generics
              bang
              traitPath := privatePinnedDropPath
              selfTy := item.selfTy
              items := .drop m.attrs m.vis
                  { m.sig with isUnsafe := true, inputs := .receiver false sh ty :: more }
                  m.innerAttrs [.fnItem inner, .call "__drop_inner" "self"] ::
                others.map OutItem.asIs }
        | _ => .error (.panic "internal error: entered unreachable code")
      | _ => .error (.panic "drop() should have a receiver")
    | _ => .error (.panic "internal error: entered unreachable code")

/-- The dummy impl generated next to the error, pinned_drop.rs:40-46:
`impl<generics> ::pin_project::__private::PinnedDrop for selfTy { unsafe fn drop(..) {} }`. -/
structure DummyImpl where
  generics : Generics
  traitPath : Path
  selfTy : Node
  deriving Inhabited

/-- What the attribute macro produces. (pinned_drop.rs:23-51) -/
inductive PinnedDropOut
  | expanded (i : PinnedDropImpl)
  /-- `compile_error!` and possibly a dummy impl -/
  | compileError (msg : String) (dummy : Option DummyImpl)
  /-- the macro panicked -/
  | panicked (msg : String)
  deriving Inhabited

/-- pinned_drop.rs:13-52 `attribute`. (The message `unexpected argument` also contains the tokens of the argument,
which are not printed here.) -/
def pinnedDropAttribute (args : List TT) (input : ItemImpl) : PinnedDropOut :=
  let res : Res PinnedDropImpl := do
    if !args.isEmpty then .error (.bail "unexpected argument")
    else do
      validateImpl input
      expandImpl input
  match res with
  | .ok i => .expanded i
  | .error (.panic m) => .panicked m
  | .error (.bail m) =>
    .compileError m <|
      if input.selfTy.isTyPath then
        some { generics := input.generics, traitPath := privatePinnedDropPath, selfTy := input.selfTy }
      else none

end PinProject
