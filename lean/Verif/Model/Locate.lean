import Verif.Model.Entry
import Verif.Model.PinnedDrop
/-!
# Where errors are shown

The same functions as in `Model/Args`, `Model/Attribute`, `Model/Derive` and `Model/PinnedDrop`, as far as they can fail,
with the second half of every `bail!`: the tokens the error points to (error.rs:3-16). `Props/LocateErase` shows that
forgetting the places gives back the functions of the other files.

The tokens of the arguments of `#[pin_project(..)]` carry spans of an arbitrary type. The other pieces of the input that
errors point to are named by `Place` and `DropPlace`.
-/
namespace PinProject.Locate

/-- Where a `syn::Error` is shown. `Error::new_spanned(tokens, ..)` (error.rs:5) remembers the spans of the first and of
the last token; without tokens, it is `Span::call_site()`. `Error::new(span, ..)` is shown at `span`. -/
inductive Shown (σ : Type)
  | callSite
  | range (first last : σ)
  deriving DecidableEq, Repr, Inhabited

/-- `Error::new(span, ..)`, or `Error::new_spanned` for a single token or piece. (args.rs:187; derive.rs:323, 435) -/
abbrev Shown.one {σ : Type} (s : σ) : Shown σ := .range s s

/-- An error with the place where it is shown. (error.rs:3-16) -/
inductive LErr (σ : Type)
  | bail (msg : String) (shown : Shown σ)
  | panic (msg : String)
  deriving DecidableEq, Repr, Inhabited

/-- `syn::Result` with places, error.rs:3-16. -/
abbrev LRes (σ α : Type) := Except (LErr σ) α

/-- The error without its place. (the model `Err` of error.rs:3-16) -/
def LErr.erase {σ : Type} : LErr σ → Err
  | .bail m _ => .bail m
  | .panic m => .panic m

/-- The result without places (error.rs:3-16). -/
def erase {σ α : Type} : LRes σ α → Res α
  | .ok a => .ok a
  | .error e => .error e.erase

/-- An error of `syn`, shown at the given place. (e.g. args.rs:38, utils.rs:128) -/
def atPlace {σ α : Type} (s : Shown σ) : Res α → LRes σ α
  | .ok a => .ok a
  | .error (.bail m) => .error (.bail m s)
  | .error (.panic m) => .error (.panic m)

/-! ## args.rs -/

/-- A token of the arguments and its span. (args.rs:74-75) -/
abbrev Tok (σ : Type) := TT × σ

/-- `syn` shows its own errors at the next token; at the end of the input, at the macro. (e.g. args.rs:89, 94) -/
def next {σ : Type} : List (Tok σ) → Shown σ
  | [] => .callSite
  | t :: _ => .one t.2

/-- args.rs:102-108: the local variables, with the spans they hold. `prSpan` holds the span of the name and of the
value. -/
structure ArgAcc (σ : Type) where
  pinnedDrop : Option σ := none
  unsafeUnpin : Option σ := none
  notUnpin : Option (σ × σ) := none
  project : Option (String × σ) := none
  projectRef : Option (String × σ) := none
  prValue : Option (String × σ) := none
  prSpan : Option (σ × σ) := none
  deriving Inhabited

/-- The local variables of args.rs:102-108, without spans. -/
def ArgAcc.erase {σ : Type} (a : ArgAcc σ) : PinProject.ArgAcc :=
  { pinnedDrop := a.pinnedDrop.isSome
    unsafeUnpin := a.unsafeUnpin.isSome
    notUnpin := a.notUnpin.isSome
    project := a.project.map (·.1)
    projectRef := a.projectRef.map (·.1)
    prValue := a.prValue.map (·.1)
    prSpan := a.prSpan.isSome }

/-- `input.parse::<Ident>()`. (args.rs:94, 122) -/
def parseIdent {σ : Type} : List (Tok σ) → LRes σ ((String × σ) × List (Tok σ))
  | (.ident s, p) :: rest =>
    if isIdentWord s then .ok ((s, p), rest)
    else .error (.bail s!"expected identifier, found keyword `{s}`" (.one p))
  | toks => .error (.bail "expected identifier" (next toks))

/-- `input.parse::<Token![c]>()`. (args.rs:89, 112, 165) -/
def parsePunct {σ : Type} (c : Char) : List (Tok σ) → LRes σ (σ × List (Tok σ))
  | (.punct d _, p) :: rest => if c == d then .ok (p, rest) else .error (.bail s!"expected `{c}`" (.one p))
  | toks => .error (.bail s!"expected `{c}`" (next toks))

/-- `input.peek(Token![c])`. (args.rs:111, 141) -/
def peekPunct {σ : Type} (c : Char) : List (Tok σ) → Bool
  | (.punct d _, _) :: _ => c == d
  | _ => false

/-- args.rs:81-100 `parse_value`. -/
def parseValue {σ : Type} (toks : List (Tok σ)) (name : String × σ) (hasPrev : Bool) :
    LRes σ ((String × σ) × List (Tok σ)) :=
  if toks.isEmpty then
    .error (.bail s!"expected `{name.1} = <identifier>`, found `{name.1}`" (.one name.2))
  else do
    let (eq, toks) ← parsePunct '=' toks
    if toks.isEmpty then
      .error (.bail s!"expected `{name.1} = <identifier>`, found `{name.1} =`" (.range name.2 eq))
    else do
      let (v, toks) ← parseIdent toks
      if hasPrev then .error (.bail s!"duplicate `{name.1}` argument" (.range name.2 v.2)) else .ok (v, toks)

/-- args.rs:77 `kw::Unpin`. -/
def parseKwUnpin {σ : Type} : List (Tok σ) → LRes σ (σ × List (Tok σ))
  | (.ident s, p) :: rest => if s == "Unpin" then .ok (p, rest) else .error (.bail "expected `Unpin`" (.one p))
  | toks => .error (.bail "expected `Unpin`" (next toks))

/-- args.rs:111-160: one argument. -/
def parseArg {σ : Type} (a : ArgAcc σ) (toks : List (Tok σ)) : LRes σ (ArgAcc σ × List (Tok σ)) :=
  if peekPunct '!' toks then do
    let (bang, toks) ← parsePunct '!' toks
    if toks.isEmpty then .error (.bail "expected `!Unpin`, found `!`" (.one bang))
    else do
      let (unpin, toks) ← parseKwUnpin toks
      if a.notUnpin.isSome then .error (.bail "duplicate `!Unpin` argument" (.range bang unpin))
      else .ok ({ a with notUnpin := some (bang, unpin) }, toks)
  else do
    let (token, toks) ← parseIdent toks
    if token.1 = "PinnedDrop" then
      if a.pinnedDrop.isSome then .error (.bail "duplicate `PinnedDrop` argument" (.one token.2))
      else .ok ({ a with pinnedDrop := some token.2 }, toks)
    else if token.1 = "UnsafeUnpin" then
      if a.unsafeUnpin.isSome then .error (.bail "duplicate `UnsafeUnpin` argument" (.one token.2))
      else .ok ({ a with unsafeUnpin := some token.2 }, toks)
    else if token.1 = "project" then do
      let (v, toks) ← parseValue toks token a.project.isSome
      .ok ({ a with project := some v }, toks)
    else if token.1 = "project_ref" then do
      let (v, toks) ← parseValue toks token a.projectRef.isSome
      .ok ({ a with projectRef := some v }, toks)
    else if token.1 = "project_replace" then
      if peekPunct '=' toks then do
        let (v, toks) ← parseValue toks token a.prSpan.isSome
        .ok ({ a with prValue := some v, prSpan := some (token.2, v.2) }, toks)
      else if a.prSpan.isSome then .error (.bail "duplicate `project_replace` argument" (.one token.2))
      else .ok ({ a with prSpan := some (token.2, token.2) }, toks)
    else if token.1 = "Replace" then
      .error (.bail "`Replace` argument was removed, use `project_replace` argument instead" (.one token.2))
    else .error (.bail s!"unexpected argument: {token.1}" (.one token.2))

/-- args.rs:110-166: the loop. -/
def parseLoop {σ : Type} : Nat → ArgAcc σ → List (Tok σ) → LRes σ (ArgAcc σ)
  | _, a, [] => .ok a
  | 0, _, _ :: _ => .error (.panic "out of fuel")
  | n + 1, a, toks => do
    let (a, toks) ← parseArg a toks
    if toks.isEmpty then .ok a
    else do
      let (_, toks) ← parsePunct ',' toks
      parseLoop n a toks

/-- The span of an optional identifier: `Option<Ident>` prints nothing if it is absent (args.rs:170). -/
def shownOpt {σ : Type} : Option (String × σ) → Shown σ
  | some v => .one v.2
  | none => .callSite

/-- args.rs:168-183: the checks of the names. -/
def ArgAcc.checkNames {σ : Type} (a : ArgAcc σ) : LRes σ Unit :=
  if a.project.isSome || a.projectRef.isSome then
    if a.project.map (·.1) = a.projectRef.map (·.1) then
      .error (.bail s!"name `{(a.projectRef.map (·.1)).getD ""}` is already specified by `project` argument"
        (shownOpt a.projectRef))
    else match a.prValue with
      | some ident =>
        if a.project.map (·.1) = some ident.1 then
          .error (.bail s!"name `{ident.1}` is already specified by `project` argument" (.one ident.2))
        else if a.projectRef.map (·.1) = some ident.1 then
          .error (.bail s!"name `{ident.1}` is already specified by `project_ref` argument" (.one ident.2))
        else .ok ()
      | none => .ok ()
  else .ok ()

/-- args.rs:225-236 `ProjReplace`, with its span (of the name and of the value) and the span of the name given. -/
inductive ProjReplace (σ : Type)
  | none
  | unnamed (span : σ × σ)
  | named (span : σ × σ) (ident : String × σ)
  deriving Inhabited

/-- args.rs:225-236 `ProjReplace`, without spans. -/
def ProjReplace.erase {σ : Type} : ProjReplace σ → PinProject.ProjReplace
  | .none => .none
  | .unnamed _ => .unnamed
  | .named _ i => .named i.1

/-- args.rs:247-249 `ProjReplace::ident`. -/
def ProjReplace.ident {σ : Type} : ProjReplace σ → Option (String × σ)
  | .named _ i => some i
  | _ => Option.none

/-- args.rs:193-197. -/
def ArgAcc.projectReplace {σ : Type} (a : ArgAcc σ) : ProjReplace σ :=
  match a.prSpan, a.prValue with
  | none, _ => .none
  | some s, some i => .named s i
  | some s, none => .unnamed s

/-- args.rs:198-208. -/
def ArgAcc.unpinImpl {σ : Type} (a : ArgAcc σ) : LRes σ UnpinImpl :=
  match a.unsafeUnpin, a.notUnpin with
  | none, none => .ok UnpinImpl.default
  | some _, none => .ok .unsafe_
  | none, some _ => .ok .negative
  | some s, some _ => .error (.bail "arguments `UnsafeUnpin` and `!Unpin` are mutually exclusive" (.one s))

/-- args.rs:61-72 `Args`, with the spans that are needed later. -/
structure Args (σ : Type) where
  pinnedDrop : Bool
  unpinImpl : UnpinImpl
  project : Option (String × σ)
  projectRef : Option (String × σ)
  projectReplace : ProjReplace σ
  deriving Inhabited

/-- args.rs:61-72 `Args`, without spans. -/
def Args.erase {σ : Type} (a : Args σ) : PinProject.Args :=
  { pinnedDrop := a.pinnedDrop
    unpinImpl := a.unpinImpl
    project := a.project.map (·.1)
    projectRef := a.projectRef.map (·.1)
    projectReplace := a.projectReplace.erase }

/-- args.rs:185-192: `PinnedDrop` excludes `project_replace`. -/
def ArgAcc.checkDrop {σ : Type} (a : ArgAcc σ) : LRes σ Unit :=
  match a.pinnedDrop with
  | some span =>
    if a.prSpan.isSome then
      .error (.bail "arguments `PinnedDrop` and `project_replace` are mutually exclusive" (.one span))
    else .ok ()
  | none => .ok ()

/-- args.rs:168-210: the checks after the loop. -/
def ArgAcc.finish {σ : Type} (a : ArgAcc σ) : LRes σ (Args σ) := do
  a.checkNames
  a.checkDrop
  let unpinImpl ← a.unpinImpl
  .ok { pinnedDrop := a.pinnedDrop.isSome, unpinImpl, project := a.project,
        projectRef := a.projectRef, projectReplace := a.projectReplace }

/-- args.rs:75-211 `Args::parse`. -/
def Args.parse {σ : Type} (toks : List (Tok σ)) : LRes σ (Args σ) := do
  let a ← parseLoop toks.length {} toks
  a.finish

/-! ## The derive stage -/

/-- The pieces of the definition that errors of the derive stage point to. Attributes, arguments, variants and fields
are counted from 0; of an item, the attributes are those rustc passes to the derive macro.
(the first arguments of `bail!` in derive.rs, args.rs and utils.rs:126) -/
inductive Place
  /-- the whole item -/
  | item
  /-- the name of the type -/
  | name
  /-- an attribute of the item -/
  | attr (i : Nat)
  /-- something inside of an attribute of the item: the errors of `syn` about its form -/
  | inAttr (i : Nat)
  /-- a token of the arguments of `#[pin_project(..)]` -/
  | arg (i : Nat)
  /-- an argument of a `#[repr(..)]` attribute -/
  | repr (i j : Nat)
  /-- the (empty) fields of a struct with their delimiters -/
  | fields
  /-- the braces of an enum -/
  | braces
  /-- what is between the braces of an enum -/
  | variants
  /-- the discriminant of a variant -/
  | discriminant (v : Nat)
  /-- an attribute of a variant -/
  | variantAttr (v i : Nat)
  /-- an attribute of a field, of a struct (`v = none`) or of a variant -/
  | fieldAttr (v : Option Nat) (f i : Nat)
  /-- something inside of an attribute of a field: the error of `syn` about its form -/
  | inFieldAttr (v : Option Nat) (f i : Nat)
  deriving DecidableEq, Repr, Inhabited

/-- utils.rs:135-137 `find`, with the position. -/
def findAttr (attrs : List Attribute) (ident : String) : Option Nat :=
  attrs.findIdx? (fun a => a.path.isIdent ident)

/-- The attributes `#[pin..]` with their positions, args.rs:35. -/
def pinAttrs : Nat → List Attribute → List (Nat × Attribute)
  | _, [] => []
  | i, a :: as => if a.path.isIdent "pin" then (i, a) :: pinAttrs (i + 1) as else pinAttrs (i + 1) as

/-- The tokens of the arguments, with their places. (args.rs:58) -/
def argToks (ts : List TT) : List (Tok Place) := ts.mapIdx (fun i t => (t, .arg i))

/-- args.rs:14-59 `parse_args`. -/
def parseArgs (attrs : List Attribute) : LRes Place (Args Place) :=
  match findAttr attrs "pin_project" with
  | some i => .error (.bail "duplicate #[pin_project] attribute" (.one (.attr i)))
  | none =>
    match pinAttrs 0 attrs with
    | [] => .error (.bail "#[pin_project] attribute has been removed" .callSite)
    | (i, a) :: more => do
      let toks ← atPlace (.one (.inAttr i)) a.m.requireList
      let prev ← atPlace (.one (.inAttr i)) (parsePrivate toks)
      match more with
      | (j, b) :: _ => do
        let toks ← atPlace (.one (.inAttr j)) b.m.requireList
        let _ ← atPlace (.one (.inAttr j)) (parsePrivate toks)
        .error (.bail "duplicate #[pin] attribute" (.one (.attr (if prev.isSome then j else i))))
      | [] =>
        match prev with
        | some toks => Args.parse (argToks toks)
        | none => .error (.panic "called `Option::unwrap()` on a `None` value")

/-- derive.rs:204-210: no projection has the name of the type itself. -/
def checkOwnName (ident : String) (args : Args Place) : LRes Place Unit :=
  match ([args.project, args.projectRef, args.projectReplace.ident].filterMap id).find? (fun n => n.1 == ident) with
  | some name => .error (.bail s!"name `{name.1}` is the same as the original type name" (.one name.2))
  | none => .ok ()

/-- derive.rs:194-252 `Context::new`, as far as it can fail. The span of an unnamed `project_replace` is kept
(it is a field of the context, derive.rs:190). -/
def checkContext (attrs : List Attribute) (ident : String) : LRes Place (Args Place) := do
  let args ← parseArgs attrs
  checkOwnName ident args
  .ok args

/-- derive.rs:1045-1063: the inner loop of `ensure_not_packed`, for attribute `i`. -/
def checkReprs (isStruct : Bool) (i : Nat) : Nat → List Meta → LRes Place Unit
  | _, [] => .ok ()
  | j, m :: ms =>
    if m.getPath.isIdent "packed" then
      .error (.bail (
        if !isStruct then "#[repr(packed)] attribute should be applied to a struct or union"
        else if m.isNameValue then "#[repr(packed)] attribute should not be name-value pair"
        else "#[pin_project] attribute may not be used on #[repr(packed)] types") (.one (.repr i j)))
    else checkReprs isStruct i (j + 1) ms

/-- derive.rs:1042-1066: the outer loop of `ensure_not_packed`. -/
def checkPacked (isStruct : Bool) : Nat → List Attribute → LRes Place Unit
  | _, [] => .ok ()
  | i, a :: as =>
    match a.m with
    | .list p _ toks =>
      if p.isIdent "repr" then do
        let ms ← atPlace (.one (.inAttr i)) (parseMetas toks.length toks)
        checkReprs isStruct i 0 ms
        checkPacked isStruct (i + 1) as
      else checkPacked isStruct (i + 1) as
    | _ => checkPacked isStruct (i + 1) as

/-- derive.rs:310-319 `validate_struct`. -/
def validateStruct (fields : Fields) : LRes Place Unit :=
  let msg := "#[pin_project] attribute may not be used on structs with zero fields"
  match fields with
  | .unit => .error (.bail msg (.one .name))
  | .named fs => if fs.isEmpty then .error (.bail msg (.one .fields)) else .ok ()
  | .unnamed fs => if fs.isEmpty then .error (.bail msg (.one .fields)) else .ok ()

/-- derive.rs:328-338: the fold of `validate_enum`. -/
def enumHasField : Nat → List Variant → Bool → LRes Place Bool
  | _, [], b => .ok b
  | i, v :: vs, b =>
    if v.discriminant.isSome then
      .error (.bail "#[pin_project] attribute may not be used on enums with discriminants" (.one (.discriminant i)))
    else match findAttr v.attrs "pin" with
      | some j =>
        .error (.bail "#[pin] attribute may only be used on fields of structs or variants" (.one (.variantAttr i j)))
      | none =>
        if v.fields.list.isEmpty then enumHasField (i + 1) vs b
        else enumHasField (i + 1) vs true

/-- derive.rs:321-344 `validate_enum`. -/
def validateEnum (variants : List Variant) : LRes Place Unit :=
  if variants.isEmpty then
    .error (.bail "#[pin_project] attribute may not be used on enums without variants" (.one .braces))
  else do
    let hasField ← enumHasField 0 variants false
    if hasField then .ok ()
    else .error (.bail "#[pin_project] attribute may not be used on enums with zero fields" (.one .variants))

/-- utils.rs:121-133 `position_exact`, for field `f`. -/
def positionExactFrom (v : Option Nat) (f : Nat) (ident : String) :
    List Attribute → Nat → Option Nat → LRes Place (Option Nat)
  | [], _, prev => .ok prev
  | a :: as, i, prev =>
    if a.path.isIdent ident then
      if prev.isSome then .error (.bail s!"duplicate #[{ident}] attribute" (.one (.fieldAttr v f i)))
      else do
        atPlace (.one (.inFieldAttr v f i)) a.m.requirePathOnly
        positionExactFrom v f ident as (i + 1) (some i)
    else positionExactFrom v f ident as (i + 1) prev

/-- The loop of `visit_fields`, derive.rs:589-629, as far as it can fail. -/
def checkFields (v : Option Nat) : Nat → List Field → LRes Place Unit
  | _, [] => .ok ()
  | i, f :: fs => do
    let _ ← positionExactFrom v i "pin" f.attrs 0 none
    checkFields v (i + 1) fs

/-- derive.rs:514-569 `visit_variants`, as far as it can fail. -/
def checkVariants : Nat → List Variant → LRes Place Unit
  | _, [] => .ok ()
  | i, v :: vs => do
    checkFields (some i) 0 v.fields.list
    checkVariants (i + 1) vs

/-- derive.rs:346-426 `parse_struct`, as far as it can fail. -/
def checkStruct (attrs : List Attribute) (fields : Fields) : LRes Place Unit := do
  checkPacked true 0 attrs
  validateStruct fields
  checkFields none 0 fields.list

/-- derive.rs:434-439: enums cannot have an unnamed `project_replace`. -/
def checkReplace (r : ProjReplace Place) : LRes Place Unit :=
  match r with
  | .unnamed span =>
    .error (.bail "`project_replace` argument requires a value when used on enums" (.range span.1 span.2))
  | _ => .ok ()

/-- derive.rs:428-512 `parse_enum`, as far as it can fail. -/
def checkEnum (attrs : List Attribute) (args : Args Place) (variants : List Variant) : LRes Place Unit := do
  checkReplace args.projectReplace
  checkPacked false 0 attrs
  validateEnum variants
  checkVariants 0 variants

/-- derive.rs:20-49 `parse_derive`, as far as it can fail. The replacement of `Self` (27-31, 36-40) concerns no attribute
and no name, so that the item is the one the user has written. -/
def checkDerive : Item → LRes Place Unit
  | .struct_ s => do
    let _ ← checkContext s.attrs s.ident
    checkStruct s.attrs s.fields
  | .enum_ e => do
    let args ← checkContext e.attrs e.ident
    checkEnum e.attrs args e.variants
  | .other _ => .error (.bail "#[pin_project] attribute may only be used on structs or enums" (.one .item))

/-! ## The attribute stage -/

/-- The pieces of the item that errors of the attribute stage point to. (attribute.rs:55-62) -/
inductive RawPlace
  /-- an attribute of the item -/
  | attr (i : Nat)
  /-- everything after the attributes -/
  | body
  /-- something in the visibility: the errors of `syn` -/
  | inVis
  deriving DecidableEq, Repr, Inhabited

/-- attribute.rs:47-65 `Input::parse`. -/
def parseInput (i : RawInput) : LRes RawPlace RawInput := do
  let ahead ← atPlace (.one .inVis) (skipVis i.body)
  if !peekStructOrEnum ahead then
    .error (.bail "#[pin_project] attribute may only be used on structs or enums"
      (if i.body.isEmpty then .callSite else .one .body))
  else match findAttr i.attrs "pin" with
    | some j => .error (.bail "#[pin] attribute may only be used on fields of structs or variants" (.one (.attr j)))
    | none =>
      match findAttr i.attrs "pin_project" with
      | some j => .error (.bail "duplicate #[pin_project] attribute" (.one (.attr j)))
      | none => .ok i

/-- attribute.rs:27-39 `parse_attribute`. -/
def parseAttribute (args : List TT) (i : RawInput) : LRes RawPlace RawInput := do
  let i ← parseInput i
  .ok { attrs := i.attrs ++ [deriveAttr, pinPrivateAttr args], body := i.body }

/-! ## pinned_drop.rs -/

/-- The pieces of the impl that errors of `#[pinned_drop]` point to.
(the first arguments of `bail!` in pinned_drop.rs:16-155) -/
inductive DropPlace
  /-- the arguments of `#[pinned_drop(..)]` -/
  | args
  /-- the whole impl -/
  | item
  | attr (i : Nat)
  | traitPath
  | selfTy
  | unsafe_
  /-- an item of the impl -/
  | member (i : Nat)
  /-- the name of a method -/
  | name (i : Nat)
  /-- the return type of a method -/
  | output (i : Nat)
  /-- the (empty) parentheses of a method -/
  | parens (i : Nat)
  /-- all parameters of a method -/
  | params (i : Nat)
  /-- the first parameter of a method -/
  | param (i : Nat)
  /-- the `unsafe` of a method -/
  | unsafeFn (i : Nat)
  deriving DecidableEq, Repr, Inhabited

/-- pinned_drop.rs:103-156 `validate_sig`, for the method at position `i`. -/
def validateSig (i : Nat) (sig : Signature) : LRes DropPlace Unit :=
  let msg := "method `drop` must take an argument `self: Pin<&mut Self>`"
  if sig.ident ≠ "drop" then
    .error (.bail s!"method `{sig.ident}` is not a member of trait `PinnedDrop`" (.one (.name i)))
  else if !outputIsUnit sig.output then
    .error (.bail "method `drop` must return the unit type" (.one (.output i)))
  else
    match sig.inputs with
    | [] => .error (.bail msg (.one (.parens i)))
    | [.receiver _ _ ty] =>
      if isPinMutSelf ty then
        if sig.isUnsafe then .error (.bail "implementing the method `drop` is not unsafe" (.one (.unsafeFn i)))
        else .ok ()
      else .error (.bail msg (.one (.param i)))
    | [.typed _ _] => .error (.bail msg (.one (.param i)))
    | _ :: _ :: _ => .error (.bail msg (.one (.params i)))

/-- pinned_drop.rs:85-97: the check of the items. -/
def validateItems : Nat → List ImplItem → LRes DropPlace Unit
  | _, [] => .ok ()
  | i, it :: its => do
    match it with
    | .const n => .error (.bail s!"const `{n}` is not a member of trait `PinnedDrop`" (.one (.member i)))
    | .type n => .error (.bail s!"type `{n}` is not a member of trait `PinnedDrop`" (.one (.member i)))
    | .fn m => do
      validateSig i m.sig
      if i = 0 then .ok () else .error (.bail "duplicate definitions with name `drop`" (.one (.member i)))
    | .other => .error (.panic "unexpected ImplItem")
    validateItems (i + 1) its

/-- pinned_drop.rs:63-69: the trait is `PinnedDrop`. -/
def checkTrait (t : Option (Bool × Path)) : LRes DropPlace Unit :=
  let msg := "#[pinned_drop] may only be used on implementation for the `PinnedDrop` trait"
  match t with
  | some (_, p) => if p.isIdent "PinnedDrop" then .ok () else .error (.bail msg (.one .traitPath))
  | none => .error (.bail msg (.one .selfTy))

/-- pinned_drop.rs:55-98 `validate_impl`. -/
def validateImpl (item : ItemImpl) : LRes DropPlace Unit :=
  match findAttr item.allAttrs "pinned_drop" with
  | some i => .error (.bail "duplicate #[pinned_drop] attribute" (.one (.attr i)))
  | none => do
    checkTrait item.trait_
    if item.isUnsafe then
      .error (.bail "implementing the trait `PinnedDrop` is not unsafe" (.one .unsafe_))
    else if item.items.isEmpty then
      .error (.bail "not all trait items implemented, missing: `drop`" (.one .item))
    else if !item.selfTy.isTyPath then
      .error (.bail "implementing the trait `PinnedDrop` on this type is unsupported" (.one .selfTy))
    else validateItems 0 item.items

/-- pinned_drop.rs:13-21: the checks of `attribute`. -/
def checkPinnedDrop (args : List TT) (item : ItemImpl) : LRes DropPlace Unit :=
  if !args.isEmpty then .error (.bail "unexpected argument" (.one .args))
  else validateImpl item

end PinProject.Locate
