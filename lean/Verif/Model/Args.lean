import Verif.Model.Utils
/-!
# pin-project-internal/src/pin_project/args.rs
-/
namespace PinProject

/-- args.rs:216-222 `UnpinImpl`. -/
inductive UnpinImpl
  | default | unsafe_ | negative
  deriving DecidableEq, Repr, Inhabited

/-- args.rs:225-236 `ProjReplace`. -/
inductive ProjReplace
  | none | unnamed | named (ident : String)
  deriving DecidableEq, Repr, Inhabited

/-- args.rs:240-245 `ProjReplace::span(..).is_some()`. -/
def ProjReplace.isSome : ProjReplace → Bool
  | .none => false
  | _ => true

/-- args.rs:247-249 `ProjReplace::ident`. -/
def ProjReplace.ident : ProjReplace → Option String
  | .named i => some i
  | _ => Option.none

/-- args.rs:61-72 `Args`. Spans become booleans. -/
structure Args where
  pinnedDrop : Bool := false
  unpinImpl : UnpinImpl := .default
  project : Option String := none
  projectRef : Option String := none
  projectReplace : ProjReplace := .none
  deriving DecidableEq, Repr, Inhabited

/-- The local variables of `Args::parse`, args.rs:102-108. -/
structure ArgAcc where
  pinnedDrop : Bool := false
  unsafeUnpin : Bool := false
  notUnpin : Bool := false
  project : Option String := none
  projectRef : Option String := none
  prValue : Option String := none
  prSpan : Bool := false
  deriving DecidableEq, Repr, Inhabited

/-- `input.parse::<Ident>()`. (args.rs:94, 122) -/
def parseIdent : List TT → Res (String × List TT)
  | .ident s :: rest =>
    if isIdentWord s then .ok (s, rest) else .error (.bail s!"expected identifier, found keyword `{s}`")
  | _ => .error (.bail "expected identifier")

/-- Peek/parse of a single-character punctuation token such as `=`, `,` or `!`. (args.rs:111, 141) -/
def peekPunct (c : Char) : List TT → Bool
  | .punct d _ :: _ => c == d
  | _ => false

/-- `input.parse::<Token![c]>()`. (args.rs:89, 112, 165) -/
def parsePunct (c : Char) : List TT → Res (List TT)
  | .punct d _ :: rest => if c == d then .ok rest else .error (.bail s!"expected `{c}`")
  | _ => .error (.bail s!"expected `{c}`")

/-- args.rs:81-100 `parse_value`. -/
def parseValue (toks : List TT) (name : String) (hasPrev : Bool) : Res (String × List TT) :=
  if toks.isEmpty then .error (.bail s!"expected `{name} = <identifier>`, found `{name}`")
  else do
    let toks ← parsePunct '=' toks
    if toks.isEmpty then .error (.bail s!"expected `{name} = <identifier>`, found `{name} =`")
    else do
      let (v, toks) ← parseIdent toks
      if hasPrev then .error (.bail s!"duplicate `{name}` argument") else .ok (v, toks)

/-- args.rs:77 `kw::Unpin`. -/
def parseKwUnpin : List TT → Res (List TT)
  | .ident s :: rest => if s == "Unpin" then .ok rest else .error (.bail "expected `Unpin`")
  | _ => .error (.bail "expected `Unpin`")

/-- One iteration of the loop, args.rs:111-160: parses one argument. -/
def parseArg (a : ArgAcc) (toks : List TT) : Res (ArgAcc × List TT) :=
  if peekPunct '!' toks then do
    let toks ← parsePunct '!' toks
    if toks.isEmpty then .error (.bail "expected `!Unpin`, found `!`")
    else do
      let toks ← parseKwUnpin toks
      if a.notUnpin then .error (.bail "duplicate `!Unpin` argument")
      else .ok ({ a with notUnpin := true }, toks)
  else do
    let (token, toks) ← parseIdent toks
    if token = "PinnedDrop" then
      if a.pinnedDrop then .error (.bail "duplicate `PinnedDrop` argument")
      else .ok ({ a with pinnedDrop := true }, toks)
    else if token = "UnsafeUnpin" then
      if a.unsafeUnpin then .error (.bail "duplicate `UnsafeUnpin` argument")
      else .ok ({ a with unsafeUnpin := true }, toks)
    else if token = "project" then do
      let (v, toks) ← parseValue toks token a.project.isSome
      .ok ({ a with project := some v }, toks)
    else if token = "project_ref" then do
      let (v, toks) ← parseValue toks token a.projectRef.isSome
      .ok ({ a with projectRef := some v }, toks)
    else if token = "project_replace" then
      if peekPunct '=' toks then do
        let (v, toks) ← parseValue toks token a.prSpan
        .ok ({ a with prValue := some v, prSpan := true }, toks)
      else if a.prSpan then .error (.bail "duplicate `project_replace` argument")
      else .ok ({ a with prSpan := true }, toks)
    else if token = "Replace" then
      .error (.bail "`Replace` argument was removed, use `project_replace` argument instead")
    else .error (.bail s!"unexpected argument: {token}")

/-- The loop of args.rs:110-166. The fuel is an upper bound on the number of iterations;
`Args.parse` passes the number of tokens, and running out of it is a separate error that the
theorems show to be unreachable. -/
def parseLoop : Nat → ArgAcc → List TT → Res ArgAcc
  | _, a, [] => .ok a
  | 0, _, _ :: _ => .error (.panic "out of fuel")
  | n + 1, a, toks => do
    let (a, toks) ← parseArg a toks
    if toks.isEmpty then .ok a
    else do
      let toks ← parsePunct ',' toks
      parseLoop n a toks

/-- args.rs:168-183: the checks of the names. -/
def ArgAcc.checkNames (a : ArgAcc) : Res Unit :=
  if a.project.isSome || a.projectRef.isSome then
    if a.project = a.projectRef then
      .error (.bail s!"name `{a.projectRef.getD ""}` is already specified by `project` argument")
    else match a.prValue with
      | some ident =>
        if a.project = a.prValue then
          .error (.bail s!"name `{ident}` is already specified by `project` argument")
        else if a.projectRef = a.prValue then
          .error (.bail s!"name `{ident}` is already specified by `project_ref` argument")
        else .ok ()
      | none => .ok ()
  else .ok ()

/-- args.rs:193-197. -/
def ArgAcc.projectReplace (a : ArgAcc) : ProjReplace :=
  match a.prSpan, a.prValue with
  | false, _ => .none
  | true, some i => .named i
  | true, none => .unnamed

/-- args.rs:198-208. -/
def ArgAcc.unpinImpl (a : ArgAcc) : Res UnpinImpl :=
  match a.unsafeUnpin, a.notUnpin with
  | false, false => .ok UnpinImpl.default
  | true, false => .ok .unsafe_
  | false, true => .ok .negative
  | true, true => .error (.bail "arguments `UnsafeUnpin` and `!Unpin` are mutually exclusive")

/-- args.rs:168-210: the checks after the loop. -/
def ArgAcc.finish (a : ArgAcc) : Res Args := do
  a.checkNames
  if a.pinnedDrop && a.prSpan then
    .error (.bail "arguments `PinnedDrop` and `project_replace` are mutually exclusive")
  else do
    let unpinImpl ← a.unpinImpl
    .ok { pinnedDrop := a.pinnedDrop, unpinImpl, project := a.project,
          projectRef := a.projectRef, projectReplace := a.projectReplace }

/-- args.rs:75-211 `Args::parse`. -/
def Args.parse (toks : List TT) : Res Args := do
  let a ← parseLoop toks.length {} toks
  a.finish

/-- args.rs:16-29: `(__private(<args>))` → `<args>`. The outer result is the error of
`syn::parse2` for leftover tokens; the inner option is the value of `Input`. -/
def parsePrivate (toks : List TT) : Res (Option (List TT)) :=
  match toks with
  | .ident s :: rest =>
    if isIdentWord s then
      if s = "__private" then
        match rest with
        | .group .paren inner :: rest' =>
          if rest'.isEmpty then .ok (some inner) else .error (.bail "unexpected token")
        | _ => if rest.isEmpty then .ok none else .error (.bail "unexpected token")
      else if rest.isEmpty then .ok none else .error (.bail "unexpected token")
    else .error (.bail "unexpected token")
  | [] => .ok none
  | _ => .error (.bail "unexpected token")

/-- args.rs:14-59 `parse_args`. -/
def parseArgs (attrs : List Attribute) : Res Args :=
  match findAttr attrs "pin_project" with
  | some _ => .error (.bail "duplicate #[pin_project] attribute")
  | none =>
    match attrs.filter (fun a => a.path.isIdent "pin") with
    | [] => .error (.bail "#[pin_project] attribute has been removed")
    | a :: more => do
      let prev ← parsePrivate (← a.m.requireList)
      match more with
      | b :: _ => do
        let _ ← parsePrivate (← b.m.requireList)
        .error (.bail "duplicate #[pin] attribute")
      | [] =>
        match prev with
        | some toks => Args.parse toks
        | none => .error (.panic "called `Option::unwrap()` on a `None` value")

end PinProject
