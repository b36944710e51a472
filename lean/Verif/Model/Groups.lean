import Verif.Model.PinnedDrop
import Verif.Model.Derive
/-!
# Invisible groups

If a definition or an argument of a macro is written by a `macro_rules!` macro, what was matched by `$x:ty`, `$x:vis`,
`$x:meta`, .. arrives at a procedural macro in an invisible group (`Delimiter::None`). `syn` looks through these groups when it
looks for the next token, but not when it checks whether there are more tokens.

Here are the functions of `Model/Args`, `Model/Attribute` and `Model/Derive` that read tokens, for tokens with invisible groups.
-/
namespace PinProject

/-- `proc_macro2::TokenTree`, with `Delimiter::None` (`none`).
(the tokens of args.rs:58, attribute.rs:28 and derive.rs:1045) -/
inductive RT
  | ident (s : String)
  | punct (c : Char) (joint : Bool)
  | lit (s : String)
  | group (d : Option Delim) (ts : List RT)
  deriving Repr, Inhabited

mutual
/-- See `openHead`: `rest` are the tokens after this one, `op` the same if this one disappears.
(for the parsers of args.rs:75-166) -/
def RT.openWith : RT → (rest op : List RT) → List RT
  | .group none ts, rest, op => openAll ts rest op
  | .group (some d) ts, rest, _ => .group (some d) ts :: rest
  | .ident s, rest, _ => .ident s :: rest
  | .punct c j, rest, _ => .punct c j :: rest
  | .lit s, rest, _ => .lit s :: rest
/-- See `openHead`: for the parsers of args.rs:75-166. -/
def openAll : List RT → (rest op : List RT) → List RT
  | [], _, op => op
  | t :: ts, rest, op => t.openWith (ts ++ rest) (openAll ts rest op)
end

/-- `syn::buffer::Cursor::ignore_none`: enter invisible groups until there is another token. (The end of an invisible group
is skipped whenever it is reached.) (for the parsers of args.rs:75-166) -/
def openHead (toks : List RT) : List RT := openAll toks [] []

namespace Raw

/-- `input.parse::<Ident>()`. (args.rs:94, 122) -/
def parseIdent (toks : List RT) : Res (String × List RT) :=
  match openHead toks with
  | .ident s :: rest =>
    if isIdentWord s then .ok (s, rest) else .error (.bail s!"expected identifier, found keyword `{s}`")
  | _ => .error (.bail "expected identifier")

/-- `input.peek(Token![c])`. (args.rs:111, 141) -/
def peekPunct (c : Char) (toks : List RT) : Bool :=
  match openHead toks with
  | .punct d _ :: _ => c == d
  | _ => false

/-- `input.parse::<Token![c]>()`. (args.rs:89, 112, 165) -/
def parsePunct (c : Char) (toks : List RT) : Res (List RT) :=
  match openHead toks with
  | .punct d _ :: rest => if c == d then .ok rest else .error (.bail s!"expected `{c}`")
  | _ => .error (.bail s!"expected `{c}`")

/-- args.rs:81-100 `parse_value`. -/
def parseValue (toks : List RT) (name : String) (hasPrev : Bool) : Res (String × List RT) :=
  if toks.isEmpty then .error (.bail s!"expected `{name} = <identifier>`, found `{name}`")
  else do
    let toks ← parsePunct '=' toks
    if toks.isEmpty then .error (.bail s!"expected `{name} = <identifier>`, found `{name} =`")
    else do
      let (v, toks) ← parseIdent toks
      if hasPrev then .error (.bail s!"duplicate `{name}` argument") else .ok (v, toks)

/-- args.rs:77 `kw::Unpin`. -/
def parseKwUnpin (toks : List RT) : Res (List RT) :=
  match openHead toks with
  | .ident s :: rest => if s == "Unpin" then .ok rest else .error (.bail "expected `Unpin`")
  | _ => .error (.bail "expected `Unpin`")

/-- args.rs:111-160: one argument. -/
def parseArg (a : ArgAcc) (toks : List RT) : Res (ArgAcc × List RT) :=
  if peekPunct '!' toks then do
    let toks ← parsePunct '!' toks
    if toks.isEmpty then .error (.bail "expected `!Unpin`, found `!`")
    else do
      let toks ← parseKwUnpin toks
      if a.notUnpin then .error (.bail "duplicate `!Unpin` argument")
      else .ok ({ a with notUnpin := true }, toks)
  else do
    let (token, toks) ← parseIdent toks
    if token = "PinnedDrop" then
      if a.pinnedDrop then .error (.bail "duplicate `PinnedDrop` argument")
      else .ok ({ a with pinnedDrop := true }, toks)
    else if token = "UnsafeUnpin" then
      if a.unsafeUnpin then .error (.bail "duplicate `UnsafeUnpin` argument")
      else .ok ({ a with unsafeUnpin := true }, toks)
    else if token = "project" then do
      let (v, toks) ← parseValue toks token a.project.isSome
      .ok ({ a with project := some v }, toks)
    else if token = "project_ref" then do
      let (v, toks) ← parseValue toks token a.projectRef.isSome
      .ok ({ a with projectRef := some v }, toks)
    else if token = "project_replace" then
      if peekPunct '=' toks then do
        let (v, toks) ← parseValue toks token a.prSpan
        .ok ({ a with prValue := some v, prSpan := true }, toks)
      else if a.prSpan then .error (.bail "duplicate `project_replace` argument")
      else .ok ({ a with prSpan := true }, toks)
    else if token = "Replace" then
      .error (.bail "`Replace` argument was removed, use `project_replace` argument instead")
    else .error (.bail s!"unexpected argument: {token}")

mutual
/-- The number of tokens, without the groups themselves if they are invisible.
(a bound on the number of iterations of args.rs:110-166) -/
def weight : RT → Nat
  | .group none ts => weightAll ts
  | .group (some _) _ => 1
  | .ident _ => 1
  | .punct _ _ => 1
  | .lit _ => 1
/-- The sum of the weights, for args.rs:110-166. -/
def weightAll : List RT → Nat
  | [] => 0
  | t :: ts => weight t + weightAll ts
end

/-- The loop of args.rs:110-166, see `PinProject.parseLoop`. -/
def parseLoop : Nat → ArgAcc → List RT → Res ArgAcc
  | _, a, [] => .ok a
  | 0, _, _ :: _ => .error (.panic "out of fuel")
  | n + 1, a, toks => do
    let (a, toks) ← parseArg a toks
    if toks.isEmpty then .ok a
    else do
      let toks ← parsePunct ',' toks
      parseLoop n a toks

/-- args.rs:75-211 `Args::parse`. -/
def parseArgs (toks : List RT) : Res Args := do
  let a ← parseLoop (weightAll toks) {} toks
  a.finish

/-- The rest of a mod-style path, see `PinProject.modPathTail`. The fuel bounds the number of segments.
(used by `syn` for attribute.rs:51) -/
def modPathTail : Nat → List RT → Res (List String × List RT)
  | 0, toks => .ok ([], toks)
  | n + 1, toks =>
    match openHead toks with
    | .punct c true :: rest =>
      match openHead rest with
      | .punct d _ :: rest =>
        if c = ':' ∧ d = ':' then
          match openHead rest with
          | .ident s :: rest =>
            if isModWord s then do
              let (ss, r) ← modPathTail n rest
              .ok (s :: ss, r)
            else .error (.bail "expected identifier")
          | _ => .error (.bail "expected identifier")
        else .ok ([], toks)
      | _ => .ok ([], toks)
    | _ => .ok ([], toks)

/-- `Path::parse_mod_style`. (used by `syn` for attribute.rs:51 and derive.rs:1045) -/
def parseModPath (toks : List RT) : Res (SPath × List RT) :=
  match openHead toks with
  | .punct c true :: rest =>
    match openHead rest with
    | .punct d _ :: rest =>
      if c = ':' ∧ d = ':' then
        match openHead rest with
        | .ident s :: rest =>
          if isModWord s then do
            let (ss, r) ← modPathTail (weightAll rest) rest
            .ok ({ leading := true, segs := s :: ss }, r)
          else .error (.bail "expected identifier")
        | _ => .error (.bail "expected identifier")
      else .error (.bail "expected identifier")
    | _ => .error (.bail "expected identifier")
  | .ident s :: rest =>
    if isModWord s then do
      let (ss, r) ← modPathTail (weightAll rest) rest
      .ok ({ leading := false, segs := s :: ss }, r)
    else .error (.bail "expected identifier")
  | _ => .error (.bail "expected identifier")

/-- The tokens after a name-value argument, see `takeValue`, and whether there is a value. The fuel bounds the number of tokens.
(derive.rs:1045) -/
def skipValue : Nat → List RT → Bool × List RT
  | 0, toks => (false, toks)
  | n + 1, toks =>
    match openHead toks with
    | [] => (false, toks)
    | .punct c _ :: rest => if c = ',' then (false, toks) else (true, (skipValue n rest).2)
    | _ :: rest => (true, (skipValue n rest).2)

/-- `syn::Meta::parse`, see `PinProject.parseMeta`: the path, and whether it is `path = value`. (derive.rs:1045) -/
def parseMeta (toks : List RT) : Res ((SPath × Bool) × List RT) := do
  let (p, toks) ← parseModPath toks
  match openHead toks with
  | .group (some _) _ :: rest => .ok ((p, false), rest)
  | .punct c _ :: rest =>
    if c = '=' then
      let (v, rest) := skipValue (weightAll rest) rest
      if v then .ok ((p, true), rest) else .error (.bail "expected expression")
    else .ok ((p, false), toks)
  | _ => .ok ((p, false), toks)

/-- derive.rs:1045 `Punctuated::<Meta, Token![,]>::parse_terminated`, see `PinProject.parseMetas`. -/
def parseMetas : Nat → List RT → Res (List (SPath × Bool))
  | _, [] => .ok []
  | 0, _ :: _ => .error (.panic "out of fuel")
  | n + 1, toks => do
    let (m, toks) ← parseMeta toks
    if toks.isEmpty then .ok [m]
    else do
      let toks ← parsePunct ',' toks
      let ms ← parseMetas n toks
      .ok (m :: ms)

/-- derive.rs:1045-1063: the arguments of one `#[repr(..)]` attribute. -/
def checkRepr (isStruct : Bool) (toks : List RT) : Res Unit := do
  let ms ← parseMetas (weightAll toks) toks
  match ms.find? (fun m => m.1.isIdent "packed") with
  | none => .ok ()
  | some m => .error (.bail (
      if !isStruct then "#[repr(packed)] attribute should be applied to a struct or union"
      else if m.2 then "#[repr(packed)] attribute should not be name-value pair"
      else "#[pin_project] attribute may not be used on #[repr(packed)] types"))

/-- attribute.rs:51 `ahead.parse::<Visibility>()`: an empty invisible group is `$vis:vis` without a visibility; otherwise see
`PinProject.skipVis`. -/
def skipVis (toks : List RT) : Res (List RT) :=
  match toks with
  | .group none [] :: rest => .ok rest
  | toks =>
    match openHead toks with
    | .ident "pub" :: rest =>
      match openHead rest with
      | .group (some .paren) inner :: rest' =>
        match openHead inner with
        | .ident k :: more =>
          if k = "crate" ∨ k = "self" ∨ k = "super" then
            if more.isEmpty then .ok rest' else .ok rest
          else if k = "in" then do
            let (_, r) ← parseModPath more
            if r.isEmpty then .ok rest' else .error (.bail "unexpected token")
          else .ok rest
        | _ => .ok rest
      | _ => .ok rest
    | _ => .ok toks

/-- attribute.rs:52: does the item start with `struct` or `enum`? -/
def peekStructOrEnum (toks : List RT) : Bool :=
  match openHead toks with
  | .ident s :: _ => s == "struct" || s == "enum"
  | _ => false

/-- attribute.rs:47-65 `Input::parse`, after the outer attributes. -/
def parseInput (attrs : List Attribute) (body : List RT) : Res Unit := do
  let ahead ← skipVis body
  if !peekStructOrEnum ahead then
    .error (.bail "#[pin_project] attribute may only be used on structs or enums")
  else if (findAttr attrs "pin").isSome then
    .error (.bail "#[pin] attribute may only be used on fields of structs or variants")
  else if (findAttr attrs "pin_project").isSome then
    .error (.bail "duplicate #[pin_project] attribute")
  else .ok ()

end Raw
end PinProject
