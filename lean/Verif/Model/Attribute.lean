import Verif.Model.Args
/-!
# pin-project-internal/src/pin_project/attribute.rs
-/
namespace PinProject

/-- The input of the attribute macro: the outer attributes (`Attribute::parse_outer`,
attribute.rs:48) and the remaining tokens. -/
structure RawInput where
  attrs : List Attribute
  body : List TT
  deriving BEq, Inhabited

/-- Words accepted as path segments by `Path::parse_mod_style`. (used by `syn` for attribute.rs:48, 51) -/
def isModWord (s : String) : Bool :=
  isIdentWord s || s == "super" || s == "self" || s == "Self" || s == "crate" || s == "try"

/-- The rest of a mod-style path, after a segment: `:: seg :: seg ..`. (used by `syn` for attribute.rs:48, 51) -/
def modPathTail : List TT → Res (List String × List TT)
  | .punct c true :: .punct d j :: rest =>
    if c = ':' ∧ d = ':' then
      match rest with
      | .ident s :: rest' =>
        if isModWord s then do
          let (ss, r) ← modPathTail rest'
          .ok (s :: ss, r)
        else .error (.bail "expected identifier")
      | _ => .error (.bail "expected identifier")
    else .ok ([], .punct c true :: .punct d j :: rest)
  | toks => .ok ([], toks)

/-- `Path::parse_mod_style`: optional leading `::`, then segments. (used by `syn` for attribute.rs:48, 51) -/
def parseModPath : List TT → Res (SPath × List TT)
  | .punct c true :: .punct d _ :: rest =>
    if c = ':' ∧ d = ':' then
      match rest with
      | .ident s :: rest' =>
        if isModWord s then do
          let (ss, r) ← modPathTail rest'
          .ok ({ leading := true, segs := s :: ss }, r)
        else .error (.bail "expected identifier")
      | _ => .error (.bail "expected identifier")
    else .error (.bail "expected identifier")
  | .ident s :: rest =>
    if isModWord s then do
      let (ss, r) ← modPathTail rest
      .ok ({ leading := false, segs := s :: ss }, r)
    else .error (.bail "expected identifier")
  | _ => .error (.bail "expected identifier")

/-- attribute.rs:51 `ahead.parse::<Visibility>()`: the tokens after the visibility. A `pub`
followed by a parenthesis that is not a visibility restriction (a tuple field type in other
contexts) is a plain `pub`. -/
def skipVis : List TT → Res (List TT)
  | .ident "pub" :: rest =>
    match rest with
    | .group .paren inner :: rest' =>
      match inner with
      | .ident k :: more =>
        if k = "crate" ∨ k = "self" ∨ k = "super" then
          if more.isEmpty then .ok rest' else .ok rest
        else if k = "in" then do
          let (_, r) ← parseModPath more
          if r.isEmpty then .ok rest' else .error (.bail "unexpected token")
        else .ok rest
      | _ => .ok rest
    | _ => .ok rest
  | toks => .ok toks

/-- attribute.rs:52: does the item start with `struct` or `enum`? -/
def peekStructOrEnum : List TT → Bool
  | .ident s :: _ => s == "struct" || s == "enum"
  | _ => false

/-- attribute.rs:47-65 `Input::parse`. -/
def parseInput (i : RawInput) : Res RawInput := do
  let ahead ← skipVis i.body
  if !peekStructOrEnum ahead then
    .error (.bail "#[pin_project] attribute may only be used on structs or enums")
  else if (findAttr i.attrs "pin").isSome then
    .error (.bail "#[pin] attribute may only be used on fields of structs or variants")
  else if (findAttr i.attrs "pin_project").isSome then
    .error (.bail "duplicate #[pin_project] attribute")
  else .ok i

/-- `#[derive(::pin_project::__private::__PinProjectInternalDerive)]`, attribute.rs:32. -/
def deriveAttr : Attribute :=
  ⟨.list { segs := ["derive"] } .paren
    [.punct ':' true, .punct ':' false, .ident "pin_project", .punct ':' true, .punct ':' false,
     .ident "__private", .punct ':' true, .punct ':' false, .ident "__PinProjectInternalDerive"]⟩

/-- `#[pin(__private(#args))]`, attribute.rs:36. -/
def pinPrivateAttr (args : List TT) : Attribute :=
  ⟨.list { segs := ["pin"] } .paren [.ident "__private", .group .paren args]⟩

/-- attribute.rs:27-39 `parse_attribute`. -/
def parseAttribute (args : List TT) (i : RawInput) : Res RawInput := do
  let i ← parseInput i
  .ok { attrs := i.attrs ++ [deriveAttr, pinPrivateAttr args], body := i.body }

end PinProject
