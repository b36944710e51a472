import Verif.Model.Args
/-!
# Specification of the `#[pin_project(...)]` argument list

Written from the documentation (pin-project-internal/src/lib.rs), independently of the parser:
the list of arguments, how an argument list may be written down, when it is acceptable and which
configuration it means.
-/
namespace PinProject.Spec

/-- An argument of `#[pin_project(...)]`. -/
inductive Arg
  | pinnedDrop | unsafeUnpin | notUnpin
  | project (name : String)
  | projectRef (name : String)
  | projectReplace
  | projectReplaceNamed (name : String)
  deriving DecidableEq, Repr

/-- The keyword of an argument; each may be given at most once. -/
inductive Kind
  | pinnedDrop | unsafeUnpin | notUnpin | project | projectRef | projectReplace
  deriving DecidableEq, Repr

def Arg.kind : Arg → Kind
  | .pinnedDrop => .pinnedDrop
  | .unsafeUnpin => .unsafeUnpin
  | .notUnpin => .notUnpin
  | .project _ => .project
  | .projectRef _ => .projectRef
  | .projectReplace | .projectReplaceNamed _ => .projectReplace

/-- The name an argument gives to a generated type. -/
def Arg.name? : Arg → Option String
  | .project n | .projectRef n | .projectReplaceNamed n => some n
  | _ => none

/-- The keywords that are in use (Rust reference, "Strict keywords", edition 2018). -/
def strictKeywords : List String :=
  ["as", "break", "const", "continue", "crate", "else", "enum", "extern", "false", "fn", "for", "if", "impl", "in",
   "let", "loop", "match", "mod", "move", "mut", "pub", "ref", "return", "self", "Self", "static", "struct", "super",
   "trait", "true", "type", "unsafe", "use", "where", "while", "async", "await", "dyn"]

/-- The keywords that are not used yet (Rust reference, "Reserved keywords", edition 2018). -/
def reservedKeywords : List String :=
  ["abstract", "become", "box", "do", "final", "macro", "override", "priv", "typeof", "unsized", "virtual", "yield",
   "try"]

/-- A word that may name something: no keyword, and not `_`. -/
def Identifier (s : String) : Prop := s ∉ strictKeywords ∧ s ∉ reservedKeywords ∧ s ≠ "_"

instance (s : String) : Decidable (Identifier s) := inferInstanceAs (Decidable (_ ∧ _ ∧ _))

/-- The ways to write one argument. Spacing of punctuation does not matter. -/
inductive ArgToks : Arg → List TT → Prop
  | pinnedDrop : ArgToks .pinnedDrop [.ident "PinnedDrop"]
  | unsafeUnpin : ArgToks .unsafeUnpin [.ident "UnsafeUnpin"]
  | notUnpin (j : Bool) : ArgToks .notUnpin [.punct '!' j, .ident "Unpin"]
  | project (n : String) (j : Bool) : Identifier n →
      ArgToks (.project n) [.ident "project", .punct '=' j, .ident n]
  | projectRef (n : String) (j : Bool) : Identifier n →
      ArgToks (.projectRef n) [.ident "project_ref", .punct '=' j, .ident n]
  | projectReplace : ArgToks .projectReplace [.ident "project_replace"]
  | projectReplaceNamed (n : String) (j : Bool) : Identifier n →
      ArgToks (.projectReplaceNamed n) [.ident "project_replace", .punct '=' j, .ident n]

/-- The ways to write an argument list: comma separated, with an optional trailing comma. -/
inductive ArgsToks : List Arg → List TT → Prop
  | nil : ArgsToks [] []
  | last {a : Arg} {ts : List TT} : ArgToks a ts → ArgsToks [a] ts
  | cons {a : Arg} {as : List Arg} {ts us : List TT} (j : Bool) : ArgToks a ts → ArgsToks as us →
      ArgsToks (a :: as) (ts ++ .punct ',' j :: us)

/-- The acceptable argument lists. -/
structure Acceptable (as : List Arg) : Prop where
  /-- no keyword is repeated -/
  noDup : (as.map Arg.kind).Nodup
  /-- `PinnedDrop` excludes `project_replace` -/
  dropReplace : ¬ (.pinnedDrop ∈ as ∧ Kind.projectReplace ∈ as.map Arg.kind)
  /-- `UnsafeUnpin` excludes `!Unpin` -/
  unpin : ¬ (.unsafeUnpin ∈ as ∧ .notUnpin ∈ as)
  /-- the given names are pairwise different -/
  names : (as.filterMap Arg.name?).Nodup

/-- The configuration an argument list means. -/
def config (as : List Arg) : Args where
  pinnedDrop := decide (.pinnedDrop ∈ as)
  unpinImpl :=
    if .unsafeUnpin ∈ as then .unsafe_ else if .notUnpin ∈ as then .negative else .default
  project := as.findSome? (fun | .project n => some n | _ => none)
  projectRef := as.findSome? (fun | .projectRef n => some n | _ => none)
  projectReplace := (as.findSome? (fun
    | .projectReplace => some .unnamed
    | .projectReplaceNamed n => some (.named n)
    | _ => none)).getD .none

end PinProject.Spec
