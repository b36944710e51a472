/-!
# Token trees and results

Model of the part of `proc_macro2` used by pin-project.
Tokens of the input have no spans here, which only influence where errors are shown (for this see `Model/Locate`); for
the spans of the output see `Model/Emit`.
-/
namespace PinProject

/-- `proc_macro2::Delimiter`. For tokens with None-delimited groups see `Model/Groups`. (derive.rs:364-365, 577) -/
inductive Delim
  | paren | brace | bracket
  deriving DecidableEq, Repr

/-- `proc_macro2::TokenTree`.
`joint` is `Spacing::Joint`. A raw identifier carries its `r#` prefix in the string, as
`Ident::to_string` prints it. A lifetime is the punct `'` followed by an ident. (utils.rs:235-268, 357-361) -/
inductive TT
  | ident (s : String)
  | punct (c : Char) (joint : Bool)
  | lit (s : String)
  | group (d : Delim) (ts : List TT)
  deriving Repr, BEq, Inhabited

/-- An error of the macro.
`bail` is a `syn::Error` (reported as `compile_error!`), see error.rs:3-16;
`panic` is a panic of the macro itself (`unwrap`, `unreachable!`), which rustc also
turns into a compilation failure. -/
inductive Err
  | bail (msg : String)
  | panic (msg : String)
  deriving DecidableEq, Repr, Inhabited

/-- `syn::Result`. (error.rs:12-16) -/
abbrev Res (α : Type) := Except Err α

/-- Words that `syn` refuses to parse as an identifier (`accept_as_ident` in `syn::ident`,
an external dependency; listed here because `input.parse::<Ident>()` is used by
args.rs:94 and args.rs:122). -/
def keywords : List String :=
  ["_", "abstract", "as", "async", "await", "become", "box", "break", "const", "continue",
   "crate", "do", "dyn", "else", "enum", "extern", "false", "final", "fn", "for", "if", "impl",
   "in", "let", "loop", "macro", "match", "mod", "move", "mut", "override", "priv", "pub", "ref",
   "return", "Self", "self", "static", "struct", "super", "trait", "true", "try", "type",
   "typeof", "unsafe", "unsized", "use", "virtual", "where", "while", "yield"]

/-- Is the word usable as an identifier for `syn`? (args.rs:94, 122) -/
def isIdentWord (s : String) : Bool := !keywords.contains s

end PinProject
