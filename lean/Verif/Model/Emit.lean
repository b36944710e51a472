import Verif.Model.Derive
import Verif.Model.PinnedDrop
/-!
# The tokens of the expansion

The token streams that the `quote!` templates of derive.rs and pinned_drop.rs produce for the terms of
`Model/Gen.lean`, with the span that each token of a template gets. `Test/Snapshots.lean` compares these tokens
with the recorded expansions in /repo/tests/expand.

A token of a template has the span of the template: `quote!` uses `Span::call_site()`, `quote_spanned!` the span of
an argument of `#[pin_project(..)]`. Tokens that are interpolated keep their own span.
-/
namespace PinProject

/-- The spans that templates use: `Span::call_site()`, and the spans of the arguments `PinnedDrop`
(args.rs:125), `UnsafeUnpin` or `!Unpin` (args.rs:118, 130) and `project_replace` (args.rs:145, 149). -/
inductive Span
  | site | pinnedDrop | unpin | replace
  deriving DecidableEq, Repr, Inhabited

/-- A token of the expansion. (the `TokenStream`s of derive.rs:52-55, 291-308) -/
inductive ETok
  /-- a token of the annotated item or of the arguments, or an identifier made from one (`format_ident!` gives it
  the span of that identifier); it has the span that it had in the input -/
  | user (text : String)
  /-- a word of a template: a keyword or an identifier -/
  | word (w : String) (s : Span)
  /-- a lifetime of a template -/
  | life (l : String) (s : Span)
  /-- a number of a template (derive.rs:1128) -/
  | lit (n : String) (s : Span)
  /-- punctuation and delimiters; `::`, `->` and `=>` are one token -/
  | punct (p : String) (s : Span)
  /-- an attribute `#[name(args)]` or `#[name]` of a template -/
  | attr (name : String) (args : List String) (s : Span)
  deriving DecidableEq, Repr, Inhabited

/-- derive.rs:74, a `quote!` template: a word with the span `s`. -/
abbrev ETok.w (s : Span) (w : String) : ETok := .word w s
/-- derive.rs:74, a `quote!` template: punctuation with the span `s`. -/
abbrev ETok.p (s : Span) (p : String) : ETok := .punct p s

/-- A template: its span, and the lifetime of the projection, `Lifetime::new(&lifetime_name, Span::call_site())`
(derive.rs:214). -/
structure Quote where
  lt : String
  s : Span

namespace Emit

/-- derive.rs:52-55: a `TokenStream`. -/
abbrev Toks := List ETok

/-! ## Tokens of the user -/

/-- Words, and each other character by itself. (the text of a label of `Node`, for `#ty` in derive.rs:595-620) -/
def lexFrom (word : List Char) : List Char → List String
  | [] => if word.isEmpty then [] else [String.ofList word.reverse]
  | c :: cs =>
    if c.isAlphanum || c == '_' || c == '\'' then lexFrom (c :: word) cs
    else (if word.isEmpty then [] else [String.ofList word.reverse]) ++
      (if c.isWhitespace then lexFrom [] cs else c.toString :: lexFrom [] cs)

/-- The text of a label, see `lexFrom` (`#ty` in derive.rs:595-620). -/
def lex (s : String) : List String := lexFrom [] s.toList

mutual
/-- A token of the user, e.g. of a macro in a type, `#ty` in derive.rs:595-620. -/
def tt : TT → List String
  | .ident s => [s]
  | .punct c _ => [c.toString]
  | .lit s => [s]
  | .group .paren ts => ["("] ++ tts ts ++ [")"]
  | .group .bracket ts => ["["] ++ tts ts ++ ["]"]
  | .group .brace ts => ["{"] ++ tts ts ++ ["}"]
/-- Tokens of the user, `#ty` in derive.rs:595-620. -/
def tts : List TT → List String
  | [] => []
  | t :: ts => tt t ++ tts ts
end

/-- `<..>` in user syntax, `#ty` in derive.rs:595-620. -/
def angled (ts : List String) : List String := ["<"] ++ ts ++ [">"]

mutual
/-- User syntax. Simplification: a node of kind `other` or `item` is printed as its label and its children.
(`#ty` in derive.rs:595-620, 766; `#self_ty` in pinned_drop.rs:41) -/
def node : Node → List String
  | .tyPath q p | .exprPath q p => qself q ++ path p
  | .exprStruct q p cs | .patStruct q p cs | .patTupleStruct q p cs => qself q ++ path p ++ nodes cs
  | .path p => path p
  | .mac p ts => path p ++ ["!", "("] ++ tts ts ++ [")"]
  | .itemMac p ts => path p ++ ["!", "{"] ++ tts ts ++ ["}"]
  | .item l cs => lex l ++ ["(", ")", "{"] ++ nodes cs ++ ["}"]
  | .binder lts => "for" :: angled (lts.flatMap (fun l => [l, ","]))
  | .lifetime n => [n]
  | .other l cs => lex l ++ nodes cs
/-- The `<T as ..>` of a path in user syntax, see `node` (derive.rs:595-620). -/
def qself : QS → List String
  | .none => []
  | .some t _ => ["<"] ++ node t ++ [">"]
/-- A path in user syntax, see `node` (derive.rs:595-620). -/
def path : Path → List String
  | .mk l segs => (if l then ["::"] else []) ++ segsToks segs
/-- Its segments (derive.rs:595-620). -/
def segsToks : List Seg → List String
  | [] => []
  | [s] => seg s
  | s :: ss => seg s ++ ["::"] ++ segsToks ss
/-- One segment (derive.rs:595-620). -/
def seg : Seg → List String
  | .mk i a => i :: pargs a
/-- Its arguments (derive.rs:595-620). -/
def pargs : PArgs → List String
  | .none => []
  | .angle c args => (if c then ["::"] else []) ++ ["<"] ++ nodesSep args ++ [">"]
  | .paren args => ["("] ++ nodesSep args ++ [")"]
/-- Syntax without separators (derive.rs:595-620). -/
def nodes : List Node → List String
  | [] => []
  | n :: ns => node n ++ nodes ns
/-- Syntax separated by commas (derive.rs:595-620). -/
def nodesSep : List Node → List String
  | [] => []
  | n :: ns => node n ++ [","] ++ nodesSep ns
end

/-- `a::b::c` (`#vis` in derive.rs:397, 595) -/
def colons : List String → List String
  | [] => []
  | [t] => [t]
  | t :: ts => t :: "::" :: colons ts

/-- A visibility; `pub(crate)` made from `pub` has the span of `pub` (utils.rs:83). -/
def vis : Vis → Toks
  | .inherited => []
  | .pub => [.user "pub"]
  | .restricted i p => ((["pub", "("] ++ (if i then ["in"] else []) ++ (if p.leading then ["::"] else []) ++
      colons p.segs ++ [")"])).map .user

/-- A lifetime: that of the projection, or one of the user. (derive.rs:214, 595) -/
def life (lt l : String) : ETok := if l = lt then .life l .site else .user l

/-! ## Templates -/

section
variable (q : Quote)

/-- Words of the template. (e.g. derive.rs:964-974) -/
def W (w : String) : Toks := [.word w q.s]
/-- Punctuation of the template, e.g. derive.rs:964-974. -/
def P (p : String) : Toks := [.punct p q.s]
/-- An identifier of the user. (e.g. `#ident` in derive.rs:542) -/
def U (x : String) : Toks := [.user x]

/-- Each followed by a comma. (e.g. derive.rs:541-543, 591) -/
def sep (ts : List Toks) : Toks := ts.flatMap (· ++ P q ",")
/-- `(..)`, derive.rs:577-579 (`surround`), 967-969. -/
def parens (ts : List Toks) : Toks := P q "(" ++ sep q ts ++ P q ")"
/-- `<..>`, or nothing if empty: derive.rs:967; utils.rs:72-73. -/
def angles (ts : List Toks) : Toks := if ts.isEmpty then [] else P q "<" ++ sep q ts ++ P q ">"

/-- `root::__private::a::b` (derive.rs:595, 604) -/
def segments : List String → Toks
  | [] => []
  | n :: ns => P q "::" ++ W q n ++ segments ns
/-- `::pin_project` outside of the const (derive.rs:595) or `_pin_project` inside (derive.rs:101). -/
def root : Root → Toks
  | .abs => P q "::" ++ W q "pin_project"
  | .local_ => W q "_pin_project"
/-- A path in `__private`, derive.rs:595, 604. -/
def priv (r : Root) (names : List String) : Toks := root q r ++ segments q ("__private" :: names)

/-- An argument of `#ty_generics`, derive.rs:216, 955-957. -/
def garg : GArg → Toks
  | .lifetime s => [life q.lt s]
  | .ident s => U s

/-- `Name<args>`, `TypeGenerics` of `syn`. (derive.rs:714, 969, 1027) -/
def adt (name : String) (args : List GArg) : Toks := U name ++ angles q (args.map (garg q))

/-- Types. derive.rs:594-621 (fields), 705-706, 728-730, 807 (bounds), 823-829 (the helper struct), 967-969, 978-980,
989-992 (signatures). -/
def ty : GTy → Toks
  | .user n => (node n).map .user
  | .paren t => P q "(" ++ ty t ++ P q ")"
  | .ref lt m t => P q "&" ++ lt.toList.map (life q.lt) ++ (if m then W q "mut" else []) ++ ty t
  | .pin r t => priv q r ["Pin"] ++ P q "<" ++ ty t ++ P q ">"
  | .phantomData r t => priv q r ["PhantomData"] ++ P q "<" ++ ty t ++ P q ">"
  | .phantomPinned => priv q .local_ ["PhantomPinned"]
  | .adt n as => adt q n as
  | .param n => U n
  | .selfTy => W q "Self"
  | .ptrMut t => P q "*" ++ W q "mut" ++ ty t
  | .pinnedFieldsOf t => priv q .local_ ["PinnedFieldsOf"] ++ P q "<" ++ ty t ++ P q ">"
  | .wrapper lt t => priv q .local_ ["Wrapper"] ++ P q "<" ++ [life q.lt lt] ++ P q "," ++ ty t ++ P q ">"
  | .alwaysUnpin lt ps => priv q .local_ ["AlwaysUnpin"] ++ P q "<" ++ [life q.lt lt] ++ P q "," ++
      parens q (ps.map (fun p => priv q .local_ ["PhantomData"] ++ P q "<" ++ U p ++ P q ">")) ++ P q ">"
  | .unit => P q "(" ++ P q ")"

/-- derive.rs:714, 753, 869, 911-914, 927. -/
def trait_ : GTrait → Toks
  | .unpin => priv q .local_ ["Unpin"]
  | .unsafeUnpin => root q .local_ ++ segments q ["UnsafeUnpin"]
  | .drop => priv q .local_ ["Drop"]
  | .pinnedDrop => priv q .local_ ["PinnedDrop"]
  | .mustNotImplDrop n => U n

/-- The words separated by `+`, all of the user. (the bounds of a parameter, `#generics` in derive.rs:397) -/
def plus : List (List String) → List String
  | [] => []
  | [b] => b
  | b :: bs => b ++ ["+"] ++ plus bs

/-- A generic parameter: of the user, except for the lifetime of the projection (utils.rs:71-75). -/
def gparam : GParam → Toks
  | .lifetime n bs => life q.lt n :: (if bs.isEmpty then [] else ":" :: plus (bs.map (fun b => [b]))).map .user
  | .type n bs d => ((n :: (if bs.isEmpty then [] else ":" :: plus (bs.map node))) ++
      (match d with | some d => "=" :: node d | none => [])).map .user
  | .const n t d => (["const", n, ":"] ++ node t ++
      (match d with | some d => "=" :: node d | none => [])).map .user

/-- `#generics` and `#impl_generics`, derive.rs:397, 714, 1027. -/
def generics (ps : List GParam) : Toks := angles q (ps.map (gparam q))

/-- A predicate. A bound that is made with `parse_quote_spanned!` has the span `b` of its template
(derive.rs:704), others have the call-site span (derive.rs:727, 806; utils.rs:58-67). -/
def pred (b : Span) : WPred → Toks
  | .user n => (node n).map .user
  | .outlives t lt => ty ⟨q.lt, .site⟩ t ++ P ⟨q.lt, .site⟩ ":" ++ [life q.lt lt]
  | .bound t tr => ty ⟨q.lt, b⟩ t ++ P ⟨q.lt, b⟩ ":" ++ trait_ ⟨q.lt, b⟩ tr

/-- Simplification: a `where` that the user wrote is treated like a generated one.
(`#where_clause`, derive.rs:380-392, 715, 1027) -/
def wheres (b : Span) (ps : List WPred) : Toks :=
  if ps.isEmpty then [] else W ⟨q.lt, .site⟩ "where" ++ sep ⟨q.lt, .site⟩ (ps.map (pred q b))

/-- An attribute of a template, derive.rs:89, 100, 962. -/
def attr (name : String) (args : List String) : Toks := [.attr name args q.s]

/-- A field of a projected type or of the helper struct. Its name is the user's (derive.rs:595-620), or made by
`format_ident!("__field{}", i)` (derive.rs:765, 792), which has the call-site span. -/
def field (own : Bool) (f : GField) : Toks :=
  vis f.vis ++ (match f.ident with | some i => (if own then W q i else U i) ++ P q ":" | none => []) ++ ty q f.ty

/-- derive.rs:577-579 `surround`. -/
def delimited (d : Option Delim) (ts : List Toks) : Toks :=
  match d with
  | none => []
  | some .paren => P q "(" ++ sep q ts ++ P q ")"
  | some .brace => P q "{" ++ sep q ts ++ P q "}"
  | some .bracket => P q "[" ++ sep q ts ++ P q "]"

/-- derive.rs:633-635, 823-830. -/
def fields (own : Bool) (f : GFields) : Toks := delimited q f.delim (f.fields.map (field q own))

/-- The binding of a field, derive.rs:590: `ident.clone().unwrap_or_else(|| format_ident!("_{}", i))`. -/
def binder (d : Option Delim) (x : String) : Toks := if d = some .brace then U x else W ⟨q.lt, .site⟩ x

/-- derive.rs:411, 415, 419 and 551, 554, 557. -/
def pat (p : GPat) : Toks :=
  W q "Self" ++ (match p.variant with | some v => P q "::" ++ U v | none => []) ++
    delimited q p.delim (p.binders.map (binder q p.delim))

/-- derive.rs:604, 607, 623, 626. -/
def fexpr (d : Option Delim) : FExpr → Toks
  | .bind x => binder q d x
  | .pinNew x => priv q .local_ ["Pin", "new_unchecked"] ++ P q "(" ++ binder q d x ++ P q ")"
  | .read x => priv q .local_ ["ptr", "read"] ++ P q "(" ++ binder q d x ++ P q ")"
  | .phantom => priv q .local_ ["PhantomData"]

/-- derive.rs:603-608, 622-627. -/
def init (d : Option Delim) : GInit → Toks
  | .labelled i e => (match i with | some i => U i ++ P q ":" | none => []) ++ fexpr q d e
  | .bare x => binder q d x

/-- derive.rs:412, 551, 672. -/
def ctor (c : GCtor) : Toks :=
  U c.ty ++ (match c.variant with | some v => P q "::" ++ U v | none => []) ++
    delimited q c.delim (c.inits.map (init q c.delim))

/-- The word `unsafe`: also in a template with another span, "for interoperability with `forbid(unsafe_code)`,
`unsafe` token should be call-site span" (derive.rs:736-738, 865-867). -/
def unsafety : Toks := [.word "unsafe" .site]

/-- Expressions; `d` tells whether the fields have names. (derive.rs:411-420, 681, 686, 877-881, 999-1006) -/
def rhs (d : Option Delim) : RHS → Toks
  | .var x => W q x
  | .getUncheckedMut x => W q x ++ P q "." ++ W q "get_unchecked_mut" ++ P q "(" ++ P q ")"
  | .getRef x => W q x ++ P q "." ++ W q "get_ref" ++ P q "(" ++ P q ")"
  | .reborrow x => P q "&" ++ W q "mut" ++ P q "*" ++ W q x
  | .pinNew x => priv q .local_ ["Pin", "new_unchecked"] ++ P q "(" ++ W q x ++ P q ")"
  | .ctor c => ctor q c
  | .overwriteGuard p v =>
    priv q .local_ ["UnsafeOverwriteGuard", "new"] ++ P q "(" ++ W q p ++ P q "," ++ W q v ++ P q ")"
  | .dropGuard x => priv q .local_ ["UnsafeDropInPlaceGuard", "new"] ++ P q "(" ++ binder q d x ++ P q ")"
  | .pinnedDropCall x => priv q .local_ ["PinnedDrop", "drop"] ++ P q "(" ++ W q x ++ P q ")"
  | .unit => []

/-- The type ascription of `let __self_ptr: *mut Self` (derive.rs:999), the only one. -/
def ascription : Option String → Toks
  | some t => P q ":" ++ if t = "*mut Self" then P q "*" ++ W q "mut" ++ W q "Self" else W q t
  | none => []

/-- derive.rs:411, 415, 419, 672-686, 877-881, 999-1006. -/
def stmt (d : Option Delim) : GStmt → Toks
  | .letPat p e => W q "let" ++ pat q p ++ P q "=" ++ rhs q d e ++ P q ";"
  | .letVar x t e => W q "let" ++ W q x ++ ascription q t ++ P q "=" ++ rhs q d e ++ P q ";"
  | .scope ss => P q "{" ++ ss.flatMap (fun s => W q "let" ++ W q s.1 ++ P q "=" ++ rhs q d s.2 ++ P q ";") ++ P q "}"
  | .expr e => rhs q d e ++ P q ";"

/-- derive.rs:550-558. The arms of `project` and `project_ref` have no braces (`brace` is false). -/
def arm (brace : Bool) (a : GArm) : Toks :=
  pat q a.pat ++ P q "=>" ++ (if brace then P q "{" else []) ++ a.stmts.flatMap (stmt q a.pat.delim) ++
    rhs q a.pat.delim a.tail ++ (if brace then P q "}" else P q ",")

/-- The pattern of a struct (derive.rs:411, 415, 419) tells whether the fields have names. -/
def structDelim : List GStmt → Option Delim
  | [] => none
  | .letPat p _ :: _ => p.delim
  | _ :: ss => structDelim ss

/-- derive.rs:410-421, 494-508. -/
def body (b : GBody) : Toks :=
  b.stmts.flatMap (stmt q (structDelim b.stmts)) ++ match b.tail with
    | .expr e => rhs q (structDelim b.stmts) e
    | .match_ s arms => W q "match" ++ rhs q none s ++ P q "{" ++ arms.flatMap (fun a => arm q (!a.stmts.isEmpty) a) ++
        P q "}"

/-- derive.rs:873, 930, 968, 979, 990. -/
def receiver : GTy → Toks
  | .ref none true .selfTy => P q "&" ++ W q "mut" ++ W q "self"
  | t => W q "self" ++ P q ":" ++ ty q t

/-- The strings of `GFn.attrs`: `inline`, and `allow(lint)`. (derive.rs:872, 962, 966) -/
def fnAttr (a : String) : Toks :=
  if a = "allow(dead_code)" then attr q "allow" ["dead_code"]
  else if a = "allow(clippy::missing_inline_in_public_items)" then
    attr q "allow" ["clippy::missing_inline_in_public_items"]
  else attr q a []

/-- derive.rs:988-992, and the other signatures. -/
def sig (f : GFn) : Toks :=
  vis f.vis ++ (if f.isUnsafe then unsafety else []) ++
  W q "fn" ++ W q f.name ++ angles q (f.ltParam.toList.map (fun l => [life q.lt l])) ++
  parens q (receiver q f.recv :: f.params.map (fun p => W q p.1 ++ P q ":" ++ ty q p.2)) ++
  (match f.ret with | .unit => [] | t => P q "->" ++ ty q t)

/-- A function whose signature has the span `s` (derive.rs:987: "It is enough to only set the span of the
signature"). -/
def fn (s : Span) (f : GFn) : Toks :=
  f.attrs.flatMap (fnAttr q) ++ sig ⟨q.lt, s⟩ f ++
  P q "{" ++ (if f.unsafeBlock then unsafety ++ P q "{" ++ body q f.body ++ P q "}" else body q f.body) ++ P q "}"

end

/-- The span of the signature of a method, derive.rs:964-993. -/
def methodSpan (f : GFn) : Span := if f.name = "project_replace" then .replace else .site

/-- The span of the template of a trait impl (derive.rs:713, 739, 811, 868, 903) and of the bound in its where-clause
(derive.rs:704, 727, 806). -/
def implSpans (u : UnpinImpl) : GTrait → Span × Span
  | .drop => (.pinnedDrop, .site)
  | .unpin | .unsafeUnpin =>
    match u with
    | .unsafe_ => (.unpin, .unpin)
    | .negative => (.unpin, .site)
    | .default => (.site, .site)
  | _ => (.site, .site)

/-- The name or (derive.rs:1128) the index of a field. -/
def fieldRef (r : String) : Toks := if r.toList.all Char.isDigit then [.lit r .site] else [.user r]

/-- derive.rs:1137-1142: the function that borrows each field. -/
def assertFn (lt : String) (ps : List GParam) (n : String) (as : List GArg) (ws : List WPred) (refs : List String) :
    Toks :=
  let q : Quote := ⟨lt, .site⟩
  attr q "forbid" ["unaligned_references", "safe_packed_borrows"] ++ W q "fn" ++ W q "__assert_not_repr_packed" ++
    generics q ps ++ P q "(" ++ W q "this" ++ P q ":" ++ P q "&" ++ adt q n as ++ P q ")" ++ wheres q .site ws ++
    P q "{" ++ refs.flatMap (fun r => W q "let" ++ W q "_" ++ P q "=" ++ P q "&" ++ W q "this" ++ P q "." ++
      fieldRef r ++ P q ";") ++ P q "}"

/-- The functions of an item, with their names. (derive.rs:873, 930, 964-1012, 1139) -/
def functions (lt : String) (u : UnpinImpl) : GItem → List (String × Toks)
  | .inherent _ _ _ _ fns => fns.map (fun f => (f.name, fn ⟨lt, .site⟩ (methodSpan f) f))
  | .traitImpl _ _ _ tr _ _ _ fns =>
    fns.map (fun f => (f.name, fn ⟨lt, (implSpans u tr).1⟩ (implSpans u tr).1 f))
  | .assertNotPacked ps n as ws refs => [("__assert_not_repr_packed", assertFn lt ps n as ws refs)]
  | _ => []

/-- An item of the expansion. The helper struct of derive.rs:822 is the one whose fields have generated names. -/
def item (lt : String) (u : UnpinImpl) (own : Bool) : GItem → Toks
  | .struct_ attrs v n ps ws fs =>
    let q : Quote := ⟨lt, .site⟩
    attr q "allow" attrs ++ vis v ++ W q "struct" ++ U n ++ generics q ps ++
      if fs.delim = some .paren then fields q own fs ++ wheres q .site ws ++ P q ";"
      else wheres q .site ws ++ fields q own fs
  | .enum_ attrs v n ps ws vs =>
    let q : Quote := ⟨lt, .site⟩
    attr q "allow" attrs ++ vis v ++ W q "enum" ++ U n ++ generics q ps ++ wheres q .site ws ++
      P q "{" ++ sep q (vs.map (fun x => U x.1 ++ fields q own x.2)) ++ P q "}"
  | .inherent ps n as ws fns =>
    let q : Quote := ⟨lt, .site⟩
    W q "impl" ++ generics q ps ++ adt q n as ++ wheres q .site ws ++ P q "{" ++
      (functions lt u (.inherent ps n as ws fns)).flatMap Prod.snd ++ P q "}"
  | .traitImpl hidden isUnsafe ps tr n as ws fns =>
    let q : Quote := ⟨lt, (implSpans u tr).1⟩
    (if hidden then attr q "doc" ["hidden"] else []) ++ (if isUnsafe then unsafety else []) ++
      W q "impl" ++ generics q ps ++ trait_ q tr ++ W q "for" ++ adt q n as ++ wheres q (implSpans u tr).2 ws ++
      P q "{" ++ (functions lt u (.traitImpl hidden isUnsafe ps tr n as ws fns)).flatMap Prod.snd ++ P q "}"
  | .traitDef n =>
    let q : Quote := ⟨lt, .site⟩
    W q "trait" ++ U n ++ P q "{" ++ P q "}"
  | .blanketDrop n =>
    let q : Quote := ⟨lt, .site⟩
    attr q "allow" ["clippy::drop_bounds", "drop_bounds"] ++ W q "impl" ++ P q "<" ++ W q "T" ++ P q ":" ++
      priv q .local_ ["Drop"] ++ P q ">" ++ U n ++ W q "for" ++ W q "T" ++ P q "{" ++ P q "}"
  | .assertNotPacked ps n as ws refs => (functions lt u (.assertNotPacked ps n as ws refs)).flatMap Prod.snd

/-- derive.rs:89-98: the lints allowed in the const. -/
def constLints : List String :=
  ["unused_qualifications"] ++ globalAllowedLints ++
  ["clippy::elidable_lifetime_names", "clippy::missing_const_for_fn", "clippy::needless_lifetimes",
   "clippy::semicolon_if_nothing_returned", "clippy::use_self", "clippy::used_underscore_binding"]

/-- The helper struct of derive.rs:822. The projected types have other attributes. -/
def isHelper : GItem → Bool
  | .struct_ attrs _ _ _ _ _ => attrs == ["missing_debug_implementations", "unnameable_types"]
  | _ => false

/-- derive.rs:66-108 `GenerateTokens::into_tokens`. -/
def expansion (cx : Ctx) (E : Expansion) : Toks :=
  let q : Quote := ⟨cx.lifetime, .site⟩
  E.exposed.flatMap (item cx.lifetime cx.unpinImpl false) ++
  attr q "allow" constLints ++ W q "const" ++ W q "_" ++ P q ":" ++ P q "(" ++ P q ")" ++ P q "=" ++ P q "{" ++
  attr q "allow" ["unused_extern_crates"] ++
  W q "extern" ++ W q "crate" ++ W q "pin_project" ++ W q "as" ++ W q "_pin_project" ++ P q ";" ++
  E.inScope.flatMap (fun i => item cx.lifetime cx.unpinImpl (isHelper i) i) ++ P q "}" ++ P q ";"

/-! ## `#[pinned_drop]` -/

/-- The template of pinned_drop.rs: `parse_quote!`, so call-site. There is no projection lifetime; every lifetime is
the user's. (pinned_drop.rs:176, 179, 224) -/
def dropQuote : Quote := ⟨"", .site⟩

/-- The path of an attribute. (pinned_drop.rs:188: the attributes are copied) -/
def spath (p : SPath) : List String := (if p.leading then ["::"] else []) ++ colons p.segs

/-- An attribute of the user. Simplification: `#[doc(hidden)]` (pinned_drop.rs:176) is printed like one. -/
def userAttr (a : Attribute) : Toks :=
  (match a.m with
  | .path p => ["#", "["] ++ spath p ++ ["]"]
  | .list p d ts => ["#", "["] ++ spath p ++ tts [.group d ts] ++ ["]"]
  | .nameValue p ts => ["#", "["] ++ spath p ++ ["="] ++ tts ts ++ ["]"]).map .user

/-- `#![..]` (pinned_drop.rs:188) -/
def innerAttr (a : Attribute) : Toks := U "#" ++ U "!" ++ (userAttr a).tail

/-- The qualifiers of a function of the user, as `syn` prints them: `const async unsafe extern "C"`.
(pinned_drop.rs:188, 216) -/
def qualifiers (quals : List String) (unsafe_ : Toks) : Toks :=
  (quals.filter (fun w => w = "const" ∨ w = "async")).map .user ++ unsafe_ ++
    (quals.filter (fun w => ¬ (w = "const" ∨ w = "async"))).map .user

/-- What follows the last parameter: a comma if the user has written one, or `, ...`. (pinned_drop.rs:188, 202) -/
def lastParam (comma variadic : Bool) : List String :=
  if variadic then [",", "..."] else if comma then [","] else []

/-- pinned_drop.rs:187-213, 225-230: the inner function. `__self` has the span of `self` (pinned_drop.rs:199). -/
def inner (f : DropInner) : Toks :=
  let q := dropQuote
  attr q "allow" ["clippy::missing_const_for_fn", "clippy::needless_pass_by_value", "clippy::single_call_fn"] ++
  f.attrs.flatMap userAttr ++ vis f.vis ++
  qualifiers f.quals (if f.isUnsafe then U "unsafe" else []) ++ W q "fn" ++ W q f.name ++
  generics q f.generics.defParams ++ P q "(" ++ f.paramAttrs.flatMap userAttr ++ (if f.isMut then U "mut" else []) ++ U f.param ++ P q ":" ++
  (node f.paramTy).map .user ++ (lastParam f.comma f.variadic).map .user ++ P q ")" ++
  (match f.output with | some t => (["->"] ++ node t).map .user | none => []) ++
  wheres q .site f.generics.preds ++ P q "{" ++ f.innerAttrs.flatMap innerAttr ++ (f.body.flatMap node).map .user ++ P q "}"

/-- pinned_drop.rs:224-232. The argument of the call is the user's `self` (pinned_drop.rs:217). -/
def outStmt : OutStmt → Toks
  | .fnItem f => inner f
  | .call f x => W dropQuote f ++ P dropQuote "(" ++ U x ++ P dropQuote ")" ++ P dropQuote ";"

/-- The method of the expanded impl, with its own generics (there are none in code that compiles). `unsafe` is `<Token![unsafe]>::default()` (pinned_drop.rs:216). -/
def outItem : OutItem → Toks
  | .drop attrs v sig inn b =>
    attrs.flatMap userAttr ++ vis v ++ qualifiers sig.quals (if sig.isUnsafe then unsafety else []) ++
      ["fn", sig.ident].map .user ++ generics dropQuote sig.generics.defParams ++
      ["("].map .user ++ sig.recvAttrs.flatMap userAttr ++
      (((sig.inputs.map (fun i => match i with
        | .receiver m _ t => (if m then ["mut"] else []) ++ ["self", ":"] ++ node t
        | .typed p t => node p ++ [":"] ++ node t)).intersperse [","]).flatten ++ lastParam sig.comma sig.variadic ++ [")"] ++
      (match sig.output with | some t => ["->"] ++ node t | none => [])).map .user ++
      wheres dropQuote .site sig.generics.preds ++ P dropQuote "{" ++ inn.flatMap innerAttr ++ b.flatMap outStmt ++ P dropQuote "}"
  | .asIs _ => []

/-- The path of pinned_drop.rs:179: its words are in a template. -/
def templatePath (q : Quote) (p : Path) : Toks :=
  (if p.leading then P q "::" else []) ++
    match p.segs with
    | [] => []
    | s :: ss => W q s.ident ++ segments q (ss.map Seg.ident)

/-- The expanded impl. (`syn` prints lifetimes before other parameters.) (pinned_drop.rs:50) -/
def pinnedDrop (i : PinnedDropImpl) : Toks :=
  i.attrs.flatMap userAttr ++ (if i.isDefault then U "default" else []) ++ (if i.isUnsafe then U "unsafe" else []) ++ U "impl" ++
  generics dropQuote i.generics.defParams ++ (if i.bang then U "!" else []) ++ templatePath dropQuote i.traitPath ++
  U "for" ++ (node i.selfTy).map .user ++ wheres dropQuote .site i.generics.preds ++
  P dropQuote "{" ++ i.innerAttrs.flatMap innerAttr ++ i.items.flatMap outItem ++ P dropQuote "}"

/-- pinned_drop.rs:40-46: the dummy impl next to a compile error. -/
def dummyImpl (d : DummyImpl) : Toks :=
  let q := dropQuote
  W q "impl" ++ generics q d.generics.implGenerics ++ templatePath q d.traitPath ++ W q "for" ++ (node d.selfTy).map .user ++
  wheres q .site d.generics.preds ++ P q "{" ++ W q "unsafe" ++ W q "fn" ++ W q "drop" ++ P q "(" ++ W q "self" ++ P q ":" ++
  ty q (.pin .abs (.ref none true .selfTy)) ++ P q ")" ++ P q "{" ++ P q "}" ++ P q "}"

end Emit

/-- derive.rs:20-49 `parse_derive`: the context. -/
def deriveCtx : Item → Res Ctx
  | .struct_ input =>
    let input := input.visit (mkSelfTy input.ident input.generics.tyGenerics)
    Ctx.new input.attrs input.vis input.ident input.generics .struct_
  | .enum_ input =>
    let input := input.visit (mkSelfTy input.ident input.generics.tyGenerics)
    Ctx.new input.attrs input.vis input.ident input.generics .enum_
  | .other _ => .error (.bail "#[pin_project] attribute may only be used on structs or enums")

/-- derive.rs:20-49 `parse_derive`: the tokens. -/
def deriveTokens (input : Item) : Res (List ETok) := do
  let cx ← deriveCtx input
  let E ← parseDerive input
  .ok (Emit.expansion cx E)

end PinProject
