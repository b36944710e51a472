import Verif.Spec.Grammar
/-!
# Specification: reading source text

A parser for the part of Rust that generated code uses (Rust reference, chapters "Items", "Statements and expressions",
"Patterns"). Function bodies are read completely. Types, bounds and predicates, which can be the user's, are only delimited.
The parsers are recursive with `n` as a bound for the depth and for the length of lists; what is meant is the result for
all large `n`.
-/
namespace PinProject.Spec
namespace Reader
open Grammar (Ident)

/-- The first part of the text is read; the rest remains. -/
abbrev Parser (α : Type) := List String → Option (α × List String)

/-- The text begins with this token. -/
def eat (t : String) : List String → Option (List String)
  | [] => none
  | x :: ts => if x = t then some ts else none

/-- An identifier, `self` or `Self`. -/
def word : Parser String
  | [] => none
  | x :: ts => if Ident x ∨ x = "self" ∨ x = "Self" then some (x, ts) else none

/-- Any token. -/
def anyToken : Parser String
  | [] => none
  | x :: ts => some (x, ts)

section
variable {α : Type}

/-- A list with commas up to `close`; the last comma may be missing. -/
def commas (p : Parser α) (close : String) : Nat → Parser (List α)
  | 0, _ => none
  | n + 1, ts =>
    match eat close ts with
    | some ts => some ([], ts)
    | none =>
      match p ts with
      | none => none
      | some (x, ts) =>
        match eat "," ts with
        | some ts => (commas p close n ts).map (fun r => (x :: r.1, r.2))
        | none => (eat close ts).map (fun ts => ([x], ts))

/-- One after the other up to `close`, or to the end of the text. -/
def many (p : Parser α) (close : Option String) : Nat → Parser (List α)
  | 0, _ => none
  | n + 1, ts =>
    match (match close with | some c => eat c ts | none => if ts = [] then some [] else none) with
    | some ts => some ([], ts)
    | none =>
      match p ts with
      | none => none
      | some (x, ts) => (many p close n ts).map (fun r => (x :: r.1, r.2))

end

/-! ## Pieces with balanced brackets -/

def openers : List String := ["(", "[", "{", "<"]
def closers : List String := [")", "]", "}", ">"]

/-- The `>` of `->` is no bracket. -/
def closes (prev t : String) : Bool := closers.contains t && !(t == ">" && prev == "-")

/-- Up to one of `stops` or a closing bracket, outside of brackets. -/
def piece (stops : List String) : (prev : String) → (depth : Nat) → Parser (List String)
  | _, _, [] => none
  | prev, d, t :: ts =>
    if d = 0 ∧ (t ∈ stops ∨ closes prev t) then some ([], t :: ts)
    else
      (piece stops t (if openers.contains t then d + 1 else if closes prev t then d - 1 else d) ts).map
        (fun r => (t :: r.1, r.2))

/-! ## Expressions -/

structure Path where
  root : Bool
  segs : List String
  deriving DecidableEq, Repr, Inhabited

/-- `::a::b` -/
def segments : List String → List String × List String
  | c :: w :: ts => if c = "::" then (w :: (segments ts).1, (segments ts).2) else ([], c :: w :: ts)
  | ts => ([], ts)

def path : Parser Path := fun ts =>
  match eat "::" ts with
  | some ts => (word ts).map (fun r => (⟨true, r.1 :: (segments r.2).1⟩, (segments r.2).2))
  | none => (word ts).map (fun r => (⟨false, r.1 :: (segments r.2).1⟩, (segments r.2).2))

inductive Pat
  | wild
  | path (p : Path)
  | tuple (p : Path) (xs : List String)
  | struct_ (p : Path) (xs : List String)
  deriving DecidableEq, Repr, Inhabited

def pat (n : Nat) : Parser Pat := fun ts =>
  match eat "_" ts with
  | some ts => some (.wild, ts)
  | none =>
    match path ts with
    | none => none
    | some (p, ts) =>
      match eat "(" ts with
      | some ts => (commas word ")" n ts).map (fun r => (.tuple p r.1, r.2))
      | none =>
        match eat "{" ts with
        | some ts => (commas word "}" n ts).map (fun r => (.struct_ p r.1, r.2))
        | none => some (.path p, ts)

mutual
inductive Ex
  | path (p : Path)
  | call (f : Ex) (args : List Ex)
  | method (e : Ex) (m : String) (args : List Ex)
  | field (e : Ex) (f : String)
  | ref (isMut : Bool) (e : Ex)
  | deref (e : Ex)
  | struct_ (p : Path) (inits : List (String × Option Ex))
  | match_ (e : Ex) (arms : List (Pat × Ex))
  | unsafe_ (b : Bl)
  | block (b : Bl)
inductive St
  | let_ (p : Pat) (ty : Option (List String)) (e : Ex)
  | semi (e : Ex)
  | block (b : Bl)
/-- A block: statements and perhaps an expression. -/
inductive Bl
  | mk (ss : List St) (tail : Option Ex)
end

def Bl.cons (s : St) : Bl → Bl
  | .mk ss e => .mk (s :: ss) e

/-- What can follow an expression: `(..)`, `.m(..)`, `.x`. -/
def after (e : Parser Ex) : Nat → Ex → Parser Ex
  | 0, _, _ => none
  | n + 1, x, ts =>
    match eat "(" ts with
    | some ts =>
      match commas e ")" n ts with
      | some (as, ts) => after e n (.call x as) ts
      | none => none
    | none =>
      match eat "." ts with
      | some (m :: ts) =>
        match eat "(" ts with
        | some ts =>
          match commas e ")" n ts with
          | some (as, ts) => after e n (.method x m as) ts
          | none => none
        | none => after e n (.field x m) ts
      | some [] => none
      | none => some (x, ts)

/-- `x` or `x: e` -/
def entry (e : Parser Ex) : Parser (String × Option Ex) := fun ts =>
  match word ts with
  | none => none
  | some (x, ts) =>
    match eat ":" ts with
    | some ts => (e ts).map (fun r => ((x, some r.1), r.2))
    | none => some ((x, none), ts)

/-- `p => e,`; the comma may be missing -/
def arm (e : Parser Ex) (n : Nat) : Parser (Pat × Ex) := fun ts =>
  match pat n ts with
  | none => none
  | some (p, ts) =>
    match eat "=>" ts with
    | none => none
    | some ts =>
      match e ts with
      | none => none
      | some (x, ts) =>
        match eat "," ts with
        | some ts => some ((p, x), ts)
        | none => some ((p, x), ts)

/-- `p = e;` or `p: T = e;` -/
def letStmt (e : Parser Ex) (n : Nat) : Parser St := fun ts =>
  match pat n ts with
  | none => none
  | some (p, ts) =>
    match eat ":" ts with
    | some ts =>
      match piece ["="] "" 0 ts with
      | none => none
      | some (t, ts) =>
        match eat "=" ts with
        | none => none
        | some ts =>
          match e ts with
          | none => none
          | some (x, ts) => (eat ";" ts).map (fun ts => (.let_ p (some t) x, ts))
    | none =>
      match eat "=" ts with
      | none => none
      | some ts =>
        match e ts with
        | none => none
        | some (x, ts) => (eat ";" ts).map (fun ts => (.let_ p none x, ts))

/-- The rest of a block after `{`. -/
def block (e : Parser Ex) : Nat → Parser Bl
  | 0, _ => none
  | n + 1, ts =>
    match eat "}" ts with
    | some ts => some (.mk [] none, ts)
    | none =>
      match eat "let" ts with
      | some ts =>
        match letStmt e n ts with
        | none => none
        | some (s, ts) => (block e n ts).map (fun r => (r.1.cons s, r.2))
      | none =>
        match eat "{" ts with
        | some ts =>
          match block e n ts with
          | none => none
          | some (b, ts) => (block e n ts).map (fun r => (r.1.cons (.block b), r.2))
        | none =>
          match e ts with
          | none => none
          | some (x, ts) =>
            match eat ";" ts with
            | some ts => (block e n ts).map (fun r => (r.1.cons (.semi x), r.2))
            | none => (eat "}" ts).map (fun ts => (.mk [] (some x), ts))

/-- An expression; `noStruct` is true between `match` and `{`. `e` reads its parts. -/
def exprStep (n : Nat) (e : Bool → Parser Ex) (noStruct : Bool) : Parser Ex := fun ts =>
  match ts with
  | [] => none
  | t :: ts =>
    if t = "&" then
      match eat "mut" ts with
      | some ts => (e noStruct ts).map (fun r => (.ref true r.1, r.2))
      | none => (e noStruct ts).map (fun r => (.ref false r.1, r.2))
    else if t = "*" then (e noStruct ts).map (fun r => (.deref r.1, r.2))
    else if t = "match" then
      match e true ts with
      | none => none
      | some (x, ts) =>
        match eat "{" ts with
        | none => none
        | some ts => (many (arm (e false) n) (some "}") n ts).map (fun r => (.match_ x r.1, r.2))
    else if t = "unsafe" then
      match eat "{" ts with
      | none => none
      | some ts => (block (e false) n ts).map (fun r => (.unsafe_ r.1, r.2))
    else if t = "{" then (block (e false) n ts).map (fun r => (.block r.1, r.2))
    else
      match path (t :: ts) with
      | none => none
      | some (p, ts) =>
        match (if noStruct then none else eat "{" ts) with
        | some ts => (commas (entry (e false)) "}" n ts).map (fun r => (.struct_ p r.1, r.2))
        | none => after (e false) n (.path p) ts

def expr : Nat → Bool → Parser Ex
  | 0 => fun _ _ => none
  | n + 1 => exprStep n (expr n)

/-! ## Items -/

/-- `#[a]`, `#[a(b, c)]` -/
def attr (n : Nat) : Parser (String × List String) := fun ts =>
  match ts with
  | "#" :: "[" :: a :: ts =>
    match eat "(" ts with
    | some ts =>
      match commas anyToken ")" n ts with
      | none => none
      | some (as, ts) => (eat "]" ts).map (fun ts => ((a, as), ts))
    | none => (eat "]" ts).map (fun ts => ((a, []), ts))
  | _ => none

def attributes : Nat → Parser (List (String × List String))
  | 0, _ => none
  | n + 1, ts =>
    match eat "#" ts with
    | none => some ([], ts)
    | some _ =>
      match attr n ts with
      | none => none
      | some (a, ts) => (attributes n ts).map (fun r => (a :: r.1, r.2))

def visibility : Parser Vis := fun ts =>
  match eat "pub" ts with
  | none => some (.inherited, ts)
  | some (a :: b :: c :: ts) =>
    if a = "(" ∧ b ∈ ["crate", "self", "super"] ∧ c = ")" then some (.restricted false { segs := [b] }, ts)
    else if a = "(" ∧ b = "in" then
      match eat "::" (c :: ts) with
      | some (w :: ts) => (eat ")" (segments ts).2).map (fun r => (.restricted true ⟨true, w :: (segments ts).1⟩, r))
      | some [] => none
      | none => (eat ")" (segments ts).2).map (fun r => (.restricted true ⟨false, c :: (segments ts).1⟩, r))
    else some (.pub, a :: b :: c :: ts)
  | some ts => some (.pub, ts)

def generics (n : Nat) : Parser (List (List String)) := fun ts =>
  match eat "<" ts with
  | some ts => commas (piece [","] "" 0) ">" n ts
  | none => some ([], ts)

def predicates : Nat → Parser (List (List String))
  | 0, _ => none
  | n + 1, ts =>
    if ts.head? ∈ [some "{", some ";"] then some ([], ts)
    else
      match piece [",", ";", "{"] "" 0 ts with
      | none => none
      | some (x, ts) =>
        match eat "," ts with
        | some ts => (predicates n ts).map (fun r => (x :: r.1, r.2))
        | none => some ([x], ts)

def wheres (n : Nat) : Parser (List (List String)) := fun ts =>
  match eat "where" ts with
  | some ts => predicates n ts
  | none => some ([], ts)

structure Field where
  vis : Vis
  ident : Option String
  ty : List String

def namedField : Parser Field := fun ts =>
  match visibility ts with
  | none => none
  | some (v, ts) =>
    match word ts with
    | none => none
    | some (x, ts) =>
      match eat ":" ts with
      | none => none
      | some ts => (piece [","] "" 0 ts).map (fun r => (⟨v, some x, r.1⟩, r.2))

def tupleField : Parser Field := fun ts =>
  match visibility ts with
  | none => none
  | some (v, ts) => (piece [","] "" 0 ts).map (fun r => (⟨v, none, r.1⟩, r.2))

structure Fields where
  delim : Option Delim
  fields : List Field

def variant (n : Nat) : Parser (String × Fields) := fun ts =>
  match word ts with
  | none => none
  | some (x, ts) =>
    match eat "(" ts with
    | some ts => (commas tupleField ")" n ts).map (fun r => ((x, ⟨some .paren, r.1⟩), r.2))
    | none =>
      match eat "{" ts with
      | some ts => (commas namedField "}" n ts).map (fun r => ((x, ⟨some .brace, r.1⟩), r.2))
      | none => some ((x, ⟨none, []⟩), ts)

inductive Input
  /-- `&mut self` -/
  | refMutSelf
  | typed (x : String) (ty : List String)

def input : Parser Input := fun ts =>
  match ts with
  | "&" :: "mut" :: "self" :: ts => some (.refMutSelf, ts)
  | ts =>
    match word ts with
    | none => none
    | some (x, ts) =>
      match eat ":" ts with
      | none => none
      | some ts => (piece [","] "" 0 ts).map (fun r => (.typed x r.1, r.2))

structure Fn where
  attrs : List (String × List String)
  vis : Vis
  isUnsafe : Bool
  name : String
  generics : List (List String)
  inputs : List Input
  ret : Option (List String)
  preds : List (List String)
  body : Bl

/-- `-> T` -/
def ret : Parser (Option (List String)) := fun ts =>
  match eat "->" ts with
  | some ts => (piece ["where", "{"] "" 0 ts).map (fun r => (some r.1, r.2))
  | none => some (none, ts)

/-- `unsafe`, or not. -/
def unsafety : List String → Bool × List String := fun ts =>
  match eat "unsafe" ts with
  | some ts => (true, ts)
  | none => (false, ts)

/-- The rest of a function, after `fn`. -/
def fnRest (n : Nat) (attrs : List (String × List String)) (v : Vis) (u : Bool) : Parser Fn := fun ts =>
  match word ts with
  | none => none
  | some (name, ts) =>
    match generics n ts with
    | none => none
    | some (g, ts) =>
      match eat "(" ts with
      | none => none
      | some ts =>
        match commas input ")" n ts with
        | none => none
        | some (is, ts) =>
          match ret ts with
          | none => none
          | some (r, ts) =>
            match wheres n ts with
            | none => none
            | some (ws, ts) =>
              match eat "{" ts with
              | none => none
              | some ts => (block (expr n false) n ts).map (fun b => (⟨attrs, v, u, name, g, is, r, ws, b.1⟩, b.2))

/-- A function of an impl. -/
def fn (n : Nat) : Parser Fn := fun ts =>
  match attributes n ts with
  | none => none
  | some (as, ts) =>
    match visibility ts with
    | none => none
    | some (v, ts) =>
      match eat "fn" (unsafety ts).2 with
      | none => none
      | some ts' => fnRest n as v (unsafety ts).1 ts'

inductive Item
  | struct_ (attrs : List (String × List String)) (vis : Vis) (name : String) (generics preds : List (List String))
      (fields : Fields)
  | enum_ (attrs : List (String × List String)) (vis : Vis) (name : String) (generics preds : List (List String))
      (variants : List (String × Fields))
  | impl (attrs : List (String × List String)) (isUnsafe : Bool) (generics : List (List String))
      (trait_ : Option (List String)) (self : List String) (preds : List (List String)) (fns : List Fn)
  | trait (name : String)
  | fn (f : Fn)
  | externCrate (attrs : List (String × List String)) (name as_ : String)
  /-- `const _: T = { .. };` -/
  | const (attrs : List (String × List String)) (ty : List String) (items : List Item)

/-- The rest of a struct, after `struct`. -/
def structRest (n : Nat) (attrs : List (String × List String)) (v : Vis) : Parser Item := fun ts =>
  match word ts with
  | none => none
  | some (name, ts) =>
    match generics n ts with
    | none => none
    | some (g, ts) =>
      match eat "(" ts with
      | some ts =>
        match commas tupleField ")" n ts with
        | none => none
        | some (fs, ts) =>
          match wheres n ts with
          | none => none
          | some (ws, ts) => (eat ";" ts).map (fun ts => (.struct_ attrs v name g ws ⟨some .paren, fs⟩, ts))
      | none =>
        match wheres n ts with
        | none => none
        | some (ws, ts) =>
          match eat "{" ts with
          | none => none
          | some ts => (commas namedField "}" n ts).map (fun r => (.struct_ attrs v name g ws ⟨some .brace, r.1⟩, r.2))

/-- The rest of an enum, after `enum`. -/
def enumRest (n : Nat) (attrs : List (String × List String)) (v : Vis) : Parser Item := fun ts =>
  match word ts with
  | none => none
  | some (name, ts) =>
    match generics n ts with
    | none => none
    | some (g, ts) =>
      match wheres n ts with
      | none => none
      | some (ws, ts) =>
        match eat "{" ts with
        | none => none
        | some ts => (commas (variant n) "}" n ts).map (fun r => (.enum_ attrs v name g ws r.1, r.2))

/-- The rest of an impl, after `impl`. -/
def implRest (n : Nat) (attrs : List (String × List String)) (u : Bool) : Parser Item := fun ts =>
  match generics n ts with
  | none => none
  | some (g, ts) =>
    match piece ["for", "where", "{"] "" 0 ts with
    | none => none
    | some (a, ts) =>
      match eat "for" ts with
      | some ts =>
        match piece ["where", "{"] "" 0 ts with
        | none => none
        | some (t, ts) => implBody g (some a) t ts
      | none => implBody g none a ts
where
  implBody (g : List (List String)) (tr : Option (List String)) (t : List String) : Parser Item := fun ts =>
    match wheres n ts with
    | none => none
    | some (ws, ts) =>
      match eat "{" ts with
      | none => none
      | some ts => (many (fn n) (some "}") n ts).map (fun r => (.impl attrs u g tr t ws r.1, r.2))

/-- The rest of `const _: T = { .. };`, after `const`. -/
def constRest (n : Nat) (item : Parser Item) (attrs : List (String × List String)) : Parser Item := fun ts =>
  match ts with
  | "_" :: ":" :: ts =>
    match piece ["="] "" 0 ts with
    | some (t, "=" :: "{" :: ts) =>
      match many item (some "}") n ts with
      | none => none
      | some (is, ts) => (eat ";" ts).map (fun ts => (.const attrs t is, ts))
    | _ => none
  | _ => none

/-- The rest of an item, after the keyword `t`; `item` reads the items inside it. -/
def keyword (n : Nat) (item : Parser Item) (as : List (String × List String)) (v : Vis) (u : Bool) (t : String) :
    Parser Item := fun ts =>
  if t = "fn" then (fnRest n as v u ts).map (fun r => (.fn r.1, r.2))
  else if t = "impl" then implRest n as u ts
  else if t = "struct" then structRest n as v ts
  else if t = "enum" then enumRest n as v ts
  else if t = "trait" then
    match ts with
    | x :: "{" :: "}" :: ts => some (.trait x, ts)
    | _ => none
  else if t = "extern" then
    match ts with
    | "crate" :: x :: "as" :: y :: ";" :: ts => some (.externCrate as x y, ts)
    | _ => none
  else if t = "const" then constRest n item as ts
  else none

/-- An item; `item` reads the items inside it. -/
def itemStep (n : Nat) (item : Parser Item) : Parser Item := fun ts =>
  match attributes n ts with
  | none => none
  | some (as, ts) =>
    match visibility ts with
    | none => none
    | some (v, ts) =>
      match (unsafety ts).2 with
      | [] => none
      | t :: ts' => keyword n item as v (unsafety ts).1 t ts'

def item : Nat → Parser Item
  | 0 => fun _ => none
  | n + 1 => itemStep n (item n)

/-- A whole text. -/
def Reads (ts : List String) (is : List Item) : Prop := ∃ N, ∀ n, N ≤ n → many (item n) none n ts = some (is, [])

/-! ## The pieces of the user -/

/-- A token that is no bracket and no `-`. -/
def Plain (t : String) : Prop := t ∉ openers ∧ t ∉ closers ∧ t ≠ "-"

/-- The text between brackets: brackets come in pairs. -/
inductive Inside : List String → Prop
  | nil : Inside []
  | tok {t x} : Plain t → Inside x → Inside (t :: x)
  | arrow {x} : Inside x → Inside ("-" :: ">" :: x)
  | minus {t x} : Plain t → Inside x → Inside ("-" :: t :: x)
  | group {o c x y} : (o, c) ∈ openers.zip closers → Inside x → Inside y → Inside (o :: (x ++ c :: y))

/-- A text with brackets in pairs, in which the tokens of `stops` are only between brackets. -/
inductive Piece (stops : List String) : List String → Prop
  | nil : Piece stops []
  | tok {t x} : Plain t → t ∉ stops → Piece stops x → Piece stops (t :: x)
  | arrow {x} : Piece stops x → Piece stops ("-" :: ">" :: x)
  | minus {t x} : Plain t → t ∉ stops → Piece stops x → Piece stops ("-" :: t :: x)
  | group {o c x y} : (o, c) ∈ openers.zip closers → o ∉ stops → Inside x → Piece stops y →
      Piece stops (o :: (x ++ c :: y))

/-- `pub` before this text can only be the visibility `pub`. -/
def NotVisibility (x : List String) : Prop :=
  x.head? ≠ some "pub" ∧
    ∀ b c r, x = "(" :: b :: c :: r → b ≠ "in" ∧ ¬ (b ∈ ["crate", "self", "super"] ∧ c = ")")

/-- What must be known of the pieces of the user to see where they end: in types there is no `,`, `;`, `{` and `where`
outside of brackets, and so on. -/
def delimited : Grammar.User where
  type x := Piece [",", ";", "{", "where"] x ∧ NotVisibility x
  bound x := Piece [","] x
  pred x := Piece [",", ";", "{"] x ∧ x ≠ []
  dflt x := Piece [","] x
  attr _ := True
  stmt _ := True

end Reader
end PinProject.Spec
