import Verif.Spec.Tree
import Verif.Spec.Types
/-!
# Specification: `self` and `Self` in code that is moved elsewhere

The user's code is moved out of the `impl` or type definition it was written for (the body of a
pinned drop into an inner function, field types into other types). `self` and `Self` mean something
else there, so they have to be replaced. This file says what counts as a use of them, and what the
replaced code has to look like. It only uses the data types of the model, not the functions that do
the replacement.
-/
namespace PinProject.Spec

/-! ## Tokens (of macro calls) -/

/-- The word `w` occurs in a token stream, at any depth. -/
inductive TokOccurs (w : String) : List TT → Prop
  | here (ts : List TT) : TokOccurs w (.ident w :: ts)
  | deeper {d : Delim} {ts : List TT} (rest : List TT) : TokOccurs w ts → TokOccurs w (.group d ts :: rest)
  | later (t : TT) {ts : List TT} : TokOccurs w ts → TokOccurs w (t :: ts)

/-- The tokens continue with `::`. -/
def PathSepNext (ts : List TT) : Prop := ∃ j rest, ts = .punct ':' true :: .punct ':' j :: rest

/-- `TokRewrites sty ts ts'`: `ts'` is `ts` with `self` replaced by `__self` and `Self` replaced by
the tokens `sty` of a type (in angle brackets before `::`), and nothing else changed. -/
inductive TokRewrites (sty : List TT) : List TT → List TT → Prop
  | nil : TokRewrites sty [] []
  | self_ {ts ts' : List TT} : TokRewrites sty ts ts' →
      TokRewrites sty (.ident "self" :: ts) (.ident "__self" :: ts')
  | selfPath {ts ts' : List TT} : PathSepNext ts → TokRewrites sty ts ts' →
      TokRewrites sty (.ident "Self" :: ts) (.punct '<' false :: sty ++ .punct '>' false :: ts')
  | selfTy {ts ts' : List TT} : ¬ PathSepNext ts → TokRewrites sty ts ts' →
      TokRewrites sty (.ident "Self" :: ts) (sty ++ ts')
  | ident {w : String} {ts ts' : List TT} : w ≠ "self" → w ≠ "Self" → TokRewrites sty ts ts' →
      TokRewrites sty (.ident w :: ts) (.ident w :: ts')
  | punct {c : Char} {j : Bool} {ts ts' : List TT} : TokRewrites sty ts ts' →
      TokRewrites sty (.punct c j :: ts) (.punct c j :: ts')
  | lit {l : String} {ts ts' : List TT} : TokRewrites sty ts ts' →
      TokRewrites sty (.lit l :: ts) (.lit l :: ts')
  | group {d : Delim} {is is' ts ts' : List TT} : TokRewrites sty is is' → TokRewrites sty ts ts' →
      TokRewrites sty (.group d is :: ts) (.group d is' :: ts')

/-! ## Syntax trees -/

/-- The two words. -/
inductive Word
  | value | type
  deriving DecidableEq

def Word.text : Word → String
  | .value => "self"
  | .type => "Self"

/-- The path uses the word: the value `self` is a path of this one segment (`self::f` is a module
path), the type `Self` can be followed by more segments. -/
def Word.At : Word → Path → Prop
  | .value, p => ∃ a, p.segs = [.mk "self" a]
  | .type, p => p.leading = false ∧ ∃ a rest, p.segs = .mk "Self" a :: rest

/-- The path a node consists of. -/
def nodePath : Node → Option Path
  | .tyPath _ p | .exprPath _ p | .exprStruct _ p _ | .patStruct _ p _ | .patTupleStruct _ p _
  | .path p => some p
  | _ => none

/-- The children in which `self` and `Self` still mean the same thing: nested items have their own. -/
def scopeChildren : Node → List Node
  | .item _ _ | .mac _ _ | .itemMac _ _ => []
  | n => n.children

/-- The tokens of a macro call or of a local `macro_rules!`. -/
def openToks : Node → Option (List TT)
  | .mac _ toks => some toks
  | .itemMac p toks => if p.isIdent "macro_rules" then some toks else none
  | _ => none

/-- The word is used in `n`, at any depth, not counting nested items and macro calls whose tokens
contain `fn`. -/
inductive Refers (w : Word) : Node → Prop
  | path {n : Node} {p : Path} : nodePath n = some p → w.At p → Refers w n
  | tokens {n : Node} {toks : List TT} : openToks n = some toks → TokOccurs w.text toks →
      ¬ TokOccurs "fn" toks → Refers w n
  | inside {c n : Node} : c ∈ scopeChildren n → Refers w c → Refers w n

/-- `m` occurs in `n`, at any depth, not counting nested items. -/
inductive InScope : Node → Node → Prop
  | here (n : Node) : InScope n n
  | inside {m c n : Node} : c ∈ scopeChildren n → InScope m c → InScope m n

/-- The word is used in `n`, at any depth, not counting nested items. (In macro calls every occurrence
counts.) -/
def Mentions (w : Word) (n : Node) : Prop :=
  ∃ m, InScope m n ∧ ((∃ p, nodePath m = some p ∧ w.At p) ∨
    ∃ toks, openToks m = some toks ∧ TokOccurs w.text toks)

/-- `n` contains a macro call whose tokens contain both the word and `fn`. -/
def InFnMacro (w : Word) (n : Node) : Prop :=
  ∃ m toks, InScope m n ∧ openToks m = some toks ∧ TokOccurs "fn" toks ∧ TokOccurs w.text toks

/-- What rustc accepts: `Self` has no generic arguments, it is no trait, and no `<T as ..>` comes
before it. -/
def SelfAllowed : Node → Prop
  | .tyPath q p | .exprPath q p | .exprStruct q p _ | .patStruct q p _ | .patTupleStruct q p _ =>
    Word.type.At p → q = .none ∧ ∀ s ∈ p.segs.head?, s.args.isEmpty
  | .path p => ¬ Word.type.At p
  | _ => True

/-- `SelfAllowed` everywhere in `n`. -/
def WellUsed (n : Node) : Prop := ∀ m, InScope m n → SelfAllowed m

/-- `Self` is used as (the start of) a plain path, where no `<T as ..>` can be written on stable Rust:
as the constructor `Self(..)`, in `Self { .. }`, `Self::V { .. }`, `Self::V(..)` patterns, or as the
type `Self<>`. -/
def SelfAsPath : Node → Prop
  | .tyPath _ p => Word.type.At p ∧ ∃ c, p.segs = [.mk "Self" (.angle c [])]
  | .exprPath _ p => Word.type.At p ∧ p.segs.length = 1
  | .exprStruct _ p _ | .patStruct _ p _ | .patTupleStruct _ p _ => Word.type.At p
  | _ => False

/-- The receiver type itself uses neither word (in an `impl` header and in `Name<params>` it cannot),
and is a path with at least one segment. -/
structure Closed (s : SelfTy) : Prop where
  node : ∀ w, ¬ Mentions w (.tyPath s.q s.p)
  toks : ∀ w : Word, ¬ TokOccurs w.text s.toks
  nonempty : s.p.segs ≠ []

/-- The same path segments, except that `::` may have been inserted before generic arguments. -/
inductive TurbofishOf : List Seg → List Seg → Prop
  | nil : TurbofishOf [] []
  | same (x : Seg) {xs ys : List Seg} : TurbofishOf xs ys → TurbofishOf (x :: xs) (x :: ys)
  | colons (i : String) (b c : Bool) (args : List Node) {xs ys : List Seg} : TurbofishOf xs ys →
      TurbofishOf (.mk i (.angle b args) :: xs) (.mk i (.angle c args) :: ys)

/-- The same path segments, written for an expression or a pattern: `::` stands before generic arguments
(`Vec<u8> { .. }` and `Vec<u8>(..)` are syntax errors there). -/
inductive ExprForm : List Seg → List Seg → Prop
  | nil : ExprForm [] []
  | same (x : Seg) {xs ys : List Seg} : (∀ b args, x.args = .angle b args → args = []) → ExprForm xs ys →
      ExprForm (x :: xs) (x :: ys)
  | colons (i : String) (b : Bool) (args : List Node) {xs ys : List Seg} : ExprForm xs ys →
      ExprForm (.mk i (.angle b args) :: xs) (.mk i (.angle true args) :: ys)

mutual
/-- `Rewrites s n n'`: `n'` is `n` with `self` replaced by `__self` and `Self` replaced by the type
`s`, outside nested items and macro calls containing `fn`, and nothing else changed. -/
inductive Rewrites (s : SelfTy) : Node → Node → Prop
  /-- the type `Self` becomes the type -/
  | selfTy {a : PArgs} {segs : List Seg} : a.isEmpty → TurbofishOf s.p.segs segs →
      Rewrites s (.tyPath .none (.mk false [.mk "Self" a])) (.tyPath s.q (.mk s.p.leading segs))
  /-- the value `Self` (a constructor) becomes the type -/
  | selfExpr {a : PArgs} {segs : List Seg} : a.isEmpty → ExprForm s.p.segs segs →
      Rewrites s (.exprPath .none (.mk false [.mk "Self" a])) (.exprPath s.q (.mk s.p.leading segs))
  /-- the type `Self::x` becomes `<s>::x` -/
  | assocTy {a : PArgs} {x : Seg} {rest : List Seg} {p : Path} : a.isEmpty →
      RewritesPath s (.mk true (x :: rest)) p →
      Rewrites s (.tyPath .none (.mk false (.mk "Self" a :: x :: rest)))
        (.tyPath (.some (.tyPath s.q s.p) 0) p)
  /-- the value `Self::x` becomes `<s>::x` -/
  | assocExpr {a : PArgs} {x : Seg} {rest : List Seg} {p : Path} : a.isEmpty →
      RewritesPath s (.mk true (x :: rest)) p →
      Rewrites s (.exprPath .none (.mk false (.mk "Self" a :: x :: rest)))
        (.exprPath (.some (.tyPath s.q s.p) 0) p)
  /-- `Self::V { .. }` becomes `s::V { .. }` -/
  | selfStruct {a : PArgs} {rest rest' segs : List Seg} {cs cs' : List Node} : a.isEmpty →
      ExprForm s.p.segs segs → RewritesSegs s rest rest' → RewritesNodes s cs cs' →
      Rewrites s (.exprStruct .none (.mk false (.mk "Self" a :: rest)) cs)
        (.exprStruct s.q (.mk s.p.leading (segs ++ rest')) cs')
  | selfPatStruct {a : PArgs} {rest rest' segs : List Seg} {cs cs' : List Node} : a.isEmpty →
      ExprForm s.p.segs segs → RewritesSegs s rest rest' → RewritesNodes s cs cs' →
      Rewrites s (.patStruct .none (.mk false (.mk "Self" a :: rest)) cs)
        (.patStruct s.q (.mk s.p.leading (segs ++ rest')) cs')
  | selfPatTupleStruct {a : PArgs} {rest rest' segs : List Seg} {cs cs' : List Node} : a.isEmpty →
      ExprForm s.p.segs segs → RewritesSegs s rest rest' → RewritesNodes s cs cs' →
      Rewrites s (.patTupleStruct .none (.mk false (.mk "Self" a :: rest)) cs)
        (.patTupleStruct s.q (.mk s.p.leading (segs ++ rest')) cs')
  /- All other nodes stay what they are; only their children are rewritten. -/
  | tyPath {q q' : QS} {p p' : Path} : ¬ Word.type.At p → RewritesQS s q q' → RewritesPath s p p' →
      Rewrites s (.tyPath q p) (.tyPath q' p')
  | exprPath {q q' : QS} {p p' : Path} : ¬ Word.type.At p → RewritesQS s q q' → RewritesPath s p p' →
      Rewrites s (.exprPath q p) (.exprPath q' p')
  | exprStruct {q q' : QS} {p p' : Path} {cs cs' : List Node} : ¬ Word.type.At p → RewritesQS s q q' →
      RewritesPath s p p' → RewritesNodes s cs cs' → Rewrites s (.exprStruct q p cs) (.exprStruct q' p' cs')
  | patStruct {q q' : QS} {p p' : Path} {cs cs' : List Node} : ¬ Word.type.At p → RewritesQS s q q' →
      RewritesPath s p p' → RewritesNodes s cs cs' → Rewrites s (.patStruct q p cs) (.patStruct q' p' cs')
  | patTupleStruct {q q' : QS} {p p' : Path} {cs cs' : List Node} : ¬ Word.type.At p → RewritesQS s q q' →
      RewritesPath s p p' → RewritesNodes s cs cs' →
      Rewrites s (.patTupleStruct q p cs) (.patTupleStruct q' p' cs')
  | path {p p' : Path} : ¬ Word.type.At p → RewritesPath s p p' → Rewrites s (.path p) (.path p')
  | mac {p : Path} {ts ts' : List TT} : ¬ TokOccurs "fn" ts → TokRewrites s.toks ts ts' →
      Rewrites s (.mac p ts) (.mac p ts')
  | macFn {p : Path} {ts : List TT} : TokOccurs "fn" ts → Rewrites s (.mac p ts) (.mac p ts)
  | macroRules {p : Path} {ts ts' : List TT} : p.isIdent "macro_rules" → ¬ TokOccurs "fn" ts →
      TokRewrites s.toks ts ts' → Rewrites s (.itemMac p ts) (.itemMac p ts')
  | macroRulesFn {p : Path} {ts : List TT} : TokOccurs "fn" ts → Rewrites s (.itemMac p ts) (.itemMac p ts)
  | itemMac {p : Path} {ts : List TT} : ¬ p.isIdent "macro_rules" → Rewrites s (.itemMac p ts) (.itemMac p ts)
  | item {l : String} {cs : List Node} : Rewrites s (.item l cs) (.item l cs)
  | binder {lts : List String} : Rewrites s (.binder lts) (.binder lts)
  | lifetime {l : String} : Rewrites s (.lifetime l) (.lifetime l)
  | other {l : String} {cs cs' : List Node} : RewritesNodes s cs cs' → Rewrites s (.other l cs) (.other l cs')
inductive RewritesQS (s : SelfTy) : QS → QS → Prop
  | none : RewritesQS s .none .none
  | some {t t' : Node} {pos : Nat} : Rewrites s t t' → RewritesQS s (.some t pos) (.some t' pos)
/-- A path that does not start with `Self`: the value `self` is renamed, generic arguments are rewritten. -/
inductive RewritesPath (s : SelfTy) : Path → Path → Prop
  | value {l : Bool} {a a' : PArgs} : RewritesArgs s a a' →
      RewritesPath s (.mk l [.mk "self" a]) (.mk l [.mk "__self" a'])
  | other {l : Bool} {segs segs' : List Seg} : ¬ Word.value.At (.mk l segs) → RewritesSegs s segs segs' →
      RewritesPath s (.mk l segs) (.mk l segs')
inductive RewritesSegs (s : SelfTy) : List Seg → List Seg → Prop
  | nil : RewritesSegs s [] []
  | cons {i : String} {a a' : PArgs} {xs ys : List Seg} : RewritesArgs s a a' → RewritesSegs s xs ys →
      RewritesSegs s (.mk i a :: xs) (.mk i a' :: ys)
inductive RewritesArgs (s : SelfTy) : PArgs → PArgs → Prop
  | none : RewritesArgs s .none .none
  | angle {c : Bool} {as as' : List Node} : RewritesNodes s as as' →
      RewritesArgs s (.angle c as) (.angle c as')
  | paren {as as' : List Node} : RewritesNodes s as as' → RewritesArgs s (.paren as) (.paren as')
inductive RewritesNodes (s : SelfTy) : List Node → List Node → Prop
  | nil : RewritesNodes s [] []
  | cons {n n' : Node} {ns ns' : List Node} : Rewrites s n n' → RewritesNodes s ns ns' →
      RewritesNodes s (n :: ns) (n' :: ns')
end

end PinProject.Spec
