import Verif.Model.ReceiverSpans
import Verif.Spec.Receiver
/-!
# Specification: where rewritten tokens are shown, and what they resolve to

The span of a token says where errors about it are shown, and in which syntax context a name is resolved.
-/
namespace PinProject.Spec

variable {S : Type}

mutual

/-- The token without spans. -/
def unplace : PTok S → TT
  | .ident s _ => .ident s
  | .punct c j _ => .punct c j
  | .lit s _ => .lit s
  | .group d ts _ => .group d (unplaceAll ts)

def unplaceAll : List (PTok S) → List TT
  | [] => []
  | t :: ts => unplace t :: unplaceAll ts

end

/-- The name `w` occurs with the span `sp`, at any depth. -/
inductive IdentAt (w : String) (sp : S) : List (PTok S) → Prop
  | here (ts : List (PTok S)) : IdentAt w sp (.ident w sp :: ts)
  | deeper {d : Delim} {ts : List (PTok S)} (sp' : S) (rest : List (PTok S)) : IdentAt w sp ts → IdentAt w sp (.group d ts sp' :: rest)
  | later (t : PTok S) {ts : List (PTok S)} : IdentAt w sp ts → IdentAt w sp (t :: ts)

/-- The name occurs outside of groups. -/
def Outermost (w : String) (ts : List (PTok S)) : Prop := ∃ sp, .ident w sp ∈ ts

/-- The name occurs with this span inside of a group. -/
def Inside (w : String) (sp : S) (ts : List (PTok S)) : Prop := ∃ d is sp', .group d is sp' ∈ ts ∧ IdentAt w sp is

/-- `a` is the token `b` shown at `sp`. What is inside of a group stays where it was. -/
inductive PutAt (sp : S) : PTok S → PTok S → Prop
  | ident (s : String) (sp' : S) : PutAt sp (.ident s sp') (.ident s sp)
  | punct (c : Char) (j : Bool) (sp' : S) : PutAt sp (.punct c j sp') (.punct c j sp)
  | lit (s : String) (sp' : S) : PutAt sp (.lit s sp') (.lit s sp)
  | group (d : Delim) (ts : List (PTok S)) (sp' : S) : PutAt sp (.group d ts sp') (.group d ts sp)

/-- The same list of tokens, shown at `sp`. -/
inductive AllPutAt (sp : S) : List (PTok S) → List (PTok S) → Prop
  | nil : AllPutAt sp [] []
  | cons {a b : PTok S} {as bs : List (PTok S)} : PutAt sp a b → AllPutAt sp as bs → AllPutAt sp (a :: as) (b :: bs)

/-- `PlacedRewrites sty ts ts'`: `ts'` is `ts` with each `self` replaced by `__self` in the same place, each `Self` replaced by the
tokens `sty` of a type (in angle brackets before `::`), shown at that `Self`; all other tokens stay, in the same place. -/
inductive PlacedRewrites (sty : List (PTok S)) : List (PTok S) → List (PTok S) → Prop
  | nil : PlacedRewrites sty [] []
  | self_ {sp : S} {ts ts' : List (PTok S)} : PlacedRewrites sty ts ts' →
      PlacedRewrites sty (.ident "self" sp :: ts) (.ident "__self" sp :: ts')
  | selfPath {sp : S} {shown ts ts' : List (PTok S)} : PathSepNext (unplaceAll ts) → AllPutAt sp sty shown → PlacedRewrites sty ts ts' →
      PlacedRewrites sty (.ident "Self" sp :: ts) (.punct '<' false sp :: shown ++ .punct '>' false sp :: ts')
  | selfTy {sp : S} {shown ts ts' : List (PTok S)} : ¬ PathSepNext (unplaceAll ts) → AllPutAt sp sty shown → PlacedRewrites sty ts ts' →
      PlacedRewrites sty (.ident "Self" sp :: ts) (shown ++ ts')
  | ident {w : String} {sp : S} {ts ts' : List (PTok S)} : w ≠ "self" → w ≠ "Self" → PlacedRewrites sty ts ts' →
      PlacedRewrites sty (.ident w sp :: ts) (.ident w sp :: ts')
  | punct {c : Char} {j : Bool} {sp : S} {ts ts' : List (PTok S)} : PlacedRewrites sty ts ts' →
      PlacedRewrites sty (.punct c j sp :: ts) (.punct c j sp :: ts')
  | lit {l : String} {sp : S} {ts ts' : List (PTok S)} : PlacedRewrites sty ts ts' →
      PlacedRewrites sty (.lit l sp :: ts) (.lit l sp :: ts')
  | group {d : Delim} {sp : S} {is is' ts ts' : List (PTok S)} : PlacedRewrites sty is is' → PlacedRewrites sty ts ts' →
      PlacedRewrites sty (.group d is sp :: ts) (.group d is' sp :: ts')

/-- A use of the variable `x` with the span `sp` refers to the binding of `x` with the span `sp'`: names are the same, and so are
the syntax contexts. -/
def RefersTo {C : Type} (ctx : S → C) (x : String) (sp : S) (y : String) (sp' : S) : Prop := x = y ∧ ctx sp = ctx sp'

end PinProject.Spec
