import Verif.Model.Emit
/-!
# Printing generated code

Prints the tokens of `Model/Emit.lean` as text, so that the model can be compared with the snapshots of
real expansions in /repo/tests/expand (`Test/Snapshots.lean`). This is a test of the model, no theorem
depends on it.

A token is a word (with the quote of a lifetime) or a single punctuation character.
-/
namespace PinProject.Print

abbrev Toks := List String

def lex (s : String) : Toks := Emit.lex s

/-- The text of a token. -/
def text : ETok → Toks
  | .user t => lex t
  | .word w _ | .life w _ | .lit w _ => [w]
  | .punct p _ => lex p
  | .attr n args _ => ["#", "[", n] ++
      (if args.isEmpty then [] else ["("] ++ args.flatMap (fun a => lex a ++ [","]) ++ [")"]) ++ ["]"]

/-- The expansion of the derive macro. -/
def expansion (i : Item) : Option Toks := (deriveTokens i).toOption.map (·.flatMap text)

/-- The expansion of `#[pinned_drop]`. -/
def pinnedDropImpl (i : PinnedDropImpl) : Toks := (Emit.pinnedDrop i).flatMap text

/-! ## Comparing

`cargo expand` formats the code: it adds and removes trailing commas and the braces of match arms. -/

def closer (t : String) : Bool := t == ")" || t == "]" || t == "}" || t == ">" || t == "{" || t == ";"

/-- Remove trailing commas. -/
def dropCommas : Toks → Toks
  | [] => []
  | [t] => [t]
  | t :: u :: ts => if t == "," && closer u then dropCommas (u :: ts) else t :: dropCommas (u :: ts)

/-- Where we are: outside; after `=`; after `=>`; in an arm without braces, at a nesting depth. -/
inductive ArmState
  | normal | eq | arrow
  | arm (depth : Nat)

/-- Put braces around match arms without braces. -/
def braceArms : ArmState → Toks → Toks
  | _, [] => []
  | .normal, t :: ts => t :: braceArms (if t == "=" then .eq else .normal) ts
  | .eq, t :: ts => t :: braceArms (if t == ">" then .arrow else .normal) ts
  | .arrow, t :: ts => if t == "{" then t :: braceArms .normal ts else "{" :: t :: braceArms (.arm 0) ts
  | .arm d, t :: ts =>
    if t == "," && d == 0 then "}" :: braceArms .normal ts
    else if t == "(" || t == "{" then t :: braceArms (.arm (d + 1)) ts
    else if t == ")" || t == "}" then t :: braceArms (.arm (d - 1)) ts
    else t :: braceArms (.arm d) ts

def normal (ts : Toks) : Toks := dropCommas (braceArms .normal ts)

end PinProject.Print
