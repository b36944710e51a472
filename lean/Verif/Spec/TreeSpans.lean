import Verif.Model.TreeSpans
import Verif.Spec.ReceiverSpans
/-!
# Specification: variables of the user's code, with their spans
-/
namespace PinProject.Spec

variable {S : Type}

mutual
/-- The node without spans. -/
def unplaceNode : PNode S → Node
  | .tyPath q p => .tyPath (unplaceQ q) (unplacePath p)
  | .exprPath q p => .exprPath (unplaceQ q) (unplacePath p)
  | .exprStruct q p cs => .exprStruct (unplaceQ q) (unplacePath p) (unplaceNodes cs)
  | .patStruct q p cs => .patStruct (unplaceQ q) (unplacePath p) (unplaceNodes cs)
  | .patTupleStruct q p cs => .patTupleStruct (unplaceQ q) (unplacePath p) (unplaceNodes cs)
  | .path p => .path (unplacePath p)
  | .mac p toks => .mac (unplacePath p) (unplaceAll toks)
  | .itemMac p toks => .itemMac (unplacePath p) (unplaceAll toks)
  | .item l cs => .item l (unplaceNodes cs)
  | .binder lts => .binder lts
  | .lifetime n => .lifetime n
  | .other l cs => .other l (unplaceNodes cs)
def unplaceQ : PQS S → QS
  | .none => .none
  | .some t pos => .some (unplaceNode t) pos
def unplacePath : PPath S → Path
  | .mk l segs => .mk l (unplaceSegs segs)
def unplaceSegs : List (PSeg S) → List Seg
  | [] => []
  | x :: xs => unplaceSeg x :: unplaceSegs xs
def unplaceSeg : PSeg S → Seg
  | .mk i _ a => .mk i (unplaceArgs a)
def unplaceArgs : PPArgs S → PArgs
  | .none => .none
  | .angle c args => .angle c (unplaceNodes args)
  | .paren args => .paren (unplaceNodes args)
def unplaceNodes : List (PNode S) → List Node
  | [] => []
  | n :: ns => unplaceNode n :: unplaceNodes ns
end

/-- The path is the single name `w`, with the span `sp`, possibly with arguments. -/
def VarAt (w : String) (sp : S) (p : PPath S) : Prop := ∃ a, p = .mk false [.mk w sp a]

mutual
/-- The name `w` is used with the span `sp`, as a path of its own or in a macro call, at any depth, not counting nested items, which
cannot use the variables of the function they are in. With `open_`, macro calls that have `fn` among their tokens do not count. -/
def UsesVar (open_ : Bool) (w : String) (sp : S) : PNode S → Prop
  | .tyPath q p | .exprPath q p => (q.isNone = true ∧ VarAt w sp p) ∨ UsesQ open_ w sp q ∨ UsesPath open_ w sp p
  | .exprStruct q p cs | .patStruct q p cs | .patTupleStruct q p cs =>
    (q.isNone = true ∧ VarAt w sp p) ∨ UsesQ open_ w sp q ∨ UsesPath open_ w sp p ∨ UsesNodes open_ w sp cs
  | .path p => VarAt w sp p ∨ UsesPath open_ w sp p
  | .mac _ toks => IdentAt w sp toks ∧ (open_ = true → ¬ TokOccurs "fn" (unplaceAll toks))
  | .itemMac p toks =>
    (p.identSpan? "macro_rules").isSome = true ∧ IdentAt w sp toks ∧ (open_ = true → ¬ TokOccurs "fn" (unplaceAll toks))
  | .item _ _ | .binder _ | .lifetime _ => False
  | .other _ cs => UsesNodes open_ w sp cs
def UsesQ (open_ : Bool) (w : String) (sp : S) : PQS S → Prop
  | .none => False
  | .some t _ => UsesVar open_ w sp t
/-- In the arguments of the path. -/
def UsesPath (open_ : Bool) (w : String) (sp : S) : PPath S → Prop
  | .mk _ segs => UsesSegs open_ w sp segs
def UsesSegs (open_ : Bool) (w : String) (sp : S) : List (PSeg S) → Prop
  | [] => False
  | x :: xs => UsesSeg open_ w sp x ∨ UsesSegs open_ w sp xs
def UsesSeg (open_ : Bool) (w : String) (sp : S) : PSeg S → Prop
  | .mk _ _ a => UsesArgs open_ w sp a
def UsesArgs (open_ : Bool) (w : String) (sp : S) : PPArgs S → Prop
  | .none => False
  | .angle _ args => UsesNodes open_ w sp args
  | .paren args => UsesNodes open_ w sp args
def UsesNodes (open_ : Bool) (w : String) (sp : S) : List (PNode S) → Prop
  | [] => False
  | n :: ns => UsesVar open_ w sp n ∨ UsesNodes open_ w sp ns
end

/-- The receiver type is a type with at least one segment that does not have the name `w` as a variable anywhere. -/
structure FreeOf (w : String) (s : PSelfTy S) : Prop where
  segs : ∀ sp, (s.ty sp).2.segs ≠ []
  path : ∀ sp sp', ¬ VarAt w sp' (s.ty sp).2 ∧ ¬ UsesPath false w sp' (s.ty sp).2
  qself : ∀ sp sp', ¬ UsesQ false w sp' (s.ty sp).1
  toks : ∀ sp, ¬ IdentAt w sp s.toks

end PinProject.Spec
