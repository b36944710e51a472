import Verif.Model.ReceiverSpans
/-!
# pin-project-internal/src/utils.rs:160-370: `ReplaceReceiver` on syntax trees, with spans

`Node.visit` (Model/Receiver) again, where names in paths and the tokens of macro calls carry spans of an arbitrary type `S`.
-/
namespace PinProject

mutual
/-- A syntax node, see `Node`. (utils.rs:278-354) -/
inductive PNode (S : Type)
  | tyPath (q : PQS S) (p : PPath S)
  | exprPath (q : PQS S) (p : PPath S)
  | exprStruct (q : PQS S) (p : PPath S) (cs : List (PNode S))
  | patStruct (q : PQS S) (p : PPath S) (cs : List (PNode S))
  | patTupleStruct (q : PQS S) (p : PPath S) (cs : List (PNode S))
  | path (p : PPath S)
  | mac (p : PPath S) (toks : List (PTok S))
  | itemMac (p : PPath S) (toks : List (PTok S))
  | item (label : String) (cs : List (PNode S))
  | binder (lts : List String)
  | lifetime (name : String)
  | other (label : String) (cs : List (PNode S))
/-- `Option<QSelf>`. (utils.rs:175) -/
inductive PQS (S : Type)
  | none
  | some (ty : PNode S) (pos : Nat)
/-- `syn::Path`. (utils.rs:175-228) -/
inductive PPath (S : Type)
  | mk (leading : Bool) (segs : List (PSeg S))
/-- `syn::PathSegment`, with the span of its name. (utils.rs:180-181, 190) -/
inductive PSeg (S : Type)
  | mk (ident : String) (sp : S) (args : PPArgs S)
/-- `syn::PathArguments`. (utils.rs:181, 218-220) -/
inductive PPArgs (S : Type)
  | none
  | angle (colon2 : Bool) (args : List (PNode S))
  | paren (inputs : List (PNode S))
end

variable {S : Type}

/-- utils.rs:176 `path.leading_colon.is_some()`. -/
def PPath.leading : PPath S → Bool
  | .mk l _ => l
/-- utils.rs:180 `path.segments`. -/
def PPath.segs : PPath S → List (PSeg S)
  | .mk _ s => s
/-- `PathArguments::is_empty`. (utils.rs:181, 211) -/
def PPArgs.isEmpty : PPArgs S → Bool
  | .none => true
  | .angle _ args => args.isEmpty
  | .paren _ => false
/-- utils.rs:282, 294, 302 `qself.is_none()`. -/
def PQS.isNone : PQS S → Bool
  | .none => true
  | _ => false

/-- `syn::Path::is_ident`, with the span of the name. (utils.rs:282-283) -/
def PPath.identSpan? : PPath S → String → Option S
  | .mk false [.mk i sp .none], s => if i = s then some sp else none
  | _, _ => none

/-- The condition of utils.rs:176-183 and 206-213, with the span of `Self`. -/
def PPath.selfSpan? : PPath S → Option S
  | .mk false (.mk i sp a :: _) => if i = "Self" ∧ a.isEmpty = true then some sp else none
  | _ => none

/-- utils.rs:324-327, with 364-370: rename the only segment if it is `self`; the new name has the span of the old one. -/
def renameSingleP : List (PSeg S) → List (PSeg S)
  | [.mk i sp a] => [.mk (prependUnderscore i) sp a]
  | segs => segs

/-- utils.rs:217-223: add the turbofish. -/
def turbofishP : List (PSeg S) → List (PSeg S)
  | [] => []
  | .mk i sp (.angle c args) :: ss => .mk i sp (.angle (c || !args.isEmpty) args) :: turbofishP ss
  | s :: ss => s :: turbofishP ss

/-- The receiver type. `ty sp` is `self_ty(sp)` (utils.rs:171-173), the type put at `sp`; `toks` are its tokens as written.
Simplification: `ty` is any function to types, so that nothing is assumed about which of the spans inside are changed. -/
structure PSelfTy (S : Type) where
  ty : S → PQS S × PPath S
  toks : List (PTok S)

/-- utils.rs:205-228 `self_to_expr_path` followed by `visit_path_mut`. -/
def selfToExprPathP (s : PSelfTy S) (p : PPath S) (segs : List (PSeg S)) : PPath S :=
  match p.selfSpan? with
  | some sp => .mk (s.ty sp).2.leading (turbofishP (s.ty sp).2.segs ++ segs.tail)
  | none => .mk p.leading (renameSingleP segs)

/-- utils.rs:175-203 `self_to_qself` (only called when there is no qself, utils.rs:294,302) followed by the default visit. -/
def selfToQselfP (s : PSelfTy S) (q : PQS S) (p : PPath S) (qv : PQS S) (segs : List (PSeg S)) : PQS S × PPath S :=
  match q.isNone, p.selfSpan? with
  | true, some sp =>
    if p.segs.length = 1 then (.none, .mk (s.ty sp).2.leading (turbofishP (s.ty sp).2.segs))
    else (.some (.tyPath (s.ty sp).1 (s.ty sp).2) 0, .mk true (renameSingleP segs.tail))
  | _, _ => (qv, .mk p.leading (renameSingleP segs))

mutual
/-- utils.rs:278-354: the visitor on a syntax node. -/
def PNode.visit (s : PSelfTy S) : PNode S → PNode S
  | .tyPath q p =>
    match q.isNone, p.identSpan? "Self" with
    | true, some sp => .tyPath (s.ty sp).1 (s.ty sp).2
    | _, _ =>
      let r := selfToQselfP s q p (q.visit s) (p.visitSegs s)
      .tyPath r.1 r.2
  | .exprPath q p =>
    let r := selfToQselfP s q p (q.visit s) (p.visitSegs s)
    .exprPath r.1 r.2
  | .exprStruct q p cs => .exprStruct (q.visit s) (selfToExprPathP s p (p.visitSegs s)) (visitPNodes s cs)
  | .patStruct q p cs => .patStruct (q.visit s) (selfToExprPathP s p (p.visitSegs s)) (visitPNodes s cs)
  | .patTupleStruct q p cs => .patTupleStruct (q.visit s) (selfToExprPathP s p (p.visitSegs s)) (visitPNodes s cs)
  | .path p => .path (.mk p.leading (renameSingleP (p.visitSegs s)))
  | .mac p toks => .mac p (visitMacPlaced s.toks toks)
  | .itemMac p toks =>
    if (p.identSpan? "macro_rules").isSome then .itemMac p (visitMacPlaced s.toks toks) else .itemMac p toks
  | .item l cs => .item l cs
  | .binder lts => .binder lts
  | .lifetime n => .lifetime n
  | .other l cs => .other l (visitPNodes s cs)
/-- Default `visit_qself_mut`, from utils.rs:297, 305. -/
def PQS.visit (s : PSelfTy S) : PQS S → PQS S
  | .none => .none
  | .some t pos => .some (t.visit s) pos
/-- utils.rs:328-330: the segments with their arguments visited. -/
def PPath.visitSegs (s : PSelfTy S) : PPath S → List (PSeg S)
  | .mk _ segs => visitPSegs s segs
/-- utils.rs:328-330. -/
def visitPSegs (s : PSelfTy S) : List (PSeg S) → List (PSeg S)
  | [] => []
  | x :: xs => x.visit s :: visitPSegs s xs
/-- utils.rs:328-330. -/
def PSeg.visit (s : PSelfTy S) : PSeg S → PSeg S
  | .mk i sp a => .mk i sp (a.visit s)
/-- utils.rs:329 `visit_path_arguments_mut`. -/
def PPArgs.visit (s : PSelfTy S) : PPArgs S → PPArgs S
  | .none => .none
  | .angle c args => .angle c (visitPNodes s args)
  | .paren args => .paren (visitPNodes s args)
/-- Children, by the default visitor: utils.rs:288. -/
def visitPNodes (s : PSelfTy S) : List (PNode S) → List (PNode S)
  | [] => []
  | n :: ns => n.visit s :: visitPNodes s ns
end

end PinProject
