import Verif.Spec.Types
/-!
# Specification: the syntax of generated types

All types in generated items, with the generic parameters in scope there.
-/
namespace PinProject.Spec

/-- The types in a where-predicate made by pin-project. -/
def predTys : WPred → List GTy
  | .user _ => []
  | .outlives t _ | .bound t _ => [t]

/-- The types in a signature. -/
def fnTys (f : GFn) : List GTy := f.recv :: f.ret :: f.params.map Prod.snd

/-- All types in an item (field types, where-clauses, self types of impls, signatures), with the generic
parameters in scope. -/
def scopedTys : GItem → List (List GParam × GTy)
  | .struct_ _ _ _ ps ws fs => (ws.flatMap predTys ++ fs.fields.map GField.ty).map (ps, ·)
  | .enum_ _ _ _ ps ws vs => (ws.flatMap predTys ++ vs.flatMap (fun v => v.2.fields.map GField.ty)).map (ps, ·)
  | .inherent ps n as ws fns => (.adt n as :: ws.flatMap predTys ++ fns.flatMap fnTys).map (ps, ·)
  | .traitImpl _ _ ps _ n as ws fns => (.adt n as :: ws.flatMap predTys ++ fns.flatMap fnTys).map (ps, ·)
  | .assertNotPacked ps n as ws _ => (.ref none false (.adt n as) :: ws.flatMap predTys).map (ps, ·)
  | .traitDef _ => []
  | .blanketDrop _ => [([.type "T" [] none], .param "T")]

/-! ## Names of types -/

/-- The type names, with the number of their arguments, in a type. -/
def tyNames : GTy → List (String × Nat)
  | .adt n as => [(n, as.length)]
  | .paren t | .ref _ _ t | .pin _ t | .phantomData _ t | .ptrMut t | .pinnedFieldsOf t | .wrapper _ t => tyNames t
  | .user _ | .phantomPinned | .param _ | .selfTy | .alwaysUnpin _ _ | .unit => []

/-- The type parameters. -/
def typeParamNames (ps : List GParam) : List String :=
  ps.filterMap (fun | .type n _ _ => some n | _ => none)

/-- The type name `n` with `k` arguments, meant as a defined type, is silently taken for a type
parameter. Inside an item, its type parameters hide types of the same name; a parameter with arguments is
an error (E0109). Names are compared without `r#`. -/
def Hijacked (ps : List GParam) (n : String) (k : Nat) : Prop :=
  (∃ x ∈ typeParamNames ps, noRaw x = noRaw n) ∧ k = 0

/-! ## Grammar -/

/-- The grammar of types. A type with a `+`, such as `dyn A + B` (`plus`), may only stand where `+` cannot be
taken for something else: not directly below `&` (`noBounds = true`; the reference calls this
`TypeNoBounds`), but in parentheses or as a generic argument. -/
inductive TypeSyntax (plus : Node → Prop) : (noBounds : Bool) → GTy → Prop
  | user {nb : Bool} {n : Node} : (nb = true → ¬ plus n) → TypeSyntax plus nb (.user n)
  | paren {nb : Bool} {t : GTy} : TypeSyntax plus false t → TypeSyntax plus nb (.paren t)
  | ref {nb : Bool} {lt : Option String} {m : Bool} {t : GTy} : TypeSyntax plus true t → TypeSyntax plus nb (.ref lt m t)
  | ptrMut {nb : Bool} {t : GTy} : TypeSyntax plus true t → TypeSyntax plus nb (.ptrMut t)
  | pin {nb : Bool} {r : Root} {t : GTy} : TypeSyntax plus false t → TypeSyntax plus nb (.pin r t)
  | phantomData {nb : Bool} {r : Root} {t : GTy} : TypeSyntax plus false t → TypeSyntax plus nb (.phantomData r t)
  | pinnedFieldsOf {nb : Bool} {t : GTy} : TypeSyntax plus false t → TypeSyntax plus nb (.pinnedFieldsOf t)
  | wrapper {nb : Bool} {lt : String} {t : GTy} : TypeSyntax plus false t → TypeSyntax plus nb (.wrapper lt t)
  | alwaysUnpin {nb : Bool} {lt : String} {ps : List String} : TypeSyntax plus nb (.alwaysUnpin lt ps)
  | phantomPinned {nb : Bool} : TypeSyntax plus nb .phantomPinned
  | adt {nb : Bool} {n : String} {as : List GArg} : TypeSyntax plus nb (.adt n as)
  | param {nb : Bool} {n : String} : TypeSyntax plus nb (.param n)
  | selfTy {nb : Bool} : TypeSyntax plus nb .selfTy
  | unit {nb : Bool} : TypeSyntax plus nb .unit

end PinProject.Spec
