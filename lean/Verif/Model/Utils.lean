import Verif.Model.Syntax
/-!
# pin-project-internal/src/utils.rs: everything except `ReplaceReceiver`
-/
namespace PinProject

mutual
/-- The lifetime parameters declared by `for<..>` binders inside a node: what the
`CollectLifetimes` visitor of utils.rs:29-35 collects below a syntax node. The default
traversal of `syn` visits every child; it does not look inside macro tokens. -/
def Node.binders : Node → List String
  | .tyPath q p | .exprPath q p => q.binders ++ p.binders
  | .exprStruct q p cs | .patStruct q p cs | .patTupleStruct q p cs =>
      q.binders ++ p.binders ++ nodesBinders cs
  | .path p => p.binders
  | .mac p _ | .itemMac p _ => p.binders
  | .item _ cs | .other _ cs => nodesBinders cs
  | .binder lts => lts
  | .lifetime _ => []
/-- utils.rs:29-35: see `Node.binders`. -/
def QS.binders : QS → List String
  | .none => []
  | .some t _ => t.binders
/-- utils.rs:29-35. -/
def Path.binders : Path → List String
  | .mk _ segs => segsBinders segs
/-- utils.rs:29-35. -/
def segsBinders : List Seg → List String
  | [] => []
  | s :: ss => s.binders ++ segsBinders ss
/-- utils.rs:29-35. -/
def Seg.binders : Seg → List String
  | .mk _ a => a.binders
/-- utils.rs:29-35. -/
def PArgs.binders : PArgs → List String
  | .none => []
  | .angle _ args => nodesBinders args
  | .paren args => nodesBinders args
/-- utils.rs:29-35. -/
def nodesBinders : List Node → List String
  | [] => []
  | n :: ns => n.binders ++ nodesBinders ns
end

/-- Lifetimes declared inside a generic parameter (its own name, and `for<..>` binders in its
bounds, default and const type). (utils.rs:31-35, 40) -/
def GParam.declaredLifetimes : GParam → List String
  | .lifetime n _ => [n]
  | .type _ bs d => nodesBinders bs ++ (d.map Node.binders).getD []
  | .const _ ty d => ty.binders ++ (d.map Node.binders).getD []

/-- Lifetimes declared inside a where-predicate. The generated predicates never reach this
function in the code (it runs before they are created); they declare none. (utils.rs:31-35, 40) -/
def WPred.declaredLifetimes : WPred → List String
  | .user n => n.binders
  | _ => []

/-- utils.rs:39-40: what `CollectLifetimes` collects from the generics. -/
def Generics.declaredLifetimes (g : Generics) : List String :=
  g.params.flatMap GParam.declaredLifetimes ++ (g.whereClause.getD []).flatMap WPred.declaredLifetimes

/-- `str::starts_with`. (utils.rs:42) -/
def startsWith (s pre : String) : Bool := pre.toList.isPrefixOf s.toList

theorem le_sum_of_mem {n : Nat} : ∀ {l : List Nat}, n ∈ l → n ≤ l.sum
  | [], h => by cases h
  | a :: l, h => by
    rcases List.mem_cons.1 h with rfl | h
    · simp
    · have := le_sum_of_mem h
      simp only [List.sum_cons]; omega

/-- The loop of utils.rs:42-44. Its termination is part of what Lean checks here: the name can
only grow while some declared lifetime is at least as long. -/
def lifetimeLoop (names : List String) (lt : String) : String :=
  if _h : names.any (fun n => startsWith n lt) then lifetimeLoop names (lt.push '_') else lt
termination_by (names.map (fun n => n.toList.length)).sum + 1 - lt.toList.length
decreasing_by
  obtain ⟨n, hn, hp⟩ := List.any_eq_true.1 _h
  have h1 : lt.toList.length ≤ n.toList.length := by
    simp only [startsWith, List.isPrefixOf_iff_prefix] at hp
    exact hp.length_le
  have h2 : n.toList.length ≤ (names.map (fun n => n.toList.length)).sum :=
    le_sum_of_mem (List.mem_map.2 ⟨n, hn, rfl⟩)
  simp only [String.toList_push, List.length_append, List.length_cons, List.length_nil]
  omega

/-- utils.rs:28-45 `determine_lifetime_name`. -/
def determineLifetimeName (lt : String) (g : Generics) : String :=
  lifetimeLoop g.declaredLifetimes lt

/-- utils.rs:71-75 `insert_lifetime`. -/
def Generics.insertLifetime (g : Generics) (lt : String) : Generics :=
  { g with params := .lifetime lt [] :: g.params }

/-- The names of the parameters, as `TypeGenerics` (second component of
`Generics::split_for_impl`) prints them. (derive.rs:29, 216, 955) -/
def GParam.arg : GParam → GArg
  | .lifetime n _ => .lifetime n
  | .type n _ _ => .ident n
  | .const n _ _ => .ident n

/-- Is this a lifetime parameter? (The printers of `syn` make two passes over the parameters.)
(derive.rs:29, 216, 957) -/
def GParam.isLifetime : GParam → Bool
  | .lifetime .. => true
  | _ => false

/-- `generics.split_for_impl().1`: lifetimes are printed before the other parameters. (derive.rs:29, 216, 955-956) -/
def Generics.tyGenerics (g : Generics) : List GArg :=
  (g.params.filter GParam.isLifetime).map GParam.arg ++
  (g.params.filter (fun p => !p.isLifetime)).map GParam.arg

/-- The lifetime parameters, `Generics::lifetimes`. (derive.rs:790) -/
def Generics.lifetimes (g : Generics) : List String :=
  g.params.filterMap (fun p => match p with | .lifetime n _ => some n | _ => none)

/-- The type parameters, `Generics::type_params`. (derive.rs:801) -/
def Generics.typeParams (g : Generics) : List String :=
  g.params.filterMap (fun p => match p with | .type n _ _ => some n | _ => none)

/-- Drops the default of a parameter: `ImplGenerics` (first component of `split_for_impl`)
prints parameters without defaults. (derive.rs:710, 803, 862) -/
def GParam.noDefault : GParam → GParam
  | .lifetime n b => .lifetime n b
  | .type n b _ => .type n b none
  | .const n t _ => .const n t none

/-- `generics.split_for_impl().0`. (derive.rs:710, 803, 862, 957) -/
def Generics.implGenerics (g : Generics) : List GParam :=
  ((g.params.filter GParam.isLifetime) ++
  (g.params.filter (fun p => !p.isLifetime))).map GParam.noDefault

/-- `Generics` printed by `ToTokens` (used for type definitions): lifetimes first, with
defaults, without the where-clause. (derive.rs:397, 401, 406, 823) -/
def Generics.defParams (g : Generics) : List GParam :=
  (g.params.filter GParam.isLifetime) ++
  (g.params.filter (fun p => !p.isLifetime))

/-- `generics.split_for_impl().2`, with the absent where-clause as the empty one. (derive.rs:804, 862, 957) -/
def Generics.preds (g : Generics) : List WPred := g.whereClause.getD []

/-- `Generics::make_where_clause`. (derive.rs:225, 704, 727) -/
def Generics.makeWhere (g : Generics) : Generics :=
  { g with whereClause := some g.preds }

/-- utils.rs:50-68 `insert_lifetime_and_bound`: the new generics and the predicate
`Orig<..>: 'lifetime`. -/
def insertLifetimeAndBound (g : Generics) (lt : String) (origArgs : List GArg) (ident : String) :
    Generics × WPred :=
  (g.insertLifetime lt, .outlives (.adt ident origArgs) lt)

/-- utils.rs:81-87 `determine_visibility`. -/
def determineVisibility : Vis → Vis
  | .pub => .pubCrate
  | v => v

/-- utils.rs:121-133 `position_exact`, with the fold state as arguments. -/
def positionExactFrom (ident : String) : List Attribute → Nat → Option Nat → Res (Option Nat)
  | [], _, prev => .ok prev
  | a :: as, i, prev =>
    if a.path.isIdent ident then
      if prev.isSome then .error (.bail s!"duplicate #[{ident}] attribute")
      else do
        a.m.requirePathOnly
        positionExactFrom ident as (i + 1) (some i)
    else positionExactFrom ident as (i + 1) prev

/-- utils.rs:121-133 `position_exact`. -/
def positionExact (attrs : List Attribute) (ident : String) : Res (Option Nat) :=
  positionExactFrom ident attrs 0 none

/-- utils.rs:135-137 `find`. -/
def findAttr (attrs : List Attribute) (ident : String) : Option Attribute :=
  attrs.find? (fun a => a.path.isIdent ident)

/-- `format_ident!` strips the `r#` of a raw identifier when it interpolates one.
(derive.rs:231, 242-243, 798, 901) -/
def unraw (s : String) : String :=
  match s.toList with
  | 'r' :: '#' :: rest => String.ofList rest
  | _ => s

end PinProject
