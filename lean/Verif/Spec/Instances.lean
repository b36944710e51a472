import Verif.Sem.Traits
import Verif.Spec.Hygiene
import Verif.Spec.Tree
/-!
# Specification: instances of the annotated type

What rustc guarantees about a definition before trait resolution starts, what an instance of the
annotated type is, and what the program around an expansion looks like.
-/
namespace PinProject.Spec

/-- The pieces of user-written syntax the expansion copies into the `Unpin` impl: field types, bounds
on parameters, where-predicates. -/
inductive Copied (item : Item) : Node → Prop
  | field {f : Field} : f ∈ itemFields item → Copied item (resolved item f.ty)
  | bound {p : GParam} {b : String × Node} : p ∈ itemParams item → b ∈ p.boundsOf → Copied item b.2
  | pred {n : Node} : WPred.user n ∈ itemPreds item → Copied item n

/-- A definition that the front end of rustc accepts. -/
structure WellScoped (item : Item) : Prop where
  /-- lifetime parameters come first -/
  lifetimesFirst : LifetimesFirst (itemGenerics item).params
  /-- parameter names are distinct -/
  distinct : ((itemGenerics item).params.map GParam.name).Nodup
  /-- only lifetimes start with a quote -/
  quotes : ∀ p ∈ (itemGenerics item).params, p.isLifetime = false → startsWith p.name "'" = false
  /-- the where-clause is written by the user -/
  source : ∀ w ∈ itemPreds item, ∃ n, w = .user n
  /-- a lifetime `'pin..` is declared by the definition. (Here a `for<'pin..>` inside a field type is
  excluded: pin-project does not look for those, see C46.) -/
  declared : ∀ n, Copied item n → ∀ l, startsWith l "'pin" → MentionsLt n l →
    GenericsDeclare (itemGenerics item) l
  /-- names are identifiers, possibly raw -/
  lexical : ∀ ident, itemName item = some ident → ':' ∉ ident.toList ∧ '#' ∉ (noRaw ident).toList

/-- The names in the arguments are identifiers, and not the name of the helper struct (see C44). -/
structure NamesOk (ident : String) (A : Args) : Prop where
  lexical : ∀ n ∈ userNames A, ':' ∉ n.toList
  fresh : ∀ n ∈ userNames A, noRaw n ≠ "__" ++ noRaw ident

/-- The assignment of the arguments to the parameters of the item. -/
def instSubst (item : Item) (args : List TArg) : Subst := substOf (itemParams item) args

/-- `Name<args>` is a well-formed instance: as many arguments as parameters, and its bounds and
where-clauses hold. -/
structure IsInstance (item : Item) (N : Names) (args : List TArg) : Prop where
  arity : args.length = (itemGenerics item).params.length
  bounds : ParamsOk N (instSubst item args) (itemParams item)
  preds : ∀ n, WPred.user n ∈ itemPreds item → N.pred (instSubst item args) n

/-- The names that matter for an expansion. -/
def ourNames (ident : String) : List String := [ident, "__" ++ noRaw ident, wrapperName, alwaysUnpinName]

/-- These items neither define nor implement `Unpin` / `UnsafeUnpin` for the types in question. (A
definition of the annotated type itself is irrelevant: that type has an explicit `Unpin` impl.) -/
def Unrelated (ident : String) (items : List GItem) : Prop :=
  ∀ n ∈ ourNames ident, implsOf items .unpin n = [] ∧ implsOf items .unsafeUnpin n = [] ∧
    ∀ d ∈ typeDefs items, d.name = n → n = ident

/-- A program that contains the runtime crate, the expansion, and other things (for instance other
expansions) that neither define nor implement `Unpin` / `UnsafeUnpin` for the types in question; except
that the user may implement `UnsafeUnpin` for the annotated type. -/
structure Hosts (ident : String) (E : Expansion) (P : Program) : Prop where
  items : ∃ pre rest, P.items = runtimeItems ++ (pre ++ (allItems E ++ rest)) ∧
    Unrelated ident pre ∧ Unrelated ident rest
  user : ∀ u ∈ P.user, u.name ∈ ourNames ident → u.tr = .unpin ∨ u.tr = .unsafeUnpin →
    u.tr = .unsafeUnpin ∧ u.name = ident

end PinProject.Spec
