import Verif.Spec.Receiver
import Verif.Model.PinnedDrop
/-!
# Specification: `#[pinned_drop]`

Only data types of the model (`ItemImpl`, `Signature`, ...) are used.
-/
namespace PinProject.Spec

/-- The type `Self`. -/
def selfType : Node := .tyPath .none (.mk false [.mk "Self" .none])

/-- The type is `&mut T` or `&'a mut T`. -/
def IsMutRef (ty elem : Node) : Prop :=
  ty = .other "&mut" [elem] ∨ ∃ lt, ty = .other "&mut" [.lifetime lt, elem]

/-- The type is `Pin<&mut Self>` or `some::path::Pin<&mut Self>`. -/
def IsPinMutSelf (ty : Node) : Prop :=
  ∃ leading front colons ref, ty = .tyPath .none (.mk leading (front ++ [.mk "Pin" (.angle colons [ref])])) ∧
    IsMutRef ref selfType

/-- The method is `fn drop([mut] self: Pin<&mut Self>)`, possibly with `-> ()`. -/
structure IsDropMethod (sig : Signature) : Prop where
  name : sig.ident = "drop"
  safe : sig.isUnsafe = false
  receiver : ∃ isMut short ty, sig.inputs = [.receiver isMut short ty] ∧ IsPinMutSelf ty
  output : sig.output = none ∨ sig.output = some (.other "tuple" [])

/-- What `#[pinned_drop(args)] item` looks for; `m` is the drop method, and `negative` says that it is
`impl !PinnedDrop`. -/
structure Checked (args : List TT) (item : ItemImpl) (negative : Bool) (m : Method) : Prop where
  noArgs : args = []
  once : ∀ a ∈ item.attrs ++ item.innerAttrs, ¬ a.path.isIdent "pinned_drop"
  pinnedDrop : item.trait_ = some (negative, .mk false [.mk "PinnedDrop" .none])
  safe : item.isUnsafe = false
  pathType : ∃ q p, item.selfTy = .tyPath q p
  onlyDrop : item.items = [.fn m]
  drop : IsDropMethod m.sig

/-- The documented form: it is not a negative impl, there is no `default`, and the method has no visibility, no `async`, `const`,
`extern`, no generics of its own and no `...`. -/
structure Documented (args : List TT) (item : ItemImpl) (m : Method) : Prop extends
    Checked args item false m where
  noQualifiers : m.sig.quals = []
  noGenerics : m.sig.generics.params = []
  noDefault : item.isDefault = false ∧ m.isDefault = false
  noVisibility : m.vis = .inherited
  notVariadic : m.sig.variadic = false

/-- The attribute accepts the impl. -/
def Accepts (args : List TT) (item : ItemImpl) : Prop := ∃ i, pinnedDropAttribute args item = .expanded i

/-- The checks reach, before they find anything wrong, a macro call in item position (`m! { .. }`, which `syn` does not expand)
or an item that is not complete (`fn drop(self: Pin<&mut Self>);`, which `syn` does not take apart). -/
structure ReachesMacro (args : List TT) (item : ItemImpl) : Prop where
  noArgs : args = []
  once : ∀ a ∈ item.attrs ++ item.innerAttrs, ¬ a.path.isIdent "pinned_drop"
  pinnedDrop : ∃ negative, item.trait_ = some (negative, .mk false [.mk "PinnedDrop" .none])
  safe : item.isUnsafe = false
  pathType : ∃ q p, item.selfTy = .tyPath q p
  items : ∃ rest, item.items = .other :: rest ∨
    ∃ m, IsDropMethod m.sig ∧ item.items = .fn m :: .other :: rest

/-! ## Which function a call reaches -/

/-- The block with these statements defines a function called `f`. -/
def Defines (block : List Node) (f : String) : Prop := ∃ cs, .item ("fn " ++ f) cs ∈ block

def OutDefines (block : List OutStmt) (f : String) : Prop := ∃ d, .fnItem d ∈ block ∧ d.name = f

/-- `blocks` are the blocks around a call of `f`, from the inside to the outside, each given by the
functions it defines. The call reaches the function defined in block number `k`: functions are
visible in the whole block that defines them and hide those of outer blocks. -/
def Reaches (f : String) (blocks : List (String → Prop)) (k : Nat) : Prop :=
  (∃ b, blocks[k]? = some b ∧ b f) ∧ ∀ j < k, ∀ b, blocks[j]? = some b → ¬ b f

/-! ## Generics -/

def paramNodes : GParam → List Node
  | .lifetime _ _ => []
  | .type _ bounds dflt => bounds ++ dflt.toList
  | .const _ ty dflt => ty :: dflt.toList

/-- The types and predicates copied from the user in a type. -/
def tyNodes : GTy → List Node
  | .user n => [n]
  | .paren t | .ref _ _ t | .pin _ t | .phantomData _ t | .ptrMut t | .pinnedFieldsOf t | .wrapper _ t =>
    tyNodes t
  | .phantomPinned | .adt _ _ | .param _ | .selfTy | .alwaysUnpin _ _ | .unit => []

def predNodes : WPred → List Node
  | .user n => [n]
  | .outlives t _ => tyNodes t
  | .bound t _ => tyNodes t

/-- All bounds, defaults and predicates in generics. -/
def genericsNodes (g : Generics) : List Node :=
  g.params.flatMap paramNodes ++ (g.whereClause.getD []).flatMap predNodes

/-! ## All the user's code in the generated items -/

def fieldsNodes (fs : GFields) : List Node := fs.fields.flatMap (fun f => tyNodes f.ty)

def fnNodes (f : GFn) : List Node :=
  tyNodes f.recv ++ f.params.flatMap (fun x => tyNodes x.2) ++ tyNodes f.ret

def headerNodes (ps : List GParam) (ws : List WPred) : List Node :=
  ps.flatMap paramNodes ++ ws.flatMap predNodes

def itemUserNodes : GItem → List Node
  | .struct_ _ _ _ ps ws fs => headerNodes ps ws ++ fieldsNodes fs
  | .enum_ _ _ _ ps ws vs => headerNodes ps ws ++ vs.flatMap (fun v => fieldsNodes v.2)
  | .inherent ps _ _ ws fns => headerNodes ps ws ++ fns.flatMap fnNodes
  | .traitImpl _ _ ps _ _ _ ws fns => headerNodes ps ws ++ fns.flatMap fnNodes
  | .traitDef _ | .blanketDrop _ => []
  | .assertNotPacked ps _ _ ws _ => headerNodes ps ws

/-- All types, bounds and predicates in the expansion that were copied from the definition. -/
def expansionNodes (E : Expansion) : List Node := (allItems E).flatMap itemUserNodes

/-- All types, bounds and predicates in the definition. -/
def definitionNodes (item : Item) : List Node :=
  genericsNodes (itemGenerics item) ++ (itemVariants item).flatMap (fun v => v.2.list.map (·.ty))

/-- The name of a generic parameter, without the apostrophe of a lifetime. -/
def plainName : GParam → String
  | .lifetime n _ => String.ofList n.toList.tail
  | .type n _ _ | .const n _ _ => n

/-- No type and no parameter is named `self` or `Self` (rustc rejects such names). -/
def LegalNames (item : Item) : Prop :=
  ∀ w : Word, itemName item ≠ some w.text ∧ ∀ p ∈ (itemGenerics item).params, plainName p ≠ w.text

end PinProject.Spec
