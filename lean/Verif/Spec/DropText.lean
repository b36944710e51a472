import Verif.Spec.Meaning
/-!
# Specification: the text that `#[pinned_drop]` produces

Written from the comment before `expand_impl` (pinned_drop.rs:158-173) and the documentation of `#[pinned_drop]`.
-/
namespace PinProject.Spec
namespace Meaning

/-- `a::b`, `::a::b` -/
def pathText (p : SPath) : List String := (if p.leading then ["::"] else []) ++ ((p.segs.map (fun s => [s])).intersperse ["::"]).flatten

/-- `[name(..)]` -/
def metaText (a : Attribute) : List String :=
  ["["] ++ (match a.m with
    | .path p => pathText p
    | .list p d ts => pathText p ++ Emit.tt (.group d ts)
    | .nameValue p ts => pathText p ++ ["="] ++ Emit.tts ts) ++ ["]"]

def attributeText (a : Attribute) : List String := ["#"] ++ metaText a

def innerText (a : Attribute) : List String := ["#", "!"] ++ metaText a

/-- `<..>`: lifetimes come first. -/
inductive GenericsText (ps : List GParam) : List String → Prop
  | mk {xs x} : Each ParamIs xs (ps.filter GParam.isLifetime ++ ps.filter (fun p => !p.isLifetime)) → AppIs [] xs x → GenericsText ps x

/-- `where ..` -/
inductive WhereText : List WPred → List String → Prop
  | none : WhereText [] []
  | some {ws xs x} : ws ≠ [] → Each PredIs xs ws → Sep xs x → WhereText ws ("where" :: x)

/-- `-> T` -/
def returnText : Option Node → List String
  | none => []
  | some t => "->" :: Emit.node t

/-- `::pin_project::__private::PinnedDrop` -/
def privateTrait : List String := ["::", "pin_project", "::", "__private", "::", "PinnedDrop"]

/-- The qualifiers of a function: those before `unsafe`, and those after it. -/
inductive Qualifiers : List String → List String → List String → Prop
  | mk {c a e} : c ∈ [[], ["const"]] → a ∈ [[], ["async"]] →
      (e ∈ [[], ["extern"]] ∨ ∃ abi, e = ["extern", "\"" ++ abi ++ "\""]) → Qualifiers (c ++ a ++ e) (c ++ a) e

def visText : Vis → List String
  | .inherited => []
  | .pub => ["pub"]
  | .restricted inTok p => ["pub", "("] ++ (if inTok then ["in"] else []) ++ pathText p ++ [")"]

/-- What follows the last parameter: a comma, if the user has written one, or `, ...`. -/
def lastText (sig : Signature) : List String :=
  match sig.variadic, sig.comma with
  | true, _ => [",", "..."]
  | false, true => [","]
  | false, false => []

/-- The function with the user's code: the generics of the impl, `__self`, and what `Self` is written out. -/
inductive InnerText (item : ItemImpl) (m : Method) (isMut : Bool) (ty : Node) : List String → Prop
  | mk {g w} : GenericsText (item.generics.params.map (GParam.visit (implSelfTy item))) g →
      WhereText (item.generics.preds.map (WPred.visit (implSelfTy item))) w →
      InnerText item m isMut ty
        (["#", "[", "allow", "(", "clippy::missing_const_for_fn", ",", "clippy::needless_pass_by_value", ",", "clippy::single_call_fn",
            ",", ")", "]"] ++
          m.attrs.flatMap attributeText ++ visText m.vis ++ m.sig.quals ++ ["fn", "__drop_inner"] ++ g ++
          ["("] ++ m.sig.recvAttrs.flatMap attributeText ++ (if isMut then ["mut"] else []) ++ ["__self", ":"] ++ Emit.node (ty.visit (implSelfTy item)) ++ lastText m.sig ++ [")"] ++
          returnText (m.sig.output.map (Node.visit (implSelfTy item))) ++ w ++
          ["{"] ++ m.innerAttrs.flatMap innerText ++ ["fn", "__drop_inner", "(", ")", "{", "}"] ++
          (m.block.map (Node.visit (implSelfTy item))).flatMap Emit.node ++ ["}"])

/-- The impl: `drop` is `unsafe` and only calls the function inside it. -/
inductive DropText (item : ItemImpl) (neg : Bool) (m : Method) (isMut : Bool) (ty : Node) : List String → Prop
  | mk {g w q1 q2 g' w' inner} : GenericsText item.generics.params g → WhereText item.generics.preds w →
      Qualifiers m.sig.quals q1 q2 → GenericsText m.sig.generics.params g' → WhereText m.sig.generics.preds w' →
      InnerText item m isMut ty inner →
      DropText item neg m isMut ty
        (item.attrs.flatMap attributeText ++ ["#", "[", "doc", "(", "hidden", ")", "]"] ++
          (if item.isDefault then ["default"] else []) ++ ["impl"] ++ g ++ (if neg then ["!"] else []) ++ privateTrait ++ ["for"] ++ Emit.node item.selfTy ++ w ++ ["{"] ++ item.innerAttrs.flatMap innerText ++
            (m.attrs.flatMap attributeText ++ visText m.vis ++ q1 ++ ["unsafe"] ++ q2 ++ ["fn", "drop"] ++ g' ++
              ["("] ++ m.sig.recvAttrs.flatMap attributeText ++ ["self", ":"] ++ Emit.node ty ++ lastText m.sig ++ [")"] ++ returnText m.sig.output ++ w' ++
              ["{"] ++ m.innerAttrs.flatMap innerText ++ inner ++ ["__drop_inner", "(", "self", ")", ";"] ++ ["}"]) ++
          ["}"])

/-- The impl that is added to a compile error. -/
inductive DummyText (item : ItemImpl) : List String → Prop
  | mk {g w} : GenericsText (item.generics.params.map withoutDefault) g → WhereText item.generics.preds w →
      DummyText item
        (["impl"] ++ g ++ privateTrait ++ ["for"] ++ Emit.node item.selfTy ++ w ++
          ["{", "unsafe", "fn", "drop", "(", "self", ":", "::", "pin_project", "::", "__private", "::", "Pin", "<", "&", "mut", "Self",
            ">", ")", "{", "}", "}"])

end Meaning
end PinProject.Spec
