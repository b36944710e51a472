import Verif.Model.Utils
/-!
# pin-project-internal/src/utils.rs:160-370: `ReplaceReceiver`

The visitor rewrites `self` to `__self` and `Self` to the receiver type.

Simplification: where the code replaces `Self` by the receiver type and then continues with the
default visitor *into the inserted receiver type*, the model inserts the receiver type without
visiting it again. The receiver types that occur (`Name<params>` in derive.rs:30,39 and the
type of an `impl` header in pinned_drop.rs:208) mention neither `self` nor `Self`, and
`Node.visit_free` (Props/ReceiverTree) proves that visiting such a type changes nothing.
-/
namespace PinProject

/-- The `TypePath` held by `ReplaceReceiver` (utils.rs:168), with the tokens `quote!(#self_ty)`
prints for it. -/
structure SelfTy where
  q : QS
  p : Path
  toks : List TT
  deriving Inhabited

/-- utils.rs:364-370 `prepend_underscore_to_self`: the new identifier. -/
def prependUnderscore (s : String) : String := if s = "self" then "__self" else s

/-- utils.rs:356-362 `contains_fn`. -/
def containsFn : List TT → Bool
  | [] => false
  | .ident s :: rest => s == "fn" || containsFn rest
  | .group _ ts :: rest => containsFn ts || containsFn rest
  | .punct _ _ :: rest => containsFn rest
  | .lit _ :: rest => containsFn rest

/-- `quote!(<#self_ty>)`. (utils.rs:249) -/
def angled (ts : List TT) : List TT := .punct '<' false :: ts ++ [.punct '>' false]

/-- Is the first token the character `c`? (utils.rs:242-247) -/
def headPunct (c : Char) : List TT → Bool
  | .punct d _ :: _ => d == c
  | _ => false

/-- utils.rs:230-275 `visit_token_stream`: the resulting tokens. (The returned flag only says
whether the tokens changed.) `sty` is `quote!(#self_ty)`. -/
def visitToks (sty : List TT) : List TT → List TT
  | [] => []
  | .ident s :: rest =>
    if s = "Self" then
      match rest with
      | .punct c true :: rest' =>
        if c = ':' then
          (if headPunct ':' rest' then angled sty else sty) ++ .punct c true :: visitToks sty rest'
        else sty ++ .punct c true :: visitToks sty rest'
      | rest => sty ++ visitToks sty rest
    else .ident (prependUnderscore s) :: visitToks sty rest
  | .group d ts :: rest => .group d (visitToks sty ts) :: visitToks sty rest
  | .punct c j :: rest => .punct c j :: visitToks sty rest
  | .lit s :: rest => .lit s :: visitToks sty rest

/-- utils.rs:344-353 `visit_macro_mut`. -/
def visitMacToks (sty : List TT) (toks : List TT) : List TT :=
  if containsFn toks then toks else visitToks sty toks

/-- utils.rs:324-327: rename the only segment if it is `self`. -/
def renameSingle : List Seg → List Seg
  | [.mk i a] => [.mk (prependUnderscore i) a]
  | segs => segs

/-- The condition under which utils.rs:175-183 and 205-213 go on: the path starts with a plain
`Self` segment. -/
def startsWithSelf : Path → Bool
  | .mk false (.mk i a :: _) => i == "Self" && a.isEmpty
  | _ => false

/-- utils.rs:217-223: add the turbofish. -/
def turbofish : List Seg → List Seg
  | [] => []
  | .mk i (.angle c args) :: ss => .mk i (.angle (c || !args.isEmpty) args) :: turbofish ss
  | s :: ss => s :: turbofish ss

/-- utils.rs:205-228 `self_to_expr_path` followed by `visit_path_mut`, where `segs` are the
segments with their arguments already visited. -/
def selfToExprPath (s : SelfTy) (p : Path) (segs : List Seg) : Path :=
  if startsWithSelf p then .mk s.p.leading (turbofish s.p.segs ++ segs.tail)
  else .mk p.leading (renameSingle segs)

/-- utils.rs:175-203 `self_to_qself` (only called when there is no qself, utils.rs:294,302)
followed by the default visit, where `qv` and `segs` are the visited parts. -/
def selfToQself (s : SelfTy) (q : QS) (p : Path) (qv : QS) (segs : List Seg) : QS × Path :=
  if q.isNone && startsWithSelf p then
    if p.segs.length = 1 then (.none, .mk s.p.leading (turbofish s.p.segs))
    else (.some (.tyPath s.q s.p) 0, .mk true (renameSingle segs.tail))
  else (qv, .mk p.leading (renameSingle segs))

mutual
/-- utils.rs:278-354: the visitor on a syntax node. -/
def Node.visit (s : SelfTy) : Node → Node
  | .tyPath q p =>
    if q.isNone && p.isIdent "Self" then .tyPath s.q s.p
    else
      let r := selfToQself s q p (q.visit s) (p.visitSegs s)
      .tyPath r.1 r.2
  | .exprPath q p =>
    let r := selfToQself s q p (q.visit s) (p.visitSegs s)
    .exprPath r.1 r.2
  | .exprStruct q p cs => .exprStruct (q.visit s) (selfToExprPath s p (p.visitSegs s)) (visitNodes s cs)
  | .patStruct q p cs => .patStruct (q.visit s) (selfToExprPath s p (p.visitSegs s)) (visitNodes s cs)
  | .patTupleStruct q p cs =>
    .patTupleStruct (q.visit s) (selfToExprPath s p (p.visitSegs s)) (visitNodes s cs)
  | .path p => .path (.mk p.leading (renameSingle (p.visitSegs s)))
  | .mac p toks => .mac p (visitMacToks s.toks toks)
  | .itemMac p toks =>
    if p.isIdent "macro_rules" then .itemMac p (visitMacToks s.toks toks) else .itemMac p toks
  | .item l cs => .item l cs
  | .binder lts => .binder lts
  | .lifetime n => .lifetime n
  | .other l cs => .other l (visitNodes s cs)
/-- Default `visit_qself_mut`, from utils.rs:297, 305. -/
def QS.visit (s : SelfTy) : QS → QS
  | .none => .none
  | .some t pos => .some (t.visit s) pos
/-- utils.rs:328-330: the segments with their arguments visited. -/
def Path.visitSegs (s : SelfTy) : Path → List Seg
  | .mk _ segs => visitSegList s segs
/-- utils.rs:328-330. -/
def visitSegList (s : SelfTy) : List Seg → List Seg
  | [] => []
  | x :: xs => x.visit s :: visitSegList s xs
/-- utils.rs:328-330. -/
def Seg.visit (s : SelfTy) : Seg → Seg
  | .mk i a => .mk i (a.visit s)
/-- utils.rs:329 `visit_path_arguments_mut`. -/
def PArgs.visit (s : SelfTy) : PArgs → PArgs
  | .none => .none
  | .angle c args => .angle c (visitNodes s args)
  | .paren args => .paren (visitNodes s args)
/-- Children, by the default visitor: utils.rs:288. -/
def visitNodes (s : SelfTy) : List Node → List Node
  | [] => []
  | n :: ns => n.visit s :: visitNodes s ns
end

/-- `visit_path_mut` on the path of a visibility. (utils.rs:323-331) -/
def SPath.visit (p : SPath) : SPath :=
  match p.segs with
  | [i] => { p with segs := [prependUnderscore i] }
  | _ => p

/-- Default `visit_visibility_mut`: `pub(path)` visits the path. (derive.rs:32, 41) -/
def Vis.visit : Vis → Vis
  | .restricted i p => .restricted i p.visit
  | v => v

/-- Default `visit_generic_param_mut`: derive.rs:32, 41. -/
def GParam.visit (s : SelfTy) : GParam → GParam
  | .lifetime n b => .lifetime n b
  | .type n bs d => .type n (bs.map (Node.visit s)) (d.map (Node.visit s))
  | .const n t d => .const n (t.visit s) (d.map (Node.visit s))

/-- Default `visit_where_predicate_mut`: derive.rs:32, 41; generated predicates do not exist yet. -/
def WPred.visit (s : SelfTy) : WPred → WPred
  | .user n => .user (n.visit s)
  | w => w

/-- Default `visit_generics_mut`: derive.rs:32, 41; pinned_drop.rs:210. -/
def Generics.visit (s : SelfTy) (g : Generics) : Generics :=
  { params := g.params.map (GParam.visit s)
    whereClause := g.whereClause.map (fun ps => ps.map (WPred.visit s)) }

/-- Default `visit_field_mut`. Attributes are left alone (simplification: only their paths could
change, and only from `self` to `__self`; pin-project looks for other names). (derive.rs:32, 41) -/
def Field.visit (s : SelfTy) (f : Field) : Field :=
  { f with vis := f.vis.visit, ty := f.ty.visit s }

/-- Default `visit_fields_mut`: derive.rs:32, 41. -/
def Fields.visit (s : SelfTy) : Fields → Fields
  | .named fs => .named (fs.map (Field.visit s))
  | .unnamed fs => .unnamed (fs.map (Field.visit s))
  | .unit => .unit

/-- Default `visit_variant_mut`: derive.rs:41. -/
def Variant.visit (s : SelfTy) (v : Variant) : Variant :=
  { v with fields := v.fields.visit s, discriminant := v.discriminant.map (Node.visit s) }

/-- derive.rs:32 `visitor.visit_item_struct_mut(input)`. -/
def ItemStruct.visit (s : SelfTy) (i : ItemStruct) : ItemStruct :=
  { i with vis := i.vis.visit, generics := i.generics.visit s, fields := i.fields.visit s }

/-- derive.rs:41 `visitor.visit_item_enum_mut(input)`. -/
def ItemEnum.visit (s : SelfTy) (i : ItemEnum) : ItemEnum :=
  { i with vis := i.vis.visit, generics := i.generics.visit s,
           variants := i.variants.map (Variant.visit s) }

/-- A generic argument as a syntax node. (derive.rs:30, 39) -/
def GArg.node : GArg → Node
  | .lifetime s => .lifetime s
  | .ident s => .tyIdent s

/-- The tokens of a generic argument. (derive.rs:30, 39) -/
def GArg.toks : GArg → List TT
  | .lifetime s => [.punct '\'' true, .ident (String.ofList s.toList.tail)]
  | .ident s => [.ident s]

/-- derive.rs:28-30 / 37-39: `parse_quote!(#ident #ty_generics)`. (A comma the user wrote after the last
parameter is left out.) -/
def mkSelfTy (ident : String) (args : List GArg) : SelfTy :=
  { q := .none
    p := .mk false [.mk ident (if args.isEmpty then .none else .angle false (args.map GArg.node))]
    toks := if args.isEmpty then [.ident ident]
      else .ident ident :: .punct '<' false ::
        List.intercalate [.punct ',' false] (args.map GArg.toks) ++ [.punct '>' false] }

end PinProject
