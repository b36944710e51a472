import Verif.Model.Attribute
import Verif.Model.Receiver
import Verif.Model.Gen
/-!
# pin-project-internal/src/pin_project/derive.rs
-/
namespace PinProject

/-- derive.rs:256-259 `TypeKind`. -/
inductive TypeKind
  | enum_ | struct_
  deriving DecidableEq, Repr, Inhabited

/-- derive.rs:171-191 `Context`, with `OriginalType` (262-271) and `ProjectedType` (273-289)
flattened into it. `pinned_fields` is returned by the functions that fill it instead. -/
structure Ctx where
  attrs : List Attribute
  vis : Vis
  ident : String
  generics : Generics
  kind : TypeKind
  pinnedDrop : Bool
  unpinImpl : UnpinImpl
  project : Bool
  projectRef : Bool
  projectReplace : ProjReplace
  projVis : Vis
  mutIdent : String
  refIdent : String
  ownIdent : String
  lifetime : String
  projGenerics : Generics
  projWhere : List WPred
  deriving Inhabited

/-- derive.rs:194-252 `Context::new`. -/
def Ctx.new (attrs : List Attribute) (vis : Vis) (ident : String) (generics : Generics)
    (kind : TypeKind) : Res Ctx := do
  let args ← parseArgs attrs
  if [args.project, args.projectRef, args.projectReplace.ident].any (fun n => n == some ident) then
    .error (.bail s!"name `{ident}` is the same as the original type name")
  else
    let lifetime := determineLifetimeName "'pin" generics
    let (projGenerics, pred) :=
      insertLifetimeAndBound generics lifetime generics.tyGenerics ident
    let generics := generics.makeWhere
    .ok {
      attrs, vis, ident, generics, kind
      pinnedDrop := args.pinnedDrop
      unpinImpl := args.unpinImpl
      project := args.project.isSome
      projectRef := args.projectRef.isSome
      projectReplace := args.projectReplace
      projVis := determineVisibility vis
      mutIdent := args.project.getD ("__" ++ unraw ident ++ "Projection")
      refIdent := args.projectRef.getD ("__" ++ unraw ident ++ "ProjectionRef")
      ownIdent := args.projectReplace.ident.getD ("__" ++ unraw ident ++ "ProjectionOwned")
      lifetime, projGenerics
      projWhere := generics.preds ++ [pred] }

/-- derive.rs:112-130 `global_allowed_lints`. -/
def globalAllowedLints : List String :=
  ["deprecated", "explicit_outlives_requirements", "single_use_lifetimes", "unreachable_pub",
   "unused_tuple_struct_fields", "clippy::unknown_clippy_lints", "clippy::absolute_paths",
   "clippy::min_ident_chars", "clippy::pattern_type_mismatch", "clippy::pub_with_shorthand",
   "clippy::redundant_pub_crate", "clippy::single_char_lifetime_names",
   "clippy::type_repetition_in_bounds"]

/-- derive.rs:133-169 `proj_allowed_lints`: the lints allowed on the three projected types. -/
def projAllowedLints (cx : Ctx) : List String × List String × List String :=
  let projMut := ["dead_code"] ++ (if cx.project then globalAllowedLints else []) ++
    ["clippy::missing_docs_in_private_items", "clippy::mut_mut"]
  let projRef := ["dead_code"] ++ (if cx.projectRef then globalAllowedLints else []) ++
    ["clippy::missing_docs_in_private_items", "clippy::ref_option_ref"]
  let projOwn := ["dead_code"] ++
    (if cx.projectReplace.ident.isSome then globalAllowedLints else []) ++
    (if cx.kind = .enum_ then ["variant_size_differences", "clippy::large_enum_variant"] else []) ++
    ["clippy::missing_docs_in_private_items"]
  (projMut, projRef, projOwn)

/-- derive.rs:310-319 `validate_struct`. -/
def validateStruct (fields : Fields) : Res Unit :=
  if fields.list.isEmpty then
    .error (.bail "#[pin_project] attribute may not be used on structs with zero fields")
  else .ok ()

/-- derive.rs:328-338: the fold of `validate_enum`. -/
def enumHasField : List Variant → Bool → Res Bool
  | [], b => .ok b
  | v :: vs, b =>
    if v.discriminant.isSome then
      .error (.bail "#[pin_project] attribute may not be used on enums with discriminants")
    else if (findAttr v.attrs "pin").isSome then
      .error (.bail "#[pin] attribute may only be used on fields of structs or variants")
    else if v.fields.list.isEmpty then enumHasField vs b
    else enumHasField vs true

/-- derive.rs:321-344 `validate_enum`. -/
def validateEnum (variants : List Variant) : Res Unit :=
  if variants.isEmpty then
    .error (.bail "#[pin_project] attribute may not be used on enums without variants")
  else do
    let hasField ← enumHasField variants false
    if hasField then .ok ()
    else .error (.bail "#[pin_project] attribute may not be used on enums with zero fields")

/-- The tokens of a name-value argument up to the next comma. Simplification: `syn` parses one
expression here; we take every token up to the separator. (derive.rs:1045) -/
def takeValue : List TT → List TT × List TT
  | [] => ([], [])
  | .punct c j :: rest =>
    if c = ',' then ([], .punct c j :: rest)
    else
      let (v, r) := takeValue rest
      (.punct c j :: v, r)
  | t :: rest =>
    let (v, r) := takeValue rest
    (t :: v, r)

/-- `syn::Meta::parse`: a path, then a delimited group, `= value`, or nothing. (derive.rs:1045) -/
def parseMeta (toks : List TT) : Res (Meta × List TT) := do
  let (p, toks) ← parseModPath toks
  match toks with
  | .group d inner :: rest => .ok (.list p d inner, rest)
  | .punct c j :: rest =>
    if c = '=' then
      let (v, rest) := takeValue rest
      if v.isEmpty then .error (.bail "expected expression") else .ok (.nameValue p v, rest)
    else .ok (.path p, .punct c j :: rest)
  | toks => .ok (.path p, toks)

/-- `Punctuated::<Meta, Token![,]>::parse_terminated` (derive.rs:1045). The fuel bounds the number
of iterations; the caller passes the number of tokens. -/
def parseMetas : Nat → List TT → Res (List Meta)
  | _, [] => .ok []
  | 0, _ :: _ => .error (.panic "out of fuel")
  | n + 1, toks => do
    let (m, toks) ← parseMeta toks
    if toks.isEmpty then .ok [m]
    else do
      let toks ← parsePunct ',' toks
      let ms ← parseMetas n toks
      .ok (m :: ms)

/-- derive.rs:1045-1063: the inner loop of `ensure_not_packed`. -/
def checkReprs (isStruct : Bool) : List Meta → Res Unit
  | [] => .ok ()
  | m :: ms =>
    if m.getPath.isIdent "packed" then
      .error (.bail (
        if !isStruct then "#[repr(packed)] attribute should be applied to a struct or union"
        else if m.isNameValue then "#[repr(packed)] attribute should not be name-value pair"
        else "#[pin_project] attribute may not be used on #[repr(packed)] types"))
    else checkReprs isStruct ms

/-- derive.rs:1042-1066: the outer loop of `ensure_not_packed`. -/
def checkPacked (isStruct : Bool) : List Attribute → Res Unit
  | [] => .ok ()
  | a :: as =>
    match a.m with
    | .list p _ toks =>
      if p.isIdent "repr" then do
        let ms ← parseMetas toks.length toks
        checkReprs isStruct ms
        checkPacked isStruct as
      else checkPacked isStruct as
    | _ => checkPacked isStruct as

/-- derive.rs:1119-1133: `this.field` for each field. -/
def fieldRefs : Fields → List String
  | .named fs => fs.map (fun f => f.ident.getD "")
  | .unnamed fs => (List.range fs.length).map toString
  | .unit => []

/-- derive.rs:1041-1143 `ensure_not_packed`. -/
def ensureNotPacked (cx : Ctx) (fields : Option Fields) : Res (List GItem) := do
  checkPacked fields.isSome cx.attrs
  match fields with
  | none => .ok []
  | some fields =>
    .ok [.assertNotPacked cx.generics.implGenerics cx.ident cx.generics.tyGenerics
      cx.generics.preds (fieldRefs fields)]

/-- derive.rs:300-308 `ProjectedFields`. -/
structure ProjectedFields where
  projPat : GPat
  projBody : Option Delim × List GInit
  projOwnBody : List GStmt × RHS
  projFields : GFields
  projRefFields : GFields
  projOwnFields : GFields
  deriving Inhabited

/-- derive.rs:653-688 `proj_own_body`. -/
def projOwnBody (cx : Ctx) (variant : Option String) (projMove : Option Delim × List GInit)
    (pinned : List String) : List GStmt × RHS :=
  ([ .letVar "__result" none (.ctor ⟨cx.ownIdent, variant, projMove.1, projMove.2⟩),
     .scope (pinned.reverse.map (fun x => ("__guard", .dropGuard x))) ],
   .var "__result")

/-- derive.rs:590: the binding of the `i`-th field. -/
def binding (i : Nat) (f : Field) : String := f.ident.getD ("_" ++ toString i)

/-- The accumulators of the loop of `visit_fields`, derive.rs:581-587. -/
structure FieldAcc where
  pat : List String := []
  body : List GInit := []
  fields : List GField := []
  refFields : List GField := []
  ownFields : List GField := []
  move : List GInit := []
  pinned : List String := []
  pinnedTys : List Node := []
  deriving Inhabited

/-- The body of the loop of `visit_fields`, derive.rs:590-628. -/
def visitField (cx : Ctx) (a : FieldAcc) (i : Nat) (f : Field) : Res FieldAcc := do
  let b := binding i f
  let lt := some cx.lifetime
  let pos ← positionExact f.attrs "pin"
  if pos.isSome then
    .ok { pat := a.pat ++ [b]
          fields := a.fields ++ [⟨f.vis, f.ident, .pin .abs (.ref lt true (.paren (.user f.ty)))⟩]
          refFields := a.refFields ++ [⟨f.vis, f.ident, .pin .abs (.ref lt false (.paren (.user f.ty)))⟩]
          ownFields := a.ownFields ++ [⟨f.vis, f.ident, .phantomData .abs (.user f.ty)⟩]
          body := a.body ++ [.labelled f.ident (.pinNew b)]
          move := a.move ++ [.labelled f.ident .phantom]
          pinned := a.pinned ++ [b]
          pinnedTys := a.pinnedTys ++ [f.ty] }
  else
    .ok { pat := a.pat ++ [b]
          fields := a.fields ++ [⟨f.vis, f.ident, .ref lt true (.paren (.user f.ty))⟩]
          refFields := a.refFields ++ [⟨f.vis, f.ident, .ref lt false (.paren (.user f.ty))⟩]
          ownFields := a.ownFields ++ [⟨f.vis, f.ident, .user f.ty⟩]
          body := a.body ++ [.bare b]
          move := a.move ++ [.labelled f.ident (.read b)]
          pinned := a.pinned
          pinnedTys := a.pinnedTys }

/-- The loop of `visit_fields`, derive.rs:589-629. -/
def visitFieldsLoop (cx : Ctx) : FieldAcc → Nat → List Field → Res FieldAcc
  | a, _, [] => .ok a
  | a, i, f :: fs => do
    let a ← visitField cx a i f
    visitFieldsLoop cx a (i + 1) fs

/-- derive.rs:571-648 `visit_fields`: the projected fields and the types of the pinned fields. -/
def visitFields (cx : Ctx) (variant : Option String) (fields : Fields) (d : Delim) :
    Res (ProjectedFields × List Node) := do
  let a ← visitFieldsLoop cx {} 0 fields.list
  .ok ({ projPat := ⟨variant, some d, a.pat⟩
         projBody := (some d, a.body)
         projOwnBody := projOwnBody cx variant (some d, a.move) a.pinned
         projFields := ⟨some d, a.fields⟩
         projRefFields := ⟨some d, a.refFields⟩
         projOwnFields := ⟨some d, a.ownFields⟩ }, a.pinnedTys)

/-- derive.rs:530-537 (and 363-367): dispatch on the kind of fields. -/
def visitFieldsOf (cx : Ctx) (variant : Option String) (fields : Fields) :
    Res (ProjectedFields × List Node) :=
  match fields with
  | .named _ => visitFields cx variant fields .brace
  | .unnamed _ => visitFields cx variant fields .paren
  | .unit => .ok ({ projPat := ⟨variant, none, []⟩
                    projBody := (none, [])
                    projOwnBody := projOwnBody cx variant (none, []) []
                    projFields := {}
                    projRefFields := {}
                    projOwnFields := {} }, [])

/-- derive.rs:696-851 `make_unpin_impl`. -/
def makeUnpinImpl (cx : Ctx) (pinnedFields : List Node) : List GItem :=
  let tyG := cx.generics.tyGenerics
  match cx.unpinImpl with
  | .unsafe_ =>
    let preds := cx.projGenerics.preds ++
      [.bound (.pinnedFieldsOf (.wrapper cx.lifetime .selfTy)) .unsafeUnpin]
    [.traitImpl false false cx.projGenerics.implGenerics .unpin cx.ident tyG preds []]
  | .negative =>
    let preds := cx.projGenerics.preds ++
      [.bound (.pinnedFieldsOf (.wrapper cx.lifetime .phantomPinned)) .unpin]
    [.traitImpl true false cx.projGenerics.implGenerics .unpin cx.ident tyG preds [],
     .traitImpl true true cx.projGenerics.implGenerics .unsafeUnpin cx.ident tyG preds []]
  | .default =>
    let structIdent := "__" ++ unraw cx.ident
    let fields := pinnedFields.mapIdx (fun i ty =>
      GField.mk .inherited (some ("__field" ++ toString i)) (.user ty))
    let ltFields := cx.generics.lifetimes.mapIdx (fun i lt =>
      GField.mk .inherited (some ("__lifetime" ++ toString i)) (.ref (some lt) false .unit))
    let implPreds := cx.generics.preds ++
      [.bound (.pinnedFieldsOf (.adt structIdent cx.projGenerics.tyGenerics)) .unpin]
    [.struct_ ["missing_debug_implementations", "unnameable_types"] cx.vis structIdent
       cx.projGenerics.defParams cx.generics.preds
       ⟨some .brace,
        ⟨.inherited, some "__pin_project_use_generics",
          .alwaysUnpin cx.lifetime cx.generics.typeParams⟩ :: fields ++ ltFields⟩,
     .traitImpl false false cx.projGenerics.implGenerics .unpin cx.ident tyG implPreds [],
     .traitImpl true true cx.projGenerics.implGenerics .unsafeUnpin cx.ident tyG implPreds []]

/-- The type of `self` in `Pin<&mut Self>`, inside the const scope. (derive.rs:930, 968, 990) -/
def pinMutSelf (lt : Option String) : GTy := .pin .local_ (.ref lt true .selfTy)

/-- derive.rs:860-934 `make_drop_impl`. -/
def makeDropImpl (cx : Ctx) : List GItem :=
  let implG := cx.generics.implGenerics
  let tyG := cx.generics.tyGenerics
  let preds := cx.generics.preds
  if cx.pinnedDrop then
    [.traitImpl false false implG .drop cx.ident tyG preds
      [{ attrs := ["allow(clippy::missing_inline_in_public_items)"], vis := .inherited
         isUnsafe := false, name := "drop", ltParam := none
         recv := .ref none true .selfTy, params := [], ret := .unit
         unsafeBlock := true
         body := ⟨[.letVar "__pinned_self" none (.pinNew "self"),
                   .expr (.pinnedDropCall "__pinned_self")], .expr .unit⟩ }]]
  else
    let tr := unraw cx.ident ++ "MustNotImplDrop"
    [.traitDef tr,
     .blanketDrop tr,
     .traitImpl false false implG (.mustNotImplDrop tr) cx.ident tyG preds [],
     .traitImpl true false implG .pinnedDrop cx.ident tyG preds
      [{ attrs := [], vis := .inherited, isUnsafe := true, name := "drop", ltParam := none
         recv := pinMutSelf none, params := [], ret := .unit
         unsafeBlock := false, body := ⟨[], .expr .unit⟩ }]]

/-- derive.rs:942-1033 `make_proj_impl`. -/
def makeProjImpl (cx : Ctx) (projBody projRefBody projOwnBody : GBody) : GItem :=
  let attrs := ["allow(dead_code)", "inline"]
  let lt := some cx.lifetime
  let projArgs := cx.projGenerics.tyGenerics
  let project : GFn :=
    { attrs, vis := cx.projVis, isUnsafe := false, name := "project", ltParam := lt
      recv := .pin .local_ (.ref lt true .selfTy), params := []
      ret := .adt cx.mutIdent projArgs, unsafeBlock := true, body := projBody }
  let projectRef : GFn :=
    { attrs, vis := cx.projVis, isUnsafe := false, name := "project_ref", ltParam := lt
      recv := .pin .local_ (.ref lt false .selfTy), params := []
      ret := .adt cx.refIdent projArgs, unsafeBlock := true, body := projRefBody }
  let projectReplace : GFn :=
    { attrs, vis := cx.projVis, isUnsafe := false, name := "project_replace", ltParam := none
      recv := pinMutSelf none, params := [("__replacement", .selfTy)]
      ret := .adt cx.ownIdent cx.generics.tyGenerics, unsafeBlock := true
      body := { stmts := [ .letVar "__self_ptr" (some "*mut Self") (.getUncheckedMut "self"),
                           .letVar "__guard" none (.overwriteGuard "__self_ptr" "__replacement") ]
                         ++ projOwnBody.stmts
                tail := projOwnBody.tail } }
  let isEnum : Bool := cx.kind == .enum_
  .inherent cx.generics.implGenerics cx.ident cx.generics.tyGenerics cx.generics.preds <|
    (if isEnum && !cx.project then [] else [project]) ++
    (if isEnum && !cx.projectRef then [] else [projectRef]) ++
    (if !cx.projectReplace.isSome || (isEnum && cx.projectReplace.ident.isNone) then []
     else [projectReplace])

/-- derive.rs:363-367: unit structs are `unreachable!()` here. -/
def visitStructFields (cx : Ctx) (fields : Fields) : Res (ProjectedFields × List Node) :=
  match fields with
  | .unit => .error (.panic "internal error: entered unreachable code")
  | _ => visitFieldsOf cx none fields

/-- derive.rs:346-426 `parse_struct`: the items added to `generate` (exposed, scoped), and the
types of the pinned fields. -/
def parseStruct (cx : Ctx) (fields : Fields) : Res (List GItem × List GItem × List Node) := do
  let packedCheck ← ensureNotPacked cx (some fields)
  validateStruct fields
  let (pf, pinned) ← visitStructFields cx fields
  let (mutLints, refLints, ownLints) := projAllowedLints cx
  let projItem := GItem.struct_ mutLints cx.projVis cx.mutIdent cx.projGenerics.defParams
    cx.projWhere pf.projFields
  let refItem := GItem.struct_ refLints cx.projVis cx.refIdent cx.projGenerics.defParams
    cx.projWhere pf.projRefFields
  let ownItem := GItem.struct_ ownLints cx.projVis cx.ownIdent cx.generics.defParams
    cx.generics.preds pf.projOwnFields
  let ownItems := if cx.projectReplace.isSome then [ownItem] else []
  let projMutBody : GBody :=
    ⟨[.letPat pf.projPat (.getUncheckedMut "self")],
     .expr (.ctor ⟨cx.mutIdent, none, pf.projBody.1, pf.projBody.2⟩)⟩
  let projRefBody : GBody :=
    ⟨[.letPat pf.projPat (.getRef "self")],
     .expr (.ctor ⟨cx.refIdent, none, pf.projBody.1, pf.projBody.2⟩)⟩
  let projOwnBody : GBody :=
    ⟨.letPat pf.projPat (.reborrow "__self_ptr") :: pf.projOwnBody.1, .expr pf.projOwnBody.2⟩
  let exposed :=
    (if cx.project then [projItem] else []) ++ (if cx.projectRef then [refItem] else []) ++
    (if cx.projectReplace.ident.isSome then ownItems else [])
  let inScope :=
    (if cx.project then [] else [projItem]) ++ (if cx.projectRef then [] else [refItem]) ++
    (if cx.projectReplace.ident.isSome then [] else ownItems) ++
    [makeProjImpl cx projMutBody projRefBody projOwnBody] ++ packedCheck
  .ok (exposed, inScope, pinned)

/-- derive.rs:291-298 `ProjectedVariants`, and the pinned types. -/
structure ProjectedVariants where
  projVariants : List (String × GFields) := []
  projRefVariants : List (String × GFields) := []
  projOwnVariants : List (String × GFields) := []
  projArms : List GArm := []
  projRefArms : List GArm := []
  projOwnArms : List GArm := []
  pinnedTys : List Node := []
  deriving Inhabited

/-- derive.rs:514-569 `visit_variants`. -/
def visitVariants (cx : Ctx) : ProjectedVariants → List Variant → Res ProjectedVariants
  | a, [] => .ok a
  | a, v :: vs => do
    let (pf, tys) ← visitFieldsOf cx (some v.ident) v.fields
    visitVariants cx
      { projVariants := a.projVariants ++ [(v.ident, pf.projFields)]
        projRefVariants := a.projRefVariants ++ [(v.ident, pf.projRefFields)]
        projOwnVariants := a.projOwnVariants ++ [(v.ident, pf.projOwnFields)]
        projArms := a.projArms ++
          [⟨pf.projPat, [], .ctor ⟨cx.mutIdent, some v.ident, pf.projBody.1, pf.projBody.2⟩⟩]
        projRefArms := a.projRefArms ++
          [⟨pf.projPat, [], .ctor ⟨cx.refIdent, some v.ident, pf.projBody.1, pf.projBody.2⟩⟩]
        projOwnArms := a.projOwnArms ++ [⟨pf.projPat, pf.projOwnBody.1, pf.projOwnBody.2⟩]
        pinnedTys := a.pinnedTys ++ tys } vs

/-- derive.rs:428-512 `parse_enum`. -/
def parseEnum (cx : Ctx) (variants : List Variant) : Res (List GItem × List GItem × List Node) := do
  if cx.projectReplace = .unnamed then
    .error (.bail "`project_replace` argument requires a value when used on enums")
  else do
    let _ ← ensureNotPacked cx none
    validateEnum variants
    let pv ← visitVariants cx {} variants
    let (mutLints, refLints, ownLints) := projAllowedLints cx
    let exposed :=
      (if cx.project then [GItem.enum_ mutLints cx.projVis cx.mutIdent
        cx.projGenerics.defParams cx.projWhere pv.projVariants] else []) ++
      (if cx.projectRef then [GItem.enum_ refLints cx.projVis cx.refIdent
        cx.projGenerics.defParams cx.projWhere pv.projRefVariants] else []) ++
      (if cx.projectReplace.ident.isSome then [GItem.enum_ ownLints cx.projVis cx.ownIdent
        cx.generics.defParams cx.generics.preds pv.projOwnVariants] else [])
    let inScope := [makeProjImpl cx
      ⟨[], .match_ (.getUncheckedMut "self") pv.projArms⟩
      ⟨[], .match_ (.getRef "self") pv.projRefArms⟩
      ⟨[], .match_ (.reborrow "__self_ptr") pv.projOwnArms⟩]
    .ok (exposed, inScope, pv.pinnedTys)

/-- derive.rs:66-108 `GenerateTokens::into_tokens`. -/
def intoTokens (cx : Ctx) (exposed inScope : List GItem) (pinned : List Node) : Expansion :=
  { exposed, inScope := inScope ++ makeUnpinImpl cx pinned ++ makeDropImpl cx }

/-- derive.rs:27-35: the struct case of `parse_derive`. -/
def deriveStruct (input : ItemStruct) : Res Expansion := do
  let input := input.visit (mkSelfTy input.ident input.generics.tyGenerics)
  let cx ← Ctx.new input.attrs input.vis input.ident input.generics .struct_
  let (exposed, inScope, pinned) ← parseStruct cx input.fields
  .ok (intoTokens cx exposed inScope pinned)

/-- derive.rs:36-44: the enum case of `parse_derive`. -/
def deriveEnum (input : ItemEnum) : Res Expansion := do
  let input := input.visit (mkSelfTy input.ident input.generics.tyGenerics)
  let cx ← Ctx.new input.attrs input.vis input.ident input.generics .enum_
  let (exposed, inScope, pinned) ← parseEnum cx input.variants
  .ok (intoTokens cx exposed inScope pinned)

/-- derive.rs:20-49 `parse_derive`. -/
def parseDerive : Item → Res Expansion
  | .struct_ s => deriveStruct s
  | .enum_ e => deriveEnum e
  | .other _ => .error (.bail "#[pin_project] attribute may only be used on structs or enums")

end PinProject
