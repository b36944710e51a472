import Verif.Spec.Types
import Verif.Props.Lifetime
import Verif.Props.ProjectReplace
/-!
# The generated type definitions: C14, C15, C17, C18, C19, C43
-/
namespace PinProject
open Spec

theorem noRaw_eq : noRaw = unraw := rfl

theorem ownArg_eq : ownArg = GParam.arg := by funext p; cases p <;> rfl

theorem withoutDefault_eq : withoutDefault = GParam.noDefault := by funext p; cases p <;> rfl

theorem isLifetimeParam_eq : isLifetimeParam = GParam.isLifetime := by funext p; cases p <;> rfl

theorem argNode_eq : argNode = GArg.node := by funext p; cases p <;> rfl

theorem argToks_eq : argToks = GArg.toks := by funext p; cases p <;> rfl

theorem ownArgs_eq (item : Item) : ownArgs item = (itemGenerics item).tyGenerics := by
  rw [ownArgs, Generics.tyGenerics, ownArg_eq, isLifetimeParam_eq]

theorem itemSelfTy_eq (item : Item) :
    itemSelfTy item = mkSelfTy ((itemName item).getD "") (itemGenerics item).tyGenerics := by
  rw [itemSelfTy, mkSelfTy, ownArgs_eq, argNode_eq, argToks_eq]
  rfl

theorem resolvedParam_eq (item : Item) : resolvedParam item = GParam.visit (itemSelfTy item) := by
  funext p; cases p <;> rfl

theorem resolvedPred_eq (item : Item) : resolvedPred item = WPred.visit (itemSelfTy item) := by
  funext p; cases p <;> rfl

/-- The fields of a projection type, by mode. -/
def modeFields (mode : Mode) (lt : String) (fs : Fields) : GFields :=
  ⟨fs.delim, match mode with
    | .proj => fs.list.map (projField lt)
    | .projRef => fs.list.map (projRefField lt)
    | .replace => fs.list.map projOwnField⟩

def modeGenerics (mode : Mode) (lt : String) (g : Generics) : Generics :=
  match mode with
  | .replace => g
  | _ => g.insertLifetime lt

def modeDefault (ident : String) : Mode → String
  | .proj => "__" ++ unraw ident ++ "Projection"
  | .projRef => "__" ++ unraw ident ++ "ProjectionRef"
  | .replace => "__" ++ unraw ident ++ "ProjectionOwned"

def modePreds (mode : Mode) (lt ident : String) (g : Generics) : List WPred :=
  match mode with
  | .replace => g.preds
  | _ => g.preds ++ [.outlives (.adt ident g.tyGenerics) lt]

/-- The type definition generated for a mode. -/
def modeDef (A : Args) (mode : Mode) (vis : Vis) (ident : String) (g : Generics)
    (vs : List (Option String × Fields)) : TypeDef :=
  let lt := determineLifetimeName "'pin" g
  { vis := determineVisibility vis
    name := (modeName A mode).getD (modeDefault ident mode)
    params := (modeGenerics mode lt g).defParams
    preds := modePreds mode lt ident g
    variants := vs.map (fun v => (v.1, modeFields mode lt v.2)) }

theorem defParams_args (g : Generics) : g.defParams.map GParam.arg = g.tyGenerics := by
  simp [Generics.defParams, Generics.tyGenerics]

theorem defParams_insert (g : Generics) (lt : String) :
    (g.insertLifetime lt).defParams = .lifetime lt [] :: g.defParams := by
  simp [Generics.defParams, Generics.insertLifetime, List.filter_cons, show (GParam.lifetime lt []).isLifetime = true from rfl]

theorem tyGenerics_insert (g : Generics) (lt : String) :
    (g.insertLifetime lt).tyGenerics = .lifetime lt :: g.tyGenerics := by
  simp [Generics.tyGenerics, Generics.insertLifetime, List.filter_cons, GParam.arg, show (GParam.lifetime lt []).isLifetime = true from rfl]

/-- The visited variants of an item. -/
def preVariants (item : Item) : List (Option String × Fields) :=
  (itemVariants item).map (fun v => (v.1, v.2.visit (itemSelfTy item)))

/-- The visited generics of an item. -/
def preGenerics (item : Item) : Generics := (itemGenerics item).visit (itemSelfTy item)

/-- Everything about the type returned by one of the three methods. -/
theorem method_def (item : Item) (E : Expansion) (h : parseDerive item = .ok E) (mode : Mode) (fn : GFn)
    (hfn : method E mode.fn = some fn) :
    ∃ A ident, parseArgs (itemAttrs item) = .ok A ∧ itemName item = some ident ∧
      let d := modeDef A mode (itemVis item).visit ident (preGenerics item) (preVariants item)
      d ∈ typeDefs (if (modeName A mode).isSome then E.exposed else E.inScope) ∧
      fn.ret = .adt d.name (d.params.map GParam.arg) ∧
      fn.vis = d.vis ∧
      fn.ltParam = (if mode = .replace then none
        else some (determineLifetimeName "'pin" (preGenerics item))) := by
  cases item with
  | other a => simp [parseDerive] at h
  | struct_ s =>
    obtain ⟨A, h1, -, -, -, -, -, rfl⟩ := (deriveStruct_iff s E).1 h
    refine ⟨A, s.ident, h1, rfl, ?_⟩
    have hp : (s.ctx A).project = A.project.isSome := rfl
    have hr : (s.ctx A).projectRef = A.projectRef.isSome := rfl
    have ho : (s.ctx A).projectReplace = A.projectReplace := rfl
    have hk : (s.ctx A).kind = .struct_ := rfl
    cases mode with
    | proj =>
      rw [Mode.fn, method_struct, implFns_project] at hfn
      simp only [hk] at hfn
      obtain rfl : projectFn _ _ = fn := by simpa using hfn
      refine ⟨?_, ?_, rfl, rfl⟩
      · simp only [typeDefs, List.mem_filterMap]
        refine ⟨projItemS (s.ctx A) s.pre.fields, ?_, rfl⟩
        cases hA : A.project <;> simp [modeName, hA, structExpansion, hp]
      · simp only [modeDef]; rw [defParams_args]; rfl
    | projRef =>
      rw [Mode.fn, method_struct, implFns_projectRef] at hfn
      simp only [hk] at hfn
      obtain rfl : projectRefFn _ _ = fn := by simpa using hfn
      refine ⟨?_, ?_, rfl, rfl⟩
      · simp only [typeDefs, List.mem_filterMap]
        refine ⟨refItemS (s.ctx A) s.pre.fields, ?_, rfl⟩
        cases hA : A.projectRef <;> simp [modeName, hA, structExpansion, hr]
      · simp only [modeDef]; rw [defParams_args]; rfl
    | replace =>
      rw [Mode.fn, method_struct, implFns_projectReplace] at hfn
      simp only [hk, ho] at hfn
      have hs : A.projectReplace.isSome = true := by
        cases hA : A.projectReplace <;> simp [hA, ProjReplace.isSome] at hfn ⊢
      simp only [hs] at hfn
      obtain rfl : projectReplaceFn _ _ = fn := by simpa using hfn
      refine ⟨?_, ?_, rfl, rfl⟩
      · simp only [typeDefs, List.mem_filterMap]
        refine ⟨ownItemS (s.ctx A) s.pre.fields, ?_, rfl⟩
        cases hA : A.projectReplace <;>
          simp [modeName, hA, structExpansion, ho, ProjReplace.isSome, ProjReplace.ident] <;>
          simp [hA, ProjReplace.isSome] at hs
      · simp only [modeDef]; rw [defParams_args]; rfl
  | enum_ e =>
    obtain ⟨A, h1, -, -, -, -, -, -, rfl⟩ := (deriveEnum_iff e E).1 h
    refine ⟨A, e.ident, h1, rfl, ?_⟩
    have hp : (e.ctx A).project = A.project.isSome := rfl
    have hr : (e.ctx A).projectRef = A.projectRef.isSome := rfl
    have ho : (e.ctx A).projectReplace = A.projectReplace := rfl
    have hk : (e.ctx A).kind = .enum_ := rfl
    cases mode with
    | proj =>
      rw [Mode.fn, method_enum, implFns_project] at hfn
      cases hA : A.project with
      | none => simp [hk, hp, hA] at hfn
      | some n =>
        simp only [hk, hp, hA] at hfn
        obtain rfl : projectFn _ _ = fn := by simpa using hfn
        refine ⟨?_, ?_, rfl, rfl⟩
        · simp only [typeDefs, List.mem_filterMap]
          refine ⟨projItemE (e.ctx A) e.pre.variants, ?_, ?_⟩
          · simp [modeName, hA, enumExpansion, hp]
          · simp only [projItemE, asTypeDef, modeDef, preVariants, itemVariants, List.map_map]
            simp only [ItemEnum.pre, ItemEnum.visit, List.map_map]
            rfl
        · simp only [modeDef]; rw [defParams_args]; rfl
    | projRef =>
      rw [Mode.fn, method_enum, implFns_projectRef] at hfn
      cases hA : A.projectRef with
      | none => simp [hk, hr, hA] at hfn
      | some n =>
        simp only [hk, hr, hA] at hfn
        obtain rfl : projectRefFn _ _ = fn := by simpa using hfn
        refine ⟨?_, ?_, rfl, rfl⟩
        · simp only [typeDefs, List.mem_filterMap]
          refine ⟨refItemE (e.ctx A) e.pre.variants, ?_, ?_⟩
          · simp [modeName, hA, enumExpansion, hr]
          · simp only [refItemE, asTypeDef, modeDef, preVariants, itemVariants, List.map_map]
            simp only [ItemEnum.pre, ItemEnum.visit, List.map_map]
            rfl
        · simp only [modeDef]; rw [defParams_args]; rfl
    | replace =>
      rw [Mode.fn, method_enum, implFns_projectReplace] at hfn
      cases hA : A.projectReplace with
      | none => simp [ho, hA, ProjReplace.isSome] at hfn
      | unnamed => simp [hk, ho, hA, ProjReplace.isSome, ProjReplace.ident] at hfn
      | named n =>
        simp only [hk, ho, hA] at hfn
        obtain rfl : projectReplaceFn _ _ = fn := by simpa [ProjReplace.isSome, ProjReplace.ident] using hfn
        refine ⟨?_, ?_, rfl, rfl⟩
        · simp only [typeDefs, List.mem_filterMap]
          refine ⟨ownItemE (e.ctx A) e.pre.variants, ?_, ?_⟩
          · simp [modeName, hA, enumExpansion, ho, ProjReplace.ident]
          · simp only [ownItemE, asTypeDef, modeDef, preVariants, itemVariants, List.map_map]
            simp only [ItemEnum.pre, ItemEnum.visit, List.map_map]
            rfl
        · simp only [modeDef]; rw [defParams_args]; rfl

/-! ## C14 -/

theorem visit_vis {v : Vis} (h : isPubSelf v = false) : v.visit = v := by
  cases v with
  | restricted i p =>
    obtain ⟨l, segs⟩ := p
    simp only [isPubSelf, beq_eq_false_iff_ne, ne_eq] at h
    simp only [Vis.visit, SPath.visit]
    match segs, h with
    | [], _ => rfl
    | [s], h =>
      have : s ≠ "self" := by rintro rfl; exact h rfl
      simp [prependUnderscore, this]
    | _ :: _ :: _, _ => rfl
  | _ => rfl

theorem delim_eq (fs : Fields) : fs.delim = fieldsDelim fs := by cases fs <;> rfl

theorem list_visit (st : SelfTy) (fs : Fields) : (fs.visit st).list = fs.list.map (Field.visit st) := by
  cases fs <;> rfl

/-- The meaning of the generated field type. -/
theorem modeFields_meaning (item : Item) (mode : Mode) (lt : String) (fs : Fields)
    (hv : ∀ f ∈ fs.list, isPubSelf f.vis = false) :
    (modeFields mode lt (fs.visit (itemSelfTy item))).fields.map (fun f => (f.vis, f.ident, meaning f.ty)) =
      fs.list.map (fun f => (f.vis, f.ident, some (fieldTy mode lt (Pinned f) (resolved item f.ty)))) := by
  have key : ∀ f ∈ fs.list,
      let f' := f.visit (itemSelfTy item)
      f'.vis = f.vis ∧ f'.ident = f.ident ∧ f'.ty = resolved item f.ty ∧ Pinned f' = Pinned f :=
    fun f hf => ⟨visit_vis (hv f hf), rfl, rfl, rfl⟩
  simp only [modeFields, list_visit]
  cases mode <;> simp only [List.map_map] <;> apply List.map_congr_left <;> intro f hf <;>
    obtain ⟨h1, h2, h3, h4⟩ := key f hf <;>
    simp only [Function.comp, projField, projRefField, projOwnField, h1, h2, h3, h4] <;>
    cases Pinned f <;> rfl

theorem modeDef_mirrors (item : Item) (A : Args) (mode : Mode) (vis : Vis) (ident : String) (g : Generics)
    (hv : ∀ f ∈ itemFields item, isPubSelf f.vis = false) :
    Mirrors item mode (determineLifetimeName "'pin" g) (itemVariants item)
      (modeDef A mode vis ident g (preVariants item)) := by
  have hv' : ∀ v ∈ itemVariants item, ∀ f ∈ v.2.list, isPubSelf f.vis = false := by
    intro v hvm f hf
    apply hv
    cases item with
    | struct_ s => simp only [itemVariants, List.mem_singleton] at hvm; subst hvm; exact hf
    | enum_ e =>
      simp only [itemVariants, List.mem_map] at hvm
      obtain ⟨w, hw, rfl⟩ := hvm
      exact List.mem_flatMap.2 ⟨w, hw, hf⟩
    | other a => simp [itemVariants] at hvm
  refine ⟨?_, ?_, ?_⟩
  · simp [modeDef, preVariants, List.map_map, Function.comp_def]
  · simp only [modeDef, preVariants, List.map_map, Function.comp_def, modeFields, delim_visit]
    simp only [delim_eq]
  · simp only [modeDef, preVariants, List.map_map]
    apply List.map_congr_left
    intro v hvm
    simp only [Function.comp]
    exact modeFields_meaning item mode _ v.2 (hv' v hvm)

/-- **C14** The type returned by each of the three methods is a generated type with the same variants
and fields as the annotated type: same names, same order, same field visibility, and the field types
`Pin<&'lt mut F>` / `&'lt mut F`, `Pin<&'lt F>` / `&'lt F`, `PhantomData<F>` / `F`, where `'lt` is the
lifetime of `self`. (For fields declared `pub(self)` see C43.) -/
theorem C14_mirrors (item : Item) (E : Expansion) (h : parseDerive item = .ok E)
    (hv : ∀ f ∈ itemFields item, isPubSelf f.vis = false) (mode : Mode) (fn : GFn)
    (hfn : method E mode.fn = some fn) :
    ∃ lt, ∃ d ∈ typeDefs (allItems E), (∃ args, fn.ret = .adt d.name args) ∧
      (mode ≠ .replace → fn.ltParam = some lt) ∧ Mirrors item mode lt (itemVariants item) d := by
  obtain ⟨A, ident, h1, h2, h3, h4, h5, h6⟩ := method_def item E h mode fn hfn
  refine ⟨_, _, ?_, ⟨_, h4⟩, ?_, modeDef_mirrors item A mode _ ident _ hv⟩
  · simp only [typeDefs, allItems, List.mem_filterMap] at h3 ⊢
    obtain ⟨i, hi, he⟩ := h3
    refine ⟨i, ?_, he⟩
    split at hi
    · exact List.mem_append_left _ hi
    · exact List.mem_append_right _ hi
  · intro hm
    rw [h6, if_neg hm]

/-- **C06** In the type each method returns, a field has the type of a pinned field exactly if it has one
attribute `#[pin]`. (By `C06_legal` it has none otherwise, and this one has no arguments.) -/
theorem C06_field_types (item : Item) (E : Expansion) (h : parseDerive item = .ok E) (mode : Mode) (fn : GFn)
    (hfn : method E mode.fn = some fn) :
    ∃ lt, ∃ d ∈ typeDefs (allItems E), (∃ args, fn.ret = .adt d.name args) ∧
      d.variants.map (fun v => v.2.fields.map (fun g => meaning g.ty)) =
        (itemVariants item).map (fun v => v.2.list.map (fun f =>
          some (fieldTy mode lt ((f.attrs.filter isPinAttr).length == 1) (resolved item f.ty)))) := by
  obtain ⟨A, ident, h1, h2, h3, h4, h5, h6⟩ := method_def item E h mode fn hfn
  refine ⟨determineLifetimeName "'pin" (preGenerics item), _, ?_, ⟨_, h4⟩, ?_⟩
  · simp only [typeDefs, allItems, List.mem_filterMap] at h3 ⊢
    obtain ⟨i, hi, he⟩ := h3
    refine ⟨i, ?_, he⟩
    split at hi
    · exact List.mem_append_left _ hi
    · exact List.mem_append_right _ hi
  · have hpin : ∀ v ∈ itemVariants item, ∀ f ∈ v.2.list,
        Pinned f = ((f.attrs.filter isPinAttr).length == 1) := by
      intro v hvm f hf
      have hleg : PinOk f.attrs := by
        apply C06_legal item E h
        cases item with
        | struct_ s => simp only [itemVariants, List.mem_singleton] at hvm; subst hvm; exact hf
        | enum_ e =>
          simp only [itemVariants, List.mem_map] at hvm
          obtain ⟨w, hw, rfl⟩ := hvm
          exact List.mem_flatMap.2 ⟨w, hw, hf⟩
        | other a => simp [itemVariants] at hvm
      rcases hleg with hp | hp
      · rw [hp, Pinned]
        exact List.any_eq_false.2 (List.filter_eq_nil_iff.1 hp)
      · rw [hp, Pinned]
        have : (⟨.path { leading := false, segs := ["pin"] }⟩ : Attribute) ∈ f.attrs.filter isPinAttr := by
          rw [hp]; simp
        exact List.any_eq_true.2 ⟨_, List.mem_filter.1 this⟩
    simp only [modeDef, preVariants, List.map_map]
    apply List.map_congr_left
    intro v hv
    simp only [Function.comp, modeFields, list_visit]
    cases mode <;> simp only [List.map_map] <;> apply List.map_congr_left <;> intro f hf <;>
      rw [← hpin v hv f hf] <;>
      have hp : Pinned (f.visit (itemSelfTy item)) = Pinned f := rfl <;>
      simp only [Function.comp, projField, projRefField, projOwnField, hp] <;> cases Pinned f <;> rfl

example : ∃ E, parseDerive (.enum_ demoEnum) = .ok E ∧ (method E Mode.proj.fn).isSome := ⟨_, rfl, rfl⟩

/-- The field values of a projection fit their declared types, one by one. -/
theorem fits_of_value (item : Item) (mode : Mode) (lt : String) (p : Nat) (o : Obj) (fs : Fields)
    (hv : ∀ f ∈ fs.list, isPubSelf f.vis = false) (args : List (String × FVal))
    (hlab : args.map Prod.fst = labels fs.list)
    (hfit : ∀ x ∈ args.zip fs.list.zipIdx,
      Fits item p o fs x.1.2 (fieldTy mode lt (Pinned x.2.1) (resolved item x.2.1.ty))) :
    args.map Prod.fst = (modeFields mode lt (fs.visit (itemSelfTy item))).fields.zipIdx.map
        (fun x => gLabel x.2 x.1) ∧
    ∀ x ∈ args.zip (modeFields mode lt (fs.visit (itemSelfTy item))).fields,
      ∃ T, meaning x.2.ty = some T ∧ Fits item p o fs x.1.2 T := by
  have hm := modeFields_meaning item mode lt fs hv
  generalize (modeFields mode lt (fs.visit (itemSelfTy item))).fields = gs at hm
  have hlen : gs.length = fs.list.length := by
    have := congrArg List.length hm
    simpa using this
  have hget : ∀ i (h1 : i < gs.length) (h2 : i < fs.list.length),
      (gs[i].ident = fs.list[i].ident) ∧ meaning gs[i].ty =
        some (fieldTy mode lt (Pinned fs.list[i]) (resolved item fs.list[i].ty)) := by
    intro i h1 h2
    have := congrArg (fun l => l[i]?) hm
    simp only [List.getElem?_map, List.getElem?_eq_getElem h1, List.getElem?_eq_getElem h2,
      Option.map_some, Option.some.injEq, Prod.mk.injEq] at this
    exact this.2
  have hal : args.length = fs.list.length := by
    have := congrArg List.length hlab
    simpa [labels] using this
  constructor
  · rw [hlab]
    apply List.ext_getElem
    · simp [labels, hlen]
    · intro i h1 h2
      simp only [labels, List.length_map, List.length_zipIdx] at h1 h2
      simp only [labels, List.getElem_map, List.getElem_zipIdx, fieldLabel, gLabel, Nat.zero_add]
      rw [(hget i h2 h1).1]
  · intro x hx
    obtain ⟨i, hi, rfl⟩ := List.getElem_of_mem hx
    simp only [List.length_zip] at hi
    have hi1 : i < args.length := by omega
    have hi2 : i < gs.length := by omega
    have hi3 : i < fs.list.length := by omega
    rw [List.getElem_zip]
    refine ⟨_, (hget i hi2 hi3).2, ?_⟩
    have hz : i < (args.zip fs.list.zipIdx).length := by simp; omega
    have := hfit (args.zip fs.list.zipIdx)[i] (List.getElem_mem hz)
    rw [List.getElem_zip] at this
    simpa using this

theorem mem_variants {item : Item} {variant : Option String} {fs : Fields} (h : HasVariant item variant fs) :
    (variant, fs) ∈ itemVariants item := by
  cases item with
  | struct_ s => obtain ⟨rfl, rfl⟩ := h; simp [itemVariants]
  | enum_ e =>
    obtain ⟨v, hv, rfl, rfl⟩ := h
    exact List.mem_map.2 ⟨v, hv, rfl⟩
  | other a => exact absurd h id

theorem mem_itemFields {item : Item} {variant : Option String} {fs : Fields} (h : HasVariant item variant fs)
    {f : Field} (hf : f ∈ fs.list) : f ∈ itemFields item := by
  cases item with
  | struct_ s => obtain ⟨rfl, rfl⟩ := h; exact hf
  | enum_ e =>
    obtain ⟨v, hv, rfl, rfl⟩ := h
    exact List.mem_flatMap.2 ⟨v, hv, hf⟩
  | other a => exact absurd h id

theorem typeDefs_all {E : Expansion} {b : Bool} {d : TypeDef}
    (h : d ∈ typeDefs (if b then E.exposed else E.inScope)) : d ∈ typeDefs (allItems E) := by
  simp only [typeDefs, allItems, List.mem_filterMap] at h ⊢
  obtain ⟨i, hi, he⟩ := h
  refine ⟨i, ?_, he⟩
  split at hi
  · exact List.mem_append_left _ hi
  · exact List.mem_append_right _ hi

theorem fieldHasTy_label (item : Item) (fs : Fields) (x : Field × Nat) (hx : x ∈ fs.list.zipIdx) :
    FieldHasTy item fs (fieldLabel x.2 x.1) (resolved item x.1.ty) := ⟨x, hx, rfl, rfl⟩

/-- **C14** The value `project` / `project_ref` returns is a well-typed value of that type. -/
theorem C14_project_fits (item : Item) (E : Expansion) (h : parseDerive item = .ok E) (hwf : ItemWF item)
    (hv : ∀ f ∈ itemFields item, isPubSelf f.vis = false) (b : Bool) (fn : GFn)
    (hfn : method E (if b then "project" else "project_ref") = some fn)
    (o : Obj) (fs : Fields) (ho : IsValue item o fs) (p : Nat) (m : M) (hp : m.mem p = some o)
    (hm : m.status = .run) (orc : Oracle) (tl : Bool) :
    ∃ v, ∃ d ∈ typeDefs (allItems E), callFn orc tl fn (.fv (.pinRef b ⟨p, none⟩)) [] m = (some v, m) ∧
      (∃ args, fn.ret = .adt d.name args) ∧ ValueFits item p o fs v d := by
  obtain ⟨mode, hmode, hmb⟩ : ∃ mode : Mode, mode.fn = (if b then "project" else "project_ref") ∧
      ((b = true ∧ mode = .proj) ∨ (b = false ∧ mode = .projRef)) := by
    cases b
    · exact ⟨.projRef, rfl, by simp⟩
    · exact ⟨.proj, rfl, by simp⟩
  obtain ⟨A, ident, h1, h2, h3, h4, h5, h6⟩ := method_def item E h mode fn (by rw [hmode]; exact hfn)
  obtain ⟨name, args, hret, hc⟩ := call_projection item E h hwf b fn hfn o fs ho p m hp hm orc tl
  rw [h4] at hret
  simp only [GTy.adt.injEq] at hret
  refine ⟨_, _, typeDefs_all h3, hc, ⟨_, h4⟩, ?_⟩
  have hvf : ∀ f ∈ fs.list, isPubSelf f.vis = false := fun f hf => hv f (mem_itemFields ho.variant hf)
  have hf := fits_of_value item mode (determineLifetimeName "'pin" (preGenerics item)) p o fs hvf
    (Spec.fieldRefs b p fs) (by simp [Spec.fieldRefs, labels, Function.comp_def]) (by
      intro x hx
      have hx' : x ∈ fs.list.zipIdx.map (fun y =>
          ((fieldLabel y.2 y.1, fieldRef b p (fieldLabel y.2 y.1) y.1), y)) := by
        rw [Spec.fieldRefs] at hx
        have : ∀ (l : List (Field × Nat)), (l.map (fun y => (fieldLabel y.2 y.1, fieldRef b p (fieldLabel y.2 y.1) y.1))).zip l =
            l.map (fun y => ((fieldLabel y.2 y.1, fieldRef b p (fieldLabel y.2 y.1) y.1), y)) := by
          intro l
          induction l with
          | nil => rfl
          | cons a l ih => simp [ih]
        rw [this] at hx
        exact hx
      obtain ⟨y, hy, rfl⟩ := List.mem_map.1 hx'
      rcases hmb with ⟨rfl, rfl⟩ | ⟨rfl, rfl⟩ <;> simp only [fieldRef, fieldTy] <;>
        cases hpin : Pinned y.1 <;>
        exact ⟨rfl, _, rfl, fieldHasTy_label item fs y hy⟩)
  exact ⟨o.variant, _, _, by rw [← hret.1],
    List.mem_map.2 ⟨(o.variant, fs.visit (itemSelfTy item)), List.mem_map.2 ⟨(o.variant, fs), mem_variants ho.variant, rfl⟩, rfl⟩,
    hf.1, hf.2⟩

/-- **C14** The value `project_replace` returns is a well-typed value of its type. -/
theorem C14_replace_fits (item : Item) (E : Expansion) (h : parseDerive item = .ok E) (hwf : ItemWF item)
    (hv : ∀ f ∈ itemFields item, isPubSelf f.vis = false) (fn : GFn)
    (hfn : method E "project_replace" = some fn)
    (o : Obj) (fs : Fields) (ho : IsValue item o fs) (hfree : NamesFree fs) (p : Nat) (new : Obj) (m : M)
    (hp : m.mem p = some o) (hm : m.status = .run) (orc : Oracle) (tl : Bool) (v : Val) (m' : M)
    (hc : callFn orc tl fn (.fv (.pinRef true ⟨p, none⟩)) [.obj new] m = (some v, m')) :
    ∃ d ∈ typeDefs (allItems E), (∃ args, fn.ret = .adt d.name args) ∧ ValueFits item p o fs v d := by
  obtain ⟨A, ident, h1, h2, h3, h4, h5, h6⟩ := method_def item E h .replace fn hfn
  obtain ⟨name, args, hret, hc'⟩ := call_replace item E h hwf fn hfn o fs ho hfree p new m hp hm orc tl
  rw [hc, replaceOut_eq] at hc'
  rw [h4] at hret
  simp only [GTy.adt.injEq] at hret
  obtain ⟨hname, -⟩ := hret
  have hvv : v = .adt name o.variant (ownedParts fs o) := by
    split at hc' <;> simp only [Prod.mk.injEq, Option.some.injEq, reduceCtorEq, false_and] at hc'
    exact hc'.1
  subst hvv
  refine ⟨_, typeDefs_all h3, ⟨_, h4⟩, ?_⟩
  have hvf : ∀ f ∈ fs.list, isPubSelf f.vis = false := fun f hf => hv f (mem_itemFields ho.variant hf)
  have hlen : fs.list.length = o.fields.length := by
    have := congrArg List.length ho.fields
    simpa [labels] using this.symm
  have hf := fits_of_value item .replace (determineLifetimeName "'pin" (preGenerics item)) p o fs hvf
    (ownedParts fs o) (by
      rw [← ho.fields]
      simp only [ownedParts, List.map_map]
      have : ((fun x : String × FVal => x.1) ∘ fun x : Field × String × Id =>
          (x.2.1, if Pinned x.1 = true then FVal.phantom else FVal.own x.2.2)) = fun x => x.2.1 := rfl
      rw [show (Prod.fst ∘ fun x : Field × String × Id =>
          (x.2.1, if Pinned x.1 = true then FVal.phantom else FVal.own x.2.2)) = Prod.fst ∘ Prod.snd from rfl]
      rw [← List.map_map, List.map_snd_zip (by omega)]) (by
      intro x hx
      obtain ⟨i, hi, rfl⟩ := List.getElem_of_mem hx
      simp only [List.length_zip, ownedParts, List.length_map, List.length_zipIdx] at hi
      have hi1 : i < fs.list.length := by omega
      have hi2 : i < o.fields.length := by omega
      simp only [List.getElem_zip, ownedParts, List.getElem_map, List.getElem_zipIdx, fieldTy]
      cases hpin : Pinned fs.list[i] with
      | true => simp [Fits]
      | false =>
        simp only [Bool.false_eq_true, if_false, Fits]
        have hl : fieldLabel i fs.list[i] = o.fields[i].1 := by
          have := congrArg (fun l => l[i]?) ho.fields
          simp [labels, List.getElem?_eq_getElem hi1, List.getElem?_eq_getElem hi2] at this
          exact this.symm
        refine ⟨o.fields[i].1, List.getElem_mem hi2, ?_⟩
        rw [← hl]
        have hmem : (fs.list[i], i) ∈ fs.list.zipIdx := by
          rw [List.mem_zipIdx_iff_getElem?]
          simp [List.getElem?_eq_getElem hi1]
        exact fieldHasTy_label item fs (fs.list[i], i) hmem)
  exact ⟨o.variant, _, _, by rw [← hname],
    List.mem_map.2 ⟨(o.variant, fs.visit (itemSelfTy item)), List.mem_map.2 ⟨(o.variant, fs), mem_variants ho.variant, rfl⟩, rfl⟩,
    hf.1, hf.2⟩

end PinProject
