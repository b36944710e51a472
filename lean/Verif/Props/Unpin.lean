import Verif.Props.Subst
/-!
# When is the annotated type `Unpin`? C25, C26, C27
-/
namespace PinProject
open Spec

/-- An item that is no trait impl. -/
def GItem.noImpl : GItem → Bool
  | .traitImpl .. | .blanketDrop _ => false
  | _ => true

/-- The resolved types of the pinned fields. -/
def Spec.pinnedFieldTys (item : Item) : List Node :=
  ((itemFields item).filter Pinned).map (fun f => resolved item f.ty)

theorem pinnedTys_visit (st : SelfTy) (fs : List Field) :
    pinnedTys (fs.map (Field.visit st)) = (fs.filter Pinned).map (fun f => f.ty.visit st) := by
  simp only [pinnedTys, List.filter_map, List.map_map]
  rfl

/-- The expansion consists of items without trait impls, followed by the `Unpin` and `Drop` parts. -/
theorem expansion_shape (item : Item) (E : Expansion) (h : parseDerive item = .ok E) :
    ∃ A ident attrs kind front, parseArgs (itemAttrs item) = .ok A ∧ itemName item = some ident ∧
      let cx := mkCtx A attrs (itemVis item).visit ident (preGenerics item) kind
      allItems E = front ++ makeUnpinImpl cx (pinnedFieldTys item) ++ makeDropImpl cx ∧
      (∀ i ∈ front, i.noImpl = true) ∧
      ∀ d ∈ typeDefs front, d.name ∈ [cx.mutIdent, cx.refIdent, cx.ownIdent] := by
  cases item with
  | other a => simp [parseDerive] at h
  | struct_ s =>
    obtain ⟨A, h1, -, -, -, -, -, rfl⟩ := (deriveStruct_iff s E).1 h
    have ht : pinnedTys s.pre.fields.list = pinnedFieldTys (.struct_ s) := by
      simp only [ItemStruct.pre, ItemStruct.visit, list_visit, pinnedTys_visit, pinnedFieldTys]
      rfl
    refine ⟨A, s.ident, s.pre.attrs, .struct_, (structExpansion (s.ctx A) s.pre.fields).exposed ++
      (((if (s.ctx A).project then [] else [projItemS (s.ctx A) s.pre.fields]) ++
     (if (s.ctx A).projectRef then [] else [refItemS (s.ctx A) s.pre.fields]) ++
     (if (s.ctx A).projectReplace.ident.isSome then [] else
       if (s.ctx A).projectReplace.isSome then [ownItemS (s.ctx A) s.pre.fields] else []) ++
     [implItemS (s.ctx A) s.pre.fields] ++ [assertItem (s.ctx A) s.pre.fields])), h1, rfl, ?_, ?_, ?_⟩
    · rw [allItems]
      rw [show structExpansion (s.ctx A) s.pre.fields = ⟨_, _⟩ from rfl]
      simp only [ht, List.append_assoc]
      rfl
    · intro i hi
      simp only [structExpansion, List.mem_append, List.mem_ite_nil_left, List.mem_ite_nil_right, List.mem_singleton] at hi
      rcases hi with ((⟨_, rfl⟩ | ⟨_, rfl⟩) | ⟨_, _, rfl⟩) | (((⟨_, rfl⟩ | ⟨_, rfl⟩) | ⟨_, _, rfl⟩) | rfl) | rfl <;> rfl
    · intro d hd
      obtain ⟨i, hi, hd⟩ := List.mem_filterMap.1 hd
      simp only [structExpansion, List.mem_append, List.mem_ite_nil_left, List.mem_ite_nil_right, List.mem_singleton] at hi
      rcases hi with ((⟨_, rfl⟩ | ⟨_, rfl⟩) | ⟨_, _, rfl⟩) | (((⟨_, rfl⟩ | ⟨_, rfl⟩) | ⟨_, _, rfl⟩) | rfl) | rfl <;>
        first
          | (simp only [projItemS, refItemS, ownItemS, asTypeDef, Option.some.injEq] at hd; subst hd; first | exact .head _ | exact .tail _ (.head _) | exact .tail _ (.tail _ (.head _)))
          | cases hd
  | enum_ s =>
    obtain ⟨A, h1, -, -, -, -, -, -, rfl⟩ := (deriveEnum_iff s E).1 h
    have ht : s.pre.variants.flatMap (fun v => pinnedTys v.fields.list) = pinnedFieldTys (.enum_ s) := by
      simp only [ItemEnum.pre, ItemEnum.visit, pinnedFieldTys, itemFields, List.flatMap_map, List.filter_flatMap, List.map_flatMap]
      congr 1
      funext v
      simp only [Variant.visit, list_visit, pinnedTys_visit]
      rfl
    refine ⟨A, s.ident, s.pre.attrs, .enum_, (enumExpansion (s.ctx A) s.pre.variants).exposed ++
      [implItemE (s.ctx A) s.pre.variants], h1, rfl, ?_, ?_, ?_⟩
    · rw [allItems]
      rw [show enumExpansion (s.ctx A) s.pre.variants = ⟨_, _⟩ from rfl]
      simp only [ht, List.append_assoc]
      rfl
    · intro i hi
      simp only [enumExpansion, List.mem_append, List.mem_ite_nil_left, List.mem_ite_nil_right, List.mem_singleton] at hi
      rcases hi with ((⟨_, rfl⟩ | ⟨_, rfl⟩) | ⟨_, rfl⟩) | rfl <;> rfl
    · intro d hd
      obtain ⟨i, hi, hd⟩ := List.mem_filterMap.1 hd
      simp only [enumExpansion, List.mem_append, List.mem_ite_nil_left, List.mem_ite_nil_right, List.mem_singleton] at hi
      rcases hi with ((⟨_, rfl⟩ | ⟨_, rfl⟩) | ⟨_, rfl⟩) | rfl <;>
        first
          | (simp only [projItemE, refItemE, ownItemE, asTypeDef, Option.some.injEq] at hd; subst hd; first | exact .head _ | exact .tail _ (.head _) | exact .tail _ (.tail _ (.head _)))
          | cases hd

/-! ## Names -/

theorem unraw_mem {s : String} {c : Char} (h : c ∈ (unraw s).toList) : c ∈ s.toList := by
  unfold unraw at h
  split at h
  · rename_i rest he
    rw [String.toList_ofList] at h
    rw [he]
    simp [h]
  · exact h

theorem helper_colon {ident : String} (h : ':' ∉ ident.toList) : ':' ∉ ("__" ++ unraw ident).toList := by
  rw [String.toList_append, List.mem_append]
  rintro (h1 | h1)
  · revert h1; decide
  · exact h (unraw_mem h1)

theorem helper_ne {ident : String} (h : '#' ∉ (unraw ident).toList) : "__" ++ unraw ident ≠ ident := by
  intro he
  have h1 := unraw_id (no_hash_append (a := "__") (by decide) h)
  rw [he] at h1
  have h2 : ("__" ++ unraw ident).length = (unraw ident).length := by rw [he, h1]
  have l1 : "__".length = 2 := rfl
  rw [String.length_append, l1] at h2
  omega

theorem colon_ne {s t : String} (h : ':' ∉ s.toList) (ht : ':' ∈ t.toList) : s ≠ t := by
  rintro rfl; exact h ht

theorem wrapper_colon : ':' ∈ wrapperName.toList := by decide
theorem always_colon : ':' ∈ alwaysUnpinName.toList := by decide

/-- The names of the projection types are none of the names that matter. -/
theorem proj_names {item : Item} {ident : String} (hid : itemName item = some ident) (hsc : WellScoped item)
    {A : Args} (hA : NamesOk ident A) {n : String}
    (hn : n ∈ [A.project.getD ("__" ++ unraw ident ++ "Projection"),
      A.projectRef.getD ("__" ++ unraw ident ++ "ProjectionRef"),
      A.projectReplace.ident.getD ("__" ++ unraw ident ++ "ProjectionOwned")]) :
    n ≠ "__" ++ unraw ident ∧ n ≠ wrapperName ∧ n ≠ alwaysUnpinName := by
  obtain ⟨hl1, hl2⟩ := hsc.lexical ident hid
  have huser : ∀ k ∈ userNames A, k ≠ "__" ++ unraw ident ∧ k ≠ wrapperName ∧ k ≠ alwaysUnpinName := by
    intro k hk
    refine ⟨?_, colon_ne (hA.lexical k hk) wrapper_colon, colon_ne (hA.lexical k hk) always_colon⟩
    rintro rfl
    apply hA.fresh _ hk
    exact unraw_id (no_hash_append (a := "__") (by decide) hl2)
  have hdef : ∀ sfx : String, 0 < sfx.length → ':' ∉ sfx.toList → ∀ k, k = "__" ++ unraw ident ++ sfx →
      k ≠ "__" ++ unraw ident ∧ k ≠ wrapperName ∧ k ≠ alwaysUnpinName := by
    rintro sfx h1 h2 k rfl
    have hc : ':' ∉ ("__" ++ unraw ident ++ sfx).toList := by
      rw [String.toList_append, List.mem_append]
      exact not_or.2 ⟨helper_colon hl1, h2⟩
    refine ⟨?_, colon_ne hc wrapper_colon, colon_ne hc always_colon⟩
    intro he
    have := congrArg String.length he
    rw [String.length_append] at this
    omega
  have hget : ∀ (o : Option String) (sfx : String), (∀ k ∈ o, k ∈ userNames A) → 0 < sfx.length →
      ':' ∉ sfx.toList → n = o.getD ("__" ++ unraw ident ++ sfx) →
      n ≠ "__" ++ unraw ident ∧ n ≠ wrapperName ∧ n ≠ alwaysUnpinName := by
    rintro o sfx h1 h2 h3 rfl
    cases o with
    | none => exact hdef sfx h2 h3 _ rfl
    | some k => exact huser k (h1 k rfl)
  simp only [List.mem_cons, List.not_mem_nil, or_false] at hn
  rcases hn with hn | hn | hn
  · exact hget _ _ (fun k hk => by simp [userNames, Option.mem_def.1 hk]) (by decide) (by decide) hn
  · exact hget _ _ (fun k hk => by simp [userNames, Option.mem_def.1 hk]) (by decide) (by decide) hn
  · exact hget _ _ (fun k hk => by simp [userNames, Option.mem_def.1 hk]) (by decide) (by decide) hn

/-! ## The fresh lifetime -/

/-- The lifetime the expansion adds. -/
def freshLt (item : Item) : String := determineLifetimeName "'pin" (preGenerics item)

theorem startsWith_iff {s p : String} : startsWith s p = true ↔ p.toList <+: s.toList := by
  simp [startsWith, List.isPrefixOf_iff_prefix]

theorem freshLt_spec (item : Item) :
    startsWith (freshLt item) "'pin" = true ∧ startsWith (freshLt item) "'" = true ∧
    ¬ GenericsDeclare (itemGenerics item) (freshLt item) := by
  obtain ⟨k, hk1, hk2, -⟩ := lifetimeLoop_spec (preGenerics item).declaredLifetimes "'pin"
  have e : freshLt item = lifetimeLoop (preGenerics item).declaredLifetimes "'pin" := rfl
  rw [← e] at hk1 hk2
  have hp : startsWith (freshLt item) "'pin" = true := by
    rw [startsWith_iff, hk1]; exact List.prefix_append _ _
  refine ⟨hp, ?_, ?_⟩
  · rw [startsWith_iff] at hp ⊢
    exact List.IsPrefix.trans (by decide) hp
  · intro hd
    have : freshLt item ∈ (preGenerics item).declaredLifetimes := by
      rw [preGenerics, itemSelfTy_eq, declaredLifetimes_visit (mkSelfTy_noBinder _ _), mem_declaredLifetimes]
      exact hd
    exact hk2 _ this (List.prefix_refl _)

theorem itemParams_names (item : Item) :
    (itemParams item).map GParam.name = (itemGenerics item).params.map GParam.name := by
  simp only [itemParams, List.map_map]
  apply List.map_congr_left
  intro p _
  exact visit_name _ p

theorem freshLt_notin {item : Item} (hsc : WellScoped item) :
    freshLt item ∉ (itemParams item).map GParam.name := by
  rw [itemParams_names]
  intro hm
  obtain ⟨p, hp, he⟩ := List.mem_map.1 hm
  cases hl : p.isLifetime with
  | false =>
    have := hsc.quotes p hp hl
    rw [he, (freshLt_spec item).2.1] at this
    cases this
  | true =>
    apply (freshLt_spec item).2.2
    refine .inl ⟨p, hp, ?_⟩
    cases p with
    | lifetime n b => exact he
    | _ => cases hl

theorem freshLt_unused {item : Item} (hsc : WellScoped item) {n : Node} (hn : Copied item n) :
    ¬ MentionsLt n (freshLt item) :=
  fun h => (freshLt_spec item).2.2 (hsc.declared n hn _ (freshLt_spec item).1 h)

/-- Setting the fresh lifetime changes nothing about the instance. -/
theorem instance_set {item : Item} {N : Names} (hN : N.Lawful) (hsc : WellScoped item) (σ : Subst) (v : TArg) :
    (ParamsOk N (σ.set (freshLt item) v) (itemParams item) ↔ ParamsOk N σ (itemParams item)) ∧
    (∀ n, WPred.user n ∈ itemPreds item → (N.pred (σ.set (freshLt item) v) n ↔ N.pred σ n)) ∧
    (∀ f ∈ itemFields item, N.den (σ.set (freshLt item) v) (resolved item f.ty) = N.den σ (resolved item f.ty)) := by
  have hq := (freshLt_spec item).2.1
  refine ⟨?_, ?_, ?_⟩
  · unfold ParamsOk
    apply forall_congr'; intro p
    apply forall_congr'; intro hp
    apply forall_congr'; intro b
    apply forall_congr'; intro hb
    exact hN.bound _ _ _ _ _ hq (freshLt_unused hsc (.bound hp hb))
  · intro n hn
    exact hN.pred _ _ _ _ hq (freshLt_unused hsc (.pred hn))
  · intro f hf
    exact hN.den _ _ _ _ hq (freshLt_unused hsc (.field hf))

/-! ## The impls and definitions in the program -/

theorem implsOf_append (a b : List GItem) (tr : GTrait) (n : String) :
    implsOf (a ++ b) tr n = implsOf a tr n ++ implsOf b tr n := List.filterMap_append

theorem implsOf_front {l : List GItem} (h : ∀ i ∈ l, i.noImpl = true) (tr : GTrait) (n : String) :
    implsOf l tr n = [] := by
  rw [implsOf, List.filterMap_eq_nil_iff]
  intro i hi
  have := h i hi
  cases i <;> first | rfl | cases this

theorem makeWhere_tyGenerics (g : Generics) : g.makeWhere.tyGenerics = g.tyGenerics := rfl
theorem makeWhere_preds (g : Generics) : g.makeWhere.preds = g.preds := rfl

/-- The generated `Unpin` impl. -/
def unpinHeader (item : Item) (ident : String) (A : Args) : ImplHeader :=
  { params := .lifetime (freshLt item) [] :: (itemParams item).map GParam.noDefault
    args := (itemParams item).map GParam.arg
    preds := itemPreds item ++ [match A.unpinImpl with
      | .unsafe_ => .bound (.pinnedFieldsOf (.wrapper (freshLt item) .selfTy)) .unsafeUnpin
      | .negative => .bound (.pinnedFieldsOf (.wrapper (freshLt item) .phantomPinned)) .unpin
      | .default => .bound (.pinnedFieldsOf (.adt ("__" ++ unraw ident)
          (.lifetime (freshLt item) :: (itemParams item).map GParam.arg))) .unpin] }

theorem item_generics {item : Item} (hlf : LifetimesFirst (itemGenerics item).params) (A : Args) (attrs : List Attribute) (vis : Vis) (ident : String)
    (kind : TypeKind) :
    let cx := mkCtx A attrs vis ident (preGenerics item) kind
    cx.projGenerics.implGenerics = .lifetime (freshLt item) [] :: (itemParams item).map GParam.noDefault ∧
    cx.projGenerics.defParams = .lifetime (freshLt item) [] :: itemParams item ∧
    cx.projGenerics.tyGenerics = .lifetime (freshLt item) :: (itemParams item).map GParam.arg ∧
    cx.projGenerics.preds = itemPreds item ∧
    cx.generics.tyGenerics = (itemParams item).map GParam.arg ∧
    cx.generics.implGenerics = (itemParams item).map GParam.noDefault ∧
    cx.generics.preds = itemPreds item := by
  have hp := preGenerics_params item hlf
  have hw := preGenerics_preds item
  have hty : (preGenerics item).tyGenerics = (itemParams item).map GParam.arg := by
    rw [← defParams_args, hp]
  have himp : (preGenerics item).implGenerics = (itemParams item).map GParam.noDefault :=
    implGenerics_eq (lifetimesFirst_visit hlf)
  refine ⟨?_, ?_, ?_, hw, hty, himp, hw⟩
  · rw [← himp]
    simp [mkCtx, Generics.implGenerics, Generics.insertLifetime, List.filter_cons,
      show (GParam.lifetime (determineLifetimeName "'pin" (preGenerics item)) []).isLifetime = true from rfl]
    rfl
  · rw [← hp]; exact defParams_insert _ _
  · rw [← hty]; exact tyGenerics_insert _ _

theorem unpin_impls {item : Item} (hsc : WellScoped item) (A : Args) (attrs : List Attribute) (vis : Vis) (ident : String)
    (kind : TypeKind) (tys : List Node) (n : String) :
    let l := makeUnpinImpl (mkCtx A attrs vis ident (preGenerics item) kind) tys
    implsOf l .unpin n = (if n = ident then [unpinHeader item ident A] else []) ∧
    implsOf l .unsafeUnpin n = (if n = ident ∧ A.unpinImpl ≠ .unsafe_ then [unpinHeader item ident A] else []) ∧
    implsOf l .drop n = [] ∧ implsOf l .pinnedDrop n = [] := by
  obtain ⟨h1, h2, h3, h4, h5, -, h6⟩ := item_generics hsc.lifetimesFirst A attrs vis ident kind
  generalize hcx : mkCtx A attrs vis ident (preGenerics item) kind = cx at *
  have c1 : cx.unpinImpl = A.unpinImpl := by rw [← hcx]; rfl
  have c2 : cx.ident = ident := by rw [← hcx]; rfl
  have c3 : cx.lifetime = freshLt item := by rw [← hcx]; rfl
  simp only [makeUnpinImpl, h1, h2, h3, h4, h5, h6, c1, c2, c3, unpinHeader]
  by_cases hn : n = ident
  · subst hn
    cases hm : A.unpinImpl <;> simp [implsOf, GItem.implOf, List.filterMap_cons]
  · have hn' : ¬ ident = n := fun h => hn h.symm
    cases hm : A.unpinImpl <;> simp [implsOf, GItem.implOf, List.filterMap_cons, hn, hn']

theorem drop_impls (cx : Ctx) (n : String) :
    implsOf (makeDropImpl cx) .unpin n = [] ∧ implsOf (makeDropImpl cx) .unsafeUnpin n = [] := by
  unfold makeDropImpl
  cases cx.pinnedDrop <;> simp [implsOf, GItem.implOf, List.filterMap_cons]

def wrapperHeader : ImplHeader :=
  ⟨[.lifetime "'a" [], .type "T" [] none], [.lifetime "'a", .ident "T"], [.bound (.param "T") .unsafeUnpin]⟩
def alwaysHeader : ImplHeader :=
  ⟨[.lifetime "'a" [], .type "T" [] none], [.lifetime "'a", .ident "T"], []⟩

theorem runtime_impls (n : String) :
    implsOf runtimeItems .unpin n = (if n = alwaysUnpinName then [alwaysHeader] else []) ∧
    implsOf runtimeItems .unsafeUnpin n = (if n = wrapperName then [wrapperHeader] else []) := by
  constructor
  · by_cases h : n = alwaysUnpinName
    · subst h; simp [runtimeItems, implsOf, GItem.implOf, List.filterMap_cons, alwaysHeader]
    · have h' : ¬ alwaysUnpinName = n := fun e => h e.symm
      simp [runtimeItems, implsOf, GItem.implOf, List.filterMap_cons, h, h']
  · by_cases h : n = wrapperName
    · subst h; simp [runtimeItems, implsOf, GItem.implOf, List.filterMap_cons, wrapperHeader]
    · have h' : ¬ wrapperName = n := fun e => h e.symm
      simp [runtimeItems, implsOf, GItem.implOf, List.filterMap_cons, h, h']

/-- The impls in a program that contains the expansion. -/
theorem host_impls {item : Item} {E : Expansion} (h : parseDerive item = .ok E) (hsc : WellScoped item)
    {A : Args} (hA : parseArgs (itemAttrs item) = .ok A) {ident : String} (hid : itemName item = some ident)
    {P : Program} (hP : Hosts ident E P) (n : String) (hn : n ∈ ourNames ident) :
    implsOf P.items .unpin n = (if n = alwaysUnpinName then [alwaysHeader] else []) ++
      (if n = ident then [unpinHeader item ident A] else []) ∧
    implsOf P.items .unsafeUnpin n = (if n = wrapperName then [wrapperHeader] else []) ++
      (if n = ident ∧ A.unpinImpl ≠ .unsafe_ then [unpinHeader item ident A] else []) := by
  obtain ⟨A', ident', attrs, kind, front, h1, h2, h3, h4, -⟩ := expansion_shape item E h
  obtain rfl := Except.ok.inj (hA.symm.trans h1)
  obtain rfl := Option.some.inj (hid.symm.trans h2)
  obtain ⟨pre, rest, hr, hpre, hrest⟩ := hP.items
  obtain ⟨r1, r2, -⟩ := hrest n hn
  obtain ⟨p1, p2, -⟩ := hpre n hn
  obtain ⟨u1, u2, -, -⟩ := unpin_impls hsc A attrs (itemVis item).visit ident kind (pinnedFieldTys item) n
  obtain ⟨d1, d2⟩ := drop_impls (mkCtx A attrs (itemVis item).visit ident (preGenerics item) kind) n
  obtain ⟨t1, t2⟩ := runtime_impls n
  rw [hr, h3]
  simp only [implsOf_append, implsOf_front h4, r1, r2, p1, p2, u1, u2, d1, d2, t1, t2, List.append_nil, List.nil_append]
  exact ⟨trivial, trivial⟩

/-- The distinct names. -/
theorem ourNames_ne {item : Item} (hsc : WellScoped item) {ident : String} (hid : itemName item = some ident) :
    ident ≠ wrapperName ∧ ident ≠ alwaysUnpinName ∧ "__" ++ unraw ident ≠ ident ∧
    "__" ++ unraw ident ≠ wrapperName ∧ "__" ++ unraw ident ≠ alwaysUnpinName ∧ wrapperName ≠ alwaysUnpinName := by
  obtain ⟨h1, h2⟩ := hsc.lexical ident hid
  exact ⟨colon_ne h1 wrapper_colon, colon_ne h1 always_colon, helper_ne h2,
    colon_ne (helper_colon h1) wrapper_colon, colon_ne (helper_colon h1) always_colon, by decide⟩

theorem typeDefs_append (a b : List GItem) : typeDefs (a ++ b) = typeDefs a ++ typeDefs b := List.filterMap_append

/-- `Wrapper`. -/
def wrapperDef : TypeDef :=
  ⟨.pub, wrapperName, [.lifetime "'a" [], .type "T" [] none], [], [(none,
    ⟨some .paren, [⟨.inherited, none, .phantomData .abs (.ref (some "'a") false .unit)⟩,
        ⟨.inherited, none, .param "T"⟩]⟩)]⟩

theorem host_wrapper {ident : String} {E : Expansion} {P : Program} (hP : Hosts ident E P) :
    P.defOf wrapperName = some wrapperDef := by
  obtain ⟨pre, rest, hr, -⟩ := hP.items
  rw [Program.defOf, hr, typeDefs_append]
  rfl

/-- The helper struct of the default mode. -/
def helperDef (item : Item) (ident : String) (g : Generics) : TypeDef :=
  { vis := (itemVis item).visit
    name := "__" ++ unraw ident
    params := .lifetime (freshLt item) [] :: itemParams item
    preds := itemPreds item
    variants := [(none, ⟨some .brace, ⟨.inherited, some "__pin_project_use_generics",
          .alwaysUnpin (freshLt item) g.typeParams⟩ ::
        (pinnedFieldTys item).mapIdx (fun i ty => GField.mk .inherited (some ("__field" ++ toString i)) (.user ty)) ++
        g.lifetimes.mapIdx (fun i lt => GField.mk .inherited (some ("__lifetime" ++ toString i)) (.ref (some lt) false .unit))⟩)] }

theorem host_helper {item : Item} {E : Expansion} (h : parseDerive item = .ok E) (hsc : WellScoped item)
    {A : Args} (hA : parseArgs (itemAttrs item) = .ok A) {ident : String} (hid : itemName item = some ident)
    (hok : NamesOk ident A) {P : Program} (hP : Hosts ident E P) (hm : A.unpinImpl = .default) :
    P.defOf ("__" ++ unraw ident) = some (helperDef item ident (preGenerics item)) := by
  obtain ⟨A', ident', attrs, kind, front, h1, h2, h3, -, h5⟩ := expansion_shape item E h
  obtain rfl := Except.ok.inj (hA.symm.trans h1)
  obtain rfl := Option.some.inj (hid.symm.trans h2)
  obtain ⟨pre, rest, hr, hpre, -⟩ := hP.items
  obtain ⟨-, -, n0, n1, n2, -⟩ := ourNames_ne hsc hid
  obtain ⟨-, g2, -, -, -, -, g6⟩ := item_generics hsc.lifetimesFirst A attrs (itemVis item).visit ident kind
  rw [Program.defOf, hr, h3]
  simp only [typeDefs_append, List.append_assoc]
  have e1 : (typeDefs runtimeItems).find? (fun d => d.name == "__" ++ unraw ident) = none := by
    rw [List.find?_eq_none]
    intro d hd
    have : d.name = wrapperName ∨ d.name = alwaysUnpinName := by
      simp [typeDefs, runtimeItems, asTypeDef, List.filterMap_cons] at hd
      rcases hd with rfl | rfl <;> simp
    rw [beq_iff_eq]
    rintro he
    rw [he] at this
    exact this.elim n1 n2
  have e0 : (typeDefs pre).find? (fun d => d.name == "__" ++ unraw ident) = none := by
    rw [List.find?_eq_none]
    intro d hd
    rw [beq_iff_eq]
    intro he
    exact n0 ((hpre ("__" ++ unraw ident) (by simp [ourNames, noRaw_eq])).2.2 d hd he)
  have e2 : (typeDefs front).find? (fun d => d.name == "__" ++ unraw ident) = none := by
    rw [List.find?_eq_none]
    intro d hd
    rw [beq_iff_eq]
    exact (proj_names hid hsc hok (h5 d hd)).1
  rw [List.find?_append, List.find?_append, List.find?_append, e1, e0, e2, Option.none_or, Option.none_or,
    Option.none_or]
  generalize hcx : mkCtx A attrs (itemVis item).visit ident (preGenerics item) kind = cx at *
  have c1 : cx.unpinImpl = .default := by rw [← hcx]; exact hm
  have c2 : cx.ident = ident := by rw [← hcx]; rfl
  have c3 : cx.lifetime = freshLt item := by rw [← hcx]; rfl
  have c4 : cx.vis = (itemVis item).visit := by rw [← hcx]; rfl
  have c5 : cx.generics.typeParams = (preGenerics item).typeParams := by rw [← hcx]; rfl
  have c6 : cx.generics.lifetimes = (preGenerics item).lifetimes := by rw [← hcx]; rfl
  simp only [makeUnpinImpl, c1, c2, c3, c4, c5, c6, g2, g6, typeDefs, asTypeDef, List.filterMap_cons, List.cons_append,
    List.find?_cons, BEq.rfl]
  rfl

/-! ## Resolution -/

theorem itemParams_length (item : Item) : (itemParams item).length = (itemGenerics item).params.length := by
  simp [itemParams]

theorem itemParams_nodup {item : Item} (hsc : WellScoped item) : ((itemParams item).map GParam.name).Nodup := by
  rw [itemParams_names]; exact hsc.distinct

/-- The generated `Unpin` impl applies to an instance iff its last predicate holds. -/
theorem unpinHeader_applies {item : Item} {N : Names} (hN : N.Lawful) (hsc : WellScoped item) (F : Facts)
    (ident : String) (A : Args) (args : List TArg) (hi : IsInstance item N args) (w : WPred)
    (hw : (unpinHeader item ident A).preds = itemPreds item ++ [w]) :
    (unpinHeader item ident A).Applies N F ident args ↔
      ∃ v, w.holds N F ((instSubst item args).set (freshLt item) v) (.adt ident args) := by
  unfold ImplHeader.Applies
  rw [hw]
  simp only [unpinHeader]
  rw [match_lt (itemParams_nodup hsc) (freshLt_notin hsc) args (fun σ =>
    ParamsOk N σ (.lifetime (freshLt item) [] :: (itemParams item).map GParam.noDefault) ∧
      ∀ x ∈ itemPreds item ++ [w], x.holds N F σ (.adt ident args))]
  constructor
  · rintro ⟨-, v, -, hp⟩
    exact ⟨v, hp w (by simp)⟩
  · rintro ⟨v, hv⟩
    refine ⟨by rw [itemParams_length]; exact hi.arity, v, ?_, ?_⟩
    · rw [paramsOk_lt, paramsOk_noDefault, ← instSubst]
      exact (instance_set hN hsc _ v).1.2 hi.bounds
    · intro x hx
      rcases List.mem_append.1 hx with hx | hx
      · obtain ⟨n, rfl⟩ := hsc.source x hx
        exact ((instance_set hN hsc _ v).2.1 n hx).2 (hi.preds n hx)
      · rw [List.mem_singleton] at hx
        subst hx
        exact hv

/-- One step of resolution for an instance, for any answers `F`: the last predicate of the generated impl has to hold. -/
theorem unpinStep_iff {item : Item} {E : Expansion} (h : parseDerive item = .ok E) (hsc : WellScoped item)
    {A : Args} (hA : parseArgs (itemAttrs item) = .ok A) {ident : String} (hid : itemName item = some ident)
    {P : Program} (hP : Hosts ident E P) {N : Names} (hN : N.Lawful) (F : Facts)
    (args : List TArg) (hi : IsInstance item N args) (w : WPred)
    (hw : (unpinHeader item ident A).preds = itemPreds item ++ [w]) :
    P.HasImpl .unpin ident ∧ (P.unpinStep N F (.adt ident args) ↔
      ∃ v, w.holds N F ((instSubst item args).set (freshLt item) v) (.adt ident args)) := by
  rw [← unpinHeader_applies hN hsc F ident A args hi w hw]
  have hmem : ident ∈ ourNames ident := by simp [ourNames]
  obtain ⟨-, n2, -⟩ := ourNames_ne hsc hid
  have himp := (host_impls h hsc hA hid hP ident hmem).1
  rw [if_neg n2, if_pos rfl, List.nil_append] at himp
  have hhas : P.HasImpl .unpin ident := .inl (by rw [himp]; simp)
  have huser : ∀ u ∈ P.user, u.tr = .unpin → u.name = ident → False := by
    intro u hu ht hn
    have := (hP.user u hu (by rw [hn]; exact hmem) (.inl ht)).1
    rw [ht] at this
    cases this
  refine ⟨hhas, ?_⟩
  simp only [Program.unpinStep, hhas, true_and, not_true_eq_false, false_and, or_false, Program.Implements, himp,
    List.mem_singleton, exists_eq_left]
  constructor
  · rintro (h | ⟨u, hu, ht, hn, -⟩)
    · exact h
    · exact (huser u hu ht hn).elim
  · exact .inl

/-- An instance is `Unpin` iff the last predicate of the generated impl holds. -/
theorem unpin_iff {item : Item} {E : Expansion} (h : parseDerive item = .ok E) (hsc : WellScoped item)
    {A : Args} (hA : parseArgs (itemAttrs item) = .ok A) {ident : String} (hid : itemName item = some ident)
    {P : Program} (hP : Hosts ident E P) {N : Names} (hN : N.Lawful) {F : Facts} (hF : P.Solves N F)
    (args : List TArg) (hi : IsInstance item N args) (w : WPred)
    (hw : (unpinHeader item ident A).preds = itemPreds item ++ [w]) :
    F.unpin (.adt ident args) ↔
      ∃ v, w.holds N F ((instSubst item args).set (freshLt item) v) (.adt ident args) := by
  rw [hF.unpin]
  exact (unpinStep_iff h hsc hA hid hP hN F args hi w hw).2

theorem unpin_ref {P : Program} {N : Names} {F : Facts} (hF : P.Solves N F) (b : Bool) (t : Ty) :
    F.unpin (.ref b t) := (hF.unpin _).2 trivial

theorem noImpl_helper {item : Item} {E : Expansion} (h : parseDerive item = .ok E) (hsc : WellScoped item)
    {A : Args} (hA : parseArgs (itemAttrs item) = .ok A) {ident : String} (hid : itemName item = some ident)
    {P : Program} (hP : Hosts ident E P) (n : String) (hn : n ∈ ["__" ++ unraw ident, wrapperName]) :
    ¬ P.HasImpl .unpin n := by
  obtain ⟨m1, m2, m3, m4, m5, m6⟩ := ourNames_ne hsc hid
  have hour : n ∈ ourNames ident := by
    simp only [List.mem_cons, List.not_mem_nil, or_false] at hn
    rcases hn with rfl | rfl <;> simp [ourNames, noRaw_eq]
  have hne : n ≠ alwaysUnpinName ∧ n ≠ ident := by
    simp only [List.mem_cons, List.not_mem_nil, or_false] at hn
    rcases hn with rfl | rfl
    · exact ⟨m5, m3⟩
    · exact ⟨m6, m1.symm⟩
  have himp := (host_impls h hsc hA hid hP n hour).1
  rw [if_neg hne.1, if_neg hne.2] at himp
  rintro (h | ⟨u, hu, ht, hn⟩)
  · exact h himp
  · have := (hP.user u hu (by rw [hn]; exact hour) (.inl ht)).1
    rw [ht] at this
    cases this

/-- `AlwaysUnpin<'_, T>` is `Unpin`. -/
theorem unpin_always {item : Item} {E : Expansion} (h : parseDerive item = .ok E) (hsc : WellScoped item)
    {A : Args} (hA : parseArgs (itemAttrs item) = .ok A) {ident : String} (hid : itemName item = some ident)
    {P : Program} (hP : Hosts ident E P) {N : Names} {F : Facts} (hF : P.Solves N F) (a b : TArg) :
    F.unpin (.adt alwaysUnpinName [a, b]) := by
  have himp := (host_impls h hsc hA hid hP alwaysUnpinName (by simp [ourNames])).1
  obtain ⟨-, m2, -⟩ := ourNames_ne hsc hid
  rw [if_pos rfl, if_neg m2.symm, List.append_nil] at himp
  rw [hF.unpin]
  refine .inl ⟨.inl (by rw [himp]; simp), .inl ⟨alwaysHeader, by rw [himp]; simp, [a, b], rfl, ?_, ?_, ?_⟩⟩
  · simp [alwaysHeader, substOf, GParam.name, GArg.name]
  · simp [alwaysHeader, ParamsOk, GParam.boundsOf]
  · simp [alwaysHeader]

/-- `Wrapper<'_, T>` is `Unpin` iff `T` is, being an auto trait. -/
theorem unpin_wrapper {item : Item} {E : Expansion} (h : parseDerive item = .ok E) (hsc : WellScoped item)
    {A : Args} (hA : parseArgs (itemAttrs item) = .ok A) {ident : String} (hid : itemName item = some ident)
    {P : Program} (hP : Hosts ident E P) {N : Names} {F : Facts} (hF : P.Solves N F) (a : TArg) (t : Ty) :
    F.unpin (.adt wrapperName [a, .ty t]) ↔ F.unpin t := by
  rw [hF.unpin]
  have hno := noImpl_helper h hsc hA hid hP wrapperName (by simp)
  simp only [Program.unpinStep, hno, false_and, not_false_eq_true, true_and, false_or, host_wrapper hP]
  have hph : ∀ t : Ty, F.unpin (.phantomData t) ↔ F.unpin t := fun t => hF.unpin _
  simp [wrapperDef, Names.denote, Subst.get, substOf, GParam.name, TArg.asTy, hph, unpin_ref hF]

/-- `Wrapper<'_, T>` is `UnsafeUnpin` iff `T` is. -/
theorem unsafeUnpin_wrapper {item : Item} {E : Expansion} (h : parseDerive item = .ok E) (hsc : WellScoped item)
    {A : Args} (hA : parseArgs (itemAttrs item) = .ok A) {ident : String} (hid : itemName item = some ident)
    {P : Program} (hP : Hosts ident E P) {N : Names} {F : Facts} (hF : P.Solves N F) (a : TArg) (t : Ty) :
    F.unsafeUnpin (.adt wrapperName [a, .ty t]) ↔ F.unsafeUnpin t := by
  rw [hF.unsafeUnpin]
  obtain ⟨m1, -⟩ := ourNames_ne hsc hid
  have himp := (host_impls h hsc hA hid hP wrapperName (by simp [ourNames])).2
  rw [if_pos rfl, if_neg (fun h => m1.symm h.1), List.append_nil] at himp
  have huser : ∀ u ∈ P.user, u.tr = .unsafeUnpin → u.name = wrapperName → False := by
    intro u hu ht hn
    have := (hP.user u hu (by rw [hn]; simp [ourNames]) (.inr ht)).2
    rw [hn] at this
    exact m1 this.symm
  simp only [Program.unsafeUnpinStep, Program.Implements, himp, List.mem_singleton, exists_eq_left]
  constructor
  · rintro (⟨vals, hl, hm, -, hp⟩ | ⟨u, hu, ht, hn, -⟩)
    · match vals, hl with
      | [x, y], _ =>
        have := hp _ (List.mem_singleton.2 rfl)
        simp [wrapperHeader, substOf, GParam.name, GArg.name] at hm
        simpa [wrapperHeader, WPred.holds, Facts.holds, Names.denote, Subst.get, substOf, GParam.name, hm.2, TArg.asTy] using this
    · exact (huser u hu ht hn).elim
  · intro ht
    refine .inl ⟨[a, .ty t], rfl, ?_, ?_, ?_⟩
    · simp [wrapperHeader, substOf, GParam.name, GArg.name]
    · simp [wrapperHeader, ParamsOk, GParam.boundsOf]
    · intro w hw
      rw [wrapperHeader, List.mem_singleton] at hw
      subst hw
      simpa [WPred.holds, Facts.holds, Names.denote, Subst.get, substOf, GParam.name, wrapperHeader, TArg.asTy] using ht

/-! ## C25 -/

/-- The arguments of the helper struct in the generated impl. -/
theorem helper_args {item : Item} (hsc : WellScoped item) {args : List TArg} (hl : args.length = (itemParams item).length)
    (v : TArg) : (GArg.lifetime (freshLt item) :: (itemParams item).map GParam.arg).map
      (fun a => ((instSubst item args).set (freshLt item) v).get a.name) = v :: args := by
  have hs := substOf_map (itemParams_nodup hsc) hl
  rw [List.map_cons, List.map_map]
  congr 1
  · simp [Subst.get, Subst.set, GArg.name]
  · have : (itemParams item).map (fun p => (((instSubst item args).set (freshLt item) v) p.name).getD default) = args := by
      have e : (itemParams item).map (fun p => ((instSubst item args).set (freshLt item) v) p.name) = args.map some := by
        rw [← hs]
        apply List.map_congr_left
        intro p hp
        rw [Subst.set, if_neg]
        · rfl
        · intro he
          exact freshLt_notin hsc (List.mem_map.2 ⟨p, hp, he⟩)
      have e2 := congrArg (List.map (fun o : Option TArg => o.getD default)) e
      rw [List.map_map, List.map_map] at e2
      refine Eq.trans e2 ?_
      simp [Function.comp_def]
    refine Eq.trans ?_ this
    apply List.map_congr_left
    intro p _
    simp only [Function.comp, Subst.get, arg_name]

/-- One step of resolution for the helper struct, for any answers `F` that are right about references and `AlwaysUnpin`. -/
theorem helperStep_iff {item : Item} {E : Expansion} (h : parseDerive item = .ok E) (hsc : WellScoped item)
    {A : Args} (hA : parseArgs (itemAttrs item) = .ok A) (hm : A.unpinImpl = .default)
    {ident : String} (hid : itemName item = some ident) (hok : NamesOk ident A)
    {P : Program} (hP : Hosts ident E P) {N : Names} (hN : N.Lawful) (F : Facts) (href : ∀ b t, F.unpin (.ref b t))
    (halways : ∀ a b, F.unpin (.adt alwaysUnpinName [a, b])) (args : List TArg) (v : TArg) :
    ¬ P.HasImpl .unpin ("__" ++ unraw ident) ∧ (P.defOf ("__" ++ unraw ident)).isSome = true ∧
    (P.unpinStep N F (.adt ("__" ++ unraw ident) (v :: args)) ↔
      ∀ f ∈ itemFields item, Pinned f → F.unpin (N.den (instSubst item args) (resolved item f.ty))) := by
  have hno := noImpl_helper h hsc hA hid hP ("__" ++ unraw ident) (by simp)
  have hdef := host_helper h hsc hA hid hok hP hm
  refine ⟨hno, by rw [hdef]; rfl, ?_⟩
  simp only [Program.unpinStep, hno, false_and, not_false_eq_true, true_and, false_or, hdef]
  simp only [helperDef, List.cons_append, List.mem_cons, List.mem_append, List.not_mem_nil, or_false, forall_eq]
  rw [substOf_cons]
  have hset := (instance_set (item := item) hN hsc (instSubst item args) v).2.2
  constructor
  · intro hall f hf hp
    have hmem : resolved item f.ty ∈ pinnedFieldTys item :=
      List.mem_map.2 ⟨f, List.mem_filter.2 ⟨hf, hp⟩, rfl⟩
    obtain ⟨i, hi, he⟩ := List.getElem_of_mem hmem
    have := hall ⟨.inherited, some ("__field" ++ toString i), .user (resolved item f.ty)⟩
      (.inr (.inl (List.mem_mapIdx.2 ⟨i, hi, by rw [he]⟩)))
    simp only [Names.denote] at this
    rw [← hset f hf]
    exact this
  · rintro hall g (rfl | hg | hg)
    · exact halways _ _
    · obtain ⟨i, hi, rfl⟩ := List.mem_mapIdx.1 hg
      have hmem := List.getElem_mem hi
      obtain ⟨f, hf, he⟩ := List.mem_map.1 hmem
      obtain ⟨hf1, hf2⟩ := List.mem_filter.1 hf
      simp only [Names.denote]
      rw [← he]
      have := hall f hf1 hf2
      rw [← hset f hf1] at this
      exact this
    · obtain ⟨i, hi, rfl⟩ := List.mem_mapIdx.1 hg
      exact href _ _

/-- **C25** Without `!Unpin` and `UnsafeUnpin`: an instance of the annotated type is `Unpin` exactly when
the types of all its `#[pin]` fields, in all variants, are. Nothing else matters: neither the other fields
nor the type parameters. This holds for every program around the expansion, every meaning of the
user's types, and every solution of trait resolution. -/
theorem C25_default_unpin (item : Item) (E : Expansion) (h : parseDerive item = .ok E) (hsc : WellScoped item)
    (A : Args) (hA : parseArgs (itemAttrs item) = .ok A) (hm : A.unpinImpl = .default)
    (ident : String) (hid : itemName item = some ident) (hok : NamesOk ident A)
    (P : Program) (hP : Hosts ident E P) (N : Names) (hN : N.Lawful) (F : Facts) (hF : P.Solves N F)
    (args : List TArg) (hi : IsInstance item N args) :
    F.unpin (.adt ident args) ↔
      ∀ f ∈ itemFields item, Pinned f → F.unpin (N.den (instSubst item args) (resolved item f.ty)) := by
  rw [unpin_iff h hsc hA hid hP hN hF args hi (.bound (.pinnedFieldsOf (.adt ("__" ++ unraw ident)
    (.lifetime (freshLt item) :: (itemParams item).map GParam.arg))) .unpin) (by simp [unpinHeader, hm])]
  have hl : args.length = (itemParams item).length := by rw [itemParams_length]; exact hi.arity
  have key : ∀ v, F.unpin (.adt ("__" ++ unraw ident) (v :: args)) ↔
      ∀ f ∈ itemFields item, Pinned f → F.unpin (N.den (instSubst item args) (resolved item f.ty)) := by
    intro v
    rw [hF.unpin]
    exact (helperStep_iff h hsc hA hm hid hok hP hN F (unpin_ref hF) (unpin_always h hsc hA hid hP hF) args v).2.2
  simp only [WPred.holds, Facts.holds, Names.denote, helper_args hsc hl]
  constructor
  · rintro ⟨v, hv⟩; exact (key v).1 hv
  · intro hall; exact ⟨default, (key default).2 hall⟩

/-! ## C26 -/

/-- **C26** With `!Unpin`, no instance of the annotated type is `Unpin`. -/
theorem C26_not_unpin (item : Item) (E : Expansion) (h : parseDerive item = .ok E) (hsc : WellScoped item)
    (A : Args) (hA : parseArgs (itemAttrs item) = .ok A) (hm : A.unpinImpl = .negative)
    (ident : String) (hid : itemName item = some ident)
    (P : Program) (hP : Hosts ident E P) (N : Names) (hN : N.Lawful) (F : Facts) (hF : P.Solves N F)
    (args : List TArg) (hi : IsInstance item N args) :
    ¬ F.unpin (.adt ident args) := by
  rw [unpin_iff h hsc hA hid hP hN hF args hi (.bound (.pinnedFieldsOf (.wrapper (freshLt item) .phantomPinned)) .unpin)
    (by simp [unpinHeader, hm])]
  rintro ⟨v, hv⟩
  simp only [WPred.holds, Facts.holds, Names.denote] at hv
  rw [unpin_wrapper h hsc hA hid hP hF] at hv
  exact (hF.unpin _).1 hv

/-- **C26** `!Unpin` has the effect of a `#[pin]` field of type `PhantomPinned`: with either, no instance
is `Unpin`. -/
theorem C26_like_phantom_pinned (item : Item) (E : Expansion) (h : parseDerive item = .ok E) (hsc : WellScoped item)
    (A : Args) (hA : parseArgs (itemAttrs item) = .ok A) (hm : A.unpinImpl = .default)
    (ident : String) (hid : itemName item = some ident) (hok : NamesOk ident A)
    (P : Program) (hP : Hosts ident E P) (N : Names) (hN : N.Lawful) (F : Facts) (hF : P.Solves N F)
    (args : List TArg) (hi : IsInstance item N args)
    (f : Field) (hf : f ∈ itemFields item) (hpin : Pinned f)
    (hph : N.den (instSubst item args) (resolved item f.ty) = .phantomPinned) :
    ¬ F.unpin (.adt ident args) := by
  rw [C25_default_unpin item E h hsc A hA hm ident hid hok P hP N hN F hF args hi]
  intro hall
  have := hall f hf hpin
  rw [hph] at this
  exact (hF.unpin _).1 this

/-! ## C27 -/

/-- **C27** With `UnsafeUnpin`: an instance is `Unpin` exactly when an `unsafe impl UnsafeUnpin` written
by the user covers it. -/
theorem C27_unsafe_unpin (item : Item) (E : Expansion) (h : parseDerive item = .ok E) (hsc : WellScoped item)
    (A : Args) (hA : parseArgs (itemAttrs item) = .ok A) (hm : A.unpinImpl = .unsafe_)
    (ident : String) (hid : itemName item = some ident)
    (P : Program) (hP : Hosts ident E P) (N : Names) (hN : N.Lawful) (F : Facts) (hF : P.Solves N F)
    (args : List TArg) (hi : IsInstance item N args) :
    F.unpin (.adt ident args) ↔ ∃ u ∈ P.user, u.tr = .unsafeUnpin ∧ u.name = ident ∧ u.covers args := by
  rw [unpin_iff h hsc hA hid hP hN hF args hi (.bound (.pinnedFieldsOf (.wrapper (freshLt item) .selfTy)) .unsafeUnpin)
    (by simp [unpinHeader, hm])]
  simp only [WPred.holds, Facts.holds, Names.denote, unsafeUnpin_wrapper h hsc hA hid hP hF]
  rw [hF.unsafeUnpin]
  obtain ⟨m1, -⟩ := ourNames_ne hsc hid
  have himp := (host_impls h hsc hA hid hP ident (by simp [ourNames])).2
  rw [if_neg m1, if_neg (by simp [hm]), List.nil_append] at himp
  simp only [Program.unsafeUnpinStep, Program.Implements, himp, List.not_mem_nil, false_and, exists_false, false_or]
  constructor
  · rintro ⟨-, h⟩; exact h
  · intro h; exact ⟨default, h⟩

/-- **C27** In particular, without such an impl no instance is `Unpin`. -/
theorem C27_no_impl (item : Item) (E : Expansion) (h : parseDerive item = .ok E) (hsc : WellScoped item)
    (A : Args) (hA : parseArgs (itemAttrs item) = .ok A) (hm : A.unpinImpl = .unsafe_)
    (ident : String) (hid : itemName item = some ident)
    (P : Program) (hP : Hosts ident E P) (N : Names) (hN : N.Lawful) (F : Facts) (hF : P.Solves N F)
    (args : List TArg) (hi : IsInstance item N args) (hno : ∀ u ∈ P.user, u.name = ident → u.tr ≠ .unsafeUnpin) :
    ¬ F.unpin (.adt ident args) := by
  rw [C27_unsafe_unpin item E h hsc A hA hm ident hid P hP N hN F hF args hi]
  rintro ⟨u, hu, ht, hn, -⟩
  exact hno u hu hn ht

/-! ## Trait resolution has solutions -/

def Facts.le (F G : Facts) : Prop := (∀ t, F.unpin t → G.unpin t) ∧ ∀ t, F.unsafeUnpin t → G.unsafeUnpin t

theorem Facts.le.holds {F G : Facts} (h : F.le G) {t : Ty} {tr : GTrait} (hF : F.holds t tr) : G.holds t tr := by
  cases tr with
  | unpin => exact h.1 t hF
  | unsafeUnpin => exact h.2 t hF
  | _ => exact hF

theorem Facts.le.implements {F G : Facts} (h : F.le G) {P : Program} {N : Names} {tr : GTrait} {n : String}
    {as : List TArg} (hF : P.Implements N F tr n as) : P.Implements N G tr n as := by
  rcases hF with ⟨hd, hm, vals, h1, h2, h3, h4⟩ | hu
  · refine .inl ⟨hd, hm, vals, h1, h2, h3, ?_⟩
    intro w hw
    have := h4 w hw
    cases w with
    | bound t tr => exact h.holds this
    | _ => exact this
  · exact .inr hu

theorem Facts.le.unpinStep {F G : Facts} (h : F.le G) {P : Program} {N : Names} {t : Ty}
    (hF : P.unpinStep N F t) : P.unpinStep N G t := by
  cases t with
  | ext n as => exact h.1 _ hF
  | ref _ _ => trivial
  | ptr _ => trivial
  | pin t => exact h.1 _ hF
  | phantomData t => exact h.1 _ hF
  | phantomPinned => exact hF
  | tuple ts => exact fun t ht => h.1 _ (hF t ht)
  | adt n as =>
    rcases hF with ⟨h1, h2⟩ | ⟨h1, h2⟩
    · exact .inl ⟨h1, h.implements h2⟩
    · refine .inr ⟨h1, ?_⟩
      cases hd : P.defOf n with
      | none => rw [hd] at h2; exact h.1 _ h2
      | some d => rw [hd] at h2; exact fun v hv f hf => h.1 _ (h2 v hv f hf)

theorem Facts.le.step {F G : Facts} (h : F.le G) (P : Program) (N : Names) (S : Facts) :
    (P.step N S F).le (P.step N S G) := by
  constructor
  · intro t ht
    cases t with
    | ext n as => exact ht
    | adt n as =>
      rcases ht with ⟨h1, h2⟩ | h1
      · exact .inl ⟨h1, h.unpinStep h2⟩
      · exact .inr h1
    | ref b t => exact h.unpinStep (P := P) (N := N) (t := .ref b t) ht
    | ptr t => exact h.unpinStep (P := P) (N := N) (t := .ptr t) ht
    | pin t => exact h.unpinStep (P := P) (N := N) (t := .pin t) ht
    | phantomData t => exact h.unpinStep (P := P) (N := N) (t := .phantomData t) ht
    | phantomPinned => exact h.unpinStep (P := P) (N := N) (t := .phantomPinned) ht
    | tuple ts => exact h.unpinStep (P := P) (N := N) (t := .tuple ts) ht
  · intro t ht
    cases t with
    | ext n as => exact ht
    | adt n as => exact h.implements ht
    | _ => exact ht

/-- The least solution. -/
def Program.least (P : Program) (N : Names) (S : Facts) : Facts where
  unpin t := ∀ G : Facts, (P.step N S G).le G → G.unpin t
  unsafeUnpin t := ∀ G : Facts, (P.step N S G).le G → G.unsafeUnpin t

theorem Program.least_le {P : Program} {N : Names} {S G : Facts} (h : (P.step N S G).le G) : (P.least N S).le G :=
  ⟨fun _ ht => ht G h, fun _ ht => ht G h⟩

theorem Program.step_least (P : Program) (N : Names) (S : Facts) : (P.step N S (P.least N S)).le (P.least N S) := by
  constructor
  · intro t ht G hG
    exact hG.1 t (((Program.least_le hG).step P N S).1 t ht)
  · intro t ht G hG
    exact hG.2 t (((Program.least_le hG).step P N S).2 t ht)

theorem Program.least_step (P : Program) (N : Names) (S : Facts) : (P.least N S).le (P.step N S (P.least N S)) :=
  Program.least_le ((P.step_least N S).step P N S)

/-- Trait resolution has a solution for every program, whatever is assumed about unknown types. So the
hypothesis `Solves` of C25, C26 and C27 can always be met. -/
theorem Program.solves_exists (P : Program) (N : Names) (S : Facts) :
    ∃ F, P.Solves N F ∧ (∀ n as, F.unpin (.ext n as) ↔ S.unpin (.ext n as)) ∧
      ∀ n as, F.unsafeUnpin (.ext n as) ↔ S.unsafeUnpin (.ext n as) := by
  have hu : ∀ t, (P.least N S).unpin t ↔ (P.step N S (P.least N S)).unpin t :=
    fun t => ⟨(P.least_step N S).1 t, (P.step_least N S).1 t⟩
  have huu : ∀ t, (P.least N S).unsafeUnpin t ↔ (P.step N S (P.least N S)).unsafeUnpin t :=
    fun t => ⟨(P.least_step N S).2 t, (P.step_least N S).2 t⟩
  refine ⟨P.least N S, ⟨?_, ?_⟩, fun n as => hu (.ext n as), fun n as => huu (.ext n as)⟩
  · intro t
    cases t with
    | ext n as => exact Iff.rfl
    | adt n as =>
      rw [hu]
      simp only [Program.step]
      constructor
      · rintro (⟨-, h⟩ | ⟨h1, h2, h3⟩)
        · exact h
        · refine .inr ⟨h1, ?_⟩
          rw [h2]
          rw [hu]
          exact .inr ⟨h1, h2, h3⟩
      · intro h
        by_cases h1 : P.HasImpl .unpin n
        · exact .inl ⟨.inl h1, h⟩
        · cases hd : P.defOf n with
          | some d => exact .inl ⟨.inr (by simp), h⟩
          | none =>
            have h' : (P.least N S).unpin (.adt n as) := by
              rcases h with ⟨h2, -⟩ | ⟨-, h3⟩
              · exact (h1 h2).elim
              · rw [hd] at h3; exact h3
            rw [hu] at h'
            rcases h' with ⟨h4 | h4, -⟩ | ⟨-, -, h4⟩
            · exact (h1 h4).elim
            · simp [hd] at h4
            · exact .inr ⟨h1, rfl, h4⟩
    | _ => exact hu _
  · intro t
    cases t with
    | ext n as => exact Iff.rfl
    | _ => exact huu _

/-! ## The hypotheses can be met -/

/-- A meaning of type syntax: parameters mean their arguments, everything else is unknown. -/
def demoNames : Names where
  den σ n := match n with
    | .tyPath .none (.mk false [.mk s .none]) =>
      if s = "PhantomPinned" then .phantomPinned
      else if startsWith s "'" then .ext 0 [] else ((σ s).map TArg.asTy).getD (.ext 1 [])
    | _ => .ext 2 []
  pred _ _ := True
  bound σ p _ := startsWith p "'" = false → σ p ≠ some (.ty (.ext 7 []))

theorem demoNames_lawful : demoNames.Lawful := by
  refine ⟨?_, fun _ _ _ _ _ _ => Iff.rfl, ?_⟩
  · intro σ l v n hl hno
    clear hno
    unfold demoNames
    simp only
    split
    · rename_i s
      by_cases h1 : s = "PhantomPinned"
      · simp [h1]
      by_cases h2 : startsWith s "'" = true
      · simp [h1, h2]
      · have : s ≠ l := by rintro rfl; exact h2 hl
        simp [h1, h2, Subst.set, this]
    · rfl
  · intro σ l v p n hl _
    unfold demoNames
    simp only
    apply forall_congr'
    intro hp
    have : p ≠ l := by rintro rfl; rw [hl] at hp; cases hp
    simp [Subst.set, this]

/-- `#[pin_project(args)] struct G<'a, T: Tr, U> where U: Copy { #[pin] x: T, y: U }`. -/
def demoGeneric (args : List TT) : ItemStruct where
  attrs := [pinPrivateAttr args]
  vis := .inherited
  ident := "G"
  generics :=
    { params := [.lifetime "'a" [], .type "T" [.path (.mk false [.mk "Tr" .none])] none, .type "U" [] none]
      whereClause := some [.user (.other "U: Copy" [])] }
  fields := .named [
    { attrs := [⟨.path { segs := ["pin"] }⟩], ident := some "x", ty := Node.tyIdent "T" },
    { ident := some "y", ty := .tyIdent "U" }]

theorem within_leaf {m n : Node} (h : n.children = []) (hw : Within m n) : m = n := by
  cases hw with
  | here => rfl
  | inside hc _ => rw [h] at hc; cases hc

theorem mentions_leaf {n : Node} (h : n.children = [])
    (h1 : ∀ l, n ≠ .lifetime l) (h2 : ∀ l, n ≠ .binder l) (h3 : ∀ p t, n ≠ .mac p t ∧ n ≠ .itemMac p t) (l : String) :
    ¬ MentionsLt n l := by
  rintro (h' | ⟨lts, h', -⟩ | ⟨p, t, h' | h', -⟩)
  · exact h1 _ (within_leaf h h').symm
  · exact h2 _ (within_leaf h h').symm
  · exact (h3 p t).1 (within_leaf h h').symm
  · exact (h3 p t).2 (within_leaf h h').symm

theorem demoGeneric_scoped (args : List TT) : WellScoped (.struct_ (demoGeneric args)) := by
  refine ⟨?_, ?_, ?_, ?_, ?_, ?_⟩
  · refine ⟨[.lifetime "'a" []], _, rfl, ?_, ?_⟩
    · intro p hp; simp at hp; subst hp; exact ⟨_, _, rfl⟩
    · intro p hp n b; simp at hp; rcases hp with rfl | rfl <;> simp
  · change (List.map GParam.name [.lifetime "'a" [], .type "T" [.path (.mk false [.mk "Tr" .none])] none, .type "U" [] none]).Nodup
    simp [GParam.name]
  · intro p hp
    simp [itemGenerics, demoGeneric] at hp
    rcases hp with rfl | rfl | rfl <;> decide
  · intro w hw
    have : w = .user (.other "U: Copy" []) := by simpa [itemPreds, itemGenerics, demoGeneric, resolvedPred, resolved, Node.visit, visitNodes] using hw
    exact ⟨_, this⟩
  · intro n hn l _ hm
    exfalso
    revert hm
    cases hn with
    | field hf =>
      simp [itemFields, demoGeneric, Fields.list] at hf
      rcases hf with rfl | rfl <;> exact mentions_leaf rfl (by intro l; exact nofun) (by intro l; exact nofun) (by intro p t; exact ⟨nofun, nofun⟩) l
    | bound hp hb =>
      simp [itemParams, itemGenerics, demoGeneric, resolvedParam] at hp
      rcases hp with rfl | rfl | rfl
      · cases hb
      · simp [GParam.boundsOf] at hb
        subst hb
        exact mentions_leaf rfl (by intro l; exact nofun) (by intro l; exact nofun) (by intro p t; exact ⟨nofun, nofun⟩) l
      · simp [GParam.boundsOf] at hb
    | pred hp =>
      have : n = .other "U: Copy" [] := by simpa [itemPreds, itemGenerics, demoGeneric, resolvedPred, resolved, Node.visit, visitNodes] using hp
      subst this
      exact mentions_leaf rfl (by intro l; exact nofun) (by intro l; exact nofun) (by intro p t; exact ⟨nofun, nofun⟩) l
  · intro ident hid
    obtain rfl := Option.some.inj hid
    change ':' ∉ "G".toList ∧ '#' ∉ (noRaw "G").toList
    decide

/-- The expansion of the example, in the three modes. -/
example : (∃ E A, parseDerive (.struct_ (demoGeneric [])) = .ok E ∧
      parseArgs (itemAttrs (.struct_ (demoGeneric []))) = .ok A ∧ A.unpinImpl = .default) ∧
    (∃ E A, parseDerive (.struct_ (demoGeneric [.punct '!' false, .ident "Unpin"])) = .ok E ∧
      parseArgs (itemAttrs (.struct_ (demoGeneric [.punct '!' false, .ident "Unpin"]))) = .ok A ∧ A.unpinImpl = .negative) ∧
    (∃ E A, parseDerive (.struct_ (demoGeneric [.ident "UnsafeUnpin"])) = .ok E ∧
      parseArgs (itemAttrs (.struct_ (demoGeneric [.ident "UnsafeUnpin"]))) = .ok A ∧ A.unpinImpl = .unsafe_) :=
  ⟨⟨_, _, rfl, rfl, rfl⟩, ⟨_, _, rfl, rfl, rfl⟩, ⟨_, _, rfl, rfl, rfl⟩⟩

/-- A program around any expansion, with a user impl of `UnsafeUnpin`. -/
theorem hosts_plain (ident : String) (E : Expansion) (us : List UImpl)
    (h : ∀ u ∈ us, u.tr = .unsafeUnpin ∧ u.name = ident) :
    Hosts ident E ⟨runtimeItems ++ allItems E, us⟩ :=
  ⟨⟨[], [], by simp, by simp [Unrelated, implsOf, typeDefs], by simp [Unrelated, implsOf, typeDefs]⟩,
    fun u hu _ _ => h u hu⟩

theorem demoGeneric_instance (args : List TT) (l : Nat) (t u : Ty) (ht : t ≠ .ext 7 []) :
    IsInstance (.struct_ (demoGeneric args)) demoNames [.lt l, .ty t, .ty u] := by
  refine ⟨rfl, ?_, fun _ _ => trivial⟩
  intro p hp b hb
  simp [itemParams, itemGenerics, demoGeneric, resolvedParam] at hp
  rcases hp with rfl | rfl | rfl
  · cases hb
  · simp [GParam.boundsOf] at hb
    subst hb
    intro _
    simpa [instSubst, itemParams, itemGenerics, demoGeneric, resolvedParam, substOf, GParam.name] using ht
  · simp [GParam.boundsOf] at hb

/-- C25 for the example: `G<'a, T, U>` is `Unpin` iff `T` is, in every solution. -/
example (P : Program) (E : Expansion) (h : parseDerive (.struct_ (demoGeneric [])) = .ok E) (hP : Hosts "G" E P)
    (N : Names) (hN : N.Lawful) (hden : ∀ σ x, N.den σ (Node.tyIdent x) = (Subst.get σ x).asTy)
    (F : Facts) (hF : P.Solves N F) (l : Nat) (t u : Ty)
    (hi : IsInstance (.struct_ (demoGeneric [])) N [.lt l, .ty t, .ty u]) :
    F.unpin (.adt "G" [.lt l, .ty t, .ty u]) ↔ F.unpin t := by
  rw [C25_default_unpin _ E h (demoGeneric_scoped []) _ rfl rfl "G" rfl ⟨nofun, nofun⟩ P hP N hN F hF _ hi]
  have e : itemFields (.struct_ (demoGeneric [])) =
    [{ attrs := [⟨.path { segs := ["pin"] }⟩], ident := some "x", ty := Node.tyIdent "T" },
     { ident := some "y", ty := .tyIdent "U" }] := rfl
  rw [e]
  have p1 : Pinned { attrs := [⟨.path { segs := ["pin"] }⟩], ident := some "x", ty := Node.tyIdent "T" } = true := rfl
  have p2 : Pinned { ident := some "y", ty := Node.tyIdent "U" } = false := rfl
  have r1 : resolved (.struct_ (demoGeneric [])) (Node.tyIdent "T") = Node.tyIdent "T" := rfl
  have g1 : (Subst.get (instSubst (.struct_ (demoGeneric [])) [.lt l, .ty t, .ty u]) "T").asTy = t := rfl
  simp [p1, p2, r1, hden, g1]

end PinProject
