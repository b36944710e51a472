import Verif.Spec.Compiles
import Verif.Props.Conform
import Verif.Props.Hygiene
import Verif.Props.Shadow
import Verif.Props.Sized
import Verif.Props.Typing
import Verif.Props.WellFormed
import Verif.Props.Bounds
/-!
# C88: when the generated code compiles
-/
namespace PinProject
open Spec

/-- A method is there exactly if it is offered. -/
theorem method_offered (item : Item) (E : Expansion) (h : parseDerive item = .ok E) (A : Args)
    (hA : parseArgs (itemAttrs item) = .ok A) (mode : Mode) :
    (method E mode.fn).isSome ↔ Offers A item mode := by
  cases item with
  | other a => simp [parseDerive] at h
  | struct_ s =>
    obtain ⟨h1, h2, A', hA', h3⟩ := C16_struct_methods s E h
    obtain rfl := Except.ok.inj (hA.symm.trans hA')
    cases mode
    · exact iff_of_true h1 (.inl rfl)
    · exact iff_of_true h2 (.inl rfl)
    · exact h3
  | enum_ e =>
    obtain ⟨A', hA', h1, h2, h3⟩ := C16_enum_methods e E h
    obtain rfl := Except.ok.inj (hA.symm.trans hA')
    cases mode
    · refine h1.trans ?_
      simp [Offers, isStruct, Option.ne_none_iff_exists']
    · refine h2.trans ?_
      simp [Offers, isStruct, Option.ne_none_iff_exists']
    · refine h3.trans ?_
      have hno := C16_enum_unnamed_replace_rejected e A hA
      simp only [Offers]
      cases hr : A.projectReplace with
      | none => simp
      | named n => simp
      | unnamed =>
        exact absurd h (hno hr E)

/-- The type definitions in an expansion. -/
theorem typeDefs_iff (item : Item) (E : Expansion) (h : parseDerive item = .ok E)
    (hlf : LifetimesFirst (itemGenerics item).params) (A : Args) (hA : parseArgs (itemAttrs item) = .ok A) (ident : String)
    (hid : itemName item = some ident) (d : TypeDef) :
    d ∈ typeDefs (allItems E) ↔
      (∃ mode, Offers A item mode ∧ d = modeDef A mode (itemVis item).visit ident (preGenerics item) (preVariants item)) ∨
      (A.unpinImpl = .default ∧ d = helperDef item ident (preGenerics item)) := by
  constructor
  · intro hd
    have hnone : ∀ {x : Option String}, x.isSome = true → x ≠ none := by
      intro x hx hn; rw [hn] at hx; cases hx
    have hown : ∀ B : Args, B.projectReplace.isSome = true → B.projectReplace ≠ .none := by
      intro B hx hn; rw [hn] at hx; cases hx
    have hown' : ∀ B : Args, B.projectReplace.ident.isSome = true → B.projectReplace ≠ .none := by
      intro B hx hn; rw [hn] at hx; cases hx
    have hu : ∀ (A : Args) (attrs : List Attribute) (ident : String) (kind : TypeKind),
        d ∈ typeDefs (makeUnpinImpl (mkCtx A attrs (itemVis item).visit ident (preGenerics item) kind) (pinnedFieldTys item)) →
        A.unpinImpl = .default ∧ d = helperDef item ident (preGenerics item) := by
      intro A attrs ident kind hd
      obtain ⟨-, g2, -, -, -, -, g6⟩ := item_generics hlf A attrs (itemVis item).visit ident kind
      generalize hcx : mkCtx A attrs (itemVis item).visit ident (preGenerics item) kind = cx at *
      have c1 : cx.unpinImpl = A.unpinImpl := by rw [← hcx]; rfl
      have c2 : cx.ident = ident := by rw [← hcx]; rfl
      have c3 : cx.lifetime = freshLt item := by rw [← hcx]; rfl
      have c4 : cx.vis = (itemVis item).visit := by rw [← hcx]; rfl
      have c5 : cx.generics.typeParams = (preGenerics item).typeParams := by rw [← hcx]; rfl
      have c6 : cx.generics.lifetimes = (preGenerics item).lifetimes := by rw [← hcx]; rfl
      unfold makeUnpinImpl at hd
      cases hA : cx.unpinImpl with
      | default =>
        simp only [hA, c2, c3, c4, c5, c6, g2, g6, typeDefs, asTypeDef, List.filterMap_cons, List.filterMap_nil,
          List.mem_singleton] at hd
        exact ⟨c1 ▸ hA, hd⟩
      | unsafe_ => simp [hA, typeDefs, asTypeDef, List.filterMap_cons] at hd
      | negative => simp [hA, typeDefs, asTypeDef, List.filterMap_cons] at hd
    have hdr : ∀ cx, d ∉ typeDefs (makeDropImpl cx) := by
      intro cx
      unfold makeDropImpl
      cases cx.pinnedDrop <;> simp [typeDefs, asTypeDef, List.filterMap_cons]
    cases item with
    | other a => simp [parseDerive] at h
    | struct_ s =>
      obtain ⟨A, h1, -, -, -, -, -, rfl⟩ := (deriveStruct_iff s E).1 h
      have ht : pinnedTys s.pre.fields.list = pinnedFieldTys (.struct_ s) := by
        simp only [ItemStruct.pre, ItemStruct.visit, list_visit, pinnedTys_visit, pinnedFieldTys]
        rfl
      obtain rfl := Except.ok.inj (hA.symm.trans h1)
      obtain rfl : s.ident = ident := Option.some.inj hid
      obtain ⟨i, hi, he⟩ := List.mem_filterMap.1 hd
      simp only [allItems, structExpansion, ht, List.mem_append, List.mem_singleton, List.mem_ite_nil_left,
        List.mem_ite_nil_right] at hi
      have hp : asTypeDef (projItemS (s.ctx A) s.pre.fields) = some d →
        d = modeDef A .proj (itemVis (.struct_ s)).visit s.ident (preGenerics (.struct_ s)) (preVariants (.struct_ s)) :=
        fun h => (Option.some.inj h).symm
      have hr : asTypeDef (refItemS (s.ctx A) s.pre.fields) = some d →
        d = modeDef A .projRef (itemVis (.struct_ s)).visit s.ident (preGenerics (.struct_ s)) (preVariants (.struct_ s)) :=
        fun h => (Option.some.inj h).symm
      have ho : asTypeDef (ownItemS (s.ctx A) s.pre.fields) = some d →
        d = modeDef A .replace (itemVis (.struct_ s)).visit s.ident (preGenerics (.struct_ s)) (preVariants (.struct_ s)) :=
        fun h => (Option.some.inj h).symm
      rcases hi with ((⟨_, rfl⟩ | ⟨_, rfl⟩) | ⟨_, hr', rfl⟩) | ((((((⟨_, rfl⟩ | ⟨_, rfl⟩) | ⟨_, hr', rfl⟩) | rfl) | rfl) | hi) | hi)
      · exact .inl ⟨.proj, .inl rfl, hp he⟩
      · exact .inl ⟨.projRef, .inl rfl, hr he⟩
      · exact .inl ⟨.replace, hown A hr', ho he⟩
      · exact .inl ⟨.proj, .inl rfl, hp he⟩
      · exact .inl ⟨.projRef, .inl rfl, hr he⟩
      · exact .inl ⟨.replace, hown A hr', ho he⟩
      · cases he
      · cases he
      · exact .inr (hu A s.pre.attrs s.ident .struct_ (List.mem_filterMap.2 ⟨i, hi, he⟩))
      · exact absurd (List.mem_filterMap.2 ⟨i, hi, he⟩) (hdr _)
    | enum_ s =>
      obtain ⟨A, h1, -, -, -, -, -, -, rfl⟩ := (deriveEnum_iff s E).1 h
      have ht : s.pre.variants.flatMap (fun v => pinnedTys v.fields.list) = pinnedFieldTys (.enum_ s) := by
        simp only [ItemEnum.pre, ItemEnum.visit, pinnedFieldTys, itemFields, List.flatMap_map, List.filter_flatMap, List.map_flatMap]
        congr 1
        funext v
        simp only [Variant.visit, list_visit, pinnedTys_visit]
        rfl
      obtain rfl := Except.ok.inj (hA.symm.trans h1)
      obtain rfl : s.ident = ident := Option.some.inj hid
      obtain ⟨i, hi, he⟩ := List.mem_filterMap.1 hd
      simp only [allItems, enumExpansion, ht, List.mem_append, List.mem_singleton, List.mem_ite_nil_right] at hi
      have hp : asTypeDef (projItemE (s.ctx A) s.pre.variants) = some d →
        d = modeDef A .proj (itemVis (.enum_ s)).visit s.ident (preGenerics (.enum_ s)) (preVariants (.enum_ s)) := by
        intro h
        rw [← Option.some.inj h]
        simp only [modeDef, preVariants, itemVariants, List.map_map]
        simp only [ItemEnum.pre, ItemEnum.visit, List.map_map]
        rfl
      have hr : asTypeDef (refItemE (s.ctx A) s.pre.variants) = some d →
        d = modeDef A .projRef (itemVis (.enum_ s)).visit s.ident (preGenerics (.enum_ s)) (preVariants (.enum_ s)) := by
        intro h
        rw [← Option.some.inj h]
        simp only [modeDef, preVariants, itemVariants, List.map_map]
        simp only [ItemEnum.pre, ItemEnum.visit, List.map_map]
        rfl
      have ho : asTypeDef (ownItemE (s.ctx A) s.pre.variants) = some d →
        d = modeDef A .replace (itemVis (.enum_ s)).visit s.ident (preGenerics (.enum_ s)) (preVariants (.enum_ s)) := by
        intro h
        rw [← Option.some.inj h]
        simp only [modeDef, preVariants, itemVariants, List.map_map]
        simp only [ItemEnum.pre, ItemEnum.visit, List.map_map]
        rfl
      rcases hi with ((⟨hp', rfl⟩ | ⟨hp', rfl⟩) | ⟨hr', rfl⟩) | ((rfl | hi) | hi)
      · exact .inl ⟨.proj, .inr (hnone hp'), hp he⟩
      · exact .inl ⟨.projRef, .inr (hnone hp'), hr he⟩
      · exact .inl ⟨.replace, hown' A hr', ho he⟩
      · cases he
      · exact .inr (hu A s.pre.attrs s.ident .enum_ (List.mem_filterMap.2 ⟨i, hi, he⟩))
      · exact absurd (List.mem_filterMap.2 ⟨i, hi, he⟩) (hdr _)
  · rintro (⟨mode, hm, rfl⟩ | ⟨hm, rfl⟩)
    · obtain ⟨fn, hfn⟩ := Option.isSome_iff_exists.1 ((method_offered item E h A hA mode).2 hm)
      obtain ⟨A', ident', h1, h2, h3, -⟩ := method_def item E h mode fn hfn
      obtain rfl := Except.ok.inj (hA.symm.trans h1)
      obtain rfl := Option.some.inj (hid.symm.trans h2)
      exact typeDefs_all h3
    · obtain ⟨A', ident', attrs, kind, front, h1, h2, h3, -, -⟩ := expansion_shape item E h
      obtain rfl := Except.ok.inj (hA.symm.trans h1)
      obtain rfl := Option.some.inj (hid.symm.trans h2)
      obtain ⟨-, g2, -, -, -, -, g6⟩ := item_generics hlf A attrs (itemVis item).visit ident kind
      rw [h3, typeDefs_append, typeDefs_append]
      refine List.mem_append_left _ (List.mem_append_right _ ?_)
      generalize hcx : mkCtx A attrs (itemVis item).visit ident (preGenerics item) kind = cx at *
      have c1 : cx.unpinImpl = .default := by rw [← hcx]; exact hm
      have c2 : cx.ident = ident := by rw [← hcx]; rfl
      have c3 : cx.lifetime = freshLt item := by rw [← hcx]; rfl
      have c4 : cx.vis = (itemVis item).visit := by rw [← hcx]; rfl
      have c5 : cx.generics.typeParams = (preGenerics item).typeParams := by rw [← hcx]; rfl
      have c6 : cx.generics.lifetimes = (preGenerics item).lifetimes := by rw [← hcx]; rfl
      unfold makeUnpinImpl
      simp only [c1, c2, c3, c4, c5, c6, g2, g6, typeDefs, asTypeDef, List.filterMap_cons, List.filterMap_nil]
      exact .head _

/-! ## Lifetimes -/

/-- The lifetime that is generated. -/
theorem isPinLifetime_iff (item : Item) (lt : String) : IsPinLifetime item lt ↔ lt = freshLt item := by
  obtain ⟨k, hk1, hk2, hk3⟩ := lifetimeLoop_spec (preGenerics item).declaredLifetimes "'pin"
  have hd : ∀ l, l ∈ (preGenerics item).declaredLifetimes ↔ GenericsDeclare (itemGenerics item) l := by
    intro l
    rw [preGenerics, itemSelfTy_eq, declaredLifetimes_visit (mkSelfTy_noBinder _ _), mem_declaredLifetimes]
  have hk1 : (freshLt item).toList = "'pin".toList ++ List.replicate k '_' := hk1
  have hk2 : ∀ n ∈ (preGenerics item).declaredLifetimes, ¬ (freshLt item).toList <+: n.toList := hk2
  constructor
  · rintro ⟨j, h1, h2, h3⟩
    have : j = k := by
      rcases Nat.lt_trichotomy j k with hjk | hjk | hjk
      · obtain ⟨n, hn, hp⟩ := hk3 j hjk
        exact absurd (h1 ▸ hp) (h2 n ((hd n).1 hn))
      · exact hjk
      · obtain ⟨n, hn, hp⟩ := h3 k hjk
        exact absurd (hk1 ▸ hp) (hk2 n ((hd n).2 hn))
    subst this
    exact String.ext (h1.trans hk1.symm)
  · rintro rfl
    refine ⟨k, hk1, fun l hl => hk2 l ((hd l).2 hl), fun j hj => ?_⟩
    obtain ⟨n, hn, hp⟩ := hk3 j hj
    exact ⟨n, (hd n).1 hn, hp⟩

theorem freshLt_fresh (item : Item) : ¬ GenericsDeclare (itemGenerics item) (freshLt item) := by
  obtain ⟨k, -, h, -⟩ := (isPinLifetime_iff item (freshLt item)).2 rfl
  exact fun hg => h _ hg (List.prefix_refl _)

theorem modeDef_redeclares (item : Item) (hsrc : ∀ w ∈ (itemGenerics item).whereClause.getD [], ∃ n, w = .user n)
    (hitem : ¬ Redeclares (itemGenerics item).params (itemNodes item)) (A : Args) (mode : Mode) (vis : Vis) (ident : String) :
    Redeclares (modeDef A mode vis ident (preGenerics item) (preVariants item)).params
      (modeDef A mode vis ident (preGenerics item) (preVariants item)).nodes ↔
    mode ≠ .replace ∧ ∃ f ∈ itemFields item, Declares f.ty (freshLt item) := by
  simp only [Redeclares, modeDef_lifetimes, modeDef_declares]
  constructor
  · rintro ⟨l, bs, ⟨hm, rfl, rfl⟩ | hl, hn⟩
    · refine ⟨hm, ?_⟩
      rw [itemNodes, declares_append] at hn
      rcases hn with hn | ⟨_, hf, hn⟩
      · exact absurd (genericsDeclare_nodes item hsrc _ hn) (freshLt_fresh item)
      · obtain ⟨f, hf', rfl⟩ := List.mem_map.1 hf
        exact ⟨f, hf', hn⟩
    · exact absurd ⟨l, bs, hl, hn⟩ hitem
  · rintro ⟨hm, f, hf, hn⟩
    refine ⟨_, [], .inl ⟨hm, rfl, rfl⟩, f.ty, ?_, hn⟩
    rw [itemNodes, List.mem_append]
    exact .inr (List.mem_map.2 ⟨f, hf, rfl⟩)

theorem helperDef_redeclares (item : Item) (hsrc : ∀ w ∈ (itemGenerics item).whereClause.getD [], ∃ n, w = .user n)
    (hitem : ¬ Redeclares (itemGenerics item).params (itemNodes item)) (ident : String) :
    Redeclares (helperDef item ident (preGenerics item)).params (helperDef item ident (preGenerics item)).nodes ↔
    ∃ f ∈ itemFields item, Pinned f ∧ Declares f.ty (freshLt item) := by
  have hfields : ∀ l, (∃ n ∈ (helperDef item ident (preGenerics item)).variants.flatMap
        (fun v => v.2.fields.flatMap (fun f => userNodes f.ty)), Declares n l) ↔
      ∃ f ∈ itemFields item, Pinned f ∧ Declares f.ty l := by
    intro l
    constructor
    · rintro ⟨n, hn, hd⟩
      simp only [helperDef, List.flatMap_cons, List.flatMap_nil, List.append_nil, List.mem_append, List.flatMap_append] at hn
      rcases hn with (hn | hn) | hn
      · simp [userNodes] at hn
      · obtain ⟨g, hg, hn⟩ := List.mem_flatMap.1 hn
        obtain ⟨i, hi, rfl⟩ := List.mem_mapIdx.1 hg
        simp only [userNodes, List.mem_singleton] at hn
        subst hn
        obtain ⟨f, hf, he⟩ := List.mem_map.1 (List.getElem_mem hi)
        rw [← he] at hd
        exact ⟨f, (List.mem_filter.1 hf).1, (List.mem_filter.1 hf).2, (declares_resolved item _ _).1 hd⟩
      · obtain ⟨g, hg, hn⟩ := List.mem_flatMap.1 hn
        obtain ⟨i, hi, rfl⟩ := List.mem_mapIdx.1 hg
        simp [userNodes] at hn
    · rintro ⟨f, hf, hp, hd⟩
      have hm : resolved item f.ty ∈ pinnedFieldTys item := List.mem_map.2 ⟨f, List.mem_filter.2 ⟨hf, hp⟩, rfl⟩
      obtain ⟨i, hi, he⟩ := List.getElem_of_mem hm
      refine ⟨resolved item f.ty, ?_, (declares_resolved item _ _).2 hd⟩
      refine List.mem_flatMap.2 ⟨_, .head _, List.mem_flatMap.2
        ⟨⟨.inherited, some ("__field" ++ toString i), .user (resolved item f.ty)⟩, ?_, ?_⟩⟩
      · refine List.mem_append_left _ (List.mem_cons_of_mem _ (List.mem_mapIdx.2 ⟨i, hi, ?_⟩))
        rw [he]
      · exact .head _
  have hparams : ∀ l bs, GParam.lifetime l bs ∈ (helperDef item ident (preGenerics item)).params ↔
      (l = freshLt item ∧ bs = []) ∨ GParam.lifetime l bs ∈ (itemGenerics item).params := by
    intro l bs
    simp only [helperDef, List.mem_cons, GParam.lifetime.injEq]
    refine or_congr Iff.rfl ?_
    simp only [itemParams, List.mem_map]
    constructor
    · rintro ⟨p, hp, he⟩
      cases p with
      | lifetime n b => cases he; exact hp
      | _ => cases he
    · intro h; exact ⟨_, h, rfl⟩
  have hgen : ∀ l, (∃ n ∈ (helperDef item ident (preGenerics item)).params.flatMap userNodesOfParam ++
        (helperDef item ident (preGenerics item)).preds.flatMap userNodesOfPred, Declares n l) ↔
      ∃ n ∈ (itemGenerics item).params.flatMap userNodesOfParam ++
        ((itemGenerics item).whereClause.getD []).flatMap userNodesOfPred, Declares n l := by
    intro l
    rw [declares_append, declares_append, ← declares_preds, ← declares_params, preGenerics_preds]
    refine or_congr ?_ Iff.rfl
    have : (preGenerics item).params = itemParams item := by
      simp only [preGenerics, Generics.visit, itemParams, resolvedParam_eq]
    rw [this]
    simp [helperDef, userNodesOfParam]
  simp only [Redeclares, TypeDef.nodes]
  constructor
  · rintro ⟨l, bs, hl, hn⟩
    rw [declares_append, hgen, hfields] at hn
    rcases (hparams l bs).1 hl with ⟨rfl, rfl⟩ | hl
    · rcases hn with hn | hn
      · exact absurd (genericsDeclare_nodes item hsrc _ hn) (freshLt_fresh item)
      · exact hn
    · refine absurd ⟨l, bs, hl, ?_⟩ hitem
      rw [itemNodes, declares_append]
      exact hn.imp id (fun ⟨f, hf, _, hd⟩ => ⟨_, List.mem_map_of_mem hf, hd⟩)
  · intro hf
    refine ⟨freshLt item, [], (hparams _ _).2 (.inl ⟨rfl, rfl⟩), ?_⟩
    rw [declares_append, hgen, hfields]
    exact .inr hf

/-! ## Visibilities -/

theorem visValid_visit {v : Vis} (h : VisValid v) : VisValid v.visit ↔ isPubSelf v = false := by
  cases hv : isPubSelf v with
  | false => rw [visit_vis hv]; exact iff_of_true h rfl
  | true =>
    cases v with
    | pub => cases hv
    | inherited => cases hv
    | restricted i p =>
      obtain ⟨l, segs⟩ := p
      obtain rfl : segs = ["self"] := by simpa [isPubSelf] using hv
      refine iff_of_false ?_ (by simp)
      cases i
      · rintro ⟨-, w, hw, he⟩
        obtain rfl : w = "__self" := ((List.cons.inj he).1).symm
        revert hw; decide
      · rintro ⟨-, w, hw, he⟩
        obtain rfl : w = "__self" := (Option.some.inj he).symm
        revert hw; decide

theorem visValid_determine {v : Vis} : VisValid (determineVisibility v) ↔ VisValid v := by
  cases v with
  | pub => exact iff_of_true ⟨rfl, "crate", .head _, rfl⟩ trivial
  | _ => exact Iff.rfl

theorem modeFields_vis (mode : Mode) (lt : String) (fs : Fields) (P : Vis → Prop) :
    (∀ g ∈ (modeFields mode lt fs).fields, P g.vis) ↔ ∀ f ∈ fs.list, P f.vis := by
  cases mode <;> simp [modeFields, projField, projRefField, projOwnField]

theorem modeDef_vis (item : Item) (hv : VisValid (itemVis item)) (hf : ∀ f ∈ itemFields item, VisValid f.vis) (A : Args)
    (mode : Mode) (ident : String) :
    let d := modeDef A mode (itemVis item).visit ident (preGenerics item) (preVariants item)
    (VisValid d.vis ∧ ∀ v ∈ d.variants, ∀ f ∈ v.2.fields, VisValid f.vis) ↔
      isPubSelf (itemVis item) = false ∧ ∀ f ∈ itemFields item, isPubSelf f.vis = false := by
  intro d
  refine and_congr (visValid_determine.trans (visValid_visit hv)) ?_
  have hfv : ∀ v ∈ itemVariants item, ∀ f ∈ v.2.list, f ∈ itemFields item := by
    intro v hv f hf
    rw [itemFields_variants]
    exact List.mem_flatMap.2 ⟨v, hv, hf⟩
  constructor
  · intro hd f hf'
    obtain ⟨v, hv', hm⟩ := mem_variant_field hf'
    have := (modeFields_vis mode _ _ VisValid).1 (hd _ (List.mem_map_of_mem (List.mem_map_of_mem hv'))) (f.visit (itemSelfTy item))
      (by dsimp only; rw [list_visit]; exact List.mem_map_of_mem hm)
    exact (visValid_visit (hf f hf')).1 this
  · intro hno v hv'
    obtain ⟨x, hx, rfl⟩ := List.mem_map.1 hv'
    obtain ⟨y, hy, rfl⟩ := List.mem_map.1 hx
    refine (modeFields_vis mode _ _ VisValid).2 ?_
    dsimp only
    rw [list_visit]
    intro f hf'
    obtain ⟨g, hg, rfl⟩ := List.mem_map.1 hf'
    exact (visValid_visit (hf g (hfv y hy g hg))).2 (hno g (hfv y hy g hg))

theorem helperDef_vis (item : Item) (hv : VisValid (itemVis item)) (ident : String) :
    let d := helperDef item ident (preGenerics item)
    (VisValid d.vis ∧ ∀ v ∈ d.variants, ∀ f ∈ v.2.fields, VisValid f.vis) ↔ isPubSelf (itemVis item) = false := by
  intro d
  refine Iff.trans ⟨And.left, fun h => ⟨h, ?_⟩⟩ (visValid_visit hv)
  intro v hv' g hg
  obtain rfl := List.mem_singleton.1 hv'
  simp only [List.cons_append, List.mem_cons, List.mem_append, List.mem_mapIdx] at hg
  rcases hg with rfl | ⟨i, hi, rfl⟩ | ⟨i, hi, rfl⟩ <;> trivial

/-! ## C88 -/

theorem implementsAll_vis {fns : List GFn} {ss : List TraitFn} (h : ImplementsAll fns ss) : ∀ fn ∈ fns, fn.vis = .inherited := by
  induction h with
  | nil => intro fn hf; cases hf
  | cons h _ ih =>
    intro fn hf
    rcases List.mem_cons.1 hf with rfl | hf
    · exact h.1
    · exact ih fn hf

/-- **C88** If a definition that pin-project accepts compiles without the attribute, then what pin-project generates for it
compiles, unless it is one of the exceptions in `Unexceptional`: this is an exact list. -/
theorem C88_compiles_iff (U : Uses) (S : Sizes) (item : Item) (ident : String) (hs : SourceCompiles U S item ident)
    (E : Expansion) (h : parseDerive item = .ok E) (A : Args) (hA : parseArgs (itemAttrs item) = .ok A)
    (lt : String) (hlt : IsPinLifetime item lt) :
    Compiles U S item ident E ↔ Unexceptional S A item ident lt := by
  obtain rfl := (isPinLifetime_iff item lt).1 hlt
  have hlf := order_source hs.type_.params.order
  have hdefs := typeDefs_iff item E h hlf A hA ident hs.name
  have hnames := C44_names_distinct_iff item E h A hA ident hs.name hs.lex
  have hmode : ∀ mode, Offers A item mode →
      modeDef A mode (itemVis item).visit ident (preGenerics item) (preVariants item) ∈ typeDefs (allItems E) :=
    fun mode hm => (hdefs _).2 (.inl ⟨mode, hm, rfl⟩)
  have hhelp : A.unpinImpl = .default → helperDef item ident (preGenerics item) ∈ typeDefs (allItems E) :=
    fun hm => (hdefs _).2 (.inr ⟨hm, rfl⟩)
  have hreplace : Offers A item .replace → ∃ ps n as ws fns, GItem.inherent ps n as ws fns ∈ allItems E ∧
      ∃ fn ∈ fns, fn.name = "project_replace" := by
    intro hm
    obtain ⟨fn, hfn⟩ := Option.isSome_iff_exists.1 ((method_offered item E h A hA .replace).2 hm)
    have hname := List.find?_some hfn
    obtain ⟨i, hi, hf⟩ := List.mem_flatMap.1 (List.mem_of_find?_eq_some hfn)
    cases i with
    | inherent ps n as ws fns => exact ⟨ps, n, as, ws, fns, hi, fn, hf, eq_of_beq hname⟩
    | _ => cases hf
  have hoffer : ∀ ps n as ws fns, GItem.inherent ps n as ws fns ∈ allItems E → ∀ fn ∈ fns,
      ∃ mode, Offers A item mode ∧ fn.name = mode.fn ∧ VisValid fn.vis = VisValid (determineVisibility (itemVis item).visit) := by
    intro ps n as ws fns hm fn hf
    obtain ⟨-, -, -, -, mode, hmeth, hname, -⟩ := inherent_fns item E h ps n as ws fns hm fn hf
    obtain ⟨A', ident', -, -, -, -, hv, -⟩ := method_def item E h mode fn hmeth
    exact ⟨mode, (method_offered item E h A hA mode).1 (by rw [hmeth]; rfl), hname, by rw [hv]; rfl⟩
  constructor
  · intro hc
    refine ⟨hnames.1 hc.names, ?_, ?_, ?_, ?_, ?_, ?_⟩
    · rintro (hm | ⟨mode, hm⟩)
      · exact (helperDef_vis item hs.vis ident).1 (hc.vis _ (hhelp hm))
      · exact ((modeDef_vis item hs.vis hs.fields A mode ident).1 (hc.vis _ (hmode mode hm))).1
    · rintro ⟨mode, hm⟩
      exact ((modeDef_vis item hs.vis hs.fields A mode ident).1 (hc.vis _ (hmode mode hm))).2
    · rintro f hf (hm | hm | ⟨hm, hp⟩) hd
      · exact hc.lifetimes _ (hmode _ hm) ((modeDef_redeclares item hs.preds hs.lifetimes A .proj _ ident).2 ⟨nofun, f, hf, hd⟩)
      · exact hc.lifetimes _ (hmode _ hm) ((modeDef_redeclares item hs.preds hs.lifetimes A .projRef _ ident).2 ⟨nofun, f, hf, hd⟩)
      · exact hc.lifetimes _ (hhelp hm) ((helperDef_redeclares item hs.preds hs.lifetimes ident).2 ⟨f, hf, hp, hd⟩)
    · exact (C55_types item E h S hlf hs.sizes A hA).1 hc.sizes
    · intro hm
      obtain ⟨ps, n, as, ws, fns, hi, fn, hf, hn⟩ := hreplace hm
      exact (C55_methods item E h S hlf hs.sizes ps n as ws fns hi fn hf).1 (hc.fnSizes ps n as ws fns (.inl hi) fn hf) hn
    · intro hm
      obtain ⟨ps, n, as, ws, fns, hi, fn, hf, hn⟩ := hreplace hm
      exact (C52_methods_typed item E h hs.wf ps n as ws fns hi fn hf).1 (hc.bodies ps n as ws fns (.inl hi) fn hf) hn
  · intro hu
    have hrep : ∀ {ps n as ws fns}, GItem.inherent ps n as ws fns ∈ allItems E → ∀ fn ∈ fns,
        fn.name = "project_replace" → Offers A item .replace := by
      intro ps n as ws fns hm fn hf hn
      obtain ⟨mode, hmode, hname, -⟩ := hoffer ps n as ws fns hm fn hf
      rw [hn] at hname
      cases mode
      · exact absurd hname (by decide)
      · exact absurd hname (by decide)
      · exact hmode
    refine ⟨hnames.2 hu.names, ?_, ?_, ?_, C53_types item E h U hs.type_, ?_, ?_,
      (C55_types item E h S hlf hs.sizes A hA).2 hu.tail, ?_, ?_, ?_⟩
    · intro d hd
      rcases (hdefs d).1 hd with ⟨mode, hm, rfl⟩ | ⟨hm, rfl⟩
      · exact (modeDef_vis item hs.vis hs.fields A mode ident).2 ⟨hu.vis (.inr ⟨mode, hm⟩), hu.fields ⟨mode, hm⟩⟩
      · exact (helperDef_vis item hs.vis ident).2 (hu.vis (.inl hm))
    · intro i hi fn hf
      cases i with
      | inherent ps n as ws fns =>
        obtain ⟨mode, hm, -, hv⟩ := hoffer ps n as ws fns hi fn hf
        rw [hv, visValid_determine, visValid_visit hs.vis]
        exact hu.vis (.inr ⟨mode, hm⟩)
      | traitImpl hidden u ps tr n as ws fns =>
        rw [implementsAll_vis (C59_impls item E h A hA hidden u ps tr n as ws fns hi).2.1 fn hf]
        trivial
      | _ => cases hf
    · intro d hd hr
      rcases (hdefs d).1 hd with ⟨mode, hm, rfl⟩ | ⟨hm, rfl⟩
      · obtain ⟨hne, f, hf, hdec⟩ := (modeDef_redeclares item hs.preds hs.lifetimes A mode _ ident).1 hr
        cases mode
        · exact hu.lifetimes f hf (.inl hm) hdec
        · exact hu.lifetimes f hf (.inr (.inl hm)) hdec
        · exact hne rfl
      · obtain ⟨f, hf, hp, hdec⟩ := (helperDef_redeclares item hs.preds hs.lifetimes ident).1 hr
        exact hu.lifetimes f hf (.inr (.inr ⟨hm, hp⟩)) hdec
    · exact fun i hi ps as ws hg => C53_impls item E h U hs.type_ i hi ps as ws hg
    · exact fun d hd => (C57_types item E h U hs.type_ d hd).1
    · rintro ps n as ws fns (hi | ⟨hidden, u, tr, hi⟩) fn hf
      · exact (C55_methods item E h S hlf hs.sizes ps n as ws fns hi fn hf).2 (fun hn => hu.replaceSized (hrep hi fn hf hn))
      · exact C55_impls item E h S hidden u ps tr n as ws fns hi fn hf
    · rintro ps n as ws fns (hi | ⟨hidden, u, tr, hi⟩) fn hf
      · exact (C52_methods_typed item E h hs.wf ps n as ws fns hi fn hf).2 (fun hn => hu.replaceNames (hrep hi fn hf hn))
      · exact C52_impls_typed item E h hidden u ps tr n as ws fns hi fn hf
    · intro hidden u ps tr n as ws fns hi
      have := C59_impls item E h A hA hidden u ps tr n as ws fns hi
      exact ⟨this.1, this.2.1⟩

/-- **C88** In particular: with no arguments but `UnsafeUnpin`, `!Unpin` and `PinnedDrop`, the generated code compiles if the
definition is `Sized` and neither `pub(self)` nor `for<'pin>` occurs in it. -/
theorem C88_usual (U : Uses) (S : Sizes) (item : Item) (ident : String) (hs : SourceCompiles U S item ident)
    (E : Expansion) (h : parseDerive item = .ok E) (A : Args) (hA : parseArgs (itemAttrs item) = .ok A)
    (hargs : A.project = none ∧ A.projectRef = none ∧ A.projectReplace = .none)
    (hvis : isPubSelf (itemVis item) = false ∧ ∀ f ∈ itemFields item, isPubSelf f.vis = false)
    (hpin : ∀ f ∈ itemFields item, ∀ l, Declares f.ty l → ¬ "'pin".toList <+: l.toList)
    (hsized : SelfSized S item (itemParams item) (itemPreds item)) : Compiles U S item ident E := by
  refine (C88_compiles_iff U S item ident hs E h A hA _ ((isPinLifetime_iff item _).2 rfl)).2 ?_
  have hnone : userNames A = [] := by simp [userNames, hargs.1, hargs.2.1, hargs.2.2, ProjReplace.ident]
  refine ⟨?_, fun _ => hvis.1, fun _ => hvis.2, ?_, ?_, fun _ => hsized, fun hr => absurd hargs.2.2 hr⟩
  · rw [hnone]
    exact ⟨by simp, fun _ hn => (by cases hn)⟩
  · intro f hf _ hd
    obtain ⟨k, hk, -⟩ := (isPinLifetime_iff item _).2 rfl
    exact hpin f hf _ hd ⟨_, hk.symm⟩
  · rintro ⟨-, -, fs, hfs, f, hl, -, hno⟩
    exact hno (hsized _ hfs f hl)

/-! ## Examples -/

/-- `#[pin_project(args)] v struct W<'a: 'static, T: Tr = u8, const N: usize> where T: Copy { #[pin] x: T, y: &'a u8, r#type: [u8; N] }` -/
def demoCompiles (args : List TT) (v : Vis) : Item := .struct_ { demoWF with attrs := [pinPrivateAttr args], vis := v }

/-- All types are `Sized`. -/
def allSized : Sizes where
  user := fun _ _ _ => True
  mono := fun _ _ _ _ _ _ _ h => h
  lifetime := fun _ _ _ _ h => h

theorem demoCompiles_declares (args : List TT) (v : Vis) (n : Node) (hn : n ∈ itemNodes (demoCompiles args v)) (l : String) :
    ¬ Declares n l := by
  rw [← Node.mem_binders]
  have : ∀ n ∈ itemNodes (.struct_ demoWF), n.binders = [] := by decide
  rw [this n hn]
  simp

theorem demoCompiles_source (args : List TT) (v : Vis) (hv : VisValid v) :
    SourceCompiles demoUses allSized (demoCompiles args v) "W" where
  name := rfl
  lex := by decide
  wf := ⟨by rintro x fs ⟨-, rfl⟩; simp [Fields.WF, demoWF], fun _ h => by cases h⟩
  type_ := ⟨demoWF_wf.params, demoWF_wf.preds, demoWF_wf.fields, demoWF_wf.used, demoWF_wf.variants, demoWF_wf.labels⟩
  sizes := by
    refine ⟨fun fs hfs f hf => ?_, fun n fs hfs => ?_⟩
    · obtain ⟨-, rfl⟩ := Prod.mk.inj (List.mem_singleton.1 hfs)
      have hf := (List.dropLast_sublist _).subset hf
      obtain ⟨g, -, rfl⟩ := List.mem_map.1 hf
      exact .user trivial
    · cases List.mem_singleton.1 hfs
  lifetimes := by
    rintro ⟨l, bs, -, n, hn, hd⟩
    exact demoCompiles_declares args v n hn l hd
  preds := by
    intro w hw
    obtain rfl := List.mem_singleton.1 hw
    exact ⟨_, rfl⟩
  vis := hv
  fields := by
    intro f hf
    simp only [itemFields, demoCompiles, demoWF, Fields.list, List.mem_cons, List.not_mem_nil, or_false] at hf
    rcases hf with rfl | rfl | rfl <;> trivial

/-- It compiles with `#[pin_project]`, .. -/
example : ∃ E, parseDerive (demoCompiles [] .pub) = .ok E ∧ Compiles demoUses allSized (demoCompiles [] .pub) "W" E := by
  refine ⟨_, rfl, C88_usual _ _ _ _ (demoCompiles_source [] .pub trivial) _ rfl {} rfl ⟨rfl, rfl, rfl⟩ ⟨rfl, ?_⟩ ?_ ?_⟩
  · intro f hf
    simp only [itemFields, demoCompiles, demoWF, Fields.list, List.mem_cons, List.not_mem_nil, or_false] at hf
    rcases hf with rfl | rfl | rfl <;> rfl
  · intro f hf l hd
    exact absurd hd (demoCompiles_declares [] .pub f.ty (List.mem_append_right _ (List.mem_map_of_mem hf)) l)
  · intro v hv f hf
    trivial

/-- .. but not when it is `pub(self)`, .. -/
example : ∃ E, parseDerive (demoCompiles [] (.restricted false { segs := ["self"] })) = .ok E ∧
    ¬ Compiles demoUses allSized (demoCompiles [] (.restricted false { segs := ["self"] })) "W" E := by
  refine ⟨_, rfl, fun hc => ?_⟩
  have hu := (C88_compiles_iff _ _ _ _ (demoCompiles_source [] (.restricted false { segs := ["self"] }) ⟨rfl, "self", by decide, rfl⟩) _ rfl {} rfl _
    ((isPinLifetime_iff _ _).2 rfl)).1 hc
  exact absurd (hu.vis (.inl rfl)) (by decide)

/-- .. and not with `#[pin_project(project = __WProjectionRef)]`. -/
example : ∃ E, parseDerive (demoCompiles [.ident "project", .punct '=' false, .ident "__WProjectionRef"] .pub) = .ok E ∧
    ¬ Compiles demoUses allSized (demoCompiles [.ident "project", .punct '=' false, .ident "__WProjectionRef"] .pub) "W" E := by
  refine ⟨_, rfl, fun hc => ?_⟩
  have hu := (C88_compiles_iff _ _ _ _ (demoCompiles_source _ .pub trivial) _ rfl { project := some "__WProjectionRef" } rfl _
    ((isPinLifetime_iff _ _).2 rfl)).1 hc
  exact hu.names.2 "__WProjectionRef" (.head _) (by decide)

end PinProject
