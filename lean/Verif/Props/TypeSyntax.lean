import Verif.Spec.TypeSyntax
import Verif.Props.SelfTypes
/-!
# The types in generated items: C63, C64
-/
namespace PinProject
open Spec

/-- A type in the scope of parameters `ps` follows the grammar and is not taken for a parameter. -/
def FineTy (x : List GParam × GTy) : Prop :=
  (∀ plus, TypeSyntax plus false x.2) ∧ ∀ y ∈ tyNames x.2, ¬ Hijacked x.1 y.1 y.2

/-- What the proofs need to know about the context. -/
structure CtxTys (cx : Ctx) : Prop where
  preds : cx.generics.preds.flatMap predTys = []
  projPreds : cx.projGenerics.preds.flatMap predTys = []
  projWhere : cx.projWhere.flatMap predTys = [.adt cx.ident cx.generics.tyGenerics]
  empty : cx.generics.tyGenerics.length = 0 →
    typeParamNames cx.generics.implGenerics = [] ∧ typeParamNames cx.generics.defParams = [] ∧
    typeParamNames cx.projGenerics.implGenerics = [] ∧ typeParamNames cx.projGenerics.defParams = []
  proj : cx.projGenerics.tyGenerics.length ≠ 0

theorem not_hijacked_of_args {ps : List GParam} {n : String} {k : Nat} (h : k ≠ 0) : ¬ Hijacked ps n k := fun h' => h h'.2

theorem not_hijacked_of_params {ps : List GParam} {n : String} {k : Nat} (h : k = 0 → typeParamNames ps = []) :
    ¬ Hijacked ps n k := by
  rintro ⟨⟨x, hx, -⟩, hk⟩
  rw [h hk] at hx
  cases hx

theorem fine_adt {ps : List GParam} {n : String} {as : List GArg} (h : as.length = 0 → typeParamNames ps = []) :
    FineTy (ps, .adt n as) := by
  refine ⟨fun _ => .adt, ?_⟩
  intro y hy
  simp only [tyNames, List.mem_singleton] at hy
  subst hy
  exact not_hijacked_of_params h

theorem fine_other {ps : List GParam} {t : GTy} (h : ∀ plus, TypeSyntax plus false t) (hn : tyNames t = []) : FineTy (ps, t) :=
  ⟨h, by rw [hn]; exact nofun⟩

theorem fine_projField {ps : List GParam} (lt : String) (f : Field) :
    FineTy (ps, (projField lt f).ty) ∧ FineTy (ps, (projRefField lt f).ty) ∧ FineTy (ps, (projOwnField f).ty) := by
  have hu : ∀ plus, TypeSyntax plus false (.user f.ty) := fun _ => .user nofun
  unfold projField projRefField projOwnField
  refine ⟨?_, ?_, ?_⟩ <;> split <;> refine fine_other (fun plus => ?_) rfl
  · exact .pin (.ref (.paren (hu plus)))
  · exact .ref (.paren (hu plus))
  · exact .pin (.ref (.paren (hu plus)))
  · exact .ref (.paren (hu plus))
  · exact .phantomData (hu plus)
  · exact hu plus

/-- All types of an item are fine. -/
def FineItem (i : GItem) : Prop := ∀ x ∈ scopedTys i, FineTy x

theorem fine_struct {attrs : List String} {vis : Vis} {n : String} {ps : List GParam} {ws : List WPred} {fs : GFields}
    (hw : ∀ t ∈ ws.flatMap predTys, FineTy (ps, t)) (hf : ∀ f ∈ fs.fields, FineTy (ps, f.ty)) :
    FineItem (.struct_ attrs vis n ps ws fs) := by
  intro x hx
  simp only [scopedTys, List.mem_map, List.mem_append] at hx
  obtain ⟨t, ht | ⟨f, hf', rfl⟩, rfl⟩ := hx
  · exact hw t ht
  · exact hf f hf'

theorem fine_enum {attrs : List String} {vis : Vis} {n : String} {ps : List GParam} {ws : List WPred}
    {vs : List (String × GFields)} (hw : ∀ t ∈ ws.flatMap predTys, FineTy (ps, t))
    (hf : ∀ v ∈ vs, ∀ f ∈ v.2.fields, FineTy (ps, f.ty)) : FineItem (.enum_ attrs vis n ps ws vs) := by
  intro x hx
  simp only [scopedTys, List.mem_map, List.mem_append, List.mem_flatMap (f := fun v : String × GFields => v.2.fields.map GField.ty)] at hx
  obtain ⟨t, ht | ⟨v, hv, f, hf', rfl⟩, rfl⟩ := hx
  · exact hw t ht
  · exact hf v hv f hf'

theorem fine_where {cx : Ctx} (h : CtxTys cx) :
    (∀ t ∈ cx.projWhere.flatMap predTys, FineTy (cx.projGenerics.defParams, t)) ∧
    (∀ ps, ∀ t ∈ cx.generics.preds.flatMap predTys, FineTy (ps, t)) := by
  constructor
  · rw [h.projWhere]
    intro t ht
    rw [List.mem_singleton] at ht
    subst ht
    exact fine_adt (fun e => (h.empty e).2.2.2)
  · intro ps
    rw [h.preds]
    exact nofun

theorem fine_defs {cx : Ctx} (h : CtxTys cx) (fs : Fields) (vs : List Variant) :
    FineItem (projItemS cx fs) ∧ FineItem (refItemS cx fs) ∧ FineItem (ownItemS cx fs) ∧
    FineItem (projItemE cx vs) ∧ FineItem (refItemE cx vs) ∧ FineItem (ownItemE cx vs) := by
  obtain ⟨hw, hw'⟩ := fine_where h
  refine ⟨?_, ?_, ?_, ?_, ?_, ?_⟩
  · refine fine_struct hw (fun f hf => ?_)
    obtain ⟨f', -, rfl⟩ := List.mem_map.1 hf
    exact (fine_projField _ f').1
  · refine fine_struct hw (fun f hf => ?_)
    obtain ⟨f', -, rfl⟩ := List.mem_map.1 hf
    exact (fine_projField _ f').2.1
  · refine fine_struct (hw' _) (fun f hf => ?_)
    obtain ⟨f', -, rfl⟩ := List.mem_map.1 hf
    exact (fine_projField "" f').2.2
  · refine fine_enum hw (fun v hv f hf => ?_)
    obtain ⟨v', -, rfl⟩ := List.mem_map.1 hv
    obtain ⟨f', -, rfl⟩ := List.mem_map.1 hf
    exact (fine_projField _ f').1
  · refine fine_enum hw (fun v hv f hf => ?_)
    obtain ⟨v', -, rfl⟩ := List.mem_map.1 hv
    obtain ⟨f', -, rfl⟩ := List.mem_map.1 hf
    exact (fine_projField _ f').2.1
  · refine fine_enum (hw' _) (fun v hv f hf => ?_)
    obtain ⟨v', -, rfl⟩ := List.mem_map.1 hv
    obtain ⟨f', -, rfl⟩ := List.mem_map.1 hf
    exact (fine_projField "" f').2.2

theorem fine_impl {ps : List GParam} {n : String} {as : List GArg} {ws : List WPred} {fns : List GFn}
    (ha : FineTy (ps, .adt n as)) (hw : ∀ t ∈ ws.flatMap predTys, FineTy (ps, t))
    (hf : ∀ f ∈ fns, ∀ t ∈ fnTys f, FineTy (ps, t)) :
    ∀ x ∈ ((GTy.adt n as :: ws.flatMap predTys ++ fns.flatMap fnTys).map (fun t => (ps, t))), FineTy x := by
  intro x hx
  simp only [List.mem_map, List.cons_append, List.mem_cons, List.mem_append] at hx
  obtain ⟨t, rfl | ht | ht, rfl⟩ := hx
  · exact ha
  · exact hw t ht
  · obtain ⟨f, hf', ht⟩ := List.mem_flatMap.1 ht
    exact hf f hf' t ht

theorem fine_assert {cx : Ctx} (h : CtxTys cx) (fs : Fields) : FineItem (assertItem cx fs) := by
  intro x hx
  simp only [assertItem, scopedTys, h.preds, List.map_cons, List.map_nil, List.mem_singleton] at hx
  subst hx
  refine ⟨fun _ => .ref .adt, ?_⟩
  intro y hy
  simp only [tyNames, List.mem_singleton] at hy
  subst hy
  exact not_hijacked_of_params (fun e => (h.empty e).1)

theorem fine_self {ps : List GParam} (lt : Option String) (b : Bool) (r : Root) :
    FineTy (ps, .selfTy) ∧ FineTy (ps, .ref lt b .selfTy) ∧ FineTy (ps, .pin r (.ref lt b .selfTy)) ∧ FineTy (ps, .unit) :=
  ⟨fine_other (fun _ => .selfTy) rfl, fine_other (fun _ => .ref .selfTy) rfl, fine_other (fun _ => .pin (.ref .selfTy)) rfl,
    fine_other (fun _ => .unit) rfl⟩

theorem fine_projImpl {cx : Ctx} (h : CtxTys cx) (a b c : GBody) : FineItem (makeProjImpl cx a b c) := by
  refine fine_impl (fine_adt (fun e => (h.empty e).1)) ((fine_where h).2 _) ?_
  intro f hf t ht
  simp only [List.mem_append, List.mem_ite_nil_left, List.mem_singleton] at hf
  rcases hf with (⟨-, rfl⟩ | ⟨-, rfl⟩) | ⟨-, rfl⟩
  · simp only [fnTys, List.map_nil, List.mem_cons, List.not_mem_nil, or_false] at ht
    rcases ht with rfl | rfl
    · exact (fine_self _ _ _).2.2.1
    · exact fine_adt (fun e => absurd e h.proj)
  · simp only [fnTys, List.map_nil, List.mem_cons, List.not_mem_nil, or_false] at ht
    rcases ht with rfl | rfl
    · exact (fine_self _ _ _).2.2.1
    · exact fine_adt (fun e => absurd e h.proj)
  · simp only [fnTys, List.map_nil, List.map_cons, List.mem_cons, List.not_mem_nil, or_false] at ht
    rcases ht with rfl | rfl | rfl
    · exact (fine_self _ _ _).2.2.1
    · exact fine_adt (fun e => (h.empty e).1)
    · exact (fine_self none true .abs).1

theorem fine_boundImpl {a b : Bool} {ps : List GParam} {tr tr' : GTrait} {n : String} {as : List GArg} {ws : List WPred} {t : GTy}
    (hs : FineTy (ps, .adt n as)) (hw : ws.flatMap predTys = []) (ht : FineTy (ps, t)) :
    FineItem (.traitImpl a b ps tr n as (ws ++ [.bound t tr']) []) := by
  refine fine_impl hs ?_ nofun
  intro s hs
  rw [List.flatMap_append, hw] at hs
  simp only [List.nil_append, List.flatMap_cons, List.flatMap_nil, List.append_nil, predTys, List.mem_singleton] at hs
  subst hs
  exact ht

theorem fine_unpin {cx : Ctx} (h : CtxTys cx) (tys : List Node) : ∀ i ∈ makeUnpinImpl cx tys, FineItem i := by
  have hself : FineTy (cx.projGenerics.implGenerics, .adt cx.ident cx.generics.tyGenerics) :=
    fine_adt (fun e => (h.empty e).2.2.1)
  have hpp : FineTy (cx.projGenerics.implGenerics, .pinnedFieldsOf (.wrapper cx.lifetime .phantomPinned)) :=
    fine_other (fun _ => .pinnedFieldsOf (.wrapper .phantomPinned)) rfl
  have hps : FineTy (cx.projGenerics.implGenerics, .pinnedFieldsOf (.wrapper cx.lifetime .selfTy)) :=
    fine_other (fun _ => .pinnedFieldsOf (.wrapper .selfTy)) rfl
  have hadt : FineTy (cx.projGenerics.implGenerics,
      .pinnedFieldsOf (.adt ("__" ++ unraw cx.ident) cx.projGenerics.tyGenerics)) := by
    refine ⟨fun _ => .pinnedFieldsOf .adt, ?_⟩
    intro y hy
    simp only [tyNames, List.mem_singleton] at hy
    subst hy
    exact not_hijacked_of_args h.proj
  unfold makeUnpinImpl
  split
  · intro i hi
    rw [List.mem_singleton] at hi
    subst hi
    exact fine_boundImpl hself h.projPreds hps
  · intro i hi
    simp only [List.mem_cons, List.not_mem_nil, or_false] at hi
    rcases hi with rfl | rfl
    · exact fine_boundImpl hself h.projPreds hpp
    · exact fine_boundImpl hself h.projPreds hpp
  · intro i hi
    simp only [List.mem_cons, List.not_mem_nil, or_false] at hi
    rcases hi with rfl | rfl | rfl
    · refine fine_struct ((fine_where h).2 _) (fun f hf => ?_)
      simp only [List.cons_append, List.mem_cons, List.mem_append, List.mem_mapIdx] at hf
      rcases hf with rfl | ⟨i, hi, rfl⟩ | ⟨i, hi, rfl⟩
      · exact fine_other (fun _ => .alwaysUnpin) rfl
      · exact fine_other (fun _ => .user nofun) rfl
      · exact fine_other (fun _ => .ref .unit) rfl
    · exact fine_boundImpl hself h.preds hadt
    · exact fine_boundImpl hself h.preds hadt

theorem fine_drop {cx : Ctx} (h : CtxTys cx) : ∀ i ∈ makeDropImpl cx, FineItem i := by
  have hself : FineTy (cx.generics.implGenerics, .adt cx.ident cx.generics.tyGenerics) :=
    fine_adt (fun e => (h.empty e).1)
  unfold makeDropImpl
  split
  · intro i hi
    rw [List.mem_singleton] at hi
    subst hi
    refine fine_impl hself ((fine_where h).2 _) ?_
    intro f hf t ht
    rw [List.mem_singleton] at hf
    subst hf
    simp only [fnTys, List.map_nil, List.mem_cons, List.not_mem_nil, or_false] at ht
    rcases ht with rfl | rfl
    · exact (fine_self _ _ .abs).2.1
    · exact (fine_self none true .abs).2.2.2
  · intro i hi
    simp only [List.mem_cons, List.not_mem_nil, or_false] at hi
    rcases hi with rfl | rfl | rfl | rfl
    · exact nofun
    · intro x hx
      simp only [scopedTys, List.mem_singleton] at hx
      subst hx
      exact fine_other (fun _ => .param) rfl
    · exact fine_impl hself ((fine_where h).2 _) nofun
    · refine fine_impl hself ((fine_where h).2 _) ?_
      intro f hf t ht
      rw [List.mem_singleton] at hf
      subst hf
      simp only [fnTys, List.map_nil, List.mem_cons, List.not_mem_nil, or_false] at ht
      rcases ht with rfl | rfl
      · exact (fine_self _ _ _).2.2.1
      · exact (fine_self none true .abs).2.2.2

theorem ctxTys_mk (A : Args) (attrs : List Attribute) (vis : Vis) (ident : String) (g : Generics) (kind : TypeKind)
    (hg : ∀ w ∈ g.preds, ∃ n, w = .user n) : CtxTys (mkCtx A attrs vis ident g kind) := by
  have hp : g.preds.flatMap predTys = [] := by
    rw [List.flatMap_eq_nil_iff]
    intro w hw
    obtain ⟨n, rfl⟩ := hg w hw
    rfl
  refine ⟨hp, hp, ?_, ?_, ?_⟩
  · change (g.preds ++ [WPred.outlives (.adt ident g.tyGenerics) _]).flatMap predTys = _
    rw [List.flatMap_append, hp]
    rfl
  · intro he
    have he' : g.tyGenerics.length = 0 := he
    have hparams : g.params = [] := by
      rw [← defParams_args, List.length_map, List.length_eq_zero_iff] at he'
      cases hq : g.params with
      | nil => rfl
      | cons p ps =>
        simp only [Generics.defParams, List.append_eq_nil_iff, List.filter_eq_nil_iff, hq] at he'
        have h1 := he'.1 p (.head _)
        have h2 := he'.2 p (.head _)
        cases hl : p.isLifetime <;> simp [hl] at h1 h2
    simp only [mkCtx]
    refine ⟨?_, ?_, ?_, ?_⟩ <;>
      simp [Generics.implGenerics, Generics.defParams, Generics.makeWhere, Generics.insertLifetime, hparams, typeParamNames,
        GParam.isLifetime, GParam.noDefault]
  · change (g.insertLifetime _).tyGenerics.length ≠ 0
    rw [tyGenerics_insert]
    simp

/-- All types in the expansion. -/
theorem expansion_fine (item : Item) (E : Expansion) (h : parseDerive item = .ok E)
    (hs : ∀ w ∈ itemPreds item, ∃ n, w = .user n) : ∀ i ∈ allItems E, FineItem i := by
  have hs' : ∀ w ∈ (preGenerics item).preds, ∃ n, w = .user n := by rw [preGenerics_preds]; exact hs
  cases item with
  | other a => simp [parseDerive] at h
  | struct_ s =>
    obtain ⟨A, -, -, -, -, -, -, rfl⟩ := (deriveStruct_iff s E).1 h
    have hc : CtxTys (s.ctx A) := ctxTys_mk A _ _ _ _ _ hs'
    obtain ⟨f1, f2, f3, -⟩ := fine_defs hc s.pre.fields []
    intro i hi
    simp only [allItems, structExpansion, List.mem_append, List.mem_singleton, List.mem_ite_nil_left,
      List.mem_ite_nil_right] at hi
    rcases hi with ((⟨_, rfl⟩ | ⟨_, rfl⟩) | ⟨_, _, rfl⟩) | ((((((⟨_, rfl⟩ | ⟨_, rfl⟩) | ⟨_, _, rfl⟩) | rfl) | rfl) | hi) | hi)
    · exact f1
    · exact f2
    · exact f3
    · exact f1
    · exact f2
    · exact f3
    · exact fine_projImpl hc _ _ _
    · exact fine_assert hc _
    · exact fine_unpin hc _ i hi
    · exact fine_drop hc i hi
  | enum_ s =>
    obtain ⟨A, -, -, -, -, -, -, -, rfl⟩ := (deriveEnum_iff s E).1 h
    have hc : CtxTys (s.ctx A) := ctxTys_mk A _ _ _ _ _ hs'
    obtain ⟨-, -, -, f1, f2, f3⟩ := fine_defs hc .unit s.pre.variants
    intro i hi
    simp only [allItems, enumExpansion, List.mem_append, List.mem_singleton,
      List.mem_ite_nil_right] at hi
    rcases hi with ((⟨_, rfl⟩ | ⟨_, rfl⟩) | ⟨_, rfl⟩) | ((rfl | hi) | hi)
    · exact f1
    · exact f2
    · exact f3
    · exact fine_projImpl hc _ _ _
    · exact fine_unpin hc _ i hi
    · exact fine_drop hc i hi

/-- **C63** A type parameter of the annotated type that is called like a generated type, or like the annotated type
itself, never silently takes its place: wherever the expansion names such a type in the scope of the
parameter, it gives it arguments, so rustc reports an error. -/
theorem C63_never_silent (item : Item) (E : Expansion) (h : parseDerive item = .ok E)
    (hs : ∀ w ∈ itemPreds item, ∃ n, w = .user n) (i : GItem) (hi : i ∈ allItems E)
    (ps : List GParam) (t : GTy) (ht : (ps, t) ∈ scopedTys i) (n : String) (k : Nat) (hn : (n, k) ∈ tyNames t) :
    ¬ Hijacked ps n k :=
  (expansion_fine item E h hs i hi _ ht).2 _ hn

/-- **C64** Fields may have types of any syntactic form: every type in the expansion follows the grammar of
types, also when field types contain a `+` (`dyn A + B`). -/
theorem C64_grammar (item : Item) (E : Expansion) (h : parseDerive item = .ok E)
    (hs : ∀ w ∈ itemPreds item, ∃ n, w = .user n) (i : GItem) (hi : i ∈ allItems E)
    (ps : List GParam) (t : GTy) (ht : (ps, t) ∈ scopedTys i) (plus : Node → Prop) : TypeSyntax plus false t :=
  (expansion_fine item E h hs i hi _ ht).1 plus

/-- `struct S<__SProjection> { #[pin] a: __SProjection, b: dyn A + B }` -/
def demoHijack : ItemStruct where
  attrs := [pinPrivateAttr []]
  vis := .inherited
  ident := "S"
  generics := { params := [.type "__SProjection" [] none] }
  fields := .named [
    { attrs := [⟨.path { segs := ["pin"] }⟩], ident := some "a", ty := .tyIdent "__SProjection" },
    { attrs := [], ident := some "b", ty := .other "dyn A + B" [] }]

/-- `fn project` returns `__SProjection<'pin, __SProjection>` where the first name is taken for the parameter:
an error, but nothing is silently replaced. -/
example : ∃ E, parseDerive (.struct_ demoHijack) = .ok E ∧
    (∀ w ∈ itemPreds (.struct_ demoHijack), ∃ n, w = .user n) ∧
    ∃ i ∈ allItems E, ∃ ps t, (ps, t) ∈ scopedTys i ∧ ("__SProjection", 2) ∈ tyNames t ∧
      Hijacked ps "__SProjection" 0 := by
  refine ⟨_, rfl, nofun, _, List.mem_of_getElem? (i := 2) rfl, _, _, List.mem_of_getElem? (i := 2) rfl, .head _,
    ⟨"__SProjection", .head _, rfl⟩, rfl⟩

/-- The field `b` is projected to `&'pin mut (dyn A + B)`; without the parentheses it would not be a
type. -/
example : (∃ E, parseDerive (.struct_ demoHijack) = .ok E ∧ ∃ i ∈ allItems E, ∃ ps lt,
      (ps, GTy.ref lt true (.paren (.user (.other "dyn A + B" [])))) ∈ scopedTys i) ∧
    ¬ TypeSyntax (fun n => n = .other "dyn A + B" []) false (.ref (some "'pin") true (.user (.other "dyn A + B" []))) := by
  refine ⟨⟨_, rfl, _, List.mem_of_getElem? (i := 0) rfl, _, _, List.mem_of_getElem? (i := 2) rfl⟩, ?_⟩
  intro h
  cases h with
  | ref h => cases h with
    | user h => exact h rfl rfl

end PinProject
