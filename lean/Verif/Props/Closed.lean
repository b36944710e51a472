import Verif.Props.DeriveLemmas
import Verif.Props.ReprLemmas
/-!
# Closed forms for `parse_struct`, `parse_enum` and `parse_derive`
-/
namespace PinProject
open Spec

def projMutBodyS (cx : Ctx) (fields : Fields) : GBody :=
  let pf := projectedOf cx none fields
  ⟨[.letPat pf.projPat (.getUncheckedMut "self")],
   .expr (.ctor ⟨cx.mutIdent, none, pf.projBody.1, pf.projBody.2⟩)⟩
def projRefBodyS (cx : Ctx) (fields : Fields) : GBody :=
  let pf := projectedOf cx none fields
  ⟨[.letPat pf.projPat (.getRef "self")],
   .expr (.ctor ⟨cx.refIdent, none, pf.projBody.1, pf.projBody.2⟩)⟩
def projOwnBodyS (cx : Ctx) (fields : Fields) : GBody :=
  let pf := projectedOf cx none fields
  ⟨.letPat pf.projPat (.reborrow "__self_ptr") :: pf.projOwnBody.1, .expr pf.projOwnBody.2⟩

def projItemS (cx : Ctx) (fields : Fields) : GItem :=
  .struct_ (projAllowedLints cx).1 cx.projVis cx.mutIdent cx.projGenerics.defParams cx.projWhere
    (projectedOf cx none fields).projFields
def refItemS (cx : Ctx) (fields : Fields) : GItem :=
  .struct_ (projAllowedLints cx).2.1 cx.projVis cx.refIdent cx.projGenerics.defParams cx.projWhere
    (projectedOf cx none fields).projRefFields
def ownItemS (cx : Ctx) (fields : Fields) : GItem :=
  .struct_ (projAllowedLints cx).2.2 cx.projVis cx.ownIdent cx.generics.defParams
    cx.generics.preds (projectedOf cx none fields).projOwnFields

def assertItem (cx : Ctx) (fields : Fields) : GItem :=
  .assertNotPacked cx.generics.implGenerics cx.ident cx.generics.tyGenerics cx.generics.preds
    (fieldRefs fields)

def implItemS (cx : Ctx) (fields : Fields) : GItem :=
  makeProjImpl cx (projMutBodyS cx fields) (projRefBodyS cx fields) (projOwnBodyS cx fields)

/-- The whole expansion of a struct. -/
def structExpansion (cx : Ctx) (fields : Fields) : Expansion where
  exposed :=
    (if cx.project then [projItemS cx fields] else []) ++
    (if cx.projectRef then [refItemS cx fields] else []) ++
    (if cx.projectReplace.ident.isSome then
      if cx.projectReplace.isSome then [ownItemS cx fields] else [] else [])
  inScope :=
    ((if cx.project then [] else [projItemS cx fields]) ++
     (if cx.projectRef then [] else [refItemS cx fields]) ++
     (if cx.projectReplace.ident.isSome then [] else
       if cx.projectReplace.isSome then [ownItemS cx fields] else []) ++
     [implItemS cx fields] ++ [assertItem cx fields]) ++
    makeUnpinImpl cx (pinnedTys fields.list) ++ makeDropImpl cx

def armMut (cx : Ctx) (v : Variant) : GArm :=
  let pf := projectedOf cx (some v.ident) v.fields
  ⟨pf.projPat, [], .ctor ⟨cx.mutIdent, some v.ident, pf.projBody.1, pf.projBody.2⟩⟩
def armRef (cx : Ctx) (v : Variant) : GArm :=
  let pf := projectedOf cx (some v.ident) v.fields
  ⟨pf.projPat, [], .ctor ⟨cx.refIdent, some v.ident, pf.projBody.1, pf.projBody.2⟩⟩
def armOwn (cx : Ctx) (v : Variant) : GArm :=
  let pf := projectedOf cx (some v.ident) v.fields
  ⟨pf.projPat, pf.projOwnBody.1, pf.projOwnBody.2⟩

def projMutBodyE (cx : Ctx) (vs : List Variant) : GBody :=
  ⟨[], .match_ (.getUncheckedMut "self") (vs.map (armMut cx))⟩
def projRefBodyE (cx : Ctx) (vs : List Variant) : GBody :=
  ⟨[], .match_ (.getRef "self") (vs.map (armRef cx))⟩
def projOwnBodyE (cx : Ctx) (vs : List Variant) : GBody :=
  ⟨[], .match_ (.reborrow "__self_ptr") (vs.map (armOwn cx))⟩

def projItemE (cx : Ctx) (vs : List Variant) : GItem :=
  .enum_ (projAllowedLints cx).1 cx.projVis cx.mutIdent cx.projGenerics.defParams cx.projWhere
    (vs.map (fun v => (v.ident, (projectedOf cx (some v.ident) v.fields).projFields)))
def refItemE (cx : Ctx) (vs : List Variant) : GItem :=
  .enum_ (projAllowedLints cx).2.1 cx.projVis cx.refIdent cx.projGenerics.defParams cx.projWhere
    (vs.map (fun v => (v.ident, (projectedOf cx (some v.ident) v.fields).projRefFields)))
def ownItemE (cx : Ctx) (vs : List Variant) : GItem :=
  .enum_ (projAllowedLints cx).2.2 cx.projVis cx.ownIdent cx.generics.defParams cx.generics.preds
    (vs.map (fun v => (v.ident, (projectedOf cx (some v.ident) v.fields).projOwnFields)))

def implItemE (cx : Ctx) (vs : List Variant) : GItem :=
  makeProjImpl cx (projMutBodyE cx vs) (projRefBodyE cx vs) (projOwnBodyE cx vs)

/-- The whole expansion of an enum. -/
def enumExpansion (cx : Ctx) (vs : List Variant) : Expansion where
  exposed :=
    (if cx.project then [projItemE cx vs] else []) ++
    (if cx.projectRef then [refItemE cx vs] else []) ++
    (if cx.projectReplace.ident.isSome then [ownItemE cx vs] else [])
  inScope :=
    [implItemE cx vs] ++ makeUnpinImpl cx (vs.flatMap (fun v => pinnedTys v.fields.list)) ++
      makeDropImpl cx

/-- The shape conditions of `validate_enum`. -/
def EnumShapeOk (vs : List Variant) : Prop :=
  vs ≠ [] ∧ (∀ v ∈ vs, v.discriminant = none) ∧
  (∀ v ∈ vs, ∀ a ∈ v.attrs, isPinAttr a = false) ∧ ∃ v ∈ vs, v.fields.list ≠ []

theorem findAttr_isSome (attrs : List Attribute) :
    (findAttr attrs "pin").isSome = attrs.any isPinAttr := by
  simp only [findAttr, isPinAttr_eq]
  rw [Bool.eq_iff_iff]
  simp [List.find?_isSome]

theorem enumHasField_iff (vs : List Variant) (b : Bool) (r : Bool) :
    enumHasField vs b = .ok r ↔
      (∀ v ∈ vs, v.discriminant = none) ∧ (∀ v ∈ vs, ∀ a ∈ v.attrs, isPinAttr a = false) ∧
      r = (b || vs.any (fun v => !v.fields.list.isEmpty)) := by
  induction vs generalizing b with
  | nil => cases b <;> cases r <;> simp [enumHasField]
  | cons v vs ih =>
    rw [enumHasField, findAttr_isSome]
    cases hd : v.discriminant with
    | some d => simp [hd]
    | none =>
      simp only [Option.isSome_none, Bool.false_eq_true, if_false]
      cases hp : v.attrs.any isPinAttr with
      | true =>
        simp only [if_true, reduceCtorEq, false_iff]
        rintro ⟨-, h, -⟩
        obtain ⟨a, ha, hpa⟩ := List.any_eq_true.1 hp
        rw [h v (by simp) a ha] at hpa
        cases hpa
      | false =>
        have hp' : ∀ a ∈ v.attrs, isPinAttr a = false := by
          intro a ha
          have := List.any_eq_false.1 hp a ha
          simpa using this
        simp only [Bool.false_eq_true, if_false]
        cases he : v.fields.list.isEmpty with
        | true =>
          simp only [if_true]
          rw [ih]
          simp only [List.forall_mem_cons, List.any_cons, he, hd, true_and, Bool.not_true,
            Bool.false_or]
          constructor
          · rintro ⟨h1, h2, h3⟩; exact ⟨h1, ⟨hp', h2⟩, h3⟩
          · rintro ⟨h1, ⟨_, h2⟩, h3⟩; exact ⟨h1, h2, h3⟩
        | false =>
          simp only [Bool.false_eq_true, if_false]
          rw [ih]
          simp only [List.forall_mem_cons, List.any_cons, he, hd, true_and, Bool.not_false,
            Bool.true_or, Bool.or_true]
          constructor
          · rintro ⟨h1, h2, h3⟩; exact ⟨h1, ⟨hp', h2⟩, h3⟩
          · rintro ⟨h1, ⟨_, h2⟩, h3⟩; exact ⟨h1, h2, h3⟩

theorem validateEnum_iff (vs : List Variant) : validateEnum vs = .ok () ↔ EnumShapeOk vs := by
  unfold validateEnum EnumShapeOk
  cases vs with
  | nil => simp
  | cons v vs =>
    simp only [List.isEmpty_cons, Bool.false_eq_true, if_false]
    rw [bind_ok]
    constructor
    · rintro ⟨b, h1, h2⟩
      obtain ⟨h3, h4, h5⟩ := (enumHasField_iff _ _ _).1 h1
      split at h2
      · rename_i hb
        subst hb
        have h6 := h5.symm
        simp only [Bool.false_or, List.any_eq_true] at h6
        obtain ⟨w, hw, hwe⟩ := h6
        exact ⟨by simp, h3, h4, w, hw, by simpa [List.isEmpty_iff] using hwe⟩
      · simp at h2
    · rintro ⟨-, h3, h4, w, hw, hne⟩
      refine ⟨true, (enumHasField_iff _ _ _).2 ⟨h3, h4, ?_⟩, by simp⟩
      symm
      simp only [Bool.false_or, List.any_eq_true]
      exact ⟨w, hw, by simpa [List.isEmpty_iff] using hne⟩

theorem ensureNotPacked_some_iff (cx : Ctx) (fields : Fields) (r : List GItem) :
    ensureNotPacked cx (some fields) = .ok r ↔
      ReprsWellFormed cx.attrs ∧ ¬ AsksForPacked cx.attrs ∧ r = [assertItem cx fields] := by
  unfold ensureNotPacked
  rw [bind_ok]
  constructor
  · rintro ⟨_, h1, h2⟩
    obtain ⟨h3, h4⟩ := checkPacked_iff.1 h1
    exact ⟨h3, h4, (Except.ok.inj h2).symm⟩
  · rintro ⟨h3, h4, rfl⟩
    exact ⟨(), checkPacked_iff.2 ⟨h3, h4⟩, rfl⟩

theorem ensureNotPacked_none_iff (cx : Ctx) (r : List GItem) :
    ensureNotPacked cx none = .ok r ↔
      ReprsWellFormed cx.attrs ∧ ¬ AsksForPacked cx.attrs ∧ r = [] := by
  unfold ensureNotPacked
  rw [bind_ok]
  constructor
  · rintro ⟨_, h1, h2⟩
    obtain ⟨h3, h4⟩ := checkPacked_iff.1 h1
    exact ⟨h3, h4, (Except.ok.inj h2).symm⟩
  · rintro ⟨h3, h4, rfl⟩
    exact ⟨(), checkPacked_iff.2 ⟨h3, h4⟩, rfl⟩

theorem parseStruct_iff (cx : Ctx) (fields : Fields) (E : Expansion) :
    (∃ e s p, parseStruct cx fields = .ok (e, s, p) ∧ intoTokens cx e s p = E) ↔
      ReprsWellFormed cx.attrs ∧ ¬ AsksForPacked cx.attrs ∧ fields.list ≠ [] ∧
      (∀ f ∈ fields.list, PinOk f.attrs) ∧ E = structExpansion cx fields := by
  have fwd : ∀ e s p, parseStruct cx fields = .ok (e, s, p) → (fun E => ReprsWellFormed cx.attrs ∧ ¬ AsksForPacked cx.attrs ∧ fields.list ≠ [] ∧
      (∀ f ∈ fields.list, PinOk f.attrs) ∧ E = structExpansion cx fields) (intoTokens cx e s p) := by
    intro e s p h
    unfold parseStruct at h
    rw [bind_ok] at h
    obtain ⟨pc, h1, h⟩ := h
    obtain ⟨hr, hnp, rfl⟩ := (ensureNotPacked_some_iff _ _ _).1 h1
    rw [bind_ok] at h
    obtain ⟨_, h2, h⟩ := h
    have hne : fields.list ≠ [] := by
      intro he; simp [validateStruct, he] at h2
    rw [bind_ok] at h
    obtain ⟨⟨pf, ps⟩, h3, h⟩ := h
    have h3' : visitFieldsOf cx none fields = .ok (pf, ps) := by
      cases fields with
      | unit => simp [visitStructFields] at h3
      | named fs => exact h3
      | unnamed fs => exact h3
    obtain ⟨hok, heq⟩ := (visitFieldsOf_iff _ _ _ _).1 h3'
    simp only [Prod.mk.injEq] at heq
    obtain ⟨rfl, rfl⟩ := heq
    refine ⟨hr, hnp, hne, hok, ?_⟩
    simp only [Except.ok.injEq, Prod.mk.injEq] at h
    obtain ⟨rfl, rfl, rfl⟩ := h
    rfl
  constructor
  · rintro ⟨e, s, p, h, rfl⟩; exact fwd e s p h
  · rintro ⟨hr, hnp, hne, hok, rfl⟩
    have hv : validateStruct fields = .ok () := by
      unfold validateStruct
      rw [if_neg]
      simpa [List.isEmpty_iff] using hne
    have hu : fields ≠ .unit := by rintro rfl; exact hne rfl
    have h3 := (visitFieldsOf_iff cx none fields _).2 ⟨hok, rfl⟩
    have : ∃ r, parseStruct cx fields = .ok r := by
      unfold parseStruct
      rw [(ensureNotPacked_some_iff _ _ _).2 ⟨hr, hnp, rfl⟩]
      simp only [ok_bind]
      rw [hv]
      simp only [ok_bind]
      have : visitStructFields cx fields = visitFieldsOf cx none fields := by
        cases fields <;> first | rfl | exact absurd rfl hu
      rw [this, h3]
      exact ⟨_, rfl⟩
    obtain ⟨⟨e, i, p⟩, h⟩ := this
    exact ⟨e, i, p, h, (fwd e i p h).2.2.2.2⟩

theorem parseEnum_iff (cx : Ctx) (vs : List Variant) (E : Expansion) :
    (∃ e s p, parseEnum cx vs = .ok (e, s, p) ∧ intoTokens cx e s p = E) ↔
      cx.projectReplace ≠ .unnamed ∧
      ReprsWellFormed cx.attrs ∧ ¬ AsksForPacked cx.attrs ∧ EnumShapeOk vs ∧
      (∀ v ∈ vs, ∀ f ∈ v.fields.list, PinOk f.attrs) ∧ E = enumExpansion cx vs := by
  have fwd : ∀ e s p, parseEnum cx vs = .ok (e, s, p) → (fun E => cx.projectReplace ≠ .unnamed ∧
      ReprsWellFormed cx.attrs ∧ ¬ AsksForPacked cx.attrs ∧ EnumShapeOk vs ∧
      (∀ v ∈ vs, ∀ f ∈ v.fields.list, PinOk f.attrs) ∧ E = enumExpansion cx vs) (intoTokens cx e s p) := by
    intro e s p h
    unfold parseEnum at h
    split at h
    · simp at h
    rename_i hun
    rw [bind_ok] at h
    obtain ⟨pc, h1, h⟩ := h
    obtain ⟨hr, hnp, rfl⟩ := (ensureNotPacked_none_iff _ _).1 h1
    rw [bind_ok] at h
    obtain ⟨_, h2, h⟩ := h
    rw [bind_ok] at h
    obtain ⟨pv, h3, h⟩ := h
    obtain ⟨hok, rfl⟩ := (visitVariants_iff _ _ _ _).1 h3
    refine ⟨hun, hr, hnp, (validateEnum_iff _).1 h2, hok, ?_⟩
    simp only [Except.ok.injEq, Prod.mk.injEq] at h
    obtain ⟨rfl, rfl, rfl⟩ := h
    rfl
  constructor
  · rintro ⟨e, s, p, h, rfl⟩; exact fwd e s p h
  · rintro ⟨hun, hr, hnp, hsh, hok, rfl⟩
    have : ∃ r, parseEnum cx vs = .ok r := by
      unfold parseEnum
      rw [if_neg hun, (ensureNotPacked_none_iff _ _).2 ⟨hr, hnp, rfl⟩]
      simp only [ok_bind]
      rw [(validateEnum_iff _).2 hsh]
      simp only [ok_bind]
      rw [(visitVariants_iff _ _ _ _).2 ⟨hok, rfl⟩]
      exact ⟨_, rfl⟩
    obtain ⟨⟨e, i, p⟩, h⟩ := this
    exact ⟨e, i, p, h, (fwd e i p h).2.2.2.2.2⟩

/-- The struct after `Self` has been replaced (derive.rs:28-32). -/
def ItemStruct.pre (s : ItemStruct) : ItemStruct := s.visit (mkSelfTy s.ident s.generics.tyGenerics)
def ItemEnum.pre (s : ItemEnum) : ItemEnum := s.visit (mkSelfTy s.ident s.generics.tyGenerics)

def ItemStruct.ctx (A : Args) (s : ItemStruct) : Ctx :=
  mkCtx A s.pre.attrs s.pre.vis s.pre.ident s.pre.generics .struct_
def ItemEnum.ctx (A : Args) (s : ItemEnum) : Ctx :=
  mkCtx A s.pre.attrs s.pre.vis s.pre.ident s.pre.generics .enum_

theorem deriveStruct_iff (s : ItemStruct) (E : Expansion) :
    deriveStruct s = .ok E ↔
      ∃ A, parseArgs s.pre.attrs = .ok A ∧ s.pre.ident ∉ userNames A ∧
        ReprsWellFormed s.pre.attrs ∧ ¬ AsksForPacked s.pre.attrs ∧ s.pre.fields.list ≠ [] ∧
        (∀ f ∈ s.pre.fields.list, PinOk f.attrs) ∧
        E = structExpansion (s.ctx A) s.pre.fields := by
  have key : deriveStruct s = .ok E ↔ ∃ cx, Ctx.new s.pre.attrs s.pre.vis s.pre.ident
      s.pre.generics .struct_ = .ok cx ∧ ∃ e i p, parseStruct cx s.pre.fields = .ok (e, i, p) ∧
      intoTokens cx e i p = E := by
    unfold deriveStruct
    show (Ctx.new s.pre.attrs s.pre.vis s.pre.ident s.pre.generics .struct_ >>= _) = _ ↔ _
    rw [bind_ok]
    constructor
    · rintro ⟨cx, h1, h2⟩
      rw [bind_ok] at h2
      obtain ⟨⟨e, i, p⟩, h3, h4⟩ := h2
      exact ⟨cx, h1, e, i, p, h3, Except.ok.inj h4⟩
    · rintro ⟨cx, h1, e, i, p, h3, rfl⟩
      refine ⟨cx, h1, ?_⟩
      rw [bind_ok]
      exact ⟨_, h3, rfl⟩
  rw [key]
  constructor
  · rintro ⟨cx, h1, h2⟩
    obtain ⟨A, h3, h4, rfl⟩ := (ctxNew_iff _ _ _ _ _ _).1 h1
    exact ⟨A, h3, h4, (parseStruct_iff _ _ _).1 h2⟩
  · rintro ⟨A, h3, h4, h5⟩
    exact ⟨_, (ctxNew_iff _ _ _ _ _ _).2 ⟨A, h3, h4, rfl⟩, (parseStruct_iff _ _ _).2 h5⟩

theorem deriveEnum_iff (s : ItemEnum) (E : Expansion) :
    deriveEnum s = .ok E ↔
      ∃ A, parseArgs s.pre.attrs = .ok A ∧ s.pre.ident ∉ userNames A ∧
        A.projectReplace ≠ .unnamed ∧
        ReprsWellFormed s.pre.attrs ∧ ¬ AsksForPacked s.pre.attrs ∧ EnumShapeOk s.pre.variants ∧
        (∀ v ∈ s.pre.variants, ∀ f ∈ v.fields.list, PinOk f.attrs) ∧
        E = enumExpansion (s.ctx A) s.pre.variants := by
  have key : deriveEnum s = .ok E ↔ ∃ cx, Ctx.new s.pre.attrs s.pre.vis s.pre.ident
      s.pre.generics .enum_ = .ok cx ∧ ∃ e i p, parseEnum cx s.pre.variants = .ok (e, i, p) ∧
      intoTokens cx e i p = E := by
    unfold deriveEnum
    show (Ctx.new s.pre.attrs s.pre.vis s.pre.ident s.pre.generics .enum_ >>= _) = _ ↔ _
    rw [bind_ok]
    constructor
    · rintro ⟨cx, h1, h2⟩
      rw [bind_ok] at h2
      obtain ⟨⟨e, i, p⟩, h3, h4⟩ := h2
      exact ⟨cx, h1, e, i, p, h3, Except.ok.inj h4⟩
    · rintro ⟨cx, h1, e, i, p, h3, rfl⟩
      refine ⟨cx, h1, ?_⟩
      rw [bind_ok]
      exact ⟨_, h3, rfl⟩
  rw [key]
  constructor
  · rintro ⟨cx, h1, h2⟩
    obtain ⟨A, h3, h4, rfl⟩ := (ctxNew_iff _ _ _ _ _ _).1 h1
    exact ⟨A, h3, h4, (parseEnum_iff _ _ _).1 h2⟩
  · rintro ⟨A, h3, h4, h5⟩
    exact ⟨_, (ctxNew_iff _ _ _ _ _ _).2 ⟨A, h3, h4, rfl⟩, (parseEnum_iff _ _ _).2 h5⟩

end PinProject
