import Verif.Props.Rename
import Verif.Spec.Retype
/-!
# The types of fields are copied and not looked at (C91)
-/
namespace PinProject
namespace RetypeP
open RenameP (map_bind bind_map)

variable {τ : Node → Node}

theorem fields_list (fs : Fields) : (fs.retype τ).list = fs.list.map (Field.retype τ) := by
  cases fs <;> rfl

theorem fields_visit (hτ : RespectsSelf τ) (s : SelfTy) (fs : Fields) :
    (fs.retype τ).visit s = (fs.visit s).retype τ := by
  cases fs <;> simp [Fields.retype, Fields.visit, Field.retype, Field.visit, hτ s]

theorem variant_visit (hτ : RespectsSelf τ) (s : SelfTy) (v : Variant) :
    (v.retype τ).visit s = (v.visit s).retype τ := by
  simp [Variant.retype, Variant.visit, fields_visit hτ]

/-- Retyping a field of a generated type. -/
def gfield (τ : Node → Node) (g : GField) : GField := { g with ty := g.ty.retype τ }

/-- Retyping the accumulators of the loop. -/
def acc (τ : Node → Node) (a : FieldAcc) : FieldAcc :=
  { a with fields := a.fields.map (gfield τ), refFields := a.refFields.map (gfield τ)
           ownFields := a.ownFields.map (gfield τ), pinnedTys := a.pinnedTys.map τ }

theorem visitField_retype (cx : Ctx) (a : FieldAcc) (i : Nat) (f : Field) :
    visitField cx (acc τ a) i (f.retype τ) = (visitField cx a i f).map (acc τ) := by
  unfold visitField
  rw [map_bind]
  show (positionExact f.attrs "pin" >>= _) = _
  congr 1
  funext pos
  by_cases h : pos.isSome
  · simp only [h, if_true]
    simp [Except.map, acc, Field.retype, gfield, GTy.retype, binding]
  · simp only [h]
    simp [Except.map, acc, Field.retype, gfield, GTy.retype, binding]

theorem loop_retype (cx : Ctx) : ∀ (fs : List Field) (a : FieldAcc) (i : Nat),
    visitFieldsLoop cx (acc τ a) i (fs.map (Field.retype τ)) =
      (visitFieldsLoop cx a i fs).map (acc τ)
  | [], _, _ => rfl
  | f :: fs, a, i => by
    show (visitField cx (acc τ a) i (f.retype τ) >>= _) = _
    rw [visitField_retype, bind_map]
    show _ = (visitField cx a i f >>= _).map _
    rw [map_bind]
    congr 1
    funext b
    exact loop_retype cx fs b (i + 1)

/-- Retyping the result of visiting the fields. -/
def pf (τ : Node → Node) (p : ProjectedFields) : ProjectedFields :=
  { p with projFields := p.projFields.retype τ, projRefFields := p.projRefFields.retype τ
           projOwnFields := p.projOwnFields.retype τ }

theorem visitFields_retype (cx : Ctx) (v : Option String) (fs : Fields) (d : Delim) :
    visitFields cx v (fs.retype τ) d =
      (visitFields cx v fs d).map (fun p => (pf τ p.1, p.2.map τ)) := by
  unfold visitFields
  rw [fields_list, map_bind]
  have := loop_retype (τ := τ) cx fs.list {} 0
  rw [show acc τ {} = {} from rfl] at this
  rw [this, bind_map]
  rfl

theorem visitFieldsOf_retype (cx : Ctx) (v : Option String) (fs : Fields) :
    visitFieldsOf cx v (fs.retype τ) =
      (visitFieldsOf cx v fs).map (fun p => (pf τ p.1, p.2.map τ)) := by
  cases fs with
  | named l => exact visitFields_retype cx v (.named l) .brace
  | unnamed l => exact visitFields_retype cx v (.unnamed l) .paren
  | unit => rfl

theorem visitStructFields_retype (cx : Ctx) (fs : Fields) :
    visitStructFields cx (fs.retype τ) =
      (visitStructFields cx fs).map (fun p => (pf τ p.1, p.2.map τ)) := by
  cases fs with
  | named l => exact visitFieldsOf_retype cx none (.named l)
  | unnamed l => exact visitFieldsOf_retype cx none (.unnamed l)
  | unit => rfl

theorem fieldRefs_retype (fs : Fields) : fieldRefs (fs.retype τ) = fieldRefs fs := by
  cases fs <;> simp [fieldRefs, Fields.retype, Field.retype, Function.comp_def]

theorem ensure_retype (cx : Ctx) (fs : Fields) :
    ensureNotPacked cx (some (fs.retype τ)) =
      (ensureNotPacked cx (some fs)).map (List.map (GItem.retype τ)) := by
  unfold ensureNotPacked
  rw [map_bind]
  show (checkPacked true cx.attrs >>= _) = (checkPacked true cx.attrs >>= _)
  congr 1
  funext _
  show Except.ok _ = Except.ok _
  rw [fieldRefs_retype]
  rfl

theorem validateStruct_retype (fs : Fields) : validateStruct (fs.retype τ) = validateStruct fs := by
  unfold validateStruct
  rw [fields_list]
  simp

theorem impl_retype (cx : Ctx) (a b c : GBody) :
    (makeProjImpl cx a b c).retype τ = makeProjImpl cx a b c := by
  unfold makeProjImpl
  simp only [GItem.retype, List.map_append, apply_ite (List.map (GFn.retype τ)), List.map_cons,
    List.map_nil, GFn.retype, GTy.retype, pinMutSelf]

theorem unpin_retype (cx : Ctx) (ts : List Node) :
    makeUnpinImpl cx (ts.map τ) = (makeUnpinImpl cx ts).map (GItem.retype τ) := by
  unfold makeUnpinImpl
  cases cx.unpinImpl with
  | unsafe_ => rfl
  | negative => rfl
  | default =>
    have m1 : ∀ (f : Nat → Node → GField) (_ : ∀ i t, f i (τ t) = gfield τ (f i t)),
        (ts.map τ).mapIdx f = (ts.mapIdx f).map (gfield τ) := by
      intro f hf
      apply List.ext_getElem (by simp)
      intro i _ _
      simp [hf]
    have m2 : ∀ (l : List String) (f : Nat → String → GField) (_ : ∀ i t, gfield τ (f i t) = f i t),
        l.mapIdx f = (l.mapIdx f).map (gfield τ) := by
      intro l f hf
      apply List.ext_getElem (by simp)
      intro i _ _
      simp [hf]
    have e : ∀ f : GFields, f.retype τ = { f with fields := f.fields.map (gfield τ) } := fun _ => rfl
    simp only [List.map_cons, List.map_nil, GItem.retype, e, List.cons_append, List.map_append]
    rw [m1 _ (by intro i t; rfl), ← m2 _ _ (by intro i t; rfl)]
    rfl

theorem drop_retype (cx : Ctx) : (makeDropImpl cx).map (GItem.retype τ) = makeDropImpl cx := by
  unfold makeDropImpl
  split <;> rfl

/-- Retyping a triple of generated items and types. -/
def tri (τ : Node → Node) (t : List GItem × List GItem × List Node) :
    List GItem × List GItem × List Node :=
  (t.1.map (GItem.retype τ), t.2.1.map (GItem.retype τ), t.2.2.map τ)

theorem parseStruct_retype (cx : Ctx) (fs : Fields) :
    parseStruct cx (fs.retype τ) = (parseStruct cx fs).map (tri τ) := by
  unfold parseStruct
  rw [ensure_retype (τ := τ), bind_map, map_bind]
  congr 1
  funext pk
  rw [validateStruct_retype, map_bind]
  congr 1
  funext _
  rw [visitStructFields_retype, bind_map, map_bind]
  congr 1
  funext ⟨p, tys⟩
  show Except.ok _ = Except.ok _
  congr 1
  unfold tri
  refine Prod.ext ?_ (Prod.ext ?_ rfl)
  · simp only [List.map_append, apply_ite (List.map (GItem.retype τ)), List.map_cons,
      List.map_nil, GItem.retype, pf]
  · simp only [List.map_append, apply_ite (List.map (GItem.retype τ)), List.map_cons,
      List.map_nil, impl_retype]
    simp [GItem.retype, pf]

/-- Retyping the accumulators of the loop over the variants. -/
def pv (τ : Node → Node) (p : ProjectedVariants) : ProjectedVariants :=
  { p with projVariants := p.projVariants.map (fun q => (q.1, q.2.retype τ))
           projRefVariants := p.projRefVariants.map (fun q => (q.1, q.2.retype τ))
           projOwnVariants := p.projOwnVariants.map (fun q => (q.1, q.2.retype τ))
           pinnedTys := p.pinnedTys.map τ }

theorem variants_retype (cx : Ctx) : ∀ (vs : List Variant) (a : ProjectedVariants),
    visitVariants cx (pv τ a) (vs.map (Variant.retype τ)) = (visitVariants cx a vs).map (pv τ)
  | [], _ => rfl
  | v :: vs, a => by
    rw [List.map_cons]
    show (visitFieldsOf cx (some v.ident) (v.fields.retype τ) >>= _) =
      (visitFieldsOf cx (some v.ident) v.fields >>= _).map _
    rw [visitFieldsOf_retype, bind_map, map_bind]
    congr 1
    funext ⟨p, tys⟩
    dsimp only
    rw [← variants_retype cx vs]
    congr 1
    simp [pv, pf, Variant.retype]

theorem hasField_retype : ∀ (vs : List Variant) (b : Bool),
    enumHasField (vs.map (Variant.retype τ)) b = enumHasField vs b
  | [], _ => rfl
  | v :: vs, b => by
    rw [List.map_cons]
    unfold enumHasField
    rw [hasField_retype vs b, hasField_retype vs true]
    simp [Variant.retype, fields_list]

theorem validateEnum_retype (vs : List Variant) :
    validateEnum (vs.map (Variant.retype τ)) = validateEnum vs := by
  unfold validateEnum
  rw [hasField_retype]
  simp

theorem parseEnum_retype (cx : Ctx) (vs : List Variant) :
    parseEnum cx (vs.map (Variant.retype τ)) = (parseEnum cx vs).map (tri τ) := by
  unfold parseEnum
  split
  · rfl
  · rw [map_bind]
    congr 1
    funext _
    rw [validateEnum_retype, map_bind]
    congr 1
    funext _
    have := variants_retype (τ := τ) cx vs {}
    rw [show pv τ {} = {} from rfl] at this
    rw [this, bind_map, map_bind]
    congr 1
    funext p
    show Except.ok _ = Except.ok _
    congr 1
    unfold tri
    refine Prod.ext ?_ (Prod.ext ?_ rfl)
    · simp only [List.map_append, apply_ite (List.map (GItem.retype τ)), List.map_cons,
        List.map_nil, GItem.retype, pv]
    · simp only [List.map_cons, List.map_nil, impl_retype]
      rfl

theorem into_retype (cx : Ctx) (t : List GItem × List GItem × List Node) :
    intoTokens cx (tri τ t).1 (tri τ t).2.1 (tri τ t).2.2 =
      (intoTokens cx t.1 t.2.1 t.2.2).retype τ := by
  simp [intoTokens, Expansion.retype, tri, unpin_retype, drop_retype]

end RetypeP

open RenameP (map_bind bind_map)

/-- C91: replace the types of the fields by other types: the macro accepts the new definition if and
only if it accepted the old one, with the same error message otherwise, and the generated code is the
old code with the copies of these types replaced. In particular no method, impl, bound, attribute or
statement of the generated code depends on the types of the fields. -/
theorem C91_retype {τ : Node → Node} (hτ : RespectsSelf τ) (item : Item) :
    parseDerive (item.retype τ) = (parseDerive item).map (Expansion.retype τ) := by
  cases item with
  | other a => rfl
  | struct_ s =>
    show deriveStruct _ = (deriveStruct s).map _
    unfold deriveStruct
    simp only [ItemStruct.visit, RetypeP.fields_visit hτ]
    rw [map_bind]
    congr 1
    funext cx
    rw [RetypeP.parseStruct_retype, bind_map, map_bind]
    congr 1
    funext t
    exact congrArg Except.ok (RetypeP.into_retype cx t)
  | enum_ e =>
    show deriveEnum _ = (deriveEnum e).map _
    unfold deriveEnum
    have hv : ∀ s : SelfTy, (e.variants.map (Variant.retype τ)).map (Variant.visit s) =
        (e.variants.map (Variant.visit s)).map (Variant.retype τ) := by
      intro s
      rw [List.map_map, List.map_map]
      exact List.map_congr_left (fun v _ => RetypeP.variant_visit hτ s v)
    simp only [ItemEnum.visit, hv]
    rw [map_bind]
    congr 1
    funext cx
    rw [RetypeP.parseEnum_retype, bind_map, map_bind]
    congr 1
    funext t
    exact congrArg Except.ok (RetypeP.into_retype cx t)

/-- C91, on its own: whether a definition is accepted, and the error message if it is not, do not
depend on the types of its fields: it is the same as if all of them were `u8`. -/
theorem C91_errors (item : Item) (e : Err) :
    parseDerive (item.retype (fun _ => .tyIdent "u8")) = .error e ↔ parseDerive item = .error e := by
  rw [C91_retype (fun s t => rfl)]
  cases parseDerive item <;> simp [Except.map]

/-! ## Examples -/

/-- `Vec<t>`. -/
def vecOf (t : Node) : Node := .tyPath .none (.mk false [.mk "Vec" (.angle false [t])])

theorem vecOf_respects : RespectsSelf vecOf := fun _ _ => rfl

/-- `#[pin] x: T, y: U` becomes `#[pin] x: Vec<T>, y: Vec<U>`. -/
example : ∃ E, parseDerive (.struct_ (demoGeneric [])) = .ok E ∧
    parseDerive ((Item.struct_ (demoGeneric [])).retype vecOf) = .ok (E.retype vecOf) ∧
    ((demoGeneric []).fields.retype vecOf).list.map (·.ty) =
      [vecOf (.tyIdent "T"), vecOf (.tyIdent "U")] := by
  have h : ∃ E, parseDerive (.struct_ (demoGeneric [])) = .ok E := ⟨_, rfl⟩
  obtain ⟨E, h⟩ := h
  refine ⟨E, h, ?_, rfl⟩
  rw [C91_retype vecOf_respects, h]
  rfl

/-- In the same way for an enum. -/
example : ∃ E, parseDerive (.enum_ demoEnum) = .ok E ∧
    parseDerive ((Item.enum_ demoEnum).retype vecOf) = .ok (E.retype vecOf) := by
  have h : ∃ E, parseDerive (.enum_ demoEnum) = .ok E := ⟨_, rfl⟩
  obtain ⟨E, h⟩ := h
  refine ⟨E, h, ?_⟩
  rw [C91_retype vecOf_respects, h]
  rfl

/-- A definition that is rejected is rejected with all types. -/
example : ∃ e, parseDerive ((Item.struct_ { demoGeneric [] with fields := .named [] }).retype vecOf) = .error e := by
  rw [C91_retype vecOf_respects]
  exact ⟨_, rfl⟩

/-- The condition is needed: a replacement that looks for `Self` sees the type before and after it
has been spelled out. -/
example : ¬ RespectsSelf (fun t => match t with
    | .tyPath .none (.mk false [.mk "Self" .none]) => .tyIdent "A"
    | _ => .tyIdent "B") := by
  intro h
  have := h (mkSelfTy "G" []) (.tyPath .none (.mk false [.mk "Self" .none]))
  have : Node.tyIdent "A" = .tyIdent "B" := this
  simp [Node.tyIdent, Path.ofIdent] at this

end PinProject
