import Verif.Props.Unpin
import Verif.Props.Accept
import Verif.Spec.Rename
/-!
# The names of fields and variants do not matter (C90)
-/
namespace PinProject
namespace RenameP

variable {ρ σ : String → String}

theorem keeps_us' (hk : KeepsReserved ρ) {s : String} {cs} (h : s.toList = '_' :: '_' :: cs) :
    ρ s = s :=
  hk _ (.template h (.inl rfl))

theorem digits (n : Nat) : ∀ c ∈ (toString n).toList, c.isDigit = true := by
  intro c hc
  have h2 : (toString n).toList = Nat.toDigits 10 n := by
    show (Nat.repr n).toList = _
    simp [Nat.repr]
  rw [h2] at hc
  exact Nat.isDigit_of_mem_toDigits (by decide) (by decide) hc

theorem keeps_us (hk : KeepsReserved ρ) (n : Nat) : ρ ("_" ++ toString n) = "_" ++ toString n := by
  apply hk
  have e : ("_" ++ toString n).toList = '_' :: (toString n).toList := by
    rw [String.toList_append]; rfl
  cases h : (toString n).toList with
  | nil => exact .underscore (by rw [e, h])
  | cons c cs => exact .template (by rw [e, h]) (.inr (digits n c (by rw [h]; simp)))

theorem keeps_num (hk : KeepsReserved ρ) (n : Nat) : ρ (toString n) = toString n := by
  apply hk
  cases h : (toString n).toList with
  | nil => exact .empty h
  | cons c cs => exact .index h (digits n c (by rw [h]; simp))

theorem map_bind {α β γ : Type} (x : Res α) (f : α → Res β) (g : β → γ) :
    (x >>= f).map g = x >>= (fun a => (f a).map g) := by cases x <;> rfl

theorem bind_map {α β γ : Type} (x : Res α) (g : α → β) (f : β → Res γ) :
    (x.map g >>= f) = x >>= (fun a => f (g a)) := by cases x <;> rfl

theorem fields_list (fs : Fields) : (fs.rename ρ).list = fs.list.map (Field.rename ρ) := by
  cases fs <;> rfl

theorem fields_visit (s : SelfTy) (fs : Fields) :
    (fs.rename ρ).visit s = (fs.visit s).rename ρ := by
  cases fs <;> simp [Fields.rename, Fields.visit, Field.rename, Field.visit]

theorem variant_visit (s : SelfTy) (v : Variant) :
    (v.rename ρ σ).visit s = (v.visit s).rename ρ σ := by
  simp [Variant.rename, Variant.visit, fields_visit]

/-- Renaming the accumulators of the loop. -/
def acc (ρ : String → String) (a : FieldAcc) : FieldAcc where
  pat := a.pat.map ρ
  body := a.body.map (GInit.rename ρ)
  fields := a.fields.map (GField.rename ρ)
  refFields := a.refFields.map (GField.rename ρ)
  ownFields := a.ownFields.map (GField.rename ρ)
  move := a.move.map (GInit.rename ρ)
  pinned := a.pinned.map ρ
  pinnedTys := a.pinnedTys

theorem binding_rename (hk : KeepsReserved ρ) (i : Nat) (f : Field) :
    binding i (f.rename ρ) = ρ (binding i f) := by
  unfold binding Field.rename
  cases f.ident with
  | none => exact (keeps_us hk _).symm
  | some x => rfl

theorem visitField_rename (hk : KeepsReserved ρ) (cx : Ctx) (a : FieldAcc) (i : Nat) (f : Field) :
    visitField cx (acc ρ a) i (f.rename ρ) = (visitField cx a i f).map (acc ρ) := by
  unfold visitField
  rw [map_bind]
  show (positionExact f.attrs "pin" >>= _) = _
  congr 1
  funext pos
  rw [binding_rename hk]
  by_cases h : pos.isSome
  · simp only [h, if_true]
    simp [Except.map, acc, Field.rename, GField.rename, GInit.rename, FExpr.rename]
  · simp only [h]
    simp [Except.map, acc, Field.rename, GField.rename, GInit.rename, FExpr.rename]

theorem loop_rename (hk : KeepsReserved ρ) (cx : Ctx) : ∀ (fs : List Field) (a : FieldAcc) (i : Nat),
    visitFieldsLoop cx (acc ρ a) i (fs.map (Field.rename ρ)) =
      (visitFieldsLoop cx a i fs).map (acc ρ)
  | [], _, _ => rfl
  | f :: fs, a, i => by
    show (visitField cx (acc ρ a) i (f.rename ρ) >>= _) = _
    rw [visitField_rename hk, bind_map]
    show _ = (visitField cx a i f >>= _).map _
    rw [map_bind]
    congr 1
    funext b
    exact loop_rename hk cx fs b (i + 1)

/-- Renaming the result of visiting the fields. -/
def pf (ρ σ : String → String) (p : ProjectedFields) : ProjectedFields where
  projPat := p.projPat.rename ρ σ
  projBody := (p.projBody.1, p.projBody.2.map (GInit.rename ρ))
  projOwnBody := (p.projOwnBody.1.map (GStmt.rename ρ σ), p.projOwnBody.2.rename ρ σ)
  projFields := p.projFields.rename ρ
  projRefFields := p.projRefFields.rename ρ
  projOwnFields := p.projOwnFields.rename ρ

theorem own_rename (hk : KeepsReserved ρ) (cx : Ctx) (v : Option String) (d : Option Delim)
    (is : List GInit) (ps : List String) :
    projOwnBody cx (v.map σ) (d, is.map (GInit.rename ρ)) (ps.map ρ) =
      ((projOwnBody cx v (d, is) ps).1.map (GStmt.rename ρ σ),
       (projOwnBody cx v (d, is) ps).2.rename ρ σ) := by
  have h1 : ρ "__result" = "__result" := keeps_us' hk (cs := "result".toList) (by decide)
  have h2 : ρ "__guard" = "__guard" := keeps_us' hk (cs := "guard".toList) (by decide)
  simp [projOwnBody, GStmt.rename, RHS.rename, GCtor.rename, h1, h2, ← List.map_reverse,
    Function.comp_def]

theorem visitFields_rename (hk : KeepsReserved ρ) (cx : Ctx) (v : Option String) (fs : Fields)
    (d : Delim) :
    visitFields cx (v.map σ) (fs.rename ρ) d =
      (visitFields cx v fs d).map (fun p => (pf ρ σ p.1, p.2)) := by
  unfold visitFields
  rw [fields_list, map_bind]
  have := loop_rename hk cx fs.list {} 0
  rw [show acc ρ {} = {} from rfl] at this
  rw [this, bind_map]
  congr 1
  funext a
  show Except.ok _ = Except.ok _
  congr 1
  refine Prod.ext ?_ rfl
  show ProjectedFields.mk _ _ _ _ _ _ = ProjectedFields.mk _ _ _ _ _ _
  rw [show (acc ρ a).pinned = a.pinned.map ρ from rfl,
    show (acc ρ a).move = a.move.map (GInit.rename ρ) from rfl, own_rename hk]
  rfl

theorem visitFieldsOf_rename (hk : KeepsReserved ρ) (cx : Ctx) (v : Option String) (fs : Fields) :
    visitFieldsOf cx (v.map σ) (fs.rename ρ) =
      (visitFieldsOf cx v fs).map (fun p => (pf ρ σ p.1, p.2)) := by
  cases fs with
  | named l => exact visitFields_rename hk cx v (.named l) .brace
  | unnamed l => exact visitFields_rename hk cx v (.unnamed l) .paren
  | unit =>
    show Except.ok _ = Except.ok _
    congr 1
    refine Prod.ext ?_ rfl
    show ProjectedFields.mk _ _ _ _ _ _ = ProjectedFields.mk _ _ _ _ _ _
    have := own_rename (σ := σ) hk cx v none [] []
    rw [List.map_nil, List.map_nil] at this
    rw [this]
    rfl

theorem visitStructFields_rename (hk : KeepsReserved ρ) (cx : Ctx) (fs : Fields) :
    visitStructFields cx (fs.rename ρ) =
      (visitStructFields cx fs).map (fun p => (pf ρ σ p.1, p.2)) := by
  cases fs with
  | named l => exact visitFieldsOf_rename hk cx none (.named l)
  | unnamed l => exact visitFieldsOf_rename hk cx none (.unnamed l)
  | unit => rfl

theorem fieldRefs_rename (hk : KeepsReserved ρ) (fs : Fields) :
    fieldRefs (fs.rename ρ) = (fieldRefs fs).map ρ := by
  cases fs with
  | named l =>
    simp only [fieldRefs, Fields.rename, List.map_map]
    apply List.map_congr_left
    intro f _
    show (f.ident.map ρ).getD "" = ρ (f.ident.getD "")
    cases f.ident with
    | none => exact (hk "" (.empty rfl)).symm
    | some x => rfl
  | unnamed l =>
    simp only [fieldRefs, Fields.rename, List.map_map, List.length_map]
    apply List.map_congr_left
    intro i _
    exact (keeps_num hk i).symm
  | unit => rfl

theorem ensure_rename (hk : KeepsReserved ρ) (cx : Ctx) (fs : Fields) :
    ensureNotPacked cx (some (fs.rename ρ)) =
      (ensureNotPacked cx (some fs)).map (List.map (GItem.rename ρ σ)) := by
  unfold ensureNotPacked
  rw [map_bind]
  show (checkPacked true cx.attrs >>= _) = (checkPacked true cx.attrs >>= _)
  congr 1
  funext _
  show Except.ok _ = Except.ok _
  rw [fieldRefs_rename hk]
  rfl

theorem validateStruct_rename (fs : Fields) : validateStruct (fs.rename ρ) = validateStruct fs := by
  unfold validateStruct
  rw [fields_list]
  simp

theorem impl_rename (hk : KeepsReserved ρ) (cx : Ctx) (a b c : GBody) :
    makeProjImpl cx (a.rename ρ σ) (b.rename ρ σ) (c.rename ρ σ) =
      (makeProjImpl cx a b c).rename ρ σ := by
  have hself : ρ "self" = "self" := hk _ (.self_ rfl)
  have h1 : ρ "__self_ptr" = "__self_ptr" := keeps_us' hk (cs := "self_ptr".toList) (by decide)
  have h2 : ρ "__guard" = "__guard" := keeps_us' hk (cs := "guard".toList) (by decide)
  have h3 : ρ "__replacement" = "__replacement" :=
    keeps_us' hk (cs := "replacement".toList) (by decide)
  unfold makeProjImpl
  simp only [GItem.rename, List.map_append, apply_ite (List.map (GFn.rename ρ σ)), List.map_cons,
    List.map_nil, GFn.rename, GBody.rename, GStmt.rename, RHS.rename, hself, h1, h2, h3]

theorem unpin_rename (hk : KeepsReserved ρ) (cx : Ctx) (ts : List Node) :
    (makeUnpinImpl cx ts).map (GItem.rename ρ σ) = makeUnpinImpl cx ts := by
  unfold makeUnpinImpl
  cases cx.unpinImpl with
  | unsafe_ => rfl
  | negative => rfl
  | default =>
    have h0 : ρ "__pin_project_use_generics" = "__pin_project_use_generics" :=
      keeps_us' hk (cs := "pin_project_use_generics".toList) (by decide)
    have h1 : ∀ s, ρ ("__field" ++ s) = "__field" ++ s := fun s =>
      keeps_us' hk (cs := "field".toList ++ s.toList) (by simp [String.toList_append])
    have h2 : ∀ s, ρ ("__lifetime" ++ s) = "__lifetime" ++ s := fun s =>
      keeps_us' hk (cs := "lifetime".toList ++ s.toList) (by simp [String.toList_append])
    have m1 : ∀ (l : List Node) (g : Nat → Node → GField),
        (∀ i t, (g i t).rename ρ = g i t) → (l.mapIdx g).map (GField.rename ρ) = l.mapIdx g := by
      intro l g hg
      apply List.ext_getElem (by simp)
      intro i _ _
      simp [hg]
    have m2 : ∀ (l : List String) (g : Nat → String → GField),
        (∀ i t, (g i t).rename ρ = g i t) → (l.mapIdx g).map (GField.rename ρ) = l.mapIdx g := by
      intro l g hg
      apply List.ext_getElem (by simp)
      intro i _ _
      simp [hg]
    simp only [List.map_cons, List.map_nil, List.map_append, GItem.rename, GFields.rename]
    rw [m1 _ _ (by intro i t; simp [GField.rename, h1]),
      m2 _ _ (by intro i t; simp [GField.rename, h2])]
    simp only [GField.rename, Option.map_some, h0, List.cons_append]

theorem drop_rename (hk : KeepsReserved ρ) (cx : Ctx) :
    (makeDropImpl cx).map (GItem.rename ρ σ) = makeDropImpl cx := by
  have hself : ρ "self" = "self" := hk _ (.self_ rfl)
  have h1 : ρ "__pinned_self" = "__pinned_self" :=
    keeps_us' hk (cs := "pinned_self".toList) (by decide)
  unfold makeDropImpl
  split <;> simp [GItem.rename, GFn.rename, GBody.rename, GStmt.rename, RHS.rename, GTail.rename,
    hself, h1]

/-- Renaming a triple of generated items. -/
def tri (ρ σ : String → String) (t : List GItem × List GItem × List Node) :
    List GItem × List GItem × List Node :=
  (t.1.map (GItem.rename ρ σ), t.2.1.map (GItem.rename ρ σ), t.2.2)

theorem parseStruct_rename (hk : KeepsReserved ρ) (cx : Ctx) (fs : Fields) :
    parseStruct cx (fs.rename ρ) = (parseStruct cx fs).map (tri ρ σ) := by
  have hself : ρ "self" = "self" := hk _ (.self_ rfl)
  have h1 : ρ "__self_ptr" = "__self_ptr" := keeps_us' hk (cs := "self_ptr".toList) (by decide)
  unfold parseStruct
  rw [ensure_rename (σ := σ) hk, bind_map, map_bind]
  congr 1
  funext pk
  rw [validateStruct_rename, map_bind]
  congr 1
  funext _
  rw [visitStructFields_rename (σ := σ) hk, bind_map, map_bind]
  congr 1
  funext ⟨p, tys⟩
  show Except.ok _ = Except.ok _
  congr 1
  unfold tri
  refine Prod.ext ?_ (Prod.ext ?_ rfl)
  · simp only [List.map_append, apply_ite (List.map (GItem.rename ρ σ)), List.map_cons,
      List.map_nil, GItem.rename, pf]
  · simp only [List.map_append, apply_ite (List.map (GItem.rename ρ σ)), List.map_cons,
      List.map_nil, ← impl_rename hk]
    simp [GItem.rename, pf, GBody.rename, GStmt.rename, GTail.rename, RHS.rename, GCtor.rename,
      hself, h1]

/-- Renaming the accumulators of the loop over the variants. -/
def pv (ρ σ : String → String) (p : ProjectedVariants) : ProjectedVariants where
  projVariants := p.projVariants.map (fun q => (σ q.1, q.2.rename ρ))
  projRefVariants := p.projRefVariants.map (fun q => (σ q.1, q.2.rename ρ))
  projOwnVariants := p.projOwnVariants.map (fun q => (σ q.1, q.2.rename ρ))
  projArms := p.projArms.map (GArm.rename ρ σ)
  projRefArms := p.projRefArms.map (GArm.rename ρ σ)
  projOwnArms := p.projOwnArms.map (GArm.rename ρ σ)
  pinnedTys := p.pinnedTys

theorem variants_rename (hk : KeepsReserved ρ) (cx : Ctx) :
    ∀ (vs : List Variant) (a : ProjectedVariants),
    visitVariants cx (pv ρ σ a) (vs.map (Variant.rename ρ σ)) =
      (visitVariants cx a vs).map (pv ρ σ)
  | [], _ => rfl
  | v :: vs, a => by
    rw [List.map_cons]
    show (visitFieldsOf cx ((some v.ident).map σ) (v.fields.rename ρ) >>= _) =
      (visitFieldsOf cx (some v.ident) v.fields >>= _).map _
    rw [visitFieldsOf_rename hk, bind_map, map_bind]
    congr 1
    funext ⟨p, tys⟩
    dsimp only
    rw [← variants_rename hk cx vs]
    congr 1
    simp [pv, pf, GArm.rename, RHS.rename, GCtor.rename, Variant.rename]

theorem hasField_rename : ∀ (vs : List Variant) (b : Bool),
    enumHasField (vs.map (Variant.rename ρ σ)) b = enumHasField vs b
  | [], _ => rfl
  | v :: vs, b => by
    rw [List.map_cons]
    unfold enumHasField
    rw [hasField_rename vs b, hasField_rename vs true]
    simp [Variant.rename, fields_list]

theorem validateEnum_rename (vs : List Variant) :
    validateEnum (vs.map (Variant.rename ρ σ)) = validateEnum vs := by
  unfold validateEnum
  rw [hasField_rename]
  simp

theorem parseEnum_rename (hk : KeepsReserved ρ) (cx : Ctx) (vs : List Variant) :
    parseEnum cx (vs.map (Variant.rename ρ σ)) = (parseEnum cx vs).map (tri ρ σ) := by
  have hself : ρ "self" = "self" := hk _ (.self_ rfl)
  have h1 : ρ "__self_ptr" = "__self_ptr" := keeps_us' hk (cs := "self_ptr".toList) (by decide)
  unfold parseEnum
  split
  · rfl
  · rw [map_bind]
    congr 1
    funext _
    rw [validateEnum_rename, map_bind]
    congr 1
    funext _
    have := variants_rename (σ := σ) hk cx vs {}
    rw [show pv ρ σ {} = {} from rfl] at this
    rw [this, bind_map, map_bind]
    congr 1
    funext p
    show Except.ok _ = Except.ok _
    congr 1
    unfold tri
    refine Prod.ext ?_ (Prod.ext ?_ rfl)
    · simp only [List.map_append, apply_ite (List.map (GItem.rename ρ σ)), List.map_cons,
        List.map_nil, GItem.rename, pv]
    · simp only [List.map_cons, List.map_nil, ← impl_rename hk]
      simp [pv, GBody.rename, GTail.rename, RHS.rename, hself, h1]

theorem into_rename (hk : KeepsReserved ρ) (cx : Ctx) (t : List GItem × List GItem × List Node) :
    intoTokens cx (tri ρ σ t).1 (tri ρ σ t).2.1 (tri ρ σ t).2.2 =
      (intoTokens cx t.1 t.2.1 t.2.2).rename ρ σ := by
  simp [intoTokens, Expansion.rename, tri, unpin_rename hk, drop_rename hk]

end RenameP

open RenameP

/-- C90: rename the fields and the variants of the definition in any way: the macro accepts the new
definition if and only if it accepted the old one, with the same error message otherwise, and the
generated code is the old code with the same names renamed. -/
theorem C90_rename {ρ σ : String → String} (hk : KeepsReserved ρ) (item : Item) :
    parseDerive (item.rename ρ σ) = (parseDerive item).map (Expansion.rename ρ σ) := by
  cases item with
  | other a => rfl
  | struct_ s =>
    show deriveStruct _ = (deriveStruct s).map _
    unfold deriveStruct
    simp only [ItemStruct.visit, fields_visit]
    rw [map_bind]
    congr 1
    funext cx
    rw [parseStruct_rename (σ := σ) hk, bind_map, map_bind]
    congr 1
    funext t
    exact congrArg Except.ok (into_rename hk cx t)
  | enum_ e =>
    show deriveEnum _ = (deriveEnum e).map _
    unfold deriveEnum
    have hv : ∀ s : SelfTy, (e.variants.map (Variant.rename ρ σ)).map (Variant.visit s) =
        (e.variants.map (Variant.visit s)).map (Variant.rename ρ σ) := by
      intro s
      rw [List.map_map, List.map_map]
      exact List.map_congr_left (fun v _ => variant_visit s v)
    simp only [ItemEnum.visit, hv]
    rw [map_bind]
    congr 1
    funext cx
    rw [parseEnum_rename (σ := σ) hk, bind_map, map_bind]
    congr 1
    funext t
    exact congrArg Except.ok (into_rename hk cx t)

/-- C90, on its own: whether a definition is accepted, and the error message if it is not, do not
depend on the names of its fields and variants. -/
theorem C90_errors {ρ σ : String → String} (hk : KeepsReserved ρ) (item : Item) (e : Err) :
    parseDerive (item.rename ρ σ) = .error e ↔ parseDerive item = .error e := by
  rw [C90_rename hk]
  cases parseDerive item <;> simp [Except.map]

/-! ## A renaming that is not the identity -/

/-- Swap the names `x` and `y`. -/
def swapXY (s : String) : String := if s = "x" then "y" else if s = "y" then "x" else s

theorem swapXY_keeps : KeepsReserved swapXY := by
  have hx : ¬ ReservedName "x" := by
    intro h
    generalize hs : "x" = s at h
    cases h with
    | self_ h => exact absurd (hs.trans h) (by decide)
    | empty h => subst hs; exact absurd h (by decide)
    | underscore h => subst hs; exact absurd h (by decide)
    | index h hc =>
      subst hs
      obtain rfl := (List.cons.inj (h.symm.trans (by decide : "x".toList = ['x']))).1
      exact absurd hc (by decide)
    | template h => subst hs; exact absurd (List.cons.inj h).1 (by decide)
  have hy : ¬ ReservedName "y" := by
    intro h
    generalize hs : "y" = s at h
    cases h with
    | self_ h => exact absurd (hs.trans h) (by decide)
    | empty h => subst hs; exact absurd h (by decide)
    | underscore h => subst hs; exact absurd h (by decide)
    | index h hc =>
      subst hs
      obtain rfl := (List.cons.inj (h.symm.trans (by decide : "y".toList = ['y']))).1
      exact absurd hc (by decide)
    | template h => subst hs; exact absurd (List.cons.inj h).1 (by decide)
  intro s h
  have h1 : s ≠ "x" := by rintro rfl; exact hx h
  have h2 : s ≠ "y" := by rintro rfl; exact hy h
  simp [swapXY, h1, h2]

/-- The two fields of a struct change names: both definitions are accepted. -/
example : ∃ E, parseDerive (.struct_ (demoGeneric [])) = .ok E ∧
    parseDerive ((Item.struct_ (demoGeneric [])).rename swapXY id) = .ok (E.rename swapXY id) ∧
    ((demoGeneric []).fields.rename swapXY).list.map (·.ident) = [some "y", some "x"] := by
  have h : ∃ E, parseDerive (.struct_ (demoGeneric [])) = .ok E := ⟨_, rfl⟩
  obtain ⟨E, h⟩ := h
  refine ⟨E, h, ?_, by decide⟩
  rw [C90_rename swapXY_keeps, h]
  rfl

/-- Variants are renamed too. -/
example : ∃ E, parseDerive (.enum_ demoEnum) = .ok E ∧
    parseDerive ((Item.enum_ demoEnum).rename swapXY (fun v => v ++ "2")) =
      .ok (E.rename swapXY (fun v => v ++ "2")) ∧
    demoEnum.variants.map (fun v => (v.rename swapXY (fun v => v ++ "2")).ident) = ["V2", "W2", "N2"] := by
  have h : ∃ E, parseDerive (.enum_ demoEnum) = .ok E := ⟨_, rfl⟩
  obtain ⟨E, h⟩ := h
  refine ⟨E, h, ?_, by decide⟩
  rw [C90_rename swapXY_keeps, h]
  rfl

/-- What is renamed in a body: the pattern, the constructor and the guards. -/
example : (GStmt.letPat ⟨none, some .brace, ["x", "y"]⟩ (.getUncheckedMut "self")).rename swapXY id =
    .letPat ⟨none, some .brace, ["y", "x"]⟩ (.getUncheckedMut "self") := by decide

/-- The condition is needed: a field that was called `self` would be another program. -/
example : ¬ KeepsReserved (fun s => if s = "self" then "x" else s) := by
  intro h
  exact absurd (h "self" (.self_ rfl)) (by decide)

end PinProject
