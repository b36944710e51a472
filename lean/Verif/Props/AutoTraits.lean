import Verif.Spec.AutoTraits
import Verif.Props.Unpin
/-!
# Auto traits of the projections: C62
-/
namespace PinProject
open Spec

/-- The type of a field in the projection. -/
def modeFieldTy (mode : Mode) (lt : String) (f : Field) : GTy :=
  match mode with
  | .proj => (projField lt f).ty
  | .projRef => (projRefField lt f).ty
  | .replace => (projOwnField f).ty

theorem modeFields_tys (mode : Mode) (lt : String) (fs : Fields) :
    (modeFields mode lt fs).fields.map GField.ty = fs.list.map (modeFieldTy mode lt) := by
  cases mode <;> simp [modeFields, modeFieldTy]

/-- A property of the types of all fields of a projection, in terms of the fields of the definition. -/
theorem modeDef_fields {item : Item} {A : Args} {mode : Mode} {vis : Vis} {ident : String} {g : Generics}
    (Q : GTy → Prop) :
    (∀ v ∈ (modeDef A mode vis ident g (preVariants item)).variants, ∀ f ∈ v.2.fields, Q f.ty) ↔
      ∀ f ∈ itemFields item, Q (modeFieldTy mode (determineLifetimeName "'pin" g) (f.visit (itemSelfTy item))) := by
  have key : ∀ fs : Fields, (∀ f ∈ (modeFields mode (determineLifetimeName "'pin" g) (fs.visit (itemSelfTy item))).fields, Q f.ty) ↔
      ∀ f ∈ fs.list, Q (modeFieldTy mode (determineLifetimeName "'pin" g) (f.visit (itemSelfTy item))) := by
    intro fs
    have h := modeFields_tys mode (determineLifetimeName "'pin" g) (fs.visit (itemSelfTy item))
    rw [list_visit, List.map_map] at h
    have e1 : (∀ f ∈ (modeFields mode (determineLifetimeName "'pin" g) (fs.visit (itemSelfTy item))).fields, Q f.ty) ↔
        ∀ t ∈ (modeFields mode (determineLifetimeName "'pin" g) (fs.visit (itemSelfTy item))).fields.map GField.ty, Q t := by
      rw [List.forall_mem_map]
    rw [e1, h, List.forall_mem_map]
    rfl
  simp only [modeDef, List.forall_mem_map, preVariants]
  simp only [key]
  cases item with
  | struct_ s => simp [itemVariants, itemFields]
  | enum_ e =>
    simp only [itemVariants, List.forall_mem_map, itemFields, List.mem_flatMap]
    exact ⟨fun h f ⟨v, hv, hf⟩ => h v hv f hf, fun h v hv f hf => h f ⟨v, hv, hf⟩⟩
  | other a => simp [itemVariants, itemFields]

/-- **C62** A projection implements an auto trait exactly when every field makes it do so: for `project`, when
a mutable reference to each field does, pinned or not; for `project_ref`, when a shared reference to each
field does; for `project_replace`, when each field does, also the pinned ones, which are not part of the
result. This holds for every auto trait, every meaning of the user's types and every instance. -/
theorem C62_auto (item : Item) (E : Expansion) (h : parseDerive item = .ok E) (hsc : WellScoped item)
    (mode : Mode) (fn : GFn) (hfn : method E mode.fn = some fn) (n : String) (gas : List GArg)
    (hret : fn.ret = .adt n gas) (P : Program) (hn : Denotes P E n) (N : Names) (hN : N.Lawful)
    (T : AutoTrait) (explicit : String → Prop) (hT : T.Solves P N explicit) (hno : ¬ explicit n)
    (r : TArg) (args : List TArg) :
    T.holds (.adt n (projArgs mode r args)) ↔
      ∀ f ∈ itemFields item, T.needs mode (N.den (instSubst item args) (resolved item f.ty)) := by
  obtain ⟨A, ident, h1, h2, h3, h4, h5, h6⟩ := method_def item E h mode fn hfn
  rw [hret] at h4
  injection h4 with h4 _
  have hd := hn _ (typeDefs_all h3) h4.symm
  rw [hT.adt n (projArgs mode r args) _ hno hd]
  rw [modeDef_fields (fun t => T.holds (N.denote (substOf (modeDef A mode (itemVis item).visit ident (preGenerics item)
    (preVariants item)).params (projArgs mode r args)) (.adt n (projArgs mode r args)) t))]
  apply forall_congr'; intro f
  apply forall_congr'; intro hf
  have hp := preGenerics_params item hsc.lifetimesFirst
  have hfl : (f.visit (itemSelfTy item)).ty = resolved item f.ty := rfl
  have hset := (instance_set (item := item) hN hsc (instSubst item args) r).2.2 f hf
  have hden : N.den (substOf (modeDef A mode (itemVis item).visit ident (preGenerics item)
      (preVariants item)).params (projArgs mode r args)) (resolved item f.ty) =
      N.den (instSubst item args) (resolved item f.ty) := by
    cases mode with
    | replace => simp only [modeDef, modeGenerics, projArgs, hp]; rfl
    | proj => simp only [modeDef, modeGenerics, projArgs, defParams_insert, hp, substOf_cons]; exact hset
    | projRef => simp only [modeDef, modeGenerics, projArgs, defParams_insert, hp, substOf_cons]; exact hset
  cases mode <;> cases hpin : Pinned (f.visit (itemSelfTy item)) <;>
    simp [modeFieldTy, projField, projRefField, projOwnField, hpin, Names.denote, hT.ref, hT.pin, hT.phantom, hfl, hden,
      AutoTrait.needs]

/-- **C62** `Send` and `Sync`: the result of `project` is `Send` (`Sync`) exactly when all fields are; the
result of `project_ref` is `Send` or `Sync` exactly when all fields are `Sync`; the result of
`project_replace` is `Send` (`Sync`) exactly when all fields are. -/
theorem C62_send_sync (item : Item) (E : Expansion) (h : parseDerive item = .ok E) (hsc : WellScoped item)
    (mode : Mode) (fn : GFn) (hfn : method E mode.fn = some fn) (n : String) (gas : List GArg)
    (hret : fn.ret = .adt n gas) (P : Program) (hn : Denotes P E n) (N : Names) (hN : N.Lawful)
    (send sync : Ty → Prop) (explicit : String → Prop) (hsend : (sendTrait send sync).Solves P N explicit)
    (hsync : (syncTrait sync).Solves P N explicit) (hno : ¬ explicit n)
    (r : TArg) (args : List TArg) :
    (send (.adt n (projArgs mode r args)) ↔ ∀ f ∈ itemFields item,
      if mode = .projRef then sync (N.den (instSubst item args) (resolved item f.ty))
      else send (N.den (instSubst item args) (resolved item f.ty))) ∧
    (sync (.adt n (projArgs mode r args)) ↔ ∀ f ∈ itemFields item,
      sync (N.den (instSubst item args) (resolved item f.ty))) := by
  constructor
  · refine (C62_auto item E h hsc mode fn hfn n gas hret P hn N hN _ explicit hsend hno r args).trans ?_
    cases mode <;> simp [AutoTrait.needs, sendTrait]
  · refine (C62_auto item E h hsc mode fn hfn n gas hret P hn N hN _ explicit hsync hno r args).trans ?_
    cases mode <;> simp [AutoTrait.needs, syncTrait]

/-- **C62** `Unpin`: the results of `project` and `project_ref` are always `Unpin`; the result of
`project_replace` is exactly when all fields are. This holds of every solution of trait resolution. -/
theorem C62_unpin (item : Item) (E : Expansion) (h : parseDerive item = .ok E) (hsc : WellScoped item)
    (mode : Mode) (fn : GFn) (hfn : method E mode.fn = some fn) (n : String) (gas : List GArg)
    (hret : fn.ret = .adt n gas) (P : Program) (hn : Denotes P E n) (N : Names) (hN : N.Lawful)
    (F : Facts) (hF : P.Solves N F) (hno : ¬ P.HasImpl .unpin n)
    (r : TArg) (args : List TArg) :
    F.unpin (.adt n (projArgs mode r args)) ↔
      mode ≠ .replace ∨ ∀ f ∈ itemFields item, F.unpin (N.den (instSubst item args) (resolved item f.ty)) := by
  have hT : (unpinTrait F.unpin).Solves P N (P.HasImpl .unpin) := by
    refine ⟨fun b t => hF.unpin _, fun t => hF.unpin _, fun t => hF.unpin _, ?_⟩
    intro n args d hno hd
    refine (hF.unpin _).trans ?_
    simp only [Program.unpinStep, hno, false_and, not_false_eq_true, true_and, false_or, hd]
    rfl
  refine (C62_auto item E h hsc mode fn hfn n gas hret P hn N hN _ _ hT hno r args).trans ?_
  cases mode <;> simp [AutoTrait.needs, unpinTrait]

/-! ## Solutions exist, and an example -/

/-- One step of resolving an auto trait. Of types about which nothing is known, `base` says whether they
implement it. -/
def autoStep (P : Program) (N : Names) (explicit : String → Prop) (base : Ty → Prop)
    (onRef : (Ty → Prop) → Bool → Ty → Prop) (S : Ty → Prop) : Ty → Prop
  | .ref b t => onRef S b t
  | .pin t => S t
  | .phantomData t => S t
  | .tuple ts => ∀ t ∈ ts, S t
  | .adt n args => (explicit n ∨ P.defOf n = none) ∧ base (.adt n args) ∨
      ¬ explicit n ∧ ∃ d, P.defOf n = some d ∧ ∀ v ∈ d.variants, ∀ f ∈ v.2.fields,
        S (N.denote (substOf d.params args) (.adt n args) f.ty)
  | t => base t

/-- The greatest solution. -/
def autoGreatest (P : Program) (N : Names) (explicit : String → Prop) (base : Ty → Prop)
    (onRef : (Ty → Prop) → Bool → Ty → Prop) (t : Ty) : Prop :=
  ∃ S : Ty → Prop, (∀ t, S t → autoStep P N explicit base onRef S t) ∧ S t

theorem autoStep_mono {P : Program} {N : Names} {explicit : String → Prop} {base : Ty → Prop}
    {onRef : (Ty → Prop) → Bool → Ty → Prop} (hm : ∀ S S' : Ty → Prop, (∀ t, S t → S' t) → ∀ b t, onRef S b t → onRef S' b t)
    {S S' : Ty → Prop} (hs : ∀ t, S t → S' t) (t : Ty) (h : autoStep P N explicit base onRef S t) :
    autoStep P N explicit base onRef S' t := by
  cases t with
  | ref b t => exact hm S S' hs b t h
  | pin t => exact hs _ h
  | phantomData t => exact hs _ h
  | tuple ts => exact fun t ht => hs _ (h t ht)
  | adt n args =>
    rcases h with h | ⟨h1, d, h2, h3⟩
    · exact .inl h
    · exact .inr ⟨h1, d, h2, fun v hv f hf => hs _ (h3 v hv f hf)⟩
  | ext n as => exact h
  | ptr t => exact h
  | phantomPinned => exact h

theorem autoGreatest_iff {P : Program} {N : Names} {explicit : String → Prop} {base : Ty → Prop}
    {onRef : (Ty → Prop) → Bool → Ty → Prop} (hm : ∀ S S' : Ty → Prop, (∀ t, S t → S' t) → ∀ b t, onRef S b t → onRef S' b t)
    (t : Ty) : autoGreatest P N explicit base onRef t ↔
      autoStep P N explicit base onRef (autoGreatest P N explicit base onRef) t := by
  have h1 : ∀ t, autoGreatest P N explicit base onRef t →
      autoStep P N explicit base onRef (autoGreatest P N explicit base onRef) t := by
    rintro t ⟨S, hS, ht⟩
    exact autoStep_mono hm (fun t' ht' => ⟨S, hS, ht'⟩) t (hS t ht)
  refine ⟨h1 t, fun h => ?_⟩
  exact ⟨_, fun t' ht' => autoStep_mono hm h1 t' ht', h⟩

/-- Every auto trait has a solution in every program, whatever is assumed about unknown types. -/
theorem AutoTrait.solves_exists (P : Program) (N : Names) (explicit : String → Prop) (base : Ty → Prop)
    (onRef : (Ty → Prop) → Bool → Ty → Prop) (hm : ∀ S S' : Ty → Prop, (∀ t, S t → S' t) → ∀ b t, onRef S b t → onRef S' b t) :
    ∃ S : Ty → Prop, AutoTrait.Solves ⟨S, onRef S⟩ P N explicit ∧ ∀ n as, S (.ext n as) ↔ base (.ext n as) := by
  refine ⟨autoGreatest P N explicit base onRef, ⟨?_, ?_, ?_, ?_⟩, ?_⟩
  · exact fun b t => autoGreatest_iff hm (.ref b t)
  · exact fun t => autoGreatest_iff hm (.pin t)
  · exact fun t => autoGreatest_iff hm (.phantomData t)
  · intro n args d hno hd
    refine (autoGreatest_iff hm (.adt n args)).trans ?_
    simp [autoStep, hno, hd]
  · exact fun n as => autoGreatest_iff hm (.ext n as)

/-- `Send` and `Sync` have solutions. -/
theorem send_sync_exists (P : Program) (N : Names) (explicit : String → Prop) (base base' : Ty → Prop) :
    ∃ send sync : Ty → Prop, (sendTrait send sync).Solves P N explicit ∧ (syncTrait sync).Solves P N explicit ∧
      (∀ n as, send (.ext n as) ↔ base (.ext n as)) ∧ ∀ n as, sync (.ext n as) ↔ base' (.ext n as) := by
  obtain ⟨sync, h1, h2⟩ := AutoTrait.solves_exists P N explicit base' (fun S _ t => S t) (fun S S' h b t => h t)
  obtain ⟨send, h3, h4⟩ := AutoTrait.solves_exists P N explicit base (fun S b t => if b then S t else sync t)
    (fun S S' h b t => by cases b <;> simp; exact h t)
  exact ⟨send, sync, h3, h1, h4, h2⟩

theorem find_of_nodup {l : List TypeDef} (h : (l.map TypeDef.name).Nodup) {d : TypeDef} (hd : d ∈ l) :
    l.find? (fun x => x.name == d.name) = some d := by
  induction l with
  | nil => cases hd
  | cons x l ih =>
    rw [List.map_cons, List.nodup_cons] at h
    rcases List.mem_cons.1 hd with rfl | hd
    · simp
    · rw [List.find?_cons_of_neg, ih h.2 hd]
      rw [beq_iff_eq]
      intro he
      exact h.1 (he ▸ List.mem_map_of_mem hd)

/-- When the names in a program are distinct, they mean the generated types. -/
theorem denotes_of_nodup {P : Program} {E : Expansion} (hsub : ∀ i ∈ allItems E, i ∈ P.items)
    (h : ((typeDefs P.items).map TypeDef.name).Nodup) (n : String) : Denotes P E n := by
  rintro d hd rfl
  apply find_of_nodup h
  obtain ⟨i, hi, he⟩ := List.mem_filterMap.1 hd
  exact List.mem_filterMap.2 ⟨i, hsub i hi, he⟩

/-- C62 for the example `struct G<'a, T, U> { #[pin] x: T, y: U }`: the hypotheses can be met. Where `T` is a foreign
type that is `Send` and not `Sync`, such as a `Cell`, and `U` is both, the projection is `Send` but not `Sync`, and the
shared projection is not `Send`. -/
example : ∃ (E : Expansion) (send sync : Ty → Prop),
    parseDerive (.struct_ (demoGeneric [])) = .ok E ∧
    (sendTrait send sync).Solves ⟨runtimeItems ++ allItems E, []⟩ demoNames (fun _ => False) ∧
    (syncTrait sync).Solves ⟨runtimeItems ++ allItems E, []⟩ demoNames (fun _ => False) ∧
    send (.adt "__GProjection" [.lt 0, .lt 1, .ty (.ext 3 []), .ty (.ext 4 [])]) ∧
    ¬ sync (.adt "__GProjection" [.lt 0, .lt 1, .ty (.ext 3 []), .ty (.ext 4 [])]) ∧
    ¬ send (.adt "__GProjectionRef" [.lt 0, .lt 1, .ty (.ext 3 []), .ty (.ext 4 [])]) := by
  obtain ⟨E, hE, d1, f1, f2⟩ : ∃ E, parseDerive (.struct_ (demoGeneric [])) = .ok E ∧
      (∀ n, Denotes ⟨runtimeItems ++ allItems E, []⟩ E n) ∧
      (∃ fn gas, method E Mode.proj.fn = some fn ∧ fn.ret = .adt "__GProjection" gas) ∧
      (∃ fn gas, method E Mode.projRef.fn = some fn ∧ fn.ret = .adt "__GProjectionRef" gas) := by
    refine ⟨_, rfl, ?_, ⟨_, _, rfl, rfl⟩, ⟨_, _, rfl, rfl⟩⟩
    apply denotes_of_nodup (fun i hi => List.mem_append_right _ hi)
    change [wrapperName, alwaysUnpinName, "__GProjection", "__GProjectionRef", "__G"].Nodup
    decide
  obtain ⟨send, sync, h1, h2, h3, h4⟩ := send_sync_exists ⟨runtimeItems ++ allItems E, []⟩ demoNames (fun _ => False)
    (fun _ => True) (fun t => t ≠ .ext 3 [])
  obtain ⟨fn, gas, g1, g2⟩ := f1
  obtain ⟨fn', gas', g3, g4⟩ := f2
  have k1 := C62_send_sync _ E hE (demoGeneric_scoped []) .proj fn g1 _ gas g2 _ (d1 _) _ demoNames_lawful send sync _ h1 h2
    (fun h => h) (.lt 0) [.lt 1, .ty (.ext 3 []), .ty (.ext 4 [])]
  have k2 := C62_send_sync _ E hE (demoGeneric_scoped []) .projRef fn' g3 _ gas' g4 _ (d1 _) _ demoNames_lawful send sync _ h1 h2
    (fun h => h) (.lt 0) [.lt 1, .ty (.ext 3 []), .ty (.ext 4 [])]
  refine ⟨E, send, sync, hE, h1, h2, k1.1.2 ?_, fun h => ?_, fun h => ?_⟩
  · rintro f hf
    simp [itemFields, demoGeneric, Fields.list] at hf
    rcases hf with rfl | rfl
    · exact (h3 3 []).2 trivial
    · exact (h3 4 []).2 trivial
  · exact (h4 3 []).1 (k1.2.1 h _ (.head _)) rfl
  · exact (h4 3 []).1 (k2.1.1 h _ (.head _)) rfl

end PinProject
