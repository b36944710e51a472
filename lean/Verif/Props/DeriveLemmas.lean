import Verif.Spec.Shape
import Verif.Model.Derive
import Verif.Props.ArgsLemmas
/-!
# Closed forms for the functions of derive.rs
-/
namespace PinProject
open Spec

theorem isIdent_iff {p : SPath} {s : String} : p.isIdent s = true ↔ p = { leading := false, segs := [s] } := by
  obtain ⟨l, segs⟩ := p
  cases l <;> simp [SPath.isIdent]

theorem isPinAttr_eq (a : Attribute) : a.path.isIdent "pin" = isPinAttr a := by
  rw [Bool.eq_iff_iff, isIdent_iff]
  simp [isPinAttr]

theorem requirePathOnly_ok {m : Meta} : m.requirePathOnly = .ok () ↔ ∃ p, m = .path p := by
  cases m <;> simp [Meta.requirePathOnly]

theorem positionExactFrom_some (attrs : List Attribute) (i k : Nat) (r : Option Nat) :
    positionExactFrom "pin" attrs i (some k) = .ok r ↔ attrs.filter isPinAttr = [] ∧ r = some k := by
  induction attrs generalizing i with
  | nil => simp [positionExactFrom, eq_comm]
  | cons a as ih =>
    rw [positionExactFrom, isPinAttr_eq, List.filter_cons]
    cases h : isPinAttr a <;> simp [ih]

theorem positionExactFrom_none (attrs : List Attribute) (i : Nat) (r : Option Nat) :
    positionExactFrom "pin" attrs i none = .ok r →
      PinOk attrs ∧ r.isSome = attrs.any isPinAttr := by
  induction attrs generalizing i with
  | nil =>
    intro h
    simp only [positionExactFrom, Except.ok.injEq] at h
    subst h
    exact ⟨.inl rfl, rfl⟩
  | cons a as ih =>
    rw [positionExactFrom, isPinAttr_eq]
    cases h : isPinAttr a with
    | false =>
      intro h1
      have := ih (i + 1) h1
      simpa [PinOk, List.filter_cons, h] using this
    | true =>
      simp only [if_true, Option.isSome_none, Bool.false_eq_true, if_false, bind_ok]
      rintro ⟨_, h1, h2⟩
      obtain ⟨p, hp⟩ := requirePathOnly_ok.1 h1
      obtain ⟨h3, rfl⟩ := (positionExactFrom_some _ _ _ _).1 h2
      have ha : a = ⟨.path { leading := false, segs := ["pin"] }⟩ := by
        obtain ⟨m⟩ := a
        simp only at hp
        subst hp
        simpa [isPinAttr, Attribute.path, Meta.getPath] using h
      refine ⟨.inr ?_, by simp [h]⟩
      rw [List.filter_cons, h, if_pos rfl, h3, ha]

theorem positionExactFrom_of_ok (attrs : List Attribute) (i : Nat) (h : PinOk attrs) :
    ∃ r, positionExactFrom "pin" attrs i none = .ok r := by
  induction attrs generalizing i with
  | nil => exact ⟨none, rfl⟩
  | cons a as ih =>
    rw [positionExactFrom, isPinAttr_eq]
    cases ha : isPinAttr a with
    | false =>
      simp only [Bool.false_eq_true, if_false]
      apply ih
      simpa [PinOk, List.filter_cons, ha] using h
    | true =>
      simp only [PinOk, List.filter_cons, ha, if_true, List.cons_ne_nil, false_or,
        List.cons.injEq] at h
      simp only [if_true, Option.isSome_none, Bool.false_eq_true, if_false]
      refine ⟨some i, ?_⟩
      rw [bind_ok]
      exact ⟨(), by rw [h.1]; rfl, (positionExactFrom_some _ _ _ _).2 ⟨h.2, rfl⟩⟩

/-- `#[pin]` on a field is accepted exactly when it is used legally, and then the field counts
as pinned exactly when the attribute is present. -/
theorem positionExact_iff (attrs : List Attribute) :
    (∃ r, positionExact attrs "pin" = .ok r ∧ r.isSome = attrs.any isPinAttr) ↔ PinOk attrs := by
  constructor
  · rintro ⟨r, h, _⟩; exact (positionExactFrom_none _ _ _ h).1
  · intro h
    obtain ⟨r, hr⟩ := positionExactFrom_of_ok attrs 0 h
    exact ⟨r, hr, (positionExactFrom_none _ _ _ hr).2⟩

/-! ## `visit_fields` -/

/-- The `i`-th field's entry in `proj_fields`. -/
def projField (lt : String) (f : Field) : GField :=
  ⟨f.vis, f.ident, if Pinned f then .pin .abs (.ref (some lt) true (.paren (.user f.ty)))
    else .ref (some lt) true (.paren (.user f.ty))⟩
def projRefField (lt : String) (f : Field) : GField :=
  ⟨f.vis, f.ident, if Pinned f then .pin .abs (.ref (some lt) false (.paren (.user f.ty)))
    else .ref (some lt) false (.paren (.user f.ty))⟩
def projOwnField (f : Field) : GField :=
  ⟨f.vis, f.ident, if Pinned f then .phantomData .abs (.user f.ty) else .user f.ty⟩
def projInit (x : Field × Nat) : GInit :=
  if Pinned x.1 then .labelled x.1.ident (.pinNew (binding x.2 x.1)) else .bare (binding x.2 x.1)
def moveInit (x : Field × Nat) : GInit :=
  .labelled x.1.ident (if Pinned x.1 then .phantom else .read (binding x.2 x.1))

def bindings (fs : List Field) : List String := fs.zipIdx.map (fun x => binding x.2 x.1)
def pinnedBindings (fs : List Field) : List String :=
  (fs.zipIdx.filter (fun x => Pinned x.1)).map (fun x => binding x.2 x.1)

theorem visitFieldsLoop_iff (cx : Ctx) (fs : List Field) (a a' : FieldAcc) (i : Nat) :
    visitFieldsLoop cx a i fs = .ok a' ↔
      (∀ f ∈ fs, PinOk f.attrs) ∧
      a' = { pat := a.pat ++ (fs.zipIdx i).map (fun x => binding x.2 x.1)
             body := a.body ++ (fs.zipIdx i).map projInit
             fields := a.fields ++ fs.map (projField cx.lifetime)
             refFields := a.refFields ++ fs.map (projRefField cx.lifetime)
             ownFields := a.ownFields ++ fs.map projOwnField
             move := a.move ++ (fs.zipIdx i).map moveInit
             pinned := a.pinned ++
               ((fs.zipIdx i).filter (fun x => Pinned x.1)).map (fun x => binding x.2 x.1)
             pinnedTys := a.pinnedTys ++ (fs.filter Pinned).map (·.ty) } := by
  induction fs generalizing a i with
  | nil => simp [visitFieldsLoop, eq_comm]
  | cons f fs ih =>
    rw [visitFieldsLoop, bind_ok]
    by_cases hok : PinOk f.attrs
    · obtain ⟨r, hr, hs⟩ := (positionExact_iff _).2 hok
      have hv : ∃ b, visitField cx a i f = .ok b ∧
          b = { pat := a.pat ++ [binding i f]
                body := a.body ++ [projInit (f, i)]
                fields := a.fields ++ [projField cx.lifetime f]
                refFields := a.refFields ++ [projRefField cx.lifetime f]
                ownFields := a.ownFields ++ [projOwnField f]
                move := a.move ++ [moveInit (f, i)]
                pinned := a.pinned ++ (if Pinned f then [binding i f] else [])
                pinnedTys := a.pinnedTys ++ (if Pinned f then [f.ty] else []) } := by
        unfold visitField
        rw [hr]
        simp only [ok_bind]
        have hp : r.isSome = Pinned f := hs
        rw [hp]
        cases h : Pinned f <;>
          simp [projInit, projField, projRefField, projOwnField, moveInit, h]
      obtain ⟨b, hb, hbe⟩ := hv
      constructor
      · rintro ⟨b', hb', h2⟩
        rw [hb] at hb'
        obtain rfl := Except.ok.inj hb'
        obtain ⟨h3, h4⟩ := (ih _ _).1 h2
        refine ⟨by simpa using ⟨hok, h3⟩, ?_⟩
        rw [h4, hbe]
        cases h : Pinned f <;> simp [List.zipIdx_cons, h]
      · rintro ⟨h1, h2⟩
        refine ⟨b, hb, (ih _ _).2 ⟨fun g hg => h1 g (List.mem_cons_of_mem _ hg), ?_⟩⟩
        rw [h2, hbe]
        cases h : Pinned f <;> simp [List.zipIdx_cons, h]
    · constructor
      · rintro ⟨b, hb, _⟩
        exfalso
        apply hok
        unfold visitField at hb
        rw [bind_ok] at hb
        obtain ⟨r, hr, _⟩ := hb
        exact (positionExactFrom_none _ _ _ hr).1
      · rintro ⟨h1, _⟩
        exact absurd (h1 f (by simp)) hok

/-- The closed form of `visit_fields` (derive.rs:571-648). -/
def projected (cx : Ctx) (variant : Option String) (d : Delim) (fs : List Field) : ProjectedFields where
  projPat := ⟨variant, some d, bindings fs⟩
  projBody := (some d, fs.zipIdx.map projInit)
  projOwnBody := projOwnBody cx variant (some d, fs.zipIdx.map moveInit) (pinnedBindings fs)
  projFields := ⟨some d, fs.map (projField cx.lifetime)⟩
  projRefFields := ⟨some d, fs.map (projRefField cx.lifetime)⟩
  projOwnFields := ⟨some d, fs.map projOwnField⟩

/-- The delimiter of a field list. -/
def Fields.delim : Fields → Option Delim
  | .named _ => some .brace
  | .unnamed _ => some .paren
  | .unit => none

/-- The closed form of derive.rs:530-537. -/
def projectedOf (cx : Ctx) (variant : Option String) (fields : Fields) : ProjectedFields where
  projPat := ⟨variant, fields.delim, bindings fields.list⟩
  projBody := (fields.delim, fields.list.zipIdx.map projInit)
  projOwnBody := projOwnBody cx variant (fields.delim, fields.list.zipIdx.map moveInit)
    (pinnedBindings fields.list)
  projFields := ⟨fields.delim, fields.list.map (projField cx.lifetime)⟩
  projRefFields := ⟨fields.delim, fields.list.map (projRefField cx.lifetime)⟩
  projOwnFields := ⟨fields.delim, fields.list.map projOwnField⟩

def pinnedTys (fs : List Field) : List Node := (fs.filter Pinned).map (·.ty)

theorem visitFields_iff (cx : Ctx) (variant : Option String) (fields : Fields) (d : Delim)
    (r : ProjectedFields × List Node) :
    visitFields cx variant fields d = .ok r ↔
      (∀ f ∈ fields.list, PinOk f.attrs) ∧
      r = (projected cx variant d fields.list, pinnedTys fields.list) := by
  unfold visitFields
  rw [bind_ok]
  constructor
  · rintro ⟨a, h1, h2⟩
    obtain ⟨h3, rfl⟩ := (visitFieldsLoop_iff _ _ _ _ _).1 h1
    refine ⟨h3, ?_⟩
    rw [← Except.ok.inj h2]
    simp [projected, pinnedTys, bindings, pinnedBindings]
  · rintro ⟨h3, rfl⟩
    refine ⟨_, (visitFieldsLoop_iff _ _ _ _ _).2 ⟨h3, rfl⟩, ?_⟩
    simp [projected, pinnedTys, bindings, pinnedBindings]

theorem visitFieldsOf_iff (cx : Ctx) (variant : Option String) (fields : Fields)
    (r : ProjectedFields × List Node) :
    visitFieldsOf cx variant fields = .ok r ↔
      (∀ f ∈ fields.list, PinOk f.attrs) ∧
      r = (projectedOf cx variant fields, pinnedTys fields.list) := by
  cases fields with
  | named fs => simp only [visitFieldsOf]; rw [visitFields_iff]; rfl
  | unnamed fs => simp only [visitFieldsOf]; rw [visitFields_iff]; rfl
  | unit =>
    simp [visitFieldsOf, Fields.list, projectedOf, pinnedTys, bindings, pinnedBindings,
      Fields.delim, eq_comm]

theorem visitVariants_iff (cx : Ctx) (vs : List Variant) (a r : ProjectedVariants) :
    visitVariants cx a vs = .ok r ↔
      (∀ v ∈ vs, ∀ f ∈ v.fields.list, PinOk f.attrs) ∧
      r = { projVariants := a.projVariants ++
              vs.map (fun v => (v.ident, (projectedOf cx (some v.ident) v.fields).projFields))
            projRefVariants := a.projRefVariants ++
              vs.map (fun v => (v.ident, (projectedOf cx (some v.ident) v.fields).projRefFields))
            projOwnVariants := a.projOwnVariants ++
              vs.map (fun v => (v.ident, (projectedOf cx (some v.ident) v.fields).projOwnFields))
            projArms := a.projArms ++ vs.map (fun v =>
              let pf := projectedOf cx (some v.ident) v.fields
              ⟨pf.projPat, [], .ctor ⟨cx.mutIdent, some v.ident, pf.projBody.1, pf.projBody.2⟩⟩)
            projRefArms := a.projRefArms ++ vs.map (fun v =>
              let pf := projectedOf cx (some v.ident) v.fields
              ⟨pf.projPat, [], .ctor ⟨cx.refIdent, some v.ident, pf.projBody.1, pf.projBody.2⟩⟩)
            projOwnArms := a.projOwnArms ++ vs.map (fun v =>
              let pf := projectedOf cx (some v.ident) v.fields
              ⟨pf.projPat, pf.projOwnBody.1, pf.projOwnBody.2⟩)
            pinnedTys := a.pinnedTys ++ vs.flatMap (fun v => pinnedTys v.fields.list) } := by
  induction vs generalizing a with
  | nil => simp [visitVariants, eq_comm]
  | cons v vs ih =>
    rw [visitVariants, bind_ok]
    constructor
    · rintro ⟨p, h1, h2⟩
      obtain ⟨h3, rfl⟩ := (visitFieldsOf_iff _ _ _ _).1 h1
      obtain ⟨h4, h5⟩ := (ih _).1 h2
      refine ⟨by simpa using ⟨h3, h4⟩, ?_⟩
      rw [h5]
      simp [List.append_assoc]
    · rintro ⟨h1, h2⟩
      refine ⟨_, (visitFieldsOf_iff _ _ _ _).2 ⟨h1 v (by simp), rfl⟩, (ih _).2 ⟨?_, ?_⟩⟩
      · intro w hw; exact h1 w (List.mem_cons_of_mem _ hw)
      · rw [h2]; simp [List.append_assoc]

/-! ## `Context::new` -/

/-- The context for parsed arguments (derive.rs:212-251). -/
def mkCtx (A : Args) (attrs : List Attribute) (vis : Vis) (ident : String) (g : Generics)
    (kind : TypeKind) : Ctx :=
  let lifetime := determineLifetimeName "'pin" g
  { attrs, vis, ident, generics := g.makeWhere, kind
    pinnedDrop := A.pinnedDrop
    unpinImpl := A.unpinImpl
    project := A.project.isSome
    projectRef := A.projectRef.isSome
    projectReplace := A.projectReplace
    projVis := determineVisibility vis
    mutIdent := A.project.getD ("__" ++ unraw ident ++ "Projection")
    refIdent := A.projectRef.getD ("__" ++ unraw ident ++ "ProjectionRef")
    ownIdent := A.projectReplace.ident.getD ("__" ++ unraw ident ++ "ProjectionOwned")
    lifetime
    projGenerics := g.insertLifetime lifetime
    projWhere := g.preds ++ [.outlives (.adt ident g.tyGenerics) lifetime] }

theorem names_any (A : Args) (ident : String) :
    [A.project, A.projectRef, A.projectReplace.ident].any (fun n => n == some ident) = true ↔
      ident ∈ userNames A := by
  simp [userNames, Option.mem_toList]

theorem ctxNew_iff (attrs : List Attribute) (vis : Vis) (ident : String) (g : Generics)
    (kind : TypeKind) (cx : Ctx) :
    Ctx.new attrs vis ident g kind = .ok cx ↔
      ∃ A, parseArgs attrs = .ok A ∧ ident ∉ userNames A ∧ cx = mkCtx A attrs vis ident g kind := by
  unfold Ctx.new
  rw [bind_ok]
  constructor
  · rintro ⟨A, h1, h2⟩
    split at h2
    · simp at h2
    · rename_i h3
      rw [names_any] at h3
      exact ⟨A, h1, h3, (Except.ok.inj h2).symm⟩
  · rintro ⟨A, h1, h2, rfl⟩
    refine ⟨A, h1, ?_⟩
    rw [if_neg (by rw [names_any]; exact h2)]
    rfl

end PinProject
