import Verif.Props.Methods
/-!
# C10 – C13: what `project` and `project_ref` return
-/
namespace PinProject
open Spec

/-! ## Preprocessing does not change names, pinnedness or shape -/

theorem delim_visit (st : SelfTy) (fs : Fields) : (fs.visit st).delim = fs.delim := by
  cases fs <;> rfl

theorem zipIdx_visit {β : Type} (st : SelfTy) (fs : Fields) (g : Field × Nat → β)
    (hg : ∀ f i, g (f.visit st, i) = g (f, i)) :
    (fs.visit st).list.zipIdx.map g = fs.list.zipIdx.map g := by
  rw [visit_fields_list, List.zipIdx_map, List.map_map]
  apply List.map_congr_left
  intro x _
  exact hg x.1 x.2

theorem labels_visit (st : SelfTy) (fs : Fields) : labels (fs.visit st).list = labels fs.list :=
  zipIdx_visit st fs _ (fun _ _ => rfl)

theorem fieldRefs_visit (st : SelfTy) (b : Bool) (p : Nat) (fs : Fields) :
    Spec.fieldRefs b p (fs.visit st) = Spec.fieldRefs b p fs :=
  zipIdx_visit st fs _ (fun _ _ => rfl)

theorem wf_visit (st : SelfTy) (fs : Fields) (h : fs.WF) : (fs.visit st).WF := by
  cases fs with
  | unit => trivial
  | named fs =>
    refine ⟨?_, ?_⟩
    · intro f hf
      obtain ⟨g, hg, rfl⟩ := List.mem_map.1 hf
      exact h.1 g hg
    · have : (fs.map (Field.visit st)).map (·.ident) = fs.map (·.ident) := by
        simp [List.map_map, Function.comp_def, Field.visit]
      rw [this]
      exact h.2
  | unnamed fs =>
    intro f hf
    obtain ⟨g, hg, rfl⟩ := List.mem_map.1 hf
    exact h g hg

/-! ## Executing the bodies -/

/-- The receiver expression of `project` / `project_ref`. -/
def recvRHS (isMut : Bool) : RHS := if isMut then .getUncheckedMut "self" else .getRef "self"

theorem eval_recv (orc : Oracle) (b : Bool) (l : Loc) (m : M) :
    evalRHS orc [("self", some (.fv (.pinRef b l)))] m (recvRHS b) =
      some (.fv (.ref b l), [("self", some (.fv (.pinRef b l)))], m) := by
  cases b <;> simp [recvRHS, evalRHS, Env.use, Val.isOwning]

theorem leave_refs (orc : Oracle) (tl : Bool) (b : Bool) (p : Nat) (fs : List Field) (v : Val)
    (w : FVal) (hw : ∀ m, dropFVal orc w m = m) (m : M) (hm : m.status = .run) :
    leave orc tl 0 v ((patEnv b p fs).reverse ++ [("self", some (.fv w))]) m = ⟨some v, [], m⟩ := by
  unfold leave
  simp only [Nat.sub_zero, List.take_length, List.drop_length]
  rw [dropSlots_append, dropSlots_patEnv]
  simp only [dropSlots, dropVal, hw, hm]

theorem evalBody_struct {fs : Fields} (hwf : fs.WF) (orc : Oracle) (tl : Bool) (b : Bool) (name : String)
    (p : Nat) (o : Obj) (ho : o.variant = none) (hf : o.fields.map Prod.fst = labels fs.list) (m : M)
    (hp : m.mem p = some o) (hm : m.status = .run) :
    evalBody orc tl ⟨[.letPat ⟨none, fs.delim, bindings fs.list⟩ (recvRHS b)],
        .expr (.ctor ⟨name, none, fs.delim, fs.list.zipIdx.map projInit⟩)⟩
        [("self", some (.fv (.pinRef b ⟨p, none⟩)))] m =
      (some (.adt name none (Spec.fieldRefs b p fs)), m) := by
  have hb := bindPat_eq hwf hf b p
  rw [ho] at hb
  have hstmts : evalStmts orc [.letPat ⟨none, fs.delim, bindings fs.list⟩ (recvRHS b)]
      [("self", some (.fv (.pinRef b ⟨p, none⟩)))] m =
      ((patEnv b p fs.list).reverse ++ [("self", some (.fv (.pinRef b ⟨p, none⟩)))], m) := by
    simp [evalStmts, evalStmt, eval_recv, hp, hb, hm]
  unfold evalBody
  simp only
  unfold evalBlock
  rw [hstmts]
  simp only [hm, if_true]
  rw [evalCtor_proj hwf]
  simp only [hm, if_true]
  rw [leave_refs orc tl b p fs.list _ _ (fun _ => rfl) m hm]

theorem find_arm {α : Type} {vs : List α} {key : α → String} {arm : α → GArm}
    (harm : ∀ v, (arm v).pat.variant = some (key v)) (hn : (vs.map key).Nodup) {v : α} (hv : v ∈ vs) :
    (vs.map arm).find? (fun a => a.pat.variant == some (key v)) = some (arm v) := by
  induction vs with
  | nil => simp at hv
  | cons w vs ih =>
    rw [List.map_cons, List.nodup_cons] at hn
    rw [List.map_cons, List.find?_cons]
    rcases List.mem_cons.1 hv with rfl | hv
    · simp [harm]
    · have hne : key w ≠ key v := fun he => hn.1 (by rw [he]; exact List.mem_map_of_mem hv)
      have : ((arm w).pat.variant == some (key v)) = false := by simp [harm, hne]
      rw [this]
      exact ih hn.2 hv

theorem evalBody_enum {vs : List Variant} (hn : (vs.map (·.ident)).Nodup) {v : Variant} (hv : v ∈ vs)
    (hwf : v.fields.WF) (orc : Oracle) (tl : Bool) (b : Bool) (name : String)
    (p : Nat) (o : Obj) (ho : o.variant = some v.ident)
    (hf : o.fields.map Prod.fst = labels v.fields.list) (m : M)
    (hp : m.mem p = some o) (hm : m.status = .run) :
    evalBody orc tl ⟨[], .match_ (recvRHS b) (vs.map (fun v =>
        ⟨⟨some v.ident, v.fields.delim, bindings v.fields.list⟩, [],
          .ctor ⟨name, some v.ident, v.fields.delim, v.fields.list.zipIdx.map projInit⟩⟩))⟩
        [("self", some (.fv (.pinRef b ⟨p, none⟩)))] m =
      (some (.adt name o.variant (Spec.fieldRefs b p v.fields)), m) := by
  have hb := bindPat_eq hwf hf b p
  unfold evalBody
  simp only [evalStmts, hm, if_true, eval_recv, hp]
  have hfind := find_arm (key := fun v : Variant => v.ident) (arm := fun v : Variant =>
        (⟨⟨some v.ident, v.fields.delim, bindings v.fields.list⟩, [],
          .ctor ⟨name, some v.ident, v.fields.delim, v.fields.list.zipIdx.map projInit⟩⟩ : GArm))
        (fun _ => rfl) hn hv
  rw [← ho] at hfind
  rw [hfind]
  simp only
  rw [hb]
  simp only
  unfold evalBlock
  simp only [evalStmts, hm, if_true]
  rw [evalCtor_proj hwf]
  simp only [hm, if_true]
  have hl : leave orc tl [("self", some (Val.fv (.pinRef b ⟨p, none⟩)))].length
      (.adt name o.variant (Spec.fieldRefs b p v.fields))
      ((patEnv b p v.fields.list).reverse ++ [("self", some (.fv (.pinRef b ⟨p, none⟩)))]) m =
      ⟨some (.adt name o.variant (Spec.fieldRefs b p v.fields)),
        [("self", some (.fv (.pinRef b ⟨p, none⟩)))], m⟩ := by
    unfold leave
    have hlen : ((patEnv b p v.fields.list).reverse ++
        [("self", some (Val.fv (.pinRef b ⟨p, none⟩)))]).length -
        [("self", some (Val.fv (.pinRef b ⟨p, none⟩)))].length =
        (patEnv b p v.fields.list).reverse.length := by
      rw [List.length_append]; omega
    simp only [hlen]
    rw [List.take_left, List.drop_left, dropSlots_patEnv]
    simp [hm]
  rw [hl]
  simp only
  rw [show ([("self", some (Val.fv (.pinRef b ⟨p, none⟩)))] : Env) =
    (patEnv b p []).reverse ++ [("self", some (Val.fv (.pinRef b ⟨p, none⟩)))] from rfl]
  rw [leave_refs orc tl b p [] _ _ (fun _ => rfl) m hm]

/-- The two projection methods, uniformly. -/
theorem call_projection (item : Item) (E : Expansion) (h : parseDerive item = .ok E) (hwf : ItemWF item)
    (b : Bool) (fn : GFn)
    (hfn : method E (if b then "project" else "project_ref") = some fn)
    (o : Obj) (fs : Fields) (ho : IsValue item o fs) (p : Nat) (m : M) (hp : m.mem p = some o)
    (hm : m.status = .run) (orc : Oracle) (tl : Bool) :
    ∃ name args, fn.ret = .adt name args ∧
      callFn orc tl fn (.fv (.pinRef b ⟨p, none⟩)) [] m =
        (some (.adt name o.variant (Spec.fieldRefs b p fs)), m) := by
  have hcall : ∀ (f : GFn) (lt : Option String) (name : String) (args : List GArg),
      f.recv = .pin .local_ (.ref lt b .selfTy) → f.params = [] → f.ret = .adt name args →
      (∀ v, evalBody orc tl f.body [("self", some (.fv (.pinRef b ⟨p, none⟩)))] m = v →
        v = (some (.adt name o.variant (Spec.fieldRefs b p fs)), m)) →
      callFn orc tl f (.fv (.pinRef b ⟨p, none⟩)) [] m =
        (some (.adt name o.variant (Spec.fieldRefs b p fs)), m) := by
    intro f lt name args h1 h2 h3 h4
    unfold callFn
    rw [h1, h2, h3]
    simp [Val.fitsSig, h4 _ rfl]
  cases item with
  | other a => simp [parseDerive] at h
  | struct_ s =>
    obtain ⟨A, -, -, -, -, -, -, rfl⟩ := (deriveStruct_iff s E).1 h
    obtain ⟨⟨hov, rfl⟩, hol⟩ := ho
    have hwf' := wf_visit (mkSelfTy s.ident s.generics.tyGenerics) _ (hwf.fields none s.fields ⟨rfl, rfl⟩)
    rw [← labels_visit (mkSelfTy s.ident s.generics.tyGenerics)] at hol
    have key := fun name => evalBody_struct hwf' orc tl b name p o hov hol m hp hm
    rw [fieldRefs_visit, ← hov] at key
    rw [method_struct] at hfn
    have hk : (s.ctx A).kind = .struct_ := rfl
    cases b with
    | true =>
      simp only [if_true, implFns_project, hk] at hfn
      obtain rfl := Option.some.inj hfn
      refine ⟨_, _, rfl, hcall _ _ _ _ rfl rfl rfl ?_⟩
      rintro v rfl
      have := key (s.ctx A).mutIdent
      rw [hov] at this ⊢
      exact this
    | false =>
      simp only [Bool.false_eq_true, if_false, implFns_projectRef, hk] at hfn
      obtain rfl := Option.some.inj hfn
      refine ⟨_, _, rfl, hcall _ _ _ _ rfl rfl rfl ?_⟩
      rintro v rfl
      have := key (s.ctx A).refIdent
      rw [hov] at this ⊢
      exact this
  | enum_ e =>
    obtain ⟨A, -, -, -, -, -, -, -, rfl⟩ := (deriveEnum_iff e E).1 h
    obtain ⟨⟨v, hv, hov, rfl⟩, hol⟩ := ho
    have hwf' := wf_visit (mkSelfTy e.ident e.generics.tyGenerics) _
      (hwf.fields _ v.fields ⟨v, hv, hov, rfl⟩)
    rw [← labels_visit (mkSelfTy e.ident e.generics.tyGenerics)] at hol
    have hn : (e.pre.variants.map (·.ident)).Nodup := by
      have := hwf.variants e rfl
      rw [ItemEnum.pre_variants, List.map_map]
      exact this
    have hv' : v.visit (mkSelfTy e.ident e.generics.tyGenerics) ∈ e.pre.variants := by
      rw [ItemEnum.pre_variants]; exact List.mem_map_of_mem hv
    have key := fun name => evalBody_enum hn hv' hwf' orc tl b name p o hov hol m hp hm
    simp only [Variant.visit] at key
    rw [fieldRefs_visit] at key
    rw [method_enum] at hfn
    cases b with
    | true =>
      simp only [if_true, implFns_project] at hfn
      split at hfn
      · simp at hfn
      · obtain rfl := Option.some.inj hfn
        refine ⟨_, _, rfl, hcall _ _ _ _ rfl rfl rfl ?_⟩
        rintro v rfl
        exact key (e.ctx A).mutIdent
    | false =>
      simp only [Bool.false_eq_true, if_false, implFns_projectRef] at hfn
      split at hfn
      · simp at hfn
      · obtain rfl := Option.some.inj hfn
        refine ⟨_, _, rfl, hcall _ _ _ _ rfl rfl rfl ?_⟩
        rintro v rfl
        exact key (e.ctx A).refIdent

/-! ## C10, C11 -/

/-- **C10** `project` on a pinned mutable reference to any value of the annotated type returns a value
of the declared type, of the same variant, in which every field is — under its own name — a pinned
(if `#[pin]`) or plain mutable reference to that very field's storage. Memory is unchanged, and no
destructor runs. -/
theorem C10_project (item : Item) (E : Expansion) (h : parseDerive item = .ok E) (hwf : ItemWF item)
    (fn : GFn) (hfn : method E "project" = some fn)
    (o : Obj) (fs : Fields) (ho : IsValue item o fs) (p : Nat) (m : M) (hp : m.mem p = some o)
    (hm : m.status = .run) (orc : Oracle) (tl : Bool) :
    ∃ name args, fn.ret = .adt name args ∧
      callFn orc tl fn (.fv (.pinRef true ⟨p, none⟩)) [] m =
        (some (.adt name o.variant (Spec.fieldRefs true p fs)), m) :=
  call_projection item E h hwf true fn hfn o fs ho p m hp hm orc tl

/-- **C11** `project_ref` likewise, with shared references only. -/
theorem C11_project_ref (item : Item) (E : Expansion) (h : parseDerive item = .ok E) (hwf : ItemWF item)
    (fn : GFn) (hfn : method E "project_ref" = some fn)
    (o : Obj) (fs : Fields) (ho : IsValue item o fs) (p : Nat) (m : M) (hp : m.mem p = some o)
    (hm : m.status = .run) (orc : Oracle) (tl : Bool) :
    ∃ name args, fn.ret = .adt name args ∧
      callFn orc tl fn (.fv (.pinRef false ⟨p, none⟩)) [] m =
        (some (.adt name o.variant (Spec.fieldRefs false p fs)), m) :=
  call_projection item E h hwf false fn hfn o fs ho p m hp hm orc tl

/-- `project_ref` never hands out a mutable reference, and cannot be called with anything but a
shared pinned reference; `project` needs a mutable one. -/
theorem C11_receivers (item : Item) (E : Expansion) (h : parseDerive item = .ok E) (b : Bool) (fn : GFn)
    (hfn : method E (if b then "project" else "project_ref") = some fn) (v : Val) :
    v.fitsSig fn.recv ↔ ∃ l, v = .fv (.pinRef b l) := by
  have key : ∀ (f : GFn) (lt : Option String), f.recv = .pin .local_ (.ref lt b .selfTy) →
      (v.fitsSig f.recv ↔ ∃ l, v = .fv (.pinRef b l)) := by
    intro f lt h1
    rw [h1]
    cases v with
    | fv w => cases w <;> simp [Val.fitsSig]
    | _ => simp [Val.fitsSig]
  cases item with
  | other a => simp [parseDerive] at h
  | struct_ s =>
    obtain ⟨A, -, -, -, -, -, -, rfl⟩ := (deriveStruct_iff s E).1 h
    rw [method_struct] at hfn
    cases b
    · simp only [Bool.false_eq_true, if_false, implFns_projectRef] at hfn
      split at hfn
      · simp at hfn
      · obtain rfl := Option.some.inj hfn; exact key _ _ rfl
    · simp only [if_true, implFns_project] at hfn
      split at hfn
      · simp at hfn
      · obtain rfl := Option.some.inj hfn; exact key _ _ rfl
  | enum_ e =>
    obtain ⟨A, -, -, -, -, -, -, -, rfl⟩ := (deriveEnum_iff e E).1 h
    rw [method_enum] at hfn
    cases b
    · simp only [Bool.false_eq_true, if_false, implFns_projectRef] at hfn
      split at hfn
      · simp at hfn
      · obtain rfl := Option.some.inj hfn; exact key _ _ rfl
    · simp only [if_true, implFns_project] at hfn
      split at hfn
      · simp at hfn
      · obtain rfl := Option.some.inj hfn; exact key _ _ rfl

/-! ## C12 -/

/-- The arms of a method that matches on `self`. -/
def armsOf (fn : GFn) : List GArm :=
  match fn.body.tail with
  | .match_ _ arms => arms
  | .expr _ => []

/-- **C12** For an enum the match of each generated method has exactly one arm for every value: the
number of arms whose pattern names the active variant is one. (That the result has the same variant
is in C10, C11 and C20.) -/
theorem C12_exactly_one_arm (e : ItemEnum) (E : Expansion) (h : parseDerive (.enum_ e) = .ok E)
    (hwf : ItemWF (.enum_ e)) (name : String) (fn : GFn) (hfn : method E name = some fn)
    (o : Obj) (fs : Fields) (ho : IsValue (.enum_ e) o fs) :
    ((armsOf fn).filter (fun a => a.pat.variant == o.variant)).length = 1 := by
  obtain ⟨A, -, -, -, -, -, -, -, rfl⟩ := (deriveEnum_iff e E).1 h
  obtain ⟨⟨v, hv, hov, rfl⟩, hol⟩ := ho
  have hn : (e.pre.variants.map (·.ident)).Nodup := by
    have := hwf.variants e rfl
    rw [ItemEnum.pre_variants, List.map_map]
    exact this
  have hv' : v.ident ∈ e.pre.variants.map (·.ident) := by
    rw [ItemEnum.pre_variants, List.map_map]
    exact List.mem_map.2 ⟨v, hv, rfl⟩
  have key : ∀ arm : Variant → GArm, (∀ v, (arm v).pat.variant = some v.ident) →
      ((e.pre.variants.map arm).filter (fun a => a.pat.variant == o.variant)).length = 1 := by
    intro arm harm
    rw [hov, List.filter_map, List.length_map]
    have : ((e.pre.variants.map (·.ident)).filter (fun x => x == v.ident)).length = 1 := by
      have h1 := hn.count (a := v.ident)
      rw [if_pos hv'] at h1
      rw [List.count_eq_length_filter] at h1
      exact h1
    rw [List.filter_map, List.length_map] at this
    rw [← this]
    congr 1
    apply List.filter_congr
    intro x _
    simp [harm]
  rw [method_enum] at hfn
  have hmem := List.mem_of_find?_eq_some hfn
  simp only [implFns, List.mem_append] at hmem
  rcases hmem with (hmem | hmem) | hmem <;> split at hmem <;> simp at hmem <;> subst hmem
  · exact key _ (fun _ => rfl)
  · exact key _ (fun _ => rfl)
  · exact key _ (fun _ => rfl)

/-! ## C13 -/

/-- The storage a projected field refers to. -/
def FVal.loc? : FVal → Option Loc
  | .ref _ l => some l
  | .pinRef _ l => some l
  | _ => none

theorem labels_nodup {fs : Fields} (h : fs.WF) : (labels fs.list).Nodup := by
  cases fs with
  | unit => simp [labels, Fields.list]
  | named fs =>
    have := bindings_nodup (fs := .named fs) h
    simp only [Fields.list] at *
    rw [labels_brace fs h.1]
    exact this
  | unnamed fs =>
    apply zipIdx_map_nodup
    intro x hx y hy he
    have h1 := h _ (List.fst_mem_of_mem_zipIdx hx)
    have h2 := h _ (List.fst_mem_of_mem_zipIdx hy)
    simp only [fieldLabel, h1, h2, Option.getD_none] at he
    exact toString_nat_inj he

/-- **C13** The references inside one projected value never alias: the value returned by either
projection has one reference per field, and any two of them refer to different storage. -/
theorem C13_no_alias (item : Item) (E : Expansion) (h : parseDerive item = .ok E) (hwf : ItemWF item)
    (b : Bool) (fn : GFn) (hfn : method E (if b then "project" else "project_ref") = some fn)
    (o : Obj) (fs : Fields) (ho : IsValue item o fs) (p : Nat) (m : M) (hp : m.mem p = some o)
    (hm : m.status = .run) (orc : Oracle) (tl : Bool) :
    ∃ name variant rs, (callFn orc tl fn (.fv (.pinRef b ⟨p, none⟩)) [] m).1 =
        some (.adt name variant rs) ∧
      rs.length = fs.list.length ∧ (∀ r ∈ rs, ∃ l, r.2.loc? = some l) ∧
      (rs.map (fun r => r.2.loc?)).Nodup := by
  obtain ⟨name, args, _, hc⟩ := call_projection item E h hwf b fn hfn o fs ho p m hp hm orc tl
  refine ⟨name, _, _, by rw [hc], ?_, ?_, ?_⟩
  · simp [Spec.fieldRefs]
  · intro r hr
    obtain ⟨x, _, rfl⟩ := List.mem_map.1 hr
    simp only [fieldRef]
    split <;> exact ⟨_, rfl⟩
  · have : (Spec.fieldRefs b p fs).map (fun r => r.2.loc?) =
        (labels fs.list).map (fun l => some (Loc.mk p (some l))) := by
      simp only [Spec.fieldRefs, labels, List.map_map]
      apply List.map_congr_left
      intro x _
      simp only [Function.comp, fieldRef]
      split <;> rfl
    rw [this, List.nodup_iff_pairwise_ne, List.pairwise_map]
    refine List.Pairwise.imp ?_ (List.nodup_iff_pairwise_ne.1 (labels_nodup (hwf.fields _ _ ho.variant)))
    intro a b hab he
    simp at he
    exact hab he

/-! ## The hypotheses are met -/

theorem demoEnum_wf : ItemWF (.enum_ demoEnum) where
  fields := by
    rintro variant fs ⟨v, hv, -, rfl⟩
    simp only [demoEnum, List.mem_cons, List.not_mem_nil, or_false] at hv
    rcases hv with rfl | rfl | rfl
    · intro f hf; simp at hf; rcases hf with rfl | rfl <;> rfl
    · exact ⟨by simp, by simp⟩
    · trivial
  variants := by rintro e h; cases h; decide

/-- `E::V(7, 8)` at place 3. -/
def demoObj : Obj := ⟨some "V", [("0", 7), ("1", 8)]⟩

theorem demoObj_isValue : IsValue (.enum_ demoEnum) demoObj (demoEnum.variants.head!).fields where
  variant := ⟨demoEnum.variants.head!, List.mem_cons_self, rfl, rfl⟩
  fields := by decide

/-- Projecting it: `P::V(Pin<&mut _> to 3.0, &mut _ to 3.1)`. -/
example : ∃ E fn, parseDerive (.enum_ demoEnum) = .ok E ∧ method E "project" = some fn ∧
    (callFn (fun _ _ => false) false fn (.fv (.pinRef true ⟨3, none⟩)) []
      { mem := fun q => if q = 3 then some demoObj else none }).1 =
    some (.adt "P" (some "V") [("0", .pinRef true ⟨3, some "0"⟩), ("1", .ref true ⟨3, some "1"⟩)]) :=
  ⟨_, _, rfl, rfl, rfl⟩

end PinProject
