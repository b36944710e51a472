import Verif.Props.ReplaceLemmas
/-!
# C20 – C23, C42: what `project_replace` does
-/
namespace PinProject
open Spec

/-! ## Preprocessing -/

theorem pinnedParts_visit (st : SelfTy) (fs : Fields) (o : Obj) :
    pinnedParts (fs.visit st) o = pinnedParts fs o := by
  unfold pinnedParts
  rw [visit_fields_list, List.zip_map_left, List.filter_map, List.map_map]
  rfl

theorem unpinnedParts_visit (st : SelfTy) (fs : Fields) (o : Obj) :
    unpinnedParts (fs.visit st) o = unpinnedParts fs o := by
  unfold unpinnedParts
  rw [visit_fields_list, List.zip_map_left, List.filter_map, List.map_map]
  rfl

theorem ownedParts_visit (st : SelfTy) (fs : Fields) (o : Obj) :
    ownedParts (fs.visit st) o = ownedParts fs o := by
  unfold ownedParts
  rw [visit_fields_list, List.zip_map_left, List.map_map]
  rfl

theorem namesFree_visit (st : SelfTy) (fs : Fields) : NamesFree (fs.visit st) ↔ NamesFree fs := by
  unfold NamesFree
  rw [visit_fields_list]
  have h1 : (fs.list.map (Field.visit st)).filter Pinned =
      (fs.list.filter Pinned).map (Field.visit st) := by
    rw [List.filter_map]
    rfl
  rw [h1, mem_dropLast_map]
  constructor
  · rintro ⟨h1, h2⟩
    exact ⟨fun f hf => h1 (f.visit st) (List.mem_map_of_mem hf),
      fun f hf => h2 (f.visit st) (List.mem_map_of_mem hf)⟩
  · rintro ⟨h1, h2⟩
    constructor
    · intro f hf
      obtain ⟨g, hg, rfl⟩ := List.mem_map.1 hf
      exact h1 g hg
    · intro f hf
      obtain ⟨g, hg, rfl⟩ := List.mem_map.1 hf
      exact h2 g hg

theorem replaceOut_visit (st : SelfTy) (orc : Oracle) (p : Nat) (fs : Fields) (o new : Obj) (name : String)
    (m : M) : replaceOut orc p (fs.visit st) o new name m = replaceOut orc p fs o new name m := by
  unfold replaceOut
  rw [pinnedParts_visit, unpinnedParts_visit, ownedParts_visit]

/-! ## The bodies -/

theorem evalBody_own_struct {fs : Fields} (hwf : fs.WF) (hfree : NamesFree fs) {o : Obj}
    (hov : o.variant = none)
    (ho : o.fields.map Prod.fst = labels fs.list) (p : Nat) (new : Obj) (m : M)
    (hp : m.mem p = some o) (hm : m.status = .run) (orc : Oracle) (tl : Bool) (name : String) :
    evalBody orc tl ⟨preStmts ++ (.letPat ⟨none, fs.delim, bindings fs.list⟩ (.reborrow "__self_ptr") ::
        ownStmts name none fs), .expr (.var "__result")⟩ (argEnv p new) m =
      replaceOut orc p fs o new name m := by
  unfold evalBody
  simp only
  have hpat := evalStmt_pat orc hwf ho p new m hp
  rw [hov] at hpat
  rw [evalBlock_append orc tl 0 _ _ _ _ _ _ _ (evalStmts_pre orc p new m hm) hm]
  rw [show ∀ (s : GStmt) l, s :: l = [s] ++ l from fun _ _ => rfl]
  rw [evalBlock_append orc tl 0 [_] _ _ _ ((patEnv true p fs.list).reverse ++ baseEnv p new) m m
    (by simp only [evalStmts, hpat]; split <;> rfl) hm]
  have := evalBlock_own hwf hfree ho p [] (baseEnv p new) m hp hm orc tl name none
    (fun m => by rw [dropSlots_base]; exact write_status _ _ _)
  rw [List.append_nil] at this
  rw [show ([] : Env).length = 0 from rfl] at this
  rw [this]
  unfold replaceOut
  simp only [dropSlots_base, hov]
  split <;> rfl

theorem evalBody_own_enum {vs : List Variant} (hn : (vs.map (·.ident)).Nodup) {v : Variant} (hv : v ∈ vs)
    (hwf : v.fields.WF) (hfree : NamesFree v.fields) {o : Obj} (hov : o.variant = some v.ident)
    (ho : o.fields.map Prod.fst = labels v.fields.list) (p : Nat) (new : Obj) (m : M)
    (hp : m.mem p = some o) (hm : m.status = .run) (orc : Oracle) (tl : Bool) (name : String) :
    evalBody orc tl ⟨preStmts, .match_ (.reborrow "__self_ptr") (vs.map (fun v =>
        ⟨⟨some v.ident, v.fields.delim, bindings v.fields.list⟩,
          ownStmts name (some v.ident) v.fields, .var "__result"⟩))⟩ (argEnv p new) m =
      replaceOut orc p v.fields o new name m := by
  have hb := bindPat_eq hwf ho true p
  have hfind := find_arm (key := fun v : Variant => v.ident) (arm := fun v : Variant =>
        (⟨⟨some v.ident, v.fields.delim, bindings v.fields.list⟩,
          ownStmts name (some v.ident) v.fields, .var "__result"⟩ : GArm))
        (fun _ => rfl) hn hv
  rw [← hov] at hfind
  have hre : evalRHS orc (baseEnv p new) m (.reborrow "__self_ptr") =
      some (.fv (.ref true ⟨p, none⟩), baseEnv p new, m) := by
    simp [evalRHS, baseEnv, Env.use, Val.isOwning]
  unfold evalBody
  simp only
  rw [show evalStmts orc preStmts (argEnv p new) m = _ from evalStmts_pre orc p new m hm]
  simp only [hm, if_true, hre, hp, hfind, hb]
  have := evalBlock_own hwf hfree ho p (baseEnv p new) [] m hp hm orc tl name o.variant
    (fun m => rfl)
  rw [List.nil_append] at this
  rw [this]
  unfold replaceOut
  simp only [dropSlots]
  have hlen : (baseEnv p new).length = 4 := rfl
  by_cases hrun : (dropInPlace orc p (pinnedParts v.fields o) m).status = .run
  · simp only [hrun, if_true, leave, Nat.sub_zero, List.take_length, List.drop_length, dropSlots_base,
      write_status]
  · simp only [hrun, if_false, leavePanic, Nat.sub_zero, List.take_length, List.drop_length,
      dropSlots_base]

/-- With a captured name the program is stuck. -/
theorem evalBody_own_struct_stuck {fs : Fields} (hwf : fs.WF) (hfree : ¬ NamesFree fs) {o : Obj}
    (hov : o.variant = none)
    (ho : o.fields.map Prod.fst = labels fs.list) (p : Nat) (new : Obj) (m : M)
    (hp : m.mem p = some o) (hm : m.status = .run) (orc : Oracle) (tl : Bool) (name : String) :
    (evalBody orc tl ⟨preStmts ++ (.letPat ⟨none, fs.delim, bindings fs.list⟩ (.reborrow "__self_ptr") ::
        ownStmts name none fs), .expr (.var "__result")⟩ (argEnv p new) m).1 = none ∧
    (evalBody orc tl ⟨preStmts ++ (.letPat ⟨none, fs.delim, bindings fs.list⟩ (.reborrow "__self_ptr") ::
        ownStmts name none fs), .expr (.var "__result")⟩ (argEnv p new) m).2.status = .stuck := by
  unfold evalBody
  simp only
  have hpat := evalStmt_pat orc hwf ho p new m hp
  rw [hov] at hpat
  rw [evalBlock_append orc tl 0 _ _ _ _ _ _ _ (evalStmts_pre orc p new m hm) hm]
  rw [show ∀ (s : GStmt) l, s :: l = [s] ++ l from fun _ _ => rfl]
  rw [evalBlock_append orc tl 0 [_] _ _ _ ((patEnv true p fs.list).reverse ++ baseEnv p new) m m
    (by simp only [evalStmts, hpat]; split <;> rfl) hm]
  have := evalStmts_own_stuck hwf hfree ho p (baseEnv p new) m hp hm orc name none
  unfold evalBlock
  simp only [this]
  simp only [reduceCtorEq, if_false, leavePanic, true_and]
  exact dropSlots_stuck _ _ _ this

theorem evalBody_own_enum_stuck {vs : List Variant} (hn : (vs.map (·.ident)).Nodup) {v : Variant}
    (hv : v ∈ vs)
    (hwf : v.fields.WF) (hfree : ¬ NamesFree v.fields) {o : Obj} (hov : o.variant = some v.ident)
    (ho : o.fields.map Prod.fst = labels v.fields.list) (p : Nat) (new : Obj) (m : M)
    (hp : m.mem p = some o) (hm : m.status = .run) (orc : Oracle) (tl : Bool) (name : String) :
    (evalBody orc tl ⟨preStmts, .match_ (.reborrow "__self_ptr") (vs.map (fun v =>
        ⟨⟨some v.ident, v.fields.delim, bindings v.fields.list⟩,
          ownStmts name (some v.ident) v.fields, .var "__result"⟩))⟩ (argEnv p new) m).1 = none ∧
    (evalBody orc tl ⟨preStmts, .match_ (.reborrow "__self_ptr") (vs.map (fun v =>
        ⟨⟨some v.ident, v.fields.delim, bindings v.fields.list⟩,
          ownStmts name (some v.ident) v.fields, .var "__result"⟩))⟩ (argEnv p new) m).2.status = .stuck := by
  have hb := bindPat_eq hwf ho true p
  have hfind := find_arm (key := fun v : Variant => v.ident) (arm := fun v : Variant =>
        (⟨⟨some v.ident, v.fields.delim, bindings v.fields.list⟩,
          ownStmts name (some v.ident) v.fields, .var "__result"⟩ : GArm))
        (fun _ => rfl) hn hv
  rw [← hov] at hfind
  have hre : evalRHS orc (baseEnv p new) m (.reborrow "__self_ptr") =
      some (.fv (.ref true ⟨p, none⟩), baseEnv p new, m) := by
    simp [evalRHS, baseEnv, Env.use, Val.isOwning]
  have := evalStmts_own_stuck hwf hfree ho p (baseEnv p new) m hp hm orc name o.variant
  unfold evalBody
  simp only
  rw [show evalStmts orc preStmts (argEnv p new) m = _ from evalStmts_pre orc p new m hm]
  simp only [hm, if_true, hre, hp, hfind, hb]
  unfold evalBlock
  simp only [this]
  simp only [reduceCtorEq, if_false, leavePanic, true_and]
  exact dropSlots_stuck _ _ _ (dropSlots_stuck _ _ _ this)

/-! ## The method -/

theorem callFn_replace (orc : Oracle) (tl : Bool) (cx : Ctx) (b : GBody) (p : Nat) (new : Obj) (m : M)
    (r : Option Val × M)
    (hb : evalBody orc tl ⟨preStmts ++ b.stmts, b.tail⟩ (argEnv p new) m = r)
    (hr : ∀ v, r.1 = some v → ∃ variant fs, v = .adt cx.ownIdent variant fs) :
    callFn orc tl (projectReplaceFn cx b) (.fv (.pinRef true ⟨p, none⟩)) [.obj new] m = r := by
  have hb' : evalBody orc tl (projectReplaceFn cx b).body
      (((projectReplaceFn cx b).params.zipWith (fun p v => (p.1, some v)) [.obj new]).reverse ++
        [("self", some (.fv (.pinRef true ⟨p, none⟩)))]) m = r := hb
  have hfit : (Val.fv (.pinRef true ⟨p, none⟩)).fitsSig (projectReplaceFn cx b).recv = true := rfl
  have hlen : [Val.obj new].length = (projectReplaceFn cx b).params.length := rfl
  have hall : ∀ a ∈ [Val.obj new].zip (projectReplaceFn cx b).params, a.1.fitsSig a.2.2 = true := by
    intro a ha
    simp [projectReplaceFn] at ha
    subst ha
    rfl
  unfold callFn
  rw [if_pos ⟨hfit, hlen, hall⟩]
  simp only [hb']
  obtain ⟨r1, r2⟩ := r
  cases r1 with
  | none => rfl
  | some v =>
    obtain ⟨variant, fs, rfl⟩ := hr v rfl
    have : (Val.adt cx.ownIdent variant fs).fitsSig (projectReplaceFn cx b).ret = true := by
      simp [projectReplaceFn, Val.fitsSig]
    simp only [this, if_true]

theorem replaceOut_shape (orc : Oracle) (p : Nat) (fs : Fields) (o new : Obj) (name : String) (m : M) :
    ∀ v, (replaceOut orc p fs o new name m).1 = some v → ∃ variant fs, v = .adt name variant fs := by
  intro v hv
  unfold replaceOut at hv
  simp only at hv
  split at hv
  · exact ⟨_, _, (Option.some.inj hv).symm⟩
  · simp at hv

/-- The closed form of a call of `project_replace`. -/
theorem call_replace (item : Item) (E : Expansion) (h : parseDerive item = .ok E) (hwf : ItemWF item)
    (fn : GFn) (hfn : method E "project_replace" = some fn)
    (o : Obj) (fs : Fields) (ho : IsValue item o fs) (hfree : NamesFree fs) (p : Nat) (new : Obj) (m : M)
    (hp : m.mem p = some o) (hm : m.status = .run) (orc : Oracle) (tl : Bool) :
    ∃ name args, fn.ret = .adt name args ∧
      callFn orc tl fn (.fv (.pinRef true ⟨p, none⟩)) [.obj new] m = replaceOut orc p fs o new name m := by
  cases item with
  | other a => simp [parseDerive] at h
  | struct_ s =>
    obtain ⟨A, -, -, -, -, -, -, rfl⟩ := (deriveStruct_iff s E).1 h
    obtain ⟨⟨hov, rfl⟩, hol⟩ := ho
    have hwf' := wf_visit (mkSelfTy s.ident s.generics.tyGenerics) _ (hwf.fields none s.fields ⟨rfl, rfl⟩)
    rw [← labels_visit (mkSelfTy s.ident s.generics.tyGenerics)] at hol
    have key := evalBody_own_struct hwf' ((namesFree_visit _ _).2 hfree) hov hol p new m hp hm orc tl
      (s.ctx A).ownIdent
    rw [replaceOut_visit] at key
    rw [method_struct, implFns_projectReplace] at hfn
    split at hfn
    · simp at hfn
    · obtain rfl := Option.some.inj hfn
      exact ⟨_, _, rfl, callFn_replace orc tl _ _ p new m _ key (replaceOut_shape _ _ _ _ _ _ _)⟩
  | enum_ e =>
    obtain ⟨A, -, -, -, -, -, -, -, rfl⟩ := (deriveEnum_iff e E).1 h
    obtain ⟨⟨v, hv, hov, rfl⟩, hol⟩ := ho
    have hwf' := wf_visit (mkSelfTy e.ident e.generics.tyGenerics) _
      (hwf.fields _ v.fields ⟨v, hv, hov, rfl⟩)
    rw [← labels_visit (mkSelfTy e.ident e.generics.tyGenerics)] at hol
    have hn : (e.pre.variants.map (·.ident)).Nodup := by
      have := hwf.variants e rfl
      rw [ItemEnum.pre_variants, List.map_map]
      exact this
    have hv' : v.visit (mkSelfTy e.ident e.generics.tyGenerics) ∈ e.pre.variants := by
      rw [ItemEnum.pre_variants]; exact List.mem_map_of_mem hv
    have key := evalBody_own_enum hn hv' hwf' ((namesFree_visit _ _).2 hfree) hov hol p new m hp hm orc tl
      (e.ctx A).ownIdent
    simp only [Variant.visit] at key
    rw [replaceOut_visit] at key
    rw [method_enum, implFns_projectReplace] at hfn
    split at hfn
    · simp at hfn
    · obtain rfl := Option.some.inj hfn
      exact ⟨_, _, rfl, callFn_replace orc tl _ _ p new m _ key (replaceOut_shape _ _ _ _ _ _ _)⟩

/-- The exceptional names: the generated `project_replace` does not compile. -/
theorem call_replace_stuck (item : Item) (E : Expansion) (h : parseDerive item = .ok E) (hwf : ItemWF item)
    (fn : GFn) (hfn : method E "project_replace" = some fn)
    (o : Obj) (fs : Fields) (ho : IsValue item o fs) (hfree : ¬ NamesFree fs) (p : Nat) (new : Obj) (m : M)
    (hp : m.mem p = some o) (hm : m.status = .run) (orc : Oracle) (tl : Bool) :
    (callFn orc tl fn (.fv (.pinRef true ⟨p, none⟩)) [.obj new] m).2.status = .stuck := by
  cases item with
  | other a => simp [parseDerive] at h
  | struct_ s =>
    obtain ⟨A, -, -, -, -, -, -, rfl⟩ := (deriveStruct_iff s E).1 h
    obtain ⟨⟨hov, rfl⟩, hol⟩ := ho
    have hwf' := wf_visit (mkSelfTy s.ident s.generics.tyGenerics) _ (hwf.fields none s.fields ⟨rfl, rfl⟩)
    rw [← labels_visit (mkSelfTy s.ident s.generics.tyGenerics)] at hol
    have key := evalBody_own_struct_stuck hwf' (fun h => hfree ((namesFree_visit _ _).1 h)) hov hol p new m
      hp hm orc tl (s.ctx A).ownIdent
    rw [method_struct, implFns_projectReplace] at hfn
    split at hfn
    · simp at hfn
    · obtain rfl := Option.some.inj hfn
      have hk1 : (evalBody orc tl ⟨preStmts ++ (projOwnBodyS (s.ctx A) s.pre.fields).stmts,
        (projOwnBodyS (s.ctx A) s.pre.fields).tail⟩ (argEnv p new) m).1 = none := key.1
      rw [callFn_replace orc tl (s.ctx A) (projOwnBodyS (s.ctx A) s.pre.fields) p new m _ rfl
        (fun v hv => by rw [hk1] at hv; cases hv)]
      exact key.2
  | enum_ e =>
    obtain ⟨A, -, -, -, -, -, -, -, rfl⟩ := (deriveEnum_iff e E).1 h
    obtain ⟨⟨v, hv, hov, rfl⟩, hol⟩ := ho
    have hwf' := wf_visit (mkSelfTy e.ident e.generics.tyGenerics) _
      (hwf.fields _ v.fields ⟨v, hv, hov, rfl⟩)
    rw [← labels_visit (mkSelfTy e.ident e.generics.tyGenerics)] at hol
    have hn : (e.pre.variants.map (·.ident)).Nodup := by
      have := hwf.variants e rfl
      rw [ItemEnum.pre_variants, List.map_map]
      exact this
    have hv' : v.visit (mkSelfTy e.ident e.generics.tyGenerics) ∈ e.pre.variants := by
      rw [ItemEnum.pre_variants]; exact List.mem_map_of_mem hv
    have key := evalBody_own_enum_stuck hn hv' hwf' (fun h => hfree ((namesFree_visit _ _).1 h)) hov hol p
      new m hp hm orc tl (e.ctx A).ownIdent
    rw [method_enum, implFns_projectReplace] at hfn
    split at hfn
    · simp at hfn
    · obtain rfl := Option.some.inj hfn
      have hk1 : (evalBody orc tl ⟨preStmts ++ (projOwnBodyE (e.ctx A) e.pre.variants).stmts,
        (projOwnBodyE (e.ctx A) e.pre.variants).tail⟩ (argEnv p new) m).1 = none := key.1
      rw [callFn_replace orc tl (e.ctx A) (projOwnBodyE (e.ctx A) e.pre.variants) p new m _ rfl
        (fun v hv => by rw [hk1] at hv; cases hv)]
      exact key.2

end PinProject
