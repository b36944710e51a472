import Verif.Props.BorrowLemmas
import Verif.Props.Replace
import Verif.Props.Drop
/-!
# Generated functions under the strictest aliasing rules
-/
namespace PinProject
open Spec

/-! ## `project`, `project_ref` -/

theorem bEval_recv (b : Byte) (panics : BOracle) (m : Bool) (t : Nat) (σ : B chain) (h : Ready b σ m none t) :
    bEvalRHS b panics [("self", some (.fv (.pinRef m none t)))] σ (recvRHS m) =
      some (.fv (.ref m none σ.next), [("self", some (.fv (.pinRef m none t)))], σ.push b (permOf m) none) := by
  have h1 := retag_ready h (permOf m) (permOf_shared m).1
  cases m <;> simp [recvRHS, bEvalRHS, BEnv.use, BVal.isOwning, permOf] at * <;> simp [h1]

/-- What a projection body does. -/
def BProjects (b : Byte) (m : Bool) (p : Nat) (fs : Fields) (σ : B chain) (r : Option BVal × B chain) : Prop :=
  ∃ vs σ', r = (some (.adt vs), σ') ∧
    vs.map (fun v => (v.1, untagged p v.2)) = (Spec.fieldRefs m p fs).map (fun v => (v.1, some v.2)) ∧
    (∀ v ∈ vs, ∃ l t, pointer v.2 = some (m, l, t) ∧ Ready b σ' m l t) ∧ Quiet σ σ'

theorem bEval_ctor {fs : Fields} (hwf : fs.WF) (b : Byte) (panics : BOracle) (m : Bool) (p : Nat) (env : BEnv) (σ : B chain)
    (ha : Apart b (labels fs.list)) (hr : FieldsReady b m σ env fs.list.zipIdx) (name : String)
    (variant : Option String) :
    ∃ vs σ', bEvalRHS b panics env σ (.ctor ⟨name, variant, fs.delim, fs.list.zipIdx.map projInit⟩) =
        some (.adt vs, env, σ') ∧
      vs.map (fun v => (v.1, untagged p v.2)) = (Spec.fieldRefs m p fs).map (fun v => (v.1, some v.2)) ∧
      (∀ v ∈ vs, ∃ l t, pointer v.2 = some (m, l, t) ∧ Ready b σ' m l t) ∧ Quiet σ σ' := by
  obtain ⟨vs, σ', h1, h2, h3, h4, -⟩ := bEvalInits_proj hwf b m p env fs.list 0 σ (fun x hx => hx) ha hr
  refine ⟨vs, σ', ?_, ?_, h3, h4⟩
  · simp only [bEvalRHS, h1]
    rfl
  · rw [h2]
    simp [Spec.fieldRefs]

theorem bEvalBody_struct {fs : Fields} (hwf : fs.WF) (b : Byte) (panics : BOracle) (tl m : Bool) (name : String)
    (p : Nat) (t : Nat) (σ : B chain) (hr : Ready b σ m none t) (hrun : σ.status = .run) (ha : Apart b (labels fs.list)) :
    BProjects b m p fs σ (bEvalBody b panics tl ⟨none, labels fs.list⟩
      ⟨[.letPat ⟨none, fs.delim, bindings fs.list⟩ (recvRHS m)],
        .expr (.ctor ⟨name, none, fs.delim, fs.list.zipIdx.map projInit⟩)⟩
      [("self", some (.fv (.pinRef m none t)))] σ) := by
  have hnew := ready_new b σ (permOf m) none m (permOf_shared m).2
  obtain ⟨h1, h2, h3⟩ := bindEnv_ready hwf b m σ.next (σ.push b (permOf m) none) ha hnew
    [("self", some (.fv (.pinRef m none t)))]
  have hstmts : bEvalStmts b panics ⟨none, labels fs.list⟩
      [.letPat ⟨none, fs.delim, bindings fs.list⟩ (recvRHS m)] [("self", some (.fv (.pinRef m none t)))] σ =
      ((bBind b m σ.next (fs.list.zipIdx.map (fun x => (binding x.2 x.1, fieldLabel x.2 x.1)))
          (σ.push b (permOf m) none)).1.reverse ++ [("self", some (.fv (.pinRef m none t)))],
        (bBind b m σ.next (fs.list.zipIdx.map (fun x => (binding x.2 x.1, fieldLabel x.2 x.1)))
          (σ.push b (permOf m) none)).2) := by
    simp [bEvalStmts, bEvalStmt, bEval_recv b panics m t σ hr, bPairs_eq hwf]
  generalize hbs : bBind b m σ.next (fs.list.zipIdx.map (fun x => (binding x.2 x.1, fieldLabel x.2 x.1)))
    (σ.push b (permOf m) none) = bs at *
  obtain ⟨vs, σ', hc, hc2, hc3, hc4⟩ := bEval_ctor hwf b panics m p _ bs.2 ha h1 name none
  have hq : Quiet σ σ' := ((Quiet.push b σ (permOf m) none).trans h3).trans hc4
  have hs1 : bs.2.status = .run := ((Quiet.push b σ (permOf m) none).trans h3).status.trans hrun
  refine ⟨vs, σ', ?_, hc2, hc3, hq⟩
  have hi : Inert (bs.1.reverse ++ [("self", some (.fv (.pinRef m none t)))]) := by
    refine (inert_refs h2).reverse.append ?_
    intro e he v hv
    rw [List.mem_singleton] at he
    subst he
    obtain rfl := Option.some.inj hv
    rfl
  unfold bEvalBody
  simp only
  unfold bEvalBlock
  simp only [hstmts, hs1, if_true, hc, hq.status.trans hrun]
  unfold bLeave
  simp only [Nat.sub_zero, List.take_length, List.drop_length, bDropSlots_inert b panics hi, hq.status.trans hrun]

theorem bEvalBody_enum {vs : List Variant} (hn : (vs.map (·.ident)).Nodup) {v : Variant} (hv : v ∈ vs)
    (hwf : v.fields.WF) (b : Byte) (panics : BOracle) (tl m : Bool) (name : String)
    (p : Nat) (t : Nat) (σ : B chain) (hr : Ready b σ m none t) (hrun : σ.status = .run)
    (ha : Apart b (labels v.fields.list)) :
    BProjects b m p v.fields σ (bEvalBody b panics tl ⟨some v.ident, labels v.fields.list⟩
      ⟨[], .match_ (recvRHS m) (vs.map (fun v =>
        ⟨⟨some v.ident, v.fields.delim, bindings v.fields.list⟩, [],
          .ctor ⟨name, some v.ident, v.fields.delim, v.fields.list.zipIdx.map projInit⟩⟩))⟩
      [("self", some (.fv (.pinRef m none t)))] σ) := by
  have hnew := ready_new b σ (permOf m) none m (permOf_shared m).2
  obtain ⟨h1, h2, h3⟩ := bindEnv_ready hwf b m σ.next (σ.push b (permOf m) none) ha hnew
    [("self", some (.fv (.pinRef m none t)))]
  have hfind := find_arm (key := fun v : Variant => v.ident) (arm := fun v : Variant =>
        (⟨⟨some v.ident, v.fields.delim, bindings v.fields.list⟩, [],
          .ctor ⟨name, some v.ident, v.fields.delim, v.fields.list.zipIdx.map projInit⟩⟩ : GArm))
        (fun _ => rfl) hn hv
  have htag : ∀ c : Bool, (if c = true then (σ.push b (permOf m) none).access b false none σ.next
      else σ.push b (permOf m) none) = σ.push b (permOf m) none := by
    intro c
    rw [access_ready hnew false (fun h => by cases h)]
    split <;> rfl
  generalize hbs : bBind b m σ.next (v.fields.list.zipIdx.map (fun x => (binding x.2 x.1, fieldLabel x.2 x.1)))
    (σ.push b (permOf m) none) = bs at *
  obtain ⟨ws, σ', hc, hc2, hc3, hc4⟩ := bEval_ctor hwf b panics m p _ bs.2 ha h1 name (some v.ident)
  have hq : Quiet σ σ' := ((Quiet.push b σ (permOf m) none).trans h3).trans hc4
  have hs1 : bs.2.status = .run := ((Quiet.push b σ (permOf m) none).trans h3).status.trans hrun
  refine ⟨ws, σ', ?_, hc2, hc3, hq⟩
  have hi1 : Inert bs.1.reverse := (inert_refs h2).reverse
  have hi2 : Inert [("self", some (.fv (.pinRef m none t)))] := by
    intro e he v hv
    rw [List.mem_singleton] at he
    subst he
    obtain rfl := Option.some.inj hv
    rfl
  unfold bEvalBody
  simp only [bEvalStmts, hrun, if_true, bEval_recv b panics m t σ hr, htag, hfind, bPairs_eq hwf, hbs]
  unfold bEvalBlock
  simp only [bEvalStmts, hs1, if_true, hc, hq.status.trans hrun]
  have hlen : ∀ (a e : BEnv), (a ++ e).length - e.length = a.length := by
    intro a e; rw [List.length_append]; omega
  unfold bLeave
  simp only [hlen, List.take_left, List.drop_left, bDropSlots_inert b panics hi1, hq.status.trans hrun,
    Nat.sub_zero, List.take_length, List.drop_length, bDropSlots_inert b panics hi2]

/-! ## Calls -/

/-- The state in which the body of a function runs that was called with the reference `t0`. -/
theorem entered {b : Byte} {m : Bool} {t0 : Nat} {σ : B chain} (h : Callable b m t0 σ) :
    ∃ (p : BPerm) (r : BStack), σ.retag b (permOf m) none t0 =
        (σ.next, { σ with next := σ.next + 1, mem := ⟨permOf m, σ.next⟩ :: ⟨p, t0⟩ :: r }) ∧
      (∀ i ∈ (⟨p, t0⟩ :: r : BStack), i.tag < σ.next) ∧ t0 < σ.next ∧ (m = true → p ≠ .shared) := by
  have hu := h.usable
  have hl : σ.live = true := by simp [B.live, h.run]
  have hw : b.within none = true := rfl
  unfold B.access at hu
  simp only [hl, hw, Bool.and_self, if_true] at hu
  unfold B.retag B.access
  cases m with
  | true =>
    simp only [if_true] at hu ⊢
    cases hs : BStack.write σ.prot t0 σ.mem with
    | none => rw [hs] at hu; simp [B.set] at hu
    | some s =>
      obtain ⟨p, r, hp, rfl, hsub⟩ := write_result hs
      refine ⟨p, r, ?_, fun i hi => h.valid i (hsub i hi), h.valid _ (hsub _ List.mem_cons_self), fun _ => hp⟩
      simp [permOf, hl, hw, B.set]
  | false =>
    simp only [Bool.false_eq_true, if_false] at hu ⊢
    cases hs : BStack.strictRead σ.prot t0 σ.mem with
    | none => rw [hs] at hu; simp [B.set] at hu
    | some s =>
      obtain ⟨p, r, rfl, hsub⟩ := read_result hs
      refine ⟨p, r, ?_, fun i hi => h.valid i (hsub i hi), h.valid _ (hsub _ List.mem_cons_self), fun h => by cases h⟩
      simp [permOf, hl, hw, B.set]

/-- The function's own pointer is still there when it returns. -/
theorem release_ext {σ σ' : B chain} {i j : BItem} {r : BStack} (hs : σ.mem = i :: j :: r) (h : Ext σ σ') :
    σ'.release i.tag = σ' := by
  obtain ⟨X, hX, -⟩ := h.stack
  have hm : i.tag ∈ (List.dropLast σ'.mem).map BItem.tag := by
    rw [hX, hs, List.dropLast_append_of_ne_nil (by simp)]
    simp
  unfold B.release
  split
  · rw [show chain.release σ'.prot i.tag σ'.mem = some σ'.mem from if_pos hm]
    rfl
  · rfl

/-- After the call the caller can use its reference again. -/
theorem usable_after {b : Byte} {m : Bool} {t0 : Nat} {σ : B chain} (h : Callable b m t0 σ) {p : BPerm} {r : BStack}
    (hm : m = true → p ≠ .shared) (ht : t0 < σ.next) (σ' : B chain)
    (hp : σ'.prot = σ.prot) (hnx : σ.next ≤ σ'.next) (hs2 : ∀ i ∈ (⟨p, t0⟩ :: r : BStack), i.tag < σ.next) {X : BStack}
    (hX : σ'.mem = X ++ (⟨p, t0⟩ :: r)) (hX2 : ∀ i ∈ X, σ.next ≤ i.tag ∧ i.tag < σ'.next) :
    (σ'.access b m none t0).status = σ'.status ∧ (σ'.status = .run → Callable b m t0 σ') := by
  suffices key : (σ'.access b m none t0).status = σ'.status by
    refine ⟨key, fun hr => ⟨hr, ?_, ?_, key.trans hr⟩⟩
    · intro i hi
      rw [hX] at hi
      rcases List.mem_append.1 hi with hi | hi
      · exact (hX2 i hi).2
      · exact Nat.lt_of_lt_of_le (hs2 i hi) hnx
    · intro t ht
      rw [hp] at ht
      exact Nat.lt_of_lt_of_le (h.prot t ht) hnx
  have hne : ∀ i ∈ X, i.tag ≠ t0 ∧ i.tag ∉ σ'.prot := by
    intro i hi
    have := (hX2 i hi).1
    refine ⟨by omega, ?_⟩
    intro hm
    rw [hp] at hm
    have := h.prot _ hm
    omega
  unfold B.access
  split
  · cases m with
    | true =>
      simp only [if_true]
      rw [hX, write_skip X _ hne, write_head (hm rfl)]
      rfl
    | false =>
      simp only [Bool.false_eq_true, if_false]
      rw [hX, read_skip X _ hne, read_head]
      rfl
  · rfl

theorem useAll_ready {b : Byte} {m : Bool} {fields : List (String × BFVal)} {σ : B chain}
    (h : ∀ v ∈ fields, ∃ l t, pointer v.2 = some (m, l, t) ∧ Ready b σ m l t) (us : List PtrUse)
    (hu : ∀ u ∈ us, UseAllowed fields u) : useAll b us σ = σ := by
  induction us with
  | nil => rfl
  | cons u us ih =>
    obtain ⟨h1, h2⟩ := hu u List.mem_cons_self
    obtain ⟨v, hv, hvu⟩ := List.mem_map.1 h1
    obtain ⟨l, t, hp, hr⟩ := h v hv
    rw [hvu] at hp
    have : usePtr b σ u = σ := by
      unfold usePtr
      rw [hp]
      exact access_ready hr _ (h2 _ _ _ hp)
    unfold useAll at ih ⊢
    rw [List.foldl_cons, this]
    exact ih (fun u hu' => hu u (List.mem_cons_of_mem _ hu'))

/-- The conclusion for a projection method. -/
def ProjectionOk {A : AliasModel} (b : Byte) (m : Bool) (fs : Fields) (p t0 : Nat) (r : Option BVal × B A) : Prop :=
  ∃ fields σ', r = (some (.adt fields), σ') ∧
    fields.map (fun v => (v.1, untagged p v.2)) = (Spec.fieldRefs m p fs).map (fun v => (v.1, some v.2)) ∧
    (∀ us, (∀ u ∈ us, UseAllowed fields u) →
      (useAll b us σ').status = .run ∧ Callable b m t0 (useAll b us σ')) ∧
    ∀ v ∈ fields, ∀ m' l t, pointer v.2 = some (m', l, t) → m' = m ∧ (b.within l = true → t ≠ t0)

theorem bCall_projection {fs : Fields} (b : Byte) (panics : BOracle) (tl m : Bool) (fn : GFn)
    (lt : Option String) (hrecv : fn.recv = .pin .local_ (.ref lt m .selfTy)) (hpar : fn.params = [])
    (variant : Option String) (p t0 : Nat) (σ : B chain) (h : Callable b m t0 σ)
    (hbody : ∀ t σ', Ready b σ' m none t → σ'.status = .run →
      BProjects b m p fs σ' (bEvalBody b panics tl ⟨variant, labels fs.list⟩ fn.body
        [("self", some (.fv (.pinRef m none t)))] σ')) :
    ProjectionOk b m fs p t0 (bCallFn b panics tl fn ⟨variant, labels fs.list⟩ t0 σ) := by
  obtain ⟨q, s, he, hs, ht, hu⟩ := entered h
  have hr : Ready b { σ with next := σ.next + 1, mem := ⟨permOf m, σ.next⟩ :: ⟨q, t0⟩ :: s, prot := σ.next :: σ.prot } m none
      σ.next := by
    refine ⟨Nat.lt_succ_self _, fun _ => ⟨read_head _, fun hm => write_head ((permOf_shared m).2 hm) _⟩⟩
  obtain ⟨vs, σ', h1, h2, h3, h4⟩ := hbody σ.next
    { σ with next := σ.next + 1, mem := ⟨permOf m, σ.next⟩ :: ⟨q, t0⟩ :: s, prot := σ.next :: σ.prot } hr h.run
  have hcall : bCallFn b panics tl fn ⟨variant, labels fs.list⟩ t0 σ =
      (some (.adt vs), { σ' with prot := σ.prot }) := by
    have hrel : σ'.release σ.next = σ' := release_ext (i := ⟨permOf m, σ.next⟩) rfl h4.toExt
    unfold bCallFn
    simp only [hrecv, hpar, bSelf, he, List.map_nil, List.reverse_nil, List.nil_append, h1, hrel]
  refine ⟨vs, _, hcall, h2, ?_, ?_⟩
  rotate_left
  · intro v hv m' l t hp
    obtain ⟨l1, t1, hp1, -, hr2⟩ := h3 v hv
    rw [hp] at hp1
    cases hp1
    refine ⟨rfl, fun hl htt => ?_⟩
    obtain ⟨p', r, hr3, -⟩ := read_result (hr2 hl).1
    obtain ⟨X, hX, hX2⟩ := h4.stack
    rw [hr3] at hX
    cases X with
    | nil =>
      have : t = σ.next := congrArg BItem.tag (List.cons.inj hX).1
      omega
    | cons i X =>
      have h5 := (hX2 i List.mem_cons_self).1
      have h6 : t = i.tag := congrArg BItem.tag (List.cons.inj hX).1
      have : σ.next + 1 ≤ i.tag := h5
      omega
  intro us hus
  have hready : ∀ v ∈ vs, ∃ l t, pointer v.2 = some (m, l, t) ∧ Ready b { σ' with prot := σ.prot } m l t := by
    intro v hv
    obtain ⟨l, t, hp, hr1, hr2⟩ := h3 v hv
    have hsub : ∀ x ∈ σ.prot, x ∈ σ'.prot := by
      intro x hx
      rw [h4.prot]
      exact List.mem_cons_of_mem _ hx
    refine ⟨l, t, hp, hr1, fun hl => ⟨read_mono hsub (hr2 hl).1, fun hm => write_mono hsub ((hr2 hl).2 hm)⟩⟩
  rw [useAll_ready hready us hus]
  have hrun : σ'.status = .run := h4.status.trans h.run
  refine ⟨hrun, ?_⟩
  obtain ⟨X, hX, hX2⟩ := h4.stack
  have hnx : σ.next + 1 ≤ σ'.next := h4.next
  refine (usable_after h hu ht { σ' with prot := σ.prot } rfl (Nat.le_of_succ_le hnx) hs
    (X := X ++ [⟨permOf m, σ.next⟩]) ?_ ?_).2 hrun
  · simp only [hX, List.append_assoc]
    rfl
  · intro i hi
    rcases List.mem_append.1 hi with hi | hi
    · exact ⟨Nat.le_of_succ_le (hX2 i hi).1, (hX2 i hi).2⟩
    · rw [List.mem_singleton] at hi
      subst hi
      exact ⟨Nat.le_refl _, hnx⟩

theorem oneField_apart {b : Byte} {fs : Fields} (hwf : fs.WF) (h : OneField b fs) : Apart b (labels fs.list) :=
  apart_of (labels_nodup hwf) h

theorem oneField_visit {b : Byte} (st : SelfTy) {fs : Fields} (h : OneField b fs) : OneField b (fs.visit st) := by
  unfold OneField
  rw [labels_visit]
  exact h

theorem borrow_projection (item : Item) (E : Expansion) (h : parseDerive item = .ok E) (hwf : ItemWF item)
    (m : Bool) (fn : GFn) (hfn : method E (if m then "project" else "project_ref") = some fn)
    (variant : Option String) (fs : Fields) (hv : HasVariant item variant fs) (b : Byte) (hb : OneField b fs)
    (p t0 : Nat) (σ : B chain) (hσ : Callable b m t0 σ) (panics : BOracle) (tl : Bool) :
    ProjectionOk b m fs p t0 (bCallFn b panics tl fn ⟨variant, labels fs.list⟩ t0 σ) := by
  cases item with
  | other a => simp [parseDerive] at h
  | struct_ s =>
    obtain ⟨A, -, -, -, -, -, -, rfl⟩ := (deriveStruct_iff s E).1 h
    have hwf' := wf_visit (mkSelfTy s.ident s.generics.tyGenerics) _ (hwf.fields none s.fields ⟨rfl, rfl⟩)
    obtain ⟨rfl, rfl⟩ := hv
    have hap := oneField_apart hwf' (oneField_visit (mkSelfTy s.ident s.generics.tyGenerics) hb)
    have key := fun name t σ' h1 h2 =>
      bEvalBody_struct hwf' b panics tl m name p t σ' h1 h2 hap
    simp only [BProjects, fieldRefs_visit, labels_visit] at key
    rw [method_struct] at hfn
    have hk : (s.ctx A).kind = .struct_ := rfl
    cases m with
    | true =>
      simp only [if_true, implFns_project, hk] at hfn
      obtain rfl := Option.some.inj hfn
      exact bCall_projection b panics tl true _ _ rfl rfl none p t0 σ hσ (key (s.ctx A).mutIdent)
    | false =>
      simp only [Bool.false_eq_true, if_false, implFns_projectRef, hk] at hfn
      obtain rfl := Option.some.inj hfn
      exact bCall_projection b panics tl false _ _ rfl rfl none p t0 σ hσ (key (s.ctx A).refIdent)
  | enum_ e =>
    obtain ⟨A, -, -, -, -, -, -, -, rfl⟩ := (deriveEnum_iff e E).1 h
    obtain ⟨v, hv, rfl, rfl⟩ := hv
    have hwf' := wf_visit (mkSelfTy e.ident e.generics.tyGenerics) _
      (hwf.fields _ v.fields ⟨v, hv, rfl, rfl⟩)
    have hn : (e.pre.variants.map (·.ident)).Nodup := by
      have := hwf.variants e rfl
      rw [ItemEnum.pre_variants, List.map_map]
      exact this
    have hv' : v.visit (mkSelfTy e.ident e.generics.tyGenerics) ∈ e.pre.variants := by
      rw [ItemEnum.pre_variants]; exact List.mem_map_of_mem hv
    have hap := oneField_apart hwf' (oneField_visit (mkSelfTy e.ident e.generics.tyGenerics) hb)
    have key := fun name t σ' h1 h2 =>
      bEvalBody_enum hn hv' hwf' b panics tl m name p t σ' h1 h2 hap
    simp only [Variant.visit] at key
    simp only [BProjects, fieldRefs_visit, labels_visit] at key
    rw [method_enum] at hfn
    cases m with
    | true =>
      simp only [if_true, implFns_project] at hfn
      split at hfn
      · simp at hfn
      · obtain rfl := Option.some.inj hfn
        exact bCall_projection b panics tl true _ _ rfl rfl _ p t0 σ hσ (key (e.ctx A).mutIdent)
    | false =>
      simp only [Bool.false_eq_true, if_false, implFns_projectRef] at hfn
      split at hfn
      · simp at hfn
      · obtain rfl := Option.some.inj hfn
        exact bCall_projection b panics tl false _ _ rfl rfl _ p t0 σ hσ (key (e.ctx A).refIdent)

/-! ## `project_replace` -/

theorem bEvalInits_own (b : Byte) (env : BEnv) (d : Option Delim) :
    ∀ (l : List Field) (i : Nat) (σ : B chain), Apart b ((l.zipIdx i).map (fun x => fieldLabel x.2 x.1)) →
    FieldsReady b true σ env (l.zipIdx i) →
    ∃ vs σ', bEvalInits b env d i ((l.zipIdx i).map moveInit) σ = some (vs, σ') ∧
      (∀ v ∈ vs, v.2 = .own ∨ v.2 = .phantom) ∧
      FieldsReady b true σ' env ((l.zipIdx i).filter (fun x => Pinned x.1)) ∧
      Quiet σ σ' ∧ Spares b ((l.zipIdx i).map (fun x => fieldLabel x.2 x.1)) σ σ' := by
  intro l
  induction l with
  | nil =>
    intro i σ _ _
    exact ⟨[], σ, rfl, by simp, by simp [FieldsReady], Quiet.refl _, Spares.refl _ _ _⟩
  | cons f l ih =>
    intro i σ ha hr
    rw [List.zipIdx_cons] at ha hr ⊢
    obtain ⟨t, ht, hrt⟩ := hr (f, i) List.mem_cons_self
    simp only at ht hrt
    rw [List.map_cons] at ha
    have ha' := (List.pairwise_cons.1 ha).2
    obtain ⟨v, σ1, hv, hu, hpr, hq, hsp⟩ : ∃ v σ1,
        bEvalF b σ env (moveInit (f, i)).expr = some (v, σ1) ∧ (v = .own ∨ v = .phantom) ∧
        (Pinned f = true → Ready b σ1 true (some (fieldLabel i f)) t) ∧
        Quiet σ σ1 ∧ Spares b [fieldLabel i f] σ σ1 := by
      unfold moveInit
      cases hp : Pinned f with
      | true =>
        simp only [if_true, GInit.expr, bEvalF]
        exact ⟨_, _, rfl, .inr rfl, fun _ => hrt, Quiet.refl _, Spares.refl _ _ _⟩
      | false =>
        have hq := retag_ready hrt .shared (fun h => absurd rfl h)
        have hnew := ready_new b σ .shared (some (fieldLabel i f)) false (fun h => by cases h)
        simp only [Bool.false_eq_true, if_false, GInit.expr, bEvalF, getRef_of_lookup ht, Option.map_some, hq,
          access_ready hnew false (fun h => by cases h)]
        exact ⟨_, _, rfl, .inl rfl, (fun h => by cases h), Quiet.push _ _ _ _,
          Spares.push b _ σ .shared _ List.mem_cons_self⟩
    obtain ⟨vs, σ2, h1, h2, h3, h4, h5⟩ := ih (i + 1) σ1 ha' (by
        intro x hx
        obtain ⟨t', ht', hr'⟩ := hr x (List.mem_cons_of_mem _ hx)
        refine ⟨t', ht', hsp _ _ _ hr' ?_⟩
        intro y hy h1 h2
        rw [List.mem_singleton] at hy
        subst hy
        exact (List.pairwise_cons.1 ha).1 _ (List.mem_map.2 ⟨x, hx, rfl⟩) h1 h2)
    refine ⟨(GInit.label d i (moveInit (f, i)), v) :: vs, σ2, ?_, ?_, ?_, hq.trans h4, ?_⟩
    · simp only [List.map_cons, bEvalInits, hv, Option.bind_eq_bind, Option.bind_some, h1]
    · intro w hw
      rcases List.mem_cons.1 hw with rfl | hw
      · exact hu
      · exact h2 w hw
    · intro x hx
      rw [List.filter_cons] at hx
      split at hx
      · rename_i hp
        rcases List.mem_cons.1 hx with rfl | hx
        · exact ⟨t, ht, h5.keep ha (hpr hp)⟩
        · exact h3 x hx
      · exact h3 x hx
    · rw [List.map_cons]
      refine (hsp.mono ?_).trans (h5.mono (fun _ h => List.mem_cons_of_mem _ h))
      intro y hy
      rw [List.mem_singleton] at hy
      subst hy
      exact List.mem_cons_self

theorem bUse_of_lookup {x : String} {env : BEnv} {v : BVal} (h : env.lookup x = some (some v))
    (ho : v.isOwning = false) : env.use x = some (v, env) := by
  induction env with
  | nil => simp at h
  | cons e env ih =>
    obtain ⟨y, w⟩ := e
    rw [List.lookup_cons] at h
    unfold BEnv.use
    by_cases hy : y = x
    · subst hy
      simp only [beq_self_eq_true, Option.some.injEq] at h
      subst h
      simp [ho]
    · have : (x == y) = false := by simpa using fun h => hy h.symm
      rw [this] at h
      rw [if_neg hy, ih h]
      rfl

/-- A variable holding a guard. -/
def guardSlot (g : String × Nat) : String × Option BVal := ("__guard", some (.diGuard (some g.1) g.2))

theorem bEvalLets_guards (b : Byte) (panics : BOracle) :
    ∀ (xs : List (String × String)) (env : BEnv) (σ : B chain), σ.status = .run → Apart b (xs.map Prod.snd) →
    (∀ x ∈ xs, ∃ t, env.lookup x.1 = some (some (.fv (.ref true (some x.2) t))) ∧ Ready b σ true (some x.2) t) →
    (∀ x ∈ xs.tail, x.1 ≠ "__guard") →
    ∃ (gs : List (String × Nat)) (σ' : B chain), bEvalLets b panics (xs.map (fun x => ("__guard", .dropGuard x.1))) env σ =
        ((gs.map guardSlot).reverse ++ env, σ') ∧
      gs.map Prod.fst = xs.map Prod.snd ∧ (∀ g ∈ gs, Ready b σ' true (some g.1) g.2) ∧
      Quiet σ σ' ∧ Spares b (xs.map Prod.snd) σ σ' := by
  intro xs
  induction xs with
  | nil =>
    intro env σ _ _ _ _
    exact ⟨[], σ, rfl, rfl, by simp, Quiet.refl _, Spares.refl _ _ _⟩
  | cons x xs ih =>
    intro env σ hrun ha hr hne
    obtain ⟨t, ht, hrt⟩ := hr x List.mem_cons_self
    rw [List.map_cons] at ha
    have hq := retag_ready hrt .raw (fun _ => rfl)
    have he : bEvalRHS b panics env σ (.dropGuard x.1) =
        some (.diGuard (some x.2) σ.next, env, σ.push b .raw (some x.2)) := by
      simp [bEvalRHS, bUse_of_lookup ht rfl, hq]
    have hsp : Spares b [x.2] σ (σ.push b .raw (some x.2)) :=
      Spares.push b _ σ .raw x.2 List.mem_cons_self
    have hnew := ready_new b σ .raw (some x.2) true (fun _ => by simp)
    obtain ⟨gs, σ', h1, h2, h3, h4, h5⟩ := ih (("__guard", some (.diGuard (some x.2) σ.next)) :: env)
      (σ.push b .raw (some x.2)) hrun (List.pairwise_cons.1 ha).2 (by
        intro y hy
        obtain ⟨t', ht', hr'⟩ := hr y (List.mem_cons_of_mem _ hy)
        have : (y.1 == "__guard") = false := by simpa using hne y hy
        refine ⟨t', by rw [List.lookup_cons, this]; exact ht', hsp _ _ _ hr' ?_⟩
        intro z hz h1 h2
        rw [List.mem_singleton] at hz
        subst hz
        exact (List.pairwise_cons.1 ha).1 _ (List.mem_map.2 ⟨y, hy, rfl⟩) h1 h2)
      (fun y hy => hne y (List.mem_of_mem_tail hy))
    refine ⟨(x.2, σ.next) :: gs, σ', ?_, ?_, ?_, (Quiet.push _ _ _ _).trans h4, ?_⟩
    · rw [List.map_cons]
      unfold bEvalLets
      rw [he]
      have hrun' : (σ.push b .raw (some x.2)).status = .run := hrun
      simp only [hrun', if_true, h1]
      simp [guardSlot]
    · simp [h2]
    · intro g hg
      rcases List.mem_cons.1 hg with rfl | hg
      · exact h5.keep ha hnew
      · exact h3 g hg
    · rw [List.map_cons]
      refine (hsp.mono ?_).trans (h5.mono (fun _ h => List.mem_cons_of_mem _ h))
      intro y hy
      rw [List.mem_singleton] at hy
      subst hy
      exact List.mem_cons_self

/-- Neither undefined behaviour nor a program that does not compile. -/
def StillRuns (σ : B chain) : Prop := σ.status = .run ∨ σ.status = .unwind ∨ σ.status = .abort

theorem runDtor_keeps (panics : BOracle) (σ : B chain) :
    (σ.runDtor panics).mem = σ.mem ∧ (σ.runDtor panics).next = σ.next ∧ (σ.runDtor panics).prot = σ.prot ∧
    (StillRuns σ → StillRuns (σ.runDtor panics)) := by
  unfold B.runDtor
  split
  · refine ⟨rfl, rfl, rfl, fun _ => ?_⟩
    unfold StillRuns
    simp only
    split <;> simp
  · refine ⟨rfl, rfl, rfl, fun _ => ?_⟩
    unfold StillRuns
    simp only
    split <;> simp
  · exact ⟨rfl, rfl, rfl, id⟩

theorem ready_runDtor {b : Byte} {σ : B chain} {m : Bool} {l : Option String} {t : Nat} (panics : BOracle)
    (h : Ready b σ m l t) : Ready b (σ.runDtor panics) m l t := by
  obtain ⟨h1, h2, h3, -⟩ := runDtor_keeps panics σ
  unfold Ready
  rw [h1, h2, h3]
  exact h

theorem Ext.runDtor (panics : BOracle) (σ : B chain) : Ext σ (σ.runDtor panics) := by
  obtain ⟨h1, h2, h3, -⟩ := runDtor_keeps panics σ
  exact ⟨by rw [h2]; exact Nat.le_refl _, h3, [], by rw [h1]; rfl, by simp⟩

/-- Running on top of the state `σp`. -/
def OnTop (σp σ : B chain) : Prop := Ext σp σ ∧ StillRuns σ

theorem OnTop.runDtor {σp σ : B chain} (h : OnTop σp σ) (panics : BOracle) : OnTop σp (σ.runDtor panics) :=
  ⟨h.1.trans (Ext.runDtor panics σ), (runDtor_keeps panics σ).2.2.2 h.2⟩

theorem bDropInPlace_ready {b : Byte} {σ : B chain} {l : Option String} {t : Nat} (panics : BOracle)
    (h : Ready b σ true l t) : bDropInPlace b panics l t σ = (σ.push b .unique l).runDtor panics := by
  unfold bDropInPlace
  rw [retag_ready h .unique (fun _ => rfl)]
  simp only
  rw [access_ready (ready_new b σ .unique l true (fun _ => by simp)) true id]

theorem bDropSlots_guards (b : Byte) (panics : BOracle) (σp : B chain) :
    ∀ (gs : List (String × Nat)) (σ : B chain), Apart b (gs.map Prod.fst) → OnTop σp σ →
    (∀ g ∈ gs, Ready b σ true (some g.1) g.2) → OnTop σp (bDropSlots b panics (gs.map guardSlot) σ) := by
  intro gs
  induction gs with
  | nil => intro σ _ h _; exact h
  | cons g gs ih =>
    intro σ ha hf hr
    rw [List.map_cons] at ha
    simp only [List.map_cons, guardSlot, bDropSlots, bDropVal]
    rw [bDropInPlace_ready panics (hr g List.mem_cons_self)]
    apply ih _ (List.pairwise_cons.1 ha).2
    · exact OnTop.runDtor ⟨hf.1.trans (Ext.push b σ .unique (some g.1)), hf.2⟩ panics
    · intro k hk
      apply ready_runDtor
      apply ready_push (hr k (List.mem_cons_of_mem _ hk))
      exact (fun h1 h2 => (List.pairwise_cons.1 ha).1 _ (List.mem_map.2 ⟨k, hk, rfl⟩) h1 h2)

/-- Values whose destructors can run at any time while `σp` is below: owned values, and the overwrite guard that holds the
pointer on top of `σp`. -/
def SafeToDrop (tp : Nat) : BVal → Prop
  | .adt fs => ∀ f ∈ fs, f.2 = .own ∨ f.2 = .phantom
  | .owGuard l t => l = none ∧ t = tp
  | .diGuard _ _ => False
  | _ => True

/-- `tp` is a pointer on top of the stack of `σp`, with which the value can be written. -/
structure TopPtr (σp : B chain) (tp : Nat) : Prop where
  lt : tp < σp.next
  prot : ∀ t ∈ σp.prot, t < σp.next
  write : BStack.write σp.prot tp σp.mem = some σp.mem

theorem OnTop.access {σp σ : B chain} {tp : Nat} (hf : OnTop σp σ) (ht : TopPtr σp tp) (b : Byte) :
    OnTop σp (σ.access b true none tp) := by
  obtain ⟨X, hX, hX2⟩ := hf.1.stack
  unfold B.access
  split
  · simp only [if_true]
    rw [hX, write_skip X, hf.1.prot, ht.write]
    · exact ⟨⟨hf.1.next, hf.1.prot, [], rfl, by simp⟩, hf.2⟩
    · intro i hi
      have h1 := (hX2 i hi).1
      have h2 := ht.lt
      refine ⟨by omega, ?_⟩
      rw [hf.1.prot]
      intro hm
      have := ht.prot _ hm
      omega
  · exact hf

theorem bDropVal_fine {b : Byte} {panics : BOracle} {σp σ : B chain} {tp : Nat} (hf : OnTop σp σ) (ht : TopPtr σp tp) {v : BVal}
    (hv : SafeToDrop tp v) : OnTop σp (bDropVal b panics v σ) := by
  cases v with
  | fv w => cases w <;> first | exact hf | exact hf.runDtor panics
  | unit => exact hf
  | ptr => exact hf
  | obj n =>
    simp only [bDropVal]
    clear hv
    induction n generalizing σ with
    | zero => exact hf
    | succ n ih => exact ih (hf.runDtor panics)
  | adt fs =>
    simp only [bDropVal]
    clear hv
    induction fs generalizing σ with
    | nil => exact hf
    | cons f fs ih =>
      apply ih
      obtain ⟨x, w⟩ := f
      cases w <;> first | exact hf | exact hf.runDtor panics
  | owGuard l t =>
    obtain ⟨rfl, rfl⟩ := hv
    exact hf.access ht b
  | diGuard => exact absurd hv id

def SafeEnv (tp : Nat) (env : BEnv) : Prop := ∀ e ∈ env, ∀ v, e.2 = some v → SafeToDrop tp v

theorem bDropSlots_fine {b : Byte} {panics : BOracle} {σp : B chain} {tp : Nat} (ht : TopPtr σp tp) {env : BEnv} {σ : B chain}
    (he : SafeEnv tp env) (hf : OnTop σp σ) : OnTop σp (bDropSlots b panics env σ) := by
  induction env generalizing σ with
  | nil => exact hf
  | cons x env ih =>
    obtain ⟨y, v⟩ := x
    have he' : SafeEnv tp env := fun e h => he e (List.mem_cons_of_mem _ h)
    cases v with
    | none => exact ih he' hf
    | some v => exact ih he' (bDropVal_fine hf ht (he _ List.mem_cons_self v rfl))

theorem SafeEnv.take {tp : Nat} {env : BEnv} (h : SafeEnv tp env) (k : Nat) : SafeEnv tp (env.take k) :=
  fun e he => h e (List.mem_of_mem_take he)
theorem SafeEnv.drop {tp : Nat} {env : BEnv} (h : SafeEnv tp env) (k : Nat) : SafeEnv tp (env.drop k) :=
  fun e he => h e (List.mem_of_mem_drop he)

/-- What is known at the end of a block. -/
def FineOut (σp : B chain) (tp : Nat) (o : BOut chain) : Prop :=
  OnTop σp o.σ ∧ SafeEnv tp o.env ∧ ∀ v, o.val = some v → SafeToDrop tp v

theorem bLeave_fine {b : Byte} {panics : BOracle} {tl : Bool} {σp : B chain} {tp n : Nat} (ht : TopPtr σp tp) {env : BEnv}
    {σ : B chain} {v : BVal} (he : SafeEnv tp env) (hv : SafeToDrop tp v) (hf : OnTop σp σ) :
    FineOut σp tp (bLeave b panics tl n v env σ) := by
  have h1 := bDropSlots_fine (b := b) (panics := panics) ht (he.take (env.length - n)) hf
  unfold bLeave
  simp only
  split
  · exact ⟨h1, he.drop _, fun w hw => by cases hw; exact hv⟩
  · refine ⟨?_, he.drop _, fun w hw => by cases hw⟩
    simp only
    split
    · exact h1
    · exact bDropVal_fine h1 ht hv
  · exact ⟨h1, he.drop _, fun w hw => by cases hw⟩

theorem bLeavePanic_fine {b : Byte} {panics : BOracle} {σp : B chain} {tp n : Nat} (ht : TopPtr σp tp) {env : BEnv}
    {σ : B chain} (he : SafeEnv tp env) (hf : OnTop σp σ) : FineOut σp tp (bLeavePanic b panics n env σ) :=
  ⟨bDropSlots_fine ht (he.take _) hf, he.drop _, fun w hw => by cases hw⟩

/-- The names the pinned fields are bound to, with the fields. -/
def pinnedNames (fs : List Field) : List (String × String) :=
  (fs.zipIdx.filter (fun x => Pinned x.1)).map (fun x => (binding x.2 x.1, fieldLabel x.2 x.1))

theorem pinnedNames_loc (fs : List Field) :
    pinnedLocs 0 fs = (pinnedNames fs).map (fun x => (x.1, ⟨0, some x.2⟩)) := by
  simp [pinnedLocs, pinnedNames]

theorem apart_sublist {b : Byte} {l l' : List String} (h : Apart b l) (hs : l'.Sublist l) : Apart b l' :=
  List.Pairwise.sublist hs h

theorem apart_reverse {b : Byte} {l : List String} (h : Apart b l) : Apart b l.reverse := by
  unfold Apart
  rw [List.pairwise_reverse]
  exact h.imp (fun h h1 h2 => h h2 h1)

/-- The block after the pattern. -/
theorem bEvalBlock_own {fs : Fields} (hfree : NamesFree fs) (b : Byte) (panics : BOracle) (tl : Bool)
    (o : Shape) (n : Nat) (env : BEnv) (σp σ : B chain) (tp : Nat) (ht : TopPtr σp tp) (hf : OnTop σp σ)
    (hrun : σ.status = .run) (ha : Apart b (labels fs.list)) (hr : FieldsReady b true σ env fs.list.zipIdx)
    (he : SafeEnv tp env) (name : String) (variant : Option String) :
    FineOut σp tp (bEvalBlock b panics tl o n (ownStmts name variant fs) (.var "__result") env σ) := by
  obtain ⟨vs, σ1, h1, h2, h3, h4, -⟩ := bEvalInits_own b env fs.delim fs.list 0 σ ha hr
  have hc : bEvalRHS b panics env σ (.ctor ⟨name, variant, fs.delim, fs.list.zipIdx.map moveInit⟩) =
      some (.adt vs, env, σ1) := by
    simp only [bEvalRHS, h1]
    rfl
  have hrun1 : σ1.status = .run := h4.status.trans hrun
  have hsub : ((pinnedNames fs.list).map Prod.snd).Sublist (labels fs.list) := by
    unfold pinnedNames labels
    rw [List.map_map]
    exact List.Sublist.map _ List.filter_sublist
  have hap : Apart b ((pinnedNames fs.list).reverse.map Prod.snd) := by
    rw [List.map_reverse]
    exact apart_reverse (apart_sublist ha hsub)
  have hres := namesFree_result hfree.1 0
  have hg := (namesFree_guard 0).1 hfree.2
  rw [pinnedNames_loc] at hres hg
  obtain ⟨gs, σ2, g1, g2, g3, g4, -⟩ := bEvalLets_guards b panics (pinnedNames fs.list).reverse
    (("__result", some (.adt vs)) :: env) σ1 hrun1 hap (by
      intro x hx
      rw [List.mem_reverse] at hx
      have hne := hres _ (List.mem_map_of_mem hx)
      obtain ⟨y, hy, rfl⟩ := List.mem_map.1 hx
      obtain ⟨t, ht, hrt⟩ := h3 y hy
      have : (binding y.2 y.1 == "__result") = false := by simpa using hne
      exact ⟨t, by rw [List.lookup_cons, this]; exact ht, hrt⟩)
    (by
      intro x hx
      apply hg (x.1, ⟨0, some x.2⟩)
      rw [← List.map_reverse, ← List.map_tail]
      exact List.mem_map_of_mem hx)
  have hargs : (pinnedBindings fs.list).reverse.map (fun x => ("__guard", RHS.dropGuard x)) =
      (pinnedNames fs.list).reverse.map (fun x => ("__guard", .dropGuard x.1)) := by
    simp [pinnedBindings, pinnedNames, List.map_reverse, List.map_map, Function.comp_def]
  have hlen : ∀ (a e : BEnv), (a ++ e).length - e.length = a.length := by
    intro a e; rw [List.length_append]; omega
  have hf2 : OnTop σp σ2 := ⟨(hf.1.trans h4.toExt).trans g4.toExt, .inl (g4.status.trans hrun1)⟩
  have hd : OnTop σp (bDropSlots b panics (gs.map guardSlot).reverse σ2) := by
    rw [← List.map_reverse]
    apply bDropSlots_guards b panics σp _ _ _ hf2
    · intro g hg
      exact g3 g (List.mem_reverse.1 hg)
    · rw [List.map_reverse, g2]
      exact apart_reverse hap
  have hs : bEvalStmts b panics o (ownStmts name variant fs) env σ =
      (("__result", some (.adt vs)) :: env, bDropSlots b panics (gs.map guardSlot).reverse σ2) := by
    unfold ownStmts
    simp only [bEvalStmts, bEvalStmt, hc, hrun1, if_true, bCoerce]
    rw [hargs, g1]
    simp only [hlen, List.take_left, List.drop_left]
    split <;> rfl
  have hse : ∀ w, (∀ v, w = some v → SafeToDrop tp v) → SafeEnv tp (("__result", w) :: env) := by
    intro w hw e hm v hv
    rcases List.mem_cons.1 hm with rfl | hm
    · exact hw v hv
    · exact he e hm v hv
  unfold bEvalBlock
  rw [hs]
  simp only
  split
  · rename_i hok
    have hv : bEvalRHS b panics (("__result", some (.adt vs)) :: env)
        (bDropSlots b panics (gs.map guardSlot).reverse σ2) (.var "__result") =
        some (.adt vs, ("__result", none) :: env, bDropSlots b panics (gs.map guardSlot).reverse σ2) := by
      simp [bEvalRHS, BEnv.use, BVal.isOwning]
    rw [hv]
    simp only [hok, if_true]
    exact bLeave_fine ht (hse none (fun _ h => by cases h)) h2 hd
  · exact bLeavePanic_fine ht (hse _ (fun v h => by cases h; exact h2)) hd

/-- The variables after the first two statements. -/
def bBaseEnv (t tp : Nat) : BEnv :=
  [("__guard", some (.owGuard none tp)), ("__self_ptr", some (.ptr none tp)),
   ("__replacement", none), ("self", some (.fv (.pinRef true none t)))]

/-- The arguments of a call. -/
def bArgEnv (n t : Nat) : BEnv := [("__replacement", some (.obj n)), ("self", some (.fv (.pinRef true none t)))]

/-- The state after the first two statements. -/
def pState (b : Byte) (σ : B chain) : B chain := (σ.push b .unique none).push b .raw none

theorem bEvalStmts_pre (b : Byte) (panics : BOracle) (o : Shape) (n t : Nat) (σ : B chain) (h : Ready b σ true none t)
    (hrun : σ.status = .run) :
    bEvalStmts b panics o preStmts (bArgEnv n t) σ = (bBaseEnv t (σ.next + 1), pState b σ) := by
  have h1 := retag_ready h .unique (fun _ => rfl)
  have h2 := retag_ready (ready_new b σ .unique none true (fun _ => by simp)) .raw (fun _ => rfl)
  have hr1 : (σ.push b .unique none).status = .run := hrun
  have hr2 : (pState b σ).status = .run := hrun
  simp [preStmts, bArgEnv, bEvalStmts, bEvalStmt, bEvalRHS, BEnv.use, BVal.isOwning, bCoerce, h1, h2, hr1]
  rw [show ((σ.push b .unique none).push b .raw none).status = .run from hrun]
  rfl

theorem bEvalBlock_append (b : Byte) (panics : BOracle) (tl : Bool) (o : Shape) (n : Nat) (s1 s2 : List GStmt) (e : RHS)
    (env env' : BEnv) (σ σ' : B chain) (h : bEvalStmts b panics o s1 env σ = (env', σ')) (hm : σ'.status = .run) :
    bEvalBlock b panics tl o n (s1 ++ s2) e env σ = bEvalBlock b panics tl o n s2 e env' σ' := by
  have key : bEvalStmts b panics o (s1 ++ s2) env σ = bEvalStmts b panics o s2 env' σ' := by
    induction s1 generalizing env σ with
    | nil => simp only [bEvalStmts, Prod.mk.injEq] at h; simp [h.1, h.2]
    | cons s a ih =>
      simp only [List.cons_append, bEvalStmts] at *
      split at h
      · rename_i hr
        rw [if_pos hr]
        exact ih _ _ h
      · rename_i hr
        rw [h] at hr
        exact absurd hm hr
  unfold bEvalBlock
  rw [key]

theorem top_pState {b : Byte} {σ : B chain} (hp : ∀ t ∈ σ.prot, t < σ.next) : TopPtr (pState b σ) (σ.next + 1) := by
  refine ⟨Nat.lt_succ_self _, ?_, ?_⟩
  · intro t ht
    have := hp t ht
    simp only [pState, B.push]
    omega
  · simp only [pState, B.push, Byte.within, if_true]
    exact write_head (by simp) _

theorem safe_base (t tp : Nat) : SafeEnv tp (bBaseEnv t tp) := by
  intro e he v hv
  simp only [bBaseEnv, List.mem_cons, List.not_mem_nil, or_false] at he
  rcases he with rfl | rfl | rfl | rfl <;> cases hv
  · exact ⟨rfl, rfl⟩
  · trivial
  · trivial

theorem safe_refs {m : Bool} {tp : Nat} {e1 e2 : BEnv} (h1 : ∀ e ∈ e1, ∃ l t, e.2 = some (.fv (.ref m l t)))
    (h2 : SafeEnv tp e2) : SafeEnv tp (e1.reverse ++ e2) := by
  intro e he v hv
  rcases List.mem_append.1 he with he | he
  · obtain ⟨l, t, h⟩ := h1 e (List.mem_reverse.1 he)
    rw [h] at hv
    cases hv
    trivial
  · exact h2 e he v hv

theorem bReborrow (b : Byte) (panics : BOracle) (t : Nat) (σ : B chain) :
    bEvalRHS b panics (bBaseEnv t (σ.next + 1)) (pState b σ) (.reborrow "__self_ptr") =
      some (.fv (.ref true none (σ.next + 2)), bBaseEnv t (σ.next + 1), (pState b σ).push b .unique none) := by
  have h := retag_ready (ready_new b (σ.push b .unique none) .raw none true (fun _ => by simp)) .unique (fun _ => rfl)
  have h' : B.retag b .unique none (σ.next + 1) (pState b σ) = (σ.next + 2, (pState b σ).push b .unique none) := h
  simp [bEvalRHS, bBaseEnv, BEnv.use, BVal.isOwning, h']

theorem bEvalBody_own_struct {fs : Fields} (hwf : fs.WF) (hfree : NamesFree fs) (b : Byte) (panics : BOracle) (tl : Bool)
    (name : String) (n t : Nat) (σ : B chain) (hr : Ready b σ true none t) (hrun : σ.status = .run)
    (hp : ∀ t ∈ σ.prot, t < σ.next) (ha : Apart b (labels fs.list)) :
    OnTop (pState b σ) (bEvalBody b panics tl ⟨none, labels fs.list⟩
      ⟨preStmts ++ (.letPat ⟨none, fs.delim, bindings fs.list⟩ (.reborrow "__self_ptr") :: ownStmts name none fs),
        .expr (.var "__result")⟩ (bArgEnv n t) σ).2 := by
  have hnew : Ready b ((pState b σ).push b .unique none) true none (σ.next + 2) :=
    ready_new b (pState b σ) .unique none true (fun _ => by simp)
  obtain ⟨h1, h2, h3⟩ := bindEnv_ready hwf b true (σ.next + 2) ((pState b σ).push b .unique none) ha hnew
    (bBaseEnv t (σ.next + 1))
  have hpat : bEvalStmts b panics ⟨none, labels fs.list⟩
      [.letPat ⟨none, fs.delim, bindings fs.list⟩ (.reborrow "__self_ptr")] (bBaseEnv t (σ.next + 1)) (pState b σ) =
      ((bBind b true (σ.next + 2) (fs.list.zipIdx.map (fun x => (binding x.2 x.1, fieldLabel x.2 x.1)))
          ((pState b σ).push b .unique none)).1.reverse ++ bBaseEnv t (σ.next + 1),
        (bBind b true (σ.next + 2) (fs.list.zipIdx.map (fun x => (binding x.2 x.1, fieldLabel x.2 x.1)))
          ((pState b σ).push b .unique none)).2) := by
    simp [bEvalStmts, bEvalStmt, bReborrow, bPairs_eq hwf]
  generalize hbs : bBind b true (σ.next + 2) (fs.list.zipIdx.map (fun x => (binding x.2 x.1, fieldLabel x.2 x.1)))
    ((pState b σ).push b .unique none) = bs at *
  have hq := (Quiet.push b (pState b σ) .unique none).trans h3
  have hr1 : (pState b σ).status = .run := hrun
  have hr2 : bs.2.status = .run := hq.status.trans hrun
  unfold bEvalBody
  simp only
  rw [bEvalBlock_append b panics tl _ 0 _ _ _ _ _ _ _ (bEvalStmts_pre b panics _ n t σ hr hrun) hr1]
  rw [show ∀ (s : GStmt) l, s :: l = [s] ++ l from fun _ _ => rfl]
  rw [bEvalBlock_append b panics tl _ 0 [_] _ _ _ _ _ _ hpat hr2]
  exact (bEvalBlock_own hfree b panics tl _ 0 _ (pState b σ) bs.2 (σ.next + 1) (top_pState hp)
    ⟨hq.toExt, .inl hr2⟩ hr2 ha h1 (safe_refs h2 (safe_base _ _)) name none).1

theorem bEvalBody_own_enum {vs : List Variant} (hn : (vs.map (·.ident)).Nodup) {v : Variant} (hv : v ∈ vs)
    (hwf : v.fields.WF) (hfree : NamesFree v.fields) (b : Byte) (panics : BOracle) (tl : Bool)
    (name : String) (n t : Nat) (σ : B chain) (hr : Ready b σ true none t) (hrun : σ.status = .run)
    (hp : ∀ t ∈ σ.prot, t < σ.next) (ha : Apart b (labels v.fields.list)) :
    OnTop (pState b σ) (bEvalBody b panics tl ⟨some v.ident, labels v.fields.list⟩
      ⟨preStmts, .match_ (.reborrow "__self_ptr") (vs.map (fun v =>
        ⟨⟨some v.ident, v.fields.delim, bindings v.fields.list⟩,
          ownStmts name (some v.ident) v.fields, .var "__result"⟩))⟩ (bArgEnv n t) σ).2 := by
  have hnew : Ready b ((pState b σ).push b .unique none) true none (σ.next + 2) :=
    ready_new b (pState b σ) .unique none true (fun _ => by simp)
  obtain ⟨h1, h2, h3⟩ := bindEnv_ready hwf b true (σ.next + 2) ((pState b σ).push b .unique none) ha hnew
    (bBaseEnv t (σ.next + 1))
  have hfind := find_arm (key := fun v : Variant => v.ident) (arm := fun v : Variant =>
        (⟨⟨some v.ident, v.fields.delim, bindings v.fields.list⟩,
          ownStmts name (some v.ident) v.fields, .var "__result"⟩ : GArm))
        (fun _ => rfl) hn hv
  have htag : ∀ c : Bool, (if c = true then ((pState b σ).push b .unique none).access b false none (σ.next + 2)
      else (pState b σ).push b .unique none) = (pState b σ).push b .unique none := by
    intro c
    rw [access_ready hnew false (fun h => by cases h)]
    split <;> rfl
  have hr1 : (pState b σ).status = .run := hrun
  generalize hbs : bBind b true (σ.next + 2)
    (v.fields.list.zipIdx.map (fun x => (binding x.2 x.1, fieldLabel x.2 x.1)))
    ((pState b σ).push b .unique none) = bs at *
  have hq := (Quiet.push b (pState b σ) .unique none).trans h3
  have hr2 : bs.2.status = .run := hq.status.trans hrun
  have hblock := bEvalBlock_own hfree b panics tl ⟨some v.ident, labels v.fields.list⟩
    (bBaseEnv t (σ.next + 1)).length _ (pState b σ) bs.2 (σ.next + 1) (top_pState hp)
    ⟨hq.toExt, .inl hr2⟩ hr2 ha h1 (safe_refs h2 (safe_base _ _)) name (some v.ident)
  unfold bEvalBody
  simp only [bEvalStmts_pre b panics _ n t σ hr hrun, hr1, if_true, bReborrow, htag, hfind, bPairs_eq hwf, hbs]
  generalize bEvalBlock b panics tl _ _ _ _ _ _ = r at hblock ⊢
  obtain ⟨f1, f2, f3⟩ := hblock
  split
  · rename_i w hw
    exact (bLeave_fine (top_pState hp) f2 (f3 w hw) f1).1
  · exact (bLeavePanic_fine (top_pState hp) f2 f1).1

/-- The conclusion for a function that takes the value by `&mut` and may call destructors. -/
def MutationOk {A : AliasModel} (b : Byte) (t0 : Nat) (r : Option BVal × B A) : Prop :=
  (r.2.status = .run ∨ r.2.status = .unwind ∨ r.2.status = .abort) ∧
  (r.2.access b true none t0).status = r.2.status ∧ (r.2.status = .run → Callable b true t0 r.2)

theorem mutationOk_of {b : Byte} {t0 : Nat} {σ : B chain} (h : Callable b true t0 σ) {q : BPerm} {s : BStack}
    (hq : true = true → q ≠ .shared) (hs2 : ∀ i ∈ (⟨q, t0⟩ :: s : BStack), i.tag < σ.next) (ht : t0 < σ.next)
    (r : Option BVal × B chain)
    (hf : OnTop { σ with next := σ.next + 1, mem := ⟨.unique, σ.next⟩ :: ⟨q, t0⟩ :: s, prot := σ.next :: σ.prot } r.2) :
    MutationOk b t0 (r.1, { r.2.release σ.next with prot := σ.prot }) := by
  rw [show r.2.release σ.next = r.2 from release_ext (i := ⟨.unique, σ.next⟩) rfl hf.1]
  refine ⟨hf.2, ?_⟩
  obtain ⟨X, hX, hX2⟩ := hf.1.stack
  have hnx : σ.next + 1 ≤ r.2.next := hf.1.next
  refine usable_after h hq ht { r.2 with prot := σ.prot } rfl (Nat.le_of_succ_le hnx) hs2
    (X := X ++ [⟨.unique, σ.next⟩]) ?_ ?_
  · simp only [hX, List.append_assoc]
    rfl
  · intro i hi
    rcases List.mem_append.1 hi with hi | hi
    · exact ⟨Nat.le_of_succ_le (hX2 i hi).1, (hX2 i hi).2⟩
    · rw [List.mem_singleton] at hi
      subst hi
      exact ⟨Nat.le_refl _, hnx⟩

theorem bCall_replace {fs : Fields} (b : Byte) (panics : BOracle) (tl : Bool) (cx : Ctx) (body : GBody)
    (variant : Option String) (t0 : Nat) (σ : B chain) (h : Callable b true t0 σ)
    (hbody : ∀ t σ', Ready b σ' true none t → σ'.status = .run → (∀ t ∈ σ'.prot, t < σ'.next) →
      OnTop (pState b σ') (bEvalBody b panics tl ⟨variant, labels fs.list⟩ ⟨preStmts ++ body.stmts, body.tail⟩
        (bArgEnv (labels fs.list).length t) σ').2) :
    MutationOk b t0 (bCallFn b panics tl (projectReplaceFn cx body) ⟨variant, labels fs.list⟩ t0 σ) := by
  obtain ⟨q, s, he, hs, ht, hu⟩ := entered h
  have he' : σ.retag b .unique none t0 = _ := he
  have hr : Ready b { σ with next := σ.next + 1, mem := ⟨.unique, σ.next⟩ :: ⟨q, t0⟩ :: s, prot := σ.next :: σ.prot } true none
      σ.next := by
    refine ⟨Nat.lt_succ_self _, fun _ => ⟨read_head _, fun hm => write_head (by simp) _⟩⟩
  have hf := hbody σ.next
    { σ with next := σ.next + 1, mem := ⟨.unique, σ.next⟩ :: ⟨q, t0⟩ :: s, prot := σ.next :: σ.prot } hr h.run (by
      intro t ht
      simp only [List.mem_cons] at ht
      rcases ht with rfl | ht
      · exact Nat.lt_succ_self _
      · exact Nat.lt_succ_of_lt (h.prot t ht))
  have hcall : bCallFn b panics tl (projectReplaceFn cx body) ⟨variant, labels fs.list⟩ t0 σ =
      (let r := bEvalBody b panics tl ⟨variant, labels fs.list⟩ ⟨preStmts ++ body.stmts, body.tail⟩
        (bArgEnv (labels fs.list).length σ.next) { σ with next := σ.next + 1, mem := ⟨.unique, σ.next⟩ :: ⟨q, t0⟩ :: s, prot := σ.next :: σ.prot }
       (r.1, { r.2.release σ.next with prot := σ.prot })) := by
    unfold bCallFn
    rw [show bSelf (projectReplaceFn cx body).recv σ.next =
      some (.unique, .fv (.pinRef true none σ.next)) from rfl]
    simp only [he']
    rfl
  rw [hcall]
  exact mutationOk_of h hu hs ht _
    ⟨((Ext.push b _ .unique none).trans (Ext.push b _ .raw none)).trans hf.1, hf.2⟩

theorem borrow_replace (item : Item) (E : Expansion) (h : parseDerive item = .ok E) (hwf : ItemWF item)
    (fn : GFn) (hfn : method E "project_replace" = some fn)
    (variant : Option String) (fs : Fields) (hv : HasVariant item variant fs) (hfree : NamesFree fs)
    (b : Byte) (hb : OneField b fs)
    (t0 : Nat) (σ : B chain) (hσ : Callable b true t0 σ) (panics : BOracle) (tl : Bool) :
    MutationOk b t0 (bCallFn b panics tl fn ⟨variant, labels fs.list⟩ t0 σ) := by
  cases item with
  | other a => simp [parseDerive] at h
  | struct_ s =>
    obtain ⟨A, -, -, -, -, -, -, rfl⟩ := (deriveStruct_iff s E).1 h
    have hwf' := wf_visit (mkSelfTy s.ident s.generics.tyGenerics) _ (hwf.fields none s.fields ⟨rfl, rfl⟩)
    obtain ⟨rfl, rfl⟩ := hv
    have hap := oneField_apart hwf' (oneField_visit (mkSelfTy s.ident s.generics.tyGenerics) hb)
    have key := fun t σ' h1 h2 h3 => bEvalBody_own_struct hwf' ((namesFree_visit _ _).2 hfree) b panics tl
      (s.ctx A).ownIdent (labels s.fields.list).length t σ' h1 h2 h3 hap
    rw [labels_visit] at key
    rw [method_struct, implFns_projectReplace] at hfn
    split at hfn
    · simp at hfn
    · obtain rfl := Option.some.inj hfn
      exact bCall_replace b panics tl _ _ none t0 σ hσ key
  | enum_ e =>
    obtain ⟨A, -, -, -, -, -, -, -, rfl⟩ := (deriveEnum_iff e E).1 h
    obtain ⟨v, hv, rfl, rfl⟩ := hv
    have hwf' := wf_visit (mkSelfTy e.ident e.generics.tyGenerics) _
      (hwf.fields _ v.fields ⟨v, hv, rfl, rfl⟩)
    have hn : (e.pre.variants.map (·.ident)).Nodup := by
      have := hwf.variants e rfl
      rw [ItemEnum.pre_variants, List.map_map]
      exact this
    have hv' : v.visit (mkSelfTy e.ident e.generics.tyGenerics) ∈ e.pre.variants := by
      rw [ItemEnum.pre_variants]; exact List.mem_map_of_mem hv
    have hap := oneField_apart hwf' (oneField_visit (mkSelfTy e.ident e.generics.tyGenerics) hb)
    have key := fun t σ' h1 h2 h3 => bEvalBody_own_enum hn hv' hwf' ((namesFree_visit _ _).2 hfree) b panics tl
      (e.ctx A).ownIdent (labels v.fields.list).length t σ' h1 h2 h3 hap
    simp only [Variant.visit] at key
    rw [labels_visit] at key
    rw [method_enum, implFns_projectReplace] at hfn
    split at hfn
    · simp at hfn
    · obtain rfl := Option.some.inj hfn
      exact bCall_replace b panics tl _ _ _ t0 σ hσ key

/-! ## `Drop` -/

theorem bCall_drop (b : Byte) (panics : BOracle) (tl : Bool) (o : Shape) (t0 : Nat) (σ : B chain)
    (h : Callable b true t0 σ) : MutationOk b t0 (bCallFn b panics tl genDropFn o t0 σ) := by
  obtain ⟨q, s, he, hs, ht, hu⟩ := entered h
  have he' : σ.retag b .unique none t0 = _ := he
  let σ0 : B chain := { σ with next := σ.next + 1, mem := ⟨.unique, σ.next⟩ :: ⟨q, t0⟩ :: s, prot := σ.next :: σ.prot }
  have hr : Ready b σ0 true none σ.next :=
    ⟨Nat.lt_succ_self _, fun _ => ⟨read_head _, fun hm => write_head (by simp) _⟩⟩
  have h1 : B.retag b .unique none σ.next σ0 = (σ.next + 1, σ0.push b .unique none) :=
    retag_ready hr .unique (fun _ => rfl)
  have h2 : bDropInPlace b panics none (σ.next + 1) (σ0.push b .unique none) =
      ((σ0.push b .unique none).push b .unique none).runDtor panics :=
    bDropInPlace_ready panics (ready_new b σ0 .unique none true (fun _ => by simp))
  have hf : OnTop σ0 (((σ0.push b .unique none).push b .unique none).runDtor panics) :=
    OnTop.runDtor ⟨(Ext.push b σ0 .unique none).trans (Ext.push b _ .unique none), .inl h.run⟩ panics
  have hbody : (bEvalBody b panics tl o genDropFn.body [("self", some (.fv (.ref true none σ.next)))] σ0).2 =
      ((σ0.push b .unique none).push b .unique none).runDtor panics := by
    have hr1 : (σ0.push b .unique none).status = .run := h.run
    generalize hg : ((σ0.push b .unique none).push b .unique none).runDtor panics = σ1 at *
    simp [genDropFn, bEvalBody, bEvalBlock, bEvalStmts, bEvalStmt, bEvalRHS, BEnv.use, BVal.isOwning, permOf, h1, hr1,
      bCoerce, h2, bDropVal]
    by_cases hs : σ1.status = .run
    · simp [hs, bLeave, bDropSlots, bDropVal, bDropFVal]
    · simp [hs, bLeavePanic, bDropSlots, bDropVal, bDropFVal]
  have hcall : bCallFn b panics tl genDropFn o t0 σ =
      (let r := bEvalBody b panics tl o genDropFn.body [("self", some (.fv (.ref true none σ.next)))] σ0
       (r.1, { r.2.release σ.next with prot := σ.prot })) := by
    unfold bCallFn
    rw [show bSelf genDropFn.recv σ.next = some (.unique, .fv (.ref true none σ.next)) from rfl]
    simp only [he']
    rfl
  rw [hcall]
  exact mutationOk_of h hu hs ht _ (by rw [hbody]; exact hf)

end PinProject
