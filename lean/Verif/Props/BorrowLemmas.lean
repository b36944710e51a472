import Verif.Props.BorrowLift
import Verif.Props.ReplaceLemmas
/-!
# Lemmas about the aliasing machine
-/
namespace PinProject
open Spec

/-! ## Stacks -/

theorem write_head {prot : List Nat} {t : Nat} {p : BPerm} (hp : p ≠ .shared) (s : BStack) :
    BStack.write prot t (⟨p, t⟩ :: s) = some (⟨p, t⟩ :: s) := by
  simp [BStack.write, hp]

theorem read_head {prot : List Nat} {t : Nat} {p : BPerm} (s : BStack) :
    BStack.strictRead prot t (⟨p, t⟩ :: s) = some (⟨p, t⟩ :: s) := by
  simp [BStack.strictRead]

theorem write_result {prot : List Nat} {t : Nat} {s s' : BStack} (h : BStack.write prot t s = some s') :
    ∃ p r, p ≠ BPerm.shared ∧ s' = ⟨p, t⟩ :: r ∧ ∀ i ∈ s', i ∈ s := by
  induction s with
  | nil => simp [BStack.write] at h
  | cons i s ih =>
    unfold BStack.write at h
    split at h
    · rename_i ht
      split at h
      · cases h
      · rename_i hp
        obtain rfl := Option.some.inj h
        exact ⟨i.perm, s, hp, by rw [← ht], fun _ h => h⟩
    · split at h
      · cases h
      · obtain ⟨p, r, h1, h2, h3⟩ := ih h
        exact ⟨p, r, h1, h2, fun j hj => List.mem_cons_of_mem _ (h3 j hj)⟩

theorem read_result {prot : List Nat} {t : Nat} {s s' : BStack} (h : BStack.strictRead prot t s = some s') :
    ∃ p r, s' = ⟨p, t⟩ :: r ∧ ∀ i ∈ s', i ∈ s := by
  induction s with
  | nil => simp [BStack.strictRead] at h
  | cons i s ih =>
    unfold BStack.strictRead at h
    split at h
    · rename_i ht
      obtain rfl := Option.some.inj h
      exact ⟨i.perm, s, by rw [← ht], fun _ h => h⟩
    · split at h
      · cases h
      · obtain ⟨p, r, h2, h3⟩ := ih h
        exact ⟨p, r, h2, fun j hj => List.mem_cons_of_mem _ (h3 j hj)⟩

theorem write_skip {prot : List Nat} {t : Nat} (X s : BStack) (h : ∀ i ∈ X, i.tag ≠ t ∧ i.tag ∉ prot) :
    BStack.write prot t (X ++ s) = BStack.write prot t s := by
  induction X with
  | nil => rfl
  | cons i X ih =>
    have := h i List.mem_cons_self
    rw [List.cons_append, BStack.write.eq_2, if_neg this.1, if_neg this.2]
    exact ih (fun j hj => h j (List.mem_cons_of_mem _ hj))

theorem read_skip {prot : List Nat} {t : Nat} (X s : BStack) (h : ∀ i ∈ X, i.tag ≠ t ∧ i.tag ∉ prot) :
    BStack.strictRead prot t (X ++ s) = BStack.strictRead prot t s := by
  induction X with
  | nil => rfl
  | cons i X ih =>
    have := h i List.mem_cons_self
    rw [List.cons_append, BStack.strictRead.eq_2, if_neg this.1, if_neg this.2]
    exact ih (fun j hj => h j (List.mem_cons_of_mem _ hj))

theorem write_mono {prot prot' : List Nat} {t : Nat} {s s' : BStack} (hp : ∀ x ∈ prot', x ∈ prot)
    (h : BStack.write prot t s = some s') : BStack.write prot' t s = some s' := by
  induction s with
  | nil => simp [BStack.write] at h
  | cons i s ih =>
    unfold BStack.write at h ⊢
    split at h
    · rename_i ht
      rw [if_pos ht]
      exact h
    · rename_i ht
      rw [if_neg ht]
      split at h
      · cases h
      · rename_i hn
        rw [if_neg (fun hx => hn (hp _ hx))]
        exact ih h

theorem read_mono {prot prot' : List Nat} {t : Nat} {s s' : BStack} (hp : ∀ x ∈ prot', x ∈ prot)
    (h : BStack.strictRead prot t s = some s') : BStack.strictRead prot' t s = some s' := by
  induction s with
  | nil => simp [BStack.strictRead] at h
  | cons i s ih =>
    unfold BStack.strictRead at h ⊢
    split at h
    · rename_i ht
      rw [if_pos ht]
      exact h
    · rename_i ht
      rw [if_neg ht]
      split at h
      · cases h
      · rename_i hn
        rw [if_neg (fun hx => hn (hp _ hx))]
        exact ih h

/-! ## Pointers that can be used without changing anything -/

/-- The pointer `t` to `l` can be used (for writing only if `m`), and using it does not remove anything. -/
def Ready (b : Byte) (σ : B chain) (m : Bool) (l : Option String) (t : Nat) : Prop :=
  t < σ.next ∧ (b.within l = true → BStack.strictRead σ.prot t σ.mem = some σ.mem ∧
    (m = true → BStack.write σ.prot t σ.mem = some σ.mem))

theorem access_ready {b : Byte} {σ : B chain} {m : Bool} {l : Option String} {t : Nat} (h : Ready b σ m l t)
    (w : Bool) (hw : w = true → m = true) : σ.access b w l t = σ := by
  unfold B.access
  split
  · rename_i hl
    have hl := (Bool.and_eq_true _ _ ▸ hl).2
    cases w with
    | true => simp only [if_true, (h.2 hl).2 (hw rfl)]; rfl
    | false => simp only [Bool.false_eq_true, if_false, (h.2 hl).1]; rfl
  · rfl

/-- The state after a pointer to `l` has been made. -/
def B.push (b : Byte) (p : BPerm) (l : Option String) (σ : B chain) : B chain :=
  { σ with next := σ.next + 1, mem := if b.within l then ⟨p, σ.next⟩ :: σ.mem else σ.mem }

theorem retag_ready {b : Byte} {σ : B chain} {m : Bool} {l : Option String} {t : Nat} (h : Ready b σ m l t)
    (p : BPerm) (hp : p ≠ .shared → m = true) : σ.retag b p l t = (σ.next, σ.push b p l) := by
  unfold B.retag
  simp only
  rw [access_ready h (p != .shared) (fun h => hp (by simpa using h))]
  rfl

theorem ready_new (b : Byte) (σ : B chain) (p : BPerm) (l : Option String) (m : Bool) (hm : m = true → p ≠ .shared) :
    Ready b (σ.push b p l) m l σ.next := by
  refine ⟨Nat.lt_succ_self _, fun hl => ?_⟩
  simp only [B.push, hl, if_true]
  exact ⟨read_head _, fun h => write_head (hm h) _⟩

theorem ready_push {b : Byte} {σ : B chain} {m' : Bool} {l' : Option String} {t' : Nat} (h : Ready b σ m' l' t')
    (p : BPerm) (l : Option String)
    (hd : b.within l = true → b.within l' = true → False) :
    Ready b (σ.push b p l) m' l' t' := by
  refine ⟨Nat.lt_succ_of_lt h.1, fun hl' => ?_⟩
  have h2 := h.2 hl'
  by_cases hl : b.within l = true
  · exact absurd hl' (hd hl)
  · simp only [B.push, hl]
    exact h2

/-! ## What stays below -/

/-- Only new items have been put on top. -/
structure Ext (σ σ' : B chain) : Prop where
  next : σ.next ≤ σ'.next
  prot : σ'.prot = σ.prot
  stack : ∃ X, σ'.mem = X ++ σ.mem ∧ ∀ i ∈ X, σ.next ≤ i.tag ∧ i.tag < σ'.next

theorem Ext.refl (σ : B chain) : Ext σ σ := ⟨Nat.le_refl _, rfl, [], rfl, fun _ h => by cases h⟩

theorem Ext.trans {σ1 σ2 σ3 : B chain} (h1 : Ext σ1 σ2) (h2 : Ext σ2 σ3) : Ext σ1 σ3 := by
  obtain ⟨X, hX, hX2⟩ := h1.stack
  obtain ⟨Y, hY, hY2⟩ := h2.stack
  refine ⟨Nat.le_trans h1.next h2.next, h2.prot.trans h1.prot, Y ++ X, by rw [hY, hX, List.append_assoc], ?_⟩
  intro i hi
  rcases List.mem_append.1 hi with hi | hi
  · exact ⟨Nat.le_trans h1.next (hY2 i hi).1, (hY2 i hi).2⟩
  · exact ⟨(hX2 i hi).1, Nat.lt_of_lt_of_le (hX2 i hi).2 h2.next⟩

theorem Ext.push (b : Byte) (σ : B chain) (p : BPerm) (l : Option String) : Ext σ (σ.push b p l) := by
  refine ⟨Nat.le_succ _, rfl, if b.within l then [⟨p, σ.next⟩] else [], ?_, ?_⟩
  · simp only [B.push]
    split <;> rfl
  · intro i hi
    split at hi
    · simp at hi
      subst hi
      exact ⟨Nat.le_refl _, Nat.lt_succ_self _⟩
    · cases hi

/-- Making pointers neither changes the status nor runs destructors. -/
structure Quiet (σ σ' : B chain) : Prop extends Ext σ σ' where
  status : σ'.status = σ.status
  dtors : σ'.dtors = σ.dtors

theorem Quiet.refl (σ : B chain) : Quiet σ σ := ⟨Ext.refl σ, rfl, rfl⟩
theorem Quiet.trans {σ1 σ2 σ3 : B chain} (h1 : Quiet σ1 σ2) (h2 : Quiet σ2 σ3) : Quiet σ1 σ3 :=
  ⟨h1.toExt.trans h2.toExt, h2.status.trans h1.status, h2.dtors.trans h1.dtors⟩
theorem Quiet.push (b : Byte) (σ : B chain) (p : BPerm) (l : Option String) : Quiet σ (σ.push b p l) :=
  ⟨Ext.push b σ p l, rfl, rfl⟩

/-- What a step for the fields `ls` may disturb: nothing but the pointers to these fields. -/
def Spares (b : Byte) (ls : List String) (σ σ' : B chain) : Prop :=
  ∀ m l t, Ready b σ m l t → (∀ x ∈ ls, b.inField x = true → b.within l = true → False) → Ready b σ' m l t

theorem Spares.refl (b : Byte) (ls : List String) (σ : B chain) : Spares b ls σ σ := fun _ _ _ h _ => h

theorem Spares.push (b : Byte) (ls : List String) (σ : B chain) (p : BPerm) (x : String) (hx : x ∈ ls) :
    Spares b ls σ (σ.push b p (some x)) :=
  fun _ _ _ h hd => ready_push h p (some x) (hd x hx)

theorem Spares.mono {b : Byte} {ls ls' : List String} {σ σ' : B chain} (h : Spares b ls σ σ')
    (hs : ∀ x ∈ ls, x ∈ ls') : Spares b ls' σ σ' :=
  fun m l t hr hd => h m l t hr (fun x hx => hd x (hs x hx))

theorem Spares.trans {b : Byte} {ls : List String} {σ1 σ2 σ3 : B chain} (h1 : Spares b ls σ1 σ2)
    (h2 : Spares b ls σ2 σ3) : Spares b ls σ1 σ3 :=
  fun m l t hr hd => h2 m l t (h1 m l t hr hd) hd

/-- No byte is in two fields of the list. -/
def Apart (b : Byte) (ls : List String) : Prop :=
  ls.Pairwise (fun x y => b.inField x = true → b.inField y = true → False)

theorem apart_of {b : Byte} {ls : List String} (hn : ls.Nodup)
    (h : ∀ x ∈ ls, ∀ y ∈ ls, b.inField x = true → b.inField y = true → x = y) : Apart b ls := by
  unfold Apart
  rw [List.nodup_iff_pairwise_ne] at hn
  refine List.Pairwise.imp_of_mem ?_ hn
  intro x y hx hy hne h1 h2
  exact hne (h x hx y hy h1 h2)

theorem Spares.keep {b : Byte} {x : String} {ls : List String} {σ σ' : B chain} (h : Spares b ls σ σ')
    (ha : Apart b (x :: ls)) {m : Bool} {t : Nat} (hr : Ready b σ m (some x) t) : Ready b σ' m (some x) t := by
  refine h m (some x) t hr ?_
  intro y hy h1 h2
  exact List.rel_of_pairwise_cons ha hy h2 h1

/-! ## Patterns -/

theorem permOf_shared (m : Bool) : permOf m ≠ .shared ↔ m = true := by cases m <;> simp [permOf]

theorem bPairs_eq {fs : Fields} (hwf : fs.WF) (variant : Option String) :
    bPairs ⟨variant, fs.delim, bindings fs.list⟩ ⟨variant, labels fs.list⟩ =
      some (fs.list.zipIdx.map (fun x => (binding x.2 x.1, fieldLabel x.2 x.1))) := by
  have hn := bindings_nodup hwf
  unfold bPairs
  simp only [true_and]
  rw [if_pos hn]
  cases fs with
  | unit => simp [Fields.delim, labels, bindings, Fields.list]
  | named fs =>
    have hl : labels (Fields.named fs).list = bindings (Fields.named fs).list := labels_brace fs hwf.1
    refine (if_pos ?_).trans ?_
    · simp only [hl]
      exact ⟨fun _ h => h, fun _ h => h⟩
    · simp only [bindings, List.map_map, Function.comp_def, Option.some.injEq]
      apply List.map_congr_left
      intro x hx
      obtain ⟨n, hn⟩ := Option.isSome_iff_exists.1 (hwf.1 x.1 (List.fst_mem_of_mem_zipIdx hx))
      simp [fieldLabel, binding, hn]
  | unnamed fs =>
    have hl : (bindings (Fields.unnamed fs).list).length = (labels (Fields.unnamed fs).list).length := by
      simp [labels, bindings]
    refine (if_pos hl).trans ?_
    simp only [bindings, labels, List.zip_map', Fields.list]

/-- Binding makes one usable reference per field. -/
theorem bBind_ready (b : Byte) (m : Bool) (t : Nat) (ps : List (String × String)) (σ : B chain)
    (ha : Apart b (ps.map Prod.snd)) (hr : ∀ p ∈ ps, Ready b σ m (some p.2) t) :
    (bBind b m t ps σ).1.map Prod.fst = ps.map Prod.fst ∧
    (∀ p ∈ ps, ∃ t', (p.1, some (.fv (.ref m (some p.2) t'))) ∈ (bBind b m t ps σ).1 ∧
      Ready b (bBind b m t ps σ).2 m (some p.2) t') ∧
    (∀ e ∈ (bBind b m t ps σ).1, ∃ l t', e.2 = some (.fv (.ref m l t'))) ∧
    Quiet σ (bBind b m t ps σ).2 ∧ Spares b (ps.map Prod.snd) σ (bBind b m t ps σ).2 := by
  induction ps generalizing σ with
  | nil => exact ⟨rfl, by simp, by simp [bBind], Quiet.refl _, Spares.refl _ _ _⟩
  | cons p ps ih =>
    obtain ⟨x, f⟩ := p
    have hq := retag_ready (hr (x, f) List.mem_cons_self) (permOf m) (permOf_shared m).1
    have hsp : Spares b (f :: ps.map Prod.snd) σ (σ.push b (permOf m) (some f)) :=
      Spares.push b _ σ (permOf m) f List.mem_cons_self
    have ha' : Apart b (ps.map Prod.snd) := (List.pairwise_cons.1 ha).2
    obtain ⟨h1, h2, h3, h4, h5⟩ := ih (σ.push b (permOf m) (some f)) ha' (by
      intro p hp
      apply ready_push (hr p (List.mem_cons_of_mem _ hp))
      exact (fun hx hy => (List.pairwise_cons.1 ha).1 p.2 (List.mem_map_of_mem hp) hx hy))
    have hnew := ready_new b σ (permOf m) (some f) m (permOf_shared m).2
    simp only [bBind, hq]
    refine ⟨by simp only [List.map_cons, h1], ?_, ?_, (Quiet.push _ _ _ _).trans h4, ?_⟩
    · intro p hp
      rcases List.mem_cons.1 hp with rfl | hp
      · exact ⟨σ.next, List.mem_cons_self, h5.keep ha hnew⟩
      · obtain ⟨t', ht, hr'⟩ := h2 p hp
        exact ⟨t', List.mem_cons_of_mem _ ht, hr'⟩
    · intro e he
      rcases List.mem_cons.1 he with rfl | he
      · exact ⟨_, _, rfl⟩
      · exact h3 e he
    · exact hsp.trans (h5.mono (fun _ h => List.mem_cons_of_mem _ h))

/-- Every variable of a field holds a usable reference to the field. -/
def FieldsReady (b : Byte) (m : Bool) (σ : B chain) (env : BEnv) (l : List (Field × Nat)) : Prop :=
  ∀ x ∈ l, ∃ t, env.lookup (binding x.2 x.1) = some (some (.fv (.ref m (some (fieldLabel x.2 x.1)) t))) ∧
    Ready b σ m (some (fieldLabel x.2 x.1)) t

theorem bindEnv_ready {fs : Fields} (hwf : fs.WF) (b : Byte) (m : Bool) (t : Nat) (σ : B chain)
    (ha : Apart b (labels fs.list)) (hr : Ready b σ m none t) (env : BEnv) :
    let r := bBind b m t (fs.list.zipIdx.map (fun x => (binding x.2 x.1, fieldLabel x.2 x.1))) σ
    FieldsReady b m r.2 (r.1.reverse ++ env) fs.list.zipIdx ∧
    (∀ e ∈ r.1, ∃ l t', e.2 = some (.fv (.ref m l t'))) ∧ Quiet σ r.2 := by
  have hr' : ∀ l, Ready b σ m l t := fun l => ⟨hr.1, fun _ => hr.2 rfl⟩
  have hm : ∀ g : String × String → String, (fs.list.zipIdx.map
      (fun x => (binding x.2 x.1, fieldLabel x.2 x.1))).map g =
      fs.list.zipIdx.map (fun x => g (binding x.2 x.1, fieldLabel x.2 x.1)) := by
    intro g; rw [List.map_map]; rfl
  obtain ⟨h1, h2, h3, h4, -⟩ := bBind_ready b m t
    (fs.list.zipIdx.map (fun x => (binding x.2 x.1, fieldLabel x.2 x.1))) σ
    (by rw [hm]; exact ha) (fun p _ => hr' _)
  refine ⟨?_, h3, h4⟩
  intro x hx
  obtain ⟨t', ht, hrd⟩ := h2 (binding x.2 x.1, fieldLabel x.2 x.1) (List.mem_map.2 ⟨x, hx, rfl⟩)
  refine ⟨t', ?_, hrd⟩
  apply lookup_append_of_mem
  · rw [List.map_reverse, (List.reverse_perm _).nodup_iff, h1, hm]
    exact bindings_nodup hwf
  · rw [List.mem_reverse]
    exact ht

/-! ## Constructors -/

theorem projInit_label {fs : Fields} (hwf : fs.WF) {f : Field} {i : Nat} (hx : (f, i) ∈ fs.list.zipIdx) :
    GInit.label fs.delim i (projInit (f, i)) = fieldLabel i f := by
  unfold projInit
  split
  · rfl
  · cases fs with
    | unit => simp [Fields.list] at hx
    | named fs =>
      obtain ⟨n, hn⟩ := Option.isSome_iff_exists.1 (hwf.1 f (List.fst_mem_of_mem_zipIdx hx))
      simp [GInit.label, Fields.delim, binding, fieldLabel, hn]
    | unnamed fs =>
      have hn := hwf f (List.fst_mem_of_mem_zipIdx hx)
      simp [GInit.label, Fields.delim, fieldLabel, hn]

theorem getRef_of_lookup {env : BEnv} {x : String} {m : Bool} {l : Option String} {t : Nat}
    (h : env.lookup x = some (some (.fv (.ref m l t)))) : env.getRef x = some (m, l, t) := by
  unfold BEnv.getRef
  rw [h]

theorem bEvalInits_proj {fs : Fields} (hwf : fs.WF) (b : Byte) (m : Bool) (p : Nat) (env : BEnv) :
    ∀ (l : List Field) (i : Nat) (σ : B chain), (∀ x ∈ l.zipIdx i, x ∈ fs.list.zipIdx) →
    Apart b ((l.zipIdx i).map (fun x => fieldLabel x.2 x.1)) → FieldsReady b m σ env (l.zipIdx i) →
    ∃ vs σ', bEvalInits b env fs.delim i ((l.zipIdx i).map projInit) σ = some (vs, σ') ∧
      vs.map (fun v => (v.1, untagged p v.2)) = (l.zipIdx i).map
        (fun x => (fieldLabel x.2 x.1, some (fieldRef m p (fieldLabel x.2 x.1) x.1))) ∧
      (∀ v ∈ vs, ∃ l t, pointer v.2 = some (m, l, t) ∧ Ready b σ' m l t) ∧
      Quiet σ σ' ∧ Spares b ((l.zipIdx i).map (fun x => fieldLabel x.2 x.1)) σ σ' := by
  intro l
  induction l with
  | nil =>
    intro i σ _ _ _
    exact ⟨[], σ, rfl, rfl, by simp, Quiet.refl _, Spares.refl _ _ _⟩
  | cons f l ih =>
    intro i σ hsub ha hr
    rw [List.zipIdx_cons] at hsub ha hr ⊢
    have hx : (f, i) ∈ fs.list.zipIdx := hsub _ List.mem_cons_self
    obtain ⟨t, ht, hrt⟩ := hr (f, i) List.mem_cons_self
    simp only at ht hrt
    rw [List.map_cons] at ha
    have ha' := (List.pairwise_cons.1 ha).2
    have hlab := projInit_label hwf hx
    -- the first entry
    obtain ⟨v, σ1, hv, hu, ⟨l1, t1, hp1, hr1, rfl⟩, hq, hsp⟩ : ∃ v σ1,
        bEvalF b σ env (projInit (f, i)).expr = some (v, σ1) ∧
        untagged p v = some (fieldRef m p (fieldLabel i f) f) ∧
        (∃ l1 t1, pointer v = some (m, l1, t1) ∧ Ready b σ1 m l1 t1 ∧ l1 = some (fieldLabel i f)) ∧
        Quiet σ σ1 ∧ Spares b [fieldLabel i f] σ σ1 := by
      unfold projInit fieldRef
      cases hp : Pinned f with
      | true =>
        have hq := retag_ready hrt (permOf m) (permOf_shared m).1
        simp only [if_true, GInit.expr, bEvalF, getRef_of_lookup ht, Option.map_some, hq]
        refine ⟨_, _, rfl, rfl, ⟨_, _, rfl, ?_, rfl⟩, Quiet.push _ _ _ _, ?_⟩
        · exact ready_new b σ (permOf m) _ m (permOf_shared m).2
        · exact Spares.push b _ σ (permOf m) _ List.mem_cons_self
      | false =>
        simp only [Bool.false_eq_true, if_false, GInit.expr, bEvalF, getRef_of_lookup ht, Option.map_some]
        exact ⟨_, _, rfl, rfl, ⟨_, _, rfl, hrt, rfl⟩, Quiet.refl _, Spares.refl _ _ _⟩
    obtain ⟨vs, σ2, h1, h2, h3, h4, h5⟩ := ih (i + 1) σ1
      (fun x hx => hsub x (List.mem_cons_of_mem _ hx)) ha' (by
        intro x hx
        obtain ⟨t', ht', hr'⟩ := hr x (List.mem_cons_of_mem _ hx)
        refine ⟨t', ht', hsp _ _ _ hr' ?_⟩
        intro y hy h1 h2
        rw [List.mem_singleton] at hy
        subst hy
        exact (List.pairwise_cons.1 ha).1 _ (List.mem_map.2 ⟨x, hx, rfl⟩) h1 h2)
    refine ⟨(fieldLabel i f, v) :: vs, σ2, ?_, ?_, ?_, hq.trans h4, ?_⟩
    · simp only [List.map_cons, bEvalInits, hv, hlab, Option.bind_eq_bind, Option.bind_some, h1]
    · simp only [List.map_cons, h2, hu]
    · intro w hw
      rcases List.mem_cons.1 hw with rfl | hw
      · exact ⟨_, _, hp1, h5.keep ha hr1⟩
      · exact h3 w hw
    · rw [List.map_cons]
      refine (hsp.mono ?_).trans (h5.mono (fun _ h => List.mem_cons_of_mem _ h))
      intro y hy
      rw [List.mem_singleton] at hy
      subst hy
      exact List.mem_cons_self

/-! ## Dropping variables -/

theorem bDropSlots_append (b : Byte) (panics : BOracle) (e1 e2 : BEnv) (σ : B chain) :
    bDropSlots b panics (e1 ++ e2) σ = bDropSlots b panics e2 (bDropSlots b panics e1 σ) := by
  induction e1 generalizing σ with
  | nil => rfl
  | cons x e1 ih =>
    obtain ⟨y, v⟩ := x
    cases v with
    | none => exact ih σ
    | some v => exact ih _

/-- Nothing in these variables has a destructor. -/
def Inert (env : BEnv) : Prop := ∀ e ∈ env, ∀ v, e.2 = some v → v.isOwning = false

theorem bDropSlots_inert {A : AliasModel} (b : Byte) (panics : BOracle) {env : BEnv} (h : Inert env) (σ : B A) :
    bDropSlots b panics env σ = σ := by
  induction env with
  | nil => rfl
  | cons x env ih =>
    obtain ⟨y, v⟩ := x
    have ih := ih (fun e he => h e (List.mem_cons_of_mem _ he))
    cases v with
    | none => exact ih
    | some v =>
      have := h _ List.mem_cons_self v rfl
      simp only [bDropSlots]
      rw [show bDropVal b panics v σ = σ from ?_]
      · exact ih
      · cases v with
        | fv v => cases v <;> first | rfl | simp [BVal.isOwning] at this
        | unit => rfl
        | ptr => rfl
        | _ => simp [BVal.isOwning] at this

theorem inert_refs {m : Bool} {env : BEnv} (h : ∀ e ∈ env, ∃ l t, e.2 = some (.fv (.ref m l t))) : Inert env := by
  intro e he v hv
  obtain ⟨l, t, h⟩ := h e he
  rw [h] at hv
  obtain rfl := Option.some.inj hv
  rfl

theorem Inert.append {e1 e2 : BEnv} (h1 : Inert e1) (h2 : Inert e2) : Inert (e1 ++ e2) := by
  intro e he
  rcases List.mem_append.1 he with he | he
  · exact h1 e he
  · exact h2 e he

theorem Inert.reverse {env : BEnv} (h : Inert env) : Inert env.reverse := fun e he => h e (List.mem_reverse.1 he)

end PinProject
