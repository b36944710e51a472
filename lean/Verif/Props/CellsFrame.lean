import Verif.Props.BorrowChain
import Verif.Spec.Cells
/-!
# Calls of `project_ref` while the byte may be written through shared references
-/
namespace PinProject
open Spec

/-- `W P n s S`: with every pointer of `S` the byte can be read and written. They were made from `t0`, which can still be
used to read. -/
structure CellFrame (A : AliasModel) (t0 : Nat) where
  W : List Nat → Nat → A.St → List Nat → Prop
  access : ∀ {P n s S t} (w : Bool), W P n s S → t ∈ S → ∃ s', A.access P w t s = some s' ∧ W P n s' S
  read : ∀ {P n s S}, W P n s S → ∃ s', A.access P false t0 s = some s' ∧ W P n s' S
  noWrite : ∀ n, A.retagAccess .shared n ≠ some true
  share : ∀ {P n s S t}, W P n s S → t ∈ t0 :: S → W P (n + 1) (A.push .shared t n s) (n :: S)
  skip : ∀ {P n s S}, W P n s S → W P (n + 1) s S
  protect : ∀ {P n s S t}, W P n s S → t ∈ S → W (t :: P) n s S
  release : ∀ {P n s S t}, W P n s S → t ∈ S → A.release P t s = some s
  unprotect : ∀ {P n s S t}, W (t :: P) n s S → t ∈ S → W P n s S

variable {A : AliasModel} {t0 : Nat}

/-- The machine runs, and the pointers of `S` can be used. -/
def InW (F : CellFrame A t0) (S : List Nat) (σ : B A) : Prop := σ.status = .run ∧ F.W σ.prot σ.next σ.mem S

/-- From `σ` to `σ'` only pointers were made; those of `S'` can be used. -/
structure Grows (F : CellFrame A t0) (S : List Nat) (σ : B A) (S' : List Nat) (σ' : B A) : Prop where
  inW : InW F S' σ'
  sub : ∀ t ∈ S, t ∈ S'
  prot : σ'.prot = σ.prot
  next : σ.next ≤ σ'.next

variable {F : CellFrame A t0} {S : List Nat} {σ : B A}

theorem Grows.refl (h : InW F S σ) : Grows F S σ S σ := ⟨h, fun _ h => h, rfl, Nat.le_refl _⟩

theorem Grows.trans {S1 S2 S3 : List Nat} {σ1 σ2 σ3 : B A} (h1 : Grows F S1 σ1 S2 σ2) (h2 : Grows F S2 σ2 S3 σ3) :
    Grows F S1 σ1 S3 σ3 :=
  ⟨h2.inW, fun t ht => h2.sub t (h1.sub t ht), h2.prot.trans h1.prot, Nat.le_trans h1.next h2.next⟩

theorem access_w (h : InW F S σ) (b : Byte) (w : Bool) (l : Option String) (t : Nat)
    (ht : b.within l = true → t ∈ S ∨ (t = t0 ∧ w = false)) : Grows F S σ S (σ.access b w l t) := by
  unfold B.access
  split
  · rename_i hl
    rw [Bool.and_eq_true] at hl
    obtain ⟨s', hs, hw⟩ : ∃ s', A.access σ.prot w t σ.mem = some s' ∧ F.W σ.prot σ.next s' S := by
      rcases ht hl.2 with ht | ⟨rfl, rfl⟩
      · exact F.access w h.2 ht
      · exact F.read h.2
    rw [hs]
    exact ⟨⟨h.1, hw⟩, fun _ h => h, rfl, Nat.le_refl _⟩
  · exact Grows.refl h

theorem retag_w (h : InW F S σ) (b : Byte) (l : Option String) (t : Nat) (ht : b.within l = true → t ∈ t0 :: S) :
    ∃ S', Grows F S σ S' (σ.retag b .shared l t).2 ∧ (b.within l = true → (σ.retag b .shared l t).1 ∈ S') := by
  have h1 : ∃ σ1 : B A, Grows F S σ S σ1 ∧ σ1.next = σ.next ∧ σ.retag b .shared l t =
      (σ.next, { σ1 with next := σ.next + 1, mem := if b.within l then A.push .shared t σ.next σ1.mem else σ1.mem }) := by
    unfold B.retag
    cases hw : A.retagAccess .shared σ.next with
    | none => exact ⟨σ, Grows.refl h, rfl, rfl⟩
    | some w =>
      have hw' : w = false := by
        cases w with
        | false => rfl
        | true => exact absurd hw (F.noWrite _)
      refine ⟨_, access_w h b w l t (fun hb => ?_), ?_, rfl⟩
      · rcases List.mem_cons.1 (ht hb) with e | ht
        · exact .inr ⟨e, hw'⟩
        · exact .inl ht
      unfold B.access B.set
      split
      · split <;> rfl
      · rfl
  obtain ⟨σ1, g, hn, e⟩ := h1
  rw [e]
  cases hl : b.within l with
  | true =>
    have hw := F.share g.inW.2 (ht hl)
    rw [hn] at hw
    exact ⟨σ.next :: S, ⟨⟨g.inW.1, hw⟩, fun _ h => List.mem_cons_of_mem _ h, g.prot, Nat.le_succ _⟩,
      fun _ => List.mem_cons_self⟩
  | false =>
    have hw := F.skip g.inW.2
    rw [hn] at hw
    exact ⟨S, ⟨⟨g.inW.1, hw⟩, fun _ h => h, g.prot, Nat.le_succ _⟩, fun h => by cases h⟩

/-! ## Patterns -/

theorem bBind_w (b : Byte) (t : Nat) (ps : List (String × String)) (h : InW F S σ)
    (ht : ∀ p ∈ ps, b.inField p.2 = true → t ∈ S) : ∃ S', Grows F S σ S' (bBind b false t ps σ).2 ∧
      (bBind b false t ps σ).1.map Prod.fst = ps.map Prod.fst ∧
      (∀ p ∈ ps, ∃ t', (p.1, some (.fv (.ref false (some p.2) t'))) ∈ (bBind b false t ps σ).1 ∧
        (b.inField p.2 = true → t' ∈ S')) ∧
      (∀ e ∈ (bBind b false t ps σ).1, ∃ l t', e.2 = some (.fv (.ref false l t'))) := by
  induction ps generalizing σ S with
  | nil => exact ⟨S, Grows.refl h, rfl, by simp, by simp [bBind]⟩
  | cons p ps ih =>
    obtain ⟨x, f⟩ := p
    obtain ⟨S1, g1, hn⟩ := retag_w h b (some f) t (fun hb => List.mem_cons_of_mem _ (ht (x, f) List.mem_cons_self hb))
    obtain ⟨S2, g2, h1, h2, h3⟩ := ih g1.inW (fun p hp hb => g1.sub t (ht p (List.mem_cons_of_mem _ hp) hb))
    simp only [bBind]
    refine ⟨S2, g1.trans g2, by simp only [List.map_cons]; exact congrArg _ h1, ?_, ?_⟩
    · intro p hp
      rcases List.mem_cons.1 hp with rfl | hp
      · exact ⟨_, List.mem_cons_self, fun hb => g2.sub _ (hn hb)⟩
      · obtain ⟨t', h4, h5⟩ := h2 p hp
        exact ⟨t', List.mem_cons_of_mem _ h4, h5⟩
    · intro e he
      rcases List.mem_cons.1 he with rfl | he
      · exact ⟨_, _, rfl⟩
      · exact h3 e he

/-- Every variable of a field holds a shared reference to the field, which can be used. -/
def FieldsIn (b : Byte) (S : List Nat) (env : BEnv) (l : List (Field × Nat)) : Prop :=
  ∀ x ∈ l, ∃ t, env.lookup (binding x.2 x.1) = some (some (.fv (.ref false (some (fieldLabel x.2 x.1)) t))) ∧
    (b.inField (fieldLabel x.2 x.1) = true → t ∈ S)

theorem bindEnv_w {fs : Fields} (hwf : fs.WF) (b : Byte) (t : Nat) (h : InW F S σ) (ht : t ∈ S) (env : BEnv) :
    let r := bBind b false t (fs.list.zipIdx.map (fun x => (binding x.2 x.1, fieldLabel x.2 x.1))) σ
    ∃ S', Grows F S σ S' r.2 ∧ FieldsIn b S' (r.1.reverse ++ env) fs.list.zipIdx ∧
      ∀ e ∈ r.1, ∃ l t', e.2 = some (.fv (.ref false l t')) := by
  obtain ⟨S', g, h1, h2, h3⟩ := bBind_w b t (fs.list.zipIdx.map (fun x => (binding x.2 x.1, fieldLabel x.2 x.1))) h
    (fun _ _ _ => ht)
  refine ⟨S', g, ?_, h3⟩
  intro x hx
  obtain ⟨t', h4, h5⟩ := h2 (binding x.2 x.1, fieldLabel x.2 x.1) (List.mem_map.2 ⟨x, hx, rfl⟩)
  refine ⟨t', ?_, h5⟩
  apply lookup_append_of_mem
  · rw [List.map_reverse, (List.reverse_perm _).nodup_iff, h1, List.map_map]
    exact bindings_nodup hwf
  · rw [List.mem_reverse]
    exact h4

/-! ## Constructors -/

theorem bEvalInits_w {fs : Fields} (b : Byte) (env : BEnv) :
    ∀ (l : List Field) (i : Nat) (S : List Nat) (σ : B A), InW F S σ → FieldsIn b S env (l.zipIdx i) →
    ∃ vs σ' S', bEvalInits b env fs.delim i ((l.zipIdx i).map projInit) σ = some (vs, σ') ∧ Grows F S σ S' σ' ∧
      (∀ v ∈ vs, ∃ l t, pointer v.2 = some (false, l, t) ∧ (b.within l = true → t ∈ S')) ∧
      vs.map (fun v => (pointer v.2).map (fun p => p.2.1)) = (l.zipIdx i).map (fun x => some (some (fieldLabel x.2 x.1))) := by
  intro l
  induction l with
  | nil => exact fun i S σ h _ => ⟨[], σ, S, rfl, Grows.refl h, by simp, rfl⟩
  | cons f l ih =>
    intro i S σ h hr
    rw [List.zipIdx_cons] at hr ⊢
    obtain ⟨t, ht, hrt⟩ := hr (f, i) List.mem_cons_self
    simp only at ht hrt
    obtain ⟨v, σ1, S1, hv, g1, hp⟩ : ∃ v σ1 S1, bEvalF b σ env (projInit (f, i)).expr = some (v, σ1) ∧ Grows F S σ S1 σ1 ∧
        ∃ t, pointer v = some (false, some (fieldLabel i f), t) ∧ (b.within (some (fieldLabel i f)) = true → t ∈ S1) := by
      unfold projInit
      cases hp : Pinned f with
      | true =>
        obtain ⟨S1, g1, hn⟩ := retag_w h b (some (fieldLabel i f)) t (fun hb => List.mem_cons_of_mem _ (hrt hb))
        simp only [if_true, GInit.expr, bEvalF, getRef_of_lookup ht, Option.map_some, permOf]
        exact ⟨_, _, S1, rfl, g1, _, rfl, hn⟩
      | false =>
        simp only [Bool.false_eq_true, if_false, GInit.expr, bEvalF, getRef_of_lookup ht, Option.map_some]
        exact ⟨_, _, S, rfl, Grows.refl h, _, rfl, hrt⟩
    obtain ⟨vs, σ2, S2, h1, g2, h3, h6⟩ := ih (i + 1) S1 σ1 g1.inW (fun x hx => by
      obtain ⟨t', h4, h5⟩ := hr x (List.mem_cons_of_mem _ hx)
      exact ⟨t', h4, fun hb => g1.sub _ (h5 hb)⟩)
    refine ⟨((projInit (f, i)).label fs.delim i, v) :: vs, σ2, S2, ?_, g1.trans g2, ?_, ?_⟩
    · simp only [List.map_cons, bEvalInits, hv, Option.bind_eq_bind, Option.bind_some, h1]
    · intro w hw
      rcases List.mem_cons.1 hw with rfl | hw
      · obtain ⟨t1, h4, h5⟩ := hp
        exact ⟨_, t1, h4, fun hb => g2.sub _ (h5 hb)⟩
      · exact h3 w hw
    · obtain ⟨t1, h4, -⟩ := hp
      simp only [List.map_cons, h4, h6]
      rfl

/-! ## Bodies -/

theorem bEval_recv_w (b : Byte) (panics : BOracle) (t : Nat) (σ : B A) :
    bEvalRHS b panics [("self", some (.fv (.pinRef false none t)))] σ (recvRHS false) =
      some (.fv (.ref false none (σ.retag b .shared none t).1), [("self", some (.fv (.pinRef false none t)))],
        (σ.retag b .shared none t).2) := by
  simp [recvRHS, bEvalRHS, BEnv.use, BVal.isOwning]

/-- What `project_ref` does: it makes pointers to the fields `ls`, in that order. -/
def SharesFields (F : CellFrame A t0) (b : Byte) (ls : List String) (S : List Nat) (σ : B A) (r : Option BVal × B A) : Prop :=
  ∃ vs σ' S', r = (some (.adt vs), σ') ∧ Grows F S σ S' σ' ∧
    (∀ v ∈ vs, ∃ l t, pointer v.2 = some (false, l, t) ∧ (b.within l = true → t ∈ S')) ∧
    vs.map (fun v => (pointer v.2).map (fun p => p.2.1)) = ls.map (fun l => some (some l))

theorem inert_self (t : Nat) : Inert [("self", some (.fv (.pinRef false none t)))] := by
  intro e he v hv
  rw [List.mem_singleton] at he
  subst he
  obtain rfl := Option.some.inj hv
  rfl

theorem bBody_struct_w {fs : Fields} (hwf : fs.WF) (b : Byte) (panics : BOracle) (tl : Bool) (name : String)
    (t : Nat) (h : InW F S σ) (ht : t ∈ S) :
    SharesFields F b (labels fs.list) S σ (bEvalBody b panics tl ⟨none, labels fs.list⟩
      ⟨[.letPat ⟨none, fs.delim, bindings fs.list⟩ (recvRHS false)],
        .expr (.ctor ⟨name, none, fs.delim, fs.list.zipIdx.map projInit⟩)⟩
      [("self", some (.fv (.pinRef false none t)))] σ) := by
  obtain ⟨S1, g1, hn⟩ := retag_w h b none t (fun _ => List.mem_cons_of_mem _ ht)
  obtain ⟨S2, g2, h2, h3⟩ := bindEnv_w hwf b _ g1.inW (hn rfl) [("self", some (.fv (.pinRef false none t)))]
  have hstmts : bEvalStmts b panics ⟨none, labels fs.list⟩
      [.letPat ⟨none, fs.delim, bindings fs.list⟩ (recvRHS false)] [("self", some (.fv (.pinRef false none t)))] σ =
      ((bBind b false (σ.retag b .shared none t).1 (fs.list.zipIdx.map (fun x => (binding x.2 x.1, fieldLabel x.2 x.1)))
          (σ.retag b .shared none t).2).1.reverse ++ [("self", some (.fv (.pinRef false none t)))],
        (bBind b false (σ.retag b .shared none t).1 (fs.list.zipIdx.map (fun x => (binding x.2 x.1, fieldLabel x.2 x.1)))
          (σ.retag b .shared none t).2).2) := by
    simp [bEvalStmts, bEvalStmt, bEval_recv_w b panics t σ, bPairs_eq hwf]
  generalize hbs : bBind b false (σ.retag b .shared none t).1
    (fs.list.zipIdx.map (fun x => (binding x.2 x.1, fieldLabel x.2 x.1))) (σ.retag b .shared none t).2 = bs at *
  obtain ⟨vs, σ', S3, hc, g3, h4, h5⟩ := bEvalInits_w (fs := fs) b (bs.1.reverse ++ [("self", some (.fv (.pinRef false none t)))])
    fs.list 0 S2 bs.2 g2.inW h2
  have hi := (inert_refs h3).reverse.append (inert_self t)
  refine ⟨vs, σ', S3, ?_, (g1.trans g2).trans g3, h4, by rw [h5]; simp [labels]⟩
  unfold bEvalBody
  simp only
  unfold bEvalBlock
  simp only [hstmts, g2.inW.1, if_true, bEvalRHS, hc, Option.bind_eq_bind, Option.bind_some, g3.inW.1]
  unfold bLeave
  simp only [Nat.sub_zero, List.take_length, List.drop_length, bDropSlots_inert b panics hi, g3.inW.1]

theorem bBody_enum_w {vs : List Variant} (hn : (vs.map (·.ident)).Nodup) {v : Variant} (hv : v ∈ vs)
    (hwf : v.fields.WF) (b : Byte) (panics : BOracle) (tl : Bool) (name : String)
    (t : Nat) (h : InW F S σ) (ht : t ∈ S) :
    SharesFields F b (labels v.fields.list) S σ (bEvalBody b panics tl ⟨some v.ident, labels v.fields.list⟩
      ⟨[], .match_ (recvRHS false) (vs.map (fun v =>
        ⟨⟨some v.ident, v.fields.delim, bindings v.fields.list⟩, [],
          .ctor ⟨name, some v.ident, v.fields.delim, v.fields.list.zipIdx.map projInit⟩⟩))⟩
      [("self", some (.fv (.pinRef false none t)))] σ) := by
  obtain ⟨S1, g1, hnew⟩ := retag_w h b none t (fun _ => List.mem_cons_of_mem _ ht)
  have g1' : ∀ c : Bool, Grows F S σ S1 (if c = true then (σ.retag b .shared none t).2.access b false none
      (σ.retag b .shared none t).1 else (σ.retag b .shared none t).2) := by
    intro c
    split
    · exact g1.trans (access_w g1.inW b false none _ (fun h => .inl (hnew h)))
    · exact g1
  generalize hσ1 : (if b.inTag = true then (σ.retag b .shared none t).2.access b false none
      (σ.retag b .shared none t).1 else (σ.retag b .shared none t).2) = σ1
  have g1'' := g1' b.inTag
  rw [hσ1] at g1''
  obtain ⟨S2, g2, h2, h3⟩ := bindEnv_w hwf b _ g1''.inW (hnew rfl) [("self", some (.fv (.pinRef false none t)))]
  have hfind := find_arm (key := fun v : Variant => v.ident) (arm := fun v : Variant =>
        (⟨⟨some v.ident, v.fields.delim, bindings v.fields.list⟩, [],
          .ctor ⟨name, some v.ident, v.fields.delim, v.fields.list.zipIdx.map projInit⟩⟩ : GArm))
        (fun _ => rfl) hn hv
  generalize hbs : bBind b false (σ.retag b .shared none t).1
    (v.fields.list.zipIdx.map (fun x => (binding x.2 x.1, fieldLabel x.2 x.1))) σ1 = bs at *
  obtain ⟨ws, σ', S3, hc, g3, h4, h5⟩ := bEvalInits_w (fs := v.fields) b
    (bs.1.reverse ++ [("self", some (.fv (.pinRef false none t)))]) v.fields.list 0 S2 bs.2 g2.inW h2
  have hi1 : Inert bs.1.reverse := (inert_refs h3).reverse
  refine ⟨ws, σ', S3, ?_, (g1''.trans g2).trans g3, h4, by rw [h5]; simp [labels]⟩
  unfold bEvalBody
  simp only [bEvalStmts, h.1, if_true, bEval_recv_w b panics t σ, hσ1, hfind, bPairs_eq hwf, hbs]
  unfold bEvalBlock
  simp only [bEvalStmts, g2.inW.1, if_true, bEvalRHS, hc, Option.bind_eq_bind, Option.bind_some, g3.inW.1]
  have hlen : ∀ (a e : BEnv), (a ++ e).length - e.length = a.length := by
    intro a e; rw [List.length_append]; omega
  unfold bLeave
  simp only [hlen, List.take_left, List.drop_left, bDropSlots_inert b panics hi1, g3.inW.1,
    Nat.sub_zero, List.take_length, List.drop_length, bDropSlots_inert b panics (inert_self t)]

/-! ## Calls -/

/-- The state in which a function runs whose parameter is a shared reference. -/
theorem enter_w (h : InW F S σ) (b : Byte) (t : Nat) (ht : t ∈ t0 :: S) :
    ∃ S', InW F S' { (σ.retag b .shared none t).2 with prot := (σ.retag b .shared none t).1 :: σ.prot } ∧
      (∀ t ∈ S, t ∈ S') ∧ (σ.retag b .shared none t).1 ∈ S' ∧ σ.next ≤ (σ.retag b .shared none t).2.next ∧
      (σ.retag b .shared none t).2.prot = σ.prot := by
  obtain ⟨S1, g, hn⟩ := retag_w h b none t (fun _ => ht)
  have hw := F.protect g.inW.2 (hn rfl)
  rw [g.prot] at hw
  exact ⟨S1, ⟨g.inW.1, hw⟩, g.sub, hn rfl, g.next, g.prot⟩

/-- It returns. -/
theorem leave_w {t : Nat} {P : List Nat} (h : InW F S σ) (ht : t ∈ S) (hp : σ.prot = t :: P) :
    InW F S { σ.release t with prot := P } ∧ (σ.release t).next = σ.next := by
  have hr : σ.release t = σ := by
    unfold B.release
    split
    · rw [F.release h.2 ht]
      rfl
    · rfl
  rw [hr]
  have hw := h.2
  rw [hp] at hw
  exact ⟨⟨h.1, F.unprotect hw ht⟩, rfl⟩

theorem bCall_w (b : Byte) (panics : BOracle) (tl : Bool) (fn : GFn) (o : Shape)
    (ls : List String) (lt : Option String) (hrecv : fn.recv = .pin .local_ (.ref lt false .selfTy)) (hpar : fn.params = [])
    (t : Nat) (h : InW F S σ) (ht : t ∈ t0 :: S)
    (hbody : ∀ t S (σ' : B A), InW F S σ' → t ∈ S →
      SharesFields F b ls S σ' (bEvalBody b panics tl o fn.body [("self", some (.fv (.pinRef false none t)))] σ')) :
    SharesFields F b ls S σ (bCallFn b panics tl fn o t σ) := by
  obtain ⟨S1, h1, hsub, hnew, hnx, hpr⟩ := enter_w h b t ht
  obtain ⟨vs, σ', S2, e, g, h2⟩ := hbody _ S1 _ h1 hnew
  obtain ⟨h3, h4⟩ := leave_w g.inW (g.sub _ hnew) g.prot
  have hfst : (σ.retag b .shared none t).1 = σ.next := rfl
  refine ⟨vs, _, S2, ?_, ⟨h3, fun t ht => g.sub t (hsub t ht), rfl, ?_⟩, h2⟩
  · unfold bCallFn
    simp only [hrecv, hpar, bSelf, permOf, List.map_nil, List.reverse_nil, List.nil_append, Bool.false_eq_true, if_false]
    rw [← hfst, e]
  · show σ.next ≤ (σ'.release _).next
    rw [h4]
    exact Nat.le_trans hnx g.next

/-- `project_ref`, called with a pointer of `S`, returns pointers of `S'`. -/
theorem projectRef_w (item : Item) (E : Expansion) (h : parseDerive item = .ok E) (hwf : ItemWF item)
    (fn : GFn) (hfn : method E "project_ref" = some fn) (variant : Option String) (fs : Fields)
    (hv : HasVariant item variant fs) (b : Byte) (t : Nat) (hσ : InW F S σ) (ht : t ∈ t0 :: S) (panics : BOracle) (tl : Bool) :
    SharesFields F b (labels fs.list) S σ (bCallFn b panics tl fn ⟨variant, labels fs.list⟩ t σ) := by
  cases item with
  | other a => simp [parseDerive] at h
  | struct_ s =>
    obtain ⟨A, -, -, -, -, -, -, rfl⟩ := (deriveStruct_iff s E).1 h
    have hwf' := wf_visit (mkSelfTy s.ident s.generics.tyGenerics) _ (hwf.fields none s.fields ⟨rfl, rfl⟩)
    obtain ⟨rfl, rfl⟩ := hv
    have key := fun name t S σ' h1 h2 => bBody_struct_w (F := F) (S := S) (σ := σ') hwf' b panics tl name t h1 h2
    simp only [labels_visit] at key
    rw [method_struct] at hfn
    have hk : (s.ctx A).kind = .struct_ := rfl
    simp only [implFns_projectRef, hk] at hfn
    obtain rfl := Option.some.inj hfn
    exact bCall_w b panics tl _ _ _ _ rfl rfl t hσ ht (key (s.ctx A).refIdent)
  | enum_ e =>
    obtain ⟨A, -, -, -, -, -, -, -, rfl⟩ := (deriveEnum_iff e E).1 h
    obtain ⟨v, hv, rfl, rfl⟩ := hv
    have hwf' := wf_visit (mkSelfTy e.ident e.generics.tyGenerics) _
      (hwf.fields _ v.fields ⟨v, hv, rfl, rfl⟩)
    have hn : (e.pre.variants.map (·.ident)).Nodup := by
      have := hwf.variants e rfl
      rw [ItemEnum.pre_variants, List.map_map]
      exact this
    have hv' : v.visit (mkSelfTy e.ident e.generics.tyGenerics) ∈ e.pre.variants := by
      rw [ItemEnum.pre_variants]; exact List.mem_map_of_mem hv
    have key := fun name t S σ' h1 h2 => bBody_enum_w (F := F) (S := S) (σ := σ') hn hv' hwf' b panics tl name t h1 h2
    simp only [Variant.visit] at key
    simp only [labels_visit] at key
    rw [method_enum] at hfn
    simp only [implFns_projectRef] at hfn
    split at hfn
    · simp at hfn
    · obtain rfl := Option.some.inj hfn
      exact bCall_w b panics tl _ _ _ _ rfl rfl t hσ ht (key (e.ctx A).refIdent)

end PinProject
