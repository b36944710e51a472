import Verif.Props.BorrowUb
/-!
# From the strictest rules to others

The proofs about aliasing are done once, with rules stricter than both Stacked Borrows and Tree Borrows: `chain`. Every
access removes everything above the pointer that is used, so that the pointers that may be used always form a chain, each
made from the one below it. This file shows that a run of the machine under `chain` without undefined behaviour is one
without undefined behaviour, and with the same result, under all rules that simulate `chain`.
-/
namespace PinProject
open Spec

/-- A read access that removes everything above `t`. -/
def BStack.strictRead (prot : List Nat) (t : Nat) : BStack → Option BStack
  | [] => none
  | i :: s =>
    if i.tag = t then some (i :: s)
    else if i.tag ∈ prot then none
    else BStack.strictRead prot t s

/-- The strictest rules. The pointer at the bottom is the caller's; the others were made during the call. -/
abbrev chain : AliasModel where
  St := BStack
  access prot write t s := if write then s.write prot t else s.strictRead prot t
  retagAccess p _ := some (p != .shared)
  push p _ new s := ⟨p, new⟩ :: s
  release _ t s := if t ∈ s.dropLast.map BItem.tag then some s else none
  valid next s := ∀ i ∈ s, i.tag < next

/-- The rules `A` allow everything `chain` allows, as long as `R` holds: `R prot next s s'` relates the states of a byte. -/
structure Simulates (A : AliasModel) (R : List Nat → Nat → BStack → A.St → Prop) : Prop where
  access : ∀ {prot n s s' w t r}, R prot n s s' → chain.access prot w t s = some r →
    ∃ r', A.access prot w t s' = some r' ∧ R prot n r r'
  retag : ∀ {prot n s s' p t r}, R prot n s s' → chain.access prot (p != .shared) t s = some r →
    ∃ r', (match A.retagAccess p n with | some w => A.access prot w t s' | none => some s') = some r' ∧
      R prot (n + 1) (⟨p, n⟩ :: r) (A.push p t n r') ∧ R (n :: prot) (n + 1) (⟨p, n⟩ :: r) (A.push p t n r')
  next : ∀ {prot n s s'}, R prot n s s' → R prot (n + 1) s s'
  release : ∀ {prot n s s' t r}, R (t :: prot) n s s' → chain.release (t :: prot) t s = some r →
    ∃ r', A.release (t :: prot) t s' = some r' ∧ R prot n r r'

namespace Lift

variable {A : AliasModel} (R : List Nat → Nat → BStack → A.St → Prop) (P : List Nat)

/-- The machines are in the same state, but for the byte. -/
structure Rel (σ : B chain) (τ : B A) : Prop where
  prot : σ.prot = P
  prot' : τ.prot = P
  next : τ.next = σ.next
  dtors : τ.dtors = σ.dtors
  status : τ.status = σ.status
  mem : σ.live = true → R P σ.next σ.mem τ.mem

/-- .. or the strict machine has found undefined behaviour. -/
def W (σ : B chain) (τ : B A) : Prop := τ.next = σ.next ∧ (σ.status = .ub ∨ Rel R P σ τ)

variable {R P}

theorem Rel.w {σ : B chain} {τ : B A} (h : Rel R P σ τ) : W R P σ τ := ⟨h.next, .inr h⟩

theorem Rel.live {σ : B chain} {τ : B A} (h : Rel R P σ τ) : τ.live = σ.live := by
  unfold B.live
  rw [h.status]

theorem W.rel {σ : B chain} {τ : B A} (h : W R P σ τ) (hs : σ.status ≠ .ub) : Rel R P σ τ := h.2.resolve_left hs

theorem next_access {A : AliasModel} (b : Byte) (w : Bool) (l : Option String) (t : Nat) (σ : B A) :
    (σ.access b w l t).next = σ.next := by
  unfold B.access
  split
  · cases A.access σ.prot w t σ.mem <;> rfl
  · rfl

theorem next_runDtor {A : AliasModel} (panics : BOracle) (σ : B A) : (σ.runDtor panics).next = σ.next := by
  unfold B.runDtor
  split <;> rfl

section
variable (hS : Simulates A R) (b : Byte) (panics : BOracle)
include hS

theorem W.access {σ : B chain} {τ : B A} (h : W R P σ τ) (w : Bool) (l : Option String) (t : Nat) :
    W R P (σ.access b w l t) (τ.access b w l t) := by
  refine ⟨by rw [next_access, next_access, h.1], ?_⟩
  rcases h.2 with h | h
  · exact .inl ((Erase.keeps_access b w l t σ).ub h)
  · unfold B.access
    rw [h.live]
    split
    · rename_i hl
      simp only [Bool.and_eq_true] at hl
      have hm := h.mem hl.1
      cases hr : chain.access σ.prot w t σ.mem with
      | none => exact .inl rfl
      | some r =>
        rw [h.prot] at hr
        obtain ⟨r', h1, h2⟩ := hS.access hm hr
        rw [h.prot', h1]
        exact .inr ⟨h.prot, h.prot', h.next, h.dtors, h.status, fun _ => h2⟩
    · exact .inr h

omit hS in
theorem retag_fst {σ : B chain} {τ : B A} (h : W R P σ τ) (p : BPerm) (l : Option String) (t : Nat) :
    (τ.retag b p l t).1 = (σ.retag b p l t).1 := h.1

/-- Making a pointer, and protecting it if `P'` says so. -/
theorem retag_any {σ : B chain} {τ : B A} (h : W R P σ τ) (p : BPerm) (l : Option String) (t : Nat) (P' : List Nat)
    (hP : P' = P ∨ (P' = σ.next :: P ∧ b.within l = true)) :
    W R P' { (σ.retag b p l t).2 with prot := P' } { (τ.retag b p l t).2 with prot := P' } := by
  refine ⟨by simp only [B.retag, h.1], ?_⟩
  rcases h.2 with h | h
  · exact .inl ((Erase.keeps_retag b p l t σ).ub h)
  · unfold B.retag
    simp only
    have hsame : P' = P → ∀ {s s'}, R P σ.next s s' → R P' (σ.next + 1) s s' := by
      rintro rfl s s' h
      exact hS.next h
    unfold B.access
    rw [h.live, h.next]
    by_cases hl : σ.live = true
    · have hm := h.mem hl
      by_cases hw : b.within l = true
      · simp only [hl, hw, Bool.and_self, if_true]
        cases hr : (if (p != BPerm.shared) = true then BStack.write σ.prot t σ.mem
            else BStack.strictRead σ.prot t σ.mem) with
        | none => exact .inl rfl
        | some r =>
          rw [h.prot] at hr
          obtain ⟨r', h1, h2, h3⟩ := hS.retag hm hr
          have hR : R P' (σ.next + 1) (⟨p, σ.next⟩ :: r) (A.push p t σ.next r') := by
            rcases hP with rfl | ⟨rfl, -⟩
            · exact h2
            · exact h3
          right
          cases ha : A.retagAccess p σ.next with
          | none =>
            rw [ha] at h1
            cases h1
            exact ⟨rfl, rfl, rfl, h.dtors, h.status, fun _ => hR⟩
          | some w =>
            rw [ha] at h1
            simp only at h1
            simp only [h.prot', h1]
            exact ⟨rfl, rfl, rfl, h.dtors, h.status, fun _ => hR⟩
      · right
        have hP' : P' = P := by
          rcases hP with h | ⟨-, h⟩
          · exact h
          · exact absurd h hw
        simp only [hl, hw, Bool.true_and]
        cases ha : A.retagAccess p σ.next with
        | none => exact ⟨rfl, rfl, rfl, h.dtors, h.status, fun _ => hsame hP' hm⟩
        | some w => exact ⟨rfl, rfl, rfl, h.dtors, h.status, fun _ => hsame hP' hm⟩
    · right
      simp only [hl, Bool.false_and]
      cases ha : A.retagAccess p σ.next with
      | none => exact ⟨rfl, rfl, rfl, h.dtors, h.status, fun h => absurd h hl⟩
      | some w => exact ⟨rfl, rfl, rfl, h.dtors, h.status, fun h => absurd h hl⟩

omit hS in
theorem prot_retag {A : AliasModel} (b : Byte) (p : BPerm) (l : Option String) (t : Nat) (σ : B A) :
    (σ.retag b p l t).2.prot = σ.prot := by
  unfold B.retag
  simp only
  cases A.retagAccess p σ.next with
  | none => rfl
  | some w =>
    simp only
    unfold B.access
    split
    · cases A.access σ.prot w t σ.mem <;> rfl
    · rfl

theorem W.retag {σ : B chain} {τ : B A} (h : W R P σ τ) (p : BPerm) (l : Option String) (t : Nat) :
    W R P (σ.retag b p l t).2 (τ.retag b p l t).2 := by
  have key := retag_any hS b h p l t P (.inl rfl)
  refine ⟨key.1, ?_⟩
  rcases h.2 with hu | hr
  · exact .inl ((Erase.keeps_retag b p l t σ).ub hu)
  · rcases key.2 with hu | k
    · exact .inl hu
    · exact .inr ⟨(prot_retag (A := chain) b p l t σ).trans hr.prot, (prot_retag b p l t τ).trans hr.prot',
        k.next, k.dtors, k.status, k.mem⟩

omit hS in
theorem W.runDtor {σ : B chain} {τ : B A} (h : W R P σ τ) : W R P (σ.runDtor panics) (τ.runDtor panics) := by
  refine ⟨by rw [next_runDtor, next_runDtor, h.1], ?_⟩
  rcases h.2 with h | h
  · exact .inl (Erase.ub_runDtor h)
  · have hs := h.status
    unfold B.runDtor
    rw [hs]
    split
    · rename_i h1
      rw [h.dtors]
      exact .inr ⟨h.prot, h.prot', h.next, rfl, rfl, fun _ => h.mem (by simp [B.live, h1])⟩
    · rename_i h1
      rw [h.dtors]
      exact .inr ⟨h.prot, h.prot', h.next, rfl, rfl, fun _ => h.mem (by simp [B.live, h1])⟩
    · exact .inr h

omit hS in
theorem Rel.getStuck {σ : B chain} {τ : B A} (h : Rel R P σ τ) : Rel R P σ.getStuck τ.getStuck := by
  unfold B.getStuck
  rw [h.status]
  split
  · exact h
  · exact ⟨h.prot, h.prot', h.next, h.dtors, rfl, fun h => by simp [B.live] at h⟩

omit hS in
theorem W.runDtors (n : Nat) {σ : B chain} {τ : B A} (h : W R P σ τ) :
    W R P (bRunDtors panics n σ) (bRunDtors panics n τ) := by
  induction n generalizing σ τ with
  | zero => exact h
  | succ n ih => exact ih (h.runDtor panics)

omit hS in
theorem W.dropFVal {σ : B chain} {τ : B A} (h : W R P σ τ) (v : BFVal) :
    W R P (bDropFVal panics v σ) (bDropFVal panics v τ) := by
  cases v <;> first | exact h | exact h.runDtor panics

theorem W.dropInPlace {σ : B chain} {τ : B A} (h : W R P σ τ) (l : Option String) (t : Nat) :
    W R P (bDropInPlace b panics l t σ) (bDropInPlace b panics l t τ) := by
  have := (((h.retag hS b .unique l t).access hS b true l (σ.retag b .unique l t).1)).runDtor panics
  unfold bDropInPlace
  simp only
  rw [retag_fst b h]
  exact this

theorem W.dropVal {σ : B chain} {τ : B A} (h : W R P σ τ) (v : BVal) :
    W R P (bDropVal b panics v σ) (bDropVal b panics v τ) := by
  cases v with
  | fv v => exact h.dropFVal panics v
  | unit => exact h
  | ptr => exact h
  | obj n => exact h.runDtors panics n
  | adt fs =>
    simp only [bDropVal]
    induction fs generalizing σ τ with
    | nil => exact h
    | cons f fs ih => exact ih (h.dropFVal panics f.2)
  | owGuard l t => exact h.access hS b true l t
  | diGuard l t => exact h.dropInPlace hS b panics l t

theorem W.dropSlots (env : BEnv) {σ : B chain} {τ : B A} (h : W R P σ τ) :
    W R P (bDropSlots b panics env σ) (bDropSlots b panics env τ) := by
  induction env generalizing σ τ with
  | nil => exact h
  | cons x env ih =>
    obtain ⟨y, v⟩ := x
    cases v with
    | none => exact ih h
    | some v => exact ih (h.dropVal hS b panics v)

/-- The results of expressions: the same, whatever the state is. -/
def SameR {α : Type} (R : List Nat → Nat → BStack → A.St → Prop) (P : List Nat) :
    Option (α × B chain) → Option (α × B A) → Prop
  | none, none => True
  | some (v, σ), some (w, τ) => v = w ∧ W R P σ τ
  | _, _ => False

theorem evalF {σ : B chain} {τ : B A} (h : W R P σ τ) (env : BEnv) (e : FExpr) :
    SameR R P (bEvalF b σ env e) (bEvalF b τ env e) := by
  cases e with
  | bind x => cases hx : env.getRef x <;> simp [bEvalF, hx, SameR, h]
  | pinNew x =>
    cases hx : env.getRef x with
    | none => simp [bEvalF, hx, SameR]
    | some r =>
      simp only [bEvalF, hx, Option.map_some]
      exact ⟨by rw [retag_fst b h], h.retag hS b _ _ _⟩
  | read x =>
    cases hx : env.getRef x with
    | none => simp [bEvalF, hx, SameR]
    | some r =>
      simp only [bEvalF, hx, Option.map_some]
      refine ⟨rfl, ?_⟩
      rw [retag_fst b h]
      exact (h.retag hS b _ _ _).access hS b _ _ _
  | phantom => exact ⟨rfl, h⟩

theorem evalInits (env : BEnv) (d : Option Delim) (xs : List GInit) (i : Nat) {σ : B chain} {τ : B A} (h : W R P σ τ) :
    SameR R P (bEvalInits b env d i xs σ) (bEvalInits b env d i xs τ) := by
  induction xs generalizing i σ τ with
  | nil => exact ⟨rfl, h⟩
  | cons x xs ih =>
    have h1 := evalF hS b h env x.expr
    simp only [bEvalInits]
    cases e1 : bEvalF b σ env x.expr with
    | none =>
      cases e2 : bEvalF b τ env x.expr with
      | none => trivial
      | some r => rw [e1, e2] at h1; exact absurd h1 id
    | some r =>
      cases e2 : bEvalF b τ env x.expr with
      | none => rw [e1, e2] at h1; exact absurd h1 id
      | some r' =>
        rw [e1, e2] at h1
        obtain ⟨v, σ1⟩ := r
        obtain ⟨v', τ1⟩ := r'
        obtain ⟨rfl, h1⟩ := h1
        have h2 := ih (i + 1) h1
        simp only [Option.bind_eq_bind, Option.bind_some]
        cases e3 : bEvalInits b env d (i + 1) xs σ1 with
        | none =>
          cases e4 : bEvalInits b env d (i + 1) xs τ1 with
          | none => trivial
          | some r => rw [e3, e4] at h2; exact absurd h2 id
        | some r =>
          cases e4 : bEvalInits b env d (i + 1) xs τ1 with
          | none => rw [e3, e4] at h2; exact absurd h2 id
          | some r' =>
            rw [e3, e4] at h2
            exact ⟨by rw [h2.1], h2.2⟩

/-- The same for results with variables. -/
def SameE (R : List Nat → Nat → BStack → A.St → Prop) (P : List Nat) :
    Option (BVal × BEnv × B chain) → Option (BVal × BEnv × B A) → Prop
  | none, none => True
  | some (v, e, σ), some (w, f, τ) => v = w ∧ e = f ∧ W R P σ τ
  | _, _ => False

theorem evalRHS {σ : B chain} {τ : B A} (h : W R P σ τ) (env : BEnv) (e : RHS) :
    SameE R P (bEvalRHS b panics env σ e) (bEvalRHS b panics env τ e) := by
  cases e with
  | var x => cases hx : env.use x <;> simp [bEvalRHS, hx, SameE, h]
  | unit => exact ⟨rfl, rfl, h⟩
  | ctor c =>
    have h1 := evalInits hS b env c.delim c.inits 0 h
    simp only [bEvalRHS]
    cases e1 : bEvalInits b env c.delim 0 c.inits σ with
    | none =>
      cases e2 : bEvalInits b env c.delim 0 c.inits τ with
      | none => trivial
      | some r => rw [e1, e2] at h1; exact absurd h1 id
    | some r =>
      cases e2 : bEvalInits b env c.delim 0 c.inits τ with
      | none => rw [e1, e2] at h1; exact absurd h1 id
      | some r' =>
        rw [e1, e2] at h1
        exact ⟨by rw [h1.1], rfl, h1.2⟩
  | overwriteGuard p v =>
    simp only [bEvalRHS]
    cases hx : env.use p with
    | none => trivial
    | some r =>
      obtain ⟨w, env1⟩ := r
      simp only [Option.bind_eq_bind, Option.bind_some]
      cases w with
      | ptr l t =>
        simp only
        cases hy : BEnv.use v env1 with
        | none => trivial
        | some r =>
          obtain ⟨w, env2⟩ := r
          simp only [Option.bind_some]
          cases w <;> first | trivial | exact ⟨rfl, rfl, h⟩
      | _ => trivial
  | pinnedDropCall x =>
    simp only [bEvalRHS]
    cases hx : env.use x with
    | none => trivial
    | some r =>
      obtain ⟨w, env1⟩ := r
      simp only [Option.bind_eq_bind, Option.bind_some]
      split
      · rename_i h'
        simp only [Prod.mk.injEq] at h'
        obtain ⟨rfl, rfl⟩ := h'
        exact ⟨rfl, rfl, h.dropInPlace hS b panics _ _⟩
      · trivial
  | getUncheckedMut x =>
    simp only [bEvalRHS]
    cases hx : env.use x with
    | none => trivial
    | some r =>
      obtain ⟨w, env1⟩ := r
      simp only [Option.bind_eq_bind, Option.bind_some]
      rcases w with _ | w | _ | _ | _ | _ | _
      · trivial
      · rcases w with _ | ⟨_ | _, l, t⟩ | _ | _
        · trivial
        · trivial
        · exact ⟨by rw [retag_fst b h], rfl, h.retag hS b _ _ _⟩
        · trivial
        · trivial
      all_goals trivial
  | getRef x =>
    simp only [bEvalRHS]
    cases hx : env.use x with
    | none => trivial
    | some r =>
      obtain ⟨w, env1⟩ := r
      simp only [Option.bind_eq_bind, Option.bind_some]
      rcases w with _ | w | _ | _ | _ | _ | _
      · trivial
      · rcases w with _ | ⟨_ | _, l, t⟩ | _ | _
        · trivial
        · exact ⟨by rw [retag_fst b h], rfl, h.retag hS b _ _ _⟩
        · trivial
        · trivial
        · trivial
      all_goals trivial
  | reborrow x =>
    simp only [bEvalRHS]
    cases hx : env.use x with
    | none => trivial
    | some r =>
      obtain ⟨w, env1⟩ := r
      simp only [Option.bind_eq_bind, Option.bind_some]
      cases w with
      | ptr l t => exact ⟨by rw [retag_fst b h], rfl, h.retag hS b _ _ _⟩
      | _ => trivial
  | pinNew x =>
    simp only [bEvalRHS]
    cases hx : env.use x with
    | none => trivial
    | some r =>
      obtain ⟨w, env1⟩ := r
      simp only [Option.bind_eq_bind, Option.bind_some]
      rcases w with _ | w | _ | _ | _ | _ | _
      · trivial
      · rcases w with ⟨m, l, t⟩ | _ | _ | _
        · exact ⟨by rw [retag_fst b h], rfl, h.retag hS b _ _ _⟩
        · trivial
        · trivial
        · trivial
      all_goals trivial
  | dropGuard x =>
    simp only [bEvalRHS]
    cases hx : env.use x with
    | none => trivial
    | some r =>
      obtain ⟨w, env1⟩ := r
      simp only [Option.bind_eq_bind, Option.bind_some]
      rcases w with _ | w | _ | _ | _ | _ | _
      · trivial
      · rcases w with ⟨_ | _, l, t⟩ | _ | _ | _
        · trivial
        · exact ⟨by rw [retag_fst b h], rfl, h.retag hS b _ _ _⟩
        · trivial
        · trivial
        · trivial
      all_goals trivial

theorem bind (m : Bool) (t : Nat) (ps : List (String × String)) {σ : B chain} {τ : B A} (h : W R P σ τ) :
    (bBind b m t ps σ).1 = (bBind b m t ps τ).1 ∧ W R P (bBind b m t ps σ).2 (bBind b m t ps τ).2 := by
  induction ps generalizing σ τ with
  | nil => exact ⟨rfl, h⟩
  | cons p ps ih =>
    obtain ⟨x, f⟩ := p
    obtain ⟨h1, h2⟩ := ih (h.retag hS b (permOf m) (some f) t)
    simp only [bBind]
    exact ⟨by rw [retag_fst b h, h1], h2⟩

theorem coerce (ty : Option String) (v : BVal) {σ : B chain} {τ : B A} (h : W R P σ τ) :
    SameR R P (bCoerce b ty v σ) (bCoerce b ty v τ) := by
  cases ty with
  | none => exact ⟨rfl, h⟩
  | some ty =>
    rcases v with _ | w | _ | _ | _ | _ | _
    · trivial
    · rcases w with ⟨_ | _, l, t⟩ | _ | _ | _
      · trivial
      · exact ⟨by rw [retag_fst b h], h.retag hS b _ _ _⟩
      · trivial
      · trivial
      · trivial
    all_goals trivial

/-- The results of statements: the same, unless there was undefined behaviour. -/
def SameS (R : List Nat → Nat → BStack → A.St → Prop) (P : List Nat) (r : BEnv × B chain) (s : BEnv × B A) : Prop :=
  r.2.status = .ub ∨ (r.1 = s.1 ∧ Rel R P r.2 s.2)

omit hS in
theorem W.sameS {σ : B chain} {τ : B A} (h : W R P σ τ) (env : BEnv) : SameS R P (env, σ) (env, τ) :=
  h.2.imp id (fun h => ⟨rfl, h⟩)

/-- An expression has been evaluated. -/
theorem rhs_cases {σ : B chain} {τ : B A} (h : Rel R P σ τ) (env : BEnv) (e : RHS) :
    (bEvalRHS b panics env σ e = none ∧ bEvalRHS b panics env τ e = none) ∨
    ∃ v env' σ' τ', bEvalRHS b panics env σ e = some (v, env', σ') ∧ bEvalRHS b panics env τ e = some (v, env', τ') ∧
      W R P σ' τ' := by
  have h1 := evalRHS hS b panics h.w env e
  cases e1 : bEvalRHS b panics env σ e with
  | none =>
    cases e2 : bEvalRHS b panics env τ e with
    | none => exact .inl ⟨rfl, rfl⟩
    | some r => rw [e1, e2] at h1; exact absurd h1 id
  | some r =>
    cases e2 : bEvalRHS b panics env τ e with
    | none => rw [e1, e2] at h1; exact absurd h1 id
    | some r' =>
      rw [e1, e2] at h1
      obtain ⟨v, env', σ'⟩ := r
      obtain ⟨v', env'', τ'⟩ := r'
      obtain ⟨rfl, rfl, h1⟩ := h1
      exact .inr ⟨v, env', σ', τ', rfl, rfl, h1⟩

theorem evalLets (ss : List (String × RHS)) (env : BEnv) {σ : B chain} {τ : B A} (h : Rel R P σ τ) :
    SameS R P (bEvalLets b panics ss env σ) (bEvalLets b panics ss env τ) := by
  induction ss generalizing env σ τ with
  | nil => exact .inr ⟨rfl, h⟩
  | cons s ss ih =>
    obtain ⟨x, e⟩ := s
    simp only [bEvalLets]
    rcases rhs_cases hS b panics h env e with ⟨e1, e2⟩ | ⟨v, env', σ', τ', e1, e2, h1⟩
    · rw [e1, e2]
      exact .inr ⟨rfl, h.getStuck⟩
    · rw [e1, e2]
      simp only
      by_cases hu : σ'.status = .ub
      · left
        rw [if_neg (by rw [hu]; simp)]
        exact hu
      · have hr := h1.rel hu
        rw [hr.status]
        split
        · exact ih _ hr
        · exact .inr ⟨rfl, hr⟩

omit hS in
theorem sameS_drop {r : BEnv × B chain} {s : BEnv × B A} {f : BEnv → BEnv}
    (h : SameS R P r s) {g1 : B chain} {g2 : B A} (hg1 : r.2.status = .ub → g1.status = .ub)
    (hg : Rel R P r.2 s.2 → W R P g1 g2) :
    SameS R P (f r.1, g1) (f s.1, g2) := by
  rcases h with h | ⟨h1, h2⟩
  · exact .inl (hg1 h)
  · rw [h1]
    exact (hg h2).sameS _

theorem evalStmt (o : Shape) (env : BEnv) {σ : B chain} {τ : B A} (h : Rel R P σ τ) (s : GStmt) :
    SameS R P (bEvalStmt b panics o env σ s) (bEvalStmt b panics o env τ s) := by
  cases s with
  | letPat pat e =>
    simp only [bEvalStmt]
    rcases rhs_cases hS b panics h env e with ⟨e1, e2⟩ | ⟨v, env', σ', τ', e1, e2, h1⟩
    · rw [e1, e2]
      exact .inr ⟨rfl, h.getStuck⟩
    · rw [e1, e2]
      split
      · rename_i heq
        simp only [Option.some.injEq, Prod.mk.injEq] at heq
        obtain ⟨rfl, rfl, rfl⟩ := heq
        simp only
        cases bPairs pat o with
        | none =>
          rcases h1.2 with h1 | h1
          · exact .inl (Erase.ub_getStuck h1)
          · exact .inr ⟨rfl, h1.getStuck⟩
        | some ps =>
          obtain ⟨h2, h3⟩ := bind hS b _ _ ps h1
          simp only
          rw [h2]
          exact h3.sameS _
      · rename_i hn
        split
        · rename_i heq
          simp only [Option.some.injEq, Prod.mk.injEq] at heq
          obtain ⟨rfl, rfl, rfl⟩ := heq
          exact absurd rfl (hn _ _ _ _)
        · exact .inr ⟨rfl, h.getStuck⟩
  | letVar x ty e =>
    simp only [bEvalStmt]
    rcases rhs_cases hS b panics h env e with ⟨e1, e2⟩ | ⟨v, env', σ', τ', e1, e2, h1⟩
    · rw [e1, e2]
      exact .inr ⟨rfl, h.getStuck⟩
    · rw [e1, e2]
      simp only
      by_cases hu : σ'.status = .ub
      · left
        rw [if_neg (by rw [hu]; simp)]
        exact hu
      · have hr := h1.rel hu
        rw [hr.status]
        split
        · have h2 := coerce hS b ty v h1
          cases e3 : bCoerce b ty v σ' with
          | none =>
            cases e4 : bCoerce b ty v τ' with
            | none => exact .inr ⟨rfl, hr.getStuck⟩
            | some r => rw [e3, e4] at h2; exact absurd h2 id
          | some r =>
            cases e4 : bCoerce b ty v τ' with
            | none => rw [e3, e4] at h2; exact absurd h2 id
            | some r' =>
              rw [e3, e4] at h2
              obtain ⟨v1, σ2⟩ := r
              obtain ⟨v2, τ2⟩ := r'
              obtain ⟨rfl, h2⟩ := h2
              exact h2.sameS _
        · exact .inr ⟨rfl, hr⟩
  | scope ss =>
    simp only [bEvalStmt]
    have h1 := evalLets hS b panics ss env h
    generalize bEvalLets b panics ss env σ = r at *
    generalize bEvalLets b panics ss env τ = s at *
    rcases h1 with h1 | ⟨h1, h2⟩
    · exact .inl (Erase.ub_dropSlots h1)
    · rw [h1]
      exact (h2.w.dropSlots hS b panics _).sameS _
  | expr e =>
    simp only [bEvalStmt]
    rcases rhs_cases hS b panics h env e with ⟨e1, e2⟩ | ⟨v, env', σ', τ', e1, e2, h1⟩
    · rw [e1, e2]
      exact .inr ⟨rfl, h.getStuck⟩
    · rw [e1, e2]
      exact (h1.dropVal hS b panics v).sameS _

theorem evalStmts (o : Shape) (ss : List GStmt) (env : BEnv) {σ : B chain} {τ : B A} (h : Rel R P σ τ) :
    SameS R P (bEvalStmts b panics o ss env σ) (bEvalStmts b panics o ss env τ) := by
  induction ss generalizing env σ τ with
  | nil => exact .inr ⟨rfl, h⟩
  | cons s ss ih =>
    simp only [bEvalStmts]
    rcases evalStmt hS b panics o env h s with h1 | ⟨h1, h2⟩
    · left
      rw [if_neg (by rw [h1]; simp)]
      exact h1
    · rw [h2.status]
      split
      · rw [h1]
        exact ih _ h2
      · exact .inr ⟨h1, h2⟩

/-- The results of blocks. -/
def SameO (R : List Nat → Nat → BStack → A.St → Prop) (P : List Nat) (r : BOut chain) (s : BOut A) : Prop :=
  r.σ.status = .ub ∨ (r.val = s.val ∧ r.env = s.env ∧ Rel R P r.σ s.σ)

theorem leave (tl : Bool) (n : Nat) (v : BVal) (env : BEnv) {σ : B chain} {τ : B A} (h : Rel R P σ τ) :
    SameO R P (bLeave b panics tl n v env σ) (bLeave b panics tl n v env τ) := by
  have h1 := h.w.dropSlots hS b panics (env.take (env.length - n))
  unfold bLeave
  simp only
  rcases h1.2 with hu | hr
  · left
    simp only [hu]
  · rw [hr.status]
    split
    · exact .inr ⟨rfl, rfl, hr⟩
    · split
      · exact .inr ⟨rfl, rfl, hr⟩
      · rcases (hr.w.dropVal hS b panics v).2 with h | h
        · exact .inl h
        · exact .inr ⟨rfl, rfl, h⟩
    · exact .inr ⟨rfl, rfl, hr⟩

theorem leavePanic (n : Nat) (env : BEnv) {σ : B chain} {τ : B A} (h : Rel R P σ τ) :
    SameO R P (bLeavePanic b panics n env σ) (bLeavePanic b panics n env τ) := by
  rcases (h.w.dropSlots hS b panics (env.take (env.length - n))).2 with h | h
  · exact .inl h
  · exact .inr ⟨rfl, rfl, h⟩

theorem evalBlock (tl : Bool) (o : Shape) (n : Nat) (ss : List GStmt) (e : RHS) (env : BEnv) {σ : B chain} {τ : B A}
    (h : Rel R P σ τ) : SameO R P (bEvalBlock b panics tl o n ss e env σ) (bEvalBlock b panics tl o n ss e env τ) := by
  unfold bEvalBlock
  simp only
  rcases evalStmts hS b panics o ss env h with h1 | ⟨h1, h2⟩
  · left
    rw [if_neg (by rw [h1]; simp)]
    exact Erase.ub_leavePanic h1
  · rw [h2.status, ← h1]
    split
    · rcases rhs_cases hS b panics h2 (bEvalStmts b panics o ss env σ).1 e with ⟨e1, e2⟩ | ⟨v, env', σ', τ', e1, e2, h3⟩
      · rw [e1, e2]
        exact .inr ⟨rfl, rfl, h2.getStuck⟩
      · rw [e1, e2]
        simp only
        by_cases hu : σ'.status = .ub
        · left
          rw [if_neg (by rw [hu]; simp)]
          exact Erase.ub_leavePanic hu
        · have hr := h3.rel hu
          rw [hr.status]
          split
          · exact leave hS b panics tl n v env' hr
          · exact leavePanic hS b panics n env' hr
    · exact leavePanic hS b panics n _ h2

/-- The results of functions. -/
def SameV (R : List Nat → Nat → BStack → A.St → Prop) (P : List Nat) (r : Option BVal × B chain) (s : Option BVal × B A) :
    Prop := r.2.status = .ub ∨ (r.1 = s.1 ∧ Rel R P r.2 s.2)

omit hS in
theorem SameO.sameV {r : BOut chain} {s : BOut A} (h : SameO R P r s) : SameV R P (r.val, r.σ) (s.val, s.σ) :=
  h.imp id (fun h => ⟨h.1, h.2.2⟩)

theorem evalBody (tl : Bool) (o : Shape) (body : GBody) (env : BEnv) {σ : B chain} {τ : B A} (h : Rel R P σ τ) :
    SameV R P (bEvalBody b panics tl o body env σ) (bEvalBody b panics tl o body env τ) := by
  unfold bEvalBody
  split
  · exact (evalBlock hS b panics tl o 0 _ _ env h).sameV
  · rename_i scrut arms _
    simp only
    rcases evalStmts hS b panics o body.stmts env h with h1 | ⟨h1, h2⟩
    · left
      rw [if_neg (by rw [h1]; simp)]
      exact Erase.ub_leavePanic h1
    · rw [h2.status, ← h1]
      split
      · rcases rhs_cases hS b panics h2 (bEvalStmts b panics o body.stmts env σ).1 scrut with
          ⟨e1, e2⟩ | ⟨v, env', σ', τ', e1, e2, h3⟩
        · rw [e1, e2]
          exact .inr ⟨rfl, h2.getStuck⟩
        · rw [e1, e2]
          split
          · rename_i heq
            simp only [Option.some.injEq, Prod.mk.injEq] at heq
            obtain ⟨rfl, rfl, rfl⟩ := heq
            rename_i m t
            simp only
            have h4 : W R P (if b.inTag = true then σ'.access b false none t else σ')
                (if b.inTag = true then τ'.access b false none t else τ') := by
              split
              · exact h3.access hS b _ _ _
              · exact h3
            generalize (if b.inTag = true then σ'.access b false none t else σ') = σ'' at h4
            generalize (if b.inTag = true then τ'.access b false none t else τ') = τ'' at h4
            have hst : SameV R P ((none : Option BVal), σ''.getStuck) (none, τ''.getStuck) := by
              rcases h4.2 with h4 | h4
              · exact .inl (Erase.ub_getStuck h4)
              · exact .inr ⟨rfl, h4.getStuck⟩
            cases arms.find? (fun a => a.pat.variant == o.variant) with
            | none => exact hst
            | some arm =>
              simp only
              cases bPairs arm.pat o with
              | none => exact hst
              | some ps =>
                simp only
                obtain ⟨h5, h6⟩ := bind hS b m t ps h4
                rw [← h5]
                generalize hbs : bBind b m t ps σ'' = bs at *
                generalize hbs' : bBind b m t ps τ'' = bs' at *
                have h7 : SameO R P (bEvalBlock b panics tl o env'.length arm.stmts arm.tail (bs.1.reverse ++ env') bs.2)
                    (bEvalBlock b panics tl o env'.length arm.stmts arm.tail (bs.1.reverse ++ env') bs'.2) := by
                  rcases h6.2 with h6 | h6
                  · exact .inl (Erase.ub_block h6)
                  · exact evalBlock hS b panics tl o _ _ _ _ h6
                generalize bEvalBlock b panics tl o env'.length arm.stmts arm.tail (bs.1.reverse ++ env') bs.2 = r at h7
                generalize bEvalBlock b panics tl o env'.length arm.stmts arm.tail (bs.1.reverse ++ env') bs'.2 = s at h7
                rcases h7 with h7 | ⟨h7, h8, h9⟩
                · left
                  cases r.val with
                  | none => exact Erase.ub_leavePanic h7
                  | some v => exact Erase.ub_leave h7
                · rw [← h7, ← h8]
                  cases r.val with
                  | none => exact (leavePanic hS b panics 0 _ h9).sameV
                  | some v => exact (leave hS b panics tl 0 v _ h9).sameV
          · rename_i hn
            split
            · rename_i heq
              simp only [Option.some.injEq, Prod.mk.injEq] at heq
              obtain ⟨rfl, rfl, rfl⟩ := heq
              exact absurd rfl (hn _ _ _ _)
            · exact .inr ⟨rfl, h2.getStuck⟩
      · exact (leavePanic hS b panics 0 _ h2).sameV

theorem release (t : Nat) {σ : B chain} {τ : B A} (h : Rel R (t :: P) σ τ) :
    W R P { σ.release t with prot := P } { τ.release t with prot := P } := by
  unfold B.release
  rw [h.live, h.prot, h.prot']
  by_cases hl : σ.live = true
  · simp only [hl, if_true]
    cases hr : (if t ∈ List.map BItem.tag (List.dropLast σ.mem) then some σ.mem else none) with
    | none =>
      refine ⟨?_, .inl rfl⟩
      cases A.release (t :: P) t τ.mem <;> exact h.next
    | some r =>
      obtain ⟨r', h1, h2⟩ := hS.release (h.mem hl) hr
      rw [h1]
      exact Rel.w ⟨rfl, rfl, h.next, h.dtors, h.status, fun _ => h2⟩
  · simp only [hl]
    exact Rel.w ⟨rfl, rfl, h.next, h.dtors, h.status, fun h => absurd h hl⟩

/-- A call, from the strict rules to others. -/
theorem call (tl : Bool) (f : GFn) (o : Shape) (t0 : Nat) {σ : B chain} {τ : B A} (h : Rel R P σ τ) :
    SameV R P (bCallFn b panics tl f o t0 σ) (bCallFn b panics tl f o t0 τ) := by
  unfold bCallFn
  rw [h.next]
  cases bSelf f.recv σ.next with
  | none => exact .inr ⟨rfl, h.getStuck⟩
  | some q =>
    obtain ⟨p, self⟩ := q
    simp only
    have h1 := retag_any hS b h.w p none t0 (σ.next :: P) (.inr ⟨rfl, rfl⟩)
    have e1 : (σ.retag b p none t0).1 = σ.next := rfl
    have e2 : (τ.retag b p none t0).1 = σ.next := h.next
    rw [e1, e2, h.prot, h.prot']
    generalize { (σ.retag b p none t0).2 with prot := σ.next :: P } = σ1 at h1
    generalize { (τ.retag b p none t0).2 with prot := σ.next :: P } = τ1 at h1
    rcases h1.2 with h1 | h1
    · left
      exact (Erase.keeps_release _ _).ub (Erase.ub_body h1)
    · rcases evalBody hS b panics tl o f.body
        ((f.params.map (fun p => (p.1, some (.obj o.labels.length)))).reverse ++ [("self", some self)]) h1 with h2 | ⟨h2, h3⟩
      · exact .inl ((Erase.keeps_release _ _).ub h2)
      · rw [h2]
        rcases (release hS σ.next h3).2 with h4 | h4
        · exact .inl h4
        · exact .inr ⟨rfl, h4⟩

theorem uses (us : List PtrUse) {σ : B chain} {τ : B A} (h : W R P σ τ) : W R P (useAll b us σ) (useAll b us τ) := by
  induction us generalizing σ τ with
  | nil => exact h
  | cons u us ih =>
    apply ih
    unfold usePtr
    cases pointer u.ref with
    | none => exact h
    | some r => exact h.access hS b _ _ _

end
end Lift
end PinProject
