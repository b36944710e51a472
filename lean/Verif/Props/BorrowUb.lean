import Verif.Spec.Borrow
/-!
# Undefined behaviour is final, in the aliasing machine
-/
namespace PinProject
namespace Erase
open Spec

variable {A : AliasModel}

/-- Nothing happened but accesses. -/
def Keeps (σ σ' : B A) : Prop := σ'.status = .ub ∨ (σ'.status = σ.status ∧ σ'.dtors = σ.dtors)

theorem Keeps.rfl' (σ : B A) : Keeps σ σ := .inr ⟨rfl, rfl⟩

theorem Keeps.trans {σ σ' σ'' : B A} (h : Keeps σ σ') (h' : Keeps σ' σ'') : Keeps σ σ'' := by
  rcases h' with h' | ⟨h1, h2⟩
  · exact .inl h'
  · rcases h with h | ⟨h3, h4⟩
    · exact .inl (h1.trans h)
    · exact .inr ⟨h1.trans h3, h2.trans h4⟩

theorem keeps_access (b : Byte) (w : Bool) (l : Option String) (t : Nat) (σ : B A) : Keeps σ (σ.access b w l t) := by
  unfold B.access
  split
  · generalize A.access _ _ _ _ = r
    cases r
    · exact .inl rfl
    · exact .inr ⟨rfl, rfl⟩
  · exact Keeps.rfl' σ

theorem keeps_retag (b : Byte) (q : BPerm) (l : Option String) (t : Nat) (σ : B A) : Keeps σ (σ.retag b q l t).2 := by
  unfold B.retag
  cases A.retagAccess q σ.next with
  | none => exact Keeps.rfl' σ
  | some w => exact keeps_access b w l t σ

theorem keeps_release (t : Nat) (σ : B A) : Keeps σ (σ.release t) := by
  unfold B.release
  split
  · cases A.release σ.prot t σ.mem
    · exact .inl rfl
    · exact .inr ⟨rfl, rfl⟩
  · exact Keeps.rfl' σ

theorem Keeps.ub {σ σ' : B A} (h : Keeps σ σ') (hu : σ.status = .ub) : σ'.status = .ub := by
  rcases h with h | ⟨h, _⟩
  · exact h
  · exact h.trans hu

section
variable {b : Byte} {panics : BOracle}

theorem ub_runDtor {σ : B A} (h : σ.status = .ub) : (σ.runDtor panics).status = .ub := by
  unfold B.runDtor; rw [h]; exact h

theorem ub_runDtors {n : Nat} {σ : B A} (h : σ.status = .ub) : (bRunDtors panics n σ).status = .ub := by
  induction n generalizing σ with
  | zero => exact h
  | succ n ih => exact ih (ub_runDtor h)

theorem ub_dropInPlace {l : Option String} {t : Nat} {σ : B A} (h : σ.status = .ub) :
    (bDropInPlace b panics l t σ).status = .ub :=
  ub_runDtor (((keeps_retag b .unique l t σ).trans (keeps_access b true l _ _)).ub h)

theorem ub_dropFVal {v : BFVal} {σ : B A} (h : σ.status = .ub) : (bDropFVal panics v σ).status = .ub := by
  cases v <;> first | exact h | exact ub_runDtor h

theorem ub_dropVal {v : BVal} {σ : B A} (h : σ.status = .ub) : (bDropVal b panics v σ).status = .ub := by
  cases v with
  | unit => exact h
  | fv v => exact ub_dropFVal h
  | ptr => exact h
  | obj n => exact ub_runDtors h
  | adt fs =>
    simp only [bDropVal]
    induction fs generalizing σ with
    | nil => exact h
    | cons f fs ih => exact ih (ub_dropFVal h)
  | owGuard l t => exact (keeps_access b true l t σ).ub h
  | diGuard l t => exact ub_dropInPlace h

theorem ub_dropSlots {env : BEnv} {σ : B A} (h : σ.status = .ub) : (bDropSlots b panics env σ).status = .ub := by
  induction env generalizing σ with
  | nil => exact h
  | cons x env ih =>
    obtain ⟨y, v⟩ := x
    cases v with
    | none => exact ih h
    | some v => exact ih (ub_dropVal h)

theorem ub_getStuck {σ : B A} (h : σ.status = .ub) : σ.getStuck.status = .ub := by
  unfold B.getStuck; rw [if_pos h]; exact h

theorem ub_evalF {σ σ' : B A} {env : BEnv} {e : FExpr} {v : BFVal} (h : σ.status = .ub)
    (he : bEvalF b σ env e = some (v, σ')) : σ'.status = .ub := by
  cases e with
  | phantom => cases he; exact h
  | bind x =>
    simp only [bEvalF, Option.map_eq_some_iff] at he
    obtain ⟨r, -, he⟩ := he
    cases he; exact h
  | pinNew x =>
    simp only [bEvalF, Option.map_eq_some_iff] at he
    obtain ⟨r, -, he⟩ := he
    cases he; exact (keeps_retag ..).ub h
  | read x =>
    simp only [bEvalF, Option.map_eq_some_iff] at he
    obtain ⟨r, -, he⟩ := he
    cases he; exact (keeps_access ..).ub ((keeps_retag ..).ub h)

theorem ub_evalInits {xs : List GInit} {i : Nat} {d : Option Delim} {σ σ' : B A} {env : BEnv}
    {vs : List (String × BFVal)} (h : σ.status = .ub) (he : bEvalInits b env d i xs σ = some (vs, σ')) :
    σ'.status = .ub := by
  induction xs generalizing i σ vs with
  | nil => cases he; exact h
  | cons x xs ih =>
    simp only [bEvalInits, Option.bind_eq_bind, Option.bind_eq_some_iff] at he
    obtain ⟨⟨v, σ1⟩, h1, ⟨us, σ2⟩, h2, h3⟩ := he
    cases h3
    exact ih (ub_evalF h h1) h2

theorem ub_evalRHS {σ σ' : B A} {env env' : BEnv} {e : RHS} {v : BVal} (h : σ.status = .ub)
    (he : bEvalRHS b panics env σ e = some (v, env', σ')) : σ'.status = .ub := by
  cases e with
  | unit => cases he; exact h
  | var x =>
    simp only [bEvalRHS, Option.bind_eq_bind, Option.bind_eq_some_iff] at he
    obtain ⟨_, -, he⟩ := he
    cases he; exact h
  | ctor c =>
    simp only [bEvalRHS, Option.bind_eq_bind, Option.bind_eq_some_iff] at he
    obtain ⟨⟨fs, σ1⟩, h1, he⟩ := he
    cases he; exact ub_evalInits h h1
  | overwriteGuard y z =>
    simp only [bEvalRHS, Option.bind_eq_bind, Option.bind_eq_some_iff] at he
    obtain ⟨_, -, he⟩ := he
    split at he
    · simp only [Option.bind_eq_some_iff] at he
      obtain ⟨_, -, he⟩ := he
      split at he
      · cases he; exact h
      · cases he
    · cases he
  | pinnedDropCall x =>
    simp only [bEvalRHS, Option.bind_eq_bind, Option.bind_eq_some_iff] at he
    obtain ⟨_, -, he⟩ := he
    split at he
    · cases he; exact ub_dropInPlace h
    · cases he
  | _ =>
    simp only [bEvalRHS, Option.bind_eq_bind, Option.bind_eq_some_iff] at he
    obtain ⟨_, -, he⟩ := he
    split at he
    · cases he; exact (keeps_retag ..).ub h
    · cases he

theorem ub_bind {i : Bool} {t : Nat} {ps : List (String × String)} {σ : B A} (h : σ.status = .ub) :
    (bBind b i t ps σ).2.status = .ub := by
  induction ps generalizing σ with
  | nil => exact h
  | cons x ps ih =>
    obtain ⟨x, f⟩ := x
    exact ih ((keeps_retag ..).ub h)

theorem ub_lets {ss : List (String × RHS)} {env : BEnv} {σ : B A} (h : σ.status = .ub) :
    (bEvalLets b panics ss env σ).2.status = .ub := by
  cases ss with
  | nil => exact h
  | cons s ss =>
    obtain ⟨x, e⟩ := s
    simp only [bEvalLets]
    split
    · exact ub_getStuck h
    · rename_i hr
      have h' := ub_evalRHS h hr
      rw [if_neg (by rw [h']; simp)]
      exact h'

theorem ub_stmt {o : Shape} {s : GStmt} {env : BEnv} {σ : B A} (h : σ.status = .ub) :
    (bEvalStmt b panics o env σ s).2.status = .ub := by
  cases s with
  | letPat pat e =>
    simp only [bEvalStmt]
    split
    · rename_i hr
      have h' := ub_evalRHS h hr
      split
      · exact ub_bind h'
      · exact ub_getStuck h'
    · exact ub_getStuck h
  | letVar x ty e =>
    simp only [bEvalStmt]
    split
    · rename_i hr
      have h' := ub_evalRHS h hr
      rw [if_neg (by rw [h']; simp)]
      exact h'
    · exact ub_getStuck h
  | scope ss => exact ub_dropSlots (ub_lets h)
  | expr e =>
    simp only [bEvalStmt]
    split
    · rename_i hr
      exact ub_dropVal (ub_evalRHS h hr)
    · exact ub_getStuck h

theorem ub_stmts {o : Shape} {ss : List GStmt} {env : BEnv} {σ : B A} (h : σ.status = .ub) :
    (bEvalStmts b panics o ss env σ).2.status = .ub := by
  cases ss with
  | nil => exact h
  | cons s ss =>
    have h' := ub_stmt (b := b) (panics := panics) (o := o) (s := s) (env := env) h
    simp only [bEvalStmts]
    rw [if_neg (by rw [h']; simp)]
    exact h'

theorem ub_leave {tl : Bool} {n : Nat} {v : BVal} {env : BEnv} {σ : B A} (h : σ.status = .ub) :
    (bLeave b panics tl n v env σ).σ.status = .ub := by
  have := ub_dropSlots (b := b) (panics := panics) (env := env.take (env.length - n)) h
  unfold bLeave
  simp only [this]

theorem ub_leavePanic {n : Nat} {env : BEnv} {σ : B A} (h : σ.status = .ub) :
    (bLeavePanic b panics n env σ).σ.status = .ub := ub_dropSlots h

theorem ub_block {o : Shape} {tl : Bool} {n : Nat} {ss : List GStmt} {e : RHS} {env : BEnv} {σ : B A} (h : σ.status = .ub) :
    (bEvalBlock b panics tl o n ss e env σ).σ.status = .ub := by
  have h' := ub_stmts (b := b) (panics := panics) (o := o) (ss := ss) (env := env) h
  simp only [bEvalBlock]
  rw [if_neg (by rw [h']; simp)]
  exact ub_leavePanic h'

end

section
variable {b : Byte} {panics : BOracle}

theorem ub_body {o : Shape} {tl : Bool} {body : GBody} {env : BEnv} {σ : B A} (h : σ.status = .ub) :
    (bEvalBody b panics tl o body env σ).2.status = .ub := by
  obtain ⟨ss, tail⟩ := body
  cases tail with
  | expr e => exact ub_block h
  | match_ scrut arms =>
    have h' := ub_stmts (b := b) (panics := panics) (o := o) (ss := ss) (env := env) h
    simp only [bEvalBody]
    rw [if_neg (by rw [h']; simp)]
    exact ub_leavePanic h'

end

end Erase
end PinProject
