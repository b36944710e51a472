import Verif.Props.BorrowUb
import Verif.Spec.Erasure
/-!
# The two machines agree

`Sem/Eval.lean` runs generated functions on values and counts nothing but destructors; `Sem/Borrow.lean` runs them on
pointers with tags. They are defined separately. Here it is shown, for every function of the generated language and not
only for generated ones, that forgetting the tags turns a run of the second machine into a run of the first: unless the
first one gets stuck or the second one finds undefined behaviour, they call the same number of destructors, end in the same
way and return the same value.
-/
namespace PinProject

open Spec

theorem dtorCount_append (a b : List Event) : dtorCount (a ++ b) = dtorCount a + dtorCount b := by
  induction a with
  | nil => simp [dtorCount]
  | cons e es ih => cases e <;> simp [dtorCount, ih] <;> omega

namespace Erase

variable {A : AliasModel}

def relEnv (p : Nat) (o : Shape) : Env → BEnv → Prop
  | [], [] => True
  | (x, v) :: e, (y, w) :: e' => x = y ∧ SameResult p o v w ∧ relEnv p o e e'
  | _, _ => False

structure Sim (p : Nat) (o : Shape) (k : Nat) (m : M) (σ : B A) : Prop where
  mem : ∃ x, m.mem p = some x ∧ HasShape o x
  dtors : σ.dtors = k + dtorCount m.trace
  status : σ.status = tagged m.status


section
variable {orc : Oracle}

theorem stuck_runDtor {e : Event} {m : M} (h : m.status = .stuck) : (m.runDtor orc e).status = .stuck := by
  unfold M.runDtor; rw [h]; exact h

theorem stuck_dropFVal {v : FVal} {m : M} (h : m.status = .stuck) : (dropFVal orc v m).status = .stuck := by
  cases v <;> first | exact h | exact stuck_runDtor h

theorem stuck_dropVal {v : Val} {m : M} (h : m.status = .stuck) : (dropVal orc v m).status = .stuck := by
  cases v with
  | unit => exact h
  | fv v => exact stuck_dropFVal h
  | ptr => exact h
  | obj x =>
    simp only [dropVal]
    generalize x.fields = fs
    induction fs generalizing m with
    | nil => exact h
    | cons f fs ih => exact ih (stuck_runDtor h)
  | adt _ _ fs =>
    simp only [dropVal]
    induction fs generalizing m with
    | nil => exact h
    | cons f fs ih => exact ih (stuck_dropFVal h)
  | owGuard l x =>
    simp only [dropVal, overwriteGuardDrop]
    split
    · unfold M.write; rw [h]; exact h
    · rfl
  | diGuard l =>
    simp only [dropVal, dropInPlaceGuardDrop]
    split
    · exact stuck_runDtor h
    · rfl

theorem stuck_dropSlots {env : Env} {m : M} (h : m.status = .stuck) : (dropSlots orc env m).status = .stuck := by
  induction env generalizing m with
  | nil => exact h
  | cons x env ih =>
    obtain ⟨y, v⟩ := x
    cases v with
    | none => exact ih h
    | some v => exact ih (stuck_dropVal h)

theorem stuck_leave {tl : Bool} {n : Nat} {v : Val} {env : Env} {m : M} (h : m.status = .stuck) :
    (leave orc tl n v env m).m.status = .stuck := by
  have := stuck_dropSlots (orc := orc) (env := env.take (env.length - n)) h
  unfold leave
  simp only [this]

theorem stuck_leavePanic {n : Nat} {env : Env} {m : M} (h : m.status = .stuck) :
    (leavePanic orc n env m).m.status = .stuck := stuck_dropSlots h

end

/-- The invariant: related states, unless one of the machines has given up. -/
def Q (p : Nat) (o : Shape) (k : Nat) (m : M) (σ : B A) : Prop :=
  m.status = .stuck ∨ σ.status = .ub ∨ Sim p o k m σ

def QE (p : Nat) (o : Shape) (k : Nat) (r : Env × M) (s : BEnv × B A) : Prop :=
  r.2.status = .stuck ∨ s.2.status = .ub ∨ (relEnv p o r.1 s.1 ∧ Sim p o k r.2 s.2)

def QOut (p : Nat) (o : Shape) (k : Nat) (r : Out) (s : BOut A) : Prop :=
  r.m.status = .stuck ∨ s.σ.status = .ub ∨ (relEnv p o r.env s.env ∧ Sim p o k r.m s.σ ∧ SameResult p o r.val s.val)

section
variable {p k : Nat} {o : Shape} {orc : Oracle} {panics : BOracle} {b : Byte}

theorem Sim.keeps {m : M} {σ σ' : B A} (h : Sim p o k m σ) (hk : Keeps σ σ') : σ'.status = .ub ∨ Sim p o k m σ' := by
  rcases hk with hk | ⟨h1, h2⟩
  · exact .inl hk
  · exact .inr ⟨h.mem, h2.trans h.dtors, h1.trans h.status⟩

variable (horc : SameOracle orc panics k)
include horc

theorem Sim.runDtor {m : M} {σ : B A} (h : Sim p o k m σ) {e : Event} (he : dtorCount [e] = 1) :
    Sim p o k (m.runDtor orc e) (σ.runDtor panics) := by
  have hd := h.dtors
  have hs := h.status
  have hm := h.mem
  unfold M.runDtor B.runDtor
  cases hst : m.status <;> rw [hst] at hs <;> simp only [tagged] at hs <;> rw [hs]
  · refine ⟨hm, ?_, ?_⟩
    · simp only [dtorCount_append, he, hd]; omega
    · simp only [horc m.trace e, hd]; split <;> rfl
  · refine ⟨hm, ?_, ?_⟩
    · simp only [dtorCount_append, he, hd]; omega
    · simp only [horc m.trace e, hd]; split <;> rfl
  · exact ⟨hm, hd, by rw [hs, hst]; rfl⟩
  · exact ⟨hm, hd, by rw [hs, hst]; rfl⟩

theorem Q.runDtor {m : M} {σ : B A} (h : Q p o k m σ) {e : Event} (he : dtorCount [e] = 1) :
    Q p o k (m.runDtor orc e) (σ.runDtor panics) := by
  rcases h with h | h | h
  · exact .inl (stuck_runDtor h)
  · exact .inr (.inl (ub_runDtor h))
  · exact .inr (.inr (h.runDtor horc he))

theorem Q.dropFVal {v : FVal} {w : BFVal} (hv : SameField p v w) {m : M} {σ : B A} (h : Q p o k m σ) :
    Q p o k (dropFVal orc v m) (bDropFVal panics w σ) := by
  cases v <;> cases w <;> simp only [SameField] at hv <;>
    first | exact h | exact h.runDtor horc rfl

theorem Q.dropVal {v : Val} {w : BVal} (hv : SameVal p o v w) {m : M} {σ : B A} (h : Q p o k m σ) :
    Q p o k (dropVal orc v m) (bDropVal b panics w σ) := by
  cases v with
  | unit => cases w <;> simp only [SameVal] at hv; exact h
  | fv v => cases w <;> simp only [SameVal] at hv; exact h.dropFVal horc hv
  | ptr => cases w <;> simp only [SameVal] at hv; exact h
  | obj x =>
    cases w <;> simp only [SameVal] at hv
    obtain ⟨rfl, -⟩ := hv
    simp only [PinProject.dropVal, bDropVal]
    generalize x.fields = fs
    induction fs generalizing m σ with
    | nil => exact h
    | cons f fs ih => exact ih (h.runDtor horc rfl)
  | adt _ _ fs =>
    cases w with
    | adt gs =>
      simp only [SameVal] at hv
      simp only [PinProject.dropVal, bDropVal]
      induction fs generalizing m σ gs with
      | nil => cases gs <;> simp only [SameFields] at hv; exact h
      | cons f fs ih =>
        cases gs with
        | nil => simp only [SameFields] at hv
        | cons g gs =>
          obtain ⟨x, v⟩ := f
          obtain ⟨y, w⟩ := g
          simp only [SameFields] at hv
          exact ih (h.dropFVal horc hv.2.1) _ hv.2.2
    | _ => simp only [SameVal] at hv
  | owGuard l x =>
    cases w <;> simp only [SameVal] at hv
    rename_i f t
    obtain ⟨rfl, hx⟩ := hv
    simp only [PinProject.dropVal, bDropVal, overwriteGuardDrop]
    cases f with
    | some f => exact .inl rfl
    | none =>
      rcases h with h | h | h
      · refine .inl ?_
        simp only [M.write]; rw [h]; exact h
      · exact .inr (.inl ((keeps_access b true none t σ).ub h))
      · have h' : Sim p o k (m.write p x) σ := by
          simp only [M.write]
          have h1 : Sim p o k { m with mem := fun q => if q = p then some x else m.mem q,
                                       trace := m.trace ++ [.write p x] } σ :=
            ⟨⟨x, by simp, hx⟩, by rw [h.dtors]; simp [dtorCount_append, dtorCount], h.status⟩
          split
          · exact h1
          · exact h1
          · exact h
        exact .inr (h'.keeps (keeps_access b true none t σ))
  | diGuard l =>
    cases w <;> simp only [SameVal] at hv
    rename_i f t
    subst hv
    simp only [PinProject.dropVal, bDropVal, dropInPlaceGuardDrop]
    split
    · rcases h with h | h | h
      · exact .inl (stuck_runDtor h)
      · exact .inr (.inl (ub_dropInPlace h))
      · rcases h.keeps ((keeps_retag b .unique f t σ).trans (keeps_access b true f _ _)) with h | h
        · exact .inr (.inl (ub_runDtor h))
        · exact .inr (.inr (h.runDtor horc rfl))
    · exact .inl rfl

theorem Q.dropSlots {env : Env} {benv : BEnv} (he : relEnv p o env benv) {m : M} {σ : B A} (h : Q p o k m σ) :
    Q p o k (dropSlots orc env m) (bDropSlots b panics benv σ) := by
  induction env generalizing m σ benv with
  | nil => cases benv <;> simp only [relEnv] at he; exact h
  | cons x env ih =>
    obtain ⟨x, v⟩ := x
    cases benv with
    | nil => simp only [relEnv] at he
    | cons y benv =>
      obtain ⟨y, w⟩ := y
      simp only [relEnv] at he
      obtain ⟨-, hv, he⟩ := he
      cases v <;> cases w <;> simp only [SameResult] at hv
      · exact ih he h
      · exact ih he (h.dropVal horc hv)

omit horc

theorem relV_owning {v : Val} {w : BVal} (h : SameVal p o v w) : w.isOwning = v.isOwning := by
  cases v with
  | fv v => cases w <;> simp only [SameVal] at h; rename_i w; cases v <;> cases w <;> simp only [SameField] at h <;> rfl
  | _ => cases w <;> simp only [SameVal] at h <;> rfl

theorem relEnv_use {x : String} {env : Env} {benv : BEnv} (he : relEnv p o env benv) {v : Val} {env' : Env}
    (h : env.use x = some (v, env')) :
    ∃ w benv', benv.use x = some (w, benv') ∧ SameVal p o v w ∧ relEnv p o env' benv' := by
  induction env generalizing benv env' with
  | nil => simp [Env.use] at h
  | cons y env ih =>
    obtain ⟨y, u⟩ := y
    cases benv with
    | nil => simp only [relEnv] at he
    | cons z benv =>
      obtain ⟨z, w⟩ := z
      simp only [relEnv] at he
      obtain ⟨rfl, hu, he⟩ := he
      simp only [Env.use, BEnv.use] at h ⊢
      by_cases hyx : y = x
      · rw [if_pos hyx] at h ⊢
        cases u <;> cases w <;> simp only [SameResult] at hu
        · simp at h
        · rename_i u w
          simp only [Option.map_some, Option.some.injEq, Prod.mk.injEq] at h
          obtain ⟨rfl, rfl⟩ := h
          refine ⟨_, _, rfl, hu, rfl, ?_, he⟩
          rw [relV_owning hu]
          split
          · trivial
          · exact hu
      · rw [if_neg hyx] at h ⊢
        cases hr : Env.use x env with
        | none => simp [hr] at h
        | some r =>
          simp only [hr, Option.map_some, Option.some.injEq, Prod.mk.injEq] at h
          obtain ⟨rfl, rfl⟩ := h
          obtain ⟨w', e', h1, h2, h3⟩ := ih he (env' := r.2) hr
          exact ⟨w', (y, w) :: e', by rw [h1]; rfl, h2, rfl, hu, h3⟩

theorem relEnv_lookup {x : String} {env : Env} {benv : BEnv} (he : relEnv p o env benv) {v : Val}
    (h : env.lookup x = some (some v)) : ∃ w, benv.lookup x = some (some w) ∧ SameVal p o v w := by
  induction env generalizing benv with
  | nil => simp at h
  | cons y env ih =>
    obtain ⟨y, u⟩ := y
    cases benv with
    | nil => simp only [relEnv] at he
    | cons z benv =>
      obtain ⟨z, w⟩ := z
      simp only [relEnv] at he
      obtain ⟨rfl, hu, he⟩ := he
      rw [List.lookup_cons] at h ⊢
      split at h
      · rename_i hxy
        cases h
        cases w <;> simp only [SameResult] at hu
        exact ⟨_, rfl, hu⟩
      · rename_i hxy
        exact ih he h

theorem relEnv_getRef {x : String} {env : Env} {benv : BEnv} (he : relEnv p o env benv) {i : Bool} {l : Loc}
    (h : env.getRef x = some (i, l)) : ∃ f t, l = ⟨p, f⟩ ∧ benv.getRef x = some (i, f, t) := by
  unfold Env.getRef at h
  split at h
  · rename_i hl
    cases h
    obtain ⟨w, h1, h2⟩ := relEnv_lookup he hl
    cases w <;> simp only [SameVal] at h2
    rename_i w
    cases w <;> simp only [SameField] at h2
    obtain ⟨rfl, rfl⟩ := h2
    exact ⟨_, _, rfl, by simp only [BEnv.getRef, h1]; rfl⟩
  · cases h

theorem evalF_rel {m : M} {env : Env} {benv : BEnv} (he : relEnv p o env benv) {e : FExpr} {v : FVal}
    (h : evalF m env e = some v) (σ : B A) :
    ∃ w σ', bEvalF b σ benv e = some (w, σ') ∧ SameField p v w ∧ Keeps σ σ' := by
  cases e with
  | phantom => cases h; exact ⟨_, _, rfl, trivial, Keeps.rfl' σ⟩
  | bind x =>
    simp only [evalF] at h
    cases hr : env.getRef x with
    | none => simp [hr] at h
    | some r =>
      obtain ⟨i, l⟩ := r
      obtain ⟨f, t, rfl, h1⟩ := relEnv_getRef he hr
      rw [hr] at h; cases h
      simp only [bEvalF, h1]
      exact ⟨_, _, rfl, ⟨rfl, rfl⟩, Keeps.rfl' σ⟩
  | pinNew x =>
    simp only [evalF] at h
    cases hr : env.getRef x with
    | none => simp [hr] at h
    | some r =>
      obtain ⟨i, l⟩ := r
      obtain ⟨f, t, rfl, h1⟩ := relEnv_getRef he hr
      rw [hr] at h; cases h
      simp only [bEvalF, h1]
      exact ⟨_, _, rfl, ⟨rfl, rfl⟩, keeps_retag b _ _ _ σ⟩
  | read x =>
    simp only [evalF] at h
    cases hr : env.getRef x with
    | none => simp [hr] at h
    | some r =>
      obtain ⟨i, l⟩ := r
      obtain ⟨f, t, rfl, h1⟩ := relEnv_getRef he hr
      rw [hr] at h
      simp only [Option.bind_some, Option.map_eq_some_iff] at h
      obtain ⟨_, -, rfl⟩ := h
      simp only [bEvalF, h1]
      exact ⟨_, _, rfl, trivial, (keeps_retag b _ _ _ σ).trans (keeps_access b _ _ _ _)⟩

theorem evalRHS_mem {orc : Oracle} {env env' : Env} {m m' : M} {e : RHS} {v : Val}
    (h : evalRHS orc env m e = some (v, env', m')) : m'.mem = m.mem := by
  cases e with
  | unit => cases h; rfl
  | pinnedDropCall x =>
    simp only [evalRHS, Option.bind_eq_bind, Option.bind_eq_some_iff] at h
    obtain ⟨_, -, h⟩ := h
    split at h
    · cases h
      unfold M.runDtor
      split <;> rfl
    · cases h
  | overwriteGuard y z =>
    simp only [evalRHS, Option.bind_eq_bind, Option.bind_eq_some_iff] at h
    obtain ⟨_, -, h⟩ := h
    split at h
    · simp only [Option.bind_eq_some_iff] at h
      obtain ⟨_, -, h⟩ := h
      split at h <;> cases h
      rfl
    · cases h
  | var x =>
    simp only [evalRHS, Option.bind_eq_bind, Option.bind_eq_some_iff] at h
    obtain ⟨_, -, h⟩ := h
    cases h; rfl
  | ctor c =>
    simp only [evalRHS, Option.bind_eq_bind, Option.bind_eq_some_iff] at h
    obtain ⟨_, -, h⟩ := h
    cases h; rfl
  | _ =>
    simp only [evalRHS, Option.bind_eq_bind, Option.bind_eq_some_iff] at h
    obtain ⟨_, -, h⟩ := h
    split at h <;> cases h
    rfl

theorem evalInits_rel {m : M} {env : Env} {benv : BEnv} (he : relEnv p o env benv) (d : Option Delim)
    {xs : List GInit} {i : Nat} {vs : List (String × FVal)} (h : evalInits m env d i xs = some vs) (σ : B A) :
    ∃ ws σ', bEvalInits b benv d i xs σ = some (ws, σ') ∧ SameFields p vs ws ∧ Keeps σ σ' := by
  induction xs generalizing i vs σ with
  | nil => cases h; exact ⟨_, _, rfl, trivial, Keeps.rfl' σ⟩
  | cons x xs ih =>
    simp only [evalInits, Option.bind_eq_bind, Option.bind_eq_some_iff, Option.some.injEq] at h
    obtain ⟨v, hv, us, hus, rfl⟩ := h
    obtain ⟨w, σ1, h1, h2, h3⟩ := evalF_rel (b := b) he hv σ
    obtain ⟨ws, σ2, h4, h5, h6⟩ := ih hus σ1
    simp only [bEvalInits, h1, Option.bind_eq_bind, Option.bind_some, h4]
    exact ⟨_, _, rfl, ⟨rfl, h2, h5⟩, h3.trans h6⟩

include horc

theorem evalRHS_rel {m : M} {σ : B A} (hs : Sim p o k m σ) {env : Env} {benv : BEnv} (he : relEnv p o env benv) {e : RHS}
    {v : Val} {env' : Env} {m' : M} (h : evalRHS orc env m e = some (v, env', m')) :
    ∃ w benv' σ', bEvalRHS b panics benv σ e = some (w, benv', σ') ∧ SameVal p o v w ∧ relEnv p o env' benv' ∧
      (σ'.status = .ub ∨ Sim p o k m' σ') := by
  cases e with
  | unit => cases h; exact ⟨_, _, _, rfl, trivial, he, .inr hs⟩
  | var x =>
    simp only [evalRHS, Option.bind_eq_bind, Option.bind_eq_some_iff] at h
    obtain ⟨⟨u, e1⟩, hu, h⟩ := h
    cases h
    obtain ⟨w, e2, h1, h2, h3⟩ := relEnv_use he hu
    simp only [bEvalRHS, h1, Option.bind_eq_bind, Option.bind_some]
    exact ⟨_, _, _, rfl, h2, h3, .inr hs⟩
  | ctor c =>
    simp only [evalRHS, Option.bind_eq_bind, Option.bind_eq_some_iff] at h
    obtain ⟨fs, hf, h⟩ := h
    cases h
    obtain ⟨ws, σ', h1, h2, h3⟩ := evalInits_rel (b := b) he c.delim hf σ
    simp only [bEvalRHS, h1, Option.bind_eq_bind, Option.bind_some]
    exact ⟨_, _, _, rfl, h2, he, hs.keeps h3⟩
  | getUncheckedMut x =>
    simp only [evalRHS, Option.bind_eq_bind, Option.bind_eq_some_iff] at h
    obtain ⟨⟨u, e1⟩, hu, h⟩ := h
    split at h
    · rename_i heq
      cases heq
      cases h
      obtain ⟨w, e2, h1, h2, h3⟩ := relEnv_use he hu
      cases w <;> simp only [SameVal] at h2
      rename_i w
      cases w <;> simp only [SameField] at h2
      obtain ⟨rfl, rfl⟩ := h2
      simp only [bEvalRHS, h1, Option.bind_eq_bind, Option.bind_some]
      exact ⟨_, _, _, rfl, ⟨rfl, rfl⟩, h3, hs.keeps (keeps_retag ..)⟩
    · cases h
  | getRef x =>
    simp only [evalRHS, Option.bind_eq_bind, Option.bind_eq_some_iff] at h
    obtain ⟨⟨u, e1⟩, hu, h⟩ := h
    split at h
    · rename_i heq
      cases heq
      cases h
      obtain ⟨w, e2, h1, h2, h3⟩ := relEnv_use he hu
      cases w <;> simp only [SameVal] at h2
      rename_i w
      cases w <;> simp only [SameField] at h2
      obtain ⟨rfl, rfl⟩ := h2
      simp only [bEvalRHS, h1, Option.bind_eq_bind, Option.bind_some]
      exact ⟨_, _, _, rfl, ⟨rfl, rfl⟩, h3, hs.keeps (keeps_retag ..)⟩
    · cases h
  | reborrow x =>
    simp only [evalRHS, Option.bind_eq_bind, Option.bind_eq_some_iff] at h
    obtain ⟨⟨u, e1⟩, hu, h⟩ := h
    split at h
    · rename_i heq
      cases heq
      cases h
      obtain ⟨w, e2, h1, h2, h3⟩ := relEnv_use he hu
      cases w <;> simp only [SameVal] at h2
      subst h2
      simp only [bEvalRHS, h1, Option.bind_eq_bind, Option.bind_some]
      exact ⟨_, _, _, rfl, ⟨rfl, rfl⟩, h3, hs.keeps (keeps_retag ..)⟩
    · cases h
  | pinNew x =>
    simp only [evalRHS, Option.bind_eq_bind, Option.bind_eq_some_iff] at h
    obtain ⟨⟨u, e1⟩, hu, h⟩ := h
    split at h
    · rename_i heq
      cases heq
      cases h
      obtain ⟨w, e2, h1, h2, h3⟩ := relEnv_use he hu
      cases w <;> simp only [SameVal] at h2
      rename_i w
      cases w <;> simp only [SameField] at h2
      obtain ⟨rfl, rfl⟩ := h2
      simp only [bEvalRHS, h1, Option.bind_eq_bind, Option.bind_some]
      exact ⟨_, _, _, rfl, ⟨rfl, rfl⟩, h3, hs.keeps (keeps_retag ..)⟩
    · cases h
  | overwriteGuard y z =>
    simp only [evalRHS, Option.bind_eq_bind, Option.bind_eq_some_iff] at h
    obtain ⟨⟨u, e1⟩, hu, h⟩ := h
    split at h
    · rename_i heq
      cases heq
      simp only [Option.bind_eq_some_iff] at h
      obtain ⟨⟨u', e1'⟩, hu', h⟩ := h
      split at h
      · rename_i heq
        cases heq
        cases h
        obtain ⟨w, e2, h1, h2, h3⟩ := relEnv_use he hu
        cases w <;> simp only [SameVal] at h2
        subst h2
        obtain ⟨w, e2', h1', h2', h3'⟩ := relEnv_use h3 hu'
        cases w <;> simp only [SameVal] at h2'
        simp only [bEvalRHS, h1, Option.bind_eq_bind, Option.bind_some, h1']
        exact ⟨_, _, _, rfl, ⟨rfl, h2'.2⟩, h3', .inr hs⟩
      · cases h
    · cases h
  | dropGuard x =>
    simp only [evalRHS, Option.bind_eq_bind, Option.bind_eq_some_iff] at h
    obtain ⟨⟨u, e1⟩, hu, h⟩ := h
    split at h
    · rename_i heq
      cases heq
      cases h
      obtain ⟨w, e2, h1, h2, h3⟩ := relEnv_use he hu
      cases w <;> simp only [SameVal] at h2
      rename_i w
      cases w <;> simp only [SameField] at h2
      obtain ⟨rfl, rfl⟩ := h2
      simp only [bEvalRHS, h1, Option.bind_eq_bind, Option.bind_some]
      exact ⟨_, _, _, rfl, rfl, h3, hs.keeps (keeps_retag ..)⟩
    · cases h
  | pinnedDropCall x =>
    simp only [evalRHS, Option.bind_eq_bind, Option.bind_eq_some_iff] at h
    obtain ⟨⟨u, e1⟩, hu, h⟩ := h
    split at h
    · rename_i heq
      cases heq
      cases h
      obtain ⟨w, e2, h1, h2, h3⟩ := relEnv_use he hu
      cases w <;> simp only [SameVal] at h2
      rename_i w
      cases w <;> simp only [SameField, Loc.mk.injEq] at h2
      obtain ⟨rfl, rfl, rfl⟩ := h2
      simp only [bEvalRHS, h1, Option.bind_eq_bind, Option.bind_some]
      refine ⟨_, _, _, rfl, trivial, h3, ?_⟩
      rcases hs.keeps ((keeps_retag b .unique none _ σ).trans (keeps_access b true none _ _)) with h | h
      · exact .inl (ub_runDtor h)
      · exact .inr (h.runDtor horc rfl)
    · cases h

omit horc

theorem bBind_rel (i : Bool) (t : Nat) (ps : List (String × String)) (σ : B A) :
    relEnv p o (ps.map (fun x => (x.1, some (.fv (.ref i ⟨p, some x.2⟩))))) (bBind b i t ps σ).1 ∧
      Keeps σ (bBind b i t ps σ).2 := by
  induction ps generalizing σ with
  | nil => exact ⟨trivial, Keeps.rfl' σ⟩
  | cons x ps ih =>
    obtain ⟨x, f⟩ := x
    obtain ⟨h1, h2⟩ := ih (σ.retag b (permOf i) (some f) t).2
    exact ⟨⟨rfl, ⟨rfl, rfl⟩, h1⟩, (keeps_retag b _ _ _ σ).trans h2⟩

theorem bindPat_rel {pat : GPat} {i : Bool} {x : Obj} (hx : HasShape o x) {bs : Env}
    (h : bindPat pat i p x = some bs) :
    ∃ ps, bPairs pat o = some ps ∧ bs = ps.map (fun y => (y.1, some (.fv (.ref i ⟨p, some y.2⟩)))) := by
  unfold bindPat at h
  unfold bPairs
  rw [← hx.variant, ← hx.labels]
  split at h
  · rename_i hc
    rw [if_pos hc]
    split at h
    · rename_i hd
      rw [hd]
      split at h
      · rename_i hc2
        rw [if_pos hc2]
        cases h
        exact ⟨_, rfl, by simp⟩
      · cases h
    · rename_i hd
      rw [hd]
      split at h
      · rename_i hc2
        simp only [List.length_map, if_pos hc2]
        cases h
        refine ⟨_, rfl, ?_⟩
        generalize pat.binders = xs
        generalize x.fields = fs
        induction xs generalizing fs with
        | nil => rfl
        | cons a xs ih =>
          cases fs with
          | nil => rfl
          | cons f fs => simp [ih fs]
      · cases h
    · cases h
    · rename_i hd
      rw [hd]
      split at h
      · rename_i hc2
        cases h
        refine ⟨[], ?_, rfl⟩
        have : x.fields = [] := by simpa using hc2.1
        simp [this, List.isEmpty_iff.1 hc2.2]
      · cases h
  · cases h

theorem relEnv_append {e1 e2 : Env} {b1 b2 : BEnv} (h1 : relEnv p o e1 b1) (h2 : relEnv p o e2 b2) :
    relEnv p o (e1 ++ e2) (b1 ++ b2) := by
  induction e1 generalizing b1 with
  | nil => cases b1 <;> simp only [relEnv] at h1; exact h2
  | cons x e1 ih =>
    cases b1 with
    | nil => simp only [relEnv] at h1
    | cons y b1 => exact ⟨h1.1, h1.2.1, ih h1.2.2⟩

theorem relEnv_reverse {e1 : Env} {b1 : BEnv} (h1 : relEnv p o e1 b1) : relEnv p o e1.reverse b1.reverse := by
  induction e1 generalizing b1 with
  | nil => cases b1 <;> simp only [relEnv] at h1; trivial
  | cons x e1 ih =>
    cases b1 with
    | nil => simp only [relEnv] at h1
    | cons y b1 =>
      rw [List.reverse_cons, List.reverse_cons]
      exact relEnv_append (ih h1.2.2) ⟨h1.1, h1.2.1, trivial⟩

theorem relEnv_length {e1 : Env} {b1 : BEnv} (h1 : relEnv p o e1 b1) : b1.length = e1.length := by
  induction e1 generalizing b1 with
  | nil => cases b1 <;> simp only [relEnv] at h1; rfl
  | cons x e1 ih =>
    cases b1 with
    | nil => simp only [relEnv] at h1
    | cons y b1 => simp [ih h1.2.2]

theorem relEnv_take {e1 : Env} {b1 : BEnv} (h1 : relEnv p o e1 b1) (n : Nat) :
    relEnv p o (e1.take n) (b1.take n) := by
  induction e1 generalizing b1 n with
  | nil => cases b1 <;> simp only [relEnv] at h1; simp [relEnv]
  | cons x e1 ih =>
    cases b1 with
    | nil => simp only [relEnv] at h1
    | cons y b1 =>
      cases n with
      | zero => trivial
      | succ n => exact ⟨h1.1, h1.2.1, ih h1.2.2 n⟩

theorem relEnv_drop {e1 : Env} {b1 : BEnv} (h1 : relEnv p o e1 b1) (n : Nat) :
    relEnv p o (e1.drop n) (b1.drop n) := by
  induction e1 generalizing b1 n with
  | nil => cases b1 <;> simp only [relEnv] at h1; simp [relEnv]
  | cons x e1 ih =>
    cases b1 with
    | nil => simp only [relEnv] at h1
    | cons y b1 =>
      cases n with
      | zero => exact h1
      | succ n => exact ih h1.2.2 n

theorem Sim.run_iff {m : M} {σ : B A} (h : Sim p o k m σ) : σ.status = .run ↔ m.status = .run := by
  rw [h.status]; cases m.status <;> simp [tagged]

include horc

theorem evalLets_rel (ss : List (String × RHS)) {m : M} {σ : B A} (hs : Sim p o k m σ) {env : Env} {benv : BEnv}
    (he : relEnv p o env benv) : QE p o k (evalLets orc ss env m) (bEvalLets b panics ss benv σ) := by
  induction ss generalizing m σ env benv with
  | nil => exact .inr (.inr ⟨he, hs⟩)
  | cons s ss ih =>
    obtain ⟨x, e⟩ := s
    simp only [evalLets]
    cases hr : evalRHS orc env m e with
    | none => exact .inl rfl
    | some r =>
      obtain ⟨v, env', m'⟩ := r
      obtain ⟨w, benv', σ', h1, h2, h3, h4⟩ := evalRHS_rel (b := b) horc hs he hr
      simp only [bEvalLets, h1]
      rcases h4 with h4 | h4
      · refine .inr (.inl ?_)
        rw [if_neg (by rw [h4]; simp)]
        exact h4
      · by_cases hm : m'.status = .run
        · rw [if_pos hm, if_pos (h4.run_iff.2 hm)]
          exact ih h4 ⟨rfl, h2, h3⟩
        · rw [if_neg hm, if_neg (fun h => hm (h4.run_iff.1 h))]
          exact .inr (.inr ⟨h3, h4⟩)

theorem QE.scope {r : Env × M} {s : BEnv × B A} (h : QE p o k r s) {env : Env} {benv : BEnv}
    (he : relEnv p o env benv) :
    QE p o k (r.1.drop (r.1.length - env.length), dropSlots orc (r.1.take (r.1.length - env.length)) r.2)
      (s.1.drop (s.1.length - benv.length), bDropSlots b panics (s.1.take (s.1.length - benv.length)) s.2) := by
  rcases h with h | h | ⟨h1, h2⟩
  · exact .inl (stuck_dropSlots h)
  · exact .inr (.inl (ub_dropSlots h))
  · rw [relEnv_length h1, relEnv_length he]
    rcases Q.dropSlots (b := b) horc (relEnv_take h1 (r.1.length - env.length)) (.inr (.inr h2)) with h | h | h
    · exact .inl h
    · exact .inr (.inl h)
    · exact .inr (.inr ⟨relEnv_drop h1 _, h⟩)

theorem evalStmt_rel (st : GStmt) {m : M} {σ : B A} (hs : Sim p o k m σ) {env : Env} {benv : BEnv}
    (he : relEnv p o env benv) : QE p o k (evalStmt orc env m st) (bEvalStmt b panics o benv σ st) := by
  cases st with
  | letPat pat e =>
    simp only [evalStmt]
    split
    · rename_i i q env' m' hr
      obtain ⟨w, benv', σ', h1, h2, h3, h4⟩ := evalRHS_rel (b := b) horc hs he hr
      cases w <;> simp only [SameVal] at h2
      rename_i w
      cases w <;> simp only [SameField, Loc.mk.injEq] at h2
      obtain ⟨rfl, rfl, rfl⟩ := h2
      simp only [bEvalStmt, h1]
      split
      · rename_i x hx
        split
        · rename_i bs hbs
          rcases h4 with h4 | h4
          · refine .inr (.inl ?_)
            obtain ⟨y, hy, hsh⟩ := hs.mem
            by_cases hps : ∃ ps, bPairs pat o = some ps
            · obtain ⟨ps, hps⟩ := hps
              simp only [hps]
              exact ((bBind_rel (o := o) (p := q) _ _ ps σ').2).ub h4
            · exfalso
              apply hps
              have hmem : m'.mem = m.mem := evalRHS_mem hr
              rw [hmem, hy] at hx
              cases hx
              obtain ⟨ps, h, -⟩ := bindPat_rel hsh hbs
              exact ⟨ps, h⟩
          · obtain ⟨y, hy, hsh⟩ := h4.mem
            rw [hy] at hx
            cases hx
            obtain ⟨ps, h, rfl⟩ := bindPat_rel hsh hbs
            simp only [h]
            obtain ⟨h5, h6⟩ := bBind_rel (b := b) (o := o) (p := q) _ _ ps σ'
            rcases h4.keeps h6 with h7 | h7
            · exact .inr (.inl h7)
            · exact .inr (.inr ⟨relEnv_append (relEnv_reverse h5) h3, h7⟩)
        · exact .inl rfl
      · exact .inl rfl
    · exact .inl rfl
  | letVar x ty e =>
    simp only [evalStmt]
    cases hr : evalRHS orc env m e with
    | none => exact .inl rfl
    | some r =>
      obtain ⟨v, env', m'⟩ := r
      obtain ⟨w, benv', σ', h1, h2, h3, h4⟩ := evalRHS_rel (b := b) horc hs he hr
      simp only [bEvalStmt, h1]
      rcases h4 with h4 | h4
      · refine .inr (.inl ?_)
        rw [if_neg (by rw [h4]; simp)]
        exact h4
      · by_cases hm : m'.status = .run
        · rw [if_pos hm, if_pos (h4.run_iff.2 hm)]
          cases ty with
          | none => exact .inr (.inr ⟨⟨rfl, h2, h3⟩, h4⟩)
          | some ty =>
            simp only [coerce]
            split
            · rename_i hc
              split at hc
              · cases hc
                rename_i heq
                cases heq
              · cases hc
                rename_i hty heq
                cases heq
                cases w <;> simp only [SameVal] at h2
                rename_i w
                cases w <;> simp only [SameField] at h2
                obtain ⟨rfl, rfl⟩ := h2
                simp only [bCoerce]
                rcases h4.keeps (keeps_retag b .raw _ _ σ') with h7 | h7
                · exact .inr (.inl h7)
                · exact .inr (.inr ⟨⟨rfl, rfl, h3⟩, h7⟩)
              · cases hc
            · exact .inl rfl
        · rw [if_neg hm, if_neg (fun h => hm (h4.run_iff.1 h))]
          exact .inr (.inr ⟨h3, h4⟩)
  | scope ss =>
    exact (evalLets_rel (b := b) horc ss hs he).scope horc he
  | expr e =>
    simp only [evalStmt]
    cases hr : evalRHS orc env m e with
    | none => exact .inl rfl
    | some r =>
      obtain ⟨v, env', m'⟩ := r
      obtain ⟨w, benv', σ', h1, h2, h3, h4⟩ := evalRHS_rel (b := b) horc hs he hr
      simp only [bEvalStmt, h1]
      rcases Q.dropVal (b := b) horc h2 (.inr h4) with h | h | h
      · exact .inl h
      · exact .inr (.inl h)
      · exact .inr (.inr ⟨h3, h⟩)

theorem evalStmts_rel (ss : List GStmt) {m : M} {σ : B A} (hs : Sim p o k m σ) {env : Env} {benv : BEnv}
    (he : relEnv p o env benv) : QE p o k (evalStmts orc ss env m) (bEvalStmts b panics o ss benv σ) := by
  induction ss generalizing m σ env benv with
  | nil => exact .inr (.inr ⟨he, hs⟩)
  | cons s ss ih =>
    simp only [evalStmts, bEvalStmts]
    rcases evalStmt_rel (b := b) horc s hs he with h | h | ⟨h1, h2⟩
    · rw [if_neg (by rw [h]; simp)]
      exact .inl h
    · rw [if_neg (c := _ = BStatus.run) (by rw [h]; simp)]
      exact .inr (.inl h)
    · by_cases hm : (evalStmt orc env m s).2.status = .run
      · rw [if_pos hm, if_pos (h2.run_iff.2 hm)]
        exact ih h2 h1
      · rw [if_neg hm, if_neg (fun h => hm (h2.run_iff.1 h))]
        exact .inr (.inr ⟨h1, h2⟩)

theorem leavePanic_rel (n : Nat) {r : Env × M} {s : BEnv × B A} (h : QE p o k r s) :
    QOut p o k (leavePanic orc n r.1 r.2) (bLeavePanic b panics n s.1 s.2) := by
  rcases h with h | h | ⟨h1, h2⟩
  · exact .inl (stuck_leavePanic h)
  · exact .inr (.inl (ub_leavePanic h))
  · unfold leavePanic bLeavePanic
    simp only [relEnv_length h1]
    rcases Q.dropSlots (b := b) horc (relEnv_take h1 (r.1.length - n)) (.inr (.inr h2)) with h | h | h
    · exact .inl h
    · exact .inr (.inl h)
    · exact .inr (.inr ⟨relEnv_drop h1 _, h, trivial⟩)

theorem leave_rel (tl : Bool) (n : Nat) {v : Val} {w : BVal} (hv : SameVal p o v w) {r : Env × M} {s : BEnv × B A}
    (h : QE p o k r s) : QOut p o k (leave orc tl n v r.1 r.2) (bLeave b panics tl n w s.1 s.2) := by
  rcases h with h | h | ⟨h1, h2⟩
  · exact .inl (stuck_leave h)
  · exact .inr (.inl (ub_leave h))
  · unfold leave bLeave
    simp only [relEnv_length h1]
    have hd := Q.dropSlots (b := b) horc (relEnv_take h1 (r.1.length - n)) (.inr (.inr h2))
    generalize dropSlots orc (r.1.take (r.1.length - n)) r.2 = m' at hd
    generalize bDropSlots b panics (s.1.take (r.1.length - n)) s.2 = σ' at hd
    rcases hd with h | h | h
    · exact .inl (by simp only [h])
    · exact .inr (.inl (by simp only [h]))
    · have hst := h.status
      cases hm : m'.status <;> rw [hm] at hst <;> simp only [tagged] at hst <;> rw [hst]
      · exact .inr (.inr ⟨relEnv_drop h1 _, h, hv⟩)
      · cases tl
        · rcases Q.dropVal (b := b) horc hv (.inr (.inr h)) with h' | h' | h'
          · exact .inl h'
          · exact .inr (.inl h')
          · exact .inr (.inr ⟨relEnv_drop h1 _, h', trivial⟩)
        · exact .inr (.inr ⟨relEnv_drop h1 _, h, trivial⟩)
      · exact .inr (.inr ⟨relEnv_drop h1 _, h, trivial⟩)
      · exact .inl hm

theorem evalBlock_rel (tl : Bool) (n : Nat) (ss : List GStmt) (e : RHS) {m : M} {σ : B A} (hs : Sim p o k m σ) {env : Env}
    {benv : BEnv} (he : relEnv p o env benv) :
    QOut p o k (evalBlock orc tl n ss e env m) (bEvalBlock b panics tl o n ss e benv σ) := by
  unfold evalBlock bEvalBlock
  have h := evalStmts_rel (b := b) horc ss hs he
  simp only
  generalize evalStmts orc ss env m = r at h
  generalize bEvalStmts b panics o ss benv σ = s at h
  by_cases hm : r.2.status = .run
  · rw [if_pos hm]
    rcases h with h | h | ⟨h1, h2⟩
    · rw [hm] at h; cases h
    · rw [if_neg (by rw [h]; simp)]
      exact .inr (.inl (ub_leavePanic h))
    · rw [if_pos (h2.run_iff.2 hm)]
      cases hr : evalRHS orc r.1 r.2 e with
      | none => exact .inl rfl
      | some r' =>
        obtain ⟨v, env', m'⟩ := r'
        obtain ⟨w, benv', σ', h3, h4, h5, h6⟩ := evalRHS_rel (b := b) horc h2 h1 hr
        simp only [h3]
        rcases h6 with h6 | h6
        · rw [if_neg (c := σ'.status = .run) (by rw [h6]; simp)]
          exact .inr (.inl (ub_leavePanic h6))
        · by_cases hm' : m'.status = .run
          · rw [if_pos hm', if_pos (h6.run_iff.2 hm')]
            exact leave_rel (r := (env', m')) (s := (benv', σ')) horc tl n h4 (.inr (.inr ⟨h5, h6⟩))
          · rw [if_neg hm', if_neg (fun h => hm' (h6.run_iff.1 h))]
            exact leavePanic_rel (r := (env', m')) (s := (benv', σ')) horc n (.inr (.inr ⟨h5, h6⟩))
  · rw [if_neg hm]
    by_cases hb : s.2.status = .run
    · rcases h with h | h | ⟨h1, h2⟩
      · exact .inl (stuck_leavePanic h)
      · rw [hb] at h; cases h
      · exact absurd (h2.run_iff.1 hb) hm
    · rw [if_neg hb]
      exact leavePanic_rel horc n h

/-- Results of functions. -/
def QR (p : Nat) (o : Shape) (k : Nat) (r : Option Val × M) (s : Option BVal × B A) : Prop :=
  r.2.status = .stuck ∨ s.2.status = .ub ∨ (SameResult p o r.1 s.1 ∧ Sim p o k r.2 s.2)

omit horc in
theorem QOut.toQR {r : Out} {s : BOut A} (h : QOut p o k r s) : QR p o k (r.val, r.m) (s.val, s.σ) := by
  rcases h with h | h | ⟨_, h1, h2⟩
  · exact .inl h
  · exact .inr (.inl h)
  · exact .inr (.inr ⟨h2, h1⟩)

theorem evalBody_rel (tl : Bool) (body : GBody) {m : M} {σ : B A} (hs : Sim p o k m σ) {env : Env}
    {benv : BEnv} (he : relEnv p o env benv) :
    QR p o k (evalBody orc tl body env m) (bEvalBody b panics tl o body benv σ) := by
  obtain ⟨ss, tail⟩ := body
  cases tail with
  | expr e => exact (evalBlock_rel (b := b) horc tl 0 ss e hs he).toQR
  | match_ scrut arms =>
    unfold evalBody bEvalBody
    have h := evalStmts_rel (b := b) horc ss hs he
    simp only
    generalize evalStmts orc ss env m = r at h
    generalize bEvalStmts b panics o ss benv σ = s at h
    by_cases hm : r.2.status = .run
    · rw [if_pos hm]
      rcases h with h | h | ⟨h1, h2⟩
      · rw [hm] at h; cases h
      · rw [if_neg (by rw [h]; simp)]
        exact .inr (.inl (ub_leavePanic h))
      · rw [if_pos (h2.run_iff.2 hm)]
        split
        · rename_i i q env' m' hr
          obtain ⟨w, benv', σ', h3, h4, h5, h6⟩ := evalRHS_rel (b := b) horc h2 h1 hr
          cases w <;> simp only [SameVal] at h4
          rename_i w
          cases w <;> simp only [SameField, Loc.mk.injEq] at h4
          obtain ⟨rfl, rfl, rfl⟩ := h4
          rename_i t
          simp only [h3]
          have h7 : (if b.inTag = true then σ'.access b false none t else σ').status = .ub ∨
              Sim q o k m' (if b.inTag = true then σ'.access b false none t else σ') := by
            rcases h6 with h6 | h6
            · refine .inl ?_
              split
              · exact (keeps_access b false none t σ').ub h6
              · exact h6
            · split
              · exact h6.keeps (keeps_access b false none t σ')
              · exact .inr h6
          generalize (if b.inTag = true then σ'.access b false none t else σ') = σ'' at h7
          obtain ⟨y, hy, hsh⟩ := h2.mem
          rw [evalRHS_mem hr, hy]
          simp only [hsh.variant]
          cases hf : arms.find? (fun a => a.pat.variant == o.variant) with
          | none => exact .inl rfl
          | some arm =>
            simp only
            cases hb : bindPat arm.pat i q y with
            | none => exact .inl rfl
            | some bs =>
              obtain ⟨ps, hps, rfl⟩ := bindPat_rel hsh hb
              simp only [hps]
              obtain ⟨h8, h9⟩ := bBind_rel (b := b) (o := o) (p := q) i t ps σ''
              generalize bBind b i t ps σ'' = bs at h8 h9
              have h10 : bs.2.status = .ub ∨ Sim q o k m' bs.2 := by
                rcases h7 with h7 | h7
                · exact .inl (h9.ub h7)
                · exact h7.keeps h9
              rw [relEnv_length h5]
              rcases h10 with h10 | h10
              · refine .inr (.inl ?_)
                have hub : (bEvalBlock b panics tl o env'.length arm.stmts arm.tail (bs.1.reverse ++ benv') bs.2).σ.status
                    = .ub := ub_block h10
                generalize bEvalBlock b panics tl o _ _ _ _ _ = out at hub
                split
                · exact ub_leave hub
                · exact ub_leavePanic hub
              · have hq := evalBlock_rel (b := b) horc tl env'.length arm.stmts arm.tail h10
                  (relEnv_append (relEnv_reverse h8) h5)
                generalize evalBlock orc tl _ _ _ _ _ = out at hq
                generalize bEvalBlock b panics tl o _ _ _ _ _ = bout at hq
                rcases hq with hq | hq | ⟨hq1, hq2, hq3⟩
                · refine .inl ?_
                  split
                  · exact stuck_leave hq
                  · exact stuck_leavePanic hq
                · refine .inr (.inl ?_)
                  split
                  · exact ub_leave hq
                  · exact ub_leavePanic hq
                · cases hv : out.val <;> cases hw : bout.val <;> rw [hv, hw] at hq3 <;> simp only [SameResult] at hq3
                  · exact (leavePanic_rel (r := (out.env, out.m)) (s := (bout.env, bout.σ)) horc 0
                      (.inr (.inr ⟨hq1, hq2⟩))).toQR
                  · exact (leave_rel (r := (out.env, out.m)) (s := (bout.env, bout.σ)) horc tl 0 hq3
                      (.inr (.inr ⟨hq1, hq2⟩))).toQR
        · exact .inl rfl
    · rw [if_neg hm]
      by_cases hb : s.2.status = .run
      · rcases h with h | h | ⟨h1, h2⟩
        · exact .inl (stuck_leavePanic h)
        · rw [hb] at h; cases h
        · exact absurd (h2.run_iff.1 hb) hm
      · rw [if_neg hb]
        exact (leavePanic_rel horc 0 h).toQR

theorem callFn_rel (tl : Bool) (f : GFn) {m : M} {σ : B A} (hs : Sim p o k m σ) {self : Val} (hself : IsRefTo p self)
    {args : List Val} (hargs : ∀ a ∈ args, ∃ x, a = .obj x ∧ HasShape o x) (t0 : Nat) :
    QR p o k (callFn orc tl f self args m) (bCallFn b panics tl f o t0 σ) := by
  unfold callFn
  split
  · rename_i hc
    obtain ⟨h1, h2, -⟩ := hc
    have hsv : ∃ q w, bSelf f.recv σ.next = some (q, w) ∧ SameVal p o self w := by
      unfold Val.fitsSig at h1
      split at h1
      · rename_i hr
        simp only [IsRefTo] at hself
        subst hself
        simp only [beq_iff_eq] at h1
        subst h1
        rw [hr]
        exact ⟨_, _, rfl, rfl, rfl⟩
      · rename_i hr
        simp only [IsRefTo] at hself
        subst hself
        simp only [beq_iff_eq] at h1
        subst h1
        rw [hr]
        exact ⟨_, _, rfl, rfl, rfl⟩
      all_goals first | exact absurd hself id | exact absurd h1 (by simp)
    obtain ⟨q, w, hw, hsw⟩ := hsv
    unfold bCallFn
    simp only [hw]
    have hk : Keeps σ { (σ.retag b q none t0).2 with prot := (σ.retag b q none t0).1 :: σ.prot } :=
      keeps_retag b q none t0 σ
    generalize { (σ.retag b q none t0).2 with prot := (σ.retag b q none t0).1 :: σ.prot } = σ1 at hk
    have henv : relEnv p o ((f.params.zipWith (fun p v => (p.1, some v)) args).reverse ++ [("self", some self)])
        ((f.params.map (fun p => (p.1, some (.obj o.labels.length)))).reverse ++ [("self", some w)]) := by
      refine relEnv_append (relEnv_reverse ?_) ⟨rfl, hsw, trivial⟩
      generalize f.params = ps at h2
      induction ps generalizing args with
      | nil => cases args <;> trivial
      | cons y ps ih =>
        cases args with
        | nil => cases h2
        | cons a args =>
          refine ⟨rfl, ?_, ih (fun a h => hargs a (List.mem_cons_of_mem _ h)) (by simpa using h2)⟩
          obtain ⟨x, rfl, hx⟩ := hargs a List.mem_cons_self
          refine ⟨?_, hx⟩
          rw [← hx.labels, List.length_map]
    have hq : QR p o k
        (evalBody orc tl f.body
          ((f.params.zipWith (fun p v => (p.1, some v)) args).reverse ++ [("self", some self)]) m)
        (bEvalBody b panics tl o f.body
          ((f.params.map (fun p => (p.1, some (.obj o.labels.length)))).reverse ++ [("self", some w)]) σ1) := by
      rcases hs.keeps hk with h | h
      · exact .inr (.inl (ub_body h))
      · exact evalBody_rel horc tl f.body h henv
    generalize evalBody orc tl f.body _ m = r at hq
    generalize bEvalBody b panics tl o f.body _ σ1 = s at hq
    rcases hq with hq | hq | ⟨hq1, hq2⟩
    · refine .inl ?_
      split
      · split
        · exact hq
        · rfl
      · exact hq
    · exact .inr (.inl ((keeps_release _ _).ub hq))
    · rcases hq2.keeps (keeps_release (σ.retag b q none t0).1 s.2) with hq3 | hq3
      · exact .inr (.inl hq3)
      have hq' : Sim p o k r.2 { s.2.release (σ.retag b q none t0).1 with prot := σ.prot } :=
        ⟨hq3.mem, hq3.dtors, hq3.status⟩
      split
      · split
        · exact .inr (.inr ⟨hq1, hq'⟩)
        · exact .inl rfl
      · exact .inr (.inr ⟨hq1, hq'⟩)
  · exact .inl rfl

end
end Erase
end PinProject
