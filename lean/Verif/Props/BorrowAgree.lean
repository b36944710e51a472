import Verif.Props.Erasure
import Verif.Props.Borrow
import Verif.Props.ProjectReplace
/-!
# C58, continued: the aliasing rules are checked on the executions C20–C24 and C32 are about
-/
namespace PinProject
open Spec

/-- **C58** The machine that checks the aliasing rules runs what the machine of C10–C32 runs, for every function of the
generated language: as long as the function compiles and no undefined behaviour is found, both call the same number of
destructors, end in the same way and return the same value. -/
theorem C58_same_machine (f : GFn) (b : Byte) (tl : Bool) (o : Shape) (p k : Nat) (orc : Oracle) (panics : BOracle)
    (horc : SameOracle orc panics k) (self : Val) (hself : IsRefTo p self)
    (args : List Val) (hargs : ∀ a ∈ args, ∃ x, a = .obj x ∧ HasShape o x)
    (m : M) (x : Obj) (hp : m.mem p = some x) (hx : HasShape o x) {A : AliasModel} (t0 : Nat) (σ : B A)
    (hst : σ.status = tagged m.status) (hk : σ.dtors = k + dtorCount m.trace)
    (h1 : (callFn orc tl f self args m).2.status ≠ .stuck) (h2 : (bCallFn b panics tl f o t0 σ).2.status ≠ .ub) :
    SameCall p o k (callFn orc tl f self args m) (bCallFn b panics tl f o t0 σ) := by
  rcases Erase.callFn_rel (b := b) horc tl f (m := m) (σ := σ) ⟨⟨x, hp, hx⟩, hk, hst⟩ hself hargs t0 with h | h | ⟨h, h'⟩
  · exact absurd h h1
  · exact absurd h h2
  · exact ⟨h'.status, h'.dtors, h⟩

theorem dtorCount_write (m : M) (p : Nat) (o : Obj) : dtorCount (m.write p o).trace = dtorCount m.trace := by
  unfold M.write
  split <;> simp [dtorCount_append, dtorCount]

theorem status_write (m : M) (p : Nat) (o : Obj) : (m.write p o).status = m.status := by
  unfold M.write
  split <;> rfl

/-- Only the memory, and the event that says so, depend on the replacement. -/
theorem replaceOut_new (orc : Oracle) (p : Nat) (fs : Fields) (o new new' : Obj) (name : String) (m : M) :
    (replaceOut orc p fs o new name m).1 = (replaceOut orc p fs o new' name m).1 ∧
    (replaceOut orc p fs o new name m).2.status = (replaceOut orc p fs o new' name m).2.status ∧
    dtorCount (replaceOut orc p fs o new name m).2.trace = dtorCount (replaceOut orc p fs o new' name m).2.trace := by
  unfold replaceOut
  simp only
  split <;> simp [dtorCount_write, status_write]

/-- **C58** `project_replace`: the machine that checks the aliasing rules agrees with C20–C22 about when the call panics or
aborts, about the number of destructors it calls, and about what it returns, whatever the replacement is. -/
theorem C58_replace_agrees (item : Item) (E : Expansion) (h : parseDerive item = .ok E) (hwf : ItemWF item)
    (fn : GFn) (hfn : method E "project_replace" = some fn)
    (x : Obj) (fs : Fields) (hx : IsValue item x fs) (hfree : NamesFree fs) (new : Obj)
    (p : Nat) (m : M) (hp : m.mem p = some x) (hm : m.status = .run)
    (b : Byte) (hb : OneField b fs) {A : AliasModel} (hA : AliasRules A) (t0 : Nat) (σ : B A) (hσ : Callable b true t0 σ) (tl : Bool)
    (k : Nat) (hk : σ.dtors = k + dtorCount m.trace) (orc : Oracle) (panics : BOracle) (horc : SameOracle orc panics k) :
    SameCall p ⟨x.variant, labels fs.list⟩ k (callFn orc tl fn (.fv (.pinRef true ⟨p, none⟩)) [.obj new] m)
      (bCallFn b panics tl fn ⟨x.variant, labels fs.list⟩ t0 σ) := by
  have hsh : HasShape ⟨x.variant, labels fs.list⟩ x := ⟨rfl, hx.2⟩
  have hb' := C58_project_replace item E h hwf fn hfn x.variant fs hx.1 hfree b hb hA t0 σ hσ panics tl
  have key := C58_same_machine fn b tl ⟨x.variant, labels fs.list⟩ p k orc panics horc (.fv (.pinRef true ⟨p, none⟩)) rfl
    [.obj x] (by simp [hsh]) m x hp hsh t0 σ (by rw [hσ.run, hm]; rfl) hk
    (C22_never_stuck item E h hwf fn hfn x fs hx hfree p x m hp hm orc tl)
    (by rcases hb'.1 with h | h | h <;> rw [h] <;> simp)
  obtain ⟨n1, a1, e1, c1⟩ := call_replace item E h hwf fn hfn x fs hx hfree p x m hp hm orc tl
  obtain ⟨n2, a2, e2, c2⟩ := call_replace item E h hwf fn hfn x fs hx hfree p new m hp hm orc tl
  rw [e1] at e2
  cases e2
  obtain ⟨r1, r2, r3⟩ := replaceOut_new orc p fs x new x n1 m
  rw [c1] at key
  rw [c2]
  exact ⟨by rw [r2]; exact key.status, by rw [r3]; exact key.dtors, by rw [r1]; exact key.value⟩

/-- **C58** the generated `Drop::drop`, likewise: it calls one destructor, the user's. -/
theorem C58_drop_agrees (item : Item) (E : Expansion) (h : parseDerive item = .ok E) (fn : GFn) (hfn : dropFn E = some fn)
    (x : Obj) (o : Shape) (hx : HasShape o x) (p : Nat) (m : M) (hp : m.mem p = some x) (hm : m.status = .run)
    (b : Byte) {A : AliasModel} (hA : AliasRules A) (t0 : Nat) (σ : B A) (hσ : Callable b true t0 σ) (tl : Bool)
    (k : Nat) (hk : σ.dtors = k + dtorCount m.trace) (orc : Oracle) (panics : BOracle) (horc : SameOracle orc panics k) :
    SameCall p o k (callFn orc tl fn (.fv (.ref true ⟨p, none⟩)) [] m) (bCallFn b panics tl fn o t0 σ) := by
  have hb := C58_drop item E h fn hfn o b hA t0 σ hσ panics tl
  refine C58_same_machine fn b tl o p k orc panics horc (.fv (.ref true ⟨p, none⟩)) rfl
    [] (by simp) m x hp hx t0 σ (by rw [hσ.run, hm]; rfl) hk ?_
    (by rcases hb.1 with h | h | h <;> rw [h] <;> simp)
  rcases dropFn_cases item E h with hd | hd
  · rw [hd] at hfn; cases hfn
  · rw [hd] at hfn
    obtain rfl := Option.some.inj hfn
    rw [call_genDrop orc tl p m hm]
    simp only [M.runDtor, hm]
    split <;> simp

/-! ## The hypotheses are met -/

/-- The third destructor panics. It is that of the second pinned field if another destructor was called before .. -/
example : ∃ E fn, parseDerive (.struct_ demoReplace) = .ok E ∧ method E "project_replace" = some fn ∧
    (bCallFn demoByte (fun n => n == 2) false fn ⟨none, ["a", "b", "c"]⟩ 1 { demoB with dtors := 1 }).2.status = .unwind ∧
    (bCallFn demoByte (fun n => n == 2) false fn ⟨none, ["a", "b", "c"]⟩ 1 { demoB with dtors := 1 }).2.dtors = 4 ∧
    (callFn (fun tr _ => dtorCount tr == 2) false fn (.fv (.pinRef true ⟨0, none⟩)) [.obj ⟨none, []⟩]
      ⟨fun _ => some ⟨none, [("a", 0), ("b", 1), ("c", 2)]⟩, [.drop 9 none], .run⟩).2.status = .unwind :=
  ⟨_, _, rfl, rfl, rfl, rfl, rfl⟩

/-- .. and that of no one otherwise. -/
example : ∃ E fn, parseDerive (.struct_ demoReplace) = .ok E ∧ method E "project_replace" = some fn ∧
    (bCallFn demoByte (fun n => n == 2) false fn ⟨none, ["a", "b", "c"]⟩ 1 demoB).1 =
      some (.adt [("a", .phantom), ("b", .own), ("c", .phantom)]) ∧
    (bCallFn demoByte (fun n => n == 2) false fn ⟨none, ["a", "b", "c"]⟩ 1 demoB).2.dtors = 2 :=
  ⟨_, _, rfl, rfl, rfl, rfl⟩

/-- Oracles that agree. -/
example : SameOracle (fun tr _ => dtorCount tr == 2) (fun n => n == 2) 0 := fun tr e => by simp

end PinProject
