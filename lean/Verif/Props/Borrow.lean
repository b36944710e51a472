import Verif.Props.BorrowTree
import Verif.Props.BorrowMiri
import Verif.Props.BorrowChain
/-!
# C58: generated functions obey the aliasing rules

`BorrowChain.lean` has the proofs for rules that are stricter than all others. `BorrowLift.lean`, `BorrowStacked.lean`,
`BorrowMiri.lean` and `BorrowTree.lean` show that Stacked Borrows and Tree Borrows allow what these rules allow.
-/
namespace PinProject
open Spec

namespace Lift

/-- What is needed of aliasing rules: they allow what the strictest rules allow, starting from any state in which the caller's
reference is usable. -/
structure Allows (A : AliasModel) (R : List Nat → Nat → BStack → A.St → Prop) : Prop where
  simulates : Simulates A R
  starts : ∀ {prot n m t0 s s'}, A.valid n s → A.access prot m t0 s = some s' → t0 < n ∧ R prot n [⟨permOf m, t0⟩] s
  valid : ∀ {prot n c s}, R prot n c s → A.valid n s

theorem allows {A : AliasModel} (hA : AliasRules A) : ∃ R, Allows A R := by
  cases hA with
  | stacked => exact ⟨StackR, stacked_simulates, stacked_starts, fun h => h.2⟩
  | miri exempt => exact ⟨MiriR exempt, miri_simulates exempt, miri_starts exempt, fun h => h.2⟩
  | tree how => exact ⟨TreeR, tree_simulates how, tree_starts how, fun h => h.1⟩

theorem allowed {A : AliasModel} {b : Byte} {w : Bool} {t : Nat} {τ : B A} (hr : τ.status = .run)
    (h : (τ.access b w none t).status = .run) : ∃ s, A.access τ.prot w t τ.mem = some s := by
  unfold B.access at h
  rw [show (τ.live && b.within none) = true by simp [B.live, hr, Byte.within]] at h
  cases hc : A.access τ.prot w t τ.mem with
  | some s => exact ⟨s, rfl⟩
  | none => simp [hc, B.set] at h

variable {A : AliasModel} {R : List Nat → Nat → BStack → A.St → Prop}

/-- The state of the strict machine that belongs to the state before the call. -/
def start (m : Bool) (t0 : Nat) (τ : B A) : B chain :=
  { mem := [⟨permOf m, t0⟩], next := τ.next, prot := τ.prot, dtors := τ.dtors, status := τ.status }

theorem start_rel (hR : Allows A R) {b : Byte} {m : Bool} {t0 : Nat} {τ : B A} (h : Callable b m t0 τ) :
    Callable b m t0 (start m t0 τ) ∧ Rel R τ.prot (start m t0 τ) τ := by
  obtain ⟨s, hs⟩ := allowed h.run h.usable
  obtain ⟨h1, h2⟩ := hR.starts h.valid hs
  refine ⟨⟨h.run, ?_, h.prot, ?_⟩, rfl, rfl, rfl, rfl, rfl, fun _ => h2⟩
  · intro i hi
    rw [show i = ⟨permOf m, t0⟩ by simpa [start] using hi]
    exact h1
  · have hl : ((start m t0 τ).live && b.within none) = true := by simp [B.live, start, h.run, Byte.within]
    unfold B.access
    rw [hl]
    cases m <;> simp [start, permOf, BStack.write, BStack.strictRead, B.set, h.run]

/-- The caller's reference is usable again. -/
theorem callable_lift (hR : Allows A R) {b : Byte} {m : Bool} {t0 : Nat} {P : List Nat} {σ : B chain} {τ : B A}
    (h : Rel R P σ τ) (hc : Callable b m t0 σ) : Callable b m t0 τ := by
  have hs : τ.status = .run := h.status.trans hc.run
  refine ⟨hs, by rw [h.next]; exact hR.valid (h.mem (by simp [B.live, hc.run])), ?_, ?_⟩
  · intro t ht
    rw [h.next]
    exact hc.prot t (by rw [h.prot, ← h.prot']; exact ht)
  · have := ((h.w).access hR.simulates b m none t0).rel (by rw [hc.usable]; simp)
    exact this.status.trans hc.usable

theorem projection (hA : AliasRules A) (b : Byte) (panics : BOracle) (tl : Bool) (fn : GFn) (o : Shape) {fs : Fields}
    (m : Bool) (p t0 : Nat) {τ : B A} (hτ : Callable b m t0 τ)
    (h : ∀ σ : B chain, Callable b m t0 σ → ProjectionOk b m fs p t0 (bCallFn b panics tl fn o t0 σ)) :
    ProjectionOk b m fs p t0 (bCallFn b panics tl fn o t0 τ) := by
  obtain ⟨R, hR⟩ := allows hA
  obtain ⟨h1, h2⟩ := start_rel hR hτ
  obtain ⟨fields, σ', h3, h4, h5, h6⟩ := h _ h1
  have key := Lift.call hR.simulates b panics tl fn o t0 h2
  rw [h3] at key
  have hrun : σ'.status = .run := (h5 [] (by simp)).1
  rcases key with hu | ⟨e, hrel⟩
  · simp only at hu
    rw [hrun] at hu
    cases hu
  · refine ⟨fields, (bCallFn b panics tl fn o t0 τ).2, Prod.ext e.symm rfl, h4, ?_, h6⟩
    intro us hus
    obtain ⟨h6, h7⟩ := h5 us hus
    have := (Lift.uses hR.simulates b us hrel.w).rel (by rw [h6]; simp)
    exact ⟨this.status.trans h6, callable_lift hR this h7⟩

theorem mutation (hA : AliasRules A) (b : Byte) (panics : BOracle) (tl : Bool) (fn : GFn) (o : Shape) (t0 : Nat) {τ : B A}
    (hτ : Callable b true t0 τ)
    (h : ∀ σ : B chain, Callable b true t0 σ → MutationOk b t0 (bCallFn b panics tl fn o t0 σ)) :
    MutationOk b t0 (bCallFn b panics tl fn o t0 τ) := by
  obtain ⟨R, hR⟩ := allows hA
  obtain ⟨h1, h2⟩ := start_rel hR hτ
  obtain ⟨h3, h4, h5⟩ := h _ h1
  have hne : (bCallFn b panics tl fn o t0 (start true t0 τ)).2.status ≠ .ub := by
    rcases h3 with h | h | h <;> rw [h] <;> simp
  rcases Lift.call hR.simulates b panics tl fn o t0 h2 with hu | ⟨-, hrel⟩
  · exact absurd hu hne
  · have hs := hrel.status
    have ha := ((hrel.w).access hR.simulates b true none t0).rel (by rw [h4]; exact hne)
    refine ⟨by rw [hs]; exact h3, ?_, ?_⟩
    · rw [ha.status, h4, hs]
    · intro hr
      exact callable_lift hR hrel (h5 (hs ▸ hr))

end Lift

/-! ## C58 -/

/-- **C58** `project` obeys the aliasing rules, for every byte of the value and all aliasing rules, and every state in which the caller's
reference `t0` is usable: the call is not undefined behaviour; it returns the references C10 describes; they can be used
for reading and writing any number of times and in any order; and then the caller can use its own reference, and call a
method with it, again. -/
theorem C58_project (item : Item) (E : Expansion) (h : parseDerive item = .ok E) (hwf : ItemWF item)
    (fn : GFn) (hfn : method E "project" = some fn)
    (variant : Option String) (fs : Fields) (hv : HasVariant item variant fs) (b : Byte) (hb : OneField b fs)
    {A : AliasModel} (hA : AliasRules A) (t0 : Nat) (σ : B A) (hσ : Callable b true t0 σ) (panics : BOracle) (tl : Bool) (p : Nat) :
    ∃ fields σ', bCallFn b panics tl fn ⟨variant, labels fs.list⟩ t0 σ = (some (.adt fields), σ') ∧
      fields.map (fun v => (v.1, untagged p v.2)) = (Spec.fieldRefs true p fs).map (fun v => (v.1, some v.2)) ∧
      ∀ us, (∀ u ∈ us, UseAllowed fields u) →
        (useAll b us σ').status = .run ∧ Callable b true t0 (useAll b us σ') :=
  let ⟨fields, σ', h1, h2, h3, _⟩ := Lift.projection hA b panics tl fn ⟨variant, labels fs.list⟩ true p t0 hσ
    (fun σ hσ => borrow_projection item E h hwf true fn hfn variant fs hv b hb p t0 σ hσ panics tl)
  ⟨fields, σ', h1, h2, h3⟩

/-- **C58** `project_ref`, likewise; it only needs, and only gives, permission to read. -/
theorem C58_project_ref (item : Item) (E : Expansion) (h : parseDerive item = .ok E) (hwf : ItemWF item)
    (fn : GFn) (hfn : method E "project_ref" = some fn)
    (variant : Option String) (fs : Fields) (hv : HasVariant item variant fs) (b : Byte) (hb : OneField b fs)
    {A : AliasModel} (hA : AliasRules A) (t0 : Nat) (σ : B A) (hσ : Callable b false t0 σ) (panics : BOracle) (tl : Bool) (p : Nat) :
    ∃ fields σ', bCallFn b panics tl fn ⟨variant, labels fs.list⟩ t0 σ = (some (.adt fields), σ') ∧
      fields.map (fun v => (v.1, untagged p v.2)) = (Spec.fieldRefs false p fs).map (fun v => (v.1, some v.2)) ∧
      ∀ us, (∀ u ∈ us, UseAllowed fields u) →
        (useAll b us σ').status = .run ∧ Callable b false t0 (useAll b us σ') :=
  let ⟨fields, σ', h1, h2, h3, _⟩ := Lift.projection hA b panics tl fn ⟨variant, labels fs.list⟩ false p t0 hσ
    (fun σ hσ => borrow_projection item E h hwf false fn hfn variant fs hv b hb p t0 σ hσ panics tl)
  ⟨fields, σ', h1, h2, h3⟩

/-- **C58** `project_replace` obeys the aliasing rules whichever destructors panic: it ends normally, with a panic, or with
an abort, never with undefined behaviour; and the caller can still use its reference. -/
theorem C58_project_replace (item : Item) (E : Expansion) (h : parseDerive item = .ok E) (hwf : ItemWF item)
    (fn : GFn) (hfn : method E "project_replace" = some fn)
    (variant : Option String) (fs : Fields) (hv : HasVariant item variant fs) (hfree : NamesFree fs)
    (b : Byte) (hb : OneField b fs)
    {A : AliasModel} (hA : AliasRules A) (t0 : Nat) (σ : B A) (hσ : Callable b true t0 σ) (panics : BOracle) (tl : Bool) :
    let σ' := (bCallFn b panics tl fn ⟨variant, labels fs.list⟩ t0 σ).2
    (σ'.status = .run ∨ σ'.status = .unwind ∨ σ'.status = .abort) ∧
    (σ'.access b true none t0).status = σ'.status ∧ (σ'.status = .run → Callable b true t0 σ') :=
  Lift.mutation hA b panics tl fn ⟨variant, labels fs.list⟩ t0 hσ
    (fun σ hσ => borrow_replace item E h hwf fn hfn variant fs hv hfree b hb t0 σ hσ panics tl)

/-- **C58** the generated `Drop::drop`, which calls the user's code with a pinned reference, likewise; afterwards the fields
can be destroyed through the reference `Drop::drop` was called with. -/
theorem C58_drop (item : Item) (E : Expansion) (h : parseDerive item = .ok E) (fn : GFn) (hfn : dropFn E = some fn)
    (o : Shape) (b : Byte) {A : AliasModel} (hA : AliasRules A) (t0 : Nat) (σ : B A) (hσ : Callable b true t0 σ) (panics : BOracle) (tl : Bool) :
    let σ' := (bCallFn b panics tl fn o t0 σ).2
    (σ'.status = .run ∨ σ'.status = .unwind ∨ σ'.status = .abort) ∧
    (σ'.access b true none t0).status = σ'.status ∧ (σ'.status = .run → Callable b true t0 σ') := by
  rcases dropFn_cases item E h with hd | hd
  · rw [hd] at hfn
    cases hfn
  · rw [hd] at hfn
    obtain rfl := Option.some.inj hfn
    exact Lift.mutation hA b panics tl genDropFn o t0 hσ (fun σ hσ => bCall_drop b panics tl o t0 σ hσ)

/-! ## The hypotheses are met -/

/-- A byte of the field `a`. -/
def demoByte : Byte := ⟨fun f => f == "a", false⟩

/-- The caller has a mutable reference, made from another one. -/
def demoB : B stacked := { mem := [⟨.unique, 1⟩, ⟨.unique, 0⟩], next := 2 }

theorem demoB_callable (m : Bool) : Callable demoByte m 1 demoB :=
  ⟨rfl, by simp [demoB], by simp [demoB], by cases m <;> rfl⟩

theorem demoByte_one : OneField demoByte demoReplace.fields := by
  intro x _ y _ h1 h2
  simp [demoByte] at h1 h2
  rw [h1, h2]

/-- The destructor of `a` panics: `project_replace` unwinds, and writing with the caller's reference is still fine. -/
example : ∃ E fn, parseDerive (.struct_ demoReplace) = .ok E ∧ method E "project_replace" = some fn ∧
    (bCallFn demoByte (fun n => n == 0) false fn ⟨none, ["a", "b", "c"]⟩ 1 demoB).2.status = .unwind ∧
    ((bCallFn demoByte (fun n => n == 0) false fn ⟨none, ["a", "b", "c"]⟩ 1 demoB).2.access demoByte true none 1).status
      = .unwind :=
  ⟨_, _, rfl, rfl, rfl, rfl⟩

/-- `project`: the references to the fields, with their tags. -/
example : ∃ E fn, parseDerive (.struct_ demoReplace) = .ok E ∧ method E "project" = some fn ∧
    (bCallFn demoByte (fun _ => false) false fn ⟨none, ["a", "b", "c"]⟩ 1 demoB).1 =
      some (.adt [("a", .pinRef true (some "a") 7), ("b", .ref true (some "b") 5), ("c", .pinRef true (some "c") 8)]) :=
  ⟨_, _, rfl, rfl, rfl⟩

/-- The machine finds violations. If a byte were in two fields, making the reference to one would invalidate the other .. -/
example : ∃ E fn, parseDerive (.struct_ demoReplace) = .ok E ∧ method E "project" = some fn ∧
    (bCallFn ⟨fun f => f == "a" || f == "b", false⟩ (fun _ => false) false fn ⟨none, ["a", "b", "c"]⟩ 1 demoB).2.status =
      .ub :=
  ⟨_, _, rfl, rfl, rfl⟩

/-- .. and if `project_replace` looked at the fields through `self` instead of `&mut *__self_ptr`, writing the replacement
would be undefined behaviour: `__self_ptr` is invalid by then. -/
example : ∃ E fn, parseDerive (.struct_ demoReplace) = .ok E ∧ method E "project_replace" = some fn ∧
    (bCallFn demoByte (fun _ => false) false
      { fn with body := { fn.body with stmts := fn.body.stmts.map (fun s => match s with
        | .letPat pat (.reborrow _) => .letPat pat (.getUncheckedMut "self")
        | s => s) } } ⟨none, ["a", "b", "c"]⟩ 1 demoB).2.status = .ub :=
  ⟨_, _, rfl, rfl, rfl⟩

/-- Using the receiver while a projection is still in use invalidates the projection. -/
example : ∃ E fn fields σ', parseDerive (.struct_ demoReplace) = .ok E ∧ method E "project" = some fn ∧
    bCallFn demoByte (fun _ => false) false fn ⟨none, ["a", "b", "c"]⟩ 1 demoB = (some (.adt fields), σ') ∧
    (useAll demoByte [⟨.pinRef true (some "a") 7, true⟩] (σ'.access demoByte true none 1)).status = .ub :=
  ⟨_, _, _, _, rfl, rfl, rfl, rfl⟩

/-! Stacked Borrows as in Miri. -/

/-- A variable, and a mutable reference to it. -/
def demoMiri (exempt : BPerm → Nat → Bool) : B (miri exempt) := { mem := [⟨.unique, 1⟩, ⟨.unique, 0⟩], next := 2 }

theorem demoMiri_callable (exempt : BPerm → Nat → Bool) (m : Bool) : Callable demoByte m 1 (demoMiri exempt) := by
  refine ⟨rfl, ⟨?_, by simp [demoMiri]⟩, by simp [demoMiri], by cases m <;> rfl⟩
  intro i hi
  simp only [demoMiri, List.mem_cons, List.not_mem_nil, or_false] at hi
  rcases hi with rfl | rfl
  · show 1 < 2; decide
  · show 0 < 2; decide

/-- The pointers of a value whose type is not `Unpin`: references are treated like raw pointers. -/
example : ∃ E fn fields σ', parseDerive (.struct_ demoReplace) = .ok E ∧ method E "project" = some fn ∧
    bCallFn demoByte (fun _ => false) false fn ⟨none, ["a", "b", "c"]⟩ 1 (demoMiri (fun _ _ => true)) =
      (some (.adt fields), σ') ∧ σ'.mem.map MItem.tag = [7, 4, 3, 2, 1, 0] ∧
    (useAll demoByte [⟨.pinRef true (some "a") 7, true⟩] (σ'.access demoByte true none 2)).status = .run :=
  ⟨_, _, _, _, rfl, rfl, rfl, rfl, rfl⟩

/-- If `project_replace` looked at the fields through `self`, this would be undefined behaviour for a type that is `Unpin`,
and only for such a type: a reason to test with one. -/
example : ∃ E fn, parseDerive (.struct_ demoReplace) = .ok E ∧ method E "project_replace" = some fn ∧
    let wrong := { fn with body := { fn.body with stmts := fn.body.stmts.map (fun s => match s with
        | .letPat pat (.reborrow _) => .letPat pat (.getUncheckedMut "self")
        | s => s) } }
    (bCallFn demoByte (fun _ => false) false wrong ⟨none, ["a", "b", "c"]⟩ 1 (demoMiri (fun _ _ => false))).2.status = .ub ∧
    (bCallFn demoByte (fun _ => false) false wrong ⟨none, ["a", "b", "c"]⟩ 1 (demoMiri (fun _ _ => true))).2.status = .run :=
  ⟨_, _, rfl, rfl, rfl, rfl⟩

/-! Tree Borrows. -/

/-- A variable, and a mutable reference to it that has not been written with. -/
def demoTree (how : BPerm → Nat → TreeHow) : B (tree how) :=
  { mem := [⟨1, [1], [1, 0], .reserved false false⟩, ⟨0, [0], [0], .active⟩], next := 2 }

theorem demoTree_callable (how : BPerm → Nat → TreeHow) (m : Bool) : Callable demoByte m 1 (demoTree how) := by
  refine ⟨rfl, ⟨?_, ?_, ?_, ?_⟩, by simp [demoTree], by cases m <;> rfl⟩
  · simp [demoTree]
  · simp [demoTree]
  · simp [demoTree]
  · intro n hn m hm t h1 h2
    simp only [demoTree, List.mem_cons, List.not_mem_nil, or_false] at hn hm
    rcases hn with rfl | rfl <;> rcases hm with rfl | rfl <;> simp_all

/-- `project` under Tree Borrows, and under Tree Borrows with a special rule for pointers to types that are not `Unpin`. -/
example : ∃ E fn fields σ', parseDerive (.struct_ demoReplace) = .ok E ∧ method E "project" = some fn ∧
    bCallFn demoByte (fun _ => false) false fn ⟨none, ["a", "b", "c"]⟩ 1 (demoTree (fun _ _ => .plain)) =
      (some (.adt fields), σ') ∧
    (useAll demoByte [⟨.pinRef true (some "a") 7, true⟩, ⟨.pinRef true (some "c") 8, true⟩] σ').status = .run :=
  ⟨_, _, _, _, rfl, rfl, rfl, rfl⟩

example : ∃ E fn, parseDerive (.struct_ demoReplace) = .ok E ∧ method E "project" = some fn ∧
    (bCallFn demoByte (fun _ => false) false fn ⟨none, ["a", "b", "c"]⟩ 1 
      (demoTree (fun _ n => if n < 4 then .asRaw else .plain))).2.status = .run :=
  ⟨_, _, rfl, rfl, rfl⟩

/-- Writing with the receiver while a projection is still in use invalidates the projection under these rules, too .. -/
example : ∃ E fn fields σ', parseDerive (.struct_ demoReplace) = .ok E ∧ method E "project" = some fn ∧
    bCallFn demoByte (fun _ => false) false fn ⟨none, ["a", "b", "c"]⟩ 1 (demoTree (fun _ _ => .plain)) =
      (some (.adt fields), σ') ∧
    (useAll demoByte [⟨.pinRef true (some "a") 7, true⟩] (σ'.access demoByte true none 1)).status = .ub :=
  ⟨_, _, _, _, rfl, rfl, rfl, rfl⟩

/-- .. but reading does not: a difference between the two sets of rules. -/
example : ∃ E fn fields σ' fields2 σ2, parseDerive (.struct_ demoReplace) = .ok E ∧ method E "project" = some fn ∧
    bCallFn demoByte (fun _ => false) false fn ⟨none, ["a", "b", "c"]⟩ 1 (demoTree (fun _ _ => .plain)) =
      (some (.adt fields), σ') ∧
    (useAll demoByte [⟨.pinRef true (some "a") 7, true⟩] (σ'.access demoByte false none 1)).status = .run ∧
    bCallFn demoByte (fun _ => false) false fn ⟨none, ["a", "b", "c"]⟩ 1 demoB = (some (.adt fields2), σ2) ∧
    (useAll demoByte [⟨.pinRef true (some "a") 7, true⟩] (σ2.access demoByte false none 1)).status = .ub :=
  ⟨_, _, _, _, _, _, rfl, rfl, rfl, rfl, rfl, rfl⟩

/-- If `project_replace` looked at the fields through `self`, writing the replacement would be undefined behaviour here, too. -/
example : ∃ E fn, parseDerive (.struct_ demoReplace) = .ok E ∧ method E "project_replace" = some fn ∧
    (bCallFn demoByte (fun _ => false) false
      { fn with body := { fn.body with stmts := fn.body.stmts.map (fun s => match s with
        | .letPat pat (.reborrow _) => .letPat pat (.getUncheckedMut "self")
        | s => s) } } ⟨none, ["a", "b", "c"]⟩ 1 (demoTree (fun _ _ => .plain))).2.status = .ub :=
  ⟨_, _, rfl, rfl, rfl⟩

end PinProject
