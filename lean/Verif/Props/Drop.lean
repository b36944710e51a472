import Verif.Sem.Destroy
import Verif.Props.ProjectReplace
/-!
# C32: `PinnedDrop::drop` runs exactly once, before the fields
-/
namespace PinProject
open Spec

/-- The generated `Drop::drop`. -/
def genDropFn : GFn :=
  { attrs := ["allow(clippy::missing_inline_in_public_items)"], vis := .inherited
    isUnsafe := false, name := "drop", ltParam := none
    recv := .ref none true .selfTy, params := [], ret := .unit
    unsafeBlock := true
    body := ⟨[.letVar "__pinned_self" none (.pinNew "self"),
              .expr (.pinnedDropCall "__pinned_self")], .expr .unit⟩ }

/-- Calling it. -/
theorem call_genDrop (orc : Oracle) (tl : Bool) (p : Nat) (m : M) (hm : m.status = .run) :
    (callFn orc tl genDropFn (.fv (.ref true ⟨p, none⟩)) [] m).2 = m.runDtor orc (.pinnedDrop p) := by
  cases ho : orc m.trace (.pinnedDrop p) <;>
    simp [callFn, genDropFn, Val.fitsSig, evalBody, evalBlock, evalStmts, evalStmt, evalRHS, Env.use,
      Val.isOwning, coerce, hm, dropVal, M.runDtor, ho, leave, leavePanic, dropSlots, dropFVal]

theorem nest_genDrop (orc : Oracle) (tl : Bool) (p : Nat) (m : M)
    (hm : m.status = .run ∨ m.status = .unwind) :
    m.nest (fun m => (callFn orc tl genDropFn (.fv (.ref true ⟨p, none⟩)) [] m).2) =
      m.runDtor orc (.pinnedDrop p) := by
  rcases hm with hm | hm
  · unfold M.nest
    rw [hm]
    exact call_genDrop orc tl p m hm
  · unfold M.nest
    rw [hm]
    simp only
    rw [call_genDrop orc tl p _ rfl]
    cases ho : orc m.trace (.pinnedDrop p) <;> simp [M.runDtor, ho, hm]

def GItem.isDropImpl : GItem → Bool
  | .traitImpl _ _ _ .drop _ _ _ _ => true
  | _ => false

theorem dropFn_eq (E : Expansion) (l : List GItem) (cx : Ctx)
    (hE : E.exposed ++ E.inScope = l ++ makeDropImpl cx) (hl : ∀ x ∈ l, x.isDropImpl = false) :
    dropFn E = if cx.pinnedDrop then some genDropFn else none := by
  have hskip : ∀ l : List GItem, (∀ x ∈ l, x.isDropImpl = false) →
      l.findSome? GItem.dropFn? = none := by
    intro l hl
    rw [List.findSome?_eq_none_iff]
    intro x hx
    have := hl x hx
    unfold GItem.dropFn?
    split
    · simp [GItem.isDropImpl] at this
    · rfl
  unfold dropFn
  rw [hE, List.findSome?_append, hskip l hl, Option.none_or]
  unfold makeDropImpl
  split <;> rfl

theorem unpin_not_drop (cx : Ctx) (tys : List Node) :
    ∀ x ∈ makeUnpinImpl cx tys, x.isDropImpl = false := by
  intro x hx
  unfold makeUnpinImpl at hx
  split at hx <;> simp at hx <;> (try rcases hx with rfl | rfl | rfl) <;> (try rcases hx with rfl | rfl) <;>
    (try subst hx) <;> rfl

theorem dropFn_struct (cx : Ctx) (fs : Fields) :
    dropFn (structExpansion cx fs) = if cx.pinnedDrop then some genDropFn else none := by
  refine dropFn_eq _ ((structExpansion cx fs).exposed ++
    (((if cx.project then [] else [projItemS cx fs]) ++
     (if cx.projectRef then [] else [refItemS cx fs]) ++
     (if cx.projectReplace.ident.isSome then [] else
       if cx.projectReplace.isSome then [ownItemS cx fs] else []) ++
     [implItemS cx fs] ++ [assertItem cx fs]) ++
    makeUnpinImpl cx (pinnedTys fs.list))) cx ?_ ?_
  · simp [structExpansion, List.append_assoc]
  · intro x hx
    simp only [structExpansion, List.mem_append, List.mem_singleton] at hx
    rcases hx with ((hx | hx) | hx) | ((((hx | hx) | hx) | rfl) | rfl) | hx
    · split at hx <;> simp at hx; subst hx; rfl
    · split at hx <;> simp at hx; subst hx; rfl
    · split at hx <;> simp at hx; obtain ⟨_, rfl⟩ := hx; rfl
    · split at hx <;> simp at hx; subst hx; rfl
    · split at hx <;> simp at hx; subst hx; rfl
    · split at hx <;> simp at hx; obtain ⟨_, rfl⟩ := hx; rfl
    · rfl
    · rfl
    · exact unpin_not_drop _ _ x hx

theorem dropFn_enum (cx : Ctx) (vs : List Variant) :
    dropFn (enumExpansion cx vs) = if cx.pinnedDrop then some genDropFn else none := by
  refine dropFn_eq _ ((enumExpansion cx vs).exposed ++
    ([implItemE cx vs] ++ makeUnpinImpl cx (vs.flatMap (fun v => pinnedTys v.fields.list)))) cx ?_ ?_
  · simp [enumExpansion, List.append_assoc]
  · intro x hx
    simp only [enumExpansion, List.mem_append, List.mem_singleton] at hx
    rcases hx with ((hx | hx) | hx) | rfl | hx
    · split at hx <;> simp at hx; subst hx; rfl
    · split at hx <;> simp at hx; subst hx; rfl
    · split at hx <;> simp at hx; subst hx; rfl
    · rfl
    · exact unpin_not_drop _ _ x hx

/-- Which definitions get a `Drop` impl. -/
theorem dropFn_iff (item : Item) (E : Expansion) (A : Args) (h : parseDerive item = .ok E)
    (hA : parseArgs (itemAttrs item) = .ok A) :
    dropFn E = if A.pinnedDrop then some genDropFn else none := by
  cases item with
  | other a => simp [parseDerive] at h
  | struct_ s =>
    obtain ⟨A', hA', -, -, -, -, -, rfl⟩ := (deriveStruct_iff s E).1 h
    rw [ItemStruct.pre_attrs] at hA'
    rw [show itemAttrs (.struct_ s) = s.attrs from rfl, hA'] at hA
    obtain rfl := Except.ok.inj hA
    exact dropFn_struct _ _
  | enum_ e =>
    obtain ⟨A', hA', -, -, -, -, -, -, rfl⟩ := (deriveEnum_iff e E).1 h
    rw [ItemEnum.pre_attrs] at hA'
    rw [show itemAttrs (.enum_ e) = e.attrs from rfl, hA'] at hA
    obtain rfl := Except.ok.inj hA
    exact dropFn_enum _ _

theorem dropFn_cases (item : Item) (E : Expansion) (h : parseDerive item = .ok E) :
    dropFn E = none ∨ dropFn E = some genDropFn := by
  obtain ⟨A, hA, -⟩ := (C07_accepted_iff item).1 ⟨E, h⟩
  rw [dropFn_iff item E A h hA]
  split <;> simp

/-- The destructor calls of all fields, in place, in declaration order. -/
def fieldDrops (p : Nat) (o : Obj) : List Event :=
  o.fields.map (fun x => .drop x.2 (some ⟨p, some x.1⟩))

/-- The destructor calls of destroying a value. -/
def destroyEvents (E : Expansion) (p : Nat) (o : Obj) : List Event :=
  (if (dropFn E).isSome then [.pinnedDrop p] else []) ++ fieldDrops p o

theorem destroy_eq (item : Item) (E : Expansion) (h : parseDerive item = .ok E) (p : Nat) (o : Obj)
    (m : M) (hp : m.mem p = some o) (hm : m.status = .run ∨ m.status = .unwind) (orc : Oracle) (tl : Bool) :
    destroy orc tl E p m = runAll orc (destroyEvents E p o) m := by
  unfold destroy destroyEvents
  rw [hp]
  simp only
  rcases dropFn_cases item E h with hd | hd
  · rw [hd, dropInPlace_eq]
    rfl
  · rw [hd]
    simp only [Option.isSome_some, if_true]
    rw [nest_genDrop orc tl p m hm, dropInPlace_eq]
    rfl

/-- **C32** Destroying a value of a `PinnedDrop` type — also while another panic is propagating — calls
the user's drop code once, on that very place, before any field; then each field is dropped once, in
place, in declaration order, even if the user's code or one of the fields panics. -/
theorem C32_pinned_drop_first (item : Item) (E : Expansion) (A : Args) (h : parseDerive item = .ok E)
    (hA : parseArgs (itemAttrs item) = .ok A) (hpd : A.pinnedDrop = true) (p : Nat) (o : Obj) (m : M)
    (hp : m.mem p = some o) (hm : m.status = .run ∨ m.status = .unwind) (orc : Oracle) (tl : Bool)
    (hna : (destroy orc tl E p m).status ≠ .abort) :
    (destroy orc tl E p m).trace = m.trace ++ [.pinnedDrop p] ++ fieldDrops p o ∧
    (destroy orc tl E p m).mem = m.mem := by
  have hd := dropFn_iff item E A h hA
  rw [hpd] at hd
  rw [destroy_eq item E h p o m hp hm orc tl] at hna ⊢
  obtain ⟨h1, h2, -⟩ := runAll_trace orc _ m hm hna
  refine ⟨?_, h2⟩
  rw [h1]
  simp [destroyEvents, hd]

/-- **C32**: the outcome. No panic: normal; one panic: it propagates; a second one aborts. -/
theorem C32_outcome (item : Item) (E : Expansion) (A : Args) (h : parseDerive item = .ok E)
    (hA : parseArgs (itemAttrs item) = .ok A) (hpd : A.pinnedDrop = true) (p : Nat) (o : Obj) (m : M)
    (hp : m.mem p = some o) (hm : m.status = .run) (orc : Oracle) (tl : Bool) :
    (destroy orc tl E p m).status =
      match panics orc m.trace ([.pinnedDrop p] ++ fieldDrops p o) with
      | 0 => .run
      | 1 => .unwind
      | _ => .abort := by
  have hd := dropFn_iff item E A h hA
  rw [hpd] at hd
  rw [destroy_eq item E h p o m hp (.inl hm) orc tl]
  have he : destroyEvents E p o = [.pinnedDrop p] ++ fieldDrops p o := by simp [destroyEvents, hd]
  rw [he]
  have hr := runAll_run orc ([.pinnedDrop p] ++ fieldDrops p o) m hm
  split
  · rename_i h0; rw [hr.1 h0]; exact hm
  · rename_i h1; rw [hr.2.1 h1]
  · rename_i h0 h1
    refine hr.2.2 ?_
    have : panics orc m.trace ([.pinnedDrop p] ++ fieldDrops p o) ≠ 0 := h0
    have : panics orc m.trace ([.pinnedDrop p] ++ fieldDrops p o) ≠ 1 := h1
    omega

/-- **C32**: only then. Without the `PinnedDrop` argument no drop code of the type itself is run. -/
theorem C32_only_with_argument (item : Item) (E : Expansion) (A : Args) (h : parseDerive item = .ok E)
    (hA : parseArgs (itemAttrs item) = .ok A) (hpd : A.pinnedDrop = false) (p : Nat) (o : Obj) (m : M)
    (hp : m.mem p = some o) (hm : m.status = .run ∨ m.status = .unwind) (orc : Oracle) (tl : Bool)
    (hna : (destroy orc tl E p m).status ≠ .abort) :
    (destroy orc tl E p m).trace = m.trace ++ fieldDrops p o := by
  have hd := dropFn_iff item E A h hA
  rw [hpd] at hd
  rw [destroy_eq item E h p o m hp hm orc tl] at hna ⊢
  obtain ⟨h1, h2, -⟩ := runAll_trace orc _ m hm hna
  rw [h1]
  simp [destroyEvents, hd]

/-- `#[pin(__private(PinnedDrop))] struct S { #[pin] a: T, b: U }`. -/
def demoDrop : ItemStruct := { demoStruct with attrs := [pinPrivateAttr [.ident "PinnedDrop"]] }

example : ∃ E, parseDerive (.struct_ demoDrop) = .ok E ∧
    parseArgs (itemAttrs (.struct_ demoDrop)) = .ok { pinnedDrop := true } ∧
    (destroy (fun _ _ => false) false E 9 demoM).trace =
      [.pinnedDrop 9, .drop 1 (some ⟨9, some "a"⟩), .drop 2 (some ⟨9, some "b"⟩),
       .drop 3 (some ⟨9, some "c"⟩)] :=
  ⟨_, rfl, rfl, rfl⟩

/-- The user's code panics: the fields are still dropped. -/
example : ∃ E, parseDerive (.struct_ demoDrop) = .ok E ∧
    (destroy (fun _ e => e == .pinnedDrop 9) false E 9 demoM).trace =
      [.pinnedDrop 9, .drop 1 (some ⟨9, some "a"⟩), .drop 2 (some ⟨9, some "b"⟩),
       .drop 3 (some ⟨9, some "c"⟩)] ∧
    (destroy (fun _ e => e == .pinnedDrop 9) false E 9 demoM).status = .unwind :=
  ⟨_, rfl, rfl, rfl⟩

end PinProject
