import Verif.Props.Drop
import Verif.Props.Nested
import Verif.Spec.DestroyDeep
/-!
# C98: destroying values inside values
-/
namespace PinProject
open Spec

namespace DestroyDeep

variable {inner : Loc → Nat}

theorem runDtor_mem (orc : Oracle) (e : Event) (m : M) : (m.runDtor orc e).mem = m.mem := by
  unfold M.runDtor
  split <;> rfl

theorem runAll_mem (orc : Oracle) (es : List Event) (m : M) : (runAll orc es m).mem = m.mem := by
  induction es generalizing m with
  | nil => rfl
  | cons e es ih => exact (ih _).trans (runDtor_mem orc e m)

/-- The generated `Drop::drop`, whatever the status. -/
theorem nest_drop (orc : Oracle) (tl : Bool) (p : Nat) (m : M) :
    m.nest (fun m => (callFn orc tl genDropFn (.fv (.ref true ⟨p, none⟩)) [] m).2) = m.runDtor orc (.pinnedDrop p) := by
  cases hm : m.status with
  | run => exact nest_genDrop orc tl p m (.inl hm)
  | unwind => exact nest_genDrop orc tl p m (.inr hm)
  | abort => simp [M.nest, M.runDtor, hm]
  | stuck => simp [M.nest, M.runDtor, hm]

theorem dropFn_arg {item : Item} {E : Expansion} {pd : Bool} (h : parseDerive item = .ok E)
    (ha : ∃ toks as, Written toks item ∧ ArgsToks as toks ∧ (pd = true ↔ .pinnedDrop ∈ as)) :
    dropFn E = if pd then some genDropFn else none := by
  obtain ⟨toks, as, hw, ht, hpd⟩ := ha
  obtain ⟨A, hA, -⟩ := (C07_accepted_iff item).1 ⟨E, h⟩
  rw [dropFn_iff item E A h hA]
  obtain ⟨bs, b1, -, rfl⟩ := (C05_config toks item hw A).1 hA
  obtain rfl := argsToks_unique b1 ht
  have : (config bs).pinnedDrop = pd := by
    rw [Bool.eq_iff_iff, hpd]
    simp [config]
  rw [this]

mutual

theorem nest_eq (orc : Oracle) (tl : Bool) : ∀ (n : Nest) (l : Loc) (id : Id) (m : M), NestOk inner m.mem n l →
    dropNest orc tl inner n l id m = runAll orc (nestEvents inner m.mem n l id) m
  | .leaf, l, id, m, _ => by rw [dropNest, nestEvents]; rfl
  | .node item code pd kids, l, id, m, h => by
    rw [NestOk] at h
    obtain ⟨h1, -, h3, o, fs, h4, -, h5⟩ := h
    rw [dropNest, nestEvents, h4]
    simp only
    rw [dropFn_arg h1 h3]
    cases pd with
    | false => exact kids_eq orc tl kids (inner l) o.fields m h5
    | true =>
      simp only [if_true]
      rw [nest_drop]
      have := kids_eq orc tl kids (inner l) o.fields (m.runDtor orc (.pinnedDrop (inner l))) (by rw [runDtor_mem]; exact h5)
      rw [runDtor_mem] at this
      rw [this]
      rfl

theorem kids_eq (orc : Oracle) (tl : Bool) : ∀ (ks : List Nest) (p : Nat) (xs : List (String × Id)) (m : M),
    KidsOk inner m.mem ks p xs → dropKids orc tl inner ks p xs m = runAll orc (kidsEvents inner m.mem ks p xs) m
  | [], p, [], m, _ => by rw [dropKids, kidsEvents]; rfl; simp
  | [], p, x :: xs, m, h => by simp [KidsOk] at h
  | k :: ks, p, [], m, h => by simp [KidsOk] at h
  | k :: ks, p, x :: xs, m, h => by
    rw [KidsOk] at h
    rw [dropKids, kidsEvents, nest_eq orc tl k _ _ m h.1, runAll_append]
    have := kids_eq orc tl ks p xs (runAll orc (nestEvents inner m.mem k ⟨p, some x.1⟩ x.2) m) (by rw [runAll_mem]; exact h.2)
    rw [runAll_mem] at this
    exact this

end

theorem leaves_eq (orc : Oracle) (tl : Bool) (p : Nat) (fs : List (String × Id)) (m : M) :
    dropKids orc tl inner (List.replicate fs.length .leaf) p fs m = dropInPlace orc p fs m := by
  induction fs generalizing m with
  | nil => rw [List.length_nil, List.replicate_zero, dropKids]; rfl
  | cons f fs ih =>
    rw [List.length_cons, List.replicate_succ, dropKids, ih, dropNest]
    rfl

/-! ## Paths -/

/-- The location that is reached from `r` through these fields. -/
def pathLoc (inner : Loc → Nat) (r : Loc) : List String → Loc
  | [] => r
  | x :: xs => pathLoc inner ⟨inner r, some x⟩ xs

theorem pathLoc_snoc (r : Loc) (xs : List String) (x : String) :
    pathLoc inner r (xs ++ [x]) = ⟨inner (pathLoc inner r xs), some x⟩ := by
  induction xs generalizing r with
  | nil => rfl
  | cons a xs ih => exact ih _

theorem pathLoc_inj (hi : ∀ a b, inner a = inner b → a = b) {r : Loc} (hr : r.field = none) :
    ∀ (n : Nat) (xs ys : List String), xs.length = n → pathLoc inner r xs = pathLoc inner r ys → xs = ys := by
  intro n
  induction n with
  | zero =>
    intro xs ys hn h
    obtain rfl := List.eq_nil_of_length_eq_zero hn
    rcases List.eq_nil_or_concat ys with rfl | ⟨t, x, rfl⟩
    · rfl
    · rw [List.concat_eq_append, pathLoc_snoc] at h
      rw [show r = _ from h] at hr
      cases hr
  | succ n ih =>
    intro xs ys hn h
    rcases List.eq_nil_or_concat xs with rfl | ⟨t, x, rfl⟩
    · cases hn
    rw [List.concat_eq_append] at hn h ⊢
    rcases List.eq_nil_or_concat ys with rfl | ⟨t', x', rfl⟩
    · rw [pathLoc_snoc] at h
      rw [show r = _ from h.symm] at hr
      cases hr
    rw [List.concat_eq_append] at h ⊢
    rw [pathLoc_snoc, pathLoc_snoc] at h
    obtain ⟨e1, e2⟩ := Loc.mk.inj h
    obtain rfl := Option.some.inj e2
    rw [ih t t' (by simpa using hn) (hi _ _ e1)]

/-- The event is about the value at the end of the path. -/
def EvAt (inner : Loc → Nat) (r : Loc) (e : Event) (xs : List String) : Prop :=
  (∃ id, e = .drop id (some (pathLoc inner r xs))) ∨ e = .pinnedDrop (inner (pathLoc inner r xs))

theorem evAt_inj (hi : ∀ a b, inner a = inner b → a = b) {r : Loc} (hr : r.field = none) {e : Event} {xs ys : List String}
    (h : EvAt inner r e xs) (h' : EvAt inner r e ys) : xs = ys := by
  rcases h with ⟨id, rfl⟩ | rfl
  · rcases h' with ⟨id', h'⟩ | h'
    · injection h' with _ h'
      injection h' with h'
      exact pathLoc_inj hi hr _ _ _ rfl h'
    · cases h'
  · rcases h' with ⟨id', h'⟩ | h'
    · cases h'
    · injection h' with h'
      exact pathLoc_inj hi hr _ _ _ rfl (hi _ _ h')

mutual

theorem nest_nodup (hi : ∀ a b, inner a = inner b → a = b) {r : Loc} (hr : r.field = none) (mem : Nat → Option Obj) :
    ∀ (n : Nest) (xs : List String) (id : Id), NestOk inner mem n (pathLoc inner r xs) →
      (nestEvents inner mem n (pathLoc inner r xs) id).Nodup ∧
      ∀ e ∈ nestEvents inner mem n (pathLoc inner r xs) id, ∃ t, EvAt inner r e (xs ++ t)
  | .leaf, xs, id, _ => by
    rw [nestEvents]
    refine ⟨by simp, fun e he => ⟨[], ?_⟩⟩
    obtain rfl := List.mem_singleton.1 he
    rw [List.append_nil]
    exact .inl ⟨_, rfl⟩
  | .node item code pd kids, xs, id, h => by
    rw [NestOk] at h
    obtain ⟨-, hwf, -, o, fs, h4, hv, h5⟩ := h
    have hn : (o.fields.map Prod.fst).Nodup := by
      rw [hv.fields]
      exact labels_nodup (hwf.fields _ _ hv.variant)
    obtain ⟨k1, k2⟩ := kids_nodup hi hr mem kids xs o.fields hn h5
    rw [nestEvents, h4]
    simp only
    have own : ∀ e ∈ (if pd = true then [Event.pinnedDrop (inner (pathLoc inner r xs))] else []), EvAt inner r e xs := by
      intro e he
      split at he
      · obtain rfl := List.mem_singleton.1 he
        exact .inr rfl
      · cases he
    refine ⟨?_, ?_⟩
    · refine List.nodup_append.2 ⟨by split <;> simp, k1, ?_⟩
      rintro a ha b hb rfl
      obtain ⟨x, -, t, ht⟩ := k2 a hb
      have := congrArg List.length (evAt_inj hi hr (own a ha) ht)
      simp at this
    · intro e he
      rcases List.mem_append.1 he with he | he
      · exact ⟨[], by rw [List.append_nil]; exact own e he⟩
      · obtain ⟨x, -, t, ht⟩ := k2 e he
        exact ⟨x :: t, ht⟩

theorem kids_nodup (hi : ∀ a b, inner a = inner b → a = b) {r : Loc} (hr : r.field = none) (mem : Nat → Option Obj) :
    ∀ (ks : List Nest) (xs : List String) (fs : List (String × Id)), (fs.map Prod.fst).Nodup →
      KidsOk inner mem ks (inner (pathLoc inner r xs)) fs →
      (kidsEvents inner mem ks (inner (pathLoc inner r xs)) fs).Nodup ∧
      ∀ e ∈ kidsEvents inner mem ks (inner (pathLoc inner r xs)) fs, ∃ x ∈ fs.map Prod.fst, ∃ t, EvAt inner r e (xs ++ x :: t)
  | [], xs, fs, _, _ => by cases fs <;> simp [kidsEvents]
  | k :: ks, xs, [], _, h => by simp [kidsEvents]
  | k :: ks, xs, f :: fs, hn, h => by
    rw [KidsOk] at h
    rw [List.map_cons, List.nodup_cons] at hn
    have e : (⟨inner (pathLoc inner r xs), some f.1⟩ : Loc) = pathLoc inner r (xs ++ [f.1]) := (pathLoc_snoc r xs f.1).symm
    obtain ⟨a1, a2⟩ := nest_nodup hi hr mem k (xs ++ [f.1]) f.2 (e ▸ h.1)
    obtain ⟨b1, b2⟩ := kids_nodup hi hr mem ks xs fs hn.2 h.2
    rw [kidsEvents, e]
    refine ⟨List.nodup_append.2 ⟨a1, b1, ?_⟩, ?_⟩
    · rintro a ha b hb rfl
      obtain ⟨t, ht⟩ := a2 a ha
      obtain ⟨y, hy, t', ht'⟩ := b2 a hb
      have := evAt_inj hi hr ht ht'
      rw [List.append_assoc, List.append_cancel_left_eq] at this
      have := (List.cons.inj this).1
      exact hn.1 (this ▸ hy)
    · intro x hx
      rcases List.mem_append.1 hx with hx | hx
      · obtain ⟨t, ht⟩ := a2 x hx
        exact ⟨f.1, by simp, t, by simpa using ht⟩
      · obtain ⟨y, hy, t, ht⟩ := b2 x hx
        exact ⟨y, List.mem_cons_of_mem _ hy, t, ht⟩

end

mutual

theorem nest_drops (hi : ∀ a b, inner a = inner b → a = b) (mem : Nat → Option Obj) (a : Loc) :
    ∀ (n : Nest) (l : Loc) (id : Id), .pinnedDrop (inner a) ∈ nestEvents inner mem n l id ↔ WithDropAt inner mem a n l
  | .leaf, l, id => by simp [nestEvents, WithDropAt]
  | .node item code pd kids, l, id => by
    rw [nestEvents, WithDropAt, List.mem_append, kids_drops hi mem a kids]
    refine or_congr ?_ Iff.rfl
    cases pd with
    | false => simp
    | true =>
      simp only [if_true, List.mem_singleton, Event.pinnedDrop.injEq, true_and]
      exact ⟨fun h => hi _ _ h, fun h => h ▸ rfl⟩

theorem kids_drops (hi : ∀ a b, inner a = inner b → a = b) (mem : Nat → Option Obj) (a : Loc) :
    ∀ (ks : List Nest) (p : Nat) (fs : List (String × Id)),
      .pinnedDrop (inner a) ∈ kidsEvents inner mem ks p fs ↔ SomeWithDropAt inner mem a ks p fs
  | [], p, fs => by cases fs <;> simp [kidsEvents, SomeWithDropAt]
  | k :: ks, p, [] => by simp [kidsEvents, SomeWithDropAt]
  | k :: ks, p, f :: fs => by
    rw [kidsEvents, SomeWithDropAt, List.mem_append, nest_drops hi mem a k, kids_drops hi mem a ks]

end

mutual

theorem nest_leaves (mem : Nat → Option Obj) (a : Loc) (i : Id) :
    ∀ (n : Nest) (l : Loc) (id : Id), .drop i (some a) ∈ nestEvents inner mem n l id ↔ LeafAt inner mem a i n l id
  | .leaf, l, id => by simp [nestEvents, LeafAt, and_comm]
  | .node item code pd kids, l, id => by
    rw [nestEvents, LeafAt, List.mem_append, kids_leaves mem a i kids]
    cases pd <;> simp

theorem kids_leaves (mem : Nat → Option Obj) (a : Loc) (i : Id) :
    ∀ (ks : List Nest) (p : Nat) (fs : List (String × Id)),
      .drop i (some a) ∈ kidsEvents inner mem ks p fs ↔ SomeLeafAt inner mem a i ks p fs
  | [], p, fs => by cases fs <;> simp [kidsEvents, SomeLeafAt]
  | k :: ks, p, [] => by simp [kidsEvents, SomeLeafAt]
  | k :: ks, p, f :: fs => by
    rw [kidsEvents, SomeLeafAt, List.mem_append, nest_leaves mem a i k, kids_leaves mem a i ks]

end

end DestroyDeep

open DestroyDeep

/-- **C98** Destroying a value of annotated types inside annotated types, to any depth and also while a panic is propagating: the
drop code of each type with `PinnedDrop` is called on the value in its place, before anything inside of it; then the fields follow,
each completely, in declaration order. A panic does not stop the rest. -/
theorem C98_order {inner : Loc → Nat} {n : Nest} {l : Loc} {id : Id} {m : M} (h : NestOk inner m.mem n l)
    (hm : m.status = .run ∨ m.status = .unwind) (orc : Oracle) (tl : Bool)
    (hna : (dropNest orc tl inner n l id m).status ≠ .abort) :
    (dropNest orc tl inner n l id m).trace = m.trace ++ nestEvents inner m.mem n l id ∧
    (dropNest orc tl inner n l id m).mem = m.mem := by
  rw [nest_eq orc tl n l id m h] at hna ⊢
  obtain ⟨h1, h2, -⟩ := runAll_trace orc _ m hm hna
  exact ⟨h1, h2⟩

/-- **C98** The outcome. No panic: normal; one panic: it propagates; a second one aborts. -/
theorem C98_outcome {inner : Loc → Nat} {n : Nest} {l : Loc} {id : Id} {m : M} (h : NestOk inner m.mem n l)
    (hm : m.status = .run) (orc : Oracle) (tl : Bool) :
    (dropNest orc tl inner n l id m).status =
      match panics orc m.trace (nestEvents inner m.mem n l id) with
      | 0 => .run
      | 1 => .unwind
      | _ => .abort := by
  rw [nest_eq orc tl n l id m h]
  have hr := runAll_run orc (nestEvents inner m.mem n l id) m hm
  split
  · rename_i h0; rw [hr.1 h0]; exact hm
  · rename_i h1; rw [hr.2.1 h1]
  · rename_i h0 h1
    refine hr.2.2 ?_
    have : panics orc m.trace (nestEvents inner m.mem n l id) ≠ 0 := h0
    have : panics orc m.trace (nestEvents inner m.mem n l id) ≠ 1 := h1
    omega

/-- **C98** Nothing is destroyed twice: different locations have different places, and the whole value is not in a field. -/
theorem C98_once {inner : Loc → Nat} (hi : ∀ a b, inner a = inner b → a = b) {n : Nest} {r : Loc} (hr : r.field = none) {id : Id}
    {mem : Nat → Option Obj} (h : NestOk inner mem n r) : (nestEvents inner mem n r id).Nodup :=
  (nest_nodup hi hr mem n [] id h).1

/-- **C98** The user's drop code is called on a value exactly if it is a value of a type with `PinnedDrop` somewhere in it. -/
theorem C98_called {inner : Loc → Nat} (hi : ∀ a b, inner a = inner b → a = b) (n : Nest) (l : Loc) (id : Id)
    (mem : Nat → Option Obj) (a : Loc) :
    .pinnedDrop (inner a) ∈ nestEvents inner mem n l id ↔ WithDropAt inner mem a n l :=
  nest_drops hi mem a n l id

/-- **C98** The other values that are destroyed are those in it of which nothing is known, each where it is. -/
theorem C98_leaves (inner : Loc → Nat) (n : Nest) (l : Loc) (id : Id) (mem : Nat → Option Obj) (a : Loc) (i : Id) :
    .drop i (some a) ∈ nestEvents inner mem n l id ↔ LeafAt inner mem a i n l id :=
  nest_leaves mem a i n l id

/-- **C98** If nothing is known about the types of the fields, this is `destroy`. -/
theorem C98_flat {inner : Loc → Nat} {item : Item} {E : Expansion} {pd : Bool} {l : Loc} {id : Id} {m : M} {o : Obj}
    (hm : m.mem (inner l) = some o) (orc : Oracle) (tl : Bool) :
    dropNest orc tl inner (.node item E pd (List.replicate o.fields.length .leaf)) l id m = destroy orc tl E (inner l) m := by
  rw [dropNest, destroy, hm]
  exact leaves_eq orc tl (inner l) o.fields _

/-! ## The hypotheses are met -/

theorem demoDrop_wf : ItemWF (.struct_ demoDrop) where
  fields := by
    rintro variant fs ⟨-, rfl⟩
    refine ⟨?_, by decide⟩
    intro f hf
    simp at hf
    rcases hf with rfl | rfl <;> rfl
  variants := by rintro e h; cases h

/-- An `S<S<_, _>, _>` where `S` has `PinnedDrop`: the outer drop code, the inner drop code, the two fields of the inner value,
the other field of the outer value. -/
example : ∃ (inner : Loc → Nat) (E : Expansion) (m : M), (∀ a b, inner a = inner b → a = b) ∧ m.status = .run ∧
    NestOk inner m.mem (.node (.struct_ demoDrop) E true [.node (.struct_ demoDrop) E true [.leaf, .leaf], .leaf]) ⟨0, none⟩ ∧
    nestEvents inner m.mem (.node (.struct_ demoDrop) E true [.node (.struct_ demoDrop) E true [.leaf, .leaf], .leaf]) ⟨0, none⟩ 7 =
      [.pinnedDrop (inner ⟨0, none⟩), .pinnedDrop (inner ⟨inner ⟨0, none⟩, some "a"⟩),
       .drop 1 (some ⟨inner ⟨inner ⟨0, none⟩, some "a"⟩, some "a"⟩), .drop 2 (some ⟨inner ⟨inner ⟨0, none⟩, some "a"⟩, some "b"⟩),
       .drop 2 (some ⟨inner ⟨0, none⟩, some "b"⟩)] ∧
    (dropNest (fun _ _ => false) false inner
      (.node (.struct_ demoDrop) E true [.node (.struct_ demoDrop) E true [.leaf, .leaf], .leaf]) ⟨0, none⟩ 7 m).status ≠ .abort := by
  have h1 : ∃ E, parseDerive (.struct_ demoDrop) = .ok E := ⟨_, rfl⟩
  obtain ⟨E, h1⟩ := h1
  have hi : ∃ inner, Separate inner 0 := ⟨demoInner, demoInner_separate⟩
  obtain ⟨inner, hs⟩ := hi
  have ha : ∃ toks as, Written toks (.struct_ demoDrop) ∧ ArgsToks as toks ∧ (True ↔ Arg.pinnedDrop ∈ as) :=
    ⟨[.ident "PinnedDrop"], [.pinnedDrop], rfl, .last .pinnedDrop, by simp⟩
  have ha' : ∃ toks as, Written toks (.struct_ demoDrop) ∧ ArgsToks as toks ∧ (true = true ↔ Arg.pinnedDrop ∈ as) := by simpa using ha
  have hv : IsValue (.struct_ demoDrop) ⟨none, [("a", 1), ("b", 2)]⟩ demoDrop.fields := ⟨⟨rfl, rfl⟩, by decide⟩
  have hok : NestOk inner (fun _ => some ⟨none, [("a", 1), ("b", 2)]⟩)
      (.node (.struct_ demoDrop) E true [.node (.struct_ demoDrop) E true [.leaf, .leaf], .leaf]) ⟨0, none⟩ := by
    simp only [NestOk]
    exact ⟨h1, demoDrop_wf, ha, _, _, rfl, hv, ⟨h1, demoDrop_wf, ha', _, _, rfl, hv, trivial, trivial, trivial⟩, trivial, trivial⟩
  refine ⟨inner, E, { mem := fun _ => some ⟨none, [("a", 1), ("b", 2)]⟩ }, hs.inj, rfl, hok, ?_, ?_⟩
  · simp [nestEvents, kidsEvents]
  · rw [C98_outcome hok rfl]
    have hp : ∀ tr es, panics (fun _ _ => false) tr es = 0 := by
      intro tr es
      induction es generalizing tr with
      | nil => rfl
      | cons e es ih => simp [panics, ih]
    rw [hp]
    simp

end PinProject
