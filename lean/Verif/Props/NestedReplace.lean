import Verif.Props.Nested
import Verif.Props.ProjectReplace
/-!
# C100: replacing a value inside a value
-/
namespace PinProject
open Spec

namespace NestedReplace

/-- Whether a chain can be followed depends only on the values it starts from at each step. -/
theorem linksHold_congr {inner : Loc → Nat} {isMut : Bool} {m m' : M} {steps : List Link} {p : Nat}
    (h : ∀ as b bs, steps.map (·.label) = as ++ b :: bs → m'.mem (innerPlace inner p as) = m.mem (innerPlace inner p as)) :
    LinksHold inner isMut m p steps → LinksHold inner isMut m' p steps := by
  induction steps generalizing p with
  | nil => exact fun _ => trivial
  | cons s rest ih =>
    rintro ⟨h1, h2, h3, ⟨o, h4, h5⟩, h6⟩
    refine ⟨h1, h2, h3, ⟨o, ?_, h5⟩, ih ?_ h6⟩
    · rw [← h4]
      exact h [] s.label (rest.map (·.label)) rfl
    · intro as b bs hb
      exact h (s.label :: as) b bs (by rw [List.map_cons, hb]; rfl)

end NestedReplace

open NestedReplace

/-- **C100** From a pinned mutable reference to a value, through `#[pin]` fields to a value inside, and `project_replace` there: the
fields without `#[pin]` of the value inside are returned, its fields with `#[pin]` are destroyed in place, the new value is in its
place, and no other place is touched. -/
theorem C100_replace {inner : Loc → Nat} {m : M} {p : Nat} {steps : List Link} (hm : m.status = .run)
    (h : LinksHold inner true m p steps) (hpin : ∀ s ∈ steps, s.Pins) {item : Item} {E : Expansion} (hE : parseDerive item = .ok E)
    (hwf : ItemWF item) {fn : GFn} (hfn : method E "project_replace" = some fn) {o : Obj} {fs : Fields} (ho : IsValue item o fs)
    (hfree : NamesFree fs) (hp : m.mem (innerPlace inner p (steps.map (·.label))) = some o) (new : Obj) (orc : Oracle) (tl : Bool)
    (hq : panics orc m.trace (pinnedDrops (innerPlace inner p (steps.map (·.label))) fs o) = 0) :
    ∃ w name m', LinkChain orc inner steps (.pinRef true ⟨p, none⟩) m w m ∧
      callFn orc tl fn (.fv w) [.obj new] m = (some (.adt name o.variant (ownedParts fs o)), m') ∧
      m'.status = .run ∧ m'.mem (innerPlace inner p (steps.map (·.label))) = some new ∧
      (∀ q, q ≠ innerPlace inner p (steps.map (·.label)) → m'.mem q = m.mem q) ∧
      m'.trace = m.trace ++ pinnedDrops (innerPlace inner p (steps.map (·.label))) fs o ++
        [.write (innerPlace inner p (steps.map (·.label))) new] := by
  obtain ⟨name, -, -, hc⟩ := C20_project_replace item E hE hwf fn hfn o fs ho hfree _ new m hp hm orc tl hq
  exact ⟨_, name, _, (C97_chain hm h orc _ _).2 ⟨hpin, rfl, rfl⟩, hc, rfl, if_pos rfl, fun q hq => if_neg hq, rfl⟩

/-- **C100** After a value inside has been replaced, all chains that do not go on inside of it can be followed as before and end at
the same values; also the chain to the value that was replaced. -/
theorem C100_others {inner : Loc → Nat} {isMut : Bool} {m m' : M} {p : Nat} (hs : Separate inner p) (hm : m.status = .run)
    (hm' : m'.status = .run) {ls : List String} (hq : ∀ q, q ≠ innerPlace inner p ls → m'.mem q = m.mem q) {steps : List Link}
    (h : LinksHold inner isMut m p steps) (hnot : ¬ ∃ l rest, steps.map (·.label) = ls ++ l :: rest) (orc orc' : Oracle) (w : FVal) :
    LinkChain orc' inner steps (.pinRef isMut ⟨p, none⟩) m' w m' ↔ LinkChain orc inner steps (.pinRef isMut ⟨p, none⟩) m w m := by
  have h' : LinksHold inner isMut m' p steps := by
    refine linksHold_congr ?_ h
    intro as b bs hb
    refine hq _ ?_
    intro he
    obtain rfl := C97_distinct hs _ _ he
    exact hnot ⟨b, bs, hb⟩
  rw [C97_chain hm h orc, C97_chain hm' h' orc']
  simp

/-! ## The hypotheses are met -/

/-- An `R<R<..>, ..>`: the inner value, in the field `a`, is replaced; the chain to its neighbour `c` is not changed. -/
example : ∃ (inner : Loc → Nat) (m : M) (s s' : Link) (E : Expansion) (fn : GFn), Separate inner 0 ∧ m.status = .run ∧
    LinksHold inner true m 0 [s] ∧ (∀ t ∈ [s], t.Pins) ∧ s.label = "a" ∧ parseDerive (.struct_ demoReplace) = .ok E ∧
    method E "project_replace" = some fn ∧ m.mem (innerPlace inner 0 ["a"]) = some demoOld ∧
    IsValue (.struct_ demoReplace) demoOld demoReplace.fields ∧ NamesFree demoReplace.fields ∧
    LinksHold inner true m 0 [s'] ∧ s'.Pins ∧ s'.label = "c" ∧ ¬ ∃ l rest, [s'].map (·.label) = ["a"] ++ l :: rest := by
  have h1 : ∃ E f g, parseDerive (.struct_ demoReplace) = .ok E ∧ method E "project" = some f ∧ method E "project_replace" = some g :=
    ⟨_, _, _, rfl, rfl, rfl⟩
  obtain ⟨E, f, g, h1, h2, h3⟩ := h1
  have hi : ∃ inner, Separate inner 0 := ⟨demoInner, demoInner_separate⟩
  obtain ⟨inner, hs⟩ := hi
  refine ⟨inner, { mem := fun _ => some demoOld }, ⟨.struct_ demoReplace, E, f, demoReplace.fields, "a"⟩,
    ⟨.struct_ demoReplace, E, f, demoReplace.fields, "c"⟩, E, g, hs, rfl,
    ⟨h1, demoReplace_wf, h2, ⟨_, rfl, demoOld_isValue⟩, trivial⟩, ?_, rfl, h1, h3, rfl, demoOld_isValue, demoReplace_free,
    ⟨h1, demoReplace_wf, h2, ⟨_, rfl, demoOld_isValue⟩, trivial⟩, ⟨2, _, rfl, rfl, rfl⟩, rfl, ?_⟩
  · intro t ht
    obtain rfl := List.mem_singleton.1 ht
    exact ⟨0, _, rfl, rfl, rfl⟩
  · rintro ⟨l, rest, h⟩
    simp at h

end PinProject
