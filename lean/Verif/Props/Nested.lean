import Verif.Props.ProjectReplace
import Verif.Spec.Nested
/-!
# C97: projections of projections
-/
namespace PinProject
open Spec

namespace Nested

theorem call {inner : Loc → Nat} {isMut : Bool} {m : M} {p : Nat} {s : Link} {rest : List Link} (orc : Oracle) (tl : Bool)
    (h : LinksHold inner isMut m p (s :: rest)) (hm : m.status = .run) :
    ∃ name variant, callFn orc tl s.fn (.fv (.pinRef isMut ⟨p, none⟩)) [] m =
      (some (.adt name variant (Spec.fieldRefs isMut p s.fields)), m) := by
  obtain ⟨h1, h2, h3, ⟨o, h4, h5⟩, -⟩ := h
  cases isMut with
  | true =>
    obtain ⟨name, args, -, e⟩ := C10_project s.item s.code h1 h2 s.fn h3 o s.fields h5 p m h4 hm orc tl
    exact ⟨_, _, e⟩
  | false =>
    obtain ⟨name, args, -, e⟩ := C11_project_ref s.item s.code h1 h2 s.fn h3 o s.fields h5 p m h4 hm orc tl
    exact ⟨_, _, e⟩

theorem mem_refs {isMut b : Bool} {p : Nat} {s : Link} {loc : Loc}
    (h : (s.label, FVal.pinRef b loc) ∈ Spec.fieldRefs isMut p s.fields) :
    s.Pins ∧ b = isMut ∧ loc = ⟨p, some s.label⟩ := by
  obtain ⟨⟨f, i⟩, hx, e⟩ := List.mem_map.1 h
  obtain ⟨e1, e2⟩ := Prod.mk.inj e
  simp only at e1 e2
  unfold Spec.fieldRef at e2
  split at e2
  · rename_i hp
    cases e2
    exact ⟨⟨i, f, List.mem_zipIdx_iff_getElem?.1 hx, e1, hp⟩, rfl, by rw [e1]⟩
  · cases e2

theorem refs_mem {isMut : Bool} {p : Nat} {s : Link} (h : s.Pins) :
    (s.label, FVal.pinRef isMut ⟨p, some s.label⟩) ∈ Spec.fieldRefs isMut p s.fields := by
  obtain ⟨i, f, h1, h2, h3⟩ := h
  refine List.mem_map.2 ⟨(f, i), List.mem_zipIdx_iff_getElem?.2 h1, ?_⟩
  simp only [h2, Spec.fieldRef, h3, if_true]

theorem snoc (inner : Loc → Nat) (p : Nat) (ls : List String) (l : String) :
    innerPlace inner p (ls ++ [l]) = inner ⟨innerPlace inner p ls, some l⟩ := by
  induction ls generalizing p with
  | nil => rfl
  | cons a ls ih => exact ih _

end Nested

open Nested

/-- **C97** A chain of projections, from a pinned reference to a value, can be run exactly if every field it takes has `#[pin]`.
It ends with a pinned reference, of the same kind, to the value in the last of these fields, and leaves memory as it is. -/
theorem C97_chain {inner : Loc → Nat} {isMut : Bool} {m : M} {p : Nat} {steps : List Link} (hm : m.status = .run)
    (h : LinksHold inner isMut m p steps) (orc : Oracle) (w : FVal) (m' : M) :
    LinkChain orc inner steps (.pinRef isMut ⟨p, none⟩) m w m' ↔
      (∀ s ∈ steps, s.Pins) ∧ w = .pinRef isMut ⟨innerPlace inner p (steps.map (·.label)), none⟩ ∧ m' = m := by
  induction steps generalizing p with
  | nil =>
    constructor
    · intro hc
      cases hc
      exact ⟨fun _ h => absurd h List.not_mem_nil, rfl, rfl⟩
    · rintro ⟨-, rfl, rfl⟩
      exact .nil
  | cons s rest ih =>
    constructor
    · intro hc
      cases hc with
      | step hcall hmem hrest =>
        rename_i tl name variant refs m1 b loc
        obtain ⟨name', variant', e⟩ := call orc tl h hm
        rw [e] at hcall
        obtain ⟨e1, e2⟩ := Prod.mk.inj hcall
        obtain ⟨-, -, e3⟩ := Val.adt.inj (Option.some.inj e1)
        subst e2 e3
        obtain ⟨h1, rfl, rfl⟩ := mem_refs hmem
        obtain ⟨h2, h3, h4⟩ := (ih h.2.2.2.2).1 hrest
        refine ⟨fun t ht => ?_, h3, h4⟩
        rcases List.mem_cons.1 ht with rfl | ht
        · exact h1
        · exact h2 t ht
    · rintro ⟨h1, h2, h3⟩
      obtain ⟨name, variant, e⟩ := call orc false h hm
      exact .step e (refs_mem (h1 s List.mem_cons_self))
        ((ih h.2.2.2.2).2 ⟨fun t ht => h1 t (List.mem_cons_of_mem _ ht), h2, h3⟩)

/-- **C97** Chains that take different fields never end at the same value. -/
theorem C97_distinct {inner : Loc → Nat} {p : Nat} (hs : Separate inner p) (ls ls' : List String)
    (h : innerPlace inner p ls = innerPlace inner p ls') : ls = ls' := by
  have key : ∀ (n : Nat) (ls ls' : List String), ls.length = n → innerPlace inner p ls = innerPlace inner p ls' → ls = ls' := by
    intro n
    induction n with
    | zero =>
      intro ls ls' hn h
      obtain rfl := List.eq_nil_of_length_eq_zero hn
      rcases List.eq_nil_or_concat ls' with rfl | ⟨t, x, rfl⟩
      · rfl
      · rw [List.concat_eq_append, snoc] at h
        exact absurd h.symm (hs.root _)
    | succ n ih =>
      intro ls ls' hn h
      rcases List.eq_nil_or_concat ls with rfl | ⟨t, x, rfl⟩
      · cases hn
      rw [List.concat_eq_append] at hn h ⊢
      rcases List.eq_nil_or_concat ls' with rfl | ⟨t', x', rfl⟩
      · rw [snoc] at h
        exact absurd h (hs.root _)
      rw [List.concat_eq_append] at h ⊢
      rw [snoc, snoc] at h
      obtain ⟨e1, e2⟩ := Loc.mk.inj (hs.inj _ _ h)
      obtain rfl := Option.some.inj e2
      rw [ih t t' (by simpa using hn) e1]
  exact key _ ls ls' rfl h

/-- **C97** So the references that two chains from one value end with are to different values, if the chains take different
fields. -/
theorem C97_no_alias {inner : Loc → Nat} {isMut : Bool} {m : M} {p : Nat} {steps steps' : List Link} (hm : m.status = .run)
    (h : LinksHold inner isMut m p steps) (h' : LinksHold inner isMut m p steps') (hs : Separate inner p) {orc : Oracle} {w w' : FVal}
    {m1 m2 : M} (hc : LinkChain orc inner steps (.pinRef isMut ⟨p, none⟩) m w m1)
    (hc' : LinkChain orc inner steps' (.pinRef isMut ⟨p, none⟩) m w' m2) (hne : steps.map (·.label) ≠ steps'.map (·.label)) :
    w ≠ w' := by
  obtain ⟨-, rfl, -⟩ := (C97_chain hm h orc w m1).1 hc
  obtain ⟨-, rfl, -⟩ := (C97_chain hm h' orc w' m2).1 hc'
  intro e
  simp only [FVal.pinRef.injEq, Loc.mk.injEq, and_true, true_and] at e
  exact hne (C97_distinct hs _ _ e)

/-! ## A concrete case -/

/-- Pairs of numbers as positive numbers. -/
def pairCode (a b : Nat) : Nat := 2 ^ a * (2 * b + 1)

theorem pairCode_pos (a b : Nat) : pairCode a b ≠ 0 := by
  have : 0 < 2 ^ a := Nat.pow_pos (by decide)
  exact Nat.mul_ne_zero (by omega) (by omega)

theorem pairCode_inj {a b a' b' : Nat} (h : pairCode a b = pairCode a' b') : a = a' ∧ b = b' := by
  unfold pairCode at h
  induction a generalizing a' with
  | zero =>
    cases a' with
    | zero => exact ⟨rfl, by omega⟩
    | succ a' =>
      rw [Nat.pow_succ, Nat.mul_comm (2 ^ a') 2, Nat.mul_assoc] at h
      omega
  | succ a ih =>
    rw [Nat.pow_succ, Nat.mul_comm (2 ^ a) 2, Nat.mul_assoc] at h
    cases a' with
    | zero => omega
    | succ a' =>
      rw [Nat.pow_succ, Nat.mul_comm (2 ^ a') 2, Nat.mul_assoc] at h
      obtain ⟨rfl, e⟩ := ih (a' := a') (by omega)
      exact ⟨rfl, e⟩

def charsCode : List Char → Nat
  | [] => 0
  | c :: cs => pairCode c.toNat (charsCode cs)

theorem charsCode_inj : ∀ {l l' : List Char}, charsCode l = charsCode l' → l = l'
  | [], [], _ => rfl
  | [], _ :: _, h => absurd h.symm (pairCode_pos _ _)
  | _ :: _, [], h => absurd h (pairCode_pos _ _)
  | c :: cs, c' :: cs', h => by
    obtain ⟨h1, h2⟩ := pairCode_inj h
    rw [charsCode_inj h2, Char.toNat_inj.1 h1]

/-- A place for every field. -/
def demoInner (a : Loc) : Nat := pairCode a.place (match a.field with | none => 0 | some l => charsCode l.toList + 1)

/-- Different fields are in different places. -/
theorem demoInner_separate : Separate demoInner 0 where
  root a := pairCode_pos _ _
  inj a b h := by
    obtain ⟨p, l⟩ := a
    obtain ⟨q, l'⟩ := b
    obtain ⟨h1, h2⟩ := pairCode_inj h
    simp only at h1 h2
    subst h1
    cases l <;> cases l' <;> simp only [Nat.add_right_cancel_iff] at h2
    · rfl
    · omega
    · omega
    · rw [String.toList_inj.1 (charsCode_inj h2)]

/-- The struct `R` of `demoReplace` at place 0, and in its pinned field `a` the enum `E` of `demoEnum`: all hypotheses are met,
and `r.project().a.project()` reaches the field `0` of the variant `V`. -/
example : ∃ (inner : Loc → Nat) (m : M) (steps : List Link), m.status = .run ∧ LinksHold inner true m 0 steps ∧ (∀ s ∈ steps, s.Pins) ∧
    steps.map (·.label) = ["a", "0"] ∧ Separate inner 0 ∧
    LinkChain (fun _ _ => false) inner steps (.pinRef true ⟨0, none⟩) m
      (.pinRef true ⟨inner ⟨inner ⟨0, some "a"⟩, some "0"⟩, none⟩) m := by
  have h1 : ∃ E fn, parseDerive (.struct_ demoReplace) = .ok E ∧ method E "project" = some fn := ⟨_, _, rfl, rfl⟩
  have h2 : ∃ E fn, parseDerive (.enum_ demoEnum) = .ok E ∧ method E "project" = some fn := ⟨_, _, rfl, rfl⟩
  obtain ⟨E1, f1, h1, g1⟩ := h1
  obtain ⟨E2, f2, h2, g2⟩ := h2
  have hi : ∃ inner, Separate inner 0 := ⟨demoInner, demoInner_separate⟩
  obtain ⟨inner, hs⟩ := hi
  have hne : inner ⟨0, some "a"⟩ ≠ 0 := hs.root _
  have hm : ∃ mem : Nat → Option Obj, mem 0 = some demoOld ∧ mem (inner ⟨0, some "a"⟩) = some demoObj :=
    ⟨fun q => if q = 0 then some demoOld else some demoObj, if_pos rfl, if_neg hne⟩
  obtain ⟨mem, m0, m1⟩ := hm
  have hh : LinksHold inner true
      { mem := mem } 0
      [⟨.struct_ demoReplace, E1, f1, demoReplace.fields, "a"⟩, ⟨.enum_ demoEnum, E2, f2, (demoEnum.variants.head!).fields, "0"⟩] :=
    ⟨h1, demoReplace_wf, g1, ⟨_, m0, demoOld_isValue⟩, h2, demoEnum_wf, g2,
      ⟨_, m1, demoObj_isValue⟩, trivial⟩
  have hp : ∀ s ∈ [Link.mk (.struct_ demoReplace) E1 f1 demoReplace.fields "a",
      ⟨.enum_ demoEnum, E2, f2, (demoEnum.variants.head!).fields, "0"⟩], s.Pins := by
    intro s hs
    rcases List.mem_cons.1 hs with rfl | hs
    · exact ⟨0, _, rfl, rfl, rfl⟩
    · obtain rfl := List.mem_singleton.1 hs
      exact ⟨0, _, rfl, rfl, rfl⟩
  exact ⟨inner, _, _, rfl, hh, hp, rfl, hs, (C97_chain rfl hh _ _ _).2 ⟨hp, rfl, rfl⟩⟩

/-- The field `b` has no `#[pin]`: a chain through it is not possible. -/
example (s : Link) (h : s.fields = demoReplace.fields) (hl : s.label = "b") : ¬ s.Pins := by
  rintro ⟨i, f, h1, h2, h3⟩
  rw [h] at h1
  rw [hl] at h2
  have hf : f ∈ demoReplace.fields.list := List.mem_of_getElem? h1
  simp [demoReplace, Fields.list] at hf
  rcases hf with rfl | rfl | rfl
  · exact absurd h2 (by simp [fieldLabel])
  · exact absurd h3 (by decide)
  · exact absurd h2 (by simp [fieldLabel])

end PinProject
