import Verif.Spec.Lookup
import Verif.Props.Typing
/-!
# Methods of the user are never called by generated code: C82
-/
namespace PinProject
open Spec

/-! ## The rules -/

/-- A method of `Pin` that takes the type of the value is found first. -/
theorem methodCall_pin {us : List Method} {name : String} {b : Bool} {p : Method}
    (hp : pinMethods.filter (fun m => m.name == name && m.inherent && m.takes (.pin b .self_)) = [p])
    (ts : List RTy) :
    methodCall (pinMethods ++ us) name (.pin b .self_ :: ts) =
      if ∃ m ∈ us, m.name = name ∧ m.inherent = true ∧ m.takes (.pin b .self_) = true then .ambiguous else .calls p := by
  simp only [methodCall, List.flatMap_cons, List.cons_append, probe, List.filter_append, hp]
  cases hf : us.filter (fun m => m.name == name && m.inherent && m.takes (.pin b .self_)) with
  | nil =>
    rw [if_neg]
    · rfl
    · rintro ⟨m, hm, h1, h2, h3⟩
      have : m ∈ us.filter (fun m => m.name == name && m.inherent && m.takes (.pin b .self_)) :=
        List.mem_filter.2 ⟨hm, by simp [h1, h2, h3]⟩
      rw [hf] at this
      cases this
  | cons m ms =>
    rw [if_pos]
    · rfl
    · have : m ∈ us.filter (fun m => m.name == name && m.inherent && m.takes (.pin b .self_)) := by rw [hf]; simp
      obtain ⟨h1, h2⟩ := List.mem_filter.1 this
      simp only [Bool.and_eq_true, beq_iff_eq] at h2
      exact ⟨m, h1, h2.1.1, h2.1.2, h2.2⟩

/-! ## Calls in generated functions -/

theorem armOf_calls (mode : Mode) (name : String) (v : Option String × Fields) :
    (armOf mode name v).stmts.flatMap stmtCalls = [] ∧ rhsCalls (armOf mode name v).tail = [] := by
  cases mode <;> simp [armOf, stmtCalls, rhsCalls]

/-- The only call is that of `get_unchecked_mut` or `get_ref` on `self`. -/
theorem modeBody_calls (mode : Mode) (name : String) (item : Item) (c : String × String)
    (hc : c ∈ (modeBody mode name item).stmts.flatMap stmtCalls ++ tailCalls (modeBody mode name item).tail) :
    c = ("self", if modeMut mode then "get_unchecked_mut" else "get_ref") := by
  unfold modeBody at hc
  split at hc
  · split at hc
    · rename_i v _ _
      obtain ⟨h1, h2⟩ := armOf_calls mode name v
      simp only [List.flatMap_append, List.flatMap_cons, h1, tailCalls, h2, List.append_nil, stmtCalls] at hc
      cases mode <;> simpa [modeStmts, headRHS, stmtCalls, rhsCalls, modeMut] using hc
    · cases hc
  · have h : ((preVariants item).map (armOf mode name)).flatMap (fun a => a.stmts.flatMap stmtCalls ++ rhsCalls a.tail) = [] := by
      rw [List.flatMap_eq_nil_iff]
      intro a ha
      obtain ⟨v, -, rfl⟩ := List.mem_map.1 ha
      rw [(armOf_calls mode name v).1, (armOf_calls mode name v).2]
      rfl
    simp only [tailCalls, h, List.append_nil] at hc
    cases mode <;> simpa [modeStmts, headRHS, stmtCalls, rhsCalls, modeMut] using hc

/-- Functions of trait impls call no methods. -/
theorem traitImpl_calls (item : Item) (E : Expansion) (h : parseDerive item = .ok E)
    (hidden isUnsafe : Bool) (ps : List GParam) (tr : GTrait) (n : String) (as : List GArg) (ws : List WPred)
    (fns : List GFn) (hm : GItem.traitImpl hidden isUnsafe ps tr n as ws fns ∈ allItems E) (fn : GFn) (hf : fn ∈ fns) :
    fnCalls fn = [] := by
  obtain ⟨A, ident, attrs, kind, front, h1, h2, h3, h4, -⟩ := expansion_shape item E h
  rw [h3] at hm
  rcases List.mem_append.1 hm with hm | hm
  · rcases List.mem_append.1 hm with hm | hm
    · cases h4 _ hm
    · unfold makeUnpinImpl at hm
      simp only at hm
      split at hm
      all_goals
        simp only [List.mem_cons, List.not_mem_nil, or_false, reduceCtorEq, false_or, GItem.traitImpl.injEq] at hm
      · obtain ⟨rfl, rfl, rfl, rfl, rfl, rfl, rfl, rfl⟩ := hm; simp at hf
      · rcases hm with ⟨rfl, rfl, rfl, rfl, rfl, rfl, rfl, rfl⟩ | ⟨rfl, rfl, rfl, rfl, rfl, rfl, rfl, rfl⟩ <;> simp at hf
      · rcases hm with ⟨rfl, rfl, rfl, rfl, rfl, rfl, rfl, rfl⟩ | ⟨rfl, rfl, rfl, rfl, rfl, rfl, rfl, rfl⟩ <;> simp at hf
  · unfold makeDropImpl at hm
    simp only at hm
    split at hm
    all_goals
      simp only [List.mem_cons, List.not_mem_nil, or_false, reduceCtorEq, false_or, GItem.traitImpl.injEq] at hm
    · obtain ⟨rfl, rfl, rfl, rfl, rfl, rfl, rfl, rfl⟩ := hm
      simp only [List.mem_singleton] at hf
      subst hf
      rfl
    · rcases hm with ⟨rfl, rfl, rfl, rfl, rfl, rfl, rfl, rfl⟩ | ⟨rfl, rfl, rfl, rfl, rfl, rfl, rfl, rfl⟩
      · simp at hf
      · simp only [List.mem_singleton] at hf
        subst hf
        rfl

/-- The calls of the form `x.name()` in generated functions are `self.get_unchecked_mut()` where `self` is a
`Pin<&mut Self>`, and `self.get_ref()` where it is a `Pin<&Self>`. -/
theorem fn_calls (item : Item) (E : Expansion) (h : parseDerive item = .ok E) (i : GItem) (hi : i ∈ allItems E)
    (fn : GFn) (hf : fn ∈ implFunctions i) (c : String × String) (hc : c ∈ fnCalls fn) :
    ∃ b, selfParam fn = some (.pin b .self_) ∧ c = ("self", if b then "get_unchecked_mut" else "get_ref") := by
  cases i with
  | inherent ps n as ws fns =>
    obtain ⟨h1, rfl, rfl, rfl, mode, h2, h3, h4, h5, name, args, h6, h7⟩ := inherent_fns item E h ps n as ws fns hi fn hf
    obtain ⟨-, h15⟩ := method_sig item E h mode fn h2
    rw [fnCalls, h7] at hc
    refine ⟨modeMut mode, ?_, modeBody_calls mode name item c hc⟩
    unfold selfParam
    cases mode <;> rw [h15.1] <;> rfl
  | traitImpl hidden isUnsafe ps tr n as ws fns =>
    rw [traitImpl_calls item E h hidden isUnsafe ps tr n as ws fns hi fn hf] at hc
    cases hc
  | _ => cases hf

/-- **C82** Method calls in generated functions reach the methods of `Pin`: whatever methods and traits the user
defines (for any types other than `Pin` in `impl T { .. }`), and whatever the annotated type can be
dereferenced to, a call either calls `Pin::get_unchecked_mut` or `Pin::get_ref`, or is an error. It is an error
exactly if the annotated type has a method of that name in an `impl` of its own that takes the same
`Pin<&[mut] Self>`. -/
theorem C82_calls (item : Item) (E : Expansion) (h : parseDerive item = .ok E) (i : GItem) (hi : i ∈ allItems E)
    (fn : GFn) (hf : fn ∈ implFunctions i) (x name : String) (hc : (x, name) ∈ fnCalls fn) :
    x = "self" ∧ ∃ t, selfParam fn = some t ∧ ∀ (us : List Method) (ts : List RTy),
      (methodCall (pinMethods ++ us) name (t :: ts) = .ambiguous ↔
        ∃ m ∈ us, m.name = name ∧ m.inherent = true ∧ m.takes t = true) ∧
      (methodCall (pinMethods ++ us) name (t :: ts) ≠ .ambiguous →
        ∃ p ∈ pinMethods, p.name = name ∧ methodCall (pinMethods ++ us) name (t :: ts) = .calls p) := by
  obtain ⟨b, h1, h2⟩ := fn_calls item E h i hi fn hf _ hc
  obtain ⟨rfl, rfl⟩ := Prod.mk.inj h2
  refine ⟨rfl, _, h1, fun us ts => ?_⟩
  obtain ⟨p, hp, hpm, hpn⟩ : ∃ p, pinMethods.filter (fun m => m.name == (if b then "get_unchecked_mut" else "get_ref") &&
      m.inherent && m.takes (.pin b .self_)) = [p] ∧ p ∈ pinMethods ∧ p.name = if b then "get_unchecked_mut" else "get_ref" := by
    cases b
    · exact ⟨_, rfl, by simp [pinMethods], rfl⟩
    · exact ⟨_, rfl, by simp [pinMethods], rfl⟩
  rw [methodCall_pin hp]
  generalize (if b = true then "get_unchecked_mut" else "get_ref") = name at *
  constructor
  · constructor
    · intro h
      split at h
      · assumption
      · cases h
    · exact fun h => if_pos h
  · intro h
    split at h
    · exact absurd rfl h
    · rw [if_neg ‹_›]
      exact ⟨p, hpm, hpn, rfl⟩

/-- **C82** No function of the user is called. -/
theorem C82_not_user (item : Item) (E : Expansion) (h : parseDerive item = .ok E) (i : GItem) (hi : i ∈ allItems E)
    (fn : GFn) (hf : fn ∈ implFunctions i) (x name : String) (hc : (x, name) ∈ fnCalls fn) (t : RTy)
    (ht : selfParam fn = some t) (us : List Method) (ts : List RTy) (m : Method)
    (hm : methodCall (pinMethods ++ us) name (t :: ts) = .calls m) : m.origin = .pin ∧ m.name = name := by
  obtain ⟨-, t', ht', h1⟩ := C82_calls item E h i hi fn hf x name hc
  obtain rfl := Option.some.inj (ht.symm.trans ht')
  obtain ⟨p, hp, hpn, hpc⟩ := (h1 us ts).2 (by rw [hm]; intro h; cases h)
  rw [hm] at hpc
  obtain rfl := Call.calls.inj hpc
  refine ⟨?_, hpn⟩
  simp only [pinMethods, List.mem_cons, List.not_mem_nil, or_false] at hp
  rcases hp with rfl | rfl | rfl | rfl | rfl | rfl | rfl | rfl | rfl <;> rfl

/-! ### Examples -/

/-- There are such calls. -/
example : ∃ E i fn, parseDerive (.struct_ demoReplace) = .ok E ∧ i ∈ allItems E ∧ fn ∈ implFunctions i ∧
    fnCalls fn = [("self", "get_ref")] ∧ selfParam fn = some (.pin false .self_) :=
  ⟨_, _, _, rfl, List.mem_of_getElem? (i := 3) rfl, List.mem_of_getElem? (i := 1) rfl, rfl, rfl⟩

/-- `fn get_ref(&self)` of the user is not called, and is no problem, -/
example : methodCall (pinMethods ++ [⟨"get_ref", true, fun t => t == .ref false .self_, .user⟩]) "get_ref"
    [.pin false .self_, .self_] = .calls ⟨"get_ref", true, RTy.isPin false, .pin⟩ := rfl
/-- .. but `fn get_ref(self: Pin<&Self>)` is an error in `project_ref`. -/
example : methodCall (pinMethods ++ [⟨"get_ref", true, fun t => t == .pin false .self_, .user⟩]) "get_ref"
    [.pin false .self_, .self_] = .ambiguous := rfl
/-- With a trait it is not: methods of traits come later. -/
example : methodCall (pinMethods ++ [⟨"get_ref", false, fun t => t == .pin false .self_, .user⟩]) "get_ref"
    [.pin false .self_, .self_] = .calls ⟨"get_ref", true, RTy.isPin false, .pin⟩ := rfl
/-- It matters that `get_ref` is called on a `Pin<&Self>`: on a `Pin<&mut Self>`, the method of the user would be called. -/
example : methodCall (pinMethods ++ [⟨"get_ref", true, fun t => t == .ref false .self_, .user⟩]) "get_ref"
    [.pin true .self_, .self_] = .calls ⟨"get_ref", true, fun t => t == .ref false .self_, .user⟩ := rfl

end PinProject
