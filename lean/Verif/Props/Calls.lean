import Verif.Props.Lookup
/-!
# Calls of generated methods: C84
-/
namespace PinProject
open Spec

theorem probe_congr {ms ms' : List Method} {name : String} {ts : List RTy}
    (h : ∀ t ∈ ts, ∀ b, ms.filter (fun m => m.name == name && (m.inherent == b) && m.takes t) =
      ms'.filter (fun m => m.name == name && (m.inherent == b) && m.takes t)) :
    probe ms name ts = probe ms' name ts := by
  induction ts with
  | nil => rfl
  | cons t ts ih =>
    have h1 := h t (.head _) true
    have h2 := h t (.head _) false
    simp only [beq_true, beq_false] at h1 h2
    simp only [probe, h1, h2, ih (fun t ht => h t (.tail _ ht))]

theorem probe_mem {ms : List Method} {name : String} {ts : List RTy} {m : Method} (h : probe ms name ts = .calls m) : m ∈ ms := by
  have ch : ∀ {l : List Method} {next : Call}, (∀ x ∈ l, x ∈ ms) → (next = .calls m → m ∈ ms) → choose l next = .calls m → m ∈ ms := by
    intro l next hl hn hc
    unfold choose at hc
    split at hc
    · exact hn hc
    · obtain rfl := Call.calls.inj hc; exact hl _ (.head _)
    · cases hc
  induction ts with
  | nil => cases h
  | cons t ts ih =>
    exact ch (fun x hx => (List.mem_filter.1 hx).1) (ch (fun x hx => (List.mem_filter.1 hx).1) ih) h

/-- The generated methods, by mode. -/
theorem generated_mem {item : Item} {E : Expansion} (h : parseDerive item = .ok E) {fn : GFn}
    (hf : fn ∈ (allItems E).flatMap inherentFns) :
    ∃ mode, fn.name = mode.fn ∧ method E mode.fn = some fn ∧ selfParam fn = some (receiverOf mode) := by
  obtain ⟨i, hi, hf⟩ := List.mem_flatMap.1 hf
  cases i with
  | inherent ps n as ws fns =>
    obtain ⟨-, -, -, -, mode, h2, h3, -⟩ := inherent_fns item E h ps n as ws fns hi fn hf
    refine ⟨mode, h3, h2, ?_⟩
    obtain ⟨-, hs⟩ := method_sig item E h mode fn h2
    unfold selfParam
    cases mode <;> rw [hs.1] <;> rfl
  | _ => cases hf

theorem nodup_filter_name {l : List GFn} (hn : (l.map (·.name)).Nodup) {fn : GFn} (hf : fn ∈ l) :
    l.filter (fun f => f.name == fn.name) = [fn] := by
  induction l with
  | nil => cases hf
  | cons a l ih =>
    rw [List.map_cons, List.nodup_cons] at hn
    rcases List.mem_cons.1 hf with rfl | hf
    · rw [List.filter_cons_of_pos (by simp)]
      congr 1
      rw [List.filter_eq_nil_iff]
      intro x hx he
      exact hn.1 (List.mem_map.2 ⟨x, hx, by simpa using he⟩)
    · rw [List.filter_cons_of_neg, ih hn.2 hf]
      intro he
      exact hn.1 (List.mem_map.2 ⟨fn, hf, by simpa using (beq_iff_eq.1 he).symm⟩)

/-- **C84** The generated methods are found: on a `Pin<&mut S>` (a `Pin<&S>` for `project_ref`), `x.project()` calls the
generated method, whatever traits with such a method are in scope and whatever the annotated type can be dereferenced to.
The only other case is an error, if the user has another method of that name with the same `self` in an `impl` of the type
(which is an error already without a call). -/
theorem C84_reached (item : Item) (E : Expansion) (h : parseDerive item = .ok E) (mode : Mode) (fn : GFn)
    (hfn : method E mode.fn = some fn) (us : List Method) (ts : List RTy) :
    ∃ m ∈ generatedMethods E, m.name = mode.fn ∧
      methodCall (generatedMethods E ++ pinMethods ++ us) mode.fn (receiverOf mode :: ts) =
        if ∃ u ∈ us, u.name = mode.fn ∧ u.inherent = true ∧ u.takes (receiverOf mode) = true then .ambiguous else .calls m := by
  have hmem : fn ∈ (allItems E).flatMap inherentFns := List.mem_of_find?_eq_some hfn
  have hname : fn.name = mode.fn := by simpa using List.find?_some hfn
  have hnd : (((allItems E).flatMap inherentFns).map (·.name)).Nodup := (C16_once item E h).nodup (by decide)
  obtain ⟨mode', e1, -, e3⟩ := generated_mem h hmem
  obtain rfl : mode' = mode := by
    rw [hname] at e1
    cases mode <;> cases mode' <;> first | rfl | exact absurd e1 (by decide)
  refine ⟨_, List.mem_map_of_mem hmem, hname, ?_⟩
  have hg : (generatedMethods E).filter (fun m => m.name == mode'.fn && m.inherent && m.takes (receiverOf mode')) =
      [⟨fn.name, true, fun t => selfParam fn == some t, .generated⟩] := by
    have e : (generatedMethods E).filter (fun m => m.name == mode'.fn && m.inherent && m.takes (receiverOf mode')) =
        (((allItems E).flatMap inherentFns).filter (fun f => f.name == fn.name)).map
          (fun fn => ⟨fn.name, true, fun t => selfParam fn == some t, .generated⟩) := by
      rw [generatedMethods, List.filter_map]
      congr 1
      apply List.filter_congr
      intro f hf
      simp only [Function.comp, Bool.and_true, hname]
      cases hb : f.name == mode'.fn with
      | false => rfl
      | true =>
        have : f = fn := by
          have : f ∈ ((allItems E).flatMap inherentFns).filter (fun f => f.name == fn.name) :=
            List.mem_filter.2 ⟨hf, by rw [hname]; exact hb⟩
          rw [nodup_filter_name hnd hmem] at this
          exact List.mem_singleton.1 this
        rw [this, e3]
        simp
    rw [e, nodup_filter_name hnd hmem]
    rfl
  have hp : pinMethods.filter (fun m => m.name == mode'.fn && m.inherent && m.takes (receiverOf mode')) = [] := by
    cases mode' <;> rfl
  simp only [methodCall, List.flatMap_cons, List.cons_append, probe, List.filter_append, hg, hp]
  cases hf : us.filter (fun m => m.name == mode'.fn && m.inherent && m.takes (receiverOf mode')) with
  | nil =>
    rw [if_neg]
    · rfl
    · rintro ⟨m, hm, h1, h2, h3⟩
      have : m ∈ us.filter (fun m => m.name == mode'.fn && m.inherent && m.takes (receiverOf mode')) :=
        List.mem_filter.2 ⟨hm, by simp [h1, h2, h3]⟩
      rw [hf] at this
      cases this
  | cons m ms =>
    rw [if_pos]
    · rfl
    · have : m ∈ us.filter (fun m => m.name == mode'.fn && m.inherent && m.takes (receiverOf mode')) := by rw [hf]; simp
      obtain ⟨h1, h2⟩ := List.mem_filter.1 this
      simp only [Bool.and_eq_true, beq_iff_eq] at h2
      exact ⟨m, h1, h2.1.1, h2.1.2, h2.2⟩

/-- **C84** All other calls are as without the attribute: those of methods with other names, and those on values that
cannot be dereferenced to a `Pin<&mut S>` (a `Pin<&S>` for `project_ref`), such as an `S`, `&S` or `&mut S`, or the `Pin`
of another type that dereferences to `S`. -/
theorem C84_unaffected (item : Item) (E : Expansion) (h : parseDerive item = .ok E) (us : List Method) (name : String)
    (types : List RTy) (hn : ∀ mode : Mode, name = mode.fn → receiverOf mode ∉ types) :
    methodCall (generatedMethods E ++ pinMethods ++ us) name types = methodCall (pinMethods ++ us) name types := by
  apply probe_congr
  intro t ht b
  rw [List.append_assoc, List.filter_append]
  have : (generatedMethods E).filter (fun m => m.name == name && (m.inherent == b) && m.takes t) = [] := by
    rw [List.filter_eq_nil_iff]
    intro m hm hc
    obtain ⟨fn, hf, rfl⟩ := List.mem_map.1 hm
    simp only [Bool.and_eq_true, beq_iff_eq] at hc
    obtain ⟨⟨h1, -⟩, h3⟩ := hc
    obtain ⟨mode, e1, -, e3⟩ := generated_mem h hf
    rw [e3] at h3
    obtain rfl := Option.some.inj h3
    obtain ⟨t', ht', hc⟩ := List.mem_flatMap.1 ht
    simp only [List.mem_cons, List.not_mem_nil, or_false, receiverOf, reduceCtorEq] at hc
    subst hc
    exact hn mode (h1.symm.trans e1) ht'
  rw [this, List.nil_append]

/-- **C84** A generated method is called only under its name, if it exists, and only for a value that is, or can be
dereferenced to, a `Pin<&mut S>` (a `Pin<&S>` for `project_ref`). -/
theorem C84_only (item : Item) (E : Expansion) (h : parseDerive item = .ok E) (us : List Method)
    (hus : ∀ u ∈ us, u.origin = .user) (name : String) (types : List RTy) (m : Method)
    (hm : methodCall (generatedMethods E ++ pinMethods ++ us) name types = .calls m) (hg : m.origin = .generated) :
    ∃ mode : Mode, name = mode.fn ∧ receiverOf mode ∈ types := by
  apply Classical.byContradiction
  intro hc
  rw [C84_unaffected item E h us name types (fun mode hn ht => hc ⟨mode, hn, ht⟩)] at hm
  rcases List.mem_append.1 (probe_mem hm) with hp | hu
  · simp only [pinMethods, List.mem_cons, List.not_mem_nil, or_false] at hp
    rcases hp with rfl | rfl | rfl | rfl | rfl | rfl | rfl | rfl | rfl <;> cases hg
  · rw [hus m hu] at hg; cases hg

/-- The methods of a struct with `project_replace`. -/
example : ∃ E, parseDerive (.struct_ demoReplace) = .ok E ∧
    (generatedMethods E).map (·.name) = ["project", "project_ref", "project_replace"] := ⟨_, rfl, rfl⟩

/-- C84 for this struct: a trait with a method `project` for `Pin<&mut S>` is in scope, and the generated method is called. -/
example : ∃ E m, parseDerive (.struct_ demoReplace) = .ok E ∧ m.origin = .generated ∧
    methodCall (generatedMethods E ++ pinMethods ++ [⟨"project", false, fun t => t == .pin true .self_, .user⟩]) "project"
      [.pin true .self_, .self_] = .calls m := ⟨_, _, rfl, rfl, rfl⟩

/-- Called on `&S`, it is the method of the trait. -/
example : ∃ E m, parseDerive (.struct_ demoReplace) = .ok E ∧ m.origin = .user ∧
    methodCall (generatedMethods E ++ pinMethods ++ [⟨"project", false, fun t => t == .ref false .self_, .user⟩]) "project"
      [.ref false .self_, .self_] = .calls m := ⟨_, _, rfl, rfl, rfl⟩

end PinProject
