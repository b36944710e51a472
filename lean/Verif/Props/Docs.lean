import Verif.Spec.Docs
import Verif.Props.Unpin
import Verif.Props.Methods
import Verif.Props.Names
import Verif.Props.PinnedDrop
/-!
# C86: documentation
-/
namespace PinProject
open Spec

namespace Docs

theorem not_pub (v : Vis) : determineVisibility v ≠ .pub := by
  cases v <;> simp [determineVisibility, Vis.pubCrate]

/-- Nothing placed next to the annotated type is public. -/
theorem exposed {item : Item} {E : Expansion} (h : parseDerive item = .ok E) :
    (typeDefs E.exposed).filter (fun d => decide (d.vis = .pub)) = [] := by
  rw [List.filter_eq_nil_iff]
  intro d hd
  obtain ⟨A, ident, mode, -, -, -, rfl⟩ := mem_exposed h hd
  rw [decide_eq_true_eq]
  exact not_pub _

/-- A method can be found by its name. -/
theorem method_of_mem {item : Item} {E : Expansion} (h : parseDerive item = .ok E) {fn : GFn}
    (hm : fn ∈ (E.exposed ++ E.inScope).flatMap inherentFns) : ∃ mode : Mode, method E mode.fn = some fn := by
  have hs := C16_once item E h
  have hn : (((E.exposed ++ E.inScope).flatMap inherentFns).map (·.name)).Nodup :=
    hs.nodup (by decide)
  have hin : fn.name ∈ ["project", "project_ref", "project_replace"] := hs.subset (List.mem_map.2 ⟨fn, hm, rfl⟩)
  have key : ∀ l : List GFn, (l.map (·.name)).Nodup → fn ∈ l → l.find? (fun f => f.name == fn.name) = some fn := by
    intro l hl hm
    induction l with
    | nil => cases hm
    | cons f l ih =>
      rw [List.map_cons, List.nodup_cons] at hl
      rcases List.mem_cons.1 hm with hm | hm
      · subst hm
        simp
      · rw [List.find?_cons_of_neg, ih hl.2 hm]
        intro he
        exact hl.1 (List.mem_map.2 ⟨fn, hm, (beq_iff_eq.1 he).symm⟩)
  have hf : method E fn.name = some fn := key _ hn hm
  simp only [List.mem_cons, List.not_mem_nil, or_false] at hin
  rcases hin with he | he | he
  · exact ⟨.proj, by rw [← hf, he]; rfl⟩
  · exact ⟨.projRef, by rw [← hf, he]; rfl⟩
  · exact ⟨.replace, by rw [← hf, he]; rfl⟩

theorem method_not_pub {item : Item} {E : Expansion} (h : parseDerive item = .ok E) {fn : GFn}
    (hm : fn ∈ (E.exposed ++ E.inScope).flatMap inherentFns) : fn.vis ≠ .pub := by
  obtain ⟨mode, hf⟩ := method_of_mem h hm
  obtain ⟨A, ident, -, -, -, -, h5, -⟩ := method_def item E h mode fn hf
  rw [h5]
  exact not_pub _

theorem front {item : Item} {E : Expansion} (h : parseDerive item = .ok E) {i : GItem} (hi : i ∈ allItems E)
    (hn : i.noImpl = true) : docEntries i = [] := by
  cases i with
  | inherent ps n as ws fns =>
    simp only [docEntries, List.map_eq_nil_iff, List.filter_eq_nil_iff, decide_eq_true_eq]
    intro f hf
    exact method_not_pub h (List.mem_flatMap.2 ⟨_, hi, hf⟩)
  | traitImpl => cases hn
  | _ => rfl

end Docs

/-! ## C86 -/

/-- **C86** The documentation shows nothing of the generated code but that the type is `Unpin` under certain conditions, unless
it never is, and with `PinnedDrop` that it implements `Drop`. -/
theorem C86_docs (item : Item) (E : Expansion) (h : parseDerive item = .ok E) (args : List TT) (hw : Written args item)
    (ident : String) (hid : itemName item = some ident) :
    ∃ as, ArgsToks as args ∧
      docs E = (if .notUnpin ∈ as then [] else [.impl .unpin ident]) ++ if .pinnedDrop ∈ as then [.impl .drop ident] else [] := by
  obtain ⟨A, ident', attrs, kind, front, hA, hid', hall, hfront, -⟩ := expansion_shape item E h
  rw [hid] at hid'
  cases hid'
  obtain ⟨as, has, hacc, rfl⟩ := (C05_config args item hw A).1 hA
  refine ⟨as, has, ?_⟩
  have hf : front.flatMap docEntries = [] := by
    rw [List.flatMap_eq_nil_iff]
    intro i hi
    exact Docs.front h (by rw [hall]; simp [hi]) (hfront i hi)
  unfold docs
  rw [Docs.exposed h, hall, List.flatMap_append, List.flatMap_append, hf]
  simp only [List.map_nil, List.nil_append]
  congr 1
  · simp only [makeUnpinImpl, mkCtx, config]
    by_cases hu : Arg.unsafeUnpin ∈ as
    · have hn : Arg.notUnpin ∉ as := fun hn => hacc.unpin ⟨hu, hn⟩
      simp [hu, hn, docEntries, traitVis]
    · by_cases hn : Arg.notUnpin ∈ as
      · simp [hu, hn, docEntries]
      · simp [hu, hn, docEntries, traitVis]
  · simp only [makeDropImpl, mkCtx, config]
    by_cases hp : Arg.pinnedDrop ∈ as
    · simp [hp, docEntries, traitVis]
    · simp [hp, docEntries, traitVis]

/-- **C86** The impl that `#[pinned_drop]` makes of the user's is hidden. -/
theorem C86_pinned_drop (args : List TT) (item : ItemImpl) (out : PinnedDropImpl)
    (h : pinnedDropAttribute args item = .expanded out) :
    (⟨.list { segs := ["doc"] } .paren [.ident "hidden"]⟩ : Attribute) ∈ out.attrs := by
  obtain ⟨_, _, _, _, _, _, -, -, -, -, -, -, -, -, -, -, -, -, -, -, -, -, -, -, ha⟩ := C34_expansion args item out h
  rw [ha]
  exact List.mem_append_right _ List.mem_cons_self

/-! ## The hypotheses are met -/

/-- A public type. -/
def demoPub (args : List TT) : ItemStruct := { demoGeneric args with vis := .pub }

example : Written [.punct '!' false, .ident "Unpin", .punct ',' false, .ident "PinnedDrop"]
    (.struct_ (demoPub [.punct '!' false, .ident "Unpin", .punct ',' false, .ident "PinnedDrop"])) := rfl

/-- Four of the cases. -/
example : ∃ E1 E2 E3 E4, parseDerive (.struct_ (demoPub [])) = .ok E1 ∧ docs E1 = [.impl .unpin "G"] ∧
    parseDerive (.struct_ (demoPub [.ident "UnsafeUnpin"])) = .ok E2 ∧ docs E2 = [.impl .unpin "G"] ∧
    parseDerive (.struct_ (demoPub [.ident "PinnedDrop"])) = .ok E3 ∧ docs E3 = [.impl .unpin "G", .impl .drop "G"] ∧
    parseDerive (.struct_ (demoPub [.punct '!' false, .ident "Unpin"])) = .ok E4 ∧ docs E4 = [] :=
  ⟨_, _, _, _, rfl, by decide, rfl, by decide, rfl, by decide, rfl, by decide⟩

end PinProject
