import Verif.Spec.Layout
import Verif.Props.Hygiene
/-!
# C09: packing that the macro cannot see
-/
namespace PinProject
open Spec

theorem fieldRefs_eq {fs : Fields} (h : fs.WF) : PinProject.fieldRefs fs = labels fs.list := by
  cases fs with
  | unit => rfl
  | unnamed fs =>
    simp only [PinProject.fieldRefs, labels, Fields.list]
    apply List.ext_getElem
    · simp
    · intro i h1 h2
      simp only [List.length_map, List.length_range] at h1
      simp [fieldLabel, h _ (List.getElem_mem h1)]
  | named fs =>
    simp only [PinProject.fieldRefs, labels, Fields.list]
    apply List.ext_getElem
    · simp
    · intro i h1 h2
      simp only [List.length_map] at h1
      obtain ⟨n, hn⟩ := Option.isSome_iff_exists.1 (h.1 _ (List.getElem_mem h1))
      simp [fieldLabel, hn]

/-- Powers of two: the smaller divides the larger. -/
theorem PowerOfTwo.dvd {a b : Nat} (ha : PowerOfTwo a) (hb : PowerOfTwo b) (h : a ≤ b) : a ∣ b := by
  obtain ⟨i, rfl⟩ := ha
  obtain ⟨j, rfl⟩ := hb
  exact Nat.pow_dvd_pow 2 ((Nat.pow_le_pow_iff_right (by omega)).1 h)

theorem PowerOfTwo.pos {a : Nat} (ha : PowerOfTwo a) : 0 < a := by
  obtain ⟨i, rfl⟩ := ha
  exact Nat.two_pow_pos i

/-- **C09** The expansion of a struct is accepted by the compiler exactly if every field may be borrowed:
no field needs more alignment than a packing that the macro could not see gives it. -/
theorem C09_accepted_iff (s : ItemStruct) (E : Expansion) (h : parseDerive (.struct_ s) = .ok E)
    (hwf : s.fields.WF) (L : Layout) :
    (∀ i ∈ allItems E, L.Accepts i) ↔ ∀ l ∈ labels s.fields.list, L.BorrowOk l := by
  obtain ⟨A, h1, -, -, -, -, -, rfl⟩ := (deriveStruct_iff s E).1 h
  have hrefs : PinProject.fieldRefs s.pre.fields = labels s.fields.list := by
    rw [← fieldRefs_eq hwf]
    show PinProject.fieldRefs (s.fields.visit _) = _
    cases s.fields with
    | unit => rfl
    | unnamed fs => simp [PinProject.fieldRefs, Fields.visit]
    | named fs => simp [PinProject.fieldRefs, Fields.visit, Field.visit]
  constructor
  · intro hall l hl
    have := hall (assertItem (s.ctx A) s.pre.fields) (by
      simp [allItems, structExpansion])
    simp only [assertItem, Layout.Accepts, hrefs] at this
    exact this l hl
  · intro hb i hi
    cases i with
    | assertNotPacked ps n as ws refs =>
      have hr : refs = labels s.fields.list := by
        have hno : ∀ j ∈ makeUnpinImpl (s.ctx A) (pinnedTys s.pre.fields.list) ++ makeDropImpl (s.ctx A),
            j ≠ .assertNotPacked ps n as ws refs := by
          intro j hj
          rcases List.mem_append.1 hj with hj | hj
          · unfold makeUnpinImpl at hj
            split at hj <;> simp at hj <;> (try rcases hj with rfl | rfl | rfl) <;>
              (try rcases hj with rfl | rfl) <;> (try subst hj) <;> simp
          · unfold makeDropImpl at hj
            split at hj <;> simp at hj
            · subst hj; simp
            · rcases hj with rfl | rfl | rfl | rfl <;> simp
        simp only [allItems, structExpansion, List.mem_append] at hi
        rcases hi with ((hi | hi) | hi) | (((((hi | hi) | hi) | hi) | hi) | hi) | hi
        · split at hi <;> simp [projItemS] at hi
        · split at hi <;> simp [refItemS] at hi
        · split at hi <;> simp [ownItemS] at hi
        · split at hi <;> simp [projItemS] at hi
        · split at hi <;> simp [refItemS] at hi
        · split at hi <;> simp [ownItemS] at hi
        · simp [implItemS, makeProjImpl] at hi
        · simp only [List.mem_singleton, assertItem, GItem.assertNotPacked.injEq] at hi
          rw [hi.2.2.2.2, hrefs]
        · exact absurd rfl (hno _ (List.mem_append_left _ hi))
        · exact absurd rfl (hno _ (List.mem_append_right _ hi))
      intro l hl
      exact hb l (hr ▸ hl)
    | _ => trivial

/-- **C09** If the compiler accepts the expansion, every reference that `project` or `project_ref`
returns is aligned for the type it refers to, whatever packing the struct has. -/
theorem C09_references_aligned (s : ItemStruct) (E : Expansion) (h : parseDerive (.struct_ s) = .ok E)
    (hwf : ItemWF (.struct_ s)) (L : Layout) (base : Nat) (hL : L.Legal (labels s.fields.list) base)
    (hacc : ∀ i ∈ allItems E, L.Accepts i)
    (b : Bool) (fn : GFn) (hfn : method E (if b then "project" else "project_ref") = some fn)
    (o : Obj) (ho : IsValue (.struct_ s) o s.fields) (p : Nat) (m : M) (hp : m.mem p = some o)
    (hm : m.status = .run) (orc : Oracle) (tl : Bool) :
    ∃ name args, callFn orc tl fn (.fv (.pinRef b ⟨p, none⟩)) [] m = (some (.adt name none args), m) ∧
      args.length = s.fields.list.length ∧
      ∀ x ∈ args, ∃ l, (x.2 = .ref b ⟨p, some l⟩ ∨ x.2 = .pinRef b ⟨p, some l⟩) ∧
        L.align l ∣ base + L.offset l := by
  obtain ⟨name, args, hret, hc⟩ := call_projection _ E h hwf b fn hfn o _ ho p m hp hm orc tl
  have hov : o.variant = none := ho.variant.1
  rw [hov] at hc
  refine ⟨name, _, hc, by simp [Spec.fieldRefs], ?_⟩
  intro x hx
  obtain ⟨y, hy, rfl⟩ := List.mem_map.1 hx
  refine ⟨fieldLabel y.2 y.1, ?_, ?_⟩
  · simp only [fieldRef]
    cases Pinned y.1 <;> simp
  · have hl : fieldLabel y.2 y.1 ∈ labels s.fields.list := List.mem_map.2 ⟨y, hy, rfl⟩
    have hb := (C09_accepted_iff s E h (hwf.fields none s.fields ⟨rfl, rfl⟩) L).1 hacc _ hl
    have heff : L.effective (fieldLabel y.2 y.1) = L.align (fieldLabel y.2 y.1) := by
      unfold Layout.effective
      unfold Layout.BorrowOk at hb
      cases hpk : L.pack with
      | none => rfl
      | some n => rw [hpk] at hb; exact Nat.min_eq_left hb
    have h1 := hL.offset _ hl
    have h2 := hL.base _ hl
    rw [heff] at h1 h2
    exact Nat.dvd_add h2 h1

/-- **C09** The check is needed: if it fails, the struct may be placed so that the reference to some
field would not be aligned. -/
theorem C09_check_needed (s : ItemStruct) (E : Expansion) (h : parseDerive (.struct_ s) = .ok E)
    (hwf : s.fields.WF) (pack : Option Nat) (align : String → Nat)
    (hal : ∀ l ∈ labels s.fields.list, PowerOfTwo (align l)) (hpk : ∀ n, pack = some n → PowerOfTwo n)
    (hrej : ¬ ∀ i ∈ allItems E, Layout.Accepts ⟨pack, align, fun _ => 0⟩ i) :
    ∃ (L : Layout) (base : Nat), L.pack = pack ∧ L.align = align ∧ L.Legal (labels s.fields.list) base ∧
      ∃ l ∈ labels s.fields.list, ¬ L.align l ∣ base + L.offset l := by
  rw [C09_accepted_iff s E h hwf] at hrej
  simp only [Classical.not_forall] at hrej
  obtain ⟨l, hl, hb⟩ := hrej
  cases hpack : pack with
  | none => rw [hpack] at hb; exact absurd trivial hb
  | some n =>
    rw [hpack] at hb
    simp only [Layout.BorrowOk, Nat.not_le] at hb
    have hn := hpk n hpack
    refine ⟨⟨some n, align, fun _ => 0⟩, n, rfl, rfl, ⟨hal, ?_, ?_, ?_⟩, l, hl, ?_⟩
    · rintro k hk; obtain rfl := Option.some.inj hk; exact hn
    · intro k _; exact Nat.dvd_zero _
    · intro k hk
      simp only [Layout.effective]
      rcases Nat.le_total (align k) n with hle | hle
      · rw [Nat.min_eq_left hle]; exact PowerOfTwo.dvd (hal k hk) hn hle
      · rw [Nat.min_eq_right hle]; exact Nat.dvd_refl _
    · intro hd
      simp only [Nat.add_zero] at hd
      have := Nat.le_of_dvd (PowerOfTwo.pos hn) hd
      omega

/-- A hidden `repr(packed(2))` with fields of alignment 1 and 2: accepted, and the layout is legal. -/
example : ∃ E, parseDerive (.struct_ demoStruct) = .ok E ∧
    let L : Layout := ⟨some 2, fun l => if l = "a" then 2 else 1, fun l => if l = "a" then 0 else 2⟩
    L.Legal (labels demoStruct.fields.list) 6 ∧ ∀ l ∈ labels demoStruct.fields.list, L.BorrowOk l := by
  refine ⟨_, rfl, ⟨?_, ?_, ?_, ?_⟩, ?_⟩
  · intro l _; dsimp only; split
    · exact ⟨1, rfl⟩
    · exact ⟨0, rfl⟩
  · rintro n h; obtain rfl := Option.some.inj h; exact ⟨1, rfl⟩
  · intro l hl
    have : l = "a" ∨ l = "b" := by simpa [labels, fieldLabel, demoStruct, Fields.list, List.zipIdx] using hl
    rcases this with rfl | rfl <;> decide
  · intro l hl
    have : l = "a" ∨ l = "b" := by simpa [labels, fieldLabel, demoStruct, Fields.list, List.zipIdx] using hl
    rcases this with rfl | rfl <;> decide
  · intro l hl
    have : l = "a" ∨ l = "b" := by simpa [labels, fieldLabel, demoStruct, Fields.list, List.zipIdx] using hl
    rcases this with rfl | rfl <;> simp [Layout.BorrowOk]

/-- With alignment 4 it is rejected. -/
example : ∃ E, parseDerive (.struct_ demoStruct) = .ok E ∧
    ¬ ∀ i ∈ allItems E, Layout.Accepts ⟨some 2, fun _ => 4, fun _ => 0⟩ i := by
  obtain ⟨E, hE⟩ := demoStruct_ok
  refine ⟨E, hE, fun h => ?_⟩
  have := (C09_accepted_iff demoStruct E hE (by
    constructor
    · intro f hf; simp [demoStruct] at hf; rcases hf with rfl | rfl <;> rfl
    · decide) _).1 h "a" (by decide)
  simp [Layout.BorrowOk] at this

end PinProject
