import Verif.Props.ClientStep
import Verif.Props.Methods
import Verif.Props.Arguments
import Verif.Props.Unpin
/-!
# C39, C40: the guarantees of pinning hold in every safe program
-/
namespace PinProject
open Spec

/-- **C39** Once a value that is not `Unpin` has been exposed through a pinned reference, it is, at
every later point of every program, still at the same location, or its life has ended there. -/
theorem C39_pinned_stays (U : Universe) (c : Config) (h : Reachable U c) (id : Id) (ty : Ty) (L : GLoc)
    (he : Exposed c.w id ty L) (hu : ¬ U.F.unpin ty) : Resides c.w id ty L ∨ Ended c.w id L := by
  by_cases hd : Ended c.w id L
  · exact .inr hd
  · exact .inl ((reachable_inv h).live _ _ _ ⟨he, hu, hd⟩).resides

/-- **C40** No step of the program overwrites, moves or frees a pinned value that is not `Unpin`, unless
its life had ended before: after the step it is still there. -/
theorem C40_not_invalidated (U : Universe) (c c' : Config) (h : Reachable U c) (hs : CStep U c c') (id : Id) (ty : Ty)
    (L : GLoc) (he : Exposed c.w id ty L) (hu : ¬ U.F.unpin ty) (hd : ¬ Ended c.w id L) : Resides c'.w id ty L :=
  (step_ok (reachable_inv h) hs).stays _ _ _ ⟨he, hu, hd⟩

/-- A type with `project_replace` has no destructor of its own. -/
theorem replace_no_drop (d : Def) {fn : GFn} (h : method d.E "project_replace" = some fn) : dropFn d.E = none := by
  obtain ⟨A, hA, -⟩ := (C07_accepted_iff d.item).1 ⟨d.E, d.ok⟩
  rw [dropFn_iff d.item d.E A d.ok hA]
  have hr : A.projectReplace ≠ .none := by
    have hok := d.ok
    cases hi : d.item with
    | other a => rw [hi] at hok; simp [parseDerive] at hok
    | struct_ s =>
      rw [hi] at hok hA
      obtain ⟨-, -, A', hA', h3⟩ := C16_struct_methods s d.E hok
      obtain rfl := Except.ok.inj (hA.symm.trans hA')
      exact h3.1 (by rw [h]; rfl)
    | enum_ e =>
      rw [hi] at hok hA
      obtain ⟨A', hA', -, -, h3⟩ := C16_enum_methods e d.E hok
      obtain rfl := Except.ok.inj (hA.symm.trans hA')
      obtain ⟨n, hn⟩ := h3.1 (by rw [h]; rfl)
      rw [hn]
      nofun
  have hp : ∃ ts, Args.parse ts = .ok A := by
    unfold parseArgs at hA
    split at hA
    · cases hA
    split at hA
    · cases hA
    obtain ⟨toks, -, hA⟩ := bind_ok.1 hA
    obtain ⟨prev, -, hA⟩ := bind_ok.1 hA
    split at hA
    · obtain ⟨_, -, hA⟩ := bind_ok.1 hA
      obtain ⟨_, -, hA⟩ := bind_ok.1 hA
      cases hA
    split at hA
    · exact ⟨_, hA⟩
    · cases hA
  obtain ⟨ts, hts⟩ := hp
  have := C03_accepted_not_both hts
  cases hb : A.pinnedDrop
  · rfl
  · exact (this ⟨hb, hr⟩).elim

theorem ended_new {w w' : World} {es : List PEvent} (ht : w'.trace = w.trace ++ es) {id : Id} {L : GLoc}
    (h : Ended w' id L) (hn : ¬ Ended w id L) : .dtor id L ∈ es ∨ .taken id L ∈ es ∨ .late id L ∈ es := by
  unfold Ended at *
  simp only [ht, List.mem_append] at h
  grind

/-- A value put into `X` by the destructor of `X`. -/
theorem late_iff {X : GLoc} {v : V} {todo : List Instr} {e : PEvent} (h : e ∈ lateEvents X v todo) :
    ∃ id, e = .late id X := by
  unfold lateEvents at h
  split at h
  · obtain ⟨id, -, rfl⟩ := List.mem_map.1 h; exact ⟨id, rfl⟩
  · cases h

/-- **C40** The life of a pinned value that is not `Unpin` ends in one of two ways only: its destructor is
called, where it is; or it is taken apart by `project_replace`, in which case its type is an annotated
one that has no `Drop` impl, neither a generated one nor one by the user. -/
theorem C40_ends_properly (U : Universe) (c c' : Config) (h : Reachable U c) (hs : CStep U c c') (id : Id) (ty : Ty)
    (L : GLoc) (he : Exposed c.w id ty L) (hu : ¬ U.F.unpin ty) (hd : ¬ Ended c.w id L) (hd' : Ended c'.w id L) :
    (.dtor id L ∈ c'.w.trace ∧ ∃ rest, c.todo = .destroy L :: rest) ∨
    (.taken id L ∈ c'.w.trace ∧
      ∃ d args, U.def? ty = some (d, args) ∧ dropFn d.E = none ∧ ¬ U.UserDrop ty) := by
  have hi := reachable_inv h
  have ha : Alive U c.w id ty L := ⟨he, hu, hd⟩
  have none : ∀ {w' : World}, w'.trace = c.w.trace → Ended w' id L → False := by
    intro w' ht h
    rcases ended_new (es := []) (by simpa using ht) h hd with h | h | h <;> cases h
  have dtor : ∀ {w' : World} {id' : Id} {M : GLoc}, w'.trace = c.w.trace ++ [.dtor id' M] → Ended w' id L →
      .dtor id L ∈ w'.trace ∧ M = L := by
    intro w' id' M ht h
    rcases ended_new ht h hd with h | h | h
    · rw [List.mem_singleton] at h
      obtain ⟨rfl, rfl⟩ := PEvent.dtor.inj h
      exact ⟨by simp [ht], rfl⟩
    · simp at h
    · simp at h
  cases hs with
  | @op w w' gs todo is _ hop =>
    cases hop with
    | swap X Y u v hX hY _ _ _ _ =>
      exfalso
      have key : ∀ e, e ∈ escapeEvents X u todo ++ escapeEvents Y v todo ++ (lateEvents X v todo ++ lateEvents Y u todo) →
          (∃ i M, e = .escape i M) ∨ (∃ i, e = .late i X) ∨ ∃ i, e = .late i Y := by
        intro e h
        rcases List.mem_append.1 h with h | h
        · rcases List.mem_append.1 h with h | h
          · obtain ⟨i, h⟩ := escape_iff h; exact .inl ⟨i, _, h⟩
          · obtain ⟨i, h⟩ := escape_iff h; exact .inl ⟨i, _, h⟩
        · exact .inr ((List.mem_append.1 h).imp late_iff late_iff)
      rcases ended_new (es := escapeEvents X u todo ++ escapeEvents Y v todo ++ (lateEvents X v todo ++ lateEvents Y u todo))
        (by simp) hd' hd with h | h | h
      · rcases key _ h with ⟨i, M, h⟩ | ⟨i, h⟩ | ⟨i, h⟩ <;> cases h
      · rcases key _ h with ⟨i, M, h⟩ | ⟨i, h⟩ | ⟨i, h⟩ <;> cases h
      · rcases key _ h with ⟨i, M, h⟩ | ⟨i, h⟩ | ⟨i, h⟩
        · cases h
        · cases h; exact hX.excl hi ha (.refl _)
        · cases h; exact hY.excl hi ha (.refl _)
    | replace M id' ty' va fs d args fn r id'' va' fs' orc tl res hL hat hdef hfn hr hb hne hcall hna =>
      refine .inr ?_
      rcases ended_new (es := [.taken id' M]) (by simp) hd' hd with h | h | h
      · simp at h
      · rw [List.mem_singleton] at h
        obtain ⟨rfl, rfl⟩ := PEvent.taken.inj h
        obtain ⟨va₀, fs₀, h0⟩ := (hi.live _ _ _ ha).resides
        simp only at h0
        rw [hat] at h0
        simp only [Option.some.injEq, V.node.injEq] at h0
        obtain ⟨-, rfl, -⟩ := h0
        exact ⟨by simp, d, args, hdef, replace_no_drop d hfn,
          no_user_drop U hdef ((hi.frame.typed.at hat).nodeOk.1 d args hdef).1⟩
      · simp at h
    | forget r v _ _ =>
      exfalso
      rcases ended_new (es := v.ids.map .forgot) (by simp) hd' hd with h | h | h <;> simp at h
    | destructure r id' ty' va fs _ _ _ =>
      exfalso
      rcases ended_new (es := [.forgot id']) (by simp) hd' hd with h | h | h <;> simp at h
    | expose M k id' ty' va fs _ _ _ =>
      exfalso
      rcases ended_new (es := [.expose id' ty' M]) (by simp) hd' hd with h | h | h <;> simp at h
    | _ => exact (none rfl hd').elim
  | @destroyPlain w M id' ty' va fs rest hat _ _ =>
    obtain ⟨h1, rfl⟩ := dtor (id' := id') (M := M) rfl hd'
    exact .inl ⟨h1, rest, rfl⟩
  | @destroyAnnotated w M id' ty' va fs d args orc tl rest hat _ =>
    obtain ⟨h1, rfl⟩ := dtor (id' := id') (M := M) rfl hd'
    exact .inl ⟨h1, rest, rfl⟩
  | @destroyStructural w M id' ty' va fs rest hat _ =>
    obtain ⟨h1, rfl⟩ := dtor (id' := id') (M := M) rfl hd'
    exact .inl ⟨h1, rest, rfl⟩
  | @store w M u v rest hat _ =>
    exfalso
    rcases ended_new (es := lateEvents M v rest) (by simp) hd' hd with h | h | h
    · obtain ⟨i, h⟩ := late_iff h; cases h
    · obtain ⟨i, h⟩ := late_iff h; cases h
    · obtain ⟨i, h⟩ := late_iff h
      cases h
      exact (hi.live _ _ _ ha).first (.refl _)
  | fieldsPacked => exact (none (by simp) hd').elim
  | _ => exact (none rfl hd').elim

end PinProject
