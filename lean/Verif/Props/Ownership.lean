import Verif.Props.ClientSilent
import Verif.Props.ClientDemo
/-!
# C60 and C61: safe programs neither use nor drop a value again after it was dropped, and lose none

Together with C54 (a value is never in two places) these are the rules of ownership. The generated code moves
fields with `ptr::read`, overwrites with `ptr::write` and drops in place; rustc checks none of this.
-/
namespace PinProject
open Spec

/-- **C60** No safe program can get a reference, of any kind, to a value whose life is over, nor to anything that
contains it; with one exception: its own destructor, while it runs. -/
theorem C60_no_use_after_drop (U : Universe) (c : Config) (h : Reachable U c) (L M : GLoc) (k : Mode) (id : Id) (ty : Ty)
    (hu : Usable U c.w c.todo L k) (hc : L.Contains M) (hr : Resides c.w id ty M) (hs : Spent c.w id) :
    M = L ∧ InDestructor c L :=
  (hu.where (reachable_inv h).frame.shaped).spent hc ((reachable_own h).spent id ty M hr hs)

/-- **C60** The destructor of a value whose life is over is not called, and it is not taken apart by
`project_replace`; with one exception: its own destructor, while it runs, can assign to the value. -/
theorem C60_no_double_drop (U : Universe) (c c' : Config) (h : Reachable U c) (hs : CStep U c c') (id : Id) (L : GLoc)
    (e : PEvent) (ht : c'.w.trace = c.w.trace ++ [e]) (he : e = .dtor id L ∨ e = .taken id L) (hsp : Spent c.w id) :
    InDestructor c L := by
  have ho := reachable_own h
  have hi := reachable_inv h
  have none : ∀ {w : World}, w.trace = w.trace ++ [e] → False := by
    intro w hw
    have := congrArg List.length hw
    simp at this
  have last : ∀ {w : World} {e' : PEvent}, w.trace ++ [e'] = w.trace ++ [e] → e' = e := by
    intro w e' hw
    simpa using hw
  have dtor : ∀ {w : World} {M : GLoc} {i : Id} {ty : Ty} {va : Option String} {fs : List (String × V)} {rest : List Instr},
      Own ⟨w, .destroy M :: rest⟩ → w.at M = some (.node i ty va fs) → Spent w id → (w.log [.dtor i M]).trace = w.trace ++ [e] →
      InDestructor ⟨w, .destroy M :: rest⟩ L := by
    intro w M i ty va fs rest ho hat hsp ht
    have hl := last ht
    rcases he with rfl | rfl
    · cases hl
      have := ho.spent id ty L ⟨va, fs, hat⟩ hsp
      obtain ⟨⟨k, h1⟩, h2⟩ := (this.resolve_left (fun h => h)).2.1 rfl
      exact ⟨⟨k, List.mem_cons_of_mem _ h1⟩, List.mem_cons_of_mem _ h2⟩
    · cases hl
  have events : ∀ {es : List PEvent}, (∀ x ∈ es, ∀ L, x ≠ .dtor id L ∧ x ≠ .taken id L) → es = [e] → False := by
    rintro es hn rfl
    rcases he with rfl | rfl
    · exact (hn _ List.mem_cons_self L).1 rfl
    · exact (hn _ List.mem_cons_self L).2 rfl
  cases hs with
  | op hcode hop =>
    cases hop with
    | expose L' k i ty va fs => exact (events (by simp) (List.append_cancel_left ht)).elim
    | swap X Y u v hX hY hd hu hv hty =>
      refine (events ?_ (List.append_cancel_left (by simpa only [World.log_trace, World.put_trace] using ht))).elim
      intro x hx M
      simp only [lateEvents, escapeEvents, List.mem_append] at hx
      rcases hx with (hx | hx) | hx | hx <;> split at hx <;> first | cases hx | skip
      all_goals (obtain ⟨i, -, rfl⟩ := List.mem_map.1 hx; simp)
    | replace M i ty va fs d args fn r id' va' fs' orc tl res hL hat hdef hfn hr hb hne hcall hna =>
      have hl : PEvent.taken i M = e := by simpa [World.setRoot] using ht
      rcases he with rfl | rfl
      · cases hl
      · cases hl
        exact ((hL.where hi.frame.shaped).spent (.refl _) (ho.spent id ty L ⟨va, fs, hat⟩ hsp)).2
    | forget r v hr hb => exact (events (by simp) (List.append_cancel_left ht)).elim
    | destructure r i ty va fs hr hb hn => exact (events (by simp) (List.append_cancel_left ht)).elim
    | build => exact (none ht).elim
    | move => exact (none ht).elim
    | pin => exact (none ht).elim
    | unpin => exact (none ht).elim
    | set => exact (none ht).elim
    | drop => exact (none ht).elim
  | destroyPlain hat _ _ => exact dtor ho hat hsp ht
  | destroyAnnotated hat _ => exact dtor ho hat hsp ht
  | destroyStructural hat _ => exact dtor ho hat hsp ht
  | @fieldsPacked w L' i ty va fs d args rest hat hdef hp => exact (not_packed d hp).elim
  | @store w M u v rest hat hty =>
    refine (events ?_ (List.append_cancel_left (by simpa only [World.log_trace, World.put_trace] using ht))).elim
    intro x hx M
    unfold lateEvents at hx
    split at hx
    · obtain ⟨i, -, rfl⟩ := List.mem_map.1 hx; simp
    · cases hx
  | sched => exact (none ht).elim
  | ret => exact (none ht).elim
  | fields => exact (none ht).elim
  | destroyHole => exact (none ht).elim
  | fieldsHole => exact (none ht).elim
  | free => exact (none ht).elim
  | place => exact (none ht).elim
  | discard => exact (none ht).elim

/-- **C60** The exception needs a destructor that the user wrote: an annotated type whose value is used in its
own destructor has `PinnedDrop` as an argument. -/
theorem C60_pinned_drop_only (U : Universe) (c : Config) (h : Reachable U c) (L : GLoc) (id : Id) (ty : Ty)
    (hd : InDestructor c L) (hr : Resides c.w id ty L) (d : Def) (args : List TArg) (hdef : U.def? ty = some (d, args)) (A : Args)
    (hA : parseArgs (itemAttrs d.item) = .ok A) : A.pinnedDrop = true := by
  obtain ⟨⟨k, hk⟩, -⟩ := hd
  obtain ⟨va, fs, hat⟩ := hr
  obtain ⟨v, hv, hn⟩ := reachable_codeTy h _ hk (L, k) List.mem_cons_self
  have hv : c.w.at L = some v := hv
  rw [hat] at hv
  obtain rfl := Option.some.inj hv
  have := hn d args hdef
  rw [dropFn_iff d.item d.E A d.ok hA] at this
  cases hp : A.pinnedDrop with
  | false => rw [hp] at this; exact (this rfl).elim
  | true => rfl

/-- **C60** So a value of an annotated type without `PinnedDrop` is never used, nor dropped again, once its life is
over. -/
theorem C60_annotated (U : Universe) (c : Config) (h : Reachable U c) (M : GLoc) (id : Id) (ty : Ty)
    (hr : Resides c.w id ty M) (d : Def) (args : List TArg) (hdef : U.def? ty = some (d, args)) (A : Args)
    (hA : parseArgs (itemAttrs d.item) = .ok A) (hp : A.pinnedDrop = false) (hs : Spent c.w id) :
    (∀ L k, Usable U c.w c.todo L k → ¬ L.Contains M) ∧
    ∀ c', CStep U c c' → c'.w.trace ≠ c.w.trace ++ [.dtor id M] ∧ c'.w.trace ≠ c.w.trace ++ [.taken id M] := by
  have key : ¬ InDestructor c M := by
    intro hd
    rw [C60_pinned_drop_only U c h M id ty hd hr d args hdef A hA] at hp
    cases hp
  refine ⟨?_, ?_⟩
  · intro L k hu hc
    obtain ⟨rfl, hd⟩ := C60_no_use_after_drop U c h L M k id ty hu hc hr hs
    exact key hd
  · intro c' hstep
    exact ⟨fun ht => key (C60_no_double_drop U c c' h hstep id M _ ht (.inl rfl) hs),
      fun ht => key (C60_no_double_drop U c c' h hstep id M _ ht (.inr rfl) hs)⟩

/-- **C61** When the life of a value is over, but that of a part of it is not, then the destructor of the part,
or of something that contains the part, is still going to be called. -/
theorem C61_parts_destroyed (U : Universe) (c : Config) (h : Reachable U c) (L : GLoc) (id : Id) (ty : Ty)
    (hr : Resides c.w id ty L) (hs : Spent c.w id) (f : String) (p : List String) (id' : Id) (ty' : Ty)
    (hr' : Resides c.w id' ty' (L.sub (f :: p))) (hs' : ¬ Spent c.w id') :
    ∃ N : GLoc, N.Contains (L.sub (f :: p)) ∧ (.destroy N ∈ c.todo ∨ (.fields N ∈ c.todo ∧ N ≠ L.sub (f :: p))) := by
  have ho := reachable_own h
  have h1 := ho.spent id ty L hr hs
  have h2 := ho.unspent id' ty' _ hr' hs'
  generalize c.todo = todo at h1 h2
  induction todo with
  | nil => exact h1.elim
  | cons i rest ih =>
    rcases h2 with hc | ⟨hnd, h2⟩
    · cases i with
      | destroy N => exact ⟨N, hc, .inl List.mem_cons_self⟩
      | fields N => exact ⟨N, GLoc.Above.contains hc, .inr ⟨List.mem_cons_self, GLoc.Above.ne hc⟩⟩
      | _ => exact hc.elim
    · rcases h1 with h1 | ⟨-, -, h1⟩
      · exact (hnd (h1.below (.sub _ _))).elim
      · obtain ⟨N, hN, h3⟩ := ih h1 h2
        exact ⟨N, hN, h3.imp (List.mem_cons_of_mem _) (fun h => ⟨List.mem_cons_of_mem _ h.1, h.2⟩)⟩

/-- **C61** No value is lost: every value that was ever made is still somewhere (in memory, or on its way to a
variable, to the place it is assigned to, or to its destructor), or its life is over, or the program gave it up
with `mem::forget` or by taking it apart. -/
theorem C61_not_lost (U : Universe) (c : Config) (h : Reachable U c) (id : Id) (hid : id ∈ c.w.used) :
    (∃ P, IsAt c id P) ∨ Spent c.w id ∨ .forgot id ∈ c.w.trace := by
  rcases reachable_kept h id hid with h1 | h1
  · exact .inl ((present_isAt (reachable_inv h)).1 h1)
  · exact .inr h1

/-- **C61** When no drop and no assignment is going on, all values in memory are alive: what was dropped is gone. -/
theorem C61_no_remains (U : Universe) (c : Config) (h : Reachable U c) (hidle : ∀ i ∈ c.todo, i.locs = []) (L : GLoc) (id : Id)
    (ty : Ty) (hr : Resides c.w id ty L) : ¬ Spent c.w id :=
  fun hs => not_spentOk (clear_values hidle L) ((reachable_own h).spent id ty L hr hs)

/-! ## Examples -/

namespace ClientDemo

theorem demo_args : ∃ A, parseArgs (itemAttrs demoDef.item) = .ok A ∧ A.pinnedDrop = false := ⟨_, rfl, rfl⟩

/-- The `G` of `demo_exposed` is dropped: its own destructor has been called, its fields come next. -/
theorem demo_dropping : ∃ c, Reachable demoU c ∧ c.todo = [.fields ⟨2, []⟩, .free 2, .code []] ∧
    c.w.roots 2 = some ⟨true, demoV⟩ ∧ (∀ n, c.w.roots (n + 3) = none) ∧ (∀ n, n + 13 ∉ c.w.used) ∧ 10 ∈ c.w.used ∧
    c.w.trace = [.expose 12 demoTy ⟨2, []⟩, .expose 10 demoT ⟨2, ["x"]⟩, .dtor 12 ⟨2, []⟩] := by
  obtain ⟨⟨w, todo⟩, h, rfl, hr, ht, h3, hu⟩ := demo_exposed
  simp only at hr ht
  have hat : ∀ es, (w.log es).at ⟨2, []⟩ = some demoV := by intro es; unfold World.at; rw [World.log_roots, hr]; rfl
  have h1 := h.step (.op (gs := []) (by simp [Config.init]) (.drop 2 ⟨true, demoV⟩ hr (by simp [busyRoots, Instr.locs])))
  have h2 := h1.step (.destroyAnnotated (orc := fun _ _ => false) (tl := false) (hat []) demo_def)
  rw [dropInstrs_eq] at h2
  exact ⟨_, h2, rfl, hr, h3, hu, used_mem h (L := ⟨2, ["x"]⟩) (ty := demoT) ⟨none, [], by unfold World.at; rw [hr]; rfl⟩, by simp [ht]⟩

/-- C60: the life of the `G` is over, but it is still in memory. -/
example : ∃ c, Reachable demoU c ∧ Resides c.w 12 demoTy ⟨2, []⟩ ∧ Spent c.w 12 ∧ demoU.def? demoTy = some (demoDef, [.lt 0, .ty demoT, .ty demoTU]) ∧
    ∃ A, parseArgs (itemAttrs demoDef.item) = .ok A ∧ A.pinnedDrop = false := by
  obtain ⟨c, h, -, hr, -, -, -, ht⟩ := demo_dropping
  exact ⟨c, h, ⟨none, _, by unfold World.at; rw [hr]; rfl⟩, ⟨[.expose 12 demoTy ⟨2, []⟩, .expose 10 demoT ⟨2, ["x"]⟩], .dtor 12 ⟨2, []⟩, [], ht, rfl, by simp⟩, demo_def, demo_args⟩

/-- C61: its fields are alive, and are going to be destroyed. -/
example : ∃ c, Reachable demoU c ∧ Resides c.w 12 demoTy ⟨2, []⟩ ∧ Spent c.w 12 ∧
    Resides c.w 11 demoTU (GLoc.sub ⟨2, []⟩ ("y" :: [])) ∧ ¬ Spent c.w 11 := by
  obtain ⟨c, h, -, hr, -, -, -, ht⟩ := demo_dropping
  refine ⟨c, h, ⟨none, _, by unfold World.at; rw [hr]; rfl⟩, ⟨[.expose 12 demoTy ⟨2, []⟩, .expose 10 demoT ⟨2, ["x"]⟩], .dtor 12 ⟨2, []⟩, [], ht, rfl, by simp⟩, ⟨none, [], by unfold World.at; rw [GLoc.sub, hr]; rfl⟩, ?_⟩
  rintro ⟨pre, e, post, he, hend, -⟩
  have hm : e ∈ c.w.trace := by rw [he]; simp
  rw [ht] at hm
  simp only [List.mem_cons, List.not_mem_nil, or_false] at hm
  rcases hm with rfl | rfl | rfl
  · exact hend
  · exact hend
  · simp [Ends] at hend

/-- C61: in the end they were destroyed, and nothing is left. -/
example : ∃ c, Reachable demoU c ∧ 10 ∈ c.w.used ∧ Spent c.w 10 ∧ (∀ i ∈ c.todo, i.locs = []) := by
  obtain ⟨⟨w, todo⟩, h, rfl, hr, -, -, hu, ht⟩ := demo_dropping
  simp only at hr ht hu
  have hat : ∀ es, (w.log es).at ⟨2, []⟩ = some demoV := by intro es; unfold World.at; rw [World.log_roots, hr]; rfl
  have hx : ∀ es, (w.log es).at ⟨2, ["x"]⟩ = some demoX := by intro es; unfold World.at; rw [World.log_roots, hr]; rfl
  have hy : ∀ es, (w.log es).at ⟨2, ["y"]⟩ = some demoY := by intro es; unfold World.at; rw [World.log_roots, hr]; rfl
  have h1 := h.step (.fields (hat []))
  have h2 := h1.step (.destroyPlain (hx []) (.inl ⟨rfl, fun h => h⟩) (fun h => h))
  have h3 := h2.step .ret
  have h4 := h3.step (.fields (hx _))
  have h5 := h4.step (.destroyPlain (hy _) (.inl ⟨rfl, fun h => h⟩) (fun h => h))
  have h6 := h5.step .ret
  have h7 := h6.step (.fields (by rw [log_log]; exact hy _))
  have h8 := h7.step .free
  refine ⟨_, h8, hu, ⟨w.trace, .dtor 10 ⟨2, ["x"]⟩, [.dtor 11 ⟨2, ["y"]⟩], by simp [World.setRoot, GLoc.sub], rfl, by simp [Revives]⟩, by simp [Instr.locs]⟩

/-- C60, the exception: the destructor of a value of another type has a reference to the value, and assigns to it. Then
its destructor is called again. -/
example : ∃ c c', Reachable demoU c ∧ Usable demoU c.w c.todo ⟨3, []⟩ .excl ∧ Resides c.w 13 demoTU ⟨3, []⟩ ∧ Spent c.w 13 ∧
    InDestructor c ⟨3, []⟩ ∧ Reachable demoU c' ∧ ∃ before, c'.w.trace = before ++ [.dtor 13 ⟨3, []⟩, .dtor 13 ⟨3, []⟩] := by
  obtain ⟨⟨w, todo⟩, h, rfl, hr, ht, h3, hused⟩ := demo_exposed
  simp only at hr ht h3 hused
  have h1 := h.step (.op (gs := []) (by simp) (.build (w := w) 3 13 demoTU none [] (h3 0) (hused 0) (by simp) (by simp) (demo_plainOk _ _)))
  have h2 := h1.step (.op (gs := []) (by simp) (.build 4 14 demoTU none [] (h3 1) (by simpa using hused 1) (by simp) (by simp) (demo_plainOk _ _)))
  obtain ⟨w1, h2, hr3, hr4⟩ : ∃ w1, Reachable demoU ⟨w1, [.code []]⟩ ∧ w1.roots 3 = some ⟨false, .node 13 demoTU none []⟩ ∧
      w1.roots 4 = some ⟨false, .node 14 demoTU none []⟩ := ⟨_, h2, rfl, rfl⟩
  have hat3 : ∀ es, (w1.log es).at ⟨3, []⟩ = some (.node 13 demoTU none []) := by
    intro es; unfold World.at; rw [World.log_roots, hr3]; rfl
  have h4 := h2.step (.op (gs := []) (by simp) (.drop 3 ⟨false, .node 13 demoTU none []⟩ hr3 (by simp [busyRoots, Instr.locs])))
  have h5 := h4.step (.destroyPlain (hat3 []) (.inl ⟨rfl, fun h => h⟩) (fun h => h))
  have hus : Usable demoU (w1.log [.dtor 13 ⟨3, []⟩]) (.code [(⟨3, []⟩, .excl)] :: .fields ⟨3, []⟩ :: .free 3 :: [.code []]) ⟨3, []⟩ .excl :=
    .given (pre := []) (g := (⟨3, []⟩, .excl)) rfl List.mem_cons_self .refl (by simp [Clear])
  have h6 := h5.step (.op (gs := []) (by simp) (.set ⟨3, []⟩ .excl _ 4 (.node 14 demoTU none []) hus (.inl rfl) (hat3 _) hr4
    (by simp [busyRoots, Instr.locs]) (by simp) rfl))
  have hat6 : ((w1.log [.dtor 13 ⟨3, []⟩]).setRoot 4 none).at ⟨3, []⟩ = some (.node 13 demoTU none []) := by
    rw [World.setRoot_at_ne _ _ (by simp)]
    exact hat3 _
  have h7 := h6.step (.destroyPlain hat6 (.inl ⟨rfl, fun h => h⟩) (fun h => h))
  refine ⟨_, _, h5, hus, ⟨none, [], hat3 _⟩, ⟨w1.trace, _, [], rfl, rfl, by simp⟩, ⟨⟨_, List.mem_cons_self⟩, by simp⟩, h7, w1.trace, ?_⟩
  simp [World.setRoot]

end ClientDemo

end PinProject
