import Verif.Props.ClientKept
/-!
# Only a type with a destructor of its own has user code running for a dead value
-/
namespace PinProject
open Spec

/-- The type has a destructor that the user wrote, as far as one can know. -/
def Noisy (U : Universe) (ty : Ty) : Prop := ∀ d args, U.def? ty = some (d, args) → dropFn d.E ≠ none

/-- Running destructors belong to values of such types. -/
def CodeTy (U : Universe) (c : Config) : Prop :=
  ∀ gs, .code gs ∈ c.todo → ∀ g ∈ gs, ∃ v, c.w.at g.1 = some v ∧ Noisy U v.ty

/-- The type of what is at `G` does not change. -/
def SameTy (w w' : World) (G : GLoc) : Prop := ∀ v, w.at G = some v → ∃ v', w'.at G = some v' ∧ v'.ty = v.ty

theorem sameTy_put {w : World} {X G : GLoc} {old v : V} (hat : w.at X = some old) (ht : v.ty = old.ty) (hn : ¬ X.Above G) :
    SameTy w (w.put X v) G := by
  intro u hu
  by_cases hc : X.Contains G
  · rcases hc.eq_or_above with rfl | h
    · rw [hat] at hu
      obtain rfl := Option.some.inj hu
      exact ⟨v, World.put_at w hat v, ht⟩
    · exact (hn h).elim
  · have := World.put_head w hc v
    rw [hu] at this
    cases hq : (w.put X v).at G with
    | none => rw [hq] at this; cases this
    | some u' =>
      rw [hq] at this
      refine ⟨u', rfl, ?_⟩
      simp only [Option.map_some, Option.some.injEq] at this
      cases u <;> cases u' <;> simp_all [V.head, V.ty]

theorem SameTy.trans {w w' w'' : World} {G : GLoc} (h : SameTy w w' G) (h' : SameTy w' w'' G) : SameTy w w'' G := by
  intro v hv
  obtain ⟨v', hv', ht⟩ := h v hv
  obtain ⟨v'', hv'', ht'⟩ := h' v' hv'
  exact ⟨v'', hv'', ht'.trans ht⟩

theorem sameTy_setRoot {w : World} {r : Nat} {x : Option Slot} {G : GLoc} (hn : G.root ≠ r) : SameTy w (w.setRoot r x) G :=
  fun v hv => ⟨v, by rw [World.setRoot_at_ne _ _ hn]; exact hv, rfl⟩

theorem sameTy_of_at {w w' : World} {G : GLoc} (h : w'.at G = w.at G) : SameTy w w' G := fun v hv => ⟨v, h.trans hv, rfl⟩

theorem CodeTy.keep {U : Universe} {c c' : Config} (h : CodeTy U c)
    (hn : ∀ gs, .code gs ∈ c'.todo → ∀ g ∈ gs, (.code gs ∈ c.todo ∧ SameTy c.w c'.w g.1) ∨ ∃ v, c'.w.at g.1 = some v ∧ Noisy U v.ty) :
    CodeTy U c' := by
  intro gs hgs g hg
  rcases hn gs hgs g hg with ⟨h1, h2⟩ | h1
  · obtain ⟨v, hv, ht⟩ := h gs h1 g hg
    obtain ⟨v', hv', he⟩ := h2 v hv
    exact ⟨v', hv', he ▸ ht⟩
  · exact h1

theorem code_busy {todo : List Instr} {gs : List (GLoc × Mode)} (h : .code gs ∈ todo) {g : GLoc × Mode} (hg : g ∈ gs) {r : Nat}
    (hr : r ∉ busyRoots todo) : g.1.root ≠ r := by
  rintro rfl
  exact hr (mem_busyRoots.2 ⟨_, h, g.1, List.mem_map.2 ⟨g, hg, rfl⟩, rfl⟩)

theorem codeTy_op {U : Universe} {w w' : World} {todo is : List Instr} (hreach : Reachable U ⟨w, todo⟩) (h : CodeTy U ⟨w, todo⟩)
    (hop : Op U todo w w' is) : CodeTy U ⟨w', is ++ todo⟩ := by
  have hi := reachable_inv hreach
  have ho := reachable_own hreach
  have old : (∀ gs, .code gs ∈ is → False) → (∀ gs, .code gs ∈ todo → ∀ g ∈ gs, SameTy w w' g.1) → CodeTy U ⟨w', is ++ todo⟩ := by
    intro hno hs
    refine h.keep (fun gs hgs g hg => ?_)
    rcases List.mem_append.1 hgs with hm | hm
    · exact (hno gs hm).elim
    · exact .inl ⟨hm, hs gs hm g hg⟩
  have above : ∀ {X : GLoc} {k : Mode}, Usable U w todo X k → ∀ gs, .code gs ∈ todo → ∀ g ∈ gs, ¬ X.Above g.1 := by
    intro X k hX gs hgs g hg
    exact (hX.where hi.frame.shaped).not_above ho.nest _ hgs g.1 (List.mem_map.2 ⟨g, hg, rfl⟩)
  cases hop with
  | build r id ty variant parts hr hid hn hp _ =>
    refine old (by simp) (fun gs hgs g hg => sameTy_of_at ?_)
    have h1 := code_busy hgs hg (hi.notBusy hr)
    unfold World.at
    change ((((w.take _).setRoot r _).roots g.1.root).bind _) = _
    rw [World.setRoot_ne _ _ h1]
    unfold World.take
    simp only
    rw [if_neg]
    intro hm
    obtain ⟨x, hx, he⟩ := List.mem_map.1 hm
    exact code_busy hgs hg (hp x hx).2 he.symm
  | move r q v hr hb hq =>
    refine old (by simp) (fun gs hgs g hg => ?_)
    exact (sameTy_setRoot (code_busy hgs hg hb)).trans (sameTy_setRoot (code_busy hgs hg (hi.notBusy hq)))
  | pin r v hr hb => exact old (by simp) (fun gs hgs g hg => sameTy_setRoot (code_busy hgs hg hb))
  | unpin r v hr hb hu => exact old (by simp) (fun gs hgs g hg => sameTy_setRoot (code_busy hgs hg hb))
  | expose => exact old (by simp) (fun gs hgs g hg => sameTy_of_at rfl)
  | swap X Y u v hX hY hd hu hv ht =>
    refine old (by simp) (fun gs hgs g hg => ?_)
    have h1 := sameTy_put (v := v) hu ht.symm (above hX gs hgs g hg)
    have hY' : (w.put X v).at Y = some v := by rw [World.put_disjoint w hd]; exact hv
    exact h1.trans (sameTy_put (v := u) hY' ht (above hY gs hgs g hg))
  | set X k u r new hX _ hu hr hb hne ht =>
    exact old (by simp) (fun gs hgs g hg => sameTy_setRoot (code_busy hgs hg hb))
  | replace L id ty va fs d args fn r id' va' fs' orc tl res hL hat hdef hfn hr hb hne hcall hna =>
    obtain ⟨pins, outs, backs, heq, -⟩ :=
      replace_facts (hi.frame.typed.at hat).nodeOk hdef hfn L id' va' fs' orc tl res hcall hna
    refine old ?_ (fun gs hgs g hg => ?_)
    · intro gs hm
      rw [heq] at hm
      simp at hm
    · have hat1 : (w.setRoot r none).at L = some (.node id ty va fs) := by
        rw [World.setRoot_at_ne _ _ hne.symm]; exact hat
      have h1 := sameTy_put (v := .node id ty va (punch (movedOut res) fs)) hat1 rfl (above hL gs hgs g hg)
      exact (sameTy_setRoot (code_busy hgs hg hb)).trans (h1.trans (sameTy_of_at rfl))
  | drop r x hx hb => exact old (by simp) (fun gs hgs g hg => sameTy_of_at rfl)
  | forget r v hr hb =>
    exact old (by simp) (fun gs hgs g hg => (sameTy_setRoot (code_busy hgs hg hb)).trans (sameTy_of_at rfl))
  | destructure r id ty va fs hr hb _ =>
    refine old ?_ (fun gs hgs g hg => (sameTy_setRoot (code_busy hgs hg hb)).trans (sameTy_of_at rfl))
    intro gs hm
    simp at hm

theorem codeTy_step {U : Universe} {c c' : Config} (hreach : Reachable U c) (h : CodeTy U c) (hs : CStep U c c') : CodeTy U c' := by
  have hi := reachable_inv hreach
  have ho := reachable_own hreach
  have pop : ∀ {w : World} {i : Instr} {is rest : List Instr} {es : List PEvent}, CodeTy U ⟨w, i :: rest⟩ →
      (∀ gs, .code gs ∈ is → ∀ g ∈ gs, ∃ v, w.at g.1 = some v ∧ Noisy U v.ty) → CodeTy U ⟨w.log es, is ++ rest⟩ := by
    intro w i is rest es h hn
    refine h.keep (fun gs hgs g hg => ?_)
    rcases List.mem_append.1 hgs with hm | hm
    · exact .inr (hn gs hm g hg)
    · exact .inl ⟨List.mem_cons_of_mem _ hm, sameTy_of_at rfl⟩
  have pop' : ∀ {w : World} {i : Instr} {is rest : List Instr}, CodeTy U ⟨w, i :: rest⟩ →
      (∀ gs, .code gs ∉ is) → CodeTy U ⟨w, is ++ rest⟩ := by
    intro w i is rest h hn
    have := pop (es := []) h (is := is) (fun gs hm => (hn gs hm).elim)
    rwa [log_nil] at this
  have one : ∀ {w : World} {L : GLoc} {k : Mode} {v : V}, w.at L = some v → Noisy U v.ty → ∀ gs, Instr.code gs ∈ [Instr.code [(L, k)]] →
      ∀ g ∈ gs, ∃ v, w.at g.1 = some v ∧ Noisy U v.ty := by
    intro w L k v hv hn gs hgs g hg
    rw [List.mem_singleton] at hgs
    cases hgs
    rw [List.mem_singleton] at hg
    subst hg
    exact ⟨v, hv, hn⟩
  cases hs with
  | op _ hop => exact codeTy_op hreach h hop
  | sched hc => exact h.keep (fun gs hgs g hg => .inl ⟨mem_sched.1 hgs, sameTy_of_at rfl⟩)
  | ret => exact pop' (is := []) h (by simp)
  | @destroyPlain w L id ty va fs rest hat hty _ =>
    refine pop (is := [.code [(L, .excl)], .fields L]) h ?_
    intro gs hgs
    refine one hat ?_ gs (by simpa using hgs)
    intro d args hd
    rcases hty with hp | hu
    · have := hp.1.symm.trans hd; cases this
    · exact (no_user_drop U hd ((hi.frame.typed.at hat).nodeOk.1 d args hd).1 hu).elim
  | @destroyAnnotated w L id ty va fs d args orc tl rest hat hdef =>
    rw [dropInstrs_eq]
    have : ∀ is : List Instr, is ++ .fields L :: rest = (is ++ [.fields L]) ++ rest := by simp
    rw [this]
    refine pop h ?_
    intro gs hgs
    split at hgs
    · rename_i hsome
      refine one hat ?_ gs (by simpa using hgs)
      intro d' args' hd' hnone
      have := hdef.symm.trans hd'
      cases this
      rw [hnone] at hsome
      cases hsome
    · simp at hgs
  | @destroyStructural w L id ty va fs rest hat hst =>
    refine pop (is := [.code [(L, .pinExcl)], .fields L]) h ?_
    intro gs hgs
    refine one hat ?_ gs (by simpa using hgs)
    intro d args hd
    obtain ⟨n, he, hn⟩ := def?_adt hd
    have he : ty = _ := he
    subst he
    have := U.foreign n _ hst
    rw [this] at hn
    cases hn
  | @fieldsPacked w L id ty va fs d args rest hat hdef hp => exact (not_packed d hp).elim
  | fields hat => exact pop' h (by simp)
  | destroyHole hat => exact pop' (is := []) h (by simp)
  | fieldsHole hat => exact pop' (is := []) h (by simp)
  | @store w L u v rest hat ht =>
    refine h.keep (fun gs hgs g hg => .inl ⟨List.mem_cons_of_mem _ hgs, ?_⟩)
    refine (sameTy_put (v := v) hat ht.symm ?_).trans (sameTy_of_at rfl)
    exact ho.nest.1 L (by simp [Instr.locs]) _ hgs g.1 (List.mem_map.2 ⟨g, hg, rfl⟩)
  | @free w r rest =>
    refine h.keep (fun gs hgs g hg => .inl ⟨List.mem_cons_of_mem _ hgs, ?_⟩)
    exact sameTy_setRoot (code_busy hgs hg (hi.frame.freeOk.1 r rfl))
  | @place w v r rest hr =>
    refine h.keep (fun gs hgs g hg => .inl ⟨List.mem_cons_of_mem _ hgs, ?_⟩)
    exact sameTy_setRoot (code_busy (List.mem_cons_of_mem _ hgs) hg (hi.notBusy hr))
  | @discard w v r rest hr =>
    refine h.keep (fun gs hgs g hg => .inl ⟨?_, ?_⟩)
    · simp at hgs; exact List.mem_cons_of_mem _ hgs
    · simp at hgs
      exact sameTy_setRoot (code_busy (List.mem_cons_of_mem _ hgs) hg (hi.notBusy hr))

theorem reachable_codeTy {U : Universe} {c : Config} (h : Reachable U c) : CodeTy U c := by
  induction h with
  | init =>
    intro gs hgs g hg
    simp only [Config.init, List.mem_singleton] at hgs
    cases hgs
    cases hg
  | step h hs ih => exact codeTy_step h ih hs

end PinProject
