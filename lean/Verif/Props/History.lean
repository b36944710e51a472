import Verif.Sem.History
import Verif.Props.Drop
/-!
# C24: no double drop and no leak, across any history
-/
namespace PinProject
open Spec

/-- The invariant. -/
structure HState.Inv (D : Nat → Def) (s : HState) : Prop where
  status : s.m.status = .run
  live : s.live.Nodup
  values : ∀ p ∈ s.live, ∃ o fs, s.m.mem p = some o ∧ IsValue (D p).item o fs
  /-- what is held is never a guard -/
  held : ∀ v ∈ s.held, ∀ orc m, (m.status = .run ∨ m.status = .unwind) →
    ∃ es, dropVal orc v m = runAll orc es m ∧ destroyed es = v.ids
  given : s.given.Nodup
  accounts : (s.stored ++ s.heldIds ++ destroyed s.m.trace).Perm s.given

/-! ## Lemmas -/

theorem destroyed_append (a b : List Event) : destroyed (a ++ b) = destroyed a ++ destroyed b := by
  simp [destroyed, List.filterMap_append]

theorem destroyed_fieldDrops (p : Nat) (o : Obj) : destroyed (fieldDrops p o) = o.ids := by
  simp [destroyed, fieldDrops, Obj.ids, List.filterMap_map, Function.comp_def]

theorem destroyed_destroyEvents (E : Expansion) (p : Nat) (o : Obj) :
    destroyed (destroyEvents E p o) = o.ids := by
  unfold destroyEvents
  rw [destroyed_append, destroyed_fieldDrops]
  split <;> rfl

theorem flatMap_erase (f : Nat → List Id) (l : List Nat) (p : Nat) (hp : p ∈ l) :
    (l.flatMap f).Perm (f p ++ (l.erase p).flatMap f) := by
  have := (List.perm_cons_erase hp).flatMap_right f
  simpa using this

theorem flatMap_congr' {f g : Nat → List Id} {l : List Nat} (h : ∀ q ∈ l, f q = g q) :
    l.flatMap f = l.flatMap g := by
  induction l with
  | nil => rfl
  | cons a l ih =>
    simp only [List.flatMap_cons]
    rw [h a List.mem_cons_self, ih (fun q hq => h q (List.mem_cons_of_mem _ hq))]

theorem idsAt_self (mem : Nat → Option Obj) (p : Nat) (o : Obj) : idsAt (update mem p o) p = o.ids := by
  simp [idsAt, update]

theorem idsAt_ne (mem : Nat → Option Obj) {p q : Nat} (o : Obj) (h : q ≠ p) :
    idsAt (update mem p o) q = idsAt mem q := by
  simp [idsAt, update, h]

/-- The effect on the accounts of giving a place a new value. -/
theorem stored_update (D : Nat → Def) {s : HState} (hi : s.Inv D) {p : Nat} (hp : p ∈ s.live) (new : Obj) :
    (s.live.flatMap (idsAt (update s.m.mem p new))).Perm
      (new.ids ++ (s.live.erase p).flatMap (idsAt s.m.mem)) := by
  refine (flatMap_erase _ _ p hp).trans ?_
  rw [idsAt_self]
  apply List.Perm.append_left
  apply List.Perm.of_eq
  apply flatMap_congr'
  intro q hq
  have : q ≠ p := by
    rintro rfl
    exact (List.Nodup.not_mem_erase hi.live) hq
  exact idsAt_ne _ _ this

/-- Rearranging the accounts: the old value of `p` went to `out`, the new one is stored. -/
theorem accounts_swap {st stp hd dd giv new old out : List Id}
    (h : (st ++ hd ++ dd).Perm giv) (hst : st.Perm (old ++ stp)) (hout : out.Perm old) :
    ((new ++ stp) ++ (hd ++ out) ++ dd).Perm (new ++ giv) := by
  have h1 : ((new ++ stp) ++ (hd ++ out) ++ dd).Perm (new ++ ((old ++ stp) ++ hd ++ dd)) := by
    have : ((new ++ stp) ++ (hd ++ out) ++ dd).Perm ((new ++ stp) ++ (hd ++ old) ++ dd) :=
      ((hout.append_left hd).append_left _).append_right dd
    refine this.trans ?_
    rw [List.perm_iff_count]
    intro a
    simp only [List.count_append]
    omega
  refine h1.trans (List.Perm.append_left new ?_)
  exact ((hst.symm.append_right hd).append_right dd).trans h

theorem fresh_nodup {s : HState} {d : Def} {o : Obj} (hf : Fresh s d o) (hg : s.given.Nodup) :
    (o.ids ++ s.given).Nodup := by
  rw [List.nodup_append]
  exact ⟨hf.2.1, hg, fun a ha b hb he => hf.2.2 a ha (he ▸ hb)⟩

theorem owned_ids (fs : Fields) (o : Obj) (name : String) (variant : Option String) :
    (Val.adt name variant (ownedParts fs o)).ids = (unpinnedParts fs o).map Prod.snd := by
  simp only [Val.ids, ownedParts, unpinnedParts]
  generalize fs.list.zip o.fields = l
  induction l with
  | nil => rfl
  | cons x l ih =>
    rw [List.map_cons, List.flatMap_cons, List.filter_cons, ih]
    cases hp : Pinned x.1 <;> simp [FVal.ids]

theorem parts_perm {item : Item} {o : Obj} {fs : Fields} (ho : IsValue item o fs) :
    ((unpinnedParts fs o).map Prod.snd ++ (pinnedParts fs o).map Prod.snd).Perm o.ids := by
  have hlen : fs.list.length = o.fields.length := by
    have := congrArg List.length ho.fields
    simpa [labels] using this.symm
  have hz : (fs.list.zip o.fields).map (·.2) = o.fields := by
    apply List.map_snd_zip
    omega
  refine List.perm_append_comm.trans ?_
  have := (perm_split (fun x : Field × (String × Id) => Pinned x.1) (fs.list.zip o.fields)).map
    (fun x => x.2.2)
  rw [List.map_append] at this
  have h3 : (fs.list.zip o.fields).map (fun z => z.2.2) = o.fields.map Prod.snd := by
    have := congrArg (List.map Prod.snd) hz
    rwa [List.map_map] at this
  rw [h3] at this
  simpa [pinnedParts, unpinnedParts, List.map_map, Function.comp_def, Obj.ids] using this

theorem values_update {D : Nat → Def} {s : HState} (hi : s.Inv D) {p : Nat} {new : Obj} {fs : Fields}
    (hv : IsValue (D p).item new fs) :
    ∀ q ∈ s.live, ∃ o fs, update s.m.mem p new q = some o ∧ IsValue (D q).item o fs := by
  intro q hq
  by_cases h : q = p
  · subst h; exact ⟨new, fs, by simp [update], hv⟩
  · obtain ⟨o, fs', h1, h2⟩ := hi.values q hq
    exact ⟨o, fs', by simp [update, h, h1], h2⟩

theorem write_eq {m : M} (h : m.status = .run ∨ m.status = .unwind) (p : Nat) (o : Obj) :
    m.write p o = { m with mem := update m.mem p o, trace := m.trace ++ [.write p o] } := by
  rcases h with h | h <;> simp [M.write, h] <;> rfl

/-! ## Preservation -/

theorem Inv.step (D : Nat → Def) {s t : HState} (hi : s.Inv D) (h : Step D s t) : t.Inv D := by
  cases h with
  | alloc p o hp hf =>
    have hst : (HState.stored ⟨{ s.m with mem := update s.m.mem p o }, p :: s.live, s.held,
        o.ids ++ s.given⟩) = o.ids ++ s.stored := by
      simp only [HState.stored, List.flatMap_cons]
      rw [idsAt_self]
      congr 1
      apply flatMap_congr'
      intro q hq
      have : q ≠ p := by rintro rfl; exact hp hq
      exact idsAt_ne _ _ this
    obtain ⟨fs, hv⟩ := hf.1
    refine ⟨hi.status, List.nodup_cons.2 ⟨hp, hi.live⟩, ?_, hi.held, fresh_nodup hf hi.given, ?_⟩
    · intro q hq
      rcases List.mem_cons.1 hq with rfl | hq
      · exact ⟨o, fs, by simp [update], hv⟩
      · exact values_update hi hv q hq
    · rw [hst]
      have := hi.accounts.append_left o.ids
      simpa [List.append_assoc, HState.heldIds] using this
  | project p orc tl b fn hp hfn =>
    obtain ⟨o, fs, hmem, hv⟩ := hi.values p hp
    obtain ⟨name, args, -, hc⟩ := call_projection (D p).item (D p).E (D p).ok (D p).wf b fn hfn o fs hv p s.m
      hmem hi.status orc tl
    rw [hc]
    have : s.m.settle = s.m := by
      have := hi.status
      cases hm : s.m
      rw [hm] at this
      simp only at this
      simp [M.settle, this]
    simp only [this]
    exact hi
  | replace p orc tl fn new r hp hfn hf hr hna =>
    obtain ⟨o, fs, hmem, hv⟩ := hi.values p hp
    obtain ⟨nfs, hnv⟩ := hf.1
    have hfree := (D p).free _ _ hv.variant (by rw [hfn]; rfl)
    obtain ⟨name, args, -, hc⟩ := call_replace (D p).item (D p).E (D p).ok (D p).wf fn hfn o fs hv hfree p new
      s.m hmem hi.status orc tl
    rw [hr, replaceOut_eq] at hc
    have hA : (runAll orc (pinnedDrops p fs o) s.m).status ≠ .abort := by
      intro ha
      rw [ha, runAll_dead _ _ _ ha] at hc
      simp only [reduceCtorEq, if_false] at hc
      rw [hc, write_status] at hna
      exact hna ha
    obtain ⟨t1, t2, t3⟩ := runAll_trace orc _ s.m (.inl hi.status) hA
    have hdp : destroyed (pinnedDrops p fs o) = (pinnedParts fs o).map Prod.snd := by
      simp [destroyed, pinnedDrops, List.filterMap_map, Function.comp_def]
    have hdo : destroyed (ownedDrops fs o) = (unpinnedParts fs o).map Prod.snd := by
      simp [destroyed, ownedDrops, List.filterMap_map, Function.comp_def]
    have hidsp : idsAt s.m.mem p = o.ids := by simp [idsAt, hmem]
    have hst := flatMap_erase (idsAt s.m.mem) s.live p hp
    rw [hidsp] at hst
    by_cases hrun : (runAll orc (pinnedDrops p fs o) s.m).status = .run
    · rw [if_pos hrun, write_eq (.inl hrun)] at hc
      subst hc
      refine ⟨rfl, hi.live, ?_, ?_, fresh_nodup hf hi.given, ?_⟩
      · simp only [M.settle, t2]
        exact values_update hi hnv
      · intro v hvm
        simp only [Option.toList_some, List.cons_append, List.nil_append, List.mem_cons] at hvm
        rcases hvm with rfl | hvm
        · intro orc m hm
          refine ⟨ownedDrops fs o, ?_, ?_⟩
          · rw [dropVal_owned, dropOwned_eq]; rfl
          · rw [hdo, owned_ids]
        · exact hi.held v hvm
      · have hsu := stored_update D hi hp new
        have hacc := accounts_swap (new := new.ids) hi.accounts hst (parts_perm hv)
        simp only [HState.stored, HState.heldIds, M.settle, t1, t2, destroyed_append, hdp,
          Option.toList_some, List.cons_append, List.nil_append, List.flatMap_cons, owned_ids]
        refine List.Perm.trans ?_ hacc
        rw [List.perm_iff_count] at hsu ⊢
        intro a
        have := hsu a
        simp only [List.count_append] at this ⊢
        simp only [HState.heldIds, show destroyed [Event.write p new] = [] from rfl, List.count_nil]
        omega
    · have hun : (runAll orc (pinnedDrops p fs o) s.m).status = .unwind := by
        rcases t3 with h | h
        · exact absurd h hrun
        · exact h
      rw [if_neg hrun] at hc
      have hB : (runAll orc (ownedDrops fs o) (runAll orc (pinnedDrops p fs o) s.m)).status ≠ .abort := by
        rw [hc, write_status] at hna
        exact hna
      obtain ⟨u1, u2, u3⟩ := runAll_trace orc (ownedDrops fs o) _ t3 hB
      rw [write_eq u3] at hc
      subst hc
      refine ⟨rfl, hi.live, ?_, hi.held, fresh_nodup hf hi.given, ?_⟩
      · simp only [M.settle, t2, u2]
        exact values_update hi hnv
      · have hsu := stored_update D hi hp new
        have hacc := accounts_swap (new := new.ids) hi.accounts hst (parts_perm hv)
        simp only [HState.stored, HState.heldIds, M.settle, t1, t2, u1, u2, destroyed_append, hdp, hdo,
          Option.toList_none, List.nil_append]
        refine List.Perm.trans ?_ hacc
        rw [List.perm_iff_count] at hsu ⊢
        intro a
        have := hsu a
        simp only [List.count_append] at this ⊢
        simp only [HState.heldIds, show destroyed [Event.write p new] = [] from rfl, List.count_nil]
        omega
  | set p orc tl new hp hf hna =>
    obtain ⟨o, fs, hmem, hv⟩ := hi.values p hp
    obtain ⟨nfs, hnv⟩ := hf.1
    have hde := destroy_eq (D p).item (D p).E (D p).ok p o s.m hmem (.inl hi.status) orc tl
    unfold assign at hna ⊢
    rw [hde] at hna ⊢
    rw [write_status] at hna
    obtain ⟨t1, t2, t3⟩ := runAll_trace orc _ s.m (.inl hi.status) hna
    rw [write_eq t3]
    have hidsp : idsAt s.m.mem p = o.ids := by simp [idsAt, hmem]
    have hst := flatMap_erase (idsAt s.m.mem) s.live p hp
    rw [hidsp] at hst
    refine ⟨rfl, hi.live, ?_, hi.held, fresh_nodup hf hi.given, ?_⟩
    · simp only [M.settle, t2]
      exact values_update hi hnv
    · have hsu := stored_update D hi hp new
      have hacc := accounts_swap (new := new.ids) hi.accounts hst (List.Perm.refl o.ids)
      simp only [HState.stored, HState.heldIds, M.settle, t1, t2, destroyed_append,
        destroyed_destroyEvents]
      refine List.Perm.trans ?_ hacc
      rw [List.perm_iff_count] at hsu ⊢
      intro a
      have := hsu a
      simp only [List.count_append] at this ⊢
      simp only [HState.heldIds, show destroyed [Event.write p new] = [] from rfl, List.count_nil]
      omega
  | drop p orc tl hp hna =>
    obtain ⟨o, fs, hmem, hv⟩ := hi.values p hp
    have hde := destroy_eq (D p).item (D p).E (D p).ok p o s.m hmem (.inl hi.status) orc tl
    rw [hde] at hna ⊢
    obtain ⟨t1, t2, t3⟩ := runAll_trace orc _ s.m (.inl hi.status) hna
    have hidsp : idsAt s.m.mem p = o.ids := by simp [idsAt, hmem]
    have hst := flatMap_erase (idsAt s.m.mem) s.live p hp
    rw [hidsp] at hst
    refine ⟨rfl, hi.live.erase p, ?_, hi.held, hi.given, ?_⟩
    · simp only [M.settle, t2]
      intro q hq
      exact hi.values q (List.mem_of_mem_erase hq)
    · have hacc := accounts_swap (new := []) hi.accounts hst (List.Perm.refl o.ids)
      simp only [HState.stored, HState.heldIds, M.settle, t1, t2, destroyed_append,
        destroyed_destroyEvents]
      refine List.Perm.trans ?_ hacc
      rw [List.perm_iff_count]
      intro a
      simp only [List.count_append, List.count_nil]
      simp only [HState.heldIds]
      omega
  | dropHeld l r v orc hh hna =>
    obtain ⟨es, he, hd⟩ := hi.held v (by rw [hh]; simp) orc s.m (.inl hi.status)
    rw [he] at hna ⊢
    obtain ⟨t1, t2, t3⟩ := runAll_trace orc _ s.m (.inl hi.status) hna
    refine ⟨rfl, hi.live, ?_, ?_, hi.given, ?_⟩
    · simp only [M.settle, t2]; exact hi.values
    · intro w hw
      apply hi.held w
      rw [hh]
      simp only [List.mem_append, List.mem_cons] at hw ⊢
      rcases hw with h | h
      · exact .inl h
      · exact .inr (.inr h)
    · have hacc := hi.accounts
      simp only [HState.stored, HState.heldIds, M.settle, t1, t2, destroyed_append, hd]
      simp only [HState.stored, HState.heldIds, hh] at hacc
      refine List.Perm.trans ?_ hacc
      rw [List.perm_iff_count]
      intro a
      simp only [List.count_append, List.flatMap_append, List.flatMap_cons]
      omega
  | move p q o hp hq hD hmem =>
    obtain ⟨o', fs, hmem', hv⟩ := hi.values p hp
    rw [hmem] at hmem'
    obtain rfl := Option.some.inj hmem'
    have hidsp : idsAt s.m.mem p = o.ids := by simp [idsAt, hmem]
    have hst := flatMap_erase (idsAt s.m.mem) s.live p hp
    rw [hidsp] at hst
    refine ⟨hi.status, List.nodup_cons.2 ⟨fun h => hq (List.mem_of_mem_erase h), hi.live.erase p⟩, ?_,
      hi.held, hi.given, ?_⟩
    · intro x hx
      rcases List.mem_cons.1 hx with rfl | hx'
      · exact ⟨o, fs, by simp [update], by rw [← hD]; exact hv⟩
      · have hne : x ≠ q := by intro he; exact hq (he ▸ List.mem_of_mem_erase hx')
        obtain ⟨o2, fs2, h1, h2⟩ := hi.values x (List.mem_of_mem_erase hx')
        exact ⟨o2, fs2, by simp [update, hne, h1], h2⟩
    · have hs : HState.stored ⟨{ s.m with mem := update s.m.mem q o },
          q :: s.live.erase p, s.held, s.given⟩ = o.ids ++ (s.live.erase p).flatMap (idsAt s.m.mem) := by
        simp only [HState.stored, List.flatMap_cons]
        rw [idsAt_self]
        congr 1
        apply flatMap_congr'
        intro x hx
        have : x ≠ q := by rintro rfl; exact hq (List.mem_of_mem_erase hx)
        exact idsAt_ne _ _ this
      rw [hs]
      refine List.Perm.trans ?_ hi.accounts
      exact (hst.symm.append_right _).append_right _
  | destructure p o hp hmem hdf =>
    have hidsp : idsAt s.m.mem p = o.ids := by simp [idsAt, hmem]
    have hst := flatMap_erase (idsAt s.m.mem) s.live p hp
    rw [hidsp] at hst
    refine ⟨hi.status, hi.live.erase p, ?_, ?_, hi.given, ?_⟩
    · intro q hq
      exact hi.values q (List.mem_of_mem_erase hq)
    · intro v hv
      rcases List.mem_append.1 hv with hv | hv
      · obtain ⟨i, _, rfl⟩ := List.mem_map.1 hv
        intro orc m _
        exact ⟨[.drop i none], rfl, rfl⟩
      · exact hi.held v hv
    · have hacc := accounts_swap (new := []) hi.accounts hst (List.Perm.refl o.ids)
      have hh : (o.ids.map (fun i => Val.fv (.own i))).flatMap Val.ids = o.ids := by
        generalize o.ids = l
        induction l with
        | nil => rfl
        | cons a l ih => simp [Val.ids, FVal.ids, ih]
      simp only [HState.stored, HState.heldIds, List.flatMap_append, hh]
      refine List.Perm.trans ?_ hacc
      rw [List.perm_iff_count]
      intro a
      simp only [List.count_append, List.count_nil]
      simp only [HState.heldIds]
      omega

theorem Inv.init (D : Nat → Def) : HState.init.Inv D :=
  ⟨rfl, List.nodup_nil, by simp [HState.init], by simp [HState.init], List.nodup_nil, List.Perm.refl _⟩

theorem Inv.steps (D : Nat → Def) {s t : HState} (hi : s.Inv D) (h : Steps D s t) : t.Inv D := by
  induction h with
  | refl => exact hi
  | tail _ h ih => exact Inv.step D ih h

/-- **C24** After any history of operations, with any panics, every field value ever created is in
exactly one of three states: stored in exactly one place in use, held by the program exactly once, or
destroyed exactly once. (The process has not aborted in a reachable state.) -/
theorem C24_exactly_one (D : Nat → Def) (s : HState) (h : Steps D HState.init s) (id : Id)
    (hid : id ∈ s.given) :
    s.stored.count id + s.heldIds.count id + (destroyed s.m.trace).count id = 1 := by
  have hi := Inv.steps D (Inv.init D) h
  have := hi.accounts.count_eq id
  rw [List.count_append, List.count_append] at this
  rw [this, hi.given.count]
  simp [hid]

/-- **C24**, in particular nothing is destroyed twice. -/
theorem C24_no_double_drop (D : Nat → Def) (s : HState) (h : Steps D HState.init s) :
    (destroyed s.m.trace).Nodup := by
  have hi := Inv.steps D (Inv.init D) h
  have h1 := hi.accounts.nodup_iff.2 hi.given
  rw [List.nodup_append] at h1
  exact h1.2.1

/-- **C24**, and nothing is lost: once nothing is stored or held any more, everything that was ever
created has been destroyed. -/
theorem C24_no_leak (D : Nat → Def) (s : HState) (h : Steps D HState.init s) (h1 : s.live = [])
    (h2 : s.held = []) : (destroyed s.m.trace).Perm s.given := by
  have hi := Inv.steps D (Inv.init D) h
  have := hi.accounts
  simpa [HState.stored, HState.heldIds, h1, h2] using this

/-- **C24**, the program never gets stuck or lost in an unfinished panic. -/
theorem C24_status (D : Nat → Def) (s : HState) (h : Steps D HState.init s) : s.m.status = .run :=
  (Inv.steps D (Inv.init D) h).status

/-! ## A history that meets the hypotheses -/

theorem demoReplace_ok : ∃ E, parseDerive (.struct_ demoReplace) = .ok E := ⟨_, rfl⟩

noncomputable def demoDef : Def where
  item := .struct_ demoReplace
  E := Classical.choose demoReplace_ok
  ok := Classical.choose_spec demoReplace_ok
  wf := demoReplace_wf
  free := by
    rintro variant fs ⟨-, rfl⟩ -
    exact demoReplace_free

/-- Allocate, replace, drop the returned value, drop the place: four steps; in the end the six values
have been destroyed. -/
example : ∃ s, Steps (fun _ => demoDef) HState.init s ∧ s.live = [] ∧ s.held = [] ∧
    s.given = [4, 5, 6, 1, 2, 3] := by
  have hE : parseDerive (.struct_ demoReplace) = .ok demoDef.E := demoDef.ok
  obtain ⟨fn, hfn⟩ : ∃ fn, method demoDef.E "project_replace" = some fn := by
    have : parseDerive (.struct_ demoReplace) = .ok _ := rfl
    rw [this] at hE
    rw [← Except.ok.inj hE]
    exact ⟨_, rfl⟩
  let orc : Oracle := fun _ _ => false
  have s1 := Step.alloc (D := fun _ => demoDef) (s := HState.init) 9 demoOld (by simp [HState.init])
    ⟨⟨_, demoOld_isValue⟩, by decide, by simp [HState.init]⟩
  generalize hs1 : (HState.mk _ _ _ _) = t1 at s1
  have i1 := Inv.step _ (Inv.init _) s1
  have m1 : t1.m.mem 9 = some demoOld := by rw [← hs1]; simp [update]
  obtain ⟨name, args, -, hc⟩ := C20_project_replace _ _ demoDef.ok demoDef.wf fn hfn demoOld _ demoOld_isValue
    demoReplace_free 9 demoNew t1.m m1 i1.status orc false (by
      have : t1.m.trace = [] := by rw [← hs1]; rfl
      rw [this]; decide)
  have s2 := Step.replace (D := fun _ => demoDef) (s := t1) 9 orc false fn demoNew _
    (by rw [← hs1]; simp) hfn
    ⟨⟨_, demoNew_isValue⟩, by decide, by rw [← hs1]; decide⟩ hc (by simp)
  generalize hs2 : (HState.mk _ _ _ _) = t2 at s2
  have hh2 : t2.held = [.adt name none (ownedParts demoReplace.fields demoOld)] := by
    rw [← hs2, ← hs1]; rfl
  have s3 := Step.dropHeld (D := fun _ => demoDef) (s := t2) [] [] _ orc hh2 (by
    rw [dropVal_owned, dropOwned_eq]
    have i2 := Inv.step _ i1 s2
    have hp : ∀ tr es, panics orc tr es = 0 := by
      intro tr es
      induction es generalizing tr with
      | nil => rfl
      | cons e es ih => simp [panics, ih, orc]
    rw [(runAll_run orc _ t2.m i2.status).1 (hp _ _), i2.status]
    simp)
  have i3 := Inv.step _ (Inv.step _ i1 s2) s3
  generalize hs3 : ({ t2 with m := _, held := _ } : HState) = t3 at s3 i3
  have l3 : t3.live = [9] := by rw [← hs3, ← hs2, ← hs1]; rfl
  obtain ⟨o3, fs3, hm3, -⟩ := i3.values 9 (by rw [l3]; simp)
  have s4 := Step.drop (D := fun _ => demoDef) (s := t3) 9 orc false (by rw [l3]; simp) (by
    rw [destroy_eq _ _ demoDef.ok 9 o3 t3.m hm3 (.inl i3.status) orc false]
    have hp : ∀ tr es, panics orc tr es = 0 := by
      intro tr es
      induction es generalizing tr with
      | nil => rfl
      | cons e es ih => simp [panics, ih, orc]
    rw [(runAll_run orc _ t3.m i3.status).1 (hp _ _), i3.status]
    simp)
  refine ⟨_, .tail (.tail (.tail (.tail (.refl _) s1) s2) s3) s4, ?_, ?_, ?_⟩
  · simp [l3]
  · rw [← hs3]; rfl
  · simp only; rw [← hs3, ← hs2, ← hs1]; rfl

end PinProject
