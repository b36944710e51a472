import Verif.Props.ClientOwnStep
/-!
# No value disappears
-/
namespace PinProject
open Spec

/-! ## Identities and paths -/

/-- What is in a value is found on some path. -/
theorem has_of_mem {U : Universe} {v : V} (hok : v.Ok U) {a : Id} (h : a ∈ v.ids) : ∃ p, v.Has p a := by
  induction hok with
  | hole t => cases h
  | @node id ty va fs hn _ ih =>
    rw [V.ids, List.mem_cons] at h
    rcases h with rfl | h
    · exact ⟨[], ty, va, fs, rfl⟩
    · rw [idsIn_eq, List.mem_flatMap] at h
      obtain ⟨u, hu, ha⟩ := h
      obtain ⟨⟨f, u⟩, hx, rfl⟩ := List.mem_map.1 hu
      obtain ⟨p, ty', va', fs', hp⟩ := ih _ hx ha
      refine ⟨f :: p, ty', va', fs', ?_⟩
      simp only [V.get, lookup_unique hn.2.2 hx]
      exact hp

/-- The value is somewhere. -/
def Present (c : Config) (a : Id) : Prop := ∃ i, 0 < cnt c.w c.todo a i

theorem present_root {w : World} {todo : List Instr} {r : Nat} {x : Slot} {a : Id} (hx : w.roots r = some x)
    (h : a ∈ x.val.ids) : Present ⟨w, todo⟩ a := ⟨some r, by rw [cnt_some hx]; exact List.count_pos_iff.2 h⟩

theorem present_id {w : World} {todo : List Instr} {L : GLoc} {v : V} {a : Id} (h : w.at L = some v)
    (hv : v.id? = some a) : Present ⟨w, todo⟩ a := by
  obtain ⟨x, hx, hg⟩ := at_some h
  refine present_root hx (List.count_pos_iff.1 ?_)
  have := get_count hg a
  have := has_mem (id_has hv)
  omega

theorem present_isAt {U : Universe} {c : Config} (hi : Inv U c) {a : Id} : Present c a ↔ ∃ P, IsAt c a P := by
  constructor
  · rintro ⟨i, h⟩
    cases i with
    | none =>
      rw [cnt_held, heldCnt, List.count_pos_iff, List.mem_flatMap] at h
      obtain ⟨v, hv, ha⟩ := h
      obtain ⟨i, hm, hvi⟩ := List.mem_flatMap.1 hv
      obtain ⟨p, ty, va, fs, hp⟩ := has_of_mem (hi.frame.vals i hm v hvi) ha
      obtain ⟨n, hn⟩ := List.getElem?_of_mem hv
      exact ⟨.held n p, ty, va, fs, by simp [find, hn, hp]⟩
    | some r =>
      cases hx : c.w.roots r with
      | none => rw [cnt_none hx] at h; omega
      | some x =>
        rw [cnt_some hx, List.count_pos_iff] at h
        obtain ⟨p, ty, va, fs, hp⟩ := has_of_mem (hi.frame.typed r x hx) h
        exact ⟨.mem ⟨r, p⟩, ty, va, fs, by simp [find, World.at, hx, hp]⟩
  · rintro ⟨P, ty, va, fs, h⟩
    cases P with
    | mem L => exact present_id h rfl
    | held n p =>
      obtain ⟨v, hv, hg⟩ := Option.bind_eq_some_iff.1 h
      refine ⟨none, ?_⟩
      rw [cnt_held, heldCnt]
      have := held_count hv a
      have := has_mem ⟨ty, va, fs, hg⟩
      omega

/-! ## Values stay present -/

theorem Present.transfer {c c' : Config} {a : Id} (h : Present c a) (S : List (Option Nat))
    (hout : ∀ j, j ∉ S → cnt c'.w c'.todo a j = cnt c.w c.todo a j)
    (hin : total (cnt c.w c.todo a) S ≤ total (cnt c'.w c'.todo a) S) : Present c' a := by
  obtain ⟨i, h⟩ := h
  by_cases hi : i ∈ S
  · have := le_total (g := cnt c.w c.todo a) hi
    have hp : total (cnt c'.w c'.todo a) S ≠ 0 := by omega
    refine Classical.byContradiction (fun hn => hp (total_zero (fun j _ => ?_)))
    cases hc : cnt c'.w c'.todo a j with
    | zero => rfl
    | succ n => exact (hn ⟨j, by omega⟩).elim
  · exact ⟨i, by rw [hout i hi]; exact h⟩

theorem Moves.present {c c' : Config} (hm : Moves c c') {a : Id} (h : Present c a) : Present c' a := by
  obtain ⟨S, -, h2, h3⟩ := hm
  exact h.transfer S (fun j hj => h2 j hj a) (Nat.le_of_eq (h3 a).symm)

theorem Present.root {w : World} {todo todo' : List Instr} {a : Id} (h : Present ⟨w, todo⟩ a) (r : Nat) (x : Option Slot)
    (hc : cnt w todo a (some r) + heldCnt todo a ≤ cnt (w.setRoot r x) todo' a (some r) + heldCnt todo' a) :
    Present ⟨w.setRoot r x, todo'⟩ a := by
  refine h.transfer [some r, none] ?_ ?_
  · intro j hj
    cases j with
    | none => simp at hj
    | some q => exact cnt_agree (World.setRoot_ne _ _ (by simpa using hj))
  · simp only [total_cons, total_nil, cnt_held]
    omega

theorem Present.todo {w w' : World} {todo todo' : List Instr} {a : Id} (h : Present ⟨w, todo⟩ a) (hr : w'.roots = w.roots)
    (hc : heldCnt todo a ≤ heldCnt todo' a) : Present ⟨w', todo'⟩ a := by
  refine h.transfer [none] ?_ ?_
  · intro j hj
    cases j with
    | none => simp at hj
    | some q => exact cnt_agree (by simp only [hr])
  · simp only [total_cons, total_nil, cnt_held]
    omega

theorem present_build {w : World} {todo : List Instr} {a : Id} (h : Present ⟨w, todo⟩ a) (r : Nat) (id : Id) (ty : Ty)
    (variant : Option String) (parts : List (String × Nat × V)) (hr : w.roots r = none)
    (hp : ∀ x ∈ parts, w.roots x.2.1 = some ⟨false, x.2.2⟩) :
    Present ⟨{ (w.take (parts.map (·.2.1))).setRoot r
            (some ⟨false, .node id ty variant (parts.map (fun x => (x.1, x.2.2)))⟩) with used := id :: w.used }, todo⟩ a := by
  have hbefore : total (cnt w todo a) (parts.map (fun x => some x.2.1)) =
      (V.idsIn (parts.map (fun x => (x.1, x.2.2)))).count a := by
    induction parts with
    | nil => rfl
    | cons x parts ih =>
      rw [List.map_cons, total_cons, ih (fun y hy => hp y (List.mem_cons_of_mem _ hy)), cnt_some (hp x List.mem_cons_self),
        List.map_cons, V.idsIn, List.count_append]
  refine h.transfer (some r :: parts.map (fun x => some x.2.1)) ?_ ?_
  · intro j hj
    cases j with
    | none => rfl
    | some q =>
      apply cnt_agree
      simp only [List.mem_cons, Option.some.injEq, List.mem_map, not_or] at hj
      change ((w.take (parts.map (·.2.1))).setRoot r _).roots q = _
      rw [World.setRoot_ne _ _ hj.1]
      unfold World.take
      simp only
      rw [if_neg]
      intro hm
      obtain ⟨x, hx, he⟩ := List.mem_map.1 hm
      exact hj.2 ⟨x, hx, he⟩
  · have hnew : cnt ({ (w.take (parts.map (·.2.1))).setRoot r
            (some ⟨false, .node id ty variant (parts.map (fun x => (x.1, x.2.2)))⟩) with used := id :: w.used }) todo a
            (some r) = (V.ids (.node id ty variant (parts.map (fun x => (x.1, x.2.2))))).count a :=
      cnt_some (todo := todo) (World.setRoot_self _ _ _)
    simp only [total_cons, hnew, hbefore, cnt_none hr]
    rw [V.ids, List.count_cons]
    omega

/-! ## What becomes of a value -/

/-- Its life is over, or the program gave it up. -/
def Gone (w : World) (a : Id) : Prop := Spent w a ∨ .forgot a ∈ w.trace

theorem Gone.log {w : World} {a : Id} (h : Gone w a) {es : List PEvent} (he : ∀ e ∈ es, ¬ Revives a e) : Gone (w.log es) a := by
  rcases h with h | h
  · exact .inl ((spent_end he).2 (.inr h))
  · exact .inr (by rw [World.log_trace]; exact List.mem_append_left _ h)

theorem Gone.congr {w w' : World} {a : Id} (h : Gone w a) (ht : w'.trace = w.trace) : Gone w' a := by
  rcases h with h | h
  · exact .inl ((spent_congr ht a).2 h)
  · exact .inr (ht ▸ h)

/-- After the step the value is present, if it was; or gone, if it was that; or else the step made it so. -/
def StaysOrGone (c c' : Config) : Prop :=
  (∀ a, Present c a → Present c' a ∨ Gone c'.w a) ∧ (∀ a, ¬ Present c a → Gone c.w a → Gone c'.w a) ∧
  ∀ a ∈ c'.w.used, a ∈ c.w.used ∨ Present c' a

theorem kept_plain {c c' : Config} (hp : ∀ a, Present c a → Present c' a ∨ Gone c'.w a) {es : List PEvent}
    (ht : c'.w.trace = c.w.trace ++ es) (he : ∀ a, ∀ e ∈ es, ¬ Revives a e) (hu : c'.w.used = c.w.used) : StaysOrGone c c' := by
  refine ⟨hp, ?_, fun a ha => .inl (hu ▸ ha)⟩
  intro a _ hg
  exact (hg.log (he a)).congr (w' := c'.w) ht

/-- A value that is overwritten or freed is dead. -/
theorem doomed_spent {c : Config} (h : Own c) {i : Instr} {rest : List Instr} (ht : c.todo = i :: rest) {L : GLoc} {a : Id} {ty : Ty}
    (hr : Resides c.w a ty L) (hd : i.Dooms L) (hc : ¬ i.Covers L) : Spent c.w a := by
  refine Classical.byContradiction (fun hn => ?_)
  have := h.unspent a ty L hr hn
  rw [ht] at this
  rcases this with h | ⟨h, -⟩
  · exact hc h
  · exact h hd

theorem kept_op {U : Universe} {w w' : World} {todo is : List Instr} (hi : Inv U ⟨w, todo⟩) (hop : Op U todo w w' is) :
    StaysOrGone ⟨w, todo⟩ ⟨w', is ++ todo⟩ := by
  cases hop with
  | build r id ty variant parts hr hid hn hp _ =>
    refine ⟨fun a h => .inl (present_build h r id ty variant parts hr (fun x hx => (hp x hx).1)), fun a _ h => h.congr rfl, ?_⟩
    intro a ha
    rcases List.mem_cons.1 ha with rfl | ha
    · right
      refine present_root (r := r) (World.setRoot_self _ _ _) ?_
      simp [V.ids]
    · exact .inl ha
  | move r q v hr hb hq =>
    have hne : r ≠ q := by
      rintro rfl
      rw [hr] at hq
      cases hq
    refine kept_plain (es := []) (fun a h => .inl (h.transfer [some r, some q] ?_ ?_)) (by simp [World.setRoot]) (by simp) rfl
    · intro j hj
      cases j with
      | none => rfl
      | some s =>
        simp only [List.mem_cons, Option.some.injEq, List.not_mem_nil, or_false, not_or] at hj
        apply cnt_agree
        rw [World.setRoot_ne _ _ hj.2, World.setRoot_ne _ _ hj.1]
    · have h1 : cnt ((w.setRoot r none).setRoot q (some ⟨false, v⟩)) todo a (some r) = 0 := by
        apply cnt_none
        rw [World.setRoot_ne _ _ hne, World.setRoot_self]
      simp only [total_cons, total_nil, List.nil_append, h1, setRoot_cnt, cnt_some hr, cnt_none hq]
      omega
  | pin r v hr hb =>
    refine kept_plain (es := []) (fun a h => .inl (h.root r _ ?_)) (by simp [World.setRoot]) (by simp) rfl
    rw [setRoot_cnt, cnt_some hr]
    exact Nat.le_refl _
  | unpin r v hr hb hu =>
    refine kept_plain (es := []) (fun a h => .inl (h.root r _ ?_)) (by simp [World.setRoot]) (by simp) rfl
    rw [setRoot_cnt, cnt_some hr]
    exact Nat.le_refl _
  | expose => exact kept_plain (fun a h => .inl (h.todo rfl (Nat.le_refl _))) rfl (by simp [Revives]) rfl
  | swap X Y u v hX hY hd hu hv ht =>
    have hm := moves_swap (todo := todo) X Y u v hd hu hv
      (escapeEvents X u todo ++ escapeEvents Y v todo ++ (lateEvents X v todo ++ lateEvents Y u todo))
    refine ⟨fun a h => .inl (hm.present h), ?_, ?_⟩
    · intro a hn hg
      refine (hg.log (es := escapeEvents X u todo ++ escapeEvents Y v todo ++ (lateEvents X v todo ++ lateEvents Y u todo)) ?_).congr
        (by simp)
      have hesc : ∀ {Z : GLoc} {z : V}, w.at Z = some z → ∀ e ∈ escapeEvents Z z todo, ¬ Revives a e := by
        intro Z z hz e he hr
        unfold escapeEvents at he
        split at he
        · obtain ⟨i, hi, rfl⟩ := List.mem_map.1 he
          have hr : i = a := hr
          subst hr
          exact hn (present_id hz (by simpa using hi))
        · cases he
      have hlate : ∀ {Z : GLoc} {z : V}, ∀ e ∈ lateEvents Z z todo, ¬ Revives a e := by
        intro Z z e he hr
        unfold lateEvents at he
        split at he
        · obtain ⟨i, hi, rfl⟩ := List.mem_map.1 he
          exact hr
        · cases he
      intro e he
      simp only [List.mem_append] at he
      rcases he with (he | he) | he | he
      · exact hesc hu e he
      · exact hesc hv e he
      · exact hlate e he
      · exact hlate e he
    · intro a ha
      change a ∈ ((w.put X v).put Y u).used at ha
      rw [put_used, put_used] at ha
      exact .inl ha
  | set X k u r new hX _ hu hr hb hne ht =>
    refine kept_plain (es := []) (fun a h => .inl (h.root r _ ?_)) (by simp [World.setRoot]) (by simp) rfl
    rw [setRoot_cnt_none, cnt_some hr]
    simp [heldCnt_cons, Instr.vals]
  | replace L id ty va fs d args fn r id' va' fs' orc tl res hL hat hdef hfn hr hb hne hcall hna =>
    have hm := moves_replace hi L id ty va fs d args fn r id' va' fs' orc tl res hat hdef hfn hr hne hcall hna
    refine kept_plain (fun a h => .inl (hm.present h)) (es := [.taken id L]) ?_ (by simp [Revives]) ?_
    · simp [World.setRoot]
    · change ((w.setRoot r none).put L _).used = w.used
      rw [put_used]
      rfl
  | drop r x hx hb =>
    exact kept_plain (es := []) (fun a h => .inl (h.todo rfl (by simp [heldCnt_cons, Instr.vals]))) (by simp) (by simp) rfl
  | forget r v hr hb =>
    refine kept_plain (fun a h => ?_) rfl (by simp [Revives]) rfl
    by_cases ha : a ∈ v.ids
    · right
      right
      simp only [World.log_trace, List.mem_append, List.mem_map]
      exact .inr ⟨a, ha, rfl⟩
    · left
      refine (h.root (todo' := todo) r none ?_).todo rfl (Nat.le_refl _)
      rw [setRoot_cnt_none, cnt_some hr, List.count_eq_zero.2 ha]
      omega
  | destructure r id ty va fs hr hb _ =>
    refine kept_plain (fun a h => ?_) rfl (by simp [Revives]) rfl
    by_cases ha : a = id
    · right
      right
      simp [World.log_trace, ha]
    · left
      refine (h.root (todo' := fs.map (fun f => Instr.place f.2) ++ todo) r none ?_).todo rfl (Nat.le_refl _)
      rw [setRoot_cnt_none, cnt_some hr, heldCnt_append]
      have : fs.map (fun f => Instr.place f.2) = (fs.map Prod.snd).map Instr.place := by simp
      rw [this, heldCnt_place, ← idsIn_eq, V.ids, List.count_cons]
      have : (id == a) = false := by simp [Ne.symm ha]
      simp only [this]
      simp

theorem kept_step {U : Universe} {c c' : Config} (hi : Inv U c) (ho : Own c) (hs : CStep U c c') : StaysOrGone c c' := by
  have pop : ∀ {w : World} {i : Instr} {todo rest : List Instr} {es : List PEvent}, (∀ e ∈ es, ∀ a, ¬ Revives a e) →
      (∀ a, heldCnt todo a ≤ heldCnt rest a) → StaysOrGone ⟨w, todo⟩ ⟨w.log es, rest⟩ := by
    intro w i todo rest es he hc
    exact kept_plain (fun a h => .inl (h.todo rfl (hc a))) rfl (fun a e h => he e h a) rfl
  have pop' : ∀ {w : World} {todo rest : List Instr}, (∀ a, heldCnt todo a ≤ heldCnt rest a) → StaysOrGone ⟨w, todo⟩ ⟨w, rest⟩ := by
    intro w todo rest hc
    exact kept_plain (es := []) (fun a h => .inl (h.todo rfl (hc a))) (by simp) (by simp) rfl
  cases hs with
  | op _ hop => exact kept_op hi hop
  | sched _ =>
    refine pop' (fun a => ?_)
    simp only [heldCnt_append, heldCnt_cons]
    omega
  | ret => exact pop' (fun a => by simp [heldCnt_cons, Instr.vals])
  | destroyPlain => exact pop (i := .code []) (by simp [Revives]) (fun a => by simp [heldCnt_cons, Instr.vals])
  | destroyAnnotated hat hdef =>
    rw [dropInstrs_eq]
    refine pop (i := .code []) (by simp [Revives]) (fun a => ?_)
    split <;> simp [heldCnt_cons, Instr.vals]
  | destroyStructural => exact pop (i := .code []) (by simp [Revives]) (fun a => by simp [heldCnt_cons, Instr.vals])
  | @fieldsPacked w L id ty va fs d args rest hat hdef hp => exact (not_packed d hp).elim
  | fields hat =>
    refine pop' (fun a => ?_)
    rw [heldCnt_append]
    simp [heldCnt_cons, Instr.vals]
  | destroyHole => exact pop' (fun a => by simp [heldCnt_cons, Instr.vals])
  | fieldsHole => exact pop' (fun a => by simp [heldCnt_cons, Instr.vals])
  | @store w L u v rest hat ht =>
    have hlate : ∀ a, ∀ e ∈ lateEvents L v rest, ¬ Revives a e := by
      intro a e he hr
      unfold lateEvents at he
      split at he
      · obtain ⟨i, hi, rfl⟩ := List.mem_map.1 he
        exact hr
      · cases he
    refine kept_plain (fun a h => ?_) (es := lateEvents L v rest) (by simp) hlate (put_used _ _ _)
    by_cases ha : a ∈ u.ids
    · right
      obtain ⟨p, hp⟩ := has_of_mem (hi.frame.typed.at hat) ha
      obtain ⟨ty, hr⟩ := has_resides hat hp
      have hsp := doomed_spent ho rfl hr (i := .store L v) ⟨p, rfl⟩ (fun h => h)
      refine .inl ((spent_end (hlate a)).2 (.inr ((spent_congr ?_ a).2 hsp)))
      simp
    · left
      refine h.transfer [some L.root, none] ?_ ?_
      · intro j hj
        cases j with
        | none => simp at hj
        | some q =>
          simp only [List.mem_cons, Option.some.injEq, List.not_mem_nil, or_false, not_or] at hj
          apply cnt_agree
          rw [World.log_roots, put_other hj.1]
      · have hlog : ∀ todo' j, cnt ((w.put L v).log (lateEvents L v rest)) todo' a j = cnt (w.put L v) todo' a j := fun _ _ => rfl
        have h1 : cnt (w.put L v) rest a (some L.root) + u.ids.count a =
          cnt w (.store L v :: rest) a (some L.root) + v.ids.count a := put_cnt hat a
        rw [List.count_eq_zero.2 ha] at h1
        simp only [total_cons, total_nil, hlog, cnt_held, heldCnt_cons, Instr.vals, List.flatMap_cons, List.flatMap_nil,
          List.append_nil]
        omega
  | @free w r rest =>
    refine kept_plain (es := []) (fun a h => ?_) (by simp [World.setRoot]) (by simp) rfl
    by_cases hc : cnt w (.free r :: rest) a (some r) = 0
    · left
      refine h.root r none ?_
      rw [hc, heldCnt_cons]
      simp [Instr.vals]
    · right
      cases hx : w.roots r with
      | none => exact (hc (cnt_none hx)).elim
      | some x =>
        have ha : a ∈ x.val.ids := by
          rw [cnt_some hx] at hc
          exact List.count_pos_iff.1 (by omega)
        obtain ⟨p, hp⟩ := has_of_mem (hi.frame.typed r x hx) ha
        obtain ⟨ty, hr⟩ := has_resides (root_at hx) hp
        exact .inl ((spent_congr rfl a).2 (doomed_spent ho rfl hr (i := .free r) rfl (fun h => h)))
  | @place w v r rest hr =>
    refine kept_plain (es := []) (fun a h => .inl (h.root r _ ?_)) (by simp [World.setRoot]) (by simp) rfl
    rw [setRoot_cnt, heldCnt_cons, cnt_none hr]
    simp only [Instr.vals, List.flatMap_cons, List.flatMap_nil, List.append_nil]
    omega
  | @discard w v r rest hr =>
    refine kept_plain (es := []) (fun a h => .inl (h.root r _ ?_)) (by simp [World.setRoot]) (by simp) rfl
    rw [setRoot_cnt, heldCnt_cons, heldCnt_cons, heldCnt_cons, cnt_none hr]
    simp only [Instr.vals, List.flatMap_cons, List.flatMap_nil, List.append_nil, List.count_nil]
    omega

theorem reachable_kept {U : Universe} {c : Config} (h : Reachable U c) : ∀ a ∈ c.w.used, Present c a ∨ Gone c.w a := by
  induction h with
  | init => intro a ha; cases ha
  | @step c c' h hs ih =>
    obtain ⟨h1, h2, h3⟩ := kept_step (reachable_inv h) (reachable_own h) hs
    intro a ha
    by_cases hp : Present c a
    · exact h1 a hp
    · rcases h3 a ha with h | h
      · exact .inr (h2 a hp ((ih a h).resolve_left hp))
      · exact .inl h

end PinProject
