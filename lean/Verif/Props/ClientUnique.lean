import Verif.Props.Client
import Verif.Spec.Unique
/-!
# C54: no value is ever in two places
-/
namespace PinProject
open Spec

/-! ## Identities in values -/

theorem idsIn_eq (fs : List (String × V)) : V.idsIn fs = (fs.map Prod.snd).flatMap V.ids := by
  induction fs with
  | nil => simp [V.idsIn]
  | cons x fs ih => obtain ⟨f, v⟩ := x; simp [V.idsIn, ih]

theorem lookup_count {fs : List (String × V)} {f : String} {c : V} (h : fs.lookup f = some c) (a : Id) :
    c.ids.count a ≤ (V.idsIn fs).count a := by
  induction fs with
  | nil => cases h
  | cons x fs ih =>
    obtain ⟨g, v⟩ := x
    rw [List.lookup_cons] at h
    rw [V.idsIn, List.count_append]
    split at h
    · cases h; omega
    · have := ih h; omega

theorem lookup_count_two {fs : List (String × V)} {f g : String} {c d : V} (hf : fs.lookup f = some c)
    (hg : fs.lookup g = some d) (hne : f ≠ g) (a : Id) : c.ids.count a + d.ids.count a ≤ (V.idsIn fs).count a := by
  induction fs with
  | nil => cases hf
  | cons x fs ih =>
    obtain ⟨k, v⟩ := x
    rw [List.lookup_cons] at hf hg
    rw [V.idsIn, List.count_append]
    split at hf <;> split at hg
    · simp_all
    · cases hf; have := lookup_count hg a; omega
    · cases hg; have := lookup_count hf a; omega
    · have := ih hf hg; omega

theorem get_count {p : List String} {v u : V} (h : v.get p = some u) (a : Id) : u.ids.count a ≤ v.ids.count a := by
  induction p generalizing v with
  | nil => rw [V.get_nil] at h; cases h; exact Nat.le_refl _
  | cons f p ih =>
    cases v with
    | hole t => cases h
    | node id ty va fs =>
      simp only [V.get, Option.bind_eq_some_iff] at h
      obtain ⟨c, hc, h⟩ := h
      have := ih h
      have := lookup_count hc a
      rw [V.ids, List.count_cons]
      omega

theorem node_count (id : Id) (ty : Ty) (va : Option String) (fs : List (String × V)) :
    (V.ids (.node id ty va fs)).count id = (V.idsIn fs).count id + 1 := by
  rw [V.ids, List.count_cons_self]

/-- In a value without duplicates an identity is found on one path only. -/
theorem get_unique {p q : List String} {v : V} {id : Id} {ty ty' : Ty} {va va' : Option String} {fs fs' : List (String × V)}
    (hc : v.ids.count id ≤ 1) (hp : v.get p = some (.node id ty va fs)) (hq : v.get q = some (.node id ty' va' fs')) :
    p = q := by
  have one : ∀ {v : V} {p : List String} {ty : Ty} {va : Option String} {fs : List (String × V)},
      v.get p = some (.node id ty va fs) → 1 ≤ v.ids.count id := by
    intro v p ty va fs h
    have := get_count h id
    rw [node_count] at this
    omega
  have deep : ∀ {v : V} {f : String} {p : List String} {ty ty' : Ty} {va va' : Option String} {fs fs' : List (String × V)},
      v.ids.count id ≤ 1 → v = .node id ty va fs → v.get (f :: p) = some (.node id ty' va' fs') → False := by
    rintro v f p ty ty' va va' fs fs' hc rfl h
    simp only [V.get, Option.bind_eq_some_iff] at h
    obtain ⟨c, hl, h⟩ := h
    have := one h
    have := lookup_count hl id
    rw [node_count] at hc
    omega
  induction p generalizing v q with
  | nil =>
    cases q with
    | nil => rfl
    | cons g q => rw [V.get_nil] at hp; exact (deep hc (Option.some.inj hp) hq).elim
  | cons f p ih =>
    cases q with
    | nil => rw [V.get_nil] at hq; exact (deep hc (Option.some.inj hq) hp).elim
    | cons g q =>
      cases v with
      | hole t => cases hp
      | node id₀ ty₀ va₀ fs₀ =>
        simp only [V.get, Option.bind_eq_some_iff] at hp hq
        obtain ⟨c, hl, hp⟩ := hp
        obtain ⟨d, hl', hq⟩ := hq
        rw [V.ids, List.count_cons] at hc
        by_cases he : f = g
        · subst he
          obtain rfl := Option.some.inj (hl.symm.trans hl')
          have := lookup_count hl id
          rw [ih (by omega) hp hq]
        · have := lookup_count_two hl hl' he id
          have := one hp
          have := one hq
          omega

theorem setField_count {f : String} {g : V → V} {fs : List (String × V)} {c : V} (h : fs.lookup f = some c) (a : Id) :
    (V.idsIn (setField f g fs)).count a + c.ids.count a = (V.idsIn fs).count a + (g c).ids.count a := by
  induction fs with
  | nil => cases h
  | cons x fs ih =>
    obtain ⟨k, v⟩ := x
    rw [List.lookup_cons] at h
    unfold setField
    by_cases he : f = k
    · subst he
      simp only [beq_self_eq_true, Option.some.injEq] at h
      subst h
      simp only [if_true, V.idsIn, List.count_append]
      omega
    · have hb : (f == k) = false := by simpa using he
      rw [hb] at h
      have := ih h
      simp only [if_neg he, V.idsIn, List.count_append]
      omega

theorem set_count {p : List String} {v old new : V} (h : v.get p = some old) (a : Id) :
    (v.set p new).ids.count a + old.ids.count a = v.ids.count a + new.ids.count a := by
  induction p generalizing v with
  | nil =>
    rw [V.get_nil] at h
    cases h
    have : ∀ u : V, u.set [] new = new := by intro u; cases u <;> rfl
    rw [this]
    omega
  | cons f p ih =>
    cases v with
    | hole t => cases h
    | node id ty va fs =>
      simp only [V.get, Option.bind_eq_some_iff] at h
      obtain ⟨c, hl, h⟩ := h
      have h1 := ih h
      have h2 := setField_count (g := fun c => V.set p c new) hl a
      simp only [V.set, V.ids, List.count_cons]
      omega

/-! ## Counting -/

/-- The identities in a root, or (`none`) in the values held by pending operations. -/
def srcIds (w : World) (todo : List Instr) : Option Nat → List Id
  | some r => match w.roots r with
    | some x => x.val.ids
    | none => []
  | none => (todo.flatMap Instr.vals).flatMap V.ids

def cnt (w : World) (todo : List Instr) (a : Id) (i : Option Nat) : Nat := (srcIds w todo i).count a

def total (g : Option Nat → Nat) (S : List (Option Nat)) : Nat := (S.map g).sum

/-- No identity occurs twice, and all that occur have been used. -/
structure Lin (c : Config) : Prop where
  one : ∀ a, ∃ i, cnt c.w c.todo a i ≤ 1 ∧ ∀ j, j ≠ i → cnt c.w c.todo a j = 0
  used : ∀ a i, 0 < cnt c.w c.todo a i → a ∈ c.w.used

theorem total_zero {g : Option Nat → Nat} {S : List (Option Nat)} (h : ∀ i ∈ S, g i = 0) : total g S = 0 := by
  induction S with
  | nil => rfl
  | cons x S ih =>
    have := ih (fun i hi => h i (List.mem_cons_of_mem _ hi))
    have := h x List.mem_cons_self
    simp only [total, List.map_cons, List.sum_cons] at *
    omega

theorem le_total {g : Option Nat → Nat} {S : List (Option Nat)} {i : Option Nat} (h : i ∈ S) : g i ≤ total g S := by
  induction S with
  | nil => cases h
  | cons x S ih =>
    simp only [total, List.map_cons, List.sum_cons] at *
    rcases List.mem_cons.1 h with rfl | h
    · omega
    · have := ih h; omega

theorem total_le_one {g : Option Nat → Nat} {S : List (Option Nat)} (hS : S.Nodup) {i : Option Nat} (h : g i ≤ 1)
    (h0 : ∀ j, j ≠ i → g j = 0) : total g S ≤ g i := by
  induction S with
  | nil => exact Nat.zero_le _
  | cons x S ih =>
    rw [List.nodup_cons] at hS
    by_cases he : x = i
    · subst he
      have : total g S = 0 := total_zero (fun j hj => h0 j (fun hc => hS.1 (hc ▸ hj)))
      simp only [total, List.map_cons, List.sum_cons] at *
      omega
    · have := ih hS.2
      have := h0 x he
      simp only [total, List.map_cons, List.sum_cons] at *
      omega

/-- A total of one is reached at one index. -/
theorem total_one {g : Option Nat → Nat} {S : List (Option Nat)} (hS : S.Nodup) (h : total g S ≤ 1) (h1 : 0 < total g S) :
    ∃ i ∈ S, g i = 1 ∧ ∀ j ∈ S, j ≠ i → g j = 0 := by
  induction S with
  | nil => simp [total] at h1
  | cons x S ih =>
    rw [List.nodup_cons] at hS
    have he : total g (x :: S) = g x + total g S := by simp [total]
    by_cases hx : g x = 0
    · obtain ⟨i, hi, h2, h3⟩ := ih hS.2 (by omega) (by omega)
      refine ⟨i, List.mem_cons_of_mem _ hi, h2, ?_⟩
      intro j hj hne
      rcases List.mem_cons.1 hj with rfl | hj
      · exact hx
      · exact h3 j hj hne
    · refine ⟨x, List.mem_cons_self, by omega, ?_⟩
      intro j hj hne
      rcases List.mem_cons.1 hj with rfl | hj
      · exact (hne rfl).elim
      · have := le_total (g := g) hj
        omega

/-- Values may move between a few places, or disappear; a new identity may appear once. -/
theorem Lin.transfer {c c' : Config} (h : Lin c) (S : List (Option Nat)) (hS : S.Nodup)
    (hout : ∀ j, j ∉ S → ∀ a, cnt c'.w c'.todo a j = cnt c.w c.todo a j)
    (hin : ∀ a, total (cnt c'.w c'.todo a) S ≤ total (cnt c.w c.todo a) S ∨
      (a ∉ c.w.used ∧ total (cnt c'.w c'.todo a) S ≤ 1 ∧ a ∈ c'.w.used))
    (hu : ∀ a ∈ c.w.used, a ∈ c'.w.used) : Lin c' where
  one a := by
    obtain ⟨i, h1, h2⟩ := h.one a
    have hle := total_le_one hS h1 h2
    have hz : a ∉ c.w.used → ∀ j, cnt c.w c.todo a j = 0 := by
      intro hn j
      cases hc : cnt c.w c.todo a j with
      | zero => rfl
      | succ n => exact (hn (h.used a j (by omega))).elim
    have hle' : total (cnt c'.w c'.todo a) S ≤ 1 := by
      rcases hin a with h | ⟨-, h, -⟩ <;> omega
    by_cases h0 : total (cnt c'.w c'.todo a) S = 0
    · have hS0 : ∀ j ∈ S, cnt c'.w c'.todo a j = 0 := by
        intro j hj
        have := le_total (g := cnt c'.w c'.todo a) hj
        omega
      by_cases hi : i ∈ S
      · refine ⟨i, by rw [hS0 i hi]; omega, ?_⟩
        intro j hj
        by_cases hjS : j ∈ S
        · exact hS0 j hjS
        · rw [hout j hjS]; exact h2 j hj
      · refine ⟨i, by rw [hout i hi]; exact h1, ?_⟩
        intro j hj
        by_cases hjS : j ∈ S
        · exact hS0 j hjS
        · rw [hout j hjS]; exact h2 j hj
    · obtain ⟨k, hk, h3, h4⟩ := total_one hS hle' (by omega)
      refine ⟨k, by omega, ?_⟩
      intro j hj
      by_cases hjS : j ∈ S
      · exact h4 j hjS hj
      · rw [hout j hjS]
        rcases hin a with h | ⟨hn, -⟩
        · by_cases hi : j = i
          · subst hi
            have : total (cnt c.w c.todo a) S = 0 :=
              total_zero (fun l hl => h2 l (fun hc => hjS (hc ▸ hl)))
            omega
          · exact h2 j hi
        · exact hz hn j
  used a i hp := by
    by_cases hi : i ∈ S
    · have := le_total (g := cnt c'.w c'.todo a) hi
      rcases hin a with h' | ⟨-, -, h'⟩
      · apply hu
        obtain ⟨k, h1, h2⟩ := h.one a
        have hle := total_le_one hS h1 h2
        exact h.used a k (by omega)
      · exact h'
    · rw [hout i hi] at hp
      exact hu a (h.used a i hp)

/-- Values move between a few places; none appears, none disappears. -/
def Moves (c c' : Config) : Prop :=
  ∃ S : List (Option Nat), S.Nodup ∧ (∀ j, j ∉ S → ∀ a, cnt c'.w c'.todo a j = cnt c.w c.todo a j) ∧
    ∀ a, total (cnt c'.w c'.todo a) S = total (cnt c.w c.todo a) S

theorem Moves.lin {c c' : Config} (hm : Moves c c') (h : Lin c) (hu : ∀ a ∈ c.w.used, a ∈ c'.w.used) : Lin c' := by
  obtain ⟨S, h1, h2, h3⟩ := hm
  exact h.transfer S h1 h2 (fun a => .inl (Nat.le_of_eq (h3 a))) hu

/-! ## Changes of memory -/

theorem cnt_some {w : World} {todo : List Instr} {a : Id} {r : Nat} {x : Slot} (h : w.roots r = some x) :
    cnt w todo a (some r) = x.val.ids.count a := by simp [cnt, srcIds, h]

theorem cnt_none {w : World} {todo : List Instr} {a : Id} {r : Nat} (h : w.roots r = none) :
    cnt w todo a (some r) = 0 := by simp [cnt, srcIds, h]

theorem cnt_agree {w w' : World} {todo todo' : List Instr} {a : Id} {r : Nat} (h : w'.roots r = w.roots r) :
    cnt w' todo' a (some r) = cnt w todo a (some r) := by simp [cnt, srcIds, h]

/-- What the pending operations hold. -/
def heldCnt (todo : List Instr) (a : Id) : Nat := ((todo.flatMap Instr.vals).flatMap V.ids).count a

theorem cnt_held (w : World) (todo : List Instr) (a : Id) : cnt w todo a none = heldCnt todo a := rfl

theorem heldCnt_append (is todo : List Instr) (a : Id) : heldCnt (is ++ todo) a = heldCnt is a + heldCnt todo a := by
  simp [heldCnt, List.flatMap_append]

theorem heldCnt_cons (i : Instr) (todo : List Instr) (a : Id) :
    heldCnt (i :: todo) a = (i.vals.flatMap V.ids).count a + heldCnt todo a := by
  simp [heldCnt, List.flatMap_append]

theorem heldCnt_none {is : List Instr} (h : ∀ i ∈ is, i.vals = []) (a : Id) : heldCnt is a = 0 := by
  induction is with
  | nil => rfl
  | cons i is ih => rw [heldCnt_cons, h i List.mem_cons_self, ih (fun j hj => h j (List.mem_cons_of_mem _ hj))]; rfl

theorem heldCnt_place (vs : List V) (a : Id) : heldCnt (vs.map Instr.place) a = (vs.flatMap V.ids).count a := by
  induction vs with
  | nil => rfl
  | cons v vs ih => rw [List.map_cons, heldCnt_cons, ih]; simp [Instr.vals]

theorem heldCnt_discard (vs : List V) (a : Id) : heldCnt (vs.map Instr.discard) a = (vs.flatMap V.ids).count a := by
  induction vs with
  | nil => rfl
  | cons v vs ih => rw [List.map_cons, heldCnt_cons, ih]; simp [Instr.vals]

theorem at_some {w : World} {L : GLoc} {v : V} (h : w.at L = some v) :
    ∃ x, w.roots L.root = some x ∧ x.val.get L.path = some v := by
  unfold World.at at h
  exact Option.bind_eq_some_iff.1 h

theorem put_root {w : World} {X : GLoc} {v : V} {x : Slot} (h : w.roots X.root = some x) :
    (w.put X v).roots X.root = some { x with val := x.val.set X.path v } := by
  rw [World.put_roots, if_pos rfl, h]
  rfl

theorem put_other {w : World} {X : GLoc} {v : V} {r : Nat} (h : r ≠ X.root) : (w.put X v).roots r = w.roots r := by
  rw [World.put_roots, if_neg h]

/-- The effect of an assignment. -/
theorem put_cnt {w : World} {todo todo' : List Instr} {X : GLoc} {old v : V} (h : w.at X = some old) (a : Id) :
    cnt (w.put X v) todo' a (some X.root) + old.ids.count a = cnt w todo a (some X.root) + v.ids.count a := by
  obtain ⟨x, hx, hg⟩ := at_some h
  rw [cnt_some hx, cnt_some (put_root hx)]
  exact set_count hg a

theorem put_used (w : World) (X : GLoc) (v : V) : (w.put X v).used = w.used := by
  unfold World.put
  split <;> rfl

theorem idsIn_replace {gs hs : List (String × V)} {i : Nat} {x y : String × V} (hh : hs[i]? = some y) (hg : gs[i]? = some x)
    (ho : ∀ j, j ≠ i → gs[j]? = hs[j]?) (hx : x.2.ids = []) (a : Id) :
    (V.idsIn gs).count a + y.2.ids.count a = (V.idsIn hs).count a := by
  induction i generalizing gs hs with
  | zero =>
    cases hs with
    | nil => simp at hh
    | cons z hs =>
      cases gs with
      | nil => simp at hg
      | cons z' gs =>
        obtain ⟨f, u⟩ := z
        obtain ⟨f', u'⟩ := z'
        simp only [List.getElem?_cons_zero, Option.some.injEq] at hh hg
        subst hh hg
        have : gs = hs := by
          apply List.ext_getElem?
          intro j
          simpa using ho (j + 1) (by omega)
        subst this
        simp only [V.idsIn, List.count_append, hx, List.count_nil]
        omega
  | succ i ih =>
    cases hs with
    | nil => simp at hh
    | cons z hs =>
      cases gs with
      | nil => simp at hg
      | cons z' gs =>
        obtain ⟨f, u⟩ := z
        obtain ⟨f', u'⟩ := z'
        have h0 := ho 0 (by omega)
        simp only [List.getElem?_cons_zero, Option.some.injEq, Prod.mk.injEq] at h0
        obtain ⟨rfl, rfl⟩ := h0
        have := ih (gs := gs) (hs := hs) (by simpa using hh) (by simpa using hg) (fun j hj => by simpa using ho (j + 1) (by omega))
        simp only [V.idsIn, List.count_append]
        omega

theorem punch_get (mv : List Id) (fs : List (String × V)) (i : Nat) :
    (punch mv fs)[i]? = (fs[i]?).map (fun f => (f.1, if i ∈ mv then .hole f.2.ty else f.2)) := by
  simp [punch, List.getElem?_mapIdx]

/-- What is moved out is not there any more. -/
theorem punch_count (mv : List Id) (fs : List (String × V)) (tab : List V)
    (ht : ∀ i y, fs[i]? = some y → tableGet tab i = y.2) (hn : mv.Nodup) (hl : ∀ i ∈ mv, i < fs.length) (a : Id) :
    (V.idsIn (punch mv fs)).count a + ((mv.map (tableGet tab)).flatMap V.ids).count a = (V.idsIn fs).count a := by
  induction mv with
  | nil =>
    have : punch [] fs = fs := by
      apply List.ext_getElem?
      intro i
      rw [punch_get]
      cases fs[i]? <;> simp
    rw [this]
    simp
  | cons i mv ih =>
    rw [List.nodup_cons] at hn
    have h1 := ih hn.2 (fun j hj => hl j (List.mem_cons_of_mem _ hj))
    have hi := hl i List.mem_cons_self
    have hfi : fs[i]? = some fs[i] := List.getElem?_eq_getElem hi
    have h2 := idsIn_replace (gs := punch (i :: mv) fs) (hs := punch mv fs) (i := i) (y := fs[i])
      (x := (fs[i].1, .hole fs[i].2.ty)) (by rw [punch_get, hfi]; simp [hn.1]) (by rw [punch_get, hfi]; simp) (by
        intro j hj
        rw [punch_get, punch_get]
        have : j ∈ i :: mv ↔ j ∈ mv := by simp [hj]
        simp only [this]) (by simp [V.ids]) a
    rw [List.map_cons, List.flatMap_cons, List.count_append, ht i _ hfi]
    omega

/-! ## The steps -/

theorem total_cons (g : Option Nat → Nat) (i : Option Nat) (S : List (Option Nat)) : total g (i :: S) = g i + total g S := by
  simp [total]

theorem total_nil (g : Option Nat → Nat) : total g [] = 0 := rfl

theorem lin_build {w : World} {todo : List Instr} (h : Lin ⟨w, todo⟩) (r : Nat) (id : Id) (ty : Ty)
    (variant : Option String) (parts : List (String × Nat × V)) (hr : w.roots r = none) (hid : id ∉ w.used)
    (hn : (parts.map (·.2.1)).Nodup) (hp : ∀ x ∈ parts, w.roots x.2.1 = some ⟨false, x.2.2⟩) :
    Lin ⟨{ (w.take (parts.map (·.2.1))).setRoot r
            (some ⟨false, .node id ty variant (parts.map (fun x => (x.1, x.2.2)))⟩) with used := id :: w.used }, todo⟩ := by
  have hrp : r ∉ parts.map (·.2.1) := by
    intro hm
    obtain ⟨x, hx, rfl⟩ := List.mem_map.1 hm
    rw [hp x hx] at hr
    cases hr
  have hbefore : ∀ a, total (cnt w todo a) (parts.map (fun x => some x.2.1)) =
      (V.idsIn (parts.map (fun x => (x.1, x.2.2)))).count a := by
    intro a
    clear hn hrp
    induction parts with
    | nil => rfl
    | cons x parts ih =>
      rw [List.map_cons, total_cons, ih (fun y hy => hp y (List.mem_cons_of_mem _ hy)), cnt_some (hp x List.mem_cons_self),
        List.map_cons, V.idsIn, List.count_append]
  refine h.transfer (some r :: parts.map (fun x => some x.2.1)) ?_ ?_ ?_ ?_
  · rw [List.nodup_cons]
    have hmap : parts.map (fun x => some x.2.1) = (parts.map (·.2.1)).map some := by simp
    rw [hmap]
    refine ⟨fun hm => ?_, ?_⟩
    · obtain ⟨q, hq, he⟩ := List.mem_map.1 hm
      cases he
      exact hrp hq
    · rw [List.nodup_iff_pairwise_ne, List.pairwise_map]
      exact (List.nodup_iff_pairwise_ne.1 hn).imp (fun hne he => hne (Option.some.inj he))
  · intro j hj a
    cases j with
    | none => rfl
    | some q =>
      apply cnt_agree
      simp only [List.mem_cons, Option.some.injEq, List.mem_map, not_or] at hj
      change ((w.take (parts.map (·.2.1))).setRoot r _).roots q = _
      rw [World.setRoot_ne _ _ hj.1]
      unfold World.take
      simp only
      rw [if_neg]
      intro hm
      obtain ⟨x, hx, he⟩ := List.mem_map.1 hm
      exact hj.2 ⟨x, hx, he⟩
  · intro a
    have hafter : total (cnt ({ (w.take (parts.map (·.2.1))).setRoot r
            (some ⟨false, .node id ty variant (parts.map (fun x => (x.1, x.2.2)))⟩) with used := id :: w.used }) todo a)
            (parts.map (fun x => some x.2.1)) = 0 := by
      apply total_zero
      intro j hj
      obtain ⟨x, hx, rfl⟩ := List.mem_map.1 hj
      apply cnt_none
      change ((w.take (parts.map (·.2.1))).setRoot r _).roots x.2.1 = _
      have hxr : x.2.1 ≠ r := by
        rintro rfl
        exact hrp (List.mem_map.2 ⟨x, hx, rfl⟩)
      rw [World.setRoot_ne _ _ hxr]
      unfold World.take
      simp only
      rw [if_pos (List.mem_map.2 ⟨x, hx, rfl⟩)]
    have hnew : cnt ({ (w.take (parts.map (·.2.1))).setRoot r
            (some ⟨false, .node id ty variant (parts.map (fun x => (x.1, x.2.2)))⟩) with used := id :: w.used }) todo a
            (some r) = (V.ids (.node id ty variant (parts.map (fun x => (x.1, x.2.2))))).count a :=
      cnt_some (todo := todo) (World.setRoot_self _ _ _)
    simp only [total_cons, hafter, hnew, hbefore, cnt_none hr]
    rw [V.ids, List.count_cons]
    by_cases he : id = a
    · subst he
      refine .inr ⟨hid, ?_, by simp⟩
      have hz : (V.idsIn (parts.map (fun x => (x.1, x.2.2)))).count id = 0 := by
        rw [← hbefore]
        apply total_zero
        intro j _
        cases hc : cnt w todo id j with
        | zero => rfl
        | succ n => exact (hid (h.used id j (by simp only; omega))).elim
      simp [hz]
    · left
      simp [he]
  · intro a ha
    exact List.mem_cons_of_mem _ ha

/-- One root changes, and what pending operations hold. -/
theorem lin_root {w : World} {todo todo' : List Instr} (h : Lin ⟨w, todo⟩) (r : Nat) (x : Option Slot)
    (hc : ∀ a, cnt (w.setRoot r x) todo' a (some r) + heldCnt todo' a ≤ cnt w todo a (some r) + heldCnt todo a) :
    Lin ⟨w.setRoot r x, todo'⟩ := by
  refine h.transfer [some r, none] (by simp) ?_ ?_ (fun a ha => ha)
  · intro j hj a
    cases j with
    | none => simp at hj
    | some q =>
      apply cnt_agree
      exact World.setRoot_ne _ _ (by simpa using hj)
  · intro a
    left
    have := hc a
    simp only [total_cons, total_nil, cnt_held]
    omega

theorem setRoot_cnt (w : World) (todo : List Instr) (r : Nat) (x : Slot) (a : Id) :
    cnt (w.setRoot r (some x)) todo a (some r) = x.val.ids.count a := cnt_some (World.setRoot_self _ _ _)

theorem setRoot_cnt_none (w : World) (todo : List Instr) (r : Nat) (a : Id) :
    cnt (w.setRoot r none) todo a (some r) = 0 := cnt_none (World.setRoot_self _ _ _)

/-- Only the pending operations change. -/
theorem lin_todo {w w' : World} {todo todo' : List Instr} (h : Lin ⟨w, todo⟩) (hr : w'.roots = w.roots)
    (hu : w'.used = w.used) (hc : ∀ a, heldCnt todo' a ≤ heldCnt todo a) : Lin ⟨w', todo'⟩ := by
  refine h.transfer [none] (by simp) ?_ ?_ (fun a ha => by simpa [hu] using ha)
  · intro j hj a
    cases j with
    | none => simp at hj
    | some q => exact cnt_agree (by simp only [hr])
  · intro a
    left
    have := hc a
    simp only [total_cons, total_nil, cnt_held]
    omega

theorem moves_swap {w : World} {todo : List Instr} (X Y : GLoc) (u v : V) (hd : X.Disjoint Y)
    (hu : w.at X = some u) (hv : w.at Y = some v) (es : List PEvent) :
    Moves ⟨w, todo⟩ ⟨((w.put X v).put Y u).log es, todo⟩ := by
  have hY : (w.put X v).at Y = some v := by rw [World.put_disjoint w hd]; exact hv
  have h1 : ∀ a, cnt (w.put X v) todo a (some X.root) + u.ids.count a = cnt w todo a (some X.root) + v.ids.count a :=
    put_cnt hu
  have h2 : ∀ a, cnt ((w.put X v).put Y u) todo a (some Y.root) + v.ids.count a =
      cnt (w.put X v) todo a (some Y.root) + u.ids.count a := put_cnt hY
  have hlog : ∀ a j, cnt (((w.put X v).put Y u).log es) todo a j = cnt ((w.put X v).put Y u) todo a j := fun _ _ => rfl
  by_cases he : X.root = Y.root
  · refine ⟨[some X.root], by simp, ?_, ?_⟩
    · intro j hj a
      cases j with
      | none => rfl
      | some q =>
        have hq : q ≠ X.root := by simpa using hj
        apply cnt_agree
        rw [World.log_roots, put_other (he ▸ hq), put_other hq]
    · intro a
      simp only [total_cons, total_nil, hlog]
      have h1 := h1 a
      have h2 := h2 a
      rw [← he] at h2
      omega
  · refine ⟨[some X.root, some Y.root], by simp [he], ?_, ?_⟩
    · intro j hj a
      cases j with
      | none => rfl
      | some q =>
        simp only [List.mem_cons, Option.some.injEq, List.not_mem_nil, or_false, not_or] at hj
        apply cnt_agree
        rw [World.log_roots, put_other hj.2, put_other hj.1]
    · intro a
      have e1 : cnt ((w.put X v).put Y u) todo a (some X.root) = cnt (w.put X v) todo a (some X.root) :=
        cnt_agree (put_other he)
      have e2 : cnt (w.put X v) todo a (some Y.root) = cnt w todo a (some Y.root) := cnt_agree (put_other (Ne.symm he))
      simp only [total_cons, total_nil, hlog]
      have h1 := h1 a
      have h2 := h2 a
      omega

theorem lin_swap {w : World} {todo : List Instr} (h : Lin ⟨w, todo⟩) (X Y : GLoc) (u v : V) (hd : X.Disjoint Y)
    (hu : w.at X = some u) (hv : w.at Y = some v) (es : List PEvent) : Lin ⟨((w.put X v).put Y u).log es, todo⟩ := by
  refine (moves_swap X Y u v hd hu hv es).lin h ?_
  intro a ha
  change a ∈ ((w.put X v).put Y u).used
  rw [put_used, put_used]
  exact ha

theorem moves_replace {U : Universe} {w : World} {todo : List Instr} (hi : Inv U ⟨w, todo⟩) (L : GLoc) (id : Id) (ty : Ty)
    (va : Option String) (fs : List (String × V)) (d : Def) (args : List TArg) (fn : GFn) (r : Nat) (id' : Id)
    (va' : Option String) (fs' : List (String × V)) (orc : Oracle) (tl : Bool) (res : Option Val × M)
    (hat : w.at L = some (.node id ty va fs)) (hdef : U.def? ty = some (d, args))
    (hfn : method d.E "project_replace" = some fn) (hr : w.roots r = some ⟨false, .node id' ty va' fs'⟩)
    (hne : r ≠ L.root)
    (hcall : callFn orc tl fn (.fv (.pinRef true ⟨0, none⟩)) [.obj (flatObj fs.length va' fs')]
        (solo (flatObj 0 va fs)) = res) (hna : res.2.status ≠ .abort) :
    Moves ⟨w, todo⟩ ⟨((w.setRoot r none).put L (.node id ty va (punch (movedOut res) fs))).log [.taken id L],
        (res.2.trace.flatMap (instrsOf L ((fs ++ fs').map Prod.snd) id' ty) ++
          (res.1.toList.flatMap Val.ids).map (fun i => .place (tableGet ((fs ++ fs').map Prod.snd) i))) ++ todo⟩ := by
  have hok := hi.frame.typed.at hat
  obtain ⟨pins, outs, backs, heq, -, -, -, -, -, hmoved, hnd, hlt, -⟩ :=
    replace_facts hok.nodeOk hdef hfn L id' va' fs' orc tl res hcall hna
  rw [heq]
  have hat1 : (w.setRoot r none).at L = some (.node id ty va fs) := by
    rw [World.setRoot_at_ne _ _ hne.symm]; exact hat
  refine ⟨[some r, some L.root, none], by simp [hne], ?_, ?_⟩
  · intro j hj a
    cases j with
    | none => simp at hj
    | some q =>
      simp only [List.mem_cons, Option.some.injEq, List.not_mem_nil, or_false, not_or] at hj
      apply cnt_agree
      rw [World.log_roots, put_other hj.2.1, World.setRoot_ne _ _ hj.1]
  · intro a
    have hlog : ∀ todo' j, cnt (((w.setRoot r none).put L (.node id ty va (punch (movedOut res) fs))).log [.taken id L]) todo' a j =
      cnt ((w.setRoot r none).put L (.node id ty va (punch (movedOut res) fs))) todo' a j := fun _ _ => rfl
    have h1 : cnt ((w.setRoot r none).put L (.node id ty va (punch (movedOut res) fs))) todo a (some L.root) +
        (V.ids (.node id ty va fs)).count a = cnt (w.setRoot r none) todo a (some L.root) +
        (V.ids (.node id ty va (punch (movedOut res) fs))).count a := put_cnt hat1 a
    have h2 : cnt (w.setRoot r none) todo a (some L.root) = cnt w todo a (some L.root) :=
      cnt_agree (World.setRoot_ne _ _ hne.symm)
    have h3 : ∀ todo', cnt ((w.setRoot r none).put L (.node id ty va (punch (movedOut res) fs))) todo' a (some r) = 0 := by
      intro todo'
      apply cnt_none
      rw [put_other hne, World.setRoot_self]
    have h4 : ∀ todo', cnt ((w.setRoot r none).put L (.node id ty va (punch (movedOut res) fs))) todo' a (some L.root) =
        cnt ((w.setRoot r none).put L (.node id ty va (punch (movedOut res) fs))) todo a (some L.root) := fun _ => rfl
    have h5 := punch_count (movedOut res) fs ((fs ++ fs').map Prod.snd) (fun i y hy => tableGet_left _ _ hy) hnd hlt a
    rw [← hmoved, List.flatMap_append, List.count_append] at h5
    have h6 : heldCnt (pins.map (fun f => Instr.destroy (L.sub [f]))) a = 0 := by
      apply heldCnt_none
      intro i hi
      obtain ⟨f, -, rfl⟩ := List.mem_map.1 hi
      rfl
    simp only [total_cons, total_nil, hlog, h3, h4, cnt_held, heldCnt_append, heldCnt_cons, heldCnt_place, heldCnt_discard, h6,
      cnt_some hr, Instr.vals, List.flatMap_cons, List.flatMap_nil, List.append_nil]
    simp only [V.ids, List.count_cons] at h1 ⊢
    omega

theorem lin_replace {U : Universe} {w : World} {todo : List Instr} (hi : Inv U ⟨w, todo⟩) (h : Lin ⟨w, todo⟩) (L : GLoc) (id : Id) (ty : Ty)
    (va : Option String) (fs : List (String × V)) (d : Def) (args : List TArg) (fn : GFn) (r : Nat) (id' : Id)
    (va' : Option String) (fs' : List (String × V)) (orc : Oracle) (tl : Bool) (res : Option Val × M)
    (hat : w.at L = some (.node id ty va fs)) (hdef : U.def? ty = some (d, args))
    (hfn : method d.E "project_replace" = some fn) (hr : w.roots r = some ⟨false, .node id' ty va' fs'⟩)
    (hne : r ≠ L.root)
    (hcall : callFn orc tl fn (.fv (.pinRef true ⟨0, none⟩)) [.obj (flatObj fs.length va' fs')]
        (solo (flatObj 0 va fs)) = res) (hna : res.2.status ≠ .abort) :
    Lin ⟨((w.setRoot r none).put L (.node id ty va (punch (movedOut res) fs))).log [.taken id L],
        (res.2.trace.flatMap (instrsOf L ((fs ++ fs').map Prod.snd) id' ty) ++
          (res.1.toList.flatMap Val.ids).map (fun i => .place (tableGet ((fs ++ fs').map Prod.snd) i))) ++ todo⟩ := by
  refine (moves_replace hi L id ty va fs d args fn r id' va' fs' orc tl res hat hdef hfn hr hne hcall hna).lin h ?_
  intro a ha
  change a ∈ ((w.setRoot r none).put L (.node id ty va (punch (movedOut res) fs))).used
  rw [put_used]
  exact ha

theorem lin_op {U : Universe} {w w' : World} {todo is : List Instr} (hi : Inv U ⟨w, todo⟩) (h : Lin ⟨w, todo⟩)
    (hop : Op U todo w w' is) : Lin ⟨w', is ++ todo⟩ := by
  cases hop with
  | build r id ty variant parts hr hid hn hp _ =>
    exact lin_build h r id ty variant parts hr hid hn (fun x hx => (hp x hx).1)
  | move r q v hr hb hq =>
    have hne : r ≠ q := by
      rintro rfl
      rw [hr] at hq
      cases hq
    refine h.transfer [some r, some q] (by simp [hne]) ?_ ?_ (fun a ha => ha)
    · intro j hj a
      cases j with
      | none => rfl
      | some s =>
        simp only [List.mem_cons, Option.some.injEq, List.not_mem_nil, or_false, not_or] at hj
        apply cnt_agree
        rw [World.setRoot_ne _ _ hj.2, World.setRoot_ne _ _ hj.1]
    · intro a
      left
      have h1 : cnt ((w.setRoot r none).setRoot q (some ⟨false, v⟩)) todo a (some r) = 0 := by
        apply cnt_none
        rw [World.setRoot_ne _ _ hne, World.setRoot_self]
      simp only [total_cons, total_nil, List.nil_append, h1, setRoot_cnt, cnt_some hr]
      omega
  | pin r v hr hb =>
    refine lin_root h r _ (fun a => ?_)
    rw [setRoot_cnt, cnt_some hr]
    exact Nat.le_refl _
  | unpin r v hr hb hu =>
    refine lin_root h r _ (fun a => ?_)
    rw [setRoot_cnt, cnt_some hr]
    exact Nat.le_refl _
  | expose => exact lin_todo h rfl rfl (fun a => Nat.le_refl _)
  | swap X Y u v hX hY hd hu hv ht => exact lin_swap h X Y u v hd hu hv _
  | set X k u r new hX _ hu hr hb hne ht =>
    refine lin_root h r none (fun a => ?_)
    rw [setRoot_cnt_none, cnt_some hr]
    simp [heldCnt_cons, Instr.vals]
  | replace L id ty va fs d args fn r id' va' fs' orc tl res hL hat hdef hfn hr hb hne hcall hna =>
    exact lin_replace hi h L id ty va fs d args fn r id' va' fs' orc tl res hat hdef hfn hr hne hcall hna
  | drop r x hx hb => exact lin_todo h rfl rfl (fun a => by simp [heldCnt_cons, Instr.vals])
  | forget r v hr hb =>
    refine lin_todo (lin_root (todo' := todo) h r none (fun a => ?_)) rfl rfl (fun a => Nat.le_refl _)
    rw [setRoot_cnt_none]
    simp
  | destructure r id ty va fs hr hb _ =>
    refine lin_todo (lin_root (todo' := fs.map (fun f => Instr.place f.2) ++ todo) h r none (fun a => ?_)) rfl rfl
      (fun a => Nat.le_refl _)
    rw [setRoot_cnt_none, cnt_some hr, heldCnt_append]
    have : fs.map (fun f => Instr.place f.2) = (fs.map Prod.snd).map Instr.place := by simp
    rw [this, heldCnt_place, ← idsIn_eq, V.ids, List.count_cons]
    omega

theorem lin_step {U : Universe} {c c' : Config} (hi : Inv U c) (h : Lin c) (hs : CStep U c c') : Lin c' := by
  cases hs with
  | op _ hop => exact lin_op hi h hop
  | sched _ =>
    refine lin_todo h rfl rfl (fun a => ?_)
    simp only [heldCnt_append, heldCnt_cons]
    omega
  | ret => exact lin_todo h rfl rfl (fun a => by simp [heldCnt_cons, Instr.vals])
  | destroyPlain => exact lin_todo h rfl rfl (fun a => by simp [heldCnt_cons, Instr.vals])
  | destroyAnnotated hat hdef =>
    rw [dropInstrs_eq]
    refine lin_todo h rfl rfl (fun a => ?_)
    split <;> simp [heldCnt_cons, Instr.vals]
  | destroyStructural => exact lin_todo h rfl rfl (fun a => by simp [heldCnt_cons, Instr.vals])
  | @fieldsPacked w L id ty va fs d args rest hat hdef hp => exact (not_packed d hp).elim
  | fields hat =>
    refine lin_todo h rfl rfl (fun a => ?_)
    rw [heldCnt_append, heldCnt_none (by
      intro i hi
      obtain ⟨f, -, rfl⟩ := List.mem_map.1 hi
      rfl)]
    simp [heldCnt_cons, Instr.vals]
  | destroyHole => exact lin_todo h rfl rfl (fun a => by simp [heldCnt_cons, Instr.vals])
  | fieldsHole => exact lin_todo h rfl rfl (fun a => by simp [heldCnt_cons, Instr.vals])
  | @store w L u v rest hat ht =>
    refine h.transfer [some L.root, none] (by simp) ?_ ?_ ?_
    · intro j hj a
      cases j with
      | none => simp at hj
      | some q =>
        simp only [List.mem_cons, Option.some.injEq, List.not_mem_nil, or_false, not_or] at hj
        apply cnt_agree
        rw [World.log_roots, put_other hj.1]
    · intro a
      left
      have hlog : ∀ todo' j, cnt ((w.put L v).log (lateEvents L v rest)) todo' a j = cnt (w.put L v) todo' a j := fun _ _ => rfl
      have h1 : cnt (w.put L v) rest a (some L.root) + u.ids.count a =
        cnt w (.store L v :: rest) a (some L.root) + v.ids.count a := put_cnt hat a
      simp only [total_cons, total_nil, hlog, cnt_held, heldCnt_cons, Instr.vals, List.flatMap_cons, List.flatMap_nil, List.append_nil]
      omega
    · intro a ha
      change a ∈ (w.put L v).used
      rw [put_used]
      exact ha
  | free =>
    refine lin_root h _ none (fun a => ?_)
    rw [setRoot_cnt_none, heldCnt_cons]
    omega
  | @place w v r rest hr =>
    refine lin_root h _ _ (fun a => ?_)
    rw [setRoot_cnt, heldCnt_cons]
    simp only [Instr.vals, List.flatMap_cons, List.flatMap_nil, List.append_nil]
    omega
  | @discard w v r rest hr =>
    refine lin_root h _ _ (fun a => ?_)
    rw [setRoot_cnt, heldCnt_cons, heldCnt_cons, heldCnt_cons]
    simp only [Instr.vals, List.flatMap_cons, List.flatMap_nil, List.append_nil, List.count_nil]
    omega

theorem reachable_lin {U : Universe} {c : Config} (h : Reachable U c) : Lin c := by
  induction h with
  | init => exact ⟨fun a => ⟨none, by simp [cnt, srcIds, Config.init, Instr.vals], fun j _ => by cases j <;> simp [cnt, srcIds, Config.init, Instr.vals]⟩,
      fun a i hc => by cases i <;> simp [cnt, srcIds, Config.init, Instr.vals] at hc⟩
  | step h hs ih => exact lin_step (reachable_inv h) ih hs

/-! ## The theorem -/

theorem held_count {vs : List V} {n : Nat} {u : V} (h : vs[n]? = some u) (a : Id) :
    u.ids.count a ≤ (vs.flatMap V.ids).count a := by
  induction vs generalizing n with
  | nil => simp at h
  | cons x vs ih =>
    rw [List.flatMap_cons, List.count_append]
    cases n with
    | zero => simp only [List.getElem?_cons_zero, Option.some.injEq] at h; subst h; omega
    | succ n => have := ih (n := n) (by simpa using h); omega

theorem held_unique {vs : List V} {n m : Nat} {u v : V} {a : Id} (hn : vs[n]? = some u) (hm : vs[m]? = some v)
    (hc : (vs.flatMap V.ids).count a ≤ 1) (hu : 1 ≤ u.ids.count a) (hv : 1 ≤ v.ids.count a) : n = m := by
  induction vs generalizing n m with
  | nil => simp at hn
  | cons x vs ih =>
    rw [List.flatMap_cons, List.count_append] at hc
    cases n with
    | zero =>
      cases m with
      | zero => rfl
      | succ m =>
        simp only [List.getElem?_cons_zero, Option.some.injEq] at hn
        subst hn
        have := held_count (vs := vs) (n := m) (by simpa using hm) a
        omega
    | succ n =>
      cases m with
      | zero =>
        simp only [List.getElem?_cons_zero, Option.some.injEq] at hm
        subst hm
        have := held_count (vs := vs) (n := n) (by simpa using hn) a
        omega
      | succ m => rw [ih (n := n) (m := m) (by simpa using hn) (by simpa using hm) (by omega)]

/-- **C54** At no point of any program is a value in two places: not in memory, not among the values that
are being moved, assigned or dropped. In particular `project_replace` moves the unpinned fields out of the value
it replaces; it does not copy them. -/
theorem C54_one_place (U : Universe) (c : Config) (h : Reachable U c) (id : Id) (P Q : Place) (hP : IsAt c id P)
    (hQ : IsAt c id Q) : P = Q := by
  obtain ⟨i, h1, h2⟩ := (reachable_lin h).one id
  have lo : ∀ {v : V} {p : List String} {ty : Ty} {va : Option String} {fs : List (String × V)},
      v.get p = some (.node id ty va fs) → 1 ≤ v.ids.count id := by
    intro v p ty va fs h
    have := get_count h id
    rw [node_count] at this
    omega
  have mem : ∀ {L : GLoc}, IsAt c id (.mem L) → i = some L.root ∧ ∃ x, c.w.roots L.root = some x ∧
      x.val.ids.count id ≤ 1 ∧ ∃ ty va fs, x.val.get L.path = some (.node id ty va fs) := by
    rintro L ⟨ty, va, fs, hf⟩
    obtain ⟨x, hx, hg⟩ := at_some hf
    have h3 := lo hg
    have hi : some L.root = i := by
      by_cases he : some L.root = i
      · exact he
      · have := h2 _ he
        rw [cnt_some hx] at this
        omega
    subst hi
    rw [cnt_some hx] at h1
    exact ⟨rfl, x, hx, h1, ty, va, fs, hg⟩
  have held : ∀ {n : Nat} {p : List String}, IsAt c id (.held n p) → i = none ∧ ∃ v, (c.todo.flatMap Instr.vals)[n]? = some v ∧
      ∃ ty va fs, v.get p = some (.node id ty va fs) := by
    rintro n p ⟨ty, va, fs, hf⟩
    obtain ⟨v, hv, hg⟩ := Option.bind_eq_some_iff.1 hf
    have h3 := lo hg
    refine ⟨?_, v, hv, ty, va, fs, hg⟩
    by_cases he : i = none
    · exact he
    · have h4 := h2 none (Ne.symm he)
      have : 0 < cnt c.w c.todo id none := by
        rw [cnt_held, heldCnt, List.count_pos_iff, List.mem_flatMap]
        exact ⟨v, List.mem_of_getElem? hv, List.count_pos_iff.1 (by omega)⟩
      omega
  cases P with
  | mem L =>
    obtain ⟨rfl, x, hx, hc, ty, va, fs, hg⟩ := mem hP
    cases Q with
    | mem M =>
      obtain ⟨he, y, hy, -, ty', va', fs', hg'⟩ := mem hQ
      have he := Option.some.inj he
      rw [← he, hx] at hy
      obtain rfl := Option.some.inj hy
      have hp := get_unique hc hg hg'
      cases L; cases M
      simp_all
    | held n p => cases (held hQ).1
  | held n p =>
    obtain ⟨rfl, v, hv, ty, va, fs, hg⟩ := held hP
    cases Q with
    | mem M => cases (mem hQ).1
    | held m q =>
      obtain ⟨-, u, hu, ty', va', fs', hg'⟩ := held hQ
      obtain rfl := held_unique hv hu h1 (lo hg) (lo hg')
      obtain rfl := Option.some.inj (hv.symm.trans hu)
      have hc : v.ids.count id ≤ 1 := Nat.le_trans (held_count hv id) h1
      rw [get_unique hc hg hg']

end PinProject
