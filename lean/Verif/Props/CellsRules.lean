import Verif.Props.CellsFrame
import Verif.Props.BorrowHistory
/-!
# Interior mutability under Stacked Borrows and under Tree Borrows
-/
namespace PinProject
open Spec

/-! ## Stacked Borrows -/

theorem guarded_rw {P : List Nat} {x : MItem} (h : x.perm = .sharedRW) : x.guarded P = false := by
  simp [MItem.guarded, h]

theorem split_head {t : Nat} {x : MItem} (hx : x.tag = t) (hg : x.perm.grants true = true) (Y : MStack) :
    MStack.split t (x :: Y) = some ([], x :: Y) := by
  rw [MStack.split, if_pos ⟨hx, hg⟩]

/-- Items above what a write keeps. -/
theorem split_over {t : Nat} {k : MStack} (hk : k.split t = some ([], k)) (a : MStack) (ht : t ∉ a.map MItem.tag) :
    ∃ a' h, a = a' ++ h ∧ (∀ y ∈ h, y.perm = .sharedRW) ∧ MStack.split t (a ++ k) = some (a', h ++ k) ∧
      (k.head?.map MItem.perm ≠ some .sharedRW → h = []) := by
  induction a with
  | nil => exact ⟨[], [], rfl, by simp, hk, fun _ => rfl⟩
  | cons y a ih =>
    rw [List.map_cons, List.mem_cons, not_or] at ht
    obtain ⟨a', h, e, h1, h2, h3⟩ := ih ht.2
    rw [List.cons_append, MStack.split, if_neg (fun h => ht.1 h.1.symm), h2]
    cases a' with
    | cons z a' => exact ⟨y :: z :: a', h, by rw [e]; rfl, h1, rfl, h3⟩
    | nil =>
      simp only
      split
      · rename_i hy
        refine ⟨[], y :: h, by rw [e]; rfl, ?_, rfl, ?_⟩
        · intro z hz
          rcases List.mem_cons.1 hz with rfl | hz
          · exact hy.1
          · exact h1 z hz
        · intro hne
          obtain rfl := h3 hne
          exact absurd hy.2 hne
      · exact ⟨[y], h, by rw [e]; rfl, h1, rfl, h3⟩

/-- A group of `SharedReadWrite` items. -/
theorem split_group {t : Nat} {g k : MStack} (hk : k.split t = some ([], k)) (hh : k.head?.map MItem.perm = some .sharedRW)
    (hg : ∀ y ∈ g, y.perm = .sharedRW) (ht : t ∉ g.map MItem.tag) :
    MStack.split t (g ++ k) = some ([], g ++ k) ∧ (g ++ k).head?.map MItem.perm = some .sharedRW := by
  induction g with
  | nil => exact ⟨hk, hh⟩
  | cons y g ih =>
    rw [List.map_cons, List.mem_cons, not_or] at ht
    obtain ⟨h1, h2⟩ := ih (fun z hz => hg z (List.mem_cons_of_mem _ hz)) ht.2
    have hy := hg y List.mem_cons_self
    refine ⟨?_, by simp [hy]⟩
    rw [List.cons_append, MStack.split, if_neg (fun h => ht.1 h.1.symm), h1]
    simp only
    rw [if_pos ⟨hy, h2⟩]

/-- What reading with a pointer below does to an item. -/
def MItem.disable (i : MItem) : MItem := if i.perm = .unique then ⟨.disabled, i.tag⟩ else i

theorem disable_tag (i : MItem) : i.disable.tag = i.tag := by
  unfold MItem.disable
  split <;> rfl

theorem disable_guarded {P : List Nat} {i : MItem} (h : i.guarded P = false) : i.disable.guarded P = false := by
  unfold MItem.disable
  split
  · rename_i hu
    simp only [MItem.guarded, hu] at h ⊢
    simpa using h
  · exact h

theorem disable_rw {i : MItem} (h : i.perm = .sharedRW) : i.disable = i := by
  unfold MItem.disable
  rw [h]
  rfl

theorem read_over {P : List Nat} {t : Nat} {x : MItem} (hx : x.tag = t) (hg : x.perm.grants true = true) (X Y : MStack)
    (ht : t ∉ X.map MItem.tag) (hX : ∀ y ∈ X, y.guarded P = false) :
    MStack.read (MItem.guarded P) t (X ++ x :: Y) = some (X.map MItem.disable ++ x :: Y) := by
  have hg' : x.perm.grants false = true := by
    revert hg
    cases x.perm <;> simp [MPerm.grants]
  induction X with
  | nil =>
    rw [List.nil_append, MStack.read, if_pos ⟨hx, hg'⟩]
    rfl
  | cons y X ih =>
    rw [List.map_cons, List.mem_cons, not_or] at ht
    have h1 := ih ht.2 (fun z hz => hX z (List.mem_cons_of_mem _ hz))
    rw [List.cons_append, MStack.read, if_neg (fun h => ht.1 h.1.symm), h1]
    simp only [MItem.disable, List.map_cons, List.cons_append]
    split
    · simp [hX y List.mem_cons_self]
    · rfl

/-- The byte has a group of `SharedReadWrite` items above `i :: r`; what is above the group is not protected. -/
structure MiriW (i : MItem) (r : MStack) (P0 P : List Nat) (n : Nat) (s : MStack) (S : List Nat) : Prop where
  lt : ∀ i ∈ s, i.tag < n
  nodup : (s.map MItem.tag).Nodup
  group : ∃ a g, s = a ++ (g ++ i :: r) ∧ (∀ x ∈ g, x.perm = .sharedRW) ∧
    (∀ x ∈ a, x.guarded P = false ∧ x.guarded P0 = false) ∧ ∀ t ∈ S, t ∈ g.map MItem.tag

theorem mtags_of {X Y : MStack} {x : MItem} (h : ((X ++ x :: Y).map MItem.tag).Nodup) : x.tag ∉ X.map MItem.tag := by
  rw [List.map_append, List.nodup_append] at h
  intro hm
  exact h.2.2 _ hm _ List.mem_cons_self rfl

section
variable {i : MItem} {r : MStack} {P0 : List Nat} (hgr : i.perm.grants true = true)
include hgr

theorem miriW_read {P : List Nat} {n : Nat} {s : MStack} {S : List Nat} (h : MiriW i r P0 P n s S) {t : Nat}
    (ht : t ∈ i.tag :: S) : ∃ s', MStack.read (MItem.guarded P) t s = some s' ∧ MiriW i r P0 P n s' S := by
  obtain ⟨a, g, rfl, hg, ha, hS⟩ := h.group
  -- the item of `t`
  obtain ⟨X, x, Y, e, hx, hxg, hX⟩ : ∃ X x Y, g ++ i :: r = X ++ x :: Y ∧ x.tag = t ∧ x.perm.grants true = true ∧
      ∀ y ∈ X, y.perm = .sharedRW := by
    rcases List.mem_cons.1 ht with rfl | ht
    · exact ⟨g, i, r, rfl, rfl, hgr, hg⟩
    · obtain ⟨x, hx, hxt⟩ := List.mem_map.1 (hS t ht)
      obtain ⟨g1, g2, rfl⟩ := List.append_of_mem hx
      refine ⟨g1, x, g2 ++ i :: r, by simp, hxt, by rw [hg x hx]; rfl, fun y hy => hg y (List.mem_append_left _ hy)⟩
  have hfull : a ++ (g ++ i :: r) = (a ++ X) ++ x :: Y := by rw [e, List.append_assoc]
  have hno : t ∉ (a ++ X).map MItem.tag := by
    have := h.nodup
    rw [hfull] at this
    exact hx ▸ mtags_of this
  have hr := read_over (P := P) hx hxg (a ++ X) Y hno (by
    intro y hy
    rcases List.mem_append.1 hy with hy | hy
    · exact (ha y hy).1
    · exact guarded_rw (hX y hy))
  have hXe : X.map MItem.disable = X := by
    rw [List.map_congr_left (fun y hy => disable_rw (hX y hy)), List.map_id'']
    intro y; rfl
  have hres : (a ++ X).map MItem.disable ++ x :: Y = a.map MItem.disable ++ (g ++ i :: r) := by
    rw [List.map_append, hXe, e, List.append_assoc]
  rw [← hfull, hres] at hr
  have htags : (a.map MItem.disable ++ (g ++ i :: r)).map MItem.tag = (a ++ (g ++ i :: r)).map MItem.tag := by
    simp [List.map_append, disable_tag]
  refine ⟨_, hr, ?_, by rw [htags]; exact h.nodup, a.map MItem.disable, g, rfl, hg, ?_, hS⟩
  · intro j hj
    have : j.tag ∈ (a ++ (g ++ i :: r)).map MItem.tag := by rw [← htags]; exact List.mem_map_of_mem hj
    obtain ⟨z, hz, hzj⟩ := List.mem_map.1 this
    rw [← hzj]
    exact h.lt z hz
  · intro y hy
    obtain ⟨z, hz, rfl⟩ := List.mem_map.1 hy
    exact ⟨disable_guarded (ha z hz).1, disable_guarded (ha z hz).2⟩

omit hgr in
/-- What a write with a pointer of the group keeps. -/
theorem miriW_split {n : Nat} {a g : MStack} {P : List Nat} {S : List Nat}
    (h : MiriW i r P0 P n (a ++ (g ++ i :: r)) S) (hg : ∀ x ∈ g, x.perm = .sharedRW) {t : Nat} (ht : t ∈ g.map MItem.tag) :
    ∃ a' h, a = a' ++ h ∧ (∀ y ∈ h, y.perm = .sharedRW) ∧
      MStack.split t (a ++ (g ++ i :: r)) = some (a', h ++ (g ++ i :: r)) := by
  obtain ⟨x, hx, rfl⟩ := List.mem_map.1 ht
  obtain ⟨g1, g2, rfl⟩ := List.append_of_mem hx
  have hno := h.nodup
  rw [show a ++ ((g1 ++ x :: g2) ++ i :: r) = (a ++ g1) ++ x :: (g2 ++ i :: r) by simp] at hno
  have hno := mtags_of hno
  rw [List.map_append, List.mem_append, not_or] at hno
  have hxp := hg x hx
  obtain ⟨h1, -⟩ := split_group (g := g1) (k := x :: (g2 ++ i :: r)) (split_head rfl (by rw [hxp]; rfl) _) (by simp [hxp])
    (fun y hy => hg y (List.mem_append_left _ hy)) hno.2
  rw [show (g1 ++ x :: g2) ++ i :: r = g1 ++ x :: (g2 ++ i :: r) by simp]
  obtain ⟨a', h, e, h2, h3, -⟩ := split_over h1 a hno.1
  exact ⟨a', h, e, h2, h3⟩

omit hgr in
theorem miriW_sub {P : List Nat} {n : Nat} {a' k : MStack} {S : List Nat} (h : MiriW i r P0 P n (a' ++ k) S) :
    (∀ i ∈ k, i.tag < n) ∧ (k.map MItem.tag).Nodup := by
  refine ⟨fun i hi => h.lt i (List.mem_append_right _ hi), ?_⟩
  have := h.nodup
  rw [List.map_append, List.nodup_append] at this
  exact this.2.1

omit hgr in
theorem miriW_write {P : List Nat} {n : Nat} {s : MStack} {S : List Nat} (h : MiriW i r P0 P n s S) {t : Nat}
    (ht : t ∈ S) : ∃ s', MStack.write (MItem.guarded P) t s = some s' ∧ MiriW i r P0 P n s' S := by
  obtain ⟨a, g, rfl, hg, ha, hS⟩ := h.group
  obtain ⟨a', h', rfl, h2, h3⟩ := miriW_split h hg (hS t ht)
  have hnone : a'.any (MItem.guarded P) = false := by
    rw [List.any_eq_false]
    intro y hy
    rw [(ha y (List.mem_append_left _ hy)).1]
    simp
  rw [List.append_assoc] at h
  obtain ⟨h4, h5⟩ := miriW_sub h
  refine ⟨h' ++ (g ++ i :: r), ?_, h4, h5, [], h' ++ g, by simp, ?_, by simp, ?_⟩
  · unfold MStack.write
    rw [h3]
    simp [hnone]
  · intro x hx
    rcases List.mem_append.1 hx with hx | hx
    · exact h2 x hx
    · exact hg x hx
  · intro t ht
    rw [List.map_append]
    exact List.mem_append_right _ (hS t ht)

theorem miriW_share {P : List Nat} {n : Nat} {s : MStack} {S : List Nat} (h : MiriW i r P0 P n s S) {t : Nat}
    (ht : t ∈ i.tag :: S) : MiriW i r P0 P (n + 1) (s.insert .shared t n) (n :: S) := by
  obtain ⟨a, g, rfl, hg, ha, hS⟩ := h.group
  have hval : (miri (fun _ _ => false)).valid n (a ++ (g ++ i :: r)) := ⟨h.lt, h.nodup⟩
  -- above the group
  have case1 : (∃ a' h, a = a' ++ h ∧ (∀ y ∈ h, y.perm = .sharedRW) ∧
      MStack.split t (a ++ (g ++ i :: r)) = some (a', h ++ (g ++ i :: r))) →
      MiriW i r P0 P (n + 1) (MStack.insert .shared t n (a ++ (g ++ i :: r))) (n :: S) := by
    rintro ⟨a', h', rfl, h2, h3⟩
    unfold MStack.insert
    rw [h3]
    rw [List.append_assoc] at hval
    obtain ⟨⟨h4, h5⟩, -⟩ := miri_valid_insert hval .sharedRW
    refine ⟨h4, h5, a', ⟨.sharedRW, n⟩ :: (h' ++ g), by simp, ?_,
      fun x hx => ha x (List.mem_append_left _ hx), ?_⟩
    · intro x hx
      rcases List.mem_cons.1 hx with rfl | hx
      · rfl
      · rcases List.mem_append.1 hx with hx | hx
        · exact h2 x hx
        · exact hg x hx
    · intro u hu
      rw [List.map_cons]
      rcases List.mem_cons.1 hu with rfl | hu
      · exact List.mem_cons_self
      · refine List.mem_cons_of_mem _ ?_
        rw [List.map_append]
        exact List.mem_append_right _ (hS u hu)
  rcases List.mem_cons.1 ht with rfl | ht
  · have hno := h.nodup
    rw [show a ++ (g ++ i :: r) = (a ++ g) ++ i :: r by simp] at hno
    have hno := mtags_of hno
    by_cases hp : i.perm = .sharedRW
    · apply case1
      rw [List.map_append, List.mem_append, not_or] at hno
      obtain ⟨h1, -⟩ := split_group (split_head rfl hgr r) (by simp [hp]) hg hno.2
      obtain ⟨a', h', e, h2, h3, -⟩ := split_over h1 a hno.1
      exact ⟨a', h', e, h2, h3⟩
    · obtain ⟨a', h', e, h2, h3, h4⟩ := split_over (split_head rfl hgr r) (a ++ g) hno
      obtain rfl := h4 (by simpa using hp)
      rw [List.append_nil] at e
      subst e
      rw [show a ++ (g ++ i :: r) = (a ++ g) ++ i :: r by simp] at hval ⊢
      unfold MStack.insert
      rw [h3]
      obtain ⟨⟨h4, h5⟩, -⟩ := miri_valid_insert hval .sharedRW
      refine ⟨h4, h5, a, g ++ [⟨.sharedRW, n⟩], by simp, ?_, ha, ?_⟩
      · intro x hx
        rcases List.mem_append.1 hx with hx | hx
        · exact hg x hx
        · rw [List.mem_singleton] at hx
          subst hx
          rfl
      · intro u hu
        rw [List.map_append]
        rcases List.mem_cons.1 hu with rfl | hu
        · exact List.mem_append_right _ (by simp)
        · exact List.mem_append_left _ (hS u hu)
  · exact case1 (miriW_split h hg (hS t ht))

end

/-- The chain up to `i` is not affected. -/
theorem miriW_within {i : MItem} {r : MStack} {P0 P : List Nat} {n : Nat} {s : MStack} {S : List Nat} {com : BStack}
    (h : MiriW i r P0 P n s S) (hc : MWithin (MItem.guarded P0) com (i :: r)) : MWithin (MItem.guarded P0) com s := by
  obtain ⟨a, g, rfl, hg, ha, -⟩ := h.group
  have hno := h.nodup
  rw [← List.append_assoc] at hno ⊢
  rw [List.map_append, List.nodup_append] at hno
  refine hc.skips (a ++ g) (fun j hj => ⟨hc.notin (fun hm => hno.2.2 _ (List.mem_map_of_mem hj) _ hm rfl), fun hp => ?_⟩)
  rcases List.mem_append.1 hj with hj | hj
  · rw [(ha j hj).2] at hp
    cases hp
  · rw [guarded_rw (hg j hj)] at hp
    cases hp

def miriFrame (exempt : BPerm → Nat → Bool) (hex : ∀ t, exempt .shared t = true) (i : MItem) (r : MStack) (P0 : List Nat)
    (hgr : i.perm.grants true = true) : CellFrame (miri exempt) i.tag where
  W := MiriW i r P0
  access := by
    intro P n s S t w h ht
    cases w with
    | true => exact miriW_write h ht
    | false => exact miriW_read hgr h (List.mem_cons_of_mem _ ht)
  read := fun h => miriW_read hgr h List.mem_cons_self
  noWrite := fun n => by simp [hex]
  share := by
    intro P n s S t h ht
    show MiriW i r P0 P (n + 1) (if _ then _ else _) _
    rw [if_pos (.inr (hex n))]
    exact miriW_share hgr h ht
  skip := fun h => ⟨fun i hi => Nat.lt_succ_of_lt (h.lt i hi), h.nodup, h.group⟩
  protect := by
    intro P n s S t h ht
    obtain ⟨a, g, rfl, hg, ha, hS⟩ := h.group
    refine ⟨h.lt, h.nodup, a, g, rfl, hg, ?_, hS⟩
    intro x hx
    have hne : x.tag ≠ t := by
      rintro rfl
      have := h.nodup
      rw [List.map_append, List.nodup_append] at this
      refine this.2.2 _ (List.mem_map_of_mem hx) x.tag ?_ rfl
      rw [List.map_append]
      exact List.mem_append_left _ (hS _ ht)
    refine ⟨?_, (ha x hx).2⟩
    have := (ha x hx).1
    simp only [MItem.guarded, List.contains_cons, Bool.and_eq_false_iff, Bool.or_eq_false_iff] at this ⊢
    rcases this with h | h
    · exact .inl ⟨by simpa using hne, h⟩
    · exact .inr h
  release := fun _ _ => rfl
  unprotect := by
    intro P n s S t h ht
    obtain ⟨a, g, rfl, hg, ha, hS⟩ := h.group
    refine ⟨h.lt, h.nodup, a, g, rfl, hg, ?_, hS⟩
    intro x hx
    refine ⟨?_, (ha x hx).2⟩
    have := (ha x hx).1
    simp only [MItem.guarded, List.contains_cons, Bool.and_eq_false_iff, Bool.or_eq_false_iff] at this ⊢
    rcases this with h | h
    · exact .inl h.2
    · exact .inr h

/-- The item of the first pointer of a chain. -/
theorem mwithin_head {prot : MItem → Bool} {p : BPerm} {t : Nat} {below : BStack} {s : MStack}
    (h : MWithin prot (⟨p, t⟩ :: below) s) (hp : p ≠ .shared) :
    ∃ a i r, s = a ++ i :: r ∧ i.tag = t ∧ i.perm.grants true = true ∧ (∀ x ∈ a, prot x = false) ∧
      MWithin prot (⟨p, t⟩ :: below) (i :: r) := by
  generalize hc : (⟨p, t⟩ :: below : BStack) = c at h ⊢
  induction h with
  | nil => cases hc
  | @skip c s j h hj hpj ih =>
    subst hc
    obtain ⟨a, i, r, rfl, h1, h2, h3, h4⟩ := ih rfl
    refine ⟨j :: a, i, r, rfl, h1, h2, ?_, h4⟩
    intro x hx
    rcases List.mem_cons.1 hx with rfl | hx
    · cases hq : prot x with
      | false => rfl
      | true => exact absurd ((hpj hq).2 _ List.mem_cons_self) hp
    · exact h3 x hx
  | @keep c s x y h hy hs hd hp' hu =>
    cases hc
    exact ⟨[], y, s, rfl, hy, hp' hp, by simp, .keep h hy hs hd hp' hu⟩

/-- Some item of `t0`, and the chain up to it. -/
def MiriCells (p : BPerm) (t0 : Nat) (below : BStack) (P0 P : List Nat) (n : Nat) (s : MStack) (S : List Nat) : Prop :=
  ∃ i r, i.tag = t0 ∧ i.perm.grants true = true ∧ MWithin (MItem.guarded P0) (⟨p, t0⟩ :: below) (i :: r) ∧ MiriW i r P0 P n s S

def miriCellFrame (exempt : BPerm → Nat → Bool) (hex : ∀ t, exempt .shared t = true) (p : BPerm) (t0 : Nat) (below : BStack)
    (P0 : List Nat) : CellFrame (miri exempt) t0 where
  W := MiriCells p t0 below P0
  access := fun w ⟨i, r, h1, h2, h3, h4⟩ ht =>
    let ⟨s', h5, h6⟩ := (miriFrame exempt hex i r P0 h2).access w h4 ht
    ⟨s', h5, i, r, h1, h2, h3, h6⟩
  read := by
    rintro P n s S ⟨i, r, rfl, h2, h3, h4⟩
    obtain ⟨s', h5, h6⟩ := (miriFrame exempt hex i r P0 h2).read h4
    exact ⟨s', h5, i, r, rfl, h2, h3, h6⟩
  noWrite := fun n => by simp [hex]
  share := by
    rintro P n s S t ⟨i, r, rfl, h2, h3, h4⟩ ht
    exact ⟨i, r, rfl, h2, h3, (miriFrame exempt hex i r P0 h2).share h4 ht⟩
  skip := fun ⟨i, r, h1, h2, h3, h4⟩ => ⟨i, r, h1, h2, h3, (miriFrame exempt hex i r P0 h2).skip h4⟩
  protect := fun ⟨i, r, h1, h2, h3, h4⟩ ht => ⟨i, r, h1, h2, h3, (miriFrame exempt hex i r P0 h2).protect h4 ht⟩
  release := fun _ _ => rfl
  unprotect := fun ⟨i, r, h1, h2, h3, h4⟩ ht => ⟨i, r, h1, h2, h3, (miriFrame exempt hex i r P0 h2).unprotect h4 ht⟩

/-! ## Tree Borrows -/

theorem step_again {p : TPerm} {l pr : Bool} (w : Bool) (h : (p.step true l pr).isSome) :
    ∃ p', p.step w l pr = some p' ∧ (p'.step true l pr).isSome ∧ (p = .cell → p' = .cell) := by
  cases w <;> cases l <;> cases pr <;> cases p <;> first
    | (rename_i im c; cases im <;> cases c <;> simp [TPerm.step] at h ⊢)
    | simp [TPerm.step] at h ⊢

theorem step_cell (w l pr : Bool) : TPerm.cell.step w l pr = some .cell := by
  cases w <;> cases l <;> cases pr <;> rfl

/-- For nodes which are not cells it does not matter whether a pointer of `m` or of `a` is used. -/
def Near (s : TTree) (a m : TNode) : Prop := ∀ x ∈ s, x.perm = .cell ∨ (x.id ∈ m.above ↔ x.id ∈ a.above)

/-- The pointers of `S` have nodes near that of `t0`, which can be used to write. -/
structure TreeW (t0 : Nat) (P : List Nat) (n : Nat) (s : TTree) (S : List Nat) : Prop where
  valid : s.Valid n
  group : ∃ a ∈ s, t0 ∈ a.names ∧ (∀ m ∈ s, (a.effect P true m).isSome) ∧
    ∀ t ∈ S, ∃ m ∈ s, t ∈ m.names ∧ Near s a m
  ids : ∀ t ∈ S, ∀ x ∈ s, x.id = t → x.perm = .cell

theorem TreeW.near {t0 : Nat} {P : List Nat} {n : Nat} {s : TTree} {S : List Nat} (h : TreeW t0 P n s S) {t : Nat}
    (ht : t ∈ t0 :: S) : ∃ a ∈ s, t0 ∈ a.names ∧ (∀ m ∈ s, (a.effect P true m).isSome) ∧
      (∀ t ∈ S, ∃ m ∈ s, t ∈ m.names ∧ Near s a m) ∧ ∃ m ∈ s, t ∈ m.names ∧ Near s a m := by
  obtain ⟨a, ha, h1, h2, h3⟩ := h.group
  refine ⟨a, ha, h1, h2, h3, ?_⟩
  rcases List.mem_cons.1 ht with rfl | ht
  · exact ⟨a, ha, h1, fun x _ => .inr Iff.rfl⟩
  · exact h3 t ht

theorem treeW_access {t0 : Nat} {P : List Nat} {n : Nat} {s : TTree} {S : List Nat} (h : TreeW t0 P n s S) {t : Nat}
    (ht : t ∈ t0 :: S) (w : Bool) : ∃ s', s.access P w t = some s' ∧ TreeW t0 P n s' S := by
  obtain ⟨a, ha, h1, h2, h3, m, hm, hmt, hnear⟩ := h.near ht
  have heff : ∀ x ∈ s, ∃ p, m.effect P w x = some p ∧ (x.perm.step true (a.above.contains x.id) (P.contains x.id)).isSome ∧
      (p.step true (a.above.contains x.id) (P.contains x.id)).isSome ∧ (x.perm = .cell → p = .cell) := by
    intro x hx
    have h4 : (x.perm.step true (a.above.contains x.id) (P.contains x.id)).isSome := h2 x hx
    rcases hnear x hx with hc | hc
    · refine ⟨.cell, ?_, h4, ?_, fun _ => rfl⟩
      · unfold TNode.effect
        rw [hc]
        exact step_cell _ _ _
      · rw [step_cell]
        rfl
    · obtain ⟨p, h5, h6, h7⟩ := step_again w h4
      refine ⟨p, ?_, h4, h6, h7⟩
      unfold TNode.effect
      rw [show m.above.contains x.id = a.above.contains x.id by simp [List.contains_eq_mem, hc]]
      exact h5
  have hv := visit_map (m.effect P w) s (fun x hx => by
    obtain ⟨p, hp, -⟩ := heff x hx
    rw [hp]; rfl)
  refine ⟨s.map (fun x => { x with perm := (m.effect P w x).getD x.perm }), ?_, ?_⟩
  · unfold TTree.access
    rw [node_eq h.valid hm hmt]
    exact hv
  · have hu : ∀ x ∈ s, SameNode x { x with perm := (m.effect P w x).getD x.perm } := fun _ _ => ⟨rfl, rfl, rfl⟩
    refine ⟨valid_map h.valid hu, ⟨_, List.mem_map_of_mem ha, h1, ?_, ?_⟩, ?_⟩
    · intro y hy
      obtain ⟨x, hx, rfl⟩ := List.mem_map.1 hy
      obtain ⟨p, hp, -, h5, -⟩ := heff x hx
      unfold TNode.effect at hp ⊢
      simp only [hp, Option.getD_some]
      exact h5
    · intro u hu
      obtain ⟨k, hk, hku, hkn⟩ := h3 u hu
      refine ⟨_, List.mem_map_of_mem hk, hku, ?_⟩
      intro y hy
      obtain ⟨x, hx, rfl⟩ := List.mem_map.1 hy
      obtain ⟨p, hp, -, -, h6⟩ := heff x hx
      rcases hkn x hx with hc | hc
      · left
        simp only [hp, Option.getD_some]
        exact h6 hc
      · exact .inr hc
    · intro u hu y hy e
      obtain ⟨x, hx, rfl⟩ := List.mem_map.1 hy
      obtain ⟨p, hp, -, -, h6⟩ := heff x hx
      simp only [hp, Option.getD_some]
      exact h6 (h.ids u hu x hx e)

theorem valid_push {n : Nat} {s : TTree} (hv : s.Valid n) (how : TreeHow) (p : BPerm) (t : Nat) :
    TTree.Valid (n + 1) (s.push how p t n) := by
  have hlt : ∀ m ∈ s, n ∉ m.names := fun m hm hn => Nat.lt_irrefl _ (hv.names m hm n hn)
  unfold TTree.push
  cases how.perm p with
  | none =>
    simp only
    refine ⟨?_, ?_, ?_, ?_⟩
    · intro m' hm'
      obtain ⟨m, hm, rfl⟩ := List.mem_map.1 hm'
      split
      · exact List.mem_cons_of_mem _ (hv.id m hm)
      · exact hv.id m hm
    · intro m' hm' t ht
      obtain ⟨m, hm, rfl⟩ := List.mem_map.1 hm'
      split at ht
      · rcases List.mem_cons.1 ht with rfl | ht
        · exact Nat.lt_succ_self _
        · exact Nat.lt_succ_of_lt (hv.names m hm t ht)
      · exact Nat.lt_succ_of_lt (hv.names m hm t ht)
    · intro m' hm' t ht
      obtain ⟨m, hm, rfl⟩ := List.mem_map.1 hm'
      split at ht <;> exact Nat.lt_succ_of_lt (hv.above m hm t ht)
    · intro m1' hm1' m2' hm2' u h1 h2
      obtain ⟨m1, hm1, rfl⟩ := List.mem_map.1 hm1'
      obtain ⟨m2, hm2, rfl⟩ := List.mem_map.1 hm2'
      suffices m1 = m2 by rw [this]
      by_cases c1 : m1.names.contains t = true <;> by_cases c2 : m2.names.contains t = true
      · exact hv.unique m1 hm1 m2 hm2 t (by simpa using c1) (by simpa using c2)
      · rw [if_pos c1] at h1
        rw [if_neg c2] at h2
        rcases List.mem_cons.1 h1 with rfl | h1
        · exact absurd h2 (hlt m2 hm2)
        · exact hv.unique m1 hm1 m2 hm2 u h1 h2
      · rw [if_neg c1] at h1
        rw [if_pos c2] at h2
        rcases List.mem_cons.1 h2 with rfl | h2
        · exact absurd h1 (hlt m1 hm1)
        · exact hv.unique m1 hm1 m2 hm2 u h1 h2
      · rw [if_neg c1] at h1
        rw [if_neg c2] at h2
        exact hv.unique m1 hm1 m2 hm2 u h1 h2
  | some q =>
    simp only
    split
    · rename_i a ha
      have hs := (node_some ha).1
      refine ⟨?_, ?_, ?_, ?_⟩
      · intro m hm
        rcases List.mem_cons.1 hm with rfl | hm
        · exact List.mem_cons_self
        · exact hv.id m hm
      · intro m hm u hu
        rcases List.mem_cons.1 hm with rfl | hm
        · rw [List.mem_singleton.1 hu]
          exact Nat.lt_succ_self _
        · exact Nat.lt_succ_of_lt (hv.names m hm u hu)
      · intro m hm u hu
        rcases List.mem_cons.1 hm with rfl | hm
        · rcases List.mem_cons.1 hu with rfl | hu
          · exact Nat.lt_succ_self _
          · exact Nat.lt_succ_of_lt (hv.above a hs u hu)
        · exact Nat.lt_succ_of_lt (hv.above m hm u hu)
      · intro m1 hm1 m2 hm2 u h1 h2
        rcases List.mem_cons.1 hm1 with rfl | hm1 <;> rcases List.mem_cons.1 hm2 with rfl | hm2
        · rfl
        · rw [List.mem_singleton.1 h1] at h2
          exact absurd h2 (hlt m2 hm2)
        · rw [List.mem_singleton.1 h2] at h1
          exact absurd h1 (hlt m1 hm1)
        · exact hv.unique m1 hm1 m2 hm2 u h1 h2
    · exact ⟨hv.id, fun m hm t ht => Nat.lt_succ_of_lt (hv.names m hm t ht),
        fun m hm t ht => Nat.lt_succ_of_lt (hv.above m hm t ht), hv.unique⟩

theorem treeW_share {t0 : Nat} {P : List Nat} {n : Nat} {s : TTree} {S : List Nat} (h : TreeW t0 P n s S) {t : Nat}
    (ht : t ∈ t0 :: S) (how : TreeHow) (hh : how ≠ .plain) : TreeW t0 P (n + 1) (s.push how .shared t n) (n :: S) := by
  obtain ⟨a, ha, h1, h2, h3, m, hm, hmt, hnear⟩ := h.near ht
  have hv := valid_push h.valid how .shared t
  have hidn : ∀ x ∈ s, x.id ≠ n := fun x hx e => by
    have := h.valid.names x hx _ (h.valid.id x hx)
    omega
  have hperm : how.perm .shared = none ∨ how.perm .shared = some .cell := by
    cases how <;> simp [TreeHow.perm] at hh ⊢
  unfold TTree.push at hv ⊢
  rcases hperm with hp | hp
  · rw [hp] at hv ⊢
    simp only at hv ⊢
    have hid : ∀ m : TNode, (if m.names.contains t then { m with names := n :: m.names } else m).id = m.id := by
      intro m; split <;> rfl
    have hab : ∀ m : TNode, (if m.names.contains t then { m with names := n :: m.names } else m).above = m.above := by
      intro m; split <;> rfl
    have hpm : ∀ m : TNode, (if m.names.contains t then { m with names := n :: m.names } else m).perm = m.perm := by
      intro m; split <;> rfl
    have hnm : ∀ (m : TNode) x, x ∈ m.names →
        x ∈ (if m.names.contains t then { m with names := n :: m.names } else m).names := by
      intro m x hx; split
      · exact List.mem_cons_of_mem _ hx
      · exact hx
    have hnear' : ∀ k, Near s a k → Near (s.map (fun m => if m.names.contains t then { m with names := n :: m.names } else m))
        (if a.names.contains t then { a with names := n :: a.names } else a)
        (if k.names.contains t then { k with names := n :: k.names } else k) := by
      intro k hk y hy
      obtain ⟨x, hx, rfl⟩ := List.mem_map.1 hy
      rw [hid, hpm, hab, hab]
      exact hk x hx
    refine ⟨hv, ⟨_, List.mem_map_of_mem ha, hnm a _ h1, ?_, ?_⟩, ?_⟩
    · intro y hy
      obtain ⟨x, hx, rfl⟩ := List.mem_map.1 hy
      unfold TNode.effect
      rw [hab, hid, hpm]
      exact h2 x hx
    · intro u hu
      rcases List.mem_cons.1 hu with rfl | hu
      · refine ⟨_, List.mem_map_of_mem hm, ?_, hnear' m hnear⟩
        rw [if_pos (by simpa using hmt)]
        exact List.mem_cons_self
      · obtain ⟨k, hk, hku, hkn⟩ := h3 u hu
        exact ⟨_, List.mem_map_of_mem hk, hnm k u hku, hnear' k hkn⟩
    · intro u hu y hy e
      obtain ⟨x, hx, rfl⟩ := List.mem_map.1 hy
      rw [hid] at e
      rw [hpm]
      rcases List.mem_cons.1 hu with rfl | hu
      · exact absurd e (hidn x hx)
      · exact h.ids u hu x hx e
  · rw [hp] at hv ⊢
    simp only [node_eq h.valid hm hmt] at hv ⊢
    refine ⟨hv, ⟨a, List.mem_cons_of_mem _ ha, h1, ?_, ?_⟩, ?_⟩
    · intro x hx
      rcases List.mem_cons.1 hx with rfl | hx
      · unfold TNode.effect
        rw [step_cell]
        rfl
      · exact h2 x hx
    · intro u hu
      rcases List.mem_cons.1 hu with rfl | hu
      · refine ⟨_, List.mem_cons_self, List.mem_cons_self, ?_⟩
        intro x hx
        rcases List.mem_cons.1 hx with rfl | hx
        · exact .inl rfl
        · rcases hnear x hx with hc | hc
          · exact .inl hc
          · right
            simp only [List.mem_cons, hidn x hx, false_or]
            exact hc
      · obtain ⟨k, hk, hku, hkn⟩ := h3 u hu
        refine ⟨k, List.mem_cons_of_mem _ hk, hku, ?_⟩
        intro x hx
        rcases List.mem_cons.1 hx with rfl | hx
        · exact .inl rfl
        · exact hkn x hx
    · intro u hu x hx e
      rcases List.mem_cons.1 hx with rfl | hx'
      · rfl
      · rcases List.mem_cons.1 hu with rfl | hu
        · exact absurd e (hidn x hx')
        · exact h.ids u hu x hx' e

/-- The protection of cells does not matter. -/
theorem treeW_prot {t0 : Nat} {P P' : List Nat} {n : Nat} {s : TTree} {S : List Nat} (h : TreeW t0 P n s S)
    (hp : ∀ x ∈ s, x.perm = .cell ∨ (x.id ∈ P' ↔ x.id ∈ P)) : TreeW t0 P' n s S := by
  obtain ⟨a, ha, h1, h2, h3⟩ := h.group
  refine ⟨h.valid, ⟨a, ha, h1, fun x hx => ?_, h3⟩, h.ids⟩
  have := h2 x hx
  unfold TNode.effect at this ⊢
  rcases hp x hx with hc | hc
  · rw [hc, step_cell]
    rfl
  · rw [show P'.contains x.id = P.contains x.id by simp [List.contains_eq_mem, hc]]
    exact this

/-- A use of a pointer of `S` is the same as one of `t0`. -/
theorem treeW_same {t0 : Nat} {P P0 : List Nat} {n : Nat} {s : TTree} {S : List Nat} (h : TreeW t0 P n s S) {t : Nat}
    (ht : t ∈ t0 :: S) (w : Bool) (hp : ∀ x ∈ s, x.perm = .cell ∨ (x.id ∈ P ↔ x.id ∈ P0)) :
    s.access P w t = s.access P0 w t0 := by
  obtain ⟨a, ha, h1, h2, h3, m, hm, hmt, hnear⟩ := h.near ht
  unfold TTree.access
  rw [node_eq h.valid hm hmt, node_eq h.valid ha h1]
  refine visit_congr (fun x hx => ?_)
  unfold TNode.effect
  by_cases hc : x.perm = .cell
  · rw [hc, step_cell, step_cell]
  · rw [show m.above.contains x.id = a.above.contains x.id by
        simp [List.contains_eq_mem, (hnear x hx).resolve_left hc],
      show P.contains x.id = P0.contains x.id by simp [List.contains_eq_mem, (hp x hx).resolve_left hc]]

/-- The pointers of `S`, and the chain up to `t0`. -/
structure TreeCells (p : BPerm) (t0 : Nat) (below : BStack) (P0 P : List Nat) (n : Nat) (s : TTree) (S : List Nat) : Prop where
  w : TreeW t0 P n s S
  r : TreeR P0 n (⟨p, t0⟩ :: below) s
  mut_ : p ≠ .shared
  sub : ∀ k ∈ P0, k ∈ P
  sup : ∀ k ∈ P, k ∈ P0 ∨ k ∈ S
  off : ∀ k ∈ S, k ∉ P0
  lt : ∀ k ∈ P0, k < n

theorem TreeCells.prot {p : BPerm} {t0 : Nat} {below : BStack} {P0 P : List Nat} {n : Nat} {s : TTree} {S : List Nat}
    (h : TreeCells p t0 below P0 P n s S) : ∀ x ∈ s, x.perm = .cell ∨ (x.id ∈ P ↔ x.id ∈ P0) := by
  intro x hx
  by_cases hS : x.id ∈ S
  · exact .inl (h.w.ids _ hS x hx rfl)
  · exact .inr ⟨fun hP => (h.sup _ hP).resolve_right hS, h.sub _⟩

theorem treeCells_access {how : BPerm → Nat → TreeHow} {p : BPerm} {t0 : Nat} {below : BStack} {P0 P : List Nat} {n : Nat}
    {s : TTree} {S : List Nat} (h : TreeCells p t0 below P0 P n s S) {t : Nat} (ht : t ∈ t0 :: S) (w : Bool) :
    ∃ s', s.access P w t = some s' ∧ TreeCells p t0 below P0 P n s' S := by
  obtain ⟨s', h1, h2⟩ := treeW_access h.w ht w
  refine ⟨s', h1, h2, ?_, h.mut_, h.sub, h.sup, h.off, h.lt⟩
  have hc : chain.access P0 w t0 (⟨p, t0⟩ :: below) = some (⟨p, t0⟩ :: below) := by
    cases w with
    | true => exact write_head h.mut_ below
    | false => exact read_head below
  obtain ⟨s'', h3, h4⟩ := (tree_simulates how).access h.r hc
  have h3' : s.access P0 w t0 = some s'' := h3
  rw [← treeW_same h.w ht w h.prot, h1] at h3'
  cases h3'
  exact h4

def treeFrame (how : BPerm → Nat → TreeHow) (hh : ∀ t, how .shared t ≠ .plain) (p : BPerm) (t0 : Nat) (below : BStack)
    (P0 : List Nat) : CellFrame (tree how) t0 where
  W := TreeCells p t0 below P0
  access := fun w h ht => treeCells_access (how := how) h (List.mem_cons_of_mem _ ht) w
  read := fun h => treeCells_access (how := how) h List.mem_cons_self false
  noWrite := fun n => by
    simp only
    split <;> simp
  share := by
    intro P n s S t h ht
    have h1 := treeW_share h.w ht _ (hh n)
    refine ⟨h1, (tree_shares how).push h.lt h.r h1.valid, h.mut_, h.sub, fun k hk => (h.sup k hk).imp id (List.mem_cons_of_mem _), ?_,
      fun k hk => Nat.lt_succ_of_lt (h.lt k hk)⟩
    intro k hk hk0
    rcases List.mem_cons.1 hk with rfl | hk
    · exact Nat.lt_irrefl _ (h.lt _ hk0)
    · exact h.off k hk hk0
  skip := by
    intro P n s S h
    have h1 := (tree_simulates how).next h.r
    exact ⟨⟨h1.1, h.w.group, h.w.ids⟩, h1, h.mut_, h.sub, h.sup, h.off, fun k hk => Nat.lt_succ_of_lt (h.lt k hk)⟩
  protect := by
    intro P n s S t h ht
    refine ⟨treeW_prot h.w ?_, h.r, h.mut_, fun k hk => List.mem_cons_of_mem _ (h.sub k hk), ?_, h.off, h.lt⟩
    · intro x hx
      by_cases e : x.id = t
      · exact .inl (h.w.ids t ht x hx e)
      · exact .inr (by simp [e])
    · intro k hk
      rcases List.mem_cons.1 hk with rfl | hk
      · exact .inr ht
      · exact h.sup k hk
  release := by
    intro P n s S t h ht
    show s.release P t = some s
    unfold TTree.release
    cases hf : s.find? (fun m => m.id == t) with
    | none => rfl
    | some b =>
      have hb := List.mem_of_find?_eq_some hf
      have hbt : b.id = t := by simpa using List.find?_some hf
      simp only [h.w.ids t ht b hb hbt]
  unprotect := by
    intro P n s S t h ht
    refine ⟨treeW_prot h.w ?_, h.r, h.mut_, ?_, fun k hk => h.sup k (List.mem_cons_of_mem _ hk), h.off, h.lt⟩
    · intro x hx
      by_cases e : x.id = t
      · exact .inl (h.w.ids t ht x hx e)
      · exact .inr (by simp [e])
    · intro k hk
      rcases List.mem_cons.1 (h.sub k hk) with rfl | h1
      · exact absurd hk (h.off _ ht)
      · exact h1

theorem line_usable {P : List Nat} {n : Nat} {s : TTree} {p : BPerm} {t0 : Nat} {below : BStack} (hp : p ≠ .shared)
    (h : TreeR P n (⟨p, t0⟩ :: below) s) : ∃ a ∈ s, t0 ∈ a.names ∧ ∀ m ∈ s, (a.effect P true m).isSome := by
  obtain ⟨hv, a, h1, h2⟩ := h
  refine ⟨a, h1.mem, h1.name hv, fun m hm => ?_⟩
  obtain ⟨q, hq, -⟩ := effect_some h1.usable h2 (fun _ => hp) hm
  rw [hq]
  rfl

theorem endEffect_cell {P : List Nat} {b m : TNode} {w : Bool} (h : m.perm = .cell) : b.endEffect P w m = some .cell := by
  unfold TNode.endEffect
  split
  · rw [h]
  · unfold TNode.effect
    rw [h, step_cell]

/-- The end of a protection keeps cells. -/
theorem release_cells {P : List Nat} {t : Nat} {s s' : TTree} (h : s.release P t = some s') :
    ∃ u : TNode → TNode, s' = s.map u ∧ (∀ m ∈ s, SameNode m (u m)) ∧ ∀ m ∈ s, m.perm = .cell → (u m).perm = .cell := by
  have hid : ∃ u : TNode → TNode, s = s.map u ∧ (∀ m ∈ s, SameNode m (u m)) ∧ ∀ m ∈ s, m.perm = .cell → (u m).perm = .cell :=
    ⟨id, by simp, fun m _ => ⟨rfl, rfl, rfl⟩, fun m _ h => h⟩
  have hvis : ∀ {b : TNode} {w : Bool}, s.visit (b.endEffect P w) = some s' →
      ∃ u : TNode → TNode, s' = s.map u ∧ (∀ m ∈ s, SameNode m (u m)) ∧ ∀ m ∈ s, m.perm = .cell → (u m).perm = .cell := by
    intro b w hs
    refine ⟨fun x => { x with perm := (b.endEffect P w x).getD x.perm }, ?_, fun m _ => ⟨rfl, rfl, rfl⟩, fun m _ hm => ?_⟩
    · have hall : ∀ x ∈ s, (b.endEffect P w x).isSome := visit_some hs
      have := visit_map (b.endEffect P w) s hall
      rw [hs] at this
      exact Option.some.inj this
    · simp only [endEffect_cell hm]
      rfl
  unfold TTree.release at h
  split at h
  · cases h
    exact hid
  · split at h
    · exact hvis h
    · exact hvis h
    · exact hvis h
    · cases h
      exact hid
    · cases h
      exact hid

theorem treeCells_leave {how : BPerm → Nat → TreeHow} {p : BPerm} {t0 : Nat} {below : BStack} {Q : List Nat} {n t : Nat}
    {s : TTree} {S : List Nat} (hp : p ≠ .shared) (h : TreeCells p t0 below (t :: Q) (t :: Q) n s S)
    (ht : t ∈ (⟨p, t0⟩ :: below : BStack).dropLast.map BItem.tag) :
    ∃ s', s.release (t :: Q) t = some s' ∧ TreeCells p t0 below Q Q n s' S := by
  obtain ⟨s', h1, h2⟩ := (tree_simulates how).release h.r (if_pos ht)
  have h1' : s.release (t :: Q) t = some s' := h1
  refine ⟨s', h1', ?_, h2, hp, fun _ h => h, fun _ h => .inl h, fun k hk h3 => h.off k hk (List.mem_cons_of_mem _ h3),
    fun k hk => h.lt k (List.mem_cons_of_mem _ hk)⟩
  obtain ⟨u, rfl, hu, hc⟩ := release_cells h1'
  obtain ⟨a, ha, h3, h4, h5⟩ := h.w.group
  obtain ⟨a', ha', h3', h4'⟩ := line_usable hp h2
  obtain ⟨a1, ha1, rfl⟩ := List.mem_map.1 ha'
  have e : a1 = a := h.w.valid.unique a1 ha1 a ha t0 (by rw [← (hu a1 ha1).names]; exact h3') h3
  subst e
  refine ⟨h2.1, ⟨_, ha', h3', h4', ?_⟩, ?_⟩
  · intro k hk
    obtain ⟨m, hm, hmk, hn⟩ := h5 k hk
    refine ⟨u m, List.mem_map_of_mem hm, by rw [(hu m hm).names]; exact hmk, ?_⟩
    intro y hy
    obtain ⟨x, hx, rfl⟩ := List.mem_map.1 hy
    rcases hn x hx with h6 | h6
    · exact .inl (hc x hx h6)
    · right
      rw [(hu x hx).id, (hu m hm).above, (hu a1 ha1).above]
      exact h6
  · intro k hk y hy e
    obtain ⟨x, hx, rfl⟩ := List.mem_map.1 hy
    exact hc x hx (h.w.ids k hk x hx (by rw [← (hu x hx).id]; exact e))

/-! ## Both -/

/-- From any state of a program with mutable references, shared ones can be made with which the byte is read and written,
and the mutable ones stay usable as before. -/
structure Cells (A : AliasModel) (R : List Nat → Nat → BStack → A.St → Prop) where
  frame : BPerm → (t0 : Nat) → BStack → List Nat → CellFrame A t0
  enter : ∀ {P0 : List Nat} {n : Nat} {J : BStack} {p : BPerm} {t0 : Nat} {below : BStack} {s : A.St}, p ≠ .shared →
    (∀ i ∈ J, i.tag ≠ t0 ∧ i.tag ∉ P0) → (∀ k ∈ P0, k < n) → R P0 n (J ++ ⟨p, t0⟩ :: below) s →
    (frame p t0 below P0).W P0 n s []
  sound : ∀ {p t0 below P0 P n s S}, (frame p t0 below P0).W P n s S → R P0 n (⟨p, t0⟩ :: below) s
  leave : ∀ {p t0 below Q n t s S}, p ≠ .shared → (frame p t0 below (t :: Q)).W (t :: Q) n s S →
    t ∈ (⟨p, t0⟩ :: below : BStack).dropLast.map BItem.tag →
    ∃ s', A.release (t :: Q) t s = some s' ∧ (frame p t0 below Q).W Q n s' S

def miri_cells (exempt : BPerm → Nat → Bool) (hex : ∀ t, exempt .shared t = true) : Cells (miri exempt) (MiriR exempt) where
  frame := miriCellFrame exempt hex
  enter := by
    intro P0 n J p t0 below s hp hJ hlt hR
    have hc : chain.access P0 true t0 (J ++ ⟨p, t0⟩ :: below) = some (⟨p, t0⟩ :: below) := by
      rw [chain_skip J _ hJ]
      exact write_head hp below
    have h1 := mwithin_drop (guarded_mem (prot := P0)) hR.1 hc
    obtain ⟨a, i, r, rfl, rfl, h3, h4, h5⟩ := mwithin_head h1 hp
    exact ⟨i, r, rfl, h3, h5, hR.2.1, hR.2.2, a, [], rfl, by simp, fun x hx => ⟨h4 x hx, h4 x hx⟩, by simp⟩
  sound := by
    rintro p t0 below P0 P n s S ⟨i, r, -, -, h3, h4⟩
    exact ⟨miriW_within h4 h3, h4.lt, h4.nodup⟩
  leave := by
    rintro p t0 below Q n t s S - ⟨i, r, h1, h2, h3, h4⟩ -
    have hless : ∀ x : MItem, x.guarded Q = true → x.guarded (t :: Q) = true := by
      intro x hx
      simp only [MItem.guarded, Bool.and_eq_true, List.contains_cons, Bool.or_eq_true] at hx ⊢
      exact ⟨.inr hx.1, hx.2⟩
    have hless' : ∀ x : MItem, x.guarded (t :: Q) = false → x.guarded Q = false := by
      intro x hx
      cases hq : x.guarded Q with
      | false => rfl
      | true => rw [hless x hq] at hx; cases hx
    obtain ⟨a, g, rfl, hg, ha, hS⟩ := h4.group
    exact ⟨_, rfl, i, r, h1, h2, h3.prot_mono (fun x _ => hless x), h4.lt, h4.nodup, a, g, rfl, hg,
      fun x hx => ⟨hless' x (ha x hx).1, hless' x (ha x hx).1⟩, hS⟩

def tree_cells (how : BPerm → Nat → TreeHow) (hh : ∀ t, how .shared t ≠ .plain) : Cells (tree how) TreeR where
  frame := treeFrame how hh
  enter := by
    intro P0 n J p t0 below s hp hJ hlt hR
    have hc : chain.access P0 true t0 (J ++ ⟨p, t0⟩ :: below) = some (⟨p, t0⟩ :: below) := by
      rw [chain_skip J _ hJ]
      exact write_head hp below
    obtain ⟨hv, a, h1, h2⟩ := hR
    obtain ⟨a', h3, h4⟩ := line_access h1 h2 hc
    have hR' : TreeR P0 n (⟨p, t0⟩ :: below) s := ⟨hv, a', h3, h4⟩
    obtain ⟨b, hb, h5, h6⟩ := line_usable hp hR'
    exact ⟨⟨hv, ⟨b, hb, h5, h6, by simp⟩, by simp⟩, hR', hp, fun _ h => h, fun _ h => .inl h, by simp, hlt⟩
  sound := fun h => h.r
  leave := fun hp h ht => treeCells_leave (how := how) hp h ht

theorem cells {A : AliasModel} (h : CellRules A) : ∃ R M, Lift.Allows A R ∧ Shares A R ∧ Calm A M ∧ Nonempty (Cells A R) := by
  cases h with
  | miri exempt hex =>
    exact ⟨MiriR exempt, MiriM, ⟨miri_simulates exempt, miri_starts exempt, fun h => h.2⟩, miri_shares exempt, miri_calm exempt,
      ⟨miri_cells exempt hex⟩⟩
  | tree how hh =>
    exact ⟨TreeR, TreeM, ⟨tree_simulates how, tree_starts how, fun h => h.1⟩, tree_shares how, tree_calm how, ⟨tree_cells how hh⟩⟩

end PinProject
