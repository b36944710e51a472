import Verif.Sem.StackedMiri
import Verif.Props.BorrowStacked
/-!
# Stacked Borrows as in Miri allows what the strictest rules allow
-/
namespace PinProject
open Spec

/-- The chain is part of the stack, see `Within`. -/
inductive MWithin (prot : MItem → Bool) : BStack → MStack → Prop
  | nil (s : MStack) : MWithin prot [] s
  | skip {c : BStack} {s : MStack} {j : MItem} (h : MWithin prot c s) (hj : j.tag ∉ c.map BItem.tag)
      (hp : prot j = true → j.perm ≠ .unique ∧ ∀ x ∈ c, x.perm = .shared) : MWithin prot c (j :: s)
  | keep {c : BStack} {s : MStack} {x : BItem} {y : MItem} (h : MWithin prot c s) (hy : y.tag = x.tag)
      (hs : y.tag ∉ s.map MItem.tag) (hd : y.perm.grants false = true)
      (hp : x.perm ≠ .shared → y.perm.grants true = true) (hu : c ≠ [] → x.perm = .shared → y.perm ≠ .unique) :
      MWithin prot (x :: c) (y :: s)

namespace MWithin
variable {prot : MItem → Bool}

theorem tags {c : BStack} {s : MStack} (h : MWithin prot c s) : ∀ x ∈ c, ∃ y ∈ s, y.tag = x.tag := by
  induction h with
  | nil => intro x hx; cases hx
  | skip _ _ _ ih =>
    intro x hx
    obtain ⟨y, hy, h⟩ := ih x hx
    exact ⟨y, List.mem_cons_of_mem _ hy, h⟩
  | keep _ hy _ _ _ _ ih =>
    intro x hx
    rcases List.mem_cons.1 hx with rfl | hx
    · exact ⟨_, List.mem_cons_self, hy⟩
    · obtain ⟨y, hy, h⟩ := ih x hx
      exact ⟨y, List.mem_cons_of_mem _ hy, h⟩

theorem notin {c : BStack} {s : MStack} (h : MWithin prot c s) {t : Nat} (ht : t ∉ s.map MItem.tag) : t ∉ c.map BItem.tag := by
  intro hm
  obtain ⟨x, hx, rfl⟩ := List.mem_map.1 hm
  obtain ⟨y, hy, h⟩ := h.tags x hx
  exact ht (List.mem_map.2 ⟨y, hy, h⟩)

theorem prot_mono {prot' : MItem → Bool} {c : BStack} {s : MStack} (h : MWithin prot c s)
    (hp : ∀ i ∈ s, prot' i = true → prot i = true) : MWithin prot' c s := by
  induction h with
  | nil s => exact .nil s
  | skip h hj hp' ih =>
    exact .skip (ih (fun i hi => hp i (List.mem_cons_of_mem _ hi))) hj (fun h => hp' (hp _ List.mem_cons_self h))
  | keep h hy hs hd hq hu ih => exact .keep (ih (fun i hi => hp i (List.mem_cons_of_mem _ hi))) hy hs hd hq hu

/-- Items on top that the chain does not use. -/
theorem skips {c : BStack} {k : MStack} (h : MWithin prot c k) (a : MStack)
    (ha : ∀ j ∈ a, j.tag ∉ c.map BItem.tag ∧ (prot j = true → j.perm ≠ .unique ∧ ∀ x ∈ c, x.perm = .shared)) :
    MWithin prot c (a ++ k) := by
  induction a with
  | nil => exact h
  | cons j a ih =>
    exact .skip (ih (fun i hi => ha i (List.mem_cons_of_mem _ hi))) (ha j List.mem_cons_self).1 (ha j List.mem_cons_self).2

end MWithin

theorem split_append {t : Nat} {s a k : MStack} (h : s.split t = some (a, k)) : s = a ++ k := by
  induction s generalizing a k with
  | nil => cases h
  | cons i s ih =>
    rw [MStack.split] at h
    split at h
    · cases h; rfl
    · split at h
      · cases h
      · rename_i k' hk
        have := ih hk
        split at h <;> cases h <;> simp_all
      · rename_i a' k' _ hk
        have := ih hk
        cases h
        simp_all

theorem split_none {t : Nat} {s : MStack} (h : t ∉ s.map MItem.tag) : s.split t = none := by
  induction s with
  | nil => rfl
  | cons i s ih =>
    simp only [List.map_cons, List.mem_cons, not_or] at h
    rw [MStack.split, if_neg (fun e => h.1 e.1.symm), ih h.2]

section
variable {plist : List Nat} {prot : MItem → Bool} (hprot : ∀ i, prot i = true → i.tag ∈ plist)
include hprot

/-- What a use of the pointer `t` leaves of the chain is still part of the stack. -/
theorem mwithin_drop {w : Bool} {t : Nat} {c c' : BStack} {s : MStack} (h : MWithin prot c s)
    (hc : chain.access plist w t c = some c') : MWithin prot c' s := by
  induction h generalizing c' with
  | nil s => exact absurd (chain_mem hc) (by simp)
  | @skip c s j h hj hp ih =>
    obtain ⟨x, r, rfl, hx, hw, X, rfl⟩ := chain_result hc
    refine .skip (ih hc) (fun hm => hj (by rw [List.map_append]; exact List.mem_append_right _ hm)) ?_
    intro hp'
    exact ⟨(hp hp').1, fun y hy => (hp hp').2 y (List.mem_append_right _ hy)⟩
  | @keep c s x z h hz hs hd hp hu ih =>
    by_cases hxt : x.tag = t
    · obtain ⟨rfl, h2⟩ := chain_head hc hxt
      exact .keep h hz hs hd hp hu
    · obtain ⟨hnp, hc⟩ := chain_cons hc hxt
      have h1 := ih hc
      refine .skip h1 (h1.notin hs) ?_
      intro hp'
      have := hprot _ hp'
      rw [hz] at this
      exact absurd this hnp

/-- A write with `t` keeps the chain up to `t`. -/
theorem mwithin_split {w : Bool} {t : Nat} {c c' : BStack} {s a k : MStack} (h : MWithin prot c s)
    (hc : chain.access plist w t c = some c') (hs : s.split t = some (a, k)) :
    MWithin prot c' k ∧ ∀ j ∈ a, j.tag ∉ c'.map BItem.tag ∧
      (prot j = true → j.perm ≠ .unique ∧ ∀ x ∈ c', x.perm = .shared) := by
  have hcons : ∀ {j : MItem} {s : MStack} {c : BStack}, ¬ (j.tag = t ∧ j.perm.grants true = true) →
      j.tag ∉ c'.map BItem.tag → (prot j = true → j.perm ≠ .unique ∧ ∀ x ∈ c', x.perm = .shared) →
      (∀ {a k : MStack}, s.split t = some (a, k) → MWithin prot c' k ∧ ∀ j ∈ a, j.tag ∉ c'.map BItem.tag ∧
        (prot j = true → j.perm ≠ .unique ∧ ∀ x ∈ c', x.perm = .shared)) →
      ∀ {a k : MStack}, MStack.split t (j :: s) = some (a, k) → MWithin prot c' k ∧ ∀ j ∈ a, j.tag ∉ c'.map BItem.tag ∧
        (prot j = true → j.perm ≠ .unique ∧ ∀ x ∈ c', x.perm = .shared) := by
    intro j s c h1 h2 h3 ih a k hs
    rw [MStack.split, if_neg h1] at hs
    split at hs
    · cases hs
    · rename_i k' hk
      obtain ⟨h4, h5⟩ := ih hk
      split at hs
      · cases hs
        exact ⟨.skip h4 h2 h3, fun j hj => by cases hj⟩
      · cases hs
        refine ⟨h4, fun i hi => ?_⟩
        rw [List.mem_singleton] at hi
        subst hi
        exact ⟨h2, h3⟩
    · rename_i a' k' _ hk
      obtain ⟨h4, h5⟩ := ih hk
      cases hs
      refine ⟨h4, fun i hi => ?_⟩
      rcases List.mem_cons.1 hi with rfl | hi
      · exact ⟨h2, h3⟩
      · exact h5 i hi
  induction h generalizing a k with
  | nil s => exact absurd (chain_mem hc) (by simp)
  | @skip c s j h hj hp ih =>
    have hm := chain_mem hc
    have hne : j.tag ≠ t := fun e => hj (e ▸ hm)
    have hc' := hc
    obtain ⟨x, r, hx1, hx, hw, X, hX⟩ := chain_result hc
    refine hcons (c := c) (fun h => hne h.1) ?_ ?_ (fun hs => ih hc' hs) hs
    · intro hm
      exact hj (by rw [hX, List.map_append]; exact List.mem_append_right _ hm)
    · intro hp'
      exact ⟨(hp hp').1, fun y hy => (hp hp').2 y (by rw [hX]; exact List.mem_append_right _ hy)⟩
  | @keep c s x z h hz hzs hd hp hu ih =>
    by_cases hxt : x.tag = t
    · obtain ⟨rfl, h2⟩ := chain_head hc hxt
      rw [MStack.split] at hs
      split at hs
      · cases hs
        exact ⟨.keep h hz hzs hd hp hu, fun j hj => by cases hj⟩
      · rw [split_none (by rw [← hxt, ← hz]; exact hzs)] at hs
        cases hs
    · obtain ⟨hnp, hc⟩ := chain_cons hc hxt
      refine hcons (c := c) (fun h => hxt (hz.symm.trans h.1)) ((mwithin_drop hprot h hc).notin hzs) ?_ (fun hs => ih hc hs) hs
      intro hp'
      have := hprot _ hp'
      rw [hz] at this
      exact absurd this hnp

omit hprot in
/-- If the chain allows a write with `t`, so does the stack. -/
theorem mwithin_granting {t : Nat} {c c' : BStack} {s : MStack} (h : MWithin prot c s)
    (hc : chain.access plist true t c = some c') : ∃ a k, s.split t = some (a, k) := by
  have hcons : ∀ {j : MItem} {s : MStack}, (∃ a k, s.split t = some (a, k)) → ∃ a k, MStack.split t (j :: s) = some (a, k) := by
    intro j s ⟨a, k, h⟩
    rw [MStack.split]
    split
    · exact ⟨_, _, rfl⟩
    · rw [h]
      cases a with
      | nil => simp only; split <;> exact ⟨_, _, rfl⟩
      | cons i a => exact ⟨_, _, rfl⟩
  induction h generalizing c' with
  | nil s => exact absurd (chain_mem hc) (by simp)
  | skip h hj hp ih => exact hcons (ih hc)
  | @keep c s x z h hz hzs hd hp hu ih =>
    by_cases hxt : x.tag = t
    · obtain ⟨rfl, h2⟩ := chain_head hc hxt
      rw [MStack.split, if_pos ⟨hz.trans hxt, hp (h2 rfl)⟩]
      exact ⟨_, _, rfl⟩
    · exact hcons (ih (chain_cons hc hxt).2)

theorem mwithin_write {t : Nat} {c c' : BStack} {s : MStack} (h : MWithin prot c s)
    (hc : chain.access plist true t c = some c') :
    ∃ s', s.write prot t = some s' ∧ MWithin prot c' s' ∧ (s'.map MItem.tag).Sublist (s.map MItem.tag) := by
  obtain ⟨a, k, hs⟩ := mwithin_granting h hc
  obtain ⟨h1, h2⟩ := mwithin_split hprot h hc hs
  obtain ⟨x, r, hx1, hx, hw, -⟩ := chain_result hc
  refine ⟨k, ?_, h1, ?_⟩
  · unfold MStack.write
    rw [hs]
    simp only
    rw [if_neg]
    simp only [List.any_eq_true, not_exists, not_and]
    intro j hj hp
    exact hw rfl (((h2 j hj).2 hp).2 x (by rw [hx1]; exact List.mem_cons_self))
  · rw [split_append hs, List.map_append]
    exact List.sublist_append_right _ _

theorem mwithin_read (hdis : ∀ t, prot ⟨.disabled, t⟩ = true → prot ⟨.unique, t⟩ = true)
    {t : Nat} {c c' : BStack} {s : MStack} (h : MWithin prot c s)
    (hc : chain.access plist false t c = some c') :
    ∃ s', s.read prot t = some s' ∧ MWithin prot c' s' ∧ s'.map MItem.tag = s.map MItem.tag := by
  have hcons : ∀ {j : MItem} {s : MStack}, ¬ (j.tag = t ∧ j.perm.grants false = true) → j.tag ∉ c'.map BItem.tag →
      (prot j = true → j.perm ≠ .unique ∧ ∀ x ∈ c', x.perm = .shared) →
      (∃ s', s.read prot t = some s' ∧ MWithin prot c' s' ∧ s'.map MItem.tag = s.map MItem.tag) →
      ∃ s', MStack.read prot t (j :: s) = some s' ∧ MWithin prot c' s' ∧ s'.map MItem.tag = (j :: s).map MItem.tag := by
    intro j s h1 h2 h3 ⟨s', h4, h5, h6⟩
    rw [MStack.read, if_neg h1, h4]
    simp only
    by_cases hu : j.perm = .unique
    · have hnp : ¬ prot j = true := fun h => (h3 h).1 hu
      rw [if_pos hu, if_neg hnp]
      refine ⟨_, rfl, .skip h5 h2 (fun h => absurd ?_ hnp), by simp [h6]⟩
      obtain ⟨q, u⟩ := j
      simp only at hu h
      subst hu
      exact hdis u h
    · rw [if_neg hu]
      exact ⟨_, rfl, .skip h5 h2 h3, by simp [h6]⟩
  induction h with
  | nil s => exact absurd (chain_mem hc) (by simp)
  | @skip c s j h hj hp ih =>
    have hm := chain_mem hc
    have hne : j.tag ≠ t := fun e => hj (e ▸ hm)
    obtain ⟨x, r, hx1, hx, hw, X, hX⟩ := chain_result hc
    refine hcons (fun h => hne h.1) ?_ ?_ (ih hc)
    · intro hm
      exact hj (by rw [hX, List.map_append]; exact List.mem_append_right _ hm)
    · intro hp'
      exact ⟨(hp hp').1, fun y hy => (hp hp').2 y (by rw [hX]; exact List.mem_append_right _ hy)⟩
  | @keep c s x z h hz hzs hd hp hu ih =>
    by_cases hxt : x.tag = t
    · obtain ⟨rfl, h2⟩ := chain_head hc hxt
      rw [MStack.read, if_pos ⟨hz.trans hxt, hd⟩]
      exact ⟨_, rfl, .keep h hz hzs hd hp hu, rfl⟩
    · obtain ⟨hnp, hc⟩ := chain_cons hc hxt
      refine hcons (fun h => hxt (hz.symm.trans h.1)) ((mwithin_drop hprot h hc).notin hzs) ?_ (ih hc)
      intro hp'
      have := hprot _ hp'
      rw [hz] at this
      exact absurd this hnp

end

theorem guarded_mem {prot : List Nat} (i : MItem) (h : i.guarded prot = true) : i.tag ∈ prot := by
  simp only [MItem.guarded, Bool.and_eq_true] at h
  simpa using h.1

/-- The relation between the strict rules and Miri's. -/
def MiriR (exempt : BPerm → Nat → Bool) (prot : List Nat) (n : Nat) (c : BStack) (s : MStack) : Prop :=
  MWithin (MItem.guarded prot) c s ∧ (miri exempt).valid n s

theorem miri_access {exempt : BPerm → Nat → Bool} {prot : List Nat} {n : Nat} {w : Bool} {t : Nat} {c c' : BStack} {s : MStack}
    (h : MiriR exempt prot n c s) (hc : chain.access prot w t c = some c') :
    ∃ s', (miri exempt).access prot w t s = some s' ∧ MiriR exempt prot n c' s' := by
  obtain ⟨h1, h2, h3⟩ := h
  have key : ∃ s', (miri exempt).access prot w t s = some s' ∧ MWithin (MItem.guarded prot) c' s' ∧
      (s'.map MItem.tag).Sublist (s.map MItem.tag) := by
    cases w with
    | true => exact mwithin_write guarded_mem h1 hc
    | false =>
      obtain ⟨s', h4, h5, h6⟩ := mwithin_read guarded_mem (fun t h => by simpa [MItem.guarded] using h) h1 hc
      exact ⟨s', h4, h5, by rw [h6]; exact List.Sublist.refl _⟩
  obtain ⟨s', h4, h5, h6⟩ := key
  refine ⟨s', h4, h5, ?_, h3.sublist h6⟩
  intro i hi
  obtain ⟨j, hj, hji⟩ := List.mem_map.1 (h6.subset (List.mem_map.2 ⟨i, hi, rfl⟩))
  rw [← hji]
  exact h2 j hj

/-- A new pointer at the place `a ++ _ :: k`. -/
theorem miri_valid_insert {exempt : BPerm → Nat → Bool} {n : Nat} {a k : MStack} (h : (miri exempt).valid n (a ++ k)) (q : MPerm) :
    (miri exempt).valid (n + 1) (a ++ ⟨q, n⟩ :: k) ∧ n ∉ (a ++ k).map MItem.tag := by
  obtain ⟨h1, h2⟩ := h
  have hn : n ∉ (a ++ k).map MItem.tag := by
    intro hm
    obtain ⟨x, hx, hxn⟩ := List.mem_map.1 hm
    have := h1 x hx
    omega
  refine ⟨⟨?_, ?_⟩, hn⟩
  · intro i hi
    rcases List.mem_append.1 hi with hi | hi
    · exact Nat.lt_succ_of_lt (h1 i (List.mem_append_left _ hi))
    · rcases List.mem_cons.1 hi with rfl | hi
      · exact Nat.lt_succ_self n
      · exact Nat.lt_succ_of_lt (h1 i (List.mem_append_right _ hi))
  · rw [List.map_append, List.nodup_append] at h2
    simp only [List.map_append, List.mem_append, not_or] at hn
    rw [List.map_append, List.nodup_append]
    refine ⟨h2.1, List.nodup_cons.2 ⟨hn.2, h2.2.1⟩, ?_⟩
    intro x hx y hy
    rcases List.mem_cons.1 hy with rfl | hy
    · rintro rfl
      exact hn.1 hx
    · exact h2.2.2 x hx y hy

/-- A new pointer on top of the chain, which is in the part `k` of the stack. -/
theorem miri_push {exempt : BPerm → Nat → Bool} {prot : List Nat} {n : Nat} {c : BStack} {a k : MStack}
    (hv : (miri exempt).valid n (a ++ k)) (h : MWithin (MItem.guarded prot) c k)
    (ha : ∀ j ∈ a, j.tag ∉ c.map BItem.tag ∧
      (j.guarded prot = true → j.perm ≠ .unique ∧ ∀ x ∈ c, x.perm = .shared))
    (p : BPerm) (q : MPerm) (hq : q.grants false = true) (hpq : p ≠ .shared → q.grants true = true)
    (hu : p = .shared → q ≠ .unique)
    (hc : p ≠ .shared → ∃ x ∈ c, x.perm ≠ .shared) {prot' : List Nat} (hp : ∀ t, t ≠ n → t ∈ prot' → t ∈ prot) :
    MiriR exempt prot' (n + 1) (⟨p, n⟩ :: c) (a ++ ⟨q, n⟩ :: k) := by
  obtain ⟨h1, h2⟩ := miri_valid_insert hv q
  have hmono : ∀ {s : MStack}, (∀ i ∈ s, i ∈ a ++ k) → ∀ i ∈ s, i.guarded prot' = true →
      i.guarded prot = true := by
    intro s hs i hi hg
    have hne : i.tag ≠ n := fun e => h2 (List.mem_map.2 ⟨i, hs i hi, e⟩)
    simp only [MItem.guarded, Bool.and_eq_true, List.contains_iff_mem] at hg ⊢
    exact ⟨hp _ hne hg.1, hg.2⟩
  refine ⟨?_, h1⟩
  refine MWithin.skips (.keep (h.prot_mono (hmono (fun i hi => List.mem_append_right _ hi))) rfl ?_ hq hpq (fun _ => hu)) a ?_
  · intro hm
    exact h2 (by rw [List.map_append]; exact List.mem_append_right _ hm)
  · intro j hj
    have hja := hmono (s := a) (fun i hi => List.mem_append_left _ hi) j hj
    refine ⟨?_, ?_⟩
    · simp only [List.map_cons, List.mem_cons, not_or]
      exact ⟨fun e => h2 (List.mem_map.2 ⟨j, List.mem_append_left _ hj, e⟩), (ha j hj).1⟩
    · intro hg
      obtain ⟨h3, h4⟩ := (ha j hj).2 (hja hg)
      refine ⟨h3, ?_⟩
      intro x hx
      rcases List.mem_cons.1 hx with rfl | hx
      · simp only
        refine Decidable.byContradiction fun hne => ?_
        obtain ⟨x, hx, hxs⟩ := hc hne
        exact hxs (h4 x hx)
      · exact h4 x hx

theorem miri_simulates (exempt : BPerm → Nat → Bool) : Simulates (miri exempt) (MiriR exempt) where
  access := fun h hc => miri_access h hc
  retag := by
    intro prot n c s p t r h hc
    obtain ⟨x, r0, hx1, hx, hw, -⟩ := chain_result hc
    have hpx : p ≠ .shared → ∃ x ∈ r, x.perm ≠ .shared :=
      fun hp => ⟨x, by rw [hx1]; exact List.mem_cons_self, hw (by simpa using hp)⟩
    have hp1 : ∀ t, t ≠ n → t ∈ prot → t ∈ prot := fun _ _ h => h
    have hp2 : ∀ t, t ≠ n → t ∈ n :: prot → t ∈ prot := fun y hy hm => (List.mem_cons.1 hm).resolve_left hy
    by_cases hex : p = .raw ∨ exempt p n = true
    · refine ⟨s, by simp only [if_pos hex], ?_⟩
      simp only [if_pos hex, MStack.insert]
      cases hs : s.split t with
      | some ak =>
        obtain ⟨a, k⟩ := ak
        obtain ⟨h1, h2⟩ := mwithin_split guarded_mem h.1 hc hs
        have hv := h.2
        rw [split_append hs] at hv
        exact ⟨miri_push hv h1 h2 p .sharedRW rfl (fun _ => rfl) (fun _ => by simp) hpx hp1,
          miri_push hv h1 h2 p .sharedRW rfl (fun _ => rfl) (fun _ => by simp) hpx hp2⟩
      | none =>
        have hp : p = .shared := by
          refine Decidable.byContradiction fun hne => ?_
          have : (p != .shared) = true := by simpa using hne
          rw [this] at hc
          obtain ⟨a, k, hs'⟩ := mwithin_granting h.1 hc
          rw [hs] at hs'
          cases hs'
        simp only [if_pos hp]
        have h1 := mwithin_drop guarded_mem h.1 hc
        exact ⟨miri_push (a := []) h.2 h1 (fun j hj => by cases hj) p .sharedRO rfl (fun hne => absurd hp hne) (fun _ => by simp) hpx hp1,
          miri_push (a := []) h.2 h1 (fun j hj => by cases hj) p .sharedRO rfl (fun hne => absurd hp hne) (fun _ => by simp) hpx hp2⟩
    · obtain ⟨s', h1, h2, h3⟩ := miri_access h hc
      refine ⟨s', by simp only [if_neg hex]; exact h1, ?_⟩
      simp only [if_neg hex]
      have hq : (if p = .shared then MPerm.sharedRO else .unique).grants false = true := by split <;> rfl
      have hpq : p ≠ .shared → (if p = .shared then MPerm.sharedRO else .unique).grants true = true := by
        intro hne
        rw [if_neg hne]
        rfl
      exact ⟨miri_push (a := []) h3 h2 (fun j hj => by cases hj) p _ hq hpq (fun h => by rw [if_pos h]; simp) hpx hp1,
        miri_push (a := []) h3 h2 (fun j hj => by cases hj) p _ hq hpq (fun h => by rw [if_pos h]; simp) hpx hp2⟩
  next := fun ⟨h1, h2, h3⟩ => ⟨h1, fun i hi => Nat.lt_succ_of_lt (h2 i hi), h3⟩
  release := by
    intro prot n s s' t r ⟨h1, h2⟩ hc
    have : r = s := by
      simp only at hc
      split at hc
      · exact (Option.some.inj hc).symm
      · cases hc
    subst this
    refine ⟨s', rfl, h1.prot_mono ?_, h2⟩
    intro i _ hg
    simp only [MItem.guarded, Bool.and_eq_true, List.contains_iff_mem] at hg ⊢
    exact ⟨List.mem_cons_of_mem _ hg.1, hg.2⟩

/-- A usable reference is a chain. -/
theorem miri_starts (exempt : BPerm → Nat → Bool) {prot : List Nat} {n t0 : Nat} {m : Bool} {s s' : MStack}
    (hv : (miri exempt).valid n s) (h : (miri exempt).access prot m t0 s = some s') :
    t0 < n ∧ MiriR exempt prot n [⟨permOf m, t0⟩] s := by
  replace h : (if m = true then MStack.write (MItem.guarded prot) t0 s else MStack.read (MItem.guarded prot) t0 s) = some s' := h
  suffices H : t0 ∈ s.map MItem.tag ∧ MWithin (MItem.guarded prot) [⟨permOf m, t0⟩] s by
    obtain ⟨x, hx, hxt⟩ := List.mem_map.1 H.1
    exact ⟨by rw [← hxt]; exact hv.1 x hx, H.2, hv⟩
  have hnd := hv.2
  clear hv
  induction s generalizing s' with
  | nil => cases m <;> simp [MStack.write, MStack.split, MStack.read] at h
  | cons i s ih =>
    simp only [List.map_cons, List.nodup_cons] at hnd
    have here : i.tag = t0 → i.perm.grants m = true →
        t0 ∈ (i :: s).map MItem.tag ∧ MWithin (MItem.guarded prot) [⟨permOf m, t0⟩] (i :: s) := by
      intro h1 h2
      refine ⟨by simp [h1], .keep (.nil s) h1 hnd.1 ?_ ?_ (fun h => absurd rfl h)⟩
      · cases m <;> cases hp : i.perm <;> simp_all [MPerm.grants]
      · intro hne
        cases m with
        | true => exact h2
        | false => exact absurd rfl hne
    cases m with
    | true =>
      simp only [if_true, MStack.write, MStack.split] at h
      by_cases hi : i.tag = t0 ∧ i.perm.grants true = true
      · exact here hi.1 hi.2
      · rw [if_neg hi] at h
        have key : ∃ a k, MStack.split t0 s = some (a, k) ∧ a.any (MItem.guarded prot) = false ∧ i.guarded prot = false := by
          cases hs : MStack.split t0 s with
          | none => rw [hs] at h; cases h
          | some ak =>
            obtain ⟨a, k⟩ := ak
            rw [hs] at h
            refine ⟨a, k, rfl, ?_⟩
            cases a with
            | nil =>
              refine ⟨rfl, ?_⟩
              by_cases hk : i.perm = .sharedRW
              · simp [MItem.guarded, hk]
              · cases hg : i.guarded prot with
                | false => rfl
                | true => simp [hk, hg] at h
            | cons j a =>
              cases hg : i.guarded prot with
              | true => simp [hg] at h
              | false =>
                cases hg2 : (j :: a).any (MItem.guarded prot) with
                | false => exact ⟨rfl, rfl⟩
                | true =>
                  simp only [List.any_cons] at hg2
                  simp [hg, hg2] at h
        obtain ⟨a, k, hs, ha, hi'⟩ := key
        have h' : MStack.write (MItem.guarded prot) t0 s = some k := by
          unfold MStack.write
          rw [hs]
          simp [ha]
        obtain ⟨h1, h2⟩ := ih h' hnd.2
        refine ⟨List.mem_cons_of_mem _ h1, .skip h2 (by
          simp only [List.map_cons, List.map_nil, List.mem_singleton]
          rintro rfl
          exact hnd.1 h1) ?_⟩
        intro hg
        rw [hi'] at hg
        cases hg
    | false =>
      simp only [Bool.false_eq_true, if_false, MStack.read] at h ih
      by_cases hi : i.tag = t0 ∧ i.perm.grants false = true
      · exact here hi.1 hi.2
      · rw [if_neg hi] at h
        cases hs : MStack.read (MItem.guarded prot) t0 s with
        | none => rw [hs] at h; cases h
        | some s'' =>
          obtain ⟨h1, h2⟩ := ih hs hnd.2
          rw [hs] at h
          simp only at h
          refine ⟨List.mem_cons_of_mem _ h1, .skip h2 (by
            simp only [List.map_cons, List.map_nil, List.mem_singleton]
            rintro rfl
            exact hnd.1 h1) ?_⟩
          intro hg
          refine ⟨?_, fun x hx => by rw [List.mem_singleton] at hx; subst hx; rfl⟩
          intro hu
          rw [if_pos hu, if_pos hg] at h
          cases h

end PinProject
