import Verif.Props.BorrowLift
/-!
# Stacked Borrows allows what the strictest rules allow
-/
namespace PinProject
open Spec

/-- The chain is part of the stack, and what it takes for a shared reference is not a mutable one, except perhaps at its end.
Other items may be protected only if they are not mutable references and nothing below them can write. -/
inductive Within (prot : List Nat) : BStack → BStack → Prop
  | nil (s : BStack) : Within prot [] s
  | skip {c s : BStack} {j : BItem} (h : Within prot c s) (hj : j.tag ∉ c.map BItem.tag)
      (hp : j.tag ∈ prot → j.perm ≠ .unique ∧ ∀ x ∈ c, x.perm = .shared) : Within prot c (j :: s)
  | keep {c s : BStack} {x y : BItem} (h : Within prot c s) (hx : x.tag ∉ c.map BItem.tag) (hy : y.tag = x.tag)
      (hp : x.perm ≠ .shared → y.perm ≠ .shared) (hu : c ≠ [] → x.perm = .shared → y.perm ≠ .unique) :
      Within prot (x :: c) (y :: s)

theorem chain_mem {prot : List Nat} {w : Bool} {t : Nat} {c c' : BStack} (h : chain.access prot w t c = some c') :
    t ∈ c.map BItem.tag := by
  induction c with
  | nil => cases w <;> simp [BStack.write, BStack.strictRead] at h
  | cons x c ih =>
    by_cases hx : x.tag = t
    · simp [hx]
    · have : chain.access prot w t c = some c' := by
        cases w <;> simp only [Bool.false_eq_true, if_true, if_false, BStack.write, BStack.strictRead, if_neg hx] at h ⊢ <;>
          split at h <;> first | exact h | cases h
      exact List.mem_cons_of_mem _ (ih this)

theorem chain_cons {prot : List Nat} {w : Bool} {t : Nat} {x : BItem} {c c' : BStack}
    (h : chain.access prot w t (x :: c) = some c') (hx : x.tag ≠ t) :
    x.tag ∉ prot ∧ chain.access prot w t c = some c' := by
  cases w <;> simp only [Bool.false_eq_true, if_true, if_false, BStack.write, BStack.strictRead, if_neg hx] at h ⊢ <;>
    split at h <;> first | cases h; done | exact ⟨by assumption, h⟩

theorem chain_head {prot : List Nat} {w : Bool} {t : Nat} {x : BItem} {c c' : BStack}
    (h : chain.access prot w t (x :: c) = some c') (hx : x.tag = t) : c' = x :: c ∧ (w = true → x.perm ≠ .shared) := by
  cases w
  · simp only [Bool.false_eq_true, if_false, BStack.strictRead, if_pos hx, Option.some.injEq] at h
    exact ⟨h.symm, fun h => by cases h⟩
  · simp only [if_true, BStack.write, if_pos hx] at h
    split at h
    · cases h
    · rename_i hp
      cases h
      exact ⟨rfl, fun _ => hp⟩

/-- The pointer that was used is on top afterwards. -/
theorem chain_result {prot : List Nat} {w : Bool} {t : Nat} {c c' : BStack} (h : chain.access prot w t c = some c') :
    ∃ x r, c' = x :: r ∧ x.tag = t ∧ (w = true → x.perm ≠ .shared) ∧ ∃ X, c = X ++ c' := by
  induction c with
  | nil => cases w <;> simp [BStack.write, BStack.strictRead] at h
  | cons x c ih =>
    by_cases hx : x.tag = t
    · obtain ⟨rfl, h2⟩ := chain_head h hx
      exact ⟨x, c, rfl, hx, h2, [], rfl⟩
    · obtain ⟨y, r, h1, h2, h3, X, rfl⟩ := ih (chain_cons h hx).2
      exact ⟨y, r, h1, h2, h3, x :: X, rfl⟩

theorem within_access {prot : List Nat} {w : Bool} {t : Nat} {c c' s : BStack} (h : Within prot c s)
    (hc : chain.access prot w t c = some c') : ∃ s', stacked.access prot w t s = some s' ∧ Within prot c' s' ∧ ∀ i ∈ s', i ∈ s := by
  induction h generalizing c' with
  | nil s => exact absurd (chain_mem hc) (by simp)
  | @skip c s j h hj hp ih =>
    have hm := chain_mem hc
    have hne : j.tag ≠ t := fun e => hj (e ▸ hm)
    obtain ⟨s', h1, h2, h3⟩ := ih hc
    have h3' : ∀ i ∈ s', i ∈ j :: s := fun i hi => List.mem_cons_of_mem _ (h3 i hi)
    obtain ⟨x, r, rfl, hx, hw, X, rfl⟩ := chain_result hc
    cases w with
    | true =>
      have hnp : j.tag ∉ prot := fun hp' => hw rfl ((hp hp').2 x (by simp))
      refine ⟨s', ?_, h2, h3'⟩
      simp only [if_true] at h1 ⊢
      rw [BStack.write, if_neg hne, if_neg hnp, h1]
    | false =>
      simp only [Bool.false_eq_true, if_false] at h1 ⊢
      rw [BStack.read, if_neg hne, h1]
      by_cases hu : j.perm = .unique
      · rw [if_pos hu, if_neg (fun hp' => (hp hp').1 hu)]
        exact ⟨s', rfl, h2, h3'⟩
      · rw [if_neg hu]
        refine ⟨j :: s', rfl, .skip h2 ?_ ?_, ?_⟩
        · intro hm
          exact hj (by rw [List.map_append]; exact List.mem_append_right _ hm)
        · intro hp'
          exact ⟨hu, fun y hy => (hp hp').2 y (List.mem_append_right _ hy)⟩
        · intro i hi
          rcases List.mem_cons.1 hi with rfl | hi
          · exact List.mem_cons_self
          · exact h3' i hi
  | @keep c s x z h hx hz hp hq ih =>
    by_cases hxt : x.tag = t
    · obtain ⟨rfl, h2⟩ := chain_head hc hxt
      refine ⟨z :: s, ?_, .keep h hx hz hp hq, fun i hi => hi⟩
      have hzt := hz.trans hxt
      cases w with
      | true => simp only [if_true]; rw [BStack.write, if_pos hzt, if_neg (hp (h2 rfl))]
      | false => simp only [Bool.false_eq_true, if_false]; rw [BStack.read, if_pos hzt]
    · obtain ⟨hnp, hc⟩ := chain_cons hc hxt
      obtain ⟨s', h1, h2, h3⟩ := ih hc
      have h3' : ∀ i ∈ s', i ∈ z :: s := fun i hi => List.mem_cons_of_mem _ (h3 i hi)
      obtain ⟨y, r, rfl, hy, hw, X, rfl⟩ := chain_result hc
      rw [← hz] at hxt hnp hx
      cases w with
      | true =>
        refine ⟨s', ?_, h2, h3'⟩
        simp only [if_true] at h1 ⊢
        rw [BStack.write, if_neg hxt, if_neg hnp, h1]
      | false =>
        simp only [Bool.false_eq_true, if_false] at h1 ⊢
        rw [BStack.read, if_neg hxt, if_neg hnp, h1]
        by_cases hu : z.perm = .unique
        · rw [if_pos hu]
          exact ⟨s', rfl, h2, h3'⟩
        · rw [if_neg hu]
          refine ⟨z :: s', rfl, .skip h2 ?_ (fun h => absurd h hnp), ?_⟩
          · intro hm
            exact hx (by rw [List.map_append]; exact List.mem_append_right _ hm)
          · intro i hi
            rcases List.mem_cons.1 hi with rfl | hi
            · exact List.mem_cons_self
            · exact h3' i hi

theorem within_tags {prot : List Nat} {c s : BStack} (h : Within prot c s) : ∀ x ∈ c, ∃ y ∈ s, y.tag = x.tag := by
  induction h with
  | nil => intro x hx; cases hx
  | skip _ _ _ ih =>
    intro x hx
    obtain ⟨y, hy, h⟩ := ih x hx
    exact ⟨y, List.mem_cons_of_mem _ hy, h⟩
  | keep _ _ hy _ _ ih =>
    intro x hx
    rcases List.mem_cons.1 hx with rfl | hx
    · exact ⟨_, List.mem_cons_self, hy⟩
    · obtain ⟨y, hy, h⟩ := ih x hx
      exact ⟨y, List.mem_cons_of_mem _ hy, h⟩

theorem within_prot {prot prot' : List Nat} {c s : BStack} (h : Within prot c s)
    (hp : ∀ i ∈ s, i.tag ∈ prot' → i.tag ∈ prot) : Within prot' c s := by
  induction h with
  | nil s => exact .nil s
  | skip h hj hp' ih =>
    exact .skip (ih (fun i hi => hp i (List.mem_cons_of_mem _ hi))) hj (fun h => hp' (hp _ List.mem_cons_self h))
  | keep h hx hy hq hu ih => exact .keep (ih (fun i hi => hp i (List.mem_cons_of_mem _ hi))) hx hy hq hu

/-- The relation between the strict rules and Stacked Borrows. -/
def StackR (prot : List Nat) (n : Nat) (c s : BStack) : Prop := Within prot c s ∧ ∀ i ∈ s, i.tag < n

theorem stacked_simulates : Simulates stacked StackR where
  access := by
    intro prot n s s' w t r ⟨h1, h2⟩ hc
    obtain ⟨r', h3, h4, h5⟩ := within_access h1 hc
    exact ⟨r', h3, h4, fun i hi => h2 i (h5 i hi)⟩
  retag := by
    intro prot n s s' p t r ⟨h1, h2⟩ hc
    obtain ⟨r', h3, h4, h5⟩ := within_access h1 hc
    have hlt : ∀ i ∈ r', i.tag < n := fun i hi => h2 i (h5 i hi)
    have hk : Within prot (⟨p, n⟩ :: r) (⟨p, n⟩ :: r') := by
      refine .keep h4 ?_ rfl id (fun _ h => by rw [h]; simp)
      intro hm
      obtain ⟨x, hx, hx2⟩ := List.mem_map.1 hm
      obtain ⟨y, hy, hy2⟩ := within_tags h4 x hx
      have := hlt y hy
      simp only at hx2
      omega
    have hlt' : ∀ i ∈ (⟨p, n⟩ :: r' : BStack), i.tag < n + 1 := by
      intro i hi
      rcases List.mem_cons.1 hi with rfl | hi
      · exact Nat.lt_succ_self n
      · exact Nat.lt_succ_of_lt (hlt i hi)
    refine ⟨r', h3, ⟨hk, hlt'⟩, ?_, hlt'⟩
    cases hk with
    | keep h hx hy hq hu =>
      refine .keep (within_prot h ?_) hx hy hq hu
      intro i hi hm
      rcases List.mem_cons.1 hm with hm | hm
      · have := hlt i hi
        omega
      · exact hm
    | skip h hj hp => exact absurd (List.mem_map.2 ⟨_, List.mem_cons_self, rfl⟩) hj
  next := fun ⟨h1, h2⟩ => ⟨h1, fun i hi => Nat.lt_succ_of_lt (h2 i hi)⟩
  release := by
    intro prot n s s' t r ⟨h1, h2⟩ hc
    have : r = s := by
      simp only at hc
      split at hc
      · exact (Option.some.inj hc).symm
      · cases hc
    subst this
    exact ⟨s', rfl, within_prot h1 (fun i _ h => List.mem_cons_of_mem _ h), h2⟩

/-- A usable reference is a chain. -/
theorem stacked_starts {prot : List Nat} {n t0 : Nat} {m : Bool} {s s' : BStack} (hv : stacked.valid n s)
    (h : stacked.access prot m t0 s = some s') : t0 < n ∧ StackR prot n [⟨permOf m, t0⟩] s := by
  induction s generalizing s' with
  | nil => cases m <;> simp [BStack.write, BStack.read] at h
  | cons i s ih =>
    have hv' : stacked.valid n s := fun j hj => hv j (List.mem_cons_of_mem _ hj)
    by_cases hi : i.tag = t0
    · refine ⟨by rw [← hi]; exact hv i List.mem_cons_self, .keep (.nil s) (by simp) hi ?_ (fun h => absurd rfl h), hv⟩
      cases m with
      | false => intro h; exact absurd rfl h
      | true =>
        intro _ hp
        simp only [if_true, BStack.write, if_pos hi, if_pos hp] at h
        cases h
    · have key : ∃ s'', stacked.access prot m t0 s = some s'' ∧
          (i.tag ∈ prot → i.perm ≠ .unique ∧ permOf m = .shared) := by
        cases m with
        | true =>
          simp only [if_true, BStack.write, if_neg hi] at h ⊢
          split at h
          · cases h
          · rename_i hn
            exact ⟨_, h, fun h => absurd h hn⟩
        | false =>
          simp only [Bool.false_eq_true, if_false, BStack.read, if_neg hi] at h ⊢
          split at h
          · split at h
            · cases h
            · rename_i hn
              exact ⟨_, h, fun h => absurd h hn⟩
          · rename_i hu
            obtain ⟨r, hr, -⟩ := Option.map_eq_some_iff.1 h
            exact ⟨r, hr, fun _ => ⟨hu, rfl⟩⟩
      obtain ⟨s'', h1, h2⟩ := key
      obtain ⟨h3, h4, -⟩ := ih hv' h1
      refine ⟨h3, .skip h4 (by simpa using hi) ?_, hv⟩
      intro hp
      refine ⟨(h2 hp).1, ?_⟩
      intro x hx
      rw [List.mem_singleton] at hx
      subst hx
      exact (h2 hp).2

end PinProject
