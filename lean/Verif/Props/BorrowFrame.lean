import Verif.Props.BorrowShares
/-!
# What a call leaves as it was

A call with the pointer `t` is simulated by one that starts with nothing but `t`. The pointers below `t`, and other shared
references if the call only reads, can be used as before.
-/
namespace PinProject
open Spec

theorem chain_skip {P : List Nat} {w : Bool} {t : Nat} (X s : BStack) (h : ∀ i ∈ X, i.tag ≠ t ∧ i.tag ∉ P) :
    chain.access P w t (X ++ s) = chain.access P w t s := by
  cases w with
  | true => exact write_skip X s h
  | false => exact read_skip X s h

/-- An access with a chain is the same with more below it. -/
theorem chain_frame {P : List Nat} {w : Bool} {t t' : Nat} {q p : BPerm} {below : BStack} (hqp : q ≠ .shared → p ≠ .shared)
    {mid r : BStack} (h : chain.access P w t' (mid ++ [⟨q, t⟩]) = some r) :
    ∃ m0 mid', mid = m0 ++ mid' ∧ r = mid' ++ [⟨q, t⟩] ∧ t' ∈ r.map BItem.tag ∧
      chain.access P w t' (mid ++ ⟨p, t⟩ :: below) = some (mid' ++ ⟨p, t⟩ :: below) := by
  induction mid with
  | nil =>
    have ht := chain_mem h
    simp only [List.nil_append, List.map_cons, List.map_nil, List.mem_singleton] at ht
    subst ht
    obtain ⟨rfl, h2⟩ := chain_head h rfl
    refine ⟨[], [], rfl, rfl, by simp, ?_⟩
    cases w with
    | true => exact write_head (hqp (h2 rfl)) below
    | false => exact read_head below
  | cons i mid ih =>
    by_cases hi : i.tag = t'
    · obtain ⟨rfl, h2⟩ := chain_head h hi
      refine ⟨[], i :: mid, rfl, rfl, by simp [hi], ?_⟩
      subst hi
      cases w with
      | true => exact write_head (h2 rfl) _
      | false => exact read_head _
    · obtain ⟨h1, h2⟩ := chain_cons h hi
      obtain ⟨m0, mid', rfl, h3, h4, h5⟩ := ih h2
      refine ⟨i :: m0, mid', rfl, h3, h4, ?_⟩
      rw [← h5]
      exact chain_skip [i] _ (fun j hj => by rw [List.mem_singleton] at hj; subst hj; exact ⟨hi, h1⟩)

/-- `c` is a chain that starts with `t`. It stands for one that has `below` below `t` and perhaps, until the first access,
something above. In the case `sh` all of it is shared, and the other chains `D` are usable. -/
structure Framed {A : AliasModel} (R : List Nat → Nat → BStack → A.St → Prop) (sh : Bool) (P0 : List Nat) (n0 t : Nat) (p : BPerm)
    (below com : BStack) (h : BItem) (D : BStack → Prop) (Q : BItem → Prop) (P : List Nat) (n : Nat) (c : BStack) (s : A.St) : Prop where
  next : n0 ≤ n
  prot : ∀ k ∈ P0, k ∈ P
  chain : ∃ X mid q, c = mid ++ [⟨q, t⟩] ∧ (q ≠ .shared → p ≠ .shared) ∧ (∀ i ∈ mid, n0 ≤ i.tag ∧ i.tag < n) ∧ (X ≠ [] → mid = []) ∧
    (∀ i ∈ X, i.tag ≠ t ∧ i.tag ∉ P ∧ Q i) ∧ (mid.map BItem.tag).Nodup ∧ R P n (X ++ (mid ++ ⟨p, t⟩ :: below)) s ∧
    (sh = true → q = .shared ∧ ∀ i ∈ mid, i.perm = .shared)
  others : sh = true → ∀ y, D y → R P0 n (y ++ h :: com) s

variable {A : AliasModel} {R : List Nat → Nat → BStack → A.St → Prop}

theorem framed_simulates (hR : Lift.Allows A R) (hS : Shares A R) {sh : Bool} {P0 : List Nat} {n0 t : Nat} {p : BPerm}
    {below com : BStack} {h : BItem} {D : BStack → Prop} {Q : BItem → Prop} (hP0 : ∀ k ∈ P0, k < n0) (hD : ∀ y, D y → ∀ i ∈ y, i.perm = .shared)
    (hz : ∃ z, ⟨p, t⟩ :: below = z ++ h :: com ∧ (sh = true → ∀ i ∈ z, i.perm = .shared)) :
    Simulates A (Framed R sh P0 n0 t p below com h D Q) where
  access := by
    rintro P n c s w t' r ⟨h1, h2, ⟨X, mid, q, rfl, h3, h4, h5, h6, hnd, h7, h8⟩, h9⟩ hc
    obtain ⟨m0, mid', rfl, rfl, h10, h11⟩ := chain_frame (below := below) h3 hc
    have hX : chain.access P w t' (X ++ (m0 ++ mid' ++ ⟨p, t⟩ :: below)) = some (mid' ++ ⟨p, t⟩ :: below) := by
      by_cases hx : X = []
      · subst hx
        exact h11
      · have hm := h5 hx
        obtain ⟨rfl, rfl⟩ := List.append_eq_nil_iff.1 hm
        simp only [List.nil_append, List.map_cons, List.map_nil, List.mem_singleton] at h10
        subst h10
        rw [chain_skip X _ (fun i hi => ⟨(h6 i hi).1, (h6 i hi).2.1⟩)]
        exact h11
    have hnd' : (mid'.map BItem.tag).Nodup := hnd.sublist (by rw [List.map_append]; exact List.sublist_append_right _ _)
    obtain ⟨s', h12, h13⟩ := hR.simulates.access h7 hX
    refine ⟨s', h12, h1, h2, ⟨[], mid', q, rfl, h3, fun i hi => h4 i (List.mem_append_right _ hi), fun h => absurd rfl h, by simp, hnd', h13,
      fun hsh => ⟨(h8 hsh).1, fun i hi => (h8 hsh).2 i (List.mem_append_right _ hi)⟩⟩, ?_⟩
    intro hsh y hy
    obtain ⟨hq, hmid⟩ := h8 hsh
    have hw : w = false := by
      cases w with
      | false => rfl
      | true =>
        obtain ⟨x, r, hx, -, hxp, -⟩ := chain_result hc
        refine absurd ?_ (hxp rfl)
        have : x ∈ mid' ++ [⟨q, t⟩] := by rw [hx]; exact List.mem_cons_self
        rcases List.mem_append.1 this with h | h
        · exact hmid x (List.mem_append_right _ h)
        · rw [List.mem_singleton] at h
          rw [h]
          exact hq
    subst hw
    obtain ⟨z, hz1, -⟩ := hz
    refine hS.read (x := X ++ (m0 ++ mid') ++ z) h2 (hD y hy) (by simpa [hz1] using h7) (h9 hsh y hy) ?_ h12
    rw [List.map_append, List.map_singleton] at h10
    rcases List.mem_append.1 h10 with h10 | h10
    · simp [List.map_append, h10]
    · rw [List.mem_singleton] at h10
      subst h10
      cases z with
      | nil => simp [← (List.cons.inj hz1).1]
      | cons i z => simp [← (List.cons.inj hz1).1]
  retag := by
    rintro P n c s p' t' r ⟨h1, h2, ⟨X, mid, q, rfl, h3, h4, h5, h6, hnd, h7, h8⟩, h9⟩ hc
    obtain ⟨m0, mid', rfl, rfl, h10, h11⟩ := chain_frame (below := below) h3 hc
    have hX : chain.access P (p' != .shared) t' (X ++ (m0 ++ mid' ++ ⟨p, t⟩ :: below)) = some (mid' ++ ⟨p, t⟩ :: below) := by
      by_cases hx : X = []
      · subst hx
        exact h11
      · have hm := h5 hx
        obtain ⟨rfl, rfl⟩ := List.append_eq_nil_iff.1 hm
        simp only [List.nil_append, List.map_cons, List.map_nil, List.mem_singleton] at h10
        subst h10
        rw [chain_skip X _ (fun i hi => ⟨(h6 i hi).1, (h6 i hi).2.1⟩)]
        exact h11
    have hnd' : ((⟨p', n⟩ :: mid' : BStack).map BItem.tag).Nodup := by
      rw [List.map_cons, List.nodup_cons]
      refine ⟨fun hm => ?_, hnd.sublist (by rw [List.map_append]; exact List.sublist_append_right _ _)⟩
      obtain ⟨i, hi, hin⟩ := List.mem_map.1 hm
      have := (h4 i (List.mem_append_right _ hi)).2
      simp only at hin
      omega
    obtain ⟨s', h12, h13, h14⟩ := hR.simulates.retag h7 hX
    have hps : sh = true → p' = .shared := by
      intro hsh
      obtain ⟨hq, hmid⟩ := h8 hsh
      refine Decidable.byContradiction fun hne => ?_
      obtain ⟨x, r, hx, -, hxp, -⟩ := chain_result hc
      refine absurd ?_ (hxp (by simpa using hne))
      have : x ∈ mid' ++ [⟨q, t⟩] := by rw [hx]; exact List.mem_cons_self
      rcases List.mem_append.1 this with h | h
      · exact hmid x (List.mem_append_right _ h)
      · rw [List.mem_singleton] at h
        rw [h]
        exact hq
    have hnew : ∀ i ∈ (⟨p', n⟩ :: mid' : BStack), n0 ≤ i.tag ∧ i.tag < n + 1 := by
      intro i hi
      rcases List.mem_cons.1 hi with rfl | hi
      · exact ⟨h1, Nat.lt_succ_self _⟩
      · exact ⟨(h4 i (List.mem_append_right _ hi)).1, Nat.lt_succ_of_lt (h4 i (List.mem_append_right _ hi)).2⟩
    have hshd : sh = true → q = .shared ∧ ∀ i ∈ (⟨p', n⟩ :: mid' : BStack), i.perm = .shared := by
      intro hsh
      refine ⟨(h8 hsh).1, fun i hi => ?_⟩
      rcases List.mem_cons.1 hi with rfl | hi
      · exact hps hsh
      · exact (h8 hsh).2 i (List.mem_append_right _ hi)
    have hothers : sh = true → ∀ y, D y → R P0 (n + 1) (y ++ h :: com) (A.push p' t' n s') := by
      intro hsh y hy
      have hp' := hps hsh
      subst hp'
      refine hS.push (fun k hk => Nat.lt_of_lt_of_le (hP0 k hk) h1) ?_ (hR.valid h13)
      cases ha : A.retagAccess .shared n with
      | none =>
        rw [ha] at h12
        cases h12
        exact h9 hsh y hy
      | some w =>
        rw [ha] at h12
        have hw : w = false := by
          cases w with
          | false => rfl
          | true => exact absurd ha (hS.noWrite n)
        subst hw
        obtain ⟨z, hz1, -⟩ := hz
        refine hS.read (x := X ++ (m0 ++ mid') ++ z) h2 (hD y hy) (by simpa [hz1] using h7) (h9 hsh y hy) ?_ h12
        rw [List.map_append, List.map_singleton] at h10
        rcases List.mem_append.1 h10 with h10 | h10
        · simp [List.map_append, h10]
        · rw [List.mem_singleton] at h10
          subst h10
          cases z with
          | nil => simp [← (List.cons.inj hz1).1]
          | cons i z => simp [← (List.cons.inj hz1).1]
    refine ⟨s', h12, ⟨Nat.le_succ_of_le h1, h2, ⟨[], ⟨p', n⟩ :: mid', q, rfl, h3, hnew, fun h => absurd rfl h, by simp, hnd', h13, hshd⟩,
      hothers⟩, ⟨Nat.le_succ_of_le h1, fun k hk => List.mem_cons_of_mem _ (h2 k hk),
      ⟨[], ⟨p', n⟩ :: mid', q, rfl, h3, hnew, fun h => absurd rfl h, by simp, hnd', h14, hshd⟩, hothers⟩⟩
  next := by
    intro P n c s ⟨h1, h2, ⟨X, mid, q, hc, h3, h4, h5, h6, hnd, h7, h8⟩, h9⟩
    exact ⟨Nat.le_succ_of_le h1, h2, ⟨X, mid, q, hc, h3, fun i hi => ⟨(h4 i hi).1, Nat.lt_succ_of_lt (h4 i hi).2⟩, h5, h6, hnd,
      hR.simulates.next h7, h8⟩, fun hsh y hy => hR.simulates.next (h9 hsh y hy)⟩
  release := by
    rintro P n c s t' r ⟨h1, h2, ⟨X, mid, q, rfl, h3, h4, h5, h6, hnd, h7, h8⟩, h9⟩ hc
    have hts : t' ∈ mid.map BItem.tag ∧ r = mid ++ [⟨q, t⟩] := by
      simp only [List.dropLast_concat] at hc
      split at hc
      · rename_i ht
        exact ⟨ht, (Option.some.inj hc).symm⟩
      · cases hc
    obtain ⟨ht, rfl⟩ := hts
    have hX : X = [] := by
      refine Decidable.byContradiction fun hne => ?_
      rw [h5 hne] at ht
      cases ht
    subst hX
    obtain ⟨i, hi, rfl⟩ := List.mem_map.1 ht
    have hsub : ∀ k ∈ P0, k ∈ P := by
      intro k hk
      rcases List.mem_cons.1 (h2 k hk) with rfl | h
      · have := hP0 _ hk
        have := (h4 i hi).1
        omega
      · exact h
    have hrel : chain.release (i.tag :: P) i.tag ([] ++ (mid ++ ⟨p, t⟩ :: below)) = some (mid ++ ⟨p, t⟩ :: below) := by
      refine if_pos ?_
      rw [List.nil_append, List.dropLast_append_of_ne_nil (by simp), List.map_append]
      exact List.mem_append_left _ ht
    obtain ⟨s', h12, h13⟩ := hR.simulates.release h7 hrel
    refine ⟨s', h12, h1, hsub, ⟨[], mid, q, rfl, h3, h4, fun h => absurd rfl h, by simp, hnd, h13, h8⟩, ?_⟩
    intro hsh y hy
    obtain ⟨z, hz1, hz2⟩ := hz
    refine hS.release (x := mid ++ z) hsub (hD y hy) ?_ (by simpa [hz1] using h7) (h9 hsh y hy) ?_ h12
    · intro j hj
      rcases List.mem_append.1 hj with hj | hj
      · exact (h8 hsh).2 j hj
      · exact hz2 hsh j hj
    · rw [List.map_append]
      exact List.mem_append_left _ ht

end PinProject
