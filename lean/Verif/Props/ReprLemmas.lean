import Verif.Spec.Repr
import Verif.Props.DeriveLemmas
/-!
# The `#[repr(..)]` parser accepts exactly the specified lists
-/
namespace PinProject
open Spec

/-- What may follow a path. -/
def PathEnd : List TT → Prop
  | [] => True
  | .group _ _ :: _ => True
  | .punct c _ :: _ => c = '=' ∨ c = ','
  | _ => False

theorem modPathTail_end {r : List TT} (h : PathEnd r) : modPathTail r = .ok ([], r) := by
  unfold modPathTail
  split
  · rename_i c d j rest
    have : ¬ (c = ':' ∧ d = ':') := by
      rintro ⟨rfl, _⟩
      simp [PathEnd] at h
    rw [if_neg this]
  · rfl

theorem modPathTail_segs {ss : List String} {ts r : List TT} (h : SegsToks ss ts) (hr : PathEnd r) :
    ∃ s rest, ss = s :: rest ∧ isModWord s = true ∧
      ∃ us, ts = .ident s :: us ∧ modPathTail (us ++ r) = .ok (rest, r) := by
  induction h with
  | @one s hs => exact ⟨s, [], rfl, hs, [], rfl, modPathTail_end hr⟩
  | @cons s ss ts j hs h ih =>
    obtain ⟨s', rest, rfl, hs', us, rfl, h2⟩ := ih
    refine ⟨s, _, rfl, hs, _, rfl, ?_⟩
    simp [modPathTail, hs', h2]

theorem parseModPath_complete {p : SPath} {ts r : List TT} (h : PathToks p ts) (hr : PathEnd r) :
    parseModPath (ts ++ r) = .ok (p, r) := by
  cases h with
  | rel h =>
    obtain ⟨s, rest, rfl, hs, us, rfl, h2⟩ := modPathTail_segs h hr
    simp [parseModPath, hs, h2]
  | abs j h =>
    obtain ⟨s, rest, rfl, hs, us, rfl, h2⟩ := modPathTail_segs h hr
    simp [parseModPath, hs, h2]

theorem modPathTail_sound : ∀ (ts r : List TT) (ss : List String), modPathTail ts = .ok (ss, r) →
    ∀ s, isModWord s = true → ∃ us, ts = us ++ r ∧ SegsToks (s :: ss) (.ident s :: us) := by
  intro ts
  fun_induction modPathTail ts with
  | case1 c d j hc s' rest' hs' ih =>
    intro r ss h s hs
    rw [bind_ok] at h
    obtain ⟨⟨ss', r'⟩, h1, h2⟩ := h
    simp only [Except.ok.injEq, Prod.mk.injEq] at h2
    obtain ⟨rfl, rfl⟩ := h2
    obtain ⟨us, rfl, h3⟩ := ih _ _ h1 s' hs'
    obtain ⟨rfl, rfl⟩ := hc
    exact ⟨_, by simp, .cons j hs h3⟩
  | case2 => intro r ss h; simp at h
  | case3 => intro r ss h; simp at h
  | case4 =>
    intro r ss h s hs
    simp only [Except.ok.injEq, Prod.mk.injEq] at h
    obtain ⟨rfl, rfl⟩ := h
    exact ⟨[], rfl, .one hs⟩
  | case5 =>
    intro r ss h s hs
    simp only [Except.ok.injEq, Prod.mk.injEq] at h
    obtain ⟨rfl, rfl⟩ := h
    exact ⟨[], rfl, .one hs⟩

theorem parseModPath_sound {ts r : List TT} {p : SPath} (h : parseModPath ts = .ok (p, r)) :
    ∃ us, ts = us ++ r ∧ PathToks p us := by
  unfold parseModPath at h
  split at h
  · rename_i c d j rest
    split at h
    · rename_i hc
      obtain ⟨rfl, rfl⟩ := hc
      split at h
      · split at h
        · rename_i s rest' hs
          rw [bind_ok] at h
          obtain ⟨⟨ss, r'⟩, h1, h2⟩ := h
          simp only [Except.ok.injEq, Prod.mk.injEq] at h2
          obtain ⟨rfl, rfl⟩ := h2
          obtain ⟨us, rfl, h3⟩ := modPathTail_sound _ _ _ h1 s hs
          exact ⟨_, by simp, .abs j h3⟩
        · simp at h
      · simp at h
    · simp at h
  · split at h
    · rename_i s rest' hs
      rw [bind_ok] at h
      obtain ⟨⟨ss, r'⟩, h1, h2⟩ := h
      simp only [Except.ok.injEq, Prod.mk.injEq] at h2
      obtain ⟨rfl, rfl⟩ := h2
      obtain ⟨us, rfl, h3⟩ := modPathTail_sound _ _ _ h1 s hs
      exact ⟨_, by simp, .rel h3⟩
    · simp at h
  · simp at h

/-- What may follow an element of a comma separated list. -/
def ListEnd : List TT → Prop
  | [] => True
  | t :: _ => isComma t = true

theorem takeValue_spec (ts : List TT) :
    ts = (takeValue ts).1 ++ (takeValue ts).2 ∧ (∀ t ∈ (takeValue ts).1, isComma t = false) ∧
      ListEnd (takeValue ts).2 := by
  fun_induction takeValue ts with
  | case1 => simp [ListEnd]
  | case2 j rest => simp [ListEnd, isComma]
  | case3 c j rest hc v r hv ih =>
    rw [hv] at ih
    simp only at ih ⊢
    refine ⟨by rw [List.cons_append, ← ih.1], ?_, ih.2.2⟩
    intro t ht
    rcases List.mem_cons.1 ht with rfl | ht
    · simpa [isComma] using hc
    · exact ih.2.1 t ht
  | case4 t rest hne v r hv ih =>
    rw [hv] at ih
    simp only at ih ⊢
    refine ⟨by rw [List.cons_append, ← ih.1], ?_, ih.2.2⟩
    intro t' ht
    rcases List.mem_cons.1 ht with rfl | ht
    · cases t' with
      | punct c j => exact absurd rfl (hne c j)
      | _ => rfl
    · exact ih.2.1 t' ht

theorem takeValue_append {v r : List TT} (hv : ∀ t ∈ v, isComma t = false) (hr : ListEnd r) :
    takeValue (v ++ r) = (v, r) := by
  induction v with
  | nil =>
    cases r with
    | nil => rfl
    | cons t r =>
      cases t with
      | punct c j =>
        simp only [ListEnd, isComma, beq_iff_eq] at hr
        subst hr
        simp [takeValue]
      | _ => simp [ListEnd, isComma] at hr
  | cons t v ih =>
    have ih := ih (fun t ht => hv t (List.mem_cons_of_mem _ ht))
    have ht := hv t (by simp)
    cases t with
    | punct c j =>
      simp only [isComma, beq_eq_false_iff_ne] at ht
      simp [takeValue, ht, ih]
    | _ => simp [takeValue, ih]

theorem ListEnd.pathEnd {r : List TT} (h : ListEnd r) : PathEnd r := by
  cases r with
  | nil => trivial
  | cons t r =>
    cases t <;> simp [ListEnd, isComma] at h
    subst h
    simp [PathEnd]

theorem parseMeta_complete {m : Meta} {us r : List TT} (h : MetaToks m us) (hr : ListEnd r) :
    parseMeta (us ++ r) = .ok (m, r) := by
  cases h with
  | path h =>
    unfold parseMeta
    rw [parseModPath_complete h hr.pathEnd]
    simp only [ok_bind]
    cases r with
    | nil => rfl
    | cons t r =>
      cases t <;> simp [ListEnd, isComma] at hr
      subst hr
      simp
  | list d inner h =>
    unfold parseMeta
    rw [List.append_assoc, parseModPath_complete h (by trivial)]
    rfl
  | nameValue j v h hne hv =>
    unfold parseMeta
    rw [List.append_assoc, List.cons_append, parseModPath_complete h (by simp [PathEnd])]
    simp [takeValue_append hv hr, hne]

theorem parseMeta_sound {ts r : List TT} {m : Meta} (h : parseMeta ts = .ok (m, r)) :
    ∃ us, ts = us ++ r ∧ MetaToks m us := by
  unfold parseMeta at h
  rw [bind_ok] at h
  obtain ⟨⟨p, toks⟩, h1, h⟩ := h
  obtain ⟨us, rfl, hp⟩ := parseModPath_sound h1
  simp only at h
  split at h
  · simp only [Except.ok.injEq, Prod.mk.injEq] at h
    obtain ⟨rfl, rfl⟩ := h
    exact ⟨_, by simp, .list _ _ hp⟩
  · rename_i c j rest
    split at h
    · rename_i hc
      subst hc
      split at h
      · simp at h
      · rename_i hne
        simp only [Except.ok.injEq, Prod.mk.injEq] at h
        obtain ⟨rfl, rfl⟩ := h
        have := takeValue_spec rest
        refine ⟨_, ?_, .nameValue j _ hp (by simpa using hne) this.2.1⟩
        rw [List.append_assoc, List.cons_append, ← this.1]
    · simp only [Except.ok.injEq, Prod.mk.injEq] at h
      obtain ⟨rfl, rfl⟩ := h
      exact ⟨_, rfl, .path hp⟩
  · simp only [Except.ok.injEq, Prod.mk.injEq] at h
    obtain ⟨rfl, rfl⟩ := h
    exact ⟨_, rfl, .path hp⟩

theorem metaToks_pos {m : Meta} {us : List TT} (h : MetaToks m us) : 0 < us.length := by
  have seg : ∀ {ss : List String} {ts : List TT}, SegsToks ss ts → 0 < ts.length := by
    intro ss ts h; cases h <;> simp
  have path : ∀ {p : SPath} {ts : List TT}, PathToks p ts → 0 < ts.length := by
    intro p ts h
    cases h with
    | rel h => exact seg h
    | abs j h => simp
  cases h with
  | path h => exact path h
  | list d i h => simp
  | nameValue j v h _ _ => simp; omega

theorem parseMetas_complete {ms : List Meta} {ts : List TT} (h : MetasToks ms ts) :
    ∀ n, ts.length ≤ n → parseMetas n ts = .ok ms := by
  induction h with
  | nil => intro n _; cases n <;> rfl
  | @last m ts h =>
    intro n hn
    have hp := metaToks_pos h
    cases n with
    | zero => omega
    | succ n =>
      cases ts with
      | nil => simp at hp
      | cons t ts =>
        rw [parseMetas]
        · have := parseMeta_complete (r := []) h trivial
          rw [List.append_nil] at this
          simp [this]
        · simp
  | @cons m ms ts us j h hms ih =>
    intro n hn
    have hp := metaToks_pos h
    simp only [List.length_append, List.length_cons] at hn
    cases n with
    | zero => omega
    | succ n =>
      cases ts with
      | nil => simp at hp
      | cons t ts =>
        have h1 := parseMeta_complete (r := .punct ',' j :: us) h rfl
        rw [List.cons_append] at h1 ⊢
        rw [parseMetas]
        · rw [h1]
          have h2 := ih n (by simp at hn; omega)
          simp [parsePunct, h2]
        · simp

theorem parseMetas_sound : ∀ (n : Nat) (ts : List TT) (ms : List Meta),
    parseMetas n ts = .ok ms → MetasToks ms ts
  | n, [], ms, h => by
    have : ms = [] := by cases n <;> simpa [parseMetas, eq_comm] using h
    rw [this]; exact .nil
  | 0, t :: ts, ms, h => by simp [parseMetas] at h
  | n + 1, t :: ts, ms, h => by
    rw [parseMetas] at h
    · rw [bind_ok] at h
      obtain ⟨⟨m, rest⟩, h1, h⟩ := h
      obtain ⟨us, hts, hm⟩ := parseMeta_sound h1
      simp only at h
      split at h
      · rename_i he
        simp only [List.isEmpty_iff] at he
        subst he
        obtain rfl := Except.ok.inj h
        rw [hts, List.append_nil]
        exact .last hm
      · rw [bind_ok] at h
        obtain ⟨vs, h2, h⟩ := h
        obtain ⟨j, rfl⟩ := parsePunct_ok.1 h2
        rw [bind_ok] at h
        obtain ⟨ms', h3, h4⟩ := h
        obtain rfl := Except.ok.inj h4
        rw [hts]
        exact .cons j hm (parseMetas_sound n vs ms' h3)
    · simp

theorem parseMetas_iff {ts : List TT} {ms : List Meta} :
    parseMetas ts.length ts = .ok ms ↔ MetasToks ms ts :=
  ⟨parseMetas_sound _ _ _, fun h => parseMetas_complete h _ (Nat.le_refl _)⟩

theorem checkReprs_ok {b : Bool} {ms : List Meta} :
    checkReprs b ms = .ok () ↔ ∀ m ∈ ms, isPacked m = false := by
  induction ms with
  | nil => simp [checkReprs]
  | cons m ms ih =>
    have he : m.getPath.isIdent "packed" = isPacked m := by
      rw [Bool.eq_iff_iff, isIdent_iff]; simp [isPacked]
    rw [checkReprs, he]
    cases h : isPacked m <;> simp [h, ih]

theorem checkPacked_ok {b : Bool} {attrs : List Attribute} :
    checkPacked b attrs = .ok () ↔
      ∀ a ∈ attrs, ∀ ts, reprArgs a = some ts → ∃ ms, MetasToks ms ts ∧ ∀ m ∈ ms, isPacked m = false := by
  induction attrs with
  | nil => simp [checkPacked]
  | cons a as ih =>
    rw [checkPacked, List.forall_mem_cons]
    split
    · rename_i p d toks hm
      have he : p.isIdent "repr" = (p == { leading := false, segs := ["repr"] }) := by
        rw [Bool.eq_iff_iff, isIdent_iff]; simp
      rw [he]
      split
      · rename_i hp
        have hr : reprArgs a = some toks := by simp [reprArgs, hm, hp]
        rw [bind_ok]
        constructor
        · rintro ⟨ms, h1, h2⟩
          rw [bind_ok] at h2
          obtain ⟨_, h3, h4⟩ := h2
          refine ⟨?_, ih.1 h4⟩
          intro ts hts
          rw [hr] at hts
          obtain rfl := Option.some.inj hts
          exact ⟨ms, parseMetas_iff.1 h1, checkReprs_ok.1 h3⟩
        · rintro ⟨h1, h2⟩
          obtain ⟨ms, h3, h4⟩ := h1 _ hr
          refine ⟨ms, parseMetas_iff.2 h3, ?_⟩
          rw [bind_ok]
          exact ⟨(), checkReprs_ok.2 h4, ih.2 h2⟩
      · rename_i hp
        have hr : reprArgs a = none := by simp [reprArgs, hm, hp]
        rw [ih]
        simp [hr]
    · rename_i hm
      have hr : reprArgs a = none := by
        unfold reprArgs
        split
        · rename_i p d ts h; exact absurd h (hm _ _ _)
        · rfl
      rw [ih]
      simp [hr]

theorem metasToks_unique {ms ms' : List Meta} {ts : List TT} (h : MetasToks ms ts)
    (h' : MetasToks ms' ts) : ms = ms' := by
  have h1 := parseMetas_iff.2 h
  have h2 := parseMetas_iff.2 h'
  rw [h1] at h2
  exact Except.ok.inj h2

/-- The check passes exactly when every `#[repr(..)]` is well-formed and none asks for packing. -/
theorem checkPacked_iff {b : Bool} {attrs : List Attribute} :
    checkPacked b attrs = .ok () ↔ ReprsWellFormed attrs ∧ ¬ AsksForPacked attrs := by
  rw [checkPacked_ok]
  constructor
  · intro h
    refine ⟨fun a ha ts hts => ?_, ?_⟩
    · obtain ⟨ms, h1, _⟩ := h a ha ts hts; exact ⟨ms, h1⟩
    · rintro ⟨a, ha, ts, ms, hts, hms, m, hm, hp⟩
      obtain ⟨ms', h1, h2⟩ := h a ha ts hts
      obtain rfl := metasToks_unique hms h1
      rw [h2 m hm] at hp
      cases hp
  · rintro ⟨h1, h2⟩ a ha ts hts
    obtain ⟨ms, hms⟩ := h1 a ha ts hts
    refine ⟨ms, hms, fun m hm => ?_⟩
    cases hp : isPacked m with
    | false => rfl
    | true => exact absurd ⟨a, ha, ts, ms, hts, hms, m, hm, hp⟩ h2

end PinProject
