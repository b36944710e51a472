import Verif.Props.ReceiverSpans
import Verif.Spec.TreeSpans
/-!
# C101: the variables of the user's code keep their places
-/
namespace PinProject
open Spec

namespace TreeSpans
open ReceiverSpans

variable {S : Type}

theorem qvisit_isNone (s : PSelfTy S) (q : PQS S) : (q.visit s).isNone = q.isNone := by
  cases q <;> simp [PQS.visit, PQS.isNone]

theorem visitPSegs_length (s : PSelfTy S) (segs : List (PSeg S)) : (visitPSegs s segs).length = segs.length := by
  induction segs with
  | nil => simp [visitPSegs]
  | cons x xs ih => simp [visitPSegs, ih]

theorem varAt_visit (s : PSelfTy S) (w : String) (sp : S) (l : Bool) (segs : List (PSeg S)) :
    VarAt w sp (.mk l (visitPSegs s segs)) ↔ VarAt w sp (.mk l segs) := by
  match segs with
  | [] => simp [visitPSegs]
  | [.mk i sp' a] => simp [visitPSegs, PSeg.visit, VarAt]
  | _ :: _ :: _ => simp [visitPSegs, VarAt]

theorem varAt_rename {w : String} (hw : w ≠ "self") (sp : S) (l : Bool) (segs : List (PSeg S)) :
    VarAt w sp (.mk l (renameSingleP segs)) ↔ VarAt w sp (.mk l segs) ∨ (w = "__self" ∧ VarAt "self" sp (.mk l segs)) := by
  match segs with
  | [] => simp [renameSingleP, VarAt]
  | [.mk i sp' a] =>
    by_cases hi : i = "self"
    · subst hi
      simp only [renameSingleP, prependUnderscore, if_true, VarAt, PPath.mk.injEq, List.cons.injEq, PSeg.mk.injEq, and_true, true_and]
      constructor
      · rintro ⟨b, h1, h2, h3, h4⟩; exact .inr ⟨h2.symm, b, h1, h3, h4⟩
      · rintro (⟨b, h1, h2, h3, h4⟩ | ⟨h2, b, h1, h3, h4⟩)
        · exact absurd h2.symm hw
        · exact ⟨b, h1, h2.symm, h3, h4⟩
    · simp only [renameSingleP, prependUnderscore, if_neg hi, VarAt, PPath.mk.injEq, List.cons.injEq, PSeg.mk.injEq, and_true]
      constructor
      · exact .inl
      · rintro (h | ⟨-, b, h1, h2, h3, h4⟩)
        · exact h
        · exact absurd h2 hi
  | _ :: _ :: _ => simp [renameSingleP, VarAt]

theorem uses_rename (o : Bool) (w : String) (sp : S) (segs : List (PSeg S)) :
    UsesSegs o w sp (renameSingleP segs) ↔ UsesSegs o w sp segs := by
  match segs with
  | [] => simp [renameSingleP]
  | [.mk i sp' a] => simp [renameSingleP, UsesSegs, UsesSeg]
  | _ :: _ :: _ => simp [renameSingleP]

theorem uses_turbofish (o : Bool) (w : String) (sp : S) (segs : List (PSeg S)) :
    UsesSegs o w sp (turbofishP segs) ↔ UsesSegs o w sp segs := by
  fun_induction turbofishP segs with
  | case1 => rfl
  | case2 i sp' c args ss ih => simp [UsesSegs, UsesSeg, UsesArgs, ih]
  | case3 x ss h ih => simp [UsesSegs, ih]

theorem varAt_turbofish (w : String) (sp : S) (l : Bool) (segs : List (PSeg S)) :
    VarAt w sp (.mk l (turbofishP segs)) ↔ VarAt w sp (.mk l segs) := by
  match segs with
  | [] => simp [turbofishP]
  | [.mk i sp' a] => cases a <;> simp [turbofishP, VarAt]
  | .mk _ _ a :: .mk _ _ b :: _ => cases a <;> cases b <;> simp [turbofishP, VarAt]

theorem turbofish_length (segs : List (PSeg S)) : (turbofishP segs).length = segs.length := by
  fun_induction turbofishP segs <;> simp_all

theorem uses_append (o : Bool) (w : String) (sp : S) (as bs : List (PSeg S)) :
    UsesSegs o w sp (as ++ bs) ↔ UsesSegs o w sp as ∨ UsesSegs o w sp bs := by
  induction as with
  | nil => simp [UsesSegs]
  | cons a as ih => simp [UsesSegs, ih, or_assoc]

theorem selfSpan_some {p : PPath S} {sp : S} (h : p.selfSpan? = some sp) :
    ∃ a rest, p = .mk false (.mk "Self" sp a :: rest) ∧ a.isEmpty = true := by
  unfold PPath.selfSpan? at h
  split at h
  · rename_i i sp' a rest
    split at h
    · rename_i hc
      obtain ⟨rfl, hc⟩ := hc
      cases h
      exact ⟨a, rest, rfl, hc⟩
    · cases h
  · cases h

theorem uses_empty {a : PPArgs S} (h : a.isEmpty = true) (s : PSelfTy S) (o : Bool) (w : String) (sp : S) :
    ¬ UsesArgs o w sp a ∧ ¬ UsesArgs o w sp (a.visit s) := by
  match a with
  | .none => simp [UsesArgs, PPArgs.visit]
  | .angle c [] => simp [UsesArgs, PPArgs.visit, visitPNodes, UsesNodes]

theorem varAt_self {w : String} (hw : w ≠ "Self") {sp sp' : S} {l : Bool} {a : PPArgs S} {rest : List (PSeg S)} :
    ¬ VarAt w sp (.mk l (.mk "Self" sp' a :: rest)) := by
  rintro ⟨b, h⟩
  injection h with _ h
  injection h with h _
  injection h with h _ _
  exact hw h.symm

section
variable {s : PSelfTy S} {w : String} (hs : FreeOf w s) (hw : w ≠ "self") (hW : w ≠ "Self")
include hs hw hW
set_option linter.unusedSectionVars false

theorem expr_path (sp : S) (p : PPath S)
    (ih : UsesSegs false w sp (p.visitSegs s) ↔ UsesPath false w sp p ∨ (w = "__self" ∧ UsesPath true "self" sp p)) :
    (VarAt w sp (selfToExprPathP s p (p.visitSegs s)) ↔ VarAt w sp p ∨ (w = "__self" ∧ VarAt "self" sp p)) ∧
    (UsesPath false w sp (selfToExprPathP s p (p.visitSegs s)) ↔ UsesPath false w sp p ∨ (w = "__self" ∧ UsesPath true "self" sp p)) := by
  cases hp : p.selfSpan? with
  | none =>
    cases p with
    | mk l segs =>
      simp only [selfToExprPathP, hp, PPath.leading, UsesPath] at ih ⊢
      rw [uses_rename]
      refine ⟨?_, ih⟩
      rw [varAt_rename hw]
      simp only [PPath.visitSegs, varAt_visit]
  | some sp0 =>
    obtain ⟨a, rest, rfl, ha⟩ := selfSpan_some hp
    have e := fun o w => uses_empty ha s o w sp
    simp only [selfToExprPathP, hp, PPath.visitSegs, visitPSegs, PSeg.visit, List.tail_cons, UsesPath, UsesSegs, UsesSeg, e,
      false_or, uses_append, uses_turbofish, varAt_self hW, varAt_self (show "self" ≠ "Self" by decide), and_false, or_false,
      iff_false] at ih ⊢
    have hr : ¬ UsesSegs false w sp (s.ty sp0).2.segs := by
      have := (hs.path sp0 sp).2
      cases hq : (s.ty sp0).2 with
      | mk l segs => rw [hq] at this; simpa [UsesPath, PPath.segs] using this
    refine ⟨?_, ?_⟩
    · rintro ⟨b, hb⟩
      injection hb with h1 h2
      have hl := congrArg List.length h2
      rw [List.length_append, turbofish_length, visitPSegs_length] at hl
      have h0 : 0 < (s.ty sp0).2.segs.length := List.length_pos_iff.2 (hs.segs sp0)
      have hr : rest = [] := List.eq_nil_of_length_eq_zero (by simp at hl; omega)
      subst hr
      rw [visitPSegs, List.append_nil] at h2
      refine (hs.path sp0 sp).1 ?_
      cases hq : (s.ty sp0).2 with
      | mk l segs =>
        rw [hq] at h1 h2
        rw [← varAt_turbofish]
        exact ⟨b, by rw [show l = false from h1, show turbofishP segs = _ from h2]⟩
    · simp only [hr, false_or, ih]

theorem q_path (sp : S) (q : PQS S) (p : PPath S)
    (ihq : UsesQ false w sp (q.visit s) ↔ UsesQ false w sp q ∨ (w = "__self" ∧ UsesQ true "self" sp q))
    (ih : UsesSegs false w sp (p.visitSegs s) ↔ UsesPath false w sp p ∨ (w = "__self" ∧ UsesPath true "self" sp p)) :
    (((selfToQselfP s q p (q.visit s) (p.visitSegs s)).1.isNone = true ∧ VarAt w sp (selfToQselfP s q p (q.visit s) (p.visitSegs s)).2) ∨
      UsesQ false w sp (selfToQselfP s q p (q.visit s) (p.visitSegs s)).1 ∨
      UsesPath false w sp (selfToQselfP s q p (q.visit s) (p.visitSegs s)).2) ↔
    ((q.isNone = true ∧ VarAt w sp p) ∨ UsesQ false w sp q ∨ UsesPath false w sp p) ∨
      (w = "__self" ∧ ((q.isNone = true ∧ VarAt "self" sp p) ∨ UsesQ true "self" sp q ∨ UsesPath true "self" sp p)) := by
  have plain : selfToQselfP s q p (q.visit s) (p.visitSegs s) = (q.visit s, .mk p.leading (renameSingleP (p.visitSegs s))) →
      ((((selfToQselfP s q p (q.visit s) (p.visitSegs s)).1.isNone = true ∧ VarAt w sp (selfToQselfP s q p (q.visit s) (p.visitSegs s)).2) ∨
        UsesQ false w sp (selfToQselfP s q p (q.visit s) (p.visitSegs s)).1 ∨
        UsesPath false w sp (selfToQselfP s q p (q.visit s) (p.visitSegs s)).2) ↔
      ((q.isNone = true ∧ VarAt w sp p) ∨ UsesQ false w sp q ∨ UsesPath false w sp p) ∨
        (w = "__self" ∧ ((q.isNone = true ∧ VarAt "self" sp p) ∨ UsesQ true "self" sp q ∨ UsesPath true "self" sp p))) := by
    intro he
    rw [he]
    cases p with
    | mk l segs =>
      simp only [PPath.leading, UsesPath] at ih ⊢
      rw [uses_rename, varAt_rename hw, ih, ihq, qvisit_isNone]
      simp only [PPath.visitSegs, varAt_visit]
      grind (splits := 30)
  by_cases hq : q.isNone = true
  case neg =>
    exact plain (by simp [selfToQselfP, eq_false_of_ne_true hq])
  case pos =>
    cases hp : p.selfSpan? with
    | none => exact plain (by simp [selfToQselfP, hp])
    | some sp0 =>
      obtain ⟨a, rest, rfl, ha⟩ := selfSpan_some hp
      have e := fun o w => uses_empty ha s o w sp
      have hqn : ∀ o w, ¬ UsesQ o w sp q := by
        intro o w
        cases q with
        | none => simp [UsesQ]
        | some t n => simp [PQS.isNone] at hq
      have hr : ¬ UsesSegs false w sp (s.ty sp0).2.segs := by
        have := (hs.path sp0 sp).2
        cases hq : (s.ty sp0).2 with
        | mk l segs => rw [hq] at this; simpa [UsesPath, PPath.segs] using this
      have hv : ¬ VarAt w sp (.mk (s.ty sp0).2.leading (s.ty sp0).2.segs) := by
        have := (hs.path sp0 sp).1
        cases hq : (s.ty sp0).2 with
        | mk l segs => rw [hq] at this; exact this
      simp only [selfToQselfP, hq, hp, PPath.visitSegs, visitPSegs, PSeg.visit, List.tail_cons, UsesPath, UsesSegs, UsesSeg, e,
        false_or, varAt_self hW, varAt_self (show "self" ≠ "Self" by decide), and_false, hqn] at ih ⊢
      by_cases hlen : (PPath.mk false (.mk "Self" sp0 a :: rest)).segs.length = 1
      · have : rest = [] := List.eq_nil_of_length_eq_zero (by simpa [PPath.segs] using hlen)
        subst this
        rw [if_pos hlen]
        simp [UsesPath, UsesQ, uses_turbofish, varAt_turbofish, hr, hv, UsesSegs]
      · simp only [hlen, if_false, UsesPath, UsesQ, UsesVar, PQS.isNone, Bool.false_eq_true, false_and, false_or, uses_rename, ih]
        simp only [(hs.path sp0 sp).1, (hs.path sp0 sp).2, hs.qself sp0 sp, and_false, false_or]

theorem mac_toks (sp : S) (toks : List (PTok S)) :
    IdentAt w sp (visitMacPlaced s.toks toks) ↔
      IdentAt w sp toks ∨ (w = "__self" ∧ IdentAt "self" sp toks ∧ ¬ TokOccurs "fn" (unplaceAll toks)) := by
  rcases C99_fn s.toks toks with ⟨h1, h2⟩ | ⟨h1, h2⟩
  · rw [h1]
    simp [h2]
  · rw [h1, C99_idents]
    have o : ¬ Outermost w s.toks := by
      rintro ⟨x, hx⟩
      obtain ⟨a, b, e⟩ := List.append_of_mem hx
      exact hs.toks x (e ▸ identAt_append.2 (.inr (.here _)))
    have i : ¬ Inside w sp s.toks := by
      rintro ⟨d, is, x, hx, h⟩
      obtain ⟨a, b, e⟩ := List.append_of_mem hx
      exact hs.toks sp (e ▸ identAt_append.2 (.inr (.deeper _ _ h)))
    simp [o, i, hw, hW, h2]

mutual

theorem node_uses (sp : S) : ∀ n : PNode S,
    UsesVar false w sp (n.visit s) ↔ UsesVar false w sp n ∨ (w = "__self" ∧ UsesVar true "self" sp n)
  | .tyPath q p => by
    have h := q_path hs hw hW sp q p (q_uses sp q) (path_uses sp p)
    rw [PNode.visit]
    split
    · rename_i sp0 hq hp
      have : ∃ a rest, p = .mk false (.mk "Self" sp0 a :: rest) ∧ a = .none ∧ rest = [] := by
        unfold PPath.identSpan? at hp
        split at hp
        · split at hp
          · rename_i hi
            cases hp
            subst hi
            exact ⟨_, _, rfl, rfl, rfl⟩
          · cases hp
        · cases hp
      obtain ⟨a, rest, rfl, rfl, rfl⟩ := this
      have hqn : ∀ o w, ¬ UsesQ o w sp q := by
        intro o w
        cases q with
        | none => simp [UsesQ]
        | some t n => simp [PQS.isNone] at hq
      simp [UsesVar, UsesPath, UsesSegs, UsesSeg, UsesArgs, hqn, varAt_self hW, varAt_self (show "self" ≠ "Self" by decide),
        (hs.path sp0 sp).1, (hs.path sp0 sp).2, hs.qself sp0 sp]
    · simp only [UsesVar]
      exact h
  | .exprPath q p => by
    have h := q_path hs hw hW sp q p (q_uses sp q) (path_uses sp p)
    simp only [PNode.visit, UsesVar]
    exact h
  | .exprStruct q p cs => by
    have h := expr_path hs hw hW sp p (path_uses sp p)
    simp only [PNode.visit, UsesVar, qvisit_isNone, h.1, h.2, q_uses sp q, nodes_uses sp cs]
    grind (splits := 40)
  | .patStruct q p cs => by
    have h := expr_path hs hw hW sp p (path_uses sp p)
    simp only [PNode.visit, UsesVar, qvisit_isNone, h.1, h.2, q_uses sp q, nodes_uses sp cs]
    grind (splits := 40)
  | .patTupleStruct q p cs => by
    have h := expr_path hs hw hW sp p (path_uses sp p)
    simp only [PNode.visit, UsesVar, qvisit_isNone, h.1, h.2, q_uses sp q, nodes_uses sp cs]
    grind (splits := 40)
  | .path (.mk l segs) => by
    have h := path_uses sp (.mk l segs)
    simp only [PNode.visit, UsesVar, PPath.leading, UsesPath, uses_rename, varAt_rename hw] at h ⊢
    rw [h]
    simp only [PPath.visitSegs, varAt_visit]
    grind (splits := 40)
  | .mac p toks => by
    simp only [PNode.visit, UsesVar, mac_toks hs hw hW sp toks]
    simp
  | .itemMac p toks => by
    rw [PNode.visit]
    split
    · rename_i hp
      simp only [UsesVar, hp, mac_toks hs hw hW sp toks]
      simp
    · rename_i hp
      simp [UsesVar, hp]
  | .item l cs => by simp [PNode.visit, UsesVar]
  | .binder lts => by simp [PNode.visit, UsesVar]
  | .lifetime n => by simp [PNode.visit, UsesVar]
  | .other l cs => by simp only [PNode.visit, UsesVar]; exact nodes_uses sp cs

theorem q_uses (sp : S) : ∀ q : PQS S,
    UsesQ false w sp (q.visit s) ↔ UsesQ false w sp q ∨ (w = "__self" ∧ UsesQ true "self" sp q)
  | .none => by simp [PQS.visit, UsesQ]
  | .some t n => by simp only [PQS.visit, UsesQ]; exact node_uses sp t

theorem path_uses (sp : S) : ∀ p : PPath S,
    UsesSegs false w sp (p.visitSegs s) ↔ UsesPath false w sp p ∨ (w = "__self" ∧ UsesPath true "self" sp p)
  | .mk l segs => by simp only [PPath.visitSegs, UsesPath]; exact segs_uses sp segs

theorem segs_uses (sp : S) : ∀ xs : List (PSeg S),
    UsesSegs false w sp (visitPSegs s xs) ↔ UsesSegs false w sp xs ∨ (w = "__self" ∧ UsesSegs true "self" sp xs)
  | [] => by simp [visitPSegs, UsesSegs]
  | x :: xs => by
    simp only [visitPSegs, UsesSegs, seg_uses sp x, segs_uses sp xs]
    grind (splits := 30)

theorem seg_uses (sp : S) : ∀ x : PSeg S,
    UsesSeg false w sp (x.visit s) ↔ UsesSeg false w sp x ∨ (w = "__self" ∧ UsesSeg true "self" sp x)
  | .mk i sp' a => by simp only [PSeg.visit, UsesSeg]; exact args_uses sp a

theorem args_uses (sp : S) : ∀ a : PPArgs S,
    UsesArgs false w sp (a.visit s) ↔ UsesArgs false w sp a ∨ (w = "__self" ∧ UsesArgs true "self" sp a)
  | .none => by simp [PPArgs.visit, UsesArgs]
  | .angle c args => by simp only [PPArgs.visit, UsesArgs]; exact nodes_uses sp args
  | .paren args => by simp only [PPArgs.visit, UsesArgs]; exact nodes_uses sp args

theorem nodes_uses (sp : S) : ∀ ns : List (PNode S),
    UsesNodes false w sp (visitPNodes s ns) ↔ UsesNodes false w sp ns ∨ (w = "__self" ∧ UsesNodes true "self" sp ns)
  | [] => by simp [visitPNodes, UsesNodes]
  | n :: ns => by
    simp only [visitPNodes, UsesNodes, node_uses sp n, nodes_uses sp ns]
    grind (splits := 30)

end
end

/-! ## Without the spans -/

theorem unplace_isNone (q : PQS S) : (unplaceQ q).isNone = q.isNone := by
  cases q <;> simp [unplaceQ, QS.isNone, PQS.isNone]

theorem unplace_isEmpty (a : PPArgs S) : (unplaceArgs a).isEmpty = a.isEmpty := by
  cases a with
  | none => simp [unplaceArgs, PArgs.isEmpty, PPArgs.isEmpty]
  | angle c args => cases args <;> simp [unplaceArgs, unplaceNodes, PArgs.isEmpty, PPArgs.isEmpty]
  | paren args => simp [unplaceArgs, PArgs.isEmpty, PPArgs.isEmpty]

theorem unplace_starts (p : PPath S) : startsWithSelf (unplacePath p) = p.selfSpan?.isSome := by
  match p with
  | .mk true segs => simp [unplacePath, startsWithSelf, PPath.selfSpan?]
  | .mk false [] => simp [unplacePath, unplaceSegs, startsWithSelf, PPath.selfSpan?]
  | .mk false (.mk i sp a :: rest) =>
    simp only [unplacePath, unplaceSegs, unplaceSeg, startsWithSelf, PPath.selfSpan?, unplace_isEmpty]
    by_cases hi : i = "Self" <;> cases ha : a.isEmpty <;> simp [hi]

theorem unplace_isIdent (p : PPath S) (w : String) : (unplacePath p).isIdent w = (p.identSpan? w).isSome := by
  match p with
  | .mk true segs => simp [unplacePath, Path.isIdent, PPath.identSpan?]
  | .mk false [] => simp [unplacePath, unplaceSegs, Path.isIdent, PPath.identSpan?]
  | .mk false [.mk i sp .none] =>
    by_cases hi : i = w <;> simp [unplacePath, unplaceSegs, unplaceSeg, unplaceArgs, Path.isIdent, PPath.identSpan?, hi]
  | .mk false [.mk i sp (.angle c args)] => simp [unplacePath, unplaceSegs, unplaceSeg, unplaceArgs, Path.isIdent, PPath.identSpan?]
  | .mk false [.mk i sp (.paren args)] => simp [unplacePath, unplaceSegs, unplaceSeg, unplaceArgs, Path.isIdent, PPath.identSpan?]
  | .mk false (_ :: _ :: _) => simp [unplacePath, unplaceSegs, Path.isIdent, PPath.identSpan?]

theorem unplace_rename (segs : List (PSeg S)) : unplaceSegs (renameSingleP segs) = renameSingle (unplaceSegs segs) := by
  match segs with
  | [] => simp [renameSingleP, unplaceSegs, renameSingle]
  | [.mk i sp a] => simp [renameSingleP, unplaceSegs, unplaceSeg, renameSingle]
  | _ :: _ :: _ => simp [renameSingleP, unplaceSegs, renameSingle]

theorem unplace_nodes_isEmpty (ns : List (PNode S)) : (unplaceNodes ns).isEmpty = ns.isEmpty := by
  cases ns <;> simp [unplaceNodes]

theorem unplace_turbofish (segs : List (PSeg S)) : unplaceSegs (turbofishP segs) = turbofish (unplaceSegs segs) := by
  induction segs with
  | nil => simp [turbofishP, unplaceSegs, turbofish]
  | cons x xs ih =>
    obtain ⟨i, sp, a⟩ := x
    cases a <;> simp [turbofishP, unplaceSegs, unplaceSeg, unplaceArgs, turbofish, ih, unplace_nodes_isEmpty]

theorem unplace_segs (p : PPath S) : (unplacePath p).segs = unplaceSegs p.segs := by
  cases p; simp [unplacePath, Path.segs, PPath.segs]

theorem unplace_leading (p : PPath S) : (unplacePath p).leading = p.leading := by
  cases p; simp [unplacePath, Path.leading, PPath.leading]

theorem unplaceSegs_append (as bs : List (PSeg S)) : unplaceSegs (as ++ bs) = unplaceSegs as ++ unplaceSegs bs := by
  induction as with
  | nil => simp [unplaceSegs]
  | cons a as ih => simp [unplaceSegs, ih]

theorem unplaceSegs_tail (as : List (PSeg S)) : unplaceSegs as.tail = (unplaceSegs as).tail := by
  cases as <;> simp [unplaceSegs]

theorem unplaceSegs_length (as : List (PSeg S)) : (unplaceSegs as).length = as.length := by
  induction as with
  | nil => simp [unplaceSegs]
  | cons a as ih => simp [unplaceSegs, ih]

theorem unplace_mac (sty toks : List (PTok S)) : unplaceAll (visitMacPlaced sty toks) = visitMacToks (unplaceAll sty) (unplaceAll toks) := by
  rcases C99_fn sty toks with ⟨h1, h2⟩ | ⟨h1, h2⟩
  · rw [h1, visitMacToks, if_pos ((containsFn_iff _).2 h2)]
  · rw [h1, visitMacToks, if_neg (fun h => h2 ((containsFn_iff _).1 h)), C99_tokens]

section
variable {s : PSelfTy S} {t : SelfTy} (hq : ∀ sp, unplaceQ (s.ty sp).1 = t.q) (hp : ∀ sp, unplacePath (s.ty sp).2 = t.p)
  (ht : unplaceAll s.toks = t.toks)
include hq hp ht
set_option linter.unusedSectionVars false

theorem expr_unplace (p : PPath S) (segs : List (PSeg S)) :
    unplacePath (selfToExprPathP s p segs) = selfToExprPath t (unplacePath p) (unplaceSegs segs) := by
  unfold selfToExprPathP selfToExprPath
  rw [unplace_starts]
  cases h : p.selfSpan? with
  | none => simp [unplacePath, unplace_rename, unplace_leading]
  | some sp =>
    simp [unplacePath, unplaceSegs_append, unplace_turbofish, unplaceSegs_tail, ← hp sp, unplace_leading, unplace_segs]

theorem q_unplace (q : PQS S) (p : PPath S) (qv : PQS S) (segs : List (PSeg S)) :
    unplaceQ (selfToQselfP s q p qv segs).1 = (selfToQself t (unplaceQ q) (unplacePath p) (unplaceQ qv) (unplaceSegs segs)).1 ∧
    unplacePath (selfToQselfP s q p qv segs).2 = (selfToQself t (unplaceQ q) (unplacePath p) (unplaceQ qv) (unplaceSegs segs)).2 := by
  unfold selfToQselfP selfToQself
  rw [unplace_starts, unplace_isNone, unplace_segs, unplaceSegs_length]
  cases h : p.selfSpan? with
  | none => cases q.isNone <;> simp [unplacePath, unplace_rename, unplace_leading]
  | some sp =>
    cases q.isNone with
    | false => simp [unplacePath, unplace_rename, unplace_leading]
    | true =>
      by_cases hl : p.segs.length = 1
      · simp [hl, unplacePath, unplaceQ, unplace_turbofish, ← hp sp, unplace_leading, unplace_segs]
      · simp [hl, unplacePath, unplaceQ, unplaceNode, unplace_rename, unplaceSegs_tail, hq, hp]

mutual

theorem node_unplace : ∀ n : PNode S, unplaceNode (n.visit s) = (unplaceNode n).visit t
  | .tyPath q p => by
    have h := q_unplace hq hp ht q p (q.visit s) (p.visitSegs s)
    rw [qs_unplace q, path_unplace p] at h
    rw [PNode.visit, unplaceNode, Node.visit, unplace_isNone, unplace_isIdent]
    cases hn : q.isNone <;> cases hi : p.identSpan? "Self" <;> simp [unplaceNode, h, hq, hp]
  | .exprPath q p => by
    have h := q_unplace hq hp ht q p (q.visit s) (p.visitSegs s)
    rw [qs_unplace q, path_unplace p] at h
    simp only [PNode.visit, unplaceNode, Node.visit, h]
  | .exprStruct q p cs => by
    simp only [PNode.visit, unplaceNode, Node.visit, expr_unplace hq hp ht, qs_unplace q, path_unplace p, nodes_unplace cs]
  | .patStruct q p cs => by
    simp only [PNode.visit, unplaceNode, Node.visit, expr_unplace hq hp ht, qs_unplace q, path_unplace p, nodes_unplace cs]
  | .patTupleStruct q p cs => by
    simp only [PNode.visit, unplaceNode, Node.visit, expr_unplace hq hp ht, qs_unplace q, path_unplace p, nodes_unplace cs]
  | .path p => by
    simp only [PNode.visit, unplaceNode, Node.visit, unplacePath, unplace_rename, unplace_leading, path_unplace p]
  | .mac p toks => by simp only [PNode.visit, unplaceNode, Node.visit, unplace_mac, ht]
  | .itemMac p toks => by
    simp only [PNode.visit, unplaceNode, Node.visit, unplace_isIdent]
    split <;> simp only [unplaceNode, unplace_mac, ht]
  | .item l cs => by simp only [PNode.visit, unplaceNode, Node.visit]
  | .binder lts => by simp only [PNode.visit, unplaceNode, Node.visit]
  | .lifetime n => by simp only [PNode.visit, unplaceNode, Node.visit]
  | .other l cs => by simp only [PNode.visit, unplaceNode, Node.visit, nodes_unplace cs]

theorem qs_unplace : ∀ q : PQS S, unplaceQ (q.visit s) = (unplaceQ q).visit t
  | .none => by simp only [PQS.visit, unplaceQ, QS.visit]
  | .some n pos => by simp only [PQS.visit, unplaceQ, QS.visit, node_unplace n]

theorem path_unplace : ∀ p : PPath S, unplaceSegs (p.visitSegs s) = (unplacePath p).visitSegs t
  | .mk l segs => by simp only [PPath.visitSegs, unplacePath, Path.visitSegs, segs_unplace segs]

theorem segs_unplace : ∀ xs : List (PSeg S), unplaceSegs (visitPSegs s xs) = visitSegList t (unplaceSegs xs)
  | [] => by simp only [visitPSegs, unplaceSegs, visitSegList]
  | x :: xs => by simp only [visitPSegs, unplaceSegs, visitSegList, seg_unplace x, segs_unplace xs]

theorem seg_unplace : ∀ x : PSeg S, unplaceSeg (x.visit s) = (unplaceSeg x).visit t
  | .mk i sp a => by simp only [PSeg.visit, unplaceSeg, Seg.visit, args_unplace a]

theorem args_unplace : ∀ a : PPArgs S, unplaceArgs (a.visit s) = (unplaceArgs a).visit t
  | .none => by simp only [PPArgs.visit, unplaceArgs, PArgs.visit]
  | .angle c args => by simp only [PPArgs.visit, unplaceArgs, PArgs.visit, nodes_unplace args]
  | .paren args => by simp only [PPArgs.visit, unplaceArgs, PArgs.visit, nodes_unplace args]

theorem nodes_unplace : ∀ ns : List (PNode S), unplaceNodes (visitPNodes s ns) = visitNodes t (unplaceNodes ns)
  | [] => by simp only [visitPNodes, unplaceNodes, visitNodes]
  | n :: ns => by simp only [visitPNodes, unplaceNodes, visitNodes, node_unplace n, nodes_unplace ns]

end
end

end TreeSpans

open TreeSpans
variable {S : Type}

/-- **C101** The variables of the user's code are used afterwards where they were used before; in addition, `__self` is used where
`self` was used, except in macro calls that have `fn` among their tokens. (The receiver type does not have variables.) -/
theorem C101_variables {s : PSelfTy S} {w : String} (hs : FreeOf w s) (h1 : w ≠ "self") (h2 : w ≠ "Self") (sp : S) (n : PNode S) :
    UsesVar false w sp (n.visit s) ↔ UsesVar false w sp n ∨ (w = "__self" ∧ UsesVar true "self" sp n) :=
  node_uses hs h1 h2 sp n

/-- **C101** Hygiene: if the user does not write `__self`, then a `self` refers to the parameter `self` of the user's `drop` exactly
if the `__self` in its place refers to the parameter `__self` that is bound instead, with the span of that parameter; and there
is no other `__self`. -/
theorem C101_self {s : PSelfTy S} (hs : FreeOf "__self" s) (n : PNode S) (hn : ∀ sp, ¬ UsesVar false "__self" sp n) {C : Type}
    (ctx : S → C) (param sp : S) :
    (UsesVar false "__self" sp (n.visit s) ∧ RefersTo ctx "__self" sp "__self" param) ↔
      (UsesVar true "self" sp n ∧ RefersTo ctx "self" sp "self" param) := by
  rw [C101_variables hs (by decide) (by decide)]
  simp [hn sp, RefersTo]

/-- **C101** Without the spans, this is the visitor of `Model/Receiver`, which is about C35. -/
theorem C101_trees {s : PSelfTy S} {t : SelfTy} (hq : ∀ sp, unplaceQ (s.ty sp).1 = t.q) (hp : ∀ sp, unplacePath (s.ty sp).2 = t.p)
    (ht : unplaceAll s.toks = t.toks) (n : PNode S) : unplaceNode (n.visit s) = (unplaceNode n).visit t :=
  node_unplace hq hp ht n

/-! ## The hypotheses are met -/

/-- The receiver type `S`. -/
def demoPlacedSelf : PSelfTy Nat where
  ty sp := (.none, .mk false [.mk "S" sp .none])
  toks := [.ident "S" 90]

theorem demoPlacedSelf_free : FreeOf "__self" demoPlacedSelf where
  segs sp := by simp [demoPlacedSelf, PPath.segs]
  path sp sp' := by simp [demoPlacedSelf, VarAt, UsesPath, UsesSegs, UsesSeg, UsesArgs]
  qself sp sp' := by simp [demoPlacedSelf, UsesQ]
  toks sp := by simp [demoPlacedSelf, ReceiverSpans.identAt_ident, ReceiverSpans.identAt_nil]

/-- `f(self, m!(self), Self::g, n!(fn self))`, with `self` from different places. -/
def demoPlacedBody : PNode Nat :=
  .other "call" [.exprPath .none (.mk false [.mk "f" 1 .none]), .exprPath .none (.mk false [.mk "self" 2 .none]),
    .mac (.mk false [.mk "m" 3 .none]) [.ident "self" 4],
    .exprPath .none (.mk false [.mk "Self" 5 .none, .mk "g" 6 .none]),
    .mac (.mk false [.mk "n" 7 .none]) [.ident "fn" 8, .ident "self" 9]]

example : demoPlacedBody.visit demoPlacedSelf =
    .other "call" [.exprPath .none (.mk false [.mk "f" 1 .none]), .exprPath .none (.mk false [.mk "__self" 2 .none]),
      .mac (.mk false [.mk "m" 3 .none]) [.ident "__self" 4],
      .exprPath (.some (.tyPath .none (.mk false [.mk "S" 5 .none])) 0) (.mk true [.mk "g" 6 .none]),
      .mac (.mk false [.mk "n" 7 .none]) [.ident "fn" 8, .ident "self" 9]] := by
  simp [demoPlacedBody, demoPlacedSelf, PNode.visit, visitPNodes, selfToQselfP, PQS.isNone, PPath.selfSpan?, PPath.visitSegs,
    visitPSegs, PSeg.visit, PPArgs.visit, renameSingleP, prependUnderscore, PPath.leading, visitMacPlaced, containsFnP, visitPlaced,
    PQS.visit, PPArgs.isEmpty, PPath.segs]

example : (∀ sp, ¬ UsesVar false "__self" sp demoPlacedBody) ∧ UsesVar true "self" 2 demoPlacedBody ∧ UsesVar true "self" 4 demoPlacedBody := by
  refine ⟨fun sp => ?_, ?_, ?_⟩ <;>
    simp [demoPlacedBody, UsesVar, UsesNodes, UsesQ, UsesPath, UsesSegs, UsesSeg, UsesArgs, VarAt, PQS.isNone,
      ReceiverSpans.identAt_ident, ReceiverSpans.identAt_nil, unplaceAll, unplace, tokOccurs_ident, tokOccurs_nil]

end PinProject
