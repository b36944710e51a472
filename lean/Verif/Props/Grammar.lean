import Verif.Spec.Grammar
import Verif.Props.Lints
import Verif.Props.Names
import Verif.Props.Unpin
import Verif.Props.Errors
/-!
# C76: the expansion follows the grammar of Rust
-/
namespace PinProject
open Spec Spec.Grammar

/-! ## Lists -/

theorem commaList_flatMap {P : List String → Prop} {α : Type} (xs : List α) (f : α → List String)
    (h : ∀ x ∈ xs, P (f x)) : CommaList P (xs.flatMap (fun x => f x ++ [","])) := by
  induction xs with
  | nil => exact .nil
  | cons x xs ih => exact .cons (h x (.head _)) (ih fun y hy => h y (.tail _ hy))

theorem many_flatMap {P : List String → Prop} {α : Type} (xs : List α) (f : α → List String)
    (h : ∀ x ∈ xs, P (f x)) : Many P (xs.flatMap f) := by
  induction xs with
  | nil => exact .nil
  | cons x xs ih => exact .cons (h x (.head _)) (ih fun y hy => h y (.tail _ hy))

theorem many_append {P : List String → Prop} {x y : List String} (hx : Many P x) (hy : Many P y) : Many P (x ++ y) := by
  induction hx with
  | nil => exact hy
  | cons h _ ih => rw [List.append_assoc]; exact .cons h ih

theorem many_single {P : List String → Prop} {x : List String} (h : P x) : Many P x := by
  have := Many.cons h (.nil (P := P))
  rwa [List.append_nil] at this

theorem plus_of {P : List String → Prop} (xs : List (List String)) (hne : xs ≠ []) (h : ∀ x ∈ xs, P x) :
    Plus P (Emit.plus xs) := by
  match xs with
  | [x] => exact .one (h x (.head _))
  | x :: y :: zs => exact .cons (h x (.head _)) (plus_of (y :: zs) (by simp) fun z hz => h z (.tail _ hz))

/-! ## Identifiers -/

theorem identifier_iff_mem (s : String) : Identifier s ↔ s ∉ strictKeywords ++ reservedKeywords ++ ["_"] := by
  simp [Identifier]

/-- No keyword begins with `pre`. -/
theorem identifier_prefix (pre x : String)
    (h : (strictKeywords ++ reservedKeywords ++ ["_"]).all (fun k => !pre.toList.isPrefixOf k.toList) = true) :
    Identifier (pre ++ x) := by
  rw [identifier_iff_mem]
  intro hm
  have h1 := List.all_eq_true.1 h _ hm
  have h2 : pre.toList.isPrefixOf (pre.toList ++ x.toList) = true := List.isPrefixOf_iff_prefix.2 (List.prefix_append _ _)
  simp only [String.toList_append, h2] at h1
  cases h1

/-- No keyword ends with `suf`. -/
theorem identifier_suffix (x suf : String)
    (h : (strictKeywords ++ reservedKeywords ++ ["_"]).all (fun k => !suf.toList.isSuffixOf k.toList) = true) :
    Identifier (x ++ suf) := by
  rw [identifier_iff_mem]
  intro hm
  have h1 := List.all_eq_true.1 h _ hm
  have h2 : suf.toList.isSuffixOf (x.toList ++ suf.toList) = true := List.isSuffixOf_iff_suffix.2 (List.suffix_append _ _)
  simp only [String.toList_append, h2] at h1
  cases h1

theorem identifier_index (n : Nat) : Identifier ("_" ++ toString n) := by
  rw [identifier_iff_mem]
  intro hm
  have h1 := List.all_eq_true.1 (show (strictKeywords ++ reservedKeywords ++ ["_"]).all
    (fun k => k == "_" || !['_'].isPrefixOf k.toList) = true by decide) _ hm
  have h2 : ("_" ++ toString n).toList = '_' :: (toString n).toList := by simp
  rw [h2] at h1
  have h4 : (toString n).toList = [] := by
    simp at h1
  rw [show (toString n).toList = Nat.toDigits 10 n from Nat.toList_repr] at h4
  exact Nat.toDigits_ne_nil h4

theorem rawOrWord_of_isWord {cs : List Char} (h : isWord cs = true) : rawOrWord cs = true := by
  unfold rawOrWord
  split
  · simp [isWord, wordChar] at h
  · exact h

theorem isWord_append {cs ds : List Char} (h : isWord cs = true) (hd : ds.all wordChar = true) : isWord (cs ++ ds) = true := by
  cases cs with
  | nil => cases h
  | cons c cs =>
    simp only [isWord, Bool.and_eq_true] at h
    simp [isWord, h.1.1, h.1.2, List.all_append, h.2, hd]

theorem word_of_isWord {cs : List Char} (h : isWord cs = true) : cs.all wordChar = true := by
  cases cs with
  | nil => rfl
  | cons c cs =>
    simp only [isWord, Bool.and_eq_true] at h
    simp [h.1.1, h.2]

theorem isWord_unraw {s : String} (h : rawOrWord s.toList = true) : isWord (unraw s).toList = true := by
  unfold rawOrWord at h
  unfold unraw
  split at h
  · rename_i cs h1
    rw [h1]
    simpa using h
  · split
    · rename_i h1 _ _ h2
      exact absurd h2 (h1 _)
    · exact h

theorem word_digits (n : Nat) : (toString n).toList.all wordChar = true := by
  rw [show (toString n).toList = Nat.toDigits 10 n from Nat.toList_repr, List.all_eq_true]
  intro c hc
  have := Nat.isDigit_of_mem_toDigits (by decide) (by decide) hc
  simp [wordChar, Char.isAlphanum, this]

/-- No keyword begins with `pre`, a word. -/
theorem ident_prefix (pre x : String)
    (h : (strictKeywords ++ reservedKeywords ++ ["_"]).all (fun k => !pre.toList.isPrefixOf k.toList) = true)
    (hp : isWord pre.toList = true) (hx : x.toList.all wordChar = true) : Ident (pre ++ x) :=
  ⟨identifier_prefix _ _ h, rawOrWord_of_isWord (by rw [String.toList_append]; exact isWord_append hp hx)⟩

/-- No keyword ends with `suf`. -/
theorem ident_suffix (x suf : String)
    (h : (strictKeywords ++ reservedKeywords ++ ["_"]).all (fun k => !suf.toList.isSuffixOf k.toList) = true)
    (hx : isWord x.toList = true) (hs : suf.toList.all wordChar = true) : Ident (x ++ suf) :=
  ⟨identifier_suffix _ _ h, rawOrWord_of_isWord (by rw [String.toList_append]; exact isWord_append hx hs)⟩

theorem ident_index (n : Nat) : Ident ("_" ++ toString n) :=
  ⟨identifier_index n, rawOrWord_of_isWord (by
    rw [String.toList_append]; exact isWord_append (by decide) (word_digits n))⟩

/-! ## Templates -/

namespace Emit

variable {L : User}

theorem texts_append (x y : Toks) : texts (x ++ y) = texts x ++ texts y := List.flatMap_append
theorem texts_nil : texts [] = [] := rfl
theorem texts_user (xs : List String) : texts (xs.map .user) = xs := by
  induction xs with
  | nil => rfl
  | cons x xs ih => exact congrArg (x :: ·) ih
theorem texts_flatMap {α : Type} (xs : List α) (f : α → Toks) : texts (xs.flatMap f) = xs.flatMap (fun x => texts (f x)) := by
  simp [texts, List.flatMap_assoc]

section
variable (q : Quote)

theorem texts_W (w : String) : texts (W q w) = [w] := rfl
theorem texts_P (w : String) : texts (P q w) = [w] := rfl
theorem texts_U (w : String) : texts (U w) = [w] := rfl
theorem texts_life (lt l : String) : texts [life lt l] = [l] := by unfold life; split <;> rfl
theorem texts_binder (d : Option Delim) (x : String) : texts (binder q d x) = [x] := by unfold binder; split <;> rfl
theorem texts_unsafety : texts unsafety = ["unsafe"] := rfl

theorem g_sep {Q : List String → Prop} (ts : List Toks) (h : ∀ t ∈ ts, Q (texts t)) : CommaList Q (texts (sep q ts)) := by
  simp only [sep, texts_flatMap, texts_append, texts_P]
  exact commaList_flatMap ts texts h

theorem g_sep_map {Q : List String → Prop} {α : Type} (xs : List α) (f : α → Toks) (h : ∀ x ∈ xs, Q (texts (f x))) :
    CommaList Q (texts (sep q (xs.map f))) := by
  refine g_sep q _ fun t ht => ?_
  obtain ⟨x, hx, rfl⟩ := List.mem_map.1 ht
  exact h x hx

theorem g_many {Q : List String → Prop} {α : Type} (xs : List α) (f : α → Toks) (h : ∀ x ∈ xs, Q (texts (f x))) :
    Many Q (texts (xs.flatMap f)) := by
  rw [texts_flatMap]
  exact many_flatMap xs _ h

/-! ### Paths and types -/

theorem g_segments {p : List String} (hp : Grammar.Path p) (ns : List String) (h : ∀ n ∈ ns, Ident n) :
    Grammar.Path (p ++ texts (segments q ns)) := by
  induction ns generalizing p with
  | nil => simpa [segments, texts_nil] using hp
  | cons n ns ih =>
    have := ih (.snoc hp (h n (.head _))) fun m hm => h m (.tail _ hm)
    simpa only [segments, texts_append, texts_P, texts_W, List.append_assoc, List.cons_append, List.nil_append] using this

theorem g_root (r : Root) : Grammar.Path (texts (root q r)) := by
  cases r
  · exact .root (by decide)
  · exact .one (by decide)

theorem g_priv (r : Root) (ns : List String) (h : ns.all (fun n => decide (Ident n)) = true) :
    Grammar.Path (texts (priv q r ns)) := by
  rw [priv, texts_append]
  refine g_segments q (g_root q r) _ fun n hn => ?_
  rcases List.mem_cons.1 hn with rfl | hn
  · decide
  · exact of_decide_eq_true (List.all_eq_true.1 h n hn)

def ArgG : GArg → Prop
  | .lifetime s => Lifetime s
  | .ident s => Ident s

theorem g_arg {a : GArg} (h : ArgG a) : Grammar.Ty L .arg (texts (garg q a)) := by
  cases a with
  | lifetime s => rw [garg, texts_life]; exact .lifetime h
  | ident s => exact .type (.noBounds (.path (.one h)))

theorem g_adt {n : String} {as : List GArg} (hn : Ident n) (ha : ∀ a ∈ as, ArgG a) :
    Grammar.Ty L .noBounds (texts (adt q n as)) := by
  unfold adt angles
  split
  · exact .path (.one hn)
  · simp only [texts_append, texts_U, texts_P]
    have := Grammar.Ty.generic (.one hn) (g_sep_map (Q := Grammar.Ty L .arg) q as (garg q) fun a h => g_arg q (ha a h))
    simpa only [List.append_assoc, List.cons_append, List.nil_append] using this

/-- A type that follows the grammar. -/
def TyG (L : User) : GTy → Prop
  | .user n => L.type (node n)
  | .phantomPinned | .selfTy | .unit => True
  | .paren t | .pin _ t | .phantomData _ t | .pinnedFieldsOf t => TyG L t
  | .ref lt _ t => (∀ l, lt = some l → Lifetime l) ∧ (∀ n, t ≠ .user n) ∧ TyG L t
  | .ptrMut t => (∀ n, t ≠ .user n) ∧ TyG L t
  | .adt n as => Ident n ∧ ∀ a ∈ as, ArgG a
  | .param n => Ident n
  | .wrapper lt t => Lifetime lt ∧ TyG L t
  | .alwaysUnpin lt ps => Lifetime lt ∧ ∀ p ∈ ps, Ident p

theorem g_generic1 {p : List String} {t : List String} (hp : Grammar.Path p) (ht : Grammar.Ty L .type t) :
    Grammar.Ty L .noBounds (p ++ ["<"] ++ t ++ [">"]) := .generic hp (.one (.type ht))

theorem g_generic2 {p : List String} {l : String} {t : List String} (hp : Grammar.Path p) (hl : Lifetime l)
    (ht : Grammar.Ty L .type t) : Grammar.Ty L .noBounds (p ++ ["<"] ++ [l] ++ [","] ++ t ++ [">"]) := by
  have := Grammar.Ty.generic hp (.cons (.lifetime hl) (.one (.type ht)))
  simpa only [List.append_assoc, List.cons_append, List.nil_append] using this

theorem g_ty {t : GTy} (h : TyG L t) :
    Grammar.Ty L .type (texts (ty q t)) ∧ ((∀ n, t ≠ .user n) → Grammar.Ty L .noBounds (texts (ty q t))) := by
  have key : Grammar.Ty L .noBounds (texts (ty q t)) →
      Grammar.Ty L .type (texts (ty q t)) ∧ ((∀ n, t ≠ .user n) → Grammar.Ty L .noBounds (texts (ty q t))) := fun h => ⟨.noBounds h, fun _ => h⟩
  induction t with
  | user n =>
    rw [ty, texts_user]
    exact ⟨.user h, fun h => absurd rfl (h n)⟩
  | paren t ih =>
    refine key ?_
    simp only [ty, texts_append, texts_P]
    exact .paren (ih h fun h => ⟨.noBounds h, fun _ => h⟩).1
  | ref lt m t ih =>
    refine key ?_
    have ht := (ih h.2.2 fun h => ⟨.noBounds h, fun _ => h⟩).2 h.2.1
    have hl : Opt (fun a => ∃ l, Lifetime l ∧ a = [l]) (texts (lt.toList.map (life q.lt))) := by
      cases lt with
      | none => exact .none
      | some l => exact .some ⟨l, h.1 l rfl, texts_life _ _⟩
    simp only [ty, texts_append, texts_P]
    cases m with
    | true => exact .refMut hl ht
    | false =>
      have := Grammar.Ty.ref hl ht
      simpa only [Bool.false_eq_true, if_false, texts_nil, List.append_nil] using this
  | pin r t ih =>
    refine key ?_
    simp only [ty, texts_append, texts_P]
    exact g_generic1 (g_priv q r _ (by decide)) (ih h fun h => ⟨.noBounds h, fun _ => h⟩).1
  | phantomData r t ih =>
    refine key ?_
    simp only [ty, texts_append, texts_P]
    exact g_generic1 (g_priv q r _ (by decide)) (ih h fun h => ⟨.noBounds h, fun _ => h⟩).1
  | phantomPinned => exact key (.path (g_priv q _ _ (by decide)))
  | adt n as => exact key (g_adt q h.1 h.2)
  | param n => exact key (.path (.one h))
  | selfTy => exact key (.path (.self_ (by simp)))
  | ptrMut t ih =>
    refine key ?_
    simp only [ty, texts_append, texts_P, texts_W]
    exact .ptr ((ih h.2 fun h => ⟨.noBounds h, fun _ => h⟩).2 h.1)
  | pinnedFieldsOf t ih =>
    refine key ?_
    simp only [ty, texts_append, texts_P]
    exact g_generic1 (g_priv q _ _ (by decide)) (ih h fun h => ⟨.noBounds h, fun _ => h⟩).1
  | wrapper lt t ih =>
    refine key ?_
    simp only [ty, texts_append, texts_P, texts_life]
    exact g_generic2 (g_priv q _ _ (by decide)) h.1 (ih h.2 fun h => ⟨.noBounds h, fun _ => h⟩).1
  | alwaysUnpin lt ps =>
    refine key ?_
    simp only [ty, parens, texts_append, texts_P, texts_life]
    refine g_generic2 (g_priv q _ _ (by decide)) h.1 (.noBounds (.tuple (g_sep_map q ps _ fun p hp => ?_)))
    simp only [texts_append, texts_P, texts_U]
    exact .noBounds (g_generic1 (g_priv q _ _ (by decide)) (.noBounds (.path (.one (h.2 p hp)))))
  | unit => exact key (.tuple .nil)

/-! ### Generics -/

def ParamG (L : User) (dflt : Bool) (p : GParam) : Prop :=
  ParamWritten p ∧ paramPieces L p ∧ (dflt = false → p.noDefault = p)

def default_ (d : Option Node) : List String := match d with | some d => "=" :: node d | none => []

theorem g_default {dflt : Bool} {d : Option Node} (h : dflt = false → d = none)
    (hd : ∀ x, d = some x → L.dflt (node x)) : Default L dflt (default_ d) := by
  cases d with
  | none => exact .none
  | some d =>
    cases dflt with
    | false => cases h rfl
    | true => exact .some ⟨rfl, _, hd d rfl, rfl⟩

theorem g_param {dflt : Bool} {p : GParam} (h : ParamG L dflt p) : Param L dflt (texts (gparam q p)) := by
  obtain ⟨h1, h0, h2⟩ := h
  cases p with
  | lifetime n bs =>
    rw [gparam, ← List.singleton_append, texts_append, texts_life, texts_user]
    split
    · exact .lifetime h1.1
    · rename_i hne
      refine .lifetimeBounds h1.1 (plus_of _ (by simpa using hne) ?_)
      intro x hx
      obtain ⟨b, hb, rfl⟩ := List.mem_map.1 hx
      exact ⟨b, h1.2 b hb, rfl⟩
  | type n bs d =>
    unfold gparam
    rw [texts_user]
    have hd : Default L dflt (default_ d) := g_default (fun h => ((GParam.type.inj (h2 h)).2.2).symm) h0.2
    have hb : Bounds L (if bs.isEmpty then [] else ":" :: plus (bs.map node)) := by
      split
      · exact .none
      · rename_i hne
        refine .some ⟨_, plus_of _ (by simpa using hne) ?_, rfl⟩
        intro x hx
        obtain ⟨b, hb, rfl⟩ := List.mem_map.1 hx
        exact .user (h0.1 b hb)
    exact .type h1 hb hd
  | const n t d =>
    unfold gparam
    rw [texts_user]
    exact .const h1 h0.1 (g_default (fun h => ((GParam.const.inj (h2 h)).2.2).symm) h0.2)

theorem g_generics {dflt : Bool} {ps : List GParam} (h : ∀ p ∈ ps, ParamG L dflt p) :
    Grammar.Generics L dflt (texts (generics q ps)) := by
  unfold generics angles
  split
  · exact .none
  · refine .some ⟨_, g_sep_map q ps _ fun p hp => g_param q (h p hp), ?_⟩
    simp only [texts_append, texts_P]

def TraitG : GTrait → Prop
  | .mustNotImplDrop n => Ident n
  | _ => True

theorem g_trait {t : GTrait} (h : TraitG t) : Grammar.Path (texts (trait_ q t)) := by
  cases t with
  | unpin => exact g_priv q _ _ (by decide)
  | unsafeUnpin =>
    rw [trait_, texts_append]
    exact g_segments q (g_root q _) _ (by decide)
  | drop => exact g_priv q _ _ (by decide)
  | pinnedDrop => exact g_priv q _ _ (by decide)
  | mustNotImplDrop n => exact .one h

def PredG (L : User) : WPred → Prop
  | .user n => L.pred (node n)
  | .outlives t lt => TyG L t ∧ Lifetime lt
  | .bound t tr => TyG L t ∧ TraitG tr

theorem g_pred (b : Span) {w : WPred} (h : PredG L w) : Pred L (texts (pred q b w)) := by
  cases w with
  | user n => rw [pred, texts_user]; exact .user h
  | outlives t lt =>
    simp only [pred, texts_append, texts_P, texts_life]
    rw [List.append_assoc]
    exact .outlives (g_ty _ h.1).1 h.2
  | bound t tr =>
    simp only [pred, texts_append, texts_P]
    exact .bound (g_ty _ h.1).1 (g_trait _ h.2)

theorem g_wheres (b : Span) {ws : List WPred} (h : ∀ w ∈ ws, PredG L w) : Where L (texts (wheres q b ws)) := by
  unfold wheres
  split
  · exact .none
  · rw [texts_append]
    exact .some ⟨_, g_sep_map _ ws _ fun w hw => g_pred q b (h w hw), rfl⟩

/-! ### Fields -/

theorem colons_eq (p : List String) : colons p = modPath p := by
  match p with
  | [] => rfl
  | [x] => rfl
  | x :: y :: zs => rw [colons, modPath, colons_eq (y :: zs)] <;> simp

theorem g_vis {v : Vis} (h : VisWritten v) : Visibility (texts (vis v)) := by
  cases v with
  | inherited => exact .inherited
  | pub => exact .pub
  | restricted i p =>
    rw [vis, texts_user]
    cases i with
    | false =>
      obtain ⟨h1, h2⟩ := h
      simp only [List.mem_cons, List.not_mem_nil, or_false] at h2
      rw [h1]
      rcases h2 with h2 | h2 | h2 <;> rw [h2] <;> exact .restricted (by simp)
    | true =>
      obtain ⟨h', h3⟩ : p.segs ≠ [] ∧ ∀ w ∈ p.segs, Ident w ∨ w ∈ ["crate", "self", "super"] := h
      rw [colons_eq]
      cases p.leading with
      | false => exact .in_ (l := []) (by simp) h' h3
      | true => exact .in_ (l := ["::"]) (by simp) h' h3

theorem g_attr (name : String) (as : List String) : Attr (texts (attr q name as)) := by
  cases as with
  | nil => exact .word
  | cons a as =>
    have := Attr.list (n := name) (commaList_flatMap (P := fun a => ∃ w, a = [w]) (a :: as) (fun a => [a])
      fun x _ => ⟨x, rfl⟩) (by simp)
    simpa [attr, texts, text] using this

def FieldG (L : User) (named : Bool) (f : GField) : Prop :=
  VisWritten f.vis ∧ TyG L f.ty ∧ (∀ t, f.ty ≠ .paren t) ∧ match f.ident with
    | some i => named = true ∧ Ident i
    | none => named = false

theorem g_namedField (own : Bool) {f : GField} (h : FieldG L true f) : NamedField L (texts (field q own f)) := by
  obtain ⟨h1, h2, -, h3⟩ := h
  cases hi : f.ident with
  | none => rw [hi] at h3; cases h3
  | some i =>
    rw [hi] at h3
    have := NamedField.mk (g_vis h1) h3.2 (g_ty q h2).1
    have e : texts (if own then W q i else U i) = [i] := by split <;> rfl
    simpa only [field, hi, texts_append, e, texts_P, List.append_assoc, List.cons_append, List.nil_append] using this

theorem g_tupleField (own : Bool) {f : GField} (h : FieldG L false f) : TupleField L (texts (field q own f)) := by
  obtain ⟨h1, h2, -, h3⟩ := h
  cases hi : f.ident with
  | some i => rw [hi] at h3; cases h3.1
  | none =>
    have := TupleField.mk (g_vis h1) (g_ty q h2).1
    simpa only [field, hi, texts_append, texts_nil, List.append_nil] using this

def FieldsG (L : User) (f : GFields) : Prop :=
  f.delim ≠ some .bracket ∧ (∀ x ∈ f.fields, FieldG L (f.delim == some .brace) x) ∧ (f.delim = none → f.fields = [])

theorem g_variant (own : Bool) {n : String} {f : GFields} (hn : Ident n) (h : FieldsG L f) :
    Grammar.Variant L (texts (U n ++ fields q own f)) := by
  obtain ⟨d, fs⟩ := f
  obtain ⟨h1, h2, -⟩ := h
  simp only [fields, texts_append, texts_U]
  match d with
  | none => exact .unit hn
  | some .bracket => exact absurd rfl h1
  | some .paren =>
    simp only [delimited, texts_append, texts_P]
    exact .tuple hn (g_sep_map q fs _ fun f hf => g_tupleField q own (h2 f hf))
  | some .brace =>
    simp only [delimited, texts_append, texts_P]
    exact .struct_ hn (g_sep_map q fs _ fun f hf => g_namedField q own (h2 f hf))

/-! ### Bodies -/

def VariantG (v : Option String) : Prop := ∀ w, v = some w → Ident w

def variantToks (v : Option String) : Toks := match v with | some v => P q "::" ++ U v | none => []

theorem pat_eq (p : GPat) :
    pat q p = W q "Self" ++ variantToks q p.variant ++ delimited q p.delim (p.binders.map (binder q p.delim)) := rfl
theorem ctor_eq (c : GCtor) :
    ctor q c = U c.ty ++ variantToks q c.variant ++ delimited q c.delim (c.inits.map (init q c.delim)) := rfl

theorem g_head {p : List String} (hp : Grammar.Path p) {v : Option String} (h : VariantG v) :
    Grammar.Path (p ++ texts (variantToks q v)) := by
  cases v with
  | none => simpa only [variantToks, texts_nil, List.append_nil] using hp
  | some v => exact .snoc hp (h v rfl)

def PatG (p : GPat) : Prop :=
  VariantG p.variant ∧ p.delim ≠ some .bracket ∧ (∀ b ∈ p.binders, Ident b) ∧
    (p.delim = none → p.variant ≠ none ∧ p.binders = [])

theorem g_pat {p : GPat} (h : PatG p) : Pat (texts (pat q p)) := by
  obtain ⟨h1, h2, h3, -⟩ := h
  have hs : Grammar.Path (texts (W q "Self")) := .self_ (by simp)
  have hb : CommaList (fun a => ∃ w, Ident w ∧ a = [w]) (texts (sep q (p.binders.map (binder q p.delim)))) :=
    g_sep_map q _ _ fun b hb => ⟨b, h3 b hb, texts_binder q _ b⟩
  have hp := g_head q hs h1
  rw [pat_eq, texts_append, texts_append]
  revert hb
  generalize p.binders.map (binder q p.delim) = bs
  intro hb
  match hd : p.delim with
  | none => simpa only [delimited, texts_nil, List.append_nil] using Pat.path hp
  | some .bracket => exact absurd hd h2
  | some .paren =>
    simp only [delimited, texts_append, texts_P]
    simpa only [List.append_assoc] using Pat.tuple hp hb
  | some .brace =>
    simp only [delimited, texts_append, texts_P]
    simpa only [List.append_assoc] using Pat.struct_ hp hb

/-- A local variable, or `self`. -/
def VarG (x : String) : Prop := Ident x ∨ x = "self"

theorem g_var {x : String} (h : VarG x) : Code L .postfix [x] := by
  rcases h with h | rfl
  · exact .path (.one h)
  · exact .path (.self_ (by simp))

theorem code_of {e : List String} (h : Code L .postfix e) : Code L .expr e := .expr (.noStruct h)

theorem g_call1 {f e : List String} (hf : Code L .postfix f) (he : Code L .expr e) :
    Code L .postfix (f ++ ["("] ++ e ++ [")"]) := .call hf (.one he)

theorem g_privCall (ns : List String) (h : ns.all (fun n => decide (Ident n)) = true) :
    Code L .postfix (texts (priv q .local_ ns)) := .path (g_priv q _ _ h)

def FExprG : FExpr → Prop
  | .bind _ => False
  | .pinNew x | .read x => Ident x
  | .phantom => True

theorem g_fexpr (d : Option Delim) {e : FExpr} (h : FExprG e) : Code L .expr (texts (fexpr q d e)) := by
  cases e with
  | bind x => cases h
  | pinNew x =>
    simp only [fexpr, texts_append, texts_P, texts_binder]
    exact code_of (g_call1 (g_privCall q _ (by decide)) (code_of (g_var (.inl h))))
  | read x =>
    simp only [fexpr, texts_append, texts_P, texts_binder]
    exact code_of (g_call1 (g_privCall q _ (by decide)) (code_of (g_var (.inl h))))
  | phantom => exact code_of (g_privCall q _ (by decide))

def InitG (d : Option Delim) : GInit → Prop
  | .labelled (some i) e => d = some .brace ∧ Ident i ∧ FExprG e
  | .labelled none e => d = some .paren ∧ FExprG e
  | .bare x => Ident x

theorem g_entry {i : GInit} (h : InitG (some .brace) i) : Code L .entry (texts (init q (some .brace) i)) := by
  match i with
  | .labelled (some i) e =>
    simp only [init, texts_append, texts_U, texts_P]
    exact .long h.2.1 (g_fexpr q _ h.2.2)
  | .labelled none e => cases h.1
  | .bare x => rw [init, texts_binder]; exact .short h

theorem g_element {i : GInit} (h : InitG (some .paren) i) : Code L .expr (texts (init q (some .paren) i)) := by
  match i with
  | .labelled (some i) e => cases h.1
  | .labelled none e => exact g_fexpr q _ h.2
  | .bare x => rw [init, texts_binder]; exact code_of (g_var (.inl h))

def CtorG (c : GCtor) : Prop :=
  Ident c.ty ∧ VariantG c.variant ∧ c.delim ≠ some .bracket ∧ (∀ i ∈ c.inits, InitG c.delim i) ∧
    (c.delim = none → c.variant ≠ none ∧ c.inits = [])

theorem g_ctor {c : GCtor} (h : CtorG c) : Code L .expr (texts (ctor q c)) := by
  obtain ⟨n, v, d, is⟩ := c
  obtain ⟨h1, h2, h3, h4, -⟩ := h
  have hp := g_head q (.one h1) h2
  simp only [ctor_eq, texts_append, texts_U]
  match d with
  | none => simpa only [delimited, texts_nil, List.append_nil] using code_of (.path hp)
  | some .bracket => exact absurd rfl h3
  | some .paren =>
    simp only [delimited, texts_append, texts_P]
    have := code_of (L := L) (.call (.path hp) (g_sep_map q is _ fun i hi => g_element q (h4 i hi)))
    simpa only [texts_U, List.append_assoc] using this
  | some .brace =>
    simp only [delimited, texts_append, texts_P]
    have := Code.struct_ (u := L) hp (g_sep_map q is _ fun i hi => g_entry q (h4 i hi))
    simpa only [texts_U, List.append_assoc] using this

def RhsG : RHS → Prop
  | .var x | .getUncheckedMut x | .getRef x | .reborrow x | .pinNew x | .dropGuard x | .pinnedDropCall x => VarG x
  | .ctor c => CtorG c
  | .overwriteGuard p v => VarG p ∧ VarG v
  | .unit => False

theorem g_method {x : List String} (hx : Code L .postfix x) (m : String) (hm : Ident m) :
    Code L .postfix (x ++ ["."] ++ [m] ++ ["("] ++ [")"]) := by
  have := Code.method hx hm .nil
  simpa only [List.append_nil, List.append_assoc, List.cons_append, List.nil_append] using this

/-- All but a constructor may follow `match`. -/
theorem g_scrutinee (d : Option Delim) {e : RHS} (h : RhsG e) (hc : ∀ c, e ≠ .ctor c) :
    Code L .noStruct (texts (rhs q d e)) := by
  cases e with
  | var x => exact .noStruct (g_var h)
  | getUncheckedMut x => exact .noStruct (g_method (g_var h) _ (by decide))
  | getRef x => exact .noStruct (g_method (g_var h) _ (by decide))
  | reborrow x => exact .refMut (.deref (.noStruct (g_var h)))
  | pinNew x =>
    simp only [rhs, texts_append, texts_P, texts_W]
    exact .noStruct (g_call1 (g_privCall q _ (by decide)) (code_of (g_var h)))
  | ctor c => exact absurd rfl (hc c)
  | overwriteGuard p v =>
    simp only [rhs, texts_append, texts_P, texts_W]
    have := Code.call (u := L) (g_privCall q ["UnsafeOverwriteGuard", "new"] (by decide))
      (.cons (code_of (g_var h.1)) (.one (code_of (g_var h.2))))
    refine .noStruct ?_
    simpa only [List.append_assoc, List.cons_append, List.nil_append] using this
  | dropGuard x =>
    simp only [rhs, texts_append, texts_P, texts_binder]
    exact .noStruct (g_call1 (g_privCall q _ (by decide)) (code_of (g_var h)))
  | pinnedDropCall x =>
    simp only [rhs, texts_append, texts_P, texts_W]
    exact .noStruct (g_call1 (g_privCall q _ (by decide)) (code_of (g_var h)))
  | unit => cases h

theorem g_rhs (d : Option Delim) {e : RHS} (h : RhsG e) : Code L .expr (texts (rhs q d e)) := by
  by_cases hc : ∃ c, e = .ctor c
  · obtain ⟨c, rfl⟩ := hc
    exact g_ctor q h
  · exact .expr (g_scrutinee q d h fun c hc' => hc ⟨c, hc'⟩)

def StmtG : GStmt → Prop
  | .letPat p e => PatG p ∧ RhsG e
  | .letVar x t e => Ident x ∧ (∀ s, t = some s → s = "*mut Self") ∧ RhsG e
  | .scope ss => ∀ s ∈ ss, Ident s.1 ∧ RhsG s.2
  | .expr e => RhsG e

theorem g_let {x : String} (hx : Ident x) (d : Option Delim) {e : RHS} (h : RhsG e) :
    Code L .stmt (texts (W q "let" ++ W q x ++ P q "=" ++ rhs q d e ++ P q ";")) := by
  simp only [texts_append, texts_P, texts_W]
  exact .let_ (.path (.one hx)) (g_rhs q d h)

theorem g_stmt (d : Option Delim) {s : GStmt} (h : StmtG s) : Code L .stmt (texts (stmt q d s)) := by
  cases s with
  | letPat p e =>
    simp only [stmt, texts_append, texts_P, texts_W]
    exact .let_ (g_pat q h.1) (g_rhs q d h.2)
  | letVar x t e =>
    cases t with
    | none =>
      have := g_let (L := L) q h.1 d h.2.2
      simpa only [stmt, ascription, List.append_nil] using this
    | some t =>
      obtain rfl := h.2.1 t rfl
      simp only [stmt, ascription, if_true, texts_append, texts_P, texts_W]
      have := Code.letTy (u := L) (.path (.one h.1)) (.noBounds (.ptr (.path (.self_ (w := "Self") (by simp))))) (g_rhs q d h.2.2)
      simpa only [List.append_assoc, List.cons_append, List.nil_append] using this
  | scope ss =>
    simp only [stmt]
    rw [texts_append, texts_append, texts_P, texts_P]
    exact .scope (.block (g_many ss _ fun s hs => g_let q (h s hs).1 d (h s hs).2))
  | expr e =>
    simp only [stmt, texts_append, texts_P]
    exact .semi (g_rhs q d h)

def ArmG (a : GArm) : Prop := PatG a.pat ∧ (∀ s ∈ a.stmts, StmtG s) ∧ RhsG a.tail

theorem g_arm {a : GArm} (h : ArmG a) : Code L .arm (texts (arm q (!a.stmts.isEmpty) a)) := by
  obtain ⟨h1, h2, h3⟩ := h
  cases hs : a.stmts with
  | nil =>
    simp only [arm, hs, List.isEmpty_nil, Bool.not_true, Bool.false_eq_true, if_false, List.flatMap_nil, List.append_nil,
      texts_append, texts_P]
    exact .armExpr (g_pat q h1) (g_rhs q _ h3)
  | cons s ss =>
    rw [← hs]
    have e : a.stmts.isEmpty = false := by rw [hs]; rfl
    simp only [arm, e, Bool.not_false, if_true]
    simp only [texts_append, texts_P]
    have := Code.armBlock (g_pat q h1) (.blockExpr (g_many (Q := Code L .stmt) a.stmts _ fun s hs => g_stmt q a.pat.delim (h2 s hs))
      (g_rhs q a.pat.delim h3))
    simpa only [List.append_assoc, List.cons_append, List.nil_append] using this

def TailG : GTail → Prop
  | .expr .unit => True
  | .expr e => RhsG e
  | .match_ s arms => RhsG s ∧ (∀ c, s ≠ .ctor c) ∧ ∀ a ∈ arms, ArmG a

def BodyG (b : GBody) : Prop := (∀ s ∈ b.stmts, StmtG s) ∧ TailG b.tail

theorem g_body {b : GBody} (h : BodyG b) : Code L .block (texts (body q b)) := by
  have hs : Many (Code L .stmt) (texts (b.stmts.flatMap (stmt q (structDelim b.stmts)))) :=
    g_many _ _ fun s hs => g_stmt q _ (h.1 s hs)
  have h2 := h.2
  unfold body
  rw [texts_append]
  match hb : b.tail with
  | .expr e =>
    rw [hb] at h2
    by_cases hu : e = .unit
    · subst hu
      simp only [rhs, texts_nil, List.append_nil]
      exact .block hs
    · refine .blockExpr hs (g_rhs q _ ?_)
      cases e <;> first | exact absurd rfl hu | exact h2
  | .match_ s arms =>
    rw [hb] at h2
    refine .blockExpr hs ?_
    simp only
    rw [texts_append, texts_append, texts_append, texts_append, texts_P, texts_P, texts_W]
    exact .match_ (g_scrutinee q none h2.1 h2.2.1) (g_many arms _ fun a ha => g_arm q (h2.2.2 a ha))

/-! ### Functions -/

structure FnG (L : User) (f : GFn) : Prop where
  vis : VisWritten f.vis
  name : Ident f.name
  lt : ∀ l, f.ltParam = some l → Lifetime l
  recv : TyG L f.recv
  params : ∀ p ∈ f.params, Ident p.1 ∧ TyG L p.2
  ret : TyG L f.ret
  body : BodyG f.body

theorem g_receiver {t : GTy} (h : TyG L t) : FnParam L (texts (receiver q t)) := by
  unfold receiver
  split
  · exact .refMutSelf
  · simp only [texts_append, texts_P, texts_W]
    exact .typed (.inr rfl) (g_ty q h).1

theorem g_fnAttr (a : String) : Attr (texts (fnAttr q a)) := by
  unfold fnAttr
  split
  · exact g_attr q _ _
  · split <;> exact g_attr q _ _

def retToks (t : GTy) : Toks := match t with | .unit => [] | t => P q "->" ++ ty q t

theorem sig_eq (f : GFn) : sig q f =
    vis f.vis ++ (if f.isUnsafe then unsafety else []) ++
    W q "fn" ++ W q f.name ++ angles q (f.ltParam.toList.map (fun l => [life q.lt l])) ++
    parens q (receiver q f.recv :: f.params.map (fun p => W q p.1 ++ P q ":" ++ ty q p.2)) ++ retToks q f.ret := rfl

theorem g_ret {t : GTy} (h : TyG L t) : Opt (fun x => ∃ t, Grammar.Ty L .type t ∧ x = ["->"] ++ t)
    (texts (retToks q t)) := by
  unfold retToks
  split
  · exact .none
  · exact .some ⟨_, (g_ty q h).1, rfl⟩

theorem g_unsafe (b : Bool) : Opt (fun x => x = ["unsafe"]) (texts (if b then unsafety else [])) := by
  cases b
  · exact .none
  · exact .some rfl

theorem g_fn (s : Span) {f : GFn} (h : FnG L f) : Fn L (texts (fn q s f)) := by
  have hg : Grammar.Generics L false
      (texts (angles ⟨q.lt, s⟩ (f.ltParam.toList.map (fun l => [life q.lt l])))) := by
    cases hl : f.ltParam with
    | none => exact .none
    | some l =>
      refine .some ⟨[l] ++ [","] ++ [], .cons (.lifetime (h.lt l hl)) .nil, ?_⟩
      simp only [angles, sep, Option.toList, List.map_cons, List.map_nil, List.isEmpty_cons, Bool.false_eq_true, if_false,
        List.flatMap_cons, List.flatMap_nil, texts_append, texts_life, texts_P, texts_nil]
  have hps : CommaList (FnParam L) (texts (sep ⟨q.lt, s⟩ (receiver ⟨q.lt, s⟩ f.recv ::
      f.params.map (fun p => W ⟨q.lt, s⟩ p.1 ++ P ⟨q.lt, s⟩ ":" ++ ty ⟨q.lt, s⟩ p.2)))) := by
    refine g_sep _ _ fun t ht => ?_
    rcases List.mem_cons.1 ht with rfl | ht
    · exact g_receiver _ h.recv
    · obtain ⟨p, hp, rfl⟩ := List.mem_map.1 ht
      simp only [texts_append, texts_P, texts_W]
      exact .typed (.inl (h.params p hp).1) (g_ty _ (h.params p hp).2).1
  have hb : Code L .block (texts (if f.unsafeBlock then unsafety ++ P q "{" ++ body q f.body ++ P q "}" else body q f.body)) := by
    split
    · simp only [texts_append, texts_P, texts_unsafety]
      exact .blockExpr (x := []) .nil (.unsafe_ (g_body q h.body))
    · exact g_body q h.body
  have := Fn.mk (wh := []) (g_many (Q := Attr) f.attrs (fnAttr q) fun a _ => g_fnAttr q a) (g_vis h.vis) (g_unsafe f.isUnsafe)
    h.name hg hps (g_ret ⟨q.lt, s⟩ h.ret) .none hb
  unfold fn
  rw [sig_eq, parens]
  simp only [texts_append, texts_P, texts_W]
  simpa only [List.append_assoc, List.cons_append, List.nil_append] using this

end

/-! ### Items -/

def ItemG (L : User) : GItem → Prop
  | .struct_ as v n ps ws fs => (∀ a ∈ as, a ≠ ")") ∧ VisWritten v ∧ Ident n ∧ (∀ p ∈ ps, ParamG L true p) ∧ (∀ w ∈ ws, PredG L w) ∧
      FieldsG L fs ∧ fs.delim ≠ none
  | .enum_ as v n ps ws vs => (∀ a ∈ as, a ≠ ")") ∧ VisWritten v ∧ Ident n ∧ (∀ p ∈ ps, ParamG L true p) ∧ (∀ w ∈ ws, PredG L w) ∧
      ∀ x ∈ vs, Ident x.1 ∧ FieldsG L x.2
  | .inherent ps n as ws fns => (∀ p ∈ ps, ParamG L false p) ∧ Ident n ∧ (∀ a ∈ as, ArgG a) ∧ (∀ w ∈ ws, PredG L w) ∧
      ∀ f ∈ fns, FnG L f
  | .traitImpl _ _ ps tr n as ws fns => (∀ p ∈ ps, ParamG L false p) ∧ TraitG tr ∧ Ident n ∧ (∀ a ∈ as, ArgG a) ∧
      (∀ w ∈ ws, PredG L w) ∧ ∀ f ∈ fns, FnG L f
  | .traitDef n | .blanketDrop n => Ident n
  | .assertNotPacked ps n as ws refs => (∀ p ∈ ps, ParamG L false p) ∧ Ident n ∧ (∀ a ∈ as, ArgG a) ∧
      (∀ w ∈ ws, PredG L w) ∧ ∀ r ∈ refs, Ident r ∨ ∃ i : Nat, r = toString i

theorem g_fieldRef {e : List String} (he : Code L .postfix e) {r : String} (h : Ident r ∨ ∃ i : Nat, r = toString i) :
    Code L .postfix (e ++ ["."] ++ texts (fieldRef r)) := by
  have hr : texts (fieldRef r) = [r] := by unfold fieldRef; split <;> rfl
  rw [hr, List.append_assoc]
  rcases h with h | ⟨i, rfl⟩
  · exact .field he h
  · exact .index he

theorem g_assertFn (lt : String) {ps : List GParam} {n : String} {as : List GArg} {ws : List WPred} {refs : List String}
    (h : ItemG L (.assertNotPacked ps n as ws refs)) : Fn L (texts (assertFn lt ps n as ws refs)) := by
  obtain ⟨h1, h2, h3, h4, h5⟩ := h
  have q : Quote := ⟨lt, .site⟩
  have hps : CommaList (FnParam L) (["this", ":"] ++ (["&"] ++ [] ++ texts (adt ⟨lt, .site⟩ n as))) :=
    .one (.typed (.inl (by decide)) (.noBounds (.ref .none (g_adt _ h2 h3))))
  have hb : Many (Code L .stmt) (texts (refs.flatMap (fun r => W ⟨lt, .site⟩ "let" ++ W ⟨lt, .site⟩ "_" ++ P ⟨lt, .site⟩ "=" ++
      P ⟨lt, .site⟩ "&" ++ W ⟨lt, .site⟩ "this" ++ P ⟨lt, .site⟩ "." ++ fieldRef r ++ P ⟨lt, .site⟩ ";"))) := by
    refine g_many _ _ fun r hr => ?_
    simp only [texts_append, texts_P, texts_W]
    have := Code.let_ (u := L) .wild (.expr (.ref (.noStruct (g_fieldRef (g_var (x := "this") (.inl (by decide))) (h5 r hr)))))
    simpa only [List.append_assoc, List.cons_append, List.nil_append] using this
  have := Fn.mk (many_single (g_attr ⟨lt, .site⟩ "forbid" ["unaligned_references", "safe_packed_borrows"])) .inherited .none
    (w := "__assert_not_repr_packed") (by decide) (g_generics ⟨lt, .site⟩ h1) hps .none (g_wheres ⟨lt, .site⟩ .site h4)
    (.block hb)
  unfold assertFn
  simp only []
  generalize hB : refs.flatMap _ = B at this ⊢
  simp only [texts_append, texts_P, texts_W]
  simpa only [List.append_assoc, List.cons_append, List.nil_append] using this

theorem g_item (lt : String) (u : UnpinImpl) (own : Bool) {i : GItem} (h : ItemG L i) : IsItem L (texts (item lt u own i)) := by
  cases i with
  | struct_ attrs v n ps ws fs =>
    obtain ⟨-, h1, h2, h3, h4, h5, h6⟩ := h
    obtain ⟨d, fs⟩ := fs
    have ha := many_single (g_attr ⟨lt, .site⟩ "allow" attrs)
    have hg := g_generics ⟨lt, .site⟩ h3
    have hw := g_wheres ⟨lt, .site⟩ .site h4
    unfold item
    simp only []
    match d with
    | none => exact absurd rfl h6
    | some .bracket => exact absurd rfl h5.1
    | some .paren =>
      have := IsItem.tuple ha (g_vis h1) h2 hg hw (g_sep_map ⟨lt, .site⟩ fs (field ⟨lt, .site⟩ own)
        fun f hf => g_tupleField _ own (h5.2.1 f hf))
      simp only [fields, delimited, if_true, texts_append, texts_P, texts_W, texts_U]
      simpa only [List.append_assoc, List.cons_append, List.nil_append] using this
    | some .brace =>
      have := IsItem.struct_ ha (g_vis h1) h2 hg hw (g_sep_map ⟨lt, .site⟩ fs (field ⟨lt, .site⟩ own)
        fun f hf => g_namedField _ own (h5.2.1 f hf))
      rw [if_neg (by simp)]
      simp only [fields, delimited, texts_append, texts_P, texts_W, texts_U]
      simpa only [List.append_assoc, List.cons_append, List.nil_append] using this
  | enum_ attrs v n ps ws vs =>
    obtain ⟨-, h1, h2, h3, h4, h5⟩ := h
    have := IsItem.enum_ (many_single (g_attr ⟨lt, .site⟩ "allow" attrs)) (g_vis h1) h2 (g_generics ⟨lt, .site⟩ h3)
      (g_wheres ⟨lt, .site⟩ .site h4) (g_sep_map ⟨lt, .site⟩ vs (fun x => U x.1 ++ fields ⟨lt, .site⟩ own x.2)
        fun x hx => g_variant _ own (h5 x hx).1 (h5 x hx).2)
    unfold item
    simp only []
    generalize vs.map _ = B at this ⊢
    simp only [texts_append, texts_P, texts_W, texts_U]
    simpa only [List.append_assoc, List.cons_append, List.nil_append] using this
  | inherent ps n as ws fns =>
    obtain ⟨h1, h2, h3, h4, h5⟩ := h
    have hf : Many (Fn L) (texts ((functions lt u (.inherent ps n as ws fns)).flatMap Prod.snd)) := by
      refine g_many _ _ fun f hf => ?_
      obtain ⟨f, hf', rfl⟩ := List.mem_map.1 hf
      exact g_fn _ _ (h5 f hf')
    have := IsItem.impl .nil (g_generics ⟨lt, .site⟩ h1) (.noBounds (g_adt ⟨lt, .site⟩ h2 h3))
      (g_wheres ⟨lt, .site⟩ .site h4) hf
    unfold item
    simp only [texts_append, texts_P, texts_W]
    simpa only [List.append_assoc, List.cons_append, List.nil_append] using this
  | traitImpl hidden isUnsafe ps tr n as ws fns =>
    obtain ⟨h1, h0, h2, h3, h4, h5⟩ := h
    generalize hq : (⟨lt, (implSpans u tr).1⟩ : Quote) = q
    have hf : Many (Fn L) (texts ((functions lt u (.traitImpl hidden isUnsafe ps tr n as ws fns)).flatMap Prod.snd)) := by
      refine g_many _ _ fun f hf => ?_
      obtain ⟨f, hf', rfl⟩ := List.mem_map.1 hf
      exact g_fn _ _ (h5 f hf')
    have ha : Many Attr (texts (if hidden then attr q "doc" ["hidden"] else [])) := by
      cases hidden
      · exact .nil
      · exact many_single (g_attr q _ _)
    have := IsItem.implTrait ha (g_unsafe isUnsafe) (g_generics q h1) (g_trait q h0) (.noBounds (g_adt q h2 h3))
      (g_wheres q (implSpans u tr).2 h4) hf
    unfold item
    simp only [hq]
    generalize (functions _ _ _).flatMap _ = B at this ⊢
    simp only [texts_append, texts_P, texts_W]
    simpa only [List.append_assoc, List.cons_append, List.nil_append] using this
  | traitDef n => exact .trait h
  | blanketDrop n =>
    have hg : Grammar.Generics L false (["<"] ++ (["T"] ++ ([":"] ++ texts (priv ⟨lt, .site⟩ .local_ ["Drop"])) ++ []) ++ [">"]) :=
      .some ⟨_, .one (.type (by decide) (.some ⟨_, .one (.path (g_priv _ _ _ (by decide))), rfl⟩) .none), rfl⟩
    have := IsItem.implTrait (many_single (g_attr ⟨lt, .site⟩ "allow" ["clippy::drop_bounds", "drop_bounds"])) .none hg
      (.one h) (.noBounds (.path (.one (w := "T") (by decide)))) .none .nil
    unfold item
    simp only [texts_append, texts_P, texts_W, texts_U]
    simpa only [List.append_assoc, List.cons_append, List.nil_append] using this
  | assertNotPacked ps n as ws refs =>
    have := g_assertFn lt h
    unfold item
    simp only [functions, List.flatMap_cons, List.flatMap_nil, List.append_nil]
    exact .fn this

theorem g_expansion (cx : Ctx) (E : Expansion) (h : ∀ i ∈ E.exposed ++ E.inScope, ItemG L i) :
    Many (IsItem L) (texts (expansion cx E)) := by
  have h1 : Many (IsItem L) (texts (E.exposed.flatMap (item cx.lifetime cx.unpinImpl false))) :=
    g_many _ _ fun i hi => g_item _ _ _ (h i (List.mem_append_left _ hi))
  have h2 : Many (IsItem L) (texts (E.inScope.flatMap (fun i => item cx.lifetime cx.unpinImpl (isHelper i) i))) :=
    g_many _ _ fun i hi => g_item _ _ _ (h i (List.mem_append_right _ hi))
  have h3 := IsItem.externCrate (u := L) (many_single (g_attr ⟨cx.lifetime, .site⟩ "allow" ["unused_extern_crates"]))
    (w := "pin_project") (a := "_pin_project") (by decide) (by decide)
  have h4 := many_append h1 (many_single (.const (many_single (g_attr ⟨cx.lifetime, .site⟩ "allow" constLints))
    (.noBounds (.tuple .nil)) (.cons h3 h2)))
  unfold expansion
  generalize E.exposed.flatMap _ = A at h4 ⊢
  generalize E.inScope.flatMap _ = B at h4 ⊢
  simp only [texts_append, texts_P, texts_W]
  simpa only [List.append_assoc, List.cons_append, List.nil_append] using h4

/-! ### Generated items -/

structure CtxG (L : User) (cx : Ctx) : Prop where
  vis : VisWritten cx.vis
  projVis : VisWritten cx.projVis
  ident : Ident cx.ident
  mutIdent : Ident cx.mutIdent
  refIdent : Ident cx.refIdent
  ownIdent : Ident cx.ownIdent
  lifetime : Lifetime cx.lifetime
  params : ∀ p ∈ cx.generics.params, ParamWritten p ∧ paramPieces L p
  projParams : ∀ p ∈ cx.projGenerics.params, ParamWritten p ∧ paramPieces L p
  preds : ∀ w ∈ cx.generics.preds, PredG L w
  projPreds : ∀ w ∈ cx.projGenerics.preds, PredG L w
  projWhere : ∀ w ∈ cx.projWhere, PredG L w

theorem args_g {g : PinProject.Generics} (h : ∀ p ∈ g.params, ParamWritten p ∧ paramPieces L p) : ∀ a ∈ g.tyGenerics, ArgG a := by
  intro a ha
  have : ∃ p ∈ g.params, p.arg = a := by
    simp only [Generics.tyGenerics, List.mem_append, List.mem_map, List.mem_filter] at ha
    rcases ha with ⟨p, ⟨hp, -⟩, rfl⟩ | ⟨p, ⟨hp, -⟩, rfl⟩ <;> exact ⟨p, hp, rfl⟩
  obtain ⟨p, hp, rfl⟩ := this
  have := (h p hp).1
  cases p with
  | lifetime n bs => exact this.1
  | type n bs d => exact this
  | const n t d => exact this

theorem defParams_g {g : PinProject.Generics} (h : ∀ p ∈ g.params, ParamWritten p ∧ paramPieces L p) : ∀ p ∈ g.defParams, ParamG L true p := by
  intro p hp
  have : p ∈ g.params := ?_
  · exact ⟨(h p this).1, (h p this).2, nofun⟩
  simp only [Generics.defParams, List.mem_append, List.mem_filter] at hp
  rcases hp with hp | hp <;> exact hp.1

theorem implParams_g {g : PinProject.Generics} (h : ∀ p ∈ g.params, ParamWritten p ∧ paramPieces L p) :
    ∀ p ∈ g.implGenerics, ParamG L false p := by
  intro p hp
  simp only [Generics.implGenerics, List.mem_map, List.mem_append, List.mem_filter] at hp
  obtain ⟨p, hp, rfl⟩ := hp
  have hp' : p ∈ g.params := by rcases hp with hp | hp <;> exact hp.1
  have := h p hp'
  cases p with
  | lifetime n bs => exact ⟨this.1, trivial, fun _ => rfl⟩
  | type n bs d => exact ⟨this.1, ⟨this.2.1, nofun⟩, fun _ => rfl⟩
  | const n t d => exact ⟨this.1, ⟨this.2.1, nofun⟩, fun _ => rfl⟩

/-- The fields of a struct or variant as they can be written. -/
def FieldsW (L : User) (fs : Fields) : Prop :=
  fs.WF ∧ ∀ f ∈ fs.list, (VisWritten f.vis ∧ ∀ n, f.ident = some n → Ident n) ∧ L.type (node f.ty)

theorem bindings_g {fs : Fields} (h : FieldsW L fs) {x : Field × Nat} (hx : x ∈ fs.list.zipIdx) :
    Ident (binding x.2 x.1) := by
  have := (h.2 _ (List.fst_mem_of_mem_zipIdx hx)).1.2
  unfold binding
  cases hi : x.1.ident with
  | none => exact ident_index _
  | some i => exact this i hi

theorem unit_g {fs : Fields} (h : fs.delim = none) : fs.list = [] := by
  cases fs with
  | unit => rfl
  | named fs => cases h
  | unnamed fs => cases h

theorem delim_g (fs : Fields) : fs.delim ≠ some .bracket := by cases fs <;> simp [Fields.delim]

/-- Whether a field has a name. -/
theorem ident_g {fs : Fields} (h : FieldsW L fs) {f : Field} (hf : f ∈ fs.list) :
    match f.ident with
    | some i => (fs.delim = some .brace) ∧ Ident i
    | none => fs.delim = some .paren := by
  have := (h.2 f hf).1.2
  cases fs with
  | unit => cases hf
  | named fs =>
    have h1 : f.ident.isSome := h.1.1 f hf
    cases hi : f.ident with
    | none => rw [hi] at h1; cases h1
    | some i => exact ⟨rfl, this i hi⟩
  | unnamed fs =>
    have h1 : f.ident = none := h.1 f hf
    rw [h1]
    rfl

theorem field_g {fs : Fields} (h : FieldsW L fs) {f : Field} (hf : f ∈ fs.list) {t : GTy} (ht : TyG L t) (hp : ∀ u, t ≠ .paren u) :
    FieldG L (fs.delim == some .brace) ⟨f.vis, f.ident, t⟩ := by
  have h1 := ident_g h hf
  refine ⟨(h.2 f hf).1.1, ht, hp, ?_⟩
  cases hi : f.ident with
  | none => rw [hi] at h1; simp [h1]
  | some i => rw [hi] at h1; simp [h1.1, h1.2]

theorem fields_g {fs : Fields} (h : FieldsW L fs) {cx : Ctx} (hc : CtxG L cx) (v : Option String) :
    FieldsG L (projectedOf cx v fs).projFields ∧ FieldsG L (projectedOf cx v fs).projRefFields ∧
    FieldsG L (projectedOf cx v fs).projOwnFields := by
  have hl : ∀ l, some cx.lifetime = some l → Lifetime l := fun l hl => (Option.some.inj hl) ▸ hc.lifetime
  refine ⟨⟨delim_g fs, fun x hx => ?_, fun hd => by rw [projectedOf] at hd ⊢; simp only [unit_g hd]; rfl⟩,
    ⟨delim_g fs, fun x hx => ?_, fun hd => by rw [projectedOf] at hd ⊢; simp only [unit_g hd]; rfl⟩,
    ⟨delim_g fs, fun x hx => ?_, fun hd => by rw [projectedOf] at hd ⊢; simp only [unit_g hd]; rfl⟩⟩
  · obtain ⟨f, hf, rfl⟩ := List.mem_map.1 hx
    unfold projField
    split <;> exact field_g h hf ⟨hl, nofun, (h.2 f hf).2⟩ nofun
  · obtain ⟨f, hf, rfl⟩ := List.mem_map.1 hx
    unfold projRefField
    split <;> exact field_g h hf ⟨hl, nofun, (h.2 f hf).2⟩ nofun
  · obtain ⟨f, hf, rfl⟩ := List.mem_map.1 hx
    unfold projOwnField
    split <;> exact field_g h hf (h.2 f hf).2 nofun

theorem pat_g {fs : Fields} (h : FieldsW L fs) (cx : Ctx) {v : Option String} (hv : VariantG v)
    (hu : fs.delim = none → v ≠ none) : PatG (projectedOf cx v fs).projPat := by
  refine ⟨hv, delim_g fs, fun b hb => ?_, fun hd => ⟨hu hd, ?_⟩⟩
  rotate_left
  · rw [projectedOf] at hd ⊢
    simp only [unit_g hd]
    rfl
  obtain ⟨x, hx, rfl⟩ := List.mem_map.1 hb
  exact bindings_g h hx

theorem init_g {fs : Fields} (h : FieldsW L fs) {x : Field × Nat} (hx : x ∈ fs.list.zipIdx) :
    InitG fs.delim (projInit x) ∧ InitG fs.delim (moveInit x) := by
  have h1 := bindings_g h hx
  have h2 := ident_g h (List.fst_mem_of_mem_zipIdx hx)
  have key : ∀ e, FExprG e → InitG fs.delim (.labelled x.1.ident e) := by
    intro e he
    cases hi : x.1.ident with
    | none => rw [hi] at h2; exact ⟨h2, he⟩
    | some i => rw [hi] at h2; exact ⟨h2.1, h2.2, he⟩
  unfold projInit moveInit
  constructor
  · split
    · exact key _ h1
    · exact h1
  · split
    · exact key _ trivial
    · exact key _ h1

theorem ctor_g {fs : Fields} (h : FieldsW L fs) (cx : Ctx) {v : Option String} (hv : VariantG v) {n : String}
    (hn : Ident n) (hu : fs.delim = none → v ≠ none) :
    CtorG ⟨n, v, (projectedOf cx v fs).projBody.1, (projectedOf cx v fs).projBody.2⟩ := by
  refine ⟨hn, hv, delim_g fs, fun i hi => ?_, fun hd => ⟨hu hd, ?_⟩⟩
  rotate_left
  · rw [projectedOf] at hd ⊢
    simp only [unit_g hd]
    rfl
  obtain ⟨x, hx, rfl⟩ := List.mem_map.1 hi
  exact (init_g h hx).1

theorem own_g {fs : Fields} (h : FieldsW L fs) {cx : Ctx} (hc : CtxG L cx) {v : Option String} (hv : VariantG v)
    (hu : fs.delim = none → v ≠ none) :
    (∀ s ∈ (projectedOf cx v fs).projOwnBody.1, StmtG s) ∧ RhsG (projectedOf cx v fs).projOwnBody.2 := by
  refine ⟨?_, .inl (by decide)⟩
  intro s hs
  simp only [projectedOf, projOwnBody, List.mem_cons, List.not_mem_nil, or_false] at hs
  rcases hs with rfl | rfl
  · refine ⟨by decide, nofun, hc.ownIdent, hv, delim_g fs, fun i hi => ?_, fun hd => ⟨hu hd, by
      have hd : fs.delim = none := hd
      simp only [unit_g hd]
      rfl⟩⟩
    obtain ⟨x, hx, rfl⟩ := List.mem_map.1 hi
    exact (init_g h hx).2
  · intro s hs
    obtain ⟨b, hb, rfl⟩ := List.mem_map.1 hs
    refine ⟨(by decide : Ident "__guard"), .inl ?_⟩
    obtain ⟨x, hx, rfl⟩ := List.mem_map.1 (List.mem_reverse.1 hb)
    exact bindings_g h (List.mem_filter.1 hx).1

theorem variantG_none : VariantG none := nofun

theorem selfVar : VarG "self" := .inr rfl
theorem ptrVar : VarG "__self_ptr" := .inl (by decide)

theorem bodiesS_g {fs : Fields} (h : FieldsW L fs) {cx : Ctx} (hc : CtxG L cx)
    (hd : fs.delim ≠ none) :
    BodyG (projMutBodyS cx fs) ∧ BodyG (projRefBodyS cx fs) ∧ BodyG (projOwnBodyS cx fs) := by
  have hp := pat_g h cx variantG_none (fun h => absurd h hd)
  refine ⟨⟨?_, ctor_g h cx variantG_none hc.mutIdent (fun h => absurd h hd)⟩, ⟨?_, ctor_g h cx variantG_none hc.refIdent (fun h => absurd h hd)⟩, ?_,
    (own_g h hc variantG_none (fun h => absurd h hd)).2⟩
  · intro s hs
    obtain rfl := List.mem_singleton.1 hs
    exact ⟨hp, selfVar⟩
  · intro s hs
    obtain rfl := List.mem_singleton.1 hs
    exact ⟨hp, selfVar⟩
  · intro s hs
    rcases List.mem_cons.1 hs with rfl | hs
    · exact ⟨hp, ptrVar⟩
    · exact (own_g h hc variantG_none (fun h => absurd h hd)).1 s hs

def VariantW (L : User) (v : PinProject.Variant) : Prop := Ident v.ident ∧ FieldsW L v.fields

theorem bodiesE_g {vs : List PinProject.Variant} (h : ∀ v ∈ vs, VariantW L v) {cx : Ctx} (hc : CtxG L cx) :
    BodyG (projMutBodyE cx vs) ∧ BodyG (projRefBodyE cx vs) ∧ BodyG (projOwnBodyE cx vs) := by
  have hv : ∀ v ∈ vs, VariantG (some v.ident) := fun v hv w hw => (Option.some.inj hw) ▸ (h v hv).1
  refine ⟨⟨nofun, selfVar, nofun, ?_⟩, ⟨nofun, selfVar, nofun, ?_⟩, nofun, ptrVar, nofun, ?_⟩
  · intro a ha
    obtain ⟨v, hv', rfl⟩ := List.mem_map.1 ha
    exact ⟨pat_g (h v hv').2 cx (hv v hv') nofun, nofun, ctor_g (h v hv').2 cx (hv v hv') hc.mutIdent nofun⟩
  · intro a ha
    obtain ⟨v, hv', rfl⟩ := List.mem_map.1 ha
    exact ⟨pat_g (h v hv').2 cx (hv v hv') nofun, nofun, ctor_g (h v hv').2 cx (hv v hv') hc.refIdent nofun⟩
  · intro a ha
    obtain ⟨v, hv', rfl⟩ := List.mem_map.1 ha
    exact ⟨pat_g (h v hv').2 cx (hv v hv') nofun, own_g (h v hv').2 hc (hv v hv') nofun⟩

theorem impl_g {cx : Ctx} (hc : CtxG L cx) {b1 b2 b3 : GBody} (h1 : BodyG b1) (h2 : BodyG b2) (h3 : BodyG b3) :
    ItemG L (makeProjImpl cx b1 b2 b3) := by
  rw [makeProjImpl_eq]
  refine ⟨implParams_g hc.params, hc.ident, args_g hc.params, hc.preds, fun f hf => ?_⟩
  have hl : ∀ l, some cx.lifetime = some l → Lifetime l := fun l hl => (Option.some.inj hl) ▸ hc.lifetime
  have : f = projectFn cx b1 ∨ f = projectRefFn cx b2 ∨ f = projectReplaceFn cx b3 := by
    simp only [implFns, List.mem_append] at hf
    rcases hf with (hf | hf) | hf <;> split at hf <;> simp at hf <;> simp [hf]
  rcases this with rfl | rfl | rfl
  · exact ⟨hc.projVis, (by decide : Ident "project"), hl, ⟨hl, nofun, trivial⟩, nofun, ⟨hc.mutIdent, args_g hc.projParams⟩, h1⟩
  · exact ⟨hc.projVis, (by decide : Ident "project_ref"), hl, ⟨hl, nofun, trivial⟩, nofun, ⟨hc.refIdent, args_g hc.projParams⟩, h2⟩
  · refine ⟨hc.projVis, (by decide : Ident "project_replace"), nofun, ⟨nofun, nofun, trivial⟩, ?_, ⟨hc.ownIdent, args_g hc.params⟩, ?_, h3.2⟩
    · intro p hp
      obtain rfl := List.mem_singleton.1 hp
      exact ⟨(by decide : Ident "__replacement"), trivial⟩
    · intro s hs
      simp only [projectReplaceFn, List.cons_append, List.nil_append, List.mem_cons] at hs
      rcases hs with rfl | rfl | hs
      · exact ⟨by decide, fun s hs => (Option.some.inj hs).symm, selfVar⟩
      · exact ⟨by decide, nofun, ptrVar, .inl (by decide)⟩
      · exact h3.1 s hs

theorem lints_g (cx : Ctx) : (∀ a ∈ (projAllowedLints cx).1, a ≠ ")") ∧ (∀ a ∈ (projAllowedLints cx).2.1, a ≠ ")") ∧
    ∀ a ∈ (projAllowedLints cx).2.2, a ≠ ")" := by
  unfold projAllowedLints
  refine ⟨?_, ?_, ?_⟩
  · simp only
    cases cx.project <;> decide
  · simp only
    cases cx.projectRef <;> decide
  · simp only
    cases cx.projectReplace.ident.isSome <;> cases cx.kind <;> decide

theorem structItems_g {fs : Fields} (h : FieldsW L fs) (hne : fs.list ≠ []) {cx : Ctx} (hc : CtxG L cx) :
    ItemG L (projItemS cx fs) ∧ ItemG L (refItemS cx fs) ∧ ItemG L (ownItemS cx fs) ∧ ItemG L (implItemS cx fs) ∧
    ItemG L (assertItem cx fs) := by
  obtain ⟨f1, f2, f3⟩ := fields_g h hc none
  have hd : fs.delim ≠ none := by
    cases fs with
    | unit => exact absurd rfl hne
    | named fs => simp [Fields.delim]
    | unnamed fs => simp [Fields.delim]
  obtain ⟨b1, b2, b3⟩ := bodiesS_g h hc hd
  refine ⟨⟨(lints_g cx).1, hc.projVis, hc.mutIdent, defParams_g hc.projParams, hc.projWhere, f1, hd⟩,
    ⟨(lints_g cx).2.1, hc.projVis, hc.refIdent, defParams_g hc.projParams, hc.projWhere, f2, hd⟩,
    ⟨(lints_g cx).2.2, hc.projVis, hc.ownIdent, defParams_g hc.params, hc.preds, f3, hd⟩, impl_g hc b1 b2 b3,
    implParams_g hc.params, hc.ident, args_g hc.params, hc.preds, fun r hr => ?_⟩
  cases fs with
  | unit => cases hr
  | named fs =>
    obtain ⟨f, hf, rfl⟩ := List.mem_map.1 hr
    have := ident_g h (f := f) hf
    cases hi : f.ident with
    | none => rw [hi] at this; cases this
    | some i => rw [hi] at this; exact .inl this.2
  | unnamed fs =>
    obtain ⟨i, -, rfl⟩ := List.mem_map.1 hr
    exact .inr ⟨i, rfl⟩

theorem enumItems_g {vs : List PinProject.Variant} (h : ∀ v ∈ vs, VariantW L v) {cx : Ctx} (hc : CtxG L cx) :
    ItemG L (projItemE cx vs) ∧ ItemG L (refItemE cx vs) ∧ ItemG L (ownItemE cx vs) ∧ ItemG L (implItemE cx vs) := by
  obtain ⟨b1, b2, b3⟩ := bodiesE_g h hc
  refine ⟨⟨(lints_g cx).1, hc.projVis, hc.mutIdent, defParams_g hc.projParams, hc.projWhere, ?_⟩,
    ⟨(lints_g cx).2.1, hc.projVis, hc.refIdent, defParams_g hc.projParams, hc.projWhere, ?_⟩,
    ⟨(lints_g cx).2.2, hc.projVis, hc.ownIdent, defParams_g hc.params, hc.preds, ?_⟩, impl_g hc b1 b2 b3⟩ <;>
  · intro x hx
    obtain ⟨v, hv, rfl⟩ := List.mem_map.1 hx
    obtain ⟨f1, f2, f3⟩ := fields_g (h v hv).2 hc (some v.ident)
    first | exact ⟨(h v hv).1, f1⟩ | exact ⟨(h v hv).1, f2⟩ | exact ⟨(h v hv).1, f3⟩

theorem mem_append_pred {ws : List WPred} {w' : WPred} (h : ∀ w ∈ ws, PredG L w) (h' : PredG L w') :
    ∀ w ∈ ws ++ [w'], PredG L w := by
  intro w hw
  rcases List.mem_append.1 hw with hw | hw
  · exact h w hw
  · exact List.mem_singleton.1 hw ▸ h'

theorem unpinImpl_g {cx : Ctx} (hc : CtxG L cx) (d u : Bool) {tr : GTrait} (ht : TraitG tr) {ws : List WPred}
    (hw : ∀ w ∈ ws, PredG L w) :
    ItemG L (.traitImpl d u cx.projGenerics.implGenerics tr cx.ident cx.generics.tyGenerics ws []) :=
  ⟨implParams_g hc.projParams, ht, hc.ident, args_g hc.params, hw, fun _ h => by cases h⟩

theorem helperFields_g {cx : Ctx} (hc : CtxG L cx) {tys : List Node} (ht : ∀ t ∈ tys, L.type (node t)) (x : GField)
    (hx : x ∈ GField.mk .inherited (some "__pin_project_use_generics") (.alwaysUnpin cx.lifetime cx.generics.typeParams) ::
      tys.mapIdx (fun i ty => GField.mk .inherited (some ("__field" ++ toString i)) (.user ty)) ++
      cx.generics.lifetimes.mapIdx (fun i lt => GField.mk .inherited (some ("__lifetime" ++ toString i))
        (.ref (some lt) false .unit))) : FieldG L true x := by
  simp only [List.cons_append, List.mem_cons, List.mem_append, List.mem_mapIdx] at hx
  rcases hx with rfl | ⟨k, hk, rfl⟩ | ⟨k, hk, rfl⟩
  · refine ⟨trivial, ⟨hc.lifetime, fun p hp => ?_⟩, nofun, rfl, by decide⟩
    obtain ⟨q, hq, hqp⟩ := List.mem_filterMap.1 hp
    have := (hc.params q hq).1
    cases q with
    | type n bs d => cases hqp; exact this
    | lifetime n bs => cases hqp
    | const n t d => cases hqp
  · exact ⟨trivial, ht _ (List.getElem_mem hk), nofun, rfl, ident_prefix _ _ (by decide) (by decide) (word_digits _)⟩
  · refine ⟨trivial, ⟨fun l hl => ?_, nofun, trivial⟩, nofun, rfl, ident_prefix _ _ (by decide) (by decide) (word_digits _)⟩
    cases hl
    obtain ⟨q, hq, hqp⟩ := List.mem_filterMap.1 (List.getElem_mem hk)
    have := (hc.params q hq).1
    cases q with
    | lifetime n bs => exact (Option.some.inj hqp) ▸ this.1
    | type n bs d => cases hqp
    | const n t d => cases hqp

theorem unpin_g {cx : Ctx} (hc : CtxG L cx) {tys : List Node} (ht : ∀ t ∈ tys, L.type (node t)) : ∀ i ∈ makeUnpinImpl cx tys, ItemG L i := by
  intro i hi
  unfold makeUnpinImpl at hi
  have hn : Ident ("__" ++ unraw cx.ident) :=
    ident_prefix _ _ (by decide) (by decide) (word_of_isWord (isWord_unraw hc.ident.2))
  split at hi <;> simp only [List.mem_cons, List.not_mem_nil, or_false] at hi
  · subst hi
    exact unpinImpl_g hc _ _ (by trivial) (mem_append_pred hc.projPreds ⟨⟨hc.lifetime, trivial⟩, trivial⟩)
  · rcases hi with rfl | rfl <;>
      exact unpinImpl_g hc _ _ (by trivial) (mem_append_pred hc.projPreds ⟨⟨hc.lifetime, trivial⟩, trivial⟩)
  · rcases hi with rfl | rfl | rfl
    · refine ⟨by decide, hc.vis, hn, defParams_g hc.projParams, hc.preds, ⟨nofun, helperFields_g hc ht, nofun⟩, nofun⟩
    · exact unpinImpl_g hc _ _ (by trivial) (mem_append_pred hc.preds ⟨⟨hn, args_g hc.projParams⟩, trivial⟩)
    · exact unpinImpl_g hc _ _ (by trivial) (mem_append_pred hc.preds ⟨⟨hn, args_g hc.projParams⟩, trivial⟩)

theorem drop_g {cx : Ctx} (hc : CtxG L cx) : ∀ i ∈ makeDropImpl cx, ItemG L i := by
  intro i hi
  unfold makeDropImpl at hi
  have hn : Ident (unraw cx.ident ++ "MustNotImplDrop") :=
    ident_suffix _ _ (by decide) (isWord_unraw hc.ident.2) (by decide)
  split at hi <;> simp only [List.mem_cons, List.not_mem_nil, or_false] at hi
  · subst hi
    refine ⟨implParams_g hc.params, trivial, hc.ident, args_g hc.params, hc.preds, fun f hf => ?_⟩
    obtain rfl := List.mem_singleton.1 hf
    refine ⟨trivial, by decide, nofun, ⟨nofun, nofun, trivial⟩, nofun, trivial, ?_, trivial⟩
    intro s hs
    simp only [List.mem_cons, List.not_mem_nil, or_false] at hs
    rcases hs with rfl | rfl
    · exact ⟨by decide, nofun, selfVar⟩
    · exact .inl (by decide)
  · rcases hi with rfl | rfl | rfl | rfl
    · exact hn
    · exact hn
    · exact ⟨implParams_g hc.params, hn, hc.ident, args_g hc.params, hc.preds, nofun⟩
    · refine ⟨implParams_g hc.params, trivial, hc.ident, args_g hc.params, hc.preds, fun f hf => ?_⟩
      obtain rfl := List.mem_singleton.1 hf
      exact ⟨trivial, by decide, nofun, ⟨nofun, nofun, trivial⟩, nofun, trivial, nofun, trivial⟩

/-! ### From the definition -/

theorem vis_g {v : Vis} (h : VisWritten v) (hs : isPubSelf v = false) : VisWritten v.visit := by
  cases v with
  | inherited => trivial
  | pub => trivial
  | restricted b p =>
    have e : p.visit = p := by
      obtain ⟨l, segs⟩ := p
      match segs with
      | [] => rfl
      | [x] =>
        have hx : ¬ x = "self" := by simpa [isPubSelf] using hs
        simp [SPath.visit, prependUnderscore, hx]
      | x :: y :: zs => rfl
    rw [Vis.visit, e]
    exact h

theorem projVis_g {v : Vis} (h : VisWritten v) : VisWritten (determineVisibility v) := by
  cases v with
  | inherited => trivial
  | pub => exact ⟨rfl, by simp⟩
  | restricted b p => exact h

theorem lifetime_g (g : PinProject.Generics) : Lifetime (determineLifetimeName "'pin" g) := by
  obtain ⟨k, h, -⟩ := lifetimeLoop_spec g.declaredLifetimes "'pin"
  refine ⟨"pin" ++ String.ofList (List.replicate k '_'), ?_, .inl (ident_prefix _ _ (by decide) (by decide) ?_)⟩
  · apply String.toList_injective
    rw [determineLifetimeName, h]
    simp
  · rw [String.toList_ofList, List.all_eq_true]
    intro c hc
    rw [(List.mem_replicate.1 hc).2]
    decide

theorem argNames {as : List Arg} {ts : List TT} (h : ArgsToks as ts) :
    ∀ n ∈ as.filterMap Arg.name?, Identifier n ∧ .ident n ∈ ts := by
  have one : ∀ {a : Arg} {ts : List TT}, ArgToks a ts → ∀ n, a.name? = some n → Identifier n ∧ .ident n ∈ ts := by
    intro a ts h n hn
    cases h <;> simp only [Arg.name?, Option.some.injEq, reduceCtorEq] at hn <;> subst hn <;>
      exact ⟨by assumption, by simp⟩
  induction h with
  | nil => nofun
  | last h =>
    intro n hn
    obtain ⟨a, ha, hn⟩ := List.mem_filterMap.1 hn
    exact one h n (List.mem_singleton.1 ha ▸ hn)
  | cons j h _ ih =>
    intro n hn
    obtain ⟨a, ha, hn'⟩ := List.mem_filterMap.1 hn
    rcases List.mem_cons.1 ha with rfl | ha
    · have := one h n hn'
      exact ⟨this.1, by simp [this.2]⟩
    · have := ih n (List.mem_filterMap.2 ⟨a, ha, hn'⟩)
      exact ⟨this.1, by simp [this.2]⟩

theorem userNames_g {item : Item} {A : Args} (h : parseArgs (itemAttrs item) = .ok A)
    (hw : ∀ s, InArgs item s → rawOrWord s.toList = true) : ∀ n ∈ userNames A, Ident n := by
  obtain ⟨a, p, d, ts, ha, hm, h⟩ := parseArgs_ok_shape h
  obtain ⟨as, h1, h2, rfl⟩ := parse_ok_iff.1 h
  intro n hn
  have := argNames h1 n ((config_names as h2 n).1 hn)
  have ha' : a ∈ (itemAttrs item).filter isPinAttr := by rw [ha]; exact .head _
  exact ⟨this.1, hw n ⟨a, (List.mem_filter.1 ha').1, p, d, ts, hm, this.2⟩⟩

theorem ctx_g {A : Args} {attrs : List Attribute} (hu : ∀ n ∈ userNames A, Ident n) {v : Vis} (hv : VisWritten v)
    {n : String} (hn : Ident n) {g : PinProject.Generics} (hp : ∀ p ∈ g.params, ParamWritten p ∧ paramPieces L p)
    (hw : ∀ w ∈ g.preds, PredG L w) (k : TypeKind) : CtxG L (mkCtx A attrs v n g k) := by
  have hl := lifetime_g g
  have hw' : ∀ w ∈ g.makeWhere.preds, PredG L w := by
    obtain ⟨ps, _ | ws⟩ := g
    · nofun
    · exact hw
  have hp' : ∀ p ∈ (g.insertLifetime (determineLifetimeName "'pin" g)).params, ParamWritten p ∧ paramPieces L p := by
    intro p hp'
    rcases List.mem_cons.1 hp' with rfl | hp'
    · exact ⟨⟨hl, nofun⟩, trivial⟩
    · exact hp p hp'
  have name : ∀ (o : Option String) (d : String), (∀ n, o = some n → n ∈ userNames A) → Ident d →
      Ident (o.getD d) := by
    intro o d ho hd
    cases o with
    | none => exact hd
    | some n => exact hu n (ho n rfl)
  have gen : ∀ suf : String, suf.toList.all wordChar = true → Ident ("__" ++ unraw n ++ suf) := by
    intro suf hs
    rw [String.append_assoc]
    exact ident_prefix _ _ (by decide) (by decide) (by
      rw [String.toList_append, List.all_append, word_of_isWord (isWord_unraw hn.2), hs]; rfl)
  exact
    { vis := hv
      projVis := projVis_g hv
      ident := hn
      mutIdent := name _ _ (fun n hn => by simp [userNames, hn]) (gen _ (by decide))
      refIdent := name _ _ (fun n hn => by simp [userNames, hn]) (gen _ (by decide))
      ownIdent := name _ _ (fun n hn => by simp [userNames, hn]) (gen _ (by decide))
      lifetime := hl
      params := hp
      projParams := hp'
      preds := hw'
      projPreds := hw
      projWhere := mem_append_pred hw ⟨⟨hn, args_g hp⟩, hl⟩ }

theorem generics_g {item : Item} (h1 : ProperNames item) (h2 : ProperPieces L item) :
    (∀ p ∈ (preGenerics item).params, ParamWritten p ∧ paramPieces L p) ∧ ∀ w ∈ (preGenerics item).preds, PredG L w := by
  constructor
  · intro p hp
    refine ⟨?_, h2.params p (by rwa [itemParams, resolvedParam_eq])⟩
    obtain ⟨p, hp', rfl⟩ := List.mem_map.1 hp
    have := h1.params p hp'
    cases p <;> exact this
  · rw [preGenerics_preds]
    intro w hw
    have : ∃ n, w = .user n := by
      obtain ⟨w', hw', rfl⟩ := List.mem_map.1 hw
      obtain ⟨n, rfl⟩ := h1.preds w' (by
        unfold Generics.preds
        cases hg : (itemGenerics item).whereClause <;> rw [hg] at hw' <;> exact hw')
      exact ⟨_, rfl⟩
    obtain ⟨n, rfl⟩ := this
    exact h2.preds n hw

theorem fieldsW {item : Item} (h1 : ProperNames item) (h2 : ProperPieces L item)
    (hv : ∀ f ∈ itemFields item, isPubSelf f.vis = false) {fs : Fields} (hfs : fs.WF) (hm : ∀ f ∈ fs.list, f ∈ itemFields item) :
    FieldsW L (fs.visit (itemSelfTy item)) := by
  refine ⟨wf_visit _ _ hfs, fun f hf => ?_⟩
  rw [visit_fields_list] at hf
  obtain ⟨f, hf', rfl⟩ := List.mem_map.1 hf
  have hf := hm f hf'
  exact ⟨⟨vis_g (h1.fields f hf).1 (hv f hf), (h1.fields f hf).2⟩, h2.fields f hf⟩

theorem tys_g {fs : Fields} (h : FieldsW L fs) : ∀ t ∈ pinnedTys fs.list, L.type (node t) := by
  intro t ht
  obtain ⟨f, hf, rfl⟩ := List.mem_map.1 ht
  exact (h.2 f (List.mem_filter.1 hf).1).2

end Emit

theorem expansion_g {L : User} {item : Item} {E : Expansion} (h : parseDerive item = .ok E) (hwf : ItemWF item)
    (h1 : ProperNames item) (h2 : ProperPieces L item) (hv : isPubSelf (itemVis item) = false)
    (hf : ∀ f ∈ itemFields item, isPubSelf f.vis = false) : ∀ i ∈ E.exposed ++ E.inScope, Emit.ItemG L i := by
  intro i hi
  obtain ⟨hg1, hg2⟩ := Emit.generics_g h1 h2
  have hvis := Emit.vis_g h1.vis hv
  cases item with
  | other a => cases h
  | struct_ s =>
    obtain ⟨A, hA, -, -, -, hne, -, rfl⟩ := (deriveStruct_iff s E).1 h
    have hs : s.pre.fields = s.fields.visit (itemSelfTy (.struct_ s)) := by rw [itemSelfTy_eq]; rfl
    have hfs : Emit.FieldsW L s.pre.fields := by
      rw [hs]
      exact Emit.fieldsW h1 h2 hf (hwf.fields none s.fields ⟨rfl, rfl⟩) fun f hf => hf
    have hc : Emit.CtxG L (s.ctx A) := Emit.ctx_g (Emit.userNames_g (item := .struct_ s) hA h1.args) hvis (h1.name s.ident rfl)
      (g := s.pre.generics) (by rw [preGenerics, itemSelfTy_eq] at hg1; exact hg1)
      (by rw [preGenerics, itemSelfTy_eq] at hg2; exact hg2) _
    obtain ⟨i1, i2, i3, i4, i5⟩ := Emit.structItems_g hfs hne hc
    simp only [structExpansion, List.mem_append, List.mem_ite_nil_left, List.mem_ite_nil_right,
      List.mem_singleton] at hi
    rcases hi with ((⟨_, rfl⟩ | ⟨_, rfl⟩) | ⟨_, _, rfl⟩) |
      (((((⟨_, rfl⟩ | ⟨_, rfl⟩) | ⟨_, _, rfl⟩) | rfl) | rfl) | hi) | hi
    all_goals first
      | assumption
      | exact Emit.unpin_g hc (Emit.tys_g hfs) i hi
      | exact Emit.drop_g hc i hi
  | enum_ s =>
    obtain ⟨A, hA, -, -, -, -, -, -, rfl⟩ := (deriveEnum_iff s E).1 h
    have hs : s.pre.variants = s.variants.map (Variant.visit (itemSelfTy (.enum_ s))) := by rw [itemSelfTy_eq]; rfl
    have hvs : ∀ v ∈ s.pre.variants, Emit.VariantW L v := by
      rw [hs]
      intro v hv'
      obtain ⟨v, hv, rfl⟩ := List.mem_map.1 hv'
      exact ⟨h1.variants (some v.ident, v.fields) (List.mem_map.2 ⟨v, hv, rfl⟩) _ rfl,
        Emit.fieldsW h1 h2 hf (hwf.fields (some v.ident) v.fields ⟨v, hv, rfl, rfl⟩)
          fun f hf => List.mem_flatMap.2 ⟨v, hv, hf⟩⟩
    have hc : Emit.CtxG L (s.ctx A) := Emit.ctx_g (Emit.userNames_g (item := .enum_ s) hA h1.args) hvis (h1.name s.ident rfl)
      (g := s.pre.generics) (by rw [preGenerics, itemSelfTy_eq] at hg1; exact hg1)
      (by rw [preGenerics, itemSelfTy_eq] at hg2; exact hg2) _
    obtain ⟨i1, i2, i3, i4⟩ := Emit.enumItems_g hvs hc
    simp only [enumExpansion, List.mem_append, List.mem_ite_nil_right, List.mem_singleton] at hi
    rcases hi with ((⟨_, rfl⟩ | ⟨_, rfl⟩) | ⟨_, rfl⟩) | (rfl | hi) | hi
    all_goals first
      | assumption
      | refine Emit.unpin_g hc (fun t ht => ?_) i hi
        obtain ⟨v, hv, ht⟩ := List.mem_flatMap.1 ht
        exact Emit.tys_g (hvs v hv).2 t ht
      | exact Emit.drop_g hc i hi

/-- **C76** What `#[pin_project]` produces parses: the tokens are a sequence of items of the grammar of Rust, in which
the pieces taken from the definition (types, bounds, predicates, defaults) occur only where pieces of their kind are allowed.
Not for definitions with `pub(self)`: see C43. -/
theorem C76_grammar (L : User) (item : Item) (hwf : ItemWF item) (h1 : ProperNames item) (h2 : ProperPieces L item)
    (hv : isPubSelf (itemVis item) = false) (hf : ∀ f ∈ itemFields item, isPubSelf f.vis = false)
    (toks : List ETok) (h : deriveTokens item = .ok toks) : Many (IsItem L) (texts toks) := by
  obtain ⟨cx, E, -, h3, ht⟩ := deriveTokens_inv h
  clear h
  rw [ht]
  exact Emit.g_expansion cx E (expansion_g h3 hwf h1 h2 hv hf)

/-- The pieces of `demoGeneric`. -/
def demoUser : User where
  type x := x ∈ [["T"], ["U"]]
  bound x := x = ["Tr"]
  pred x := x = Emit.node (.other "U: Copy" [])
  dflt _ := False
  attr _ := False
  stmt _ := False

theorem demoGeneric_names (args : List TT) (ha : ∀ s, .ident s ∈ args → rawOrWord s.toList = true) : ProperNames (.struct_ (demoGeneric args)) where
  name n h := by cases h; show Ident "G"; decide
  vis := trivial
  params p hp := by
    simp only [itemGenerics, demoGeneric, List.mem_cons, List.not_mem_nil, or_false] at hp
    rcases hp with rfl | rfl | rfl
    · exact ⟨⟨"a", by decide, .inl (by decide)⟩, nofun⟩
    · exact (by decide : Ident "T")
    · exact (by decide : Ident "U")
  preds w hw := by
    obtain rfl := List.mem_singleton.1 hw
    exact ⟨_, rfl⟩
  variants v hv n hn := by
    obtain rfl := List.mem_singleton.1 hv
    cases hn
  fields f hf := by
    simp only [itemFields, demoGeneric, Fields.list, List.mem_cons, List.not_mem_nil, or_false] at hf
    rcases hf with rfl | rfl
    · exact ⟨trivial, fun n h => by cases h; show Ident "x"; decide⟩
    · exact ⟨trivial, fun n h => by cases h; show Ident "y"; decide⟩
  args s := by
    rintro ⟨a, hm, p, d, ts, h, hs⟩
    obtain rfl := List.mem_singleton.1 hm
    cases h
    exact ha s hs

theorem demoGeneric_pieces (args : List TT) : ProperPieces demoUser (.struct_ (demoGeneric args)) where
  fields f hf := by
    simp only [itemFields, demoGeneric, Fields.list, List.mem_cons, List.not_mem_nil, or_false] at hf
    rcases hf with rfl | rfl
    · exact (by decide : ["T"] ∈ [["T"], ["U"]])
    · exact (by decide : ["U"] ∈ [["T"], ["U"]])
  params p hp := by
    simp only [itemParams, itemGenerics, demoGeneric, List.map_cons, List.map_nil, List.mem_cons, List.not_mem_nil,
      or_false] at hp
    rcases hp with rfl | rfl | rfl
    · trivial
    · refine ⟨fun b hb => ?_, nofun⟩
      obtain rfl := List.mem_singleton.1 hb
      rfl
    · exact ⟨nofun, nofun⟩
  preds n hn := by
    obtain hn := List.mem_singleton.1 hn
    cases hn
    rfl

/-- The hypotheses are met, with a lifetime, a bound and a where-clause, by each of three definitions. -/
example (args : List TT) (h : args ∈ [[], [.ident "PinnedDrop"], [.ident "project_replace", .punct '=' false, .ident "R"]]) :
    ∃ toks, deriveTokens (.struct_ (demoGeneric args)) = .ok toks ∧ Many (IsItem demoUser) (texts toks) := by
  have hok : ∃ toks, deriveTokens (.struct_ (demoGeneric args)) = .ok toks := by
    simp only [List.mem_cons, List.not_mem_nil, or_false] at h
    rcases h with rfl | rfl | rfl <;> exact ⟨_, rfl⟩
  obtain ⟨toks, ht⟩ := hok
  refine ⟨toks, ht, C76_grammar _ _ ⟨?_, fun _ h => by cases h⟩ (demoGeneric_names args ?_) (demoGeneric_pieces args) rfl ?_ toks ht⟩
  · rintro v fs ⟨-, rfl⟩
    exact ⟨by simp, by simp⟩
  · intro s hs
    simp only [List.mem_cons, List.not_mem_nil, or_false] at h
    rcases h with rfl | rfl | rfl <;> simp at hs
    · subst hs; decide
    · rcases hs with rfl | rfl <;> decide
  · intro f hf
    simp only [itemFields, demoGeneric, Fields.list, List.mem_cons, List.not_mem_nil, or_false] at hf
    rcases hf with rfl | rfl <;> rfl

/-! The grammar is not trivial: not even with respect to the last and the first token. -/

theorem fn_last {L : User} {x : List String} (h : Fn L x) : x.getLast? = some "}" := by
  cases h
  exact List.getLast?_concat

theorem item_last {L : User} {x : List String} (h : IsItem L x) : x.getLast? ∈ [some "}", some ";"] := by
  cases h with
  | fn h => simp [fn_last h]
  | trait h => simp
  | _ => simp only [List.getLast?_append] <;> simp

example (L : User) : ¬ IsItem L ["struct", "S"] := fun h => absurd (item_last h) (by decide)
example (L : User) : ¬ IsItem L ["struct", "S", "{", "}", "}", ","] := fun h => absurd (item_last h) (by decide)

/-- `pub(__self)`, of C43, is not a visibility. -/
theorem C76_pub_self : ¬ Visibility ["pub", "(", "__self", ")"] := by
  intro h
  generalize hx : ["pub", "(", "__self", ")"] = x at h
  cases h with
  | inherited => cases hx
  | pub => simp at hx
  | restricted hw =>
    simp only [List.cons.injEq, true_and, and_true] at hx
    subst hx
    exact absurd hw (by decide)
  | in_ => simp at hx

end PinProject
