import Verif.Props.Closed
import Verif.Props.Methods
import Verif.Props.Project
import Verif.Props.PinnedDrop
import Verif.Spec.Tokens
/-!
# C74: what the words of the expansion refer to
-/
namespace PinProject
open Spec

namespace Emit

theorem reads_append {a b c : At} {x y : Toks} (h1 : Reads a x b) (h2 : Reads b y c) : Reads a (x ++ y) c := by
  induction h1 with
  | nil => exact h2
  | cons hs _ ih => exact .cons hs (ih h2)

def Idle (a : At) : Prop := a = .idle
def Ready (a : At) : Prop := a = .idle ∨ a = .user
def Name (a : At) : Prop := a = .name

/-- From every state in `A`, the tokens can be read, and then the state is in `B`. -/
def T (A : At → Prop) (ts : Toks) (B : At → Prop) : Prop := ∀ a, A a → ∃ b, Reads a ts b ∧ B b

class Sub (A B : At → Prop) : Prop where
  sub : ∀ a, A a → B a

instance (A : At → Prop) : Sub A A := ⟨fun _ h => h⟩
instance : Sub Idle Ready := ⟨fun _ h => .inl h⟩
instance : Sub Idle Left := ⟨fun _ h => by rw [show _ = _ from h]; exact .idle⟩
instance : Sub Ready Left := ⟨fun _ h => by rcases h with rfl | rfl <;> constructor⟩
instance : Sub Name Left := ⟨fun _ h => by rw [show _ = _ from h]; exact .name⟩

theorem T.seq {A B B' C : At → Prop} {x y : Toks} [s : Sub B B'] (h1 : T A x B) (h2 : T B' y C) : T A (x ++ y) C := by
  intro a ha
  obtain ⟨b, hb, hB⟩ := h1 a ha
  obtain ⟨c, hc, hC⟩ := h2 b (s.sub b hB)
  exact ⟨c, reads_append hb hc, hC⟩

theorem T.to {A A' B B' : At → Prop} {x : Toks} [s : Sub A' A] [s' : Sub B B'] (h : T A x B) : T A' x B' := by
  intro a ha
  obtain ⟨b, hb, hB⟩ := h a (s.sub a ha)
  exact ⟨b, hb, s'.sub b hB⟩

theorem T.nil {A B : At → Prop} [s : Sub A B] : T A [] B := fun a ha => ⟨a, .nil, s.sub a ha⟩

theorem T.step {A B : At → Prop} {t : ETok} (h : ∀ a, A a → ∃ b, Step a t b ∧ B b) : T A [t] B := by
  intro a ha
  obtain ⟨b, hb, hB⟩ := h a ha
  exact ⟨b, .cons hb .nil, hB⟩

theorem T.flatMap {α : Type} {A : At → Prop} (l : List α) (f : α → Toks) (h : ∀ x ∈ l, T A (f x) A) :
    T A (l.flatMap f) A := by
  induction l with
  | nil => exact .nil
  | cons x l ih =>
    rw [List.flatMap_cons]
    exact (h x (by simp)).seq (ih (fun y hy => h y (List.mem_cons_of_mem _ hy)))

theorem t_user (x : String) : T Left [.user x] Ready := .step fun _ h => ⟨_, .user h, .inr rfl⟩

theorem t_users (l : List String) : T Left (l.map .user) Left := by
  induction l with
  | nil => exact .nil
  | cons x l ih => exact T.seq (x := [_]) (t_user x) ih

theorem t_usersReady (l : List String) : T Ready (l.map .user) Ready := by
  induction l with
  | nil => exact .nil
  | cons x l ih => exact T.seq (x := [_]) (B := Ready) (T.to (A := Left) (t_user x)) ih

section
variable (q : Quote)

theorem t_U (x : String) : T Left (U x) Ready := t_user x

theorem t_P (p : String) (h : p ∉ ["::", ".", "!"]) : T Left (P q p) Idle := .step fun _ ha => ⟨_, .punct ha h, rfl⟩

theorem t_K (w : String) (h : w ∈ strictKeywords) (h' : w ∉ ["self", "Self", "super", "crate", "fn", "as"]) :
    T Left (W q w) Idle := .step fun _ ha => ⟨_, .keyword ha h h', rfl⟩

theorem t_self (w : String) (h : w ∈ ["self", "Self"]) : T Left (W q w) Name := .step fun _ ha => ⟨_, .self_ ha h, rfl⟩

theorem t_own {w : String} (h : OwnName w) : T Left (W q w) Name := .step fun _ ha => ⟨_, .own ha h, rfl⟩

theorem t_fn (n : String) : T Left (W q "fn" ++ W q n) Name :=
  .seq (B := fun a => a = .fn) (B' := fun a => a = .fn) (.step fun _ ha => ⟨_, .fn ha, rfl⟩)
    (.step fun _ ha => ⟨_, ha ▸ .fnName, rfl⟩)

theorem t_attr (n : String) (as : List String) (h : n ∈ ["allow", "doc", "forbid", "inline"]) :
    T Left (attr q n as) Idle := .step fun _ ha => ⟨_, .attr ha h, rfl⟩

theorem t_life (lt l : String) : T Left [life lt l] Ready := by
  unfold life
  split
  · exact .step fun _ ha => ⟨_, .life ha, .inl rfl⟩
  · exact t_user l

theorem t_vis (v : Vis) : T Ready (vis v) Ready := by
  cases v with
  | inherited => exact .nil
  | pub => exact T.to (A := Left) (t_user _)
  | restricted i p => exact t_usersReady _

theorem t_visLeft (v : Vis) : T Left (vis v) Left := by
  cases v with
  | inherited => exact .nil
  | pub => exact (t_user _).to
  | restricted i p => exact t_users _

/-- A list of fragments, each followed by a comma. -/
theorem t_sep (ts : List Toks) (h : ∀ t ∈ ts, T Ready t Left) : T Ready (sep q ts) Ready :=
  .flatMap _ _ fun t ht => ((h t ht).seq (t_P q "," (by decide))).to

theorem t_parens (ts : List Toks) (h : ∀ t ∈ ts, T Ready t Left) : T Left (parens q ts) Idle :=
  ((t_P q "(" (by decide)).seq (t_sep q ts h)).seq (t_P q ")" (by decide))

theorem t_angles (ts : List Toks) (h : ∀ t ∈ ts, T Ready t Left) : T Left (angles q ts) Left := by
  unfold angles
  split
  · exact .nil
  · exact (((t_P q "<" (by decide)).seq (t_sep q ts h)).seq (t_P q ">" (by decide))).to

theorem t_delimited (d : Option Delim) (ts : List Toks) (h : ∀ t ∈ ts, T Ready t Left) :
    T Left (delimited q d ts) Left := by
  unfold delimited
  split
  · exact .nil
  · exact (((t_P q "(" (by decide)).seq (t_sep q ts h)).seq (t_P q ")" (by decide))).to
  · exact (((t_P q "{" (by decide)).seq (t_sep q ts h)).seq (t_P q "}" (by decide))).to
  · exact (((t_P q "[" (by decide)).seq (t_sep q ts h)).seq (t_P q "]" (by decide))).to

def InCrate (segs : List String) (a : At) : Prop := a = .inCrate segs

theorem t_segments (ns : List String) (segs : List String) :
    T (InCrate segs) (segments q ns) (InCrate (segs ++ ns)) := by
  induction ns generalizing segs with
  | nil => rw [List.append_nil]; exact .nil
  | cons n ns ih =>
    have h1 : T (InCrate segs) (P q "::") (fun a => a = .sepCrate segs) := .step fun _ h => ⟨_, h ▸ .crateColons, rfl⟩
    have h2 : T (fun a => a = .sepCrate segs) (W q n) (InCrate (segs ++ [n])) := .step fun _ h => ⟨_, h ▸ .segment, rfl⟩
    have h3 := (h1.seq h2).seq (ih (segs ++ [n]))
    rw [List.append_assoc segs] at h3
    exact h3

theorem t_root (r : Root) : T Ready (root q r) (InCrate []) := by
  cases r with
  | abs =>
    rintro a (rfl | rfl)
    · exact ⟨_, .cons .rootColons (.cons .rootCrate .nil), rfl⟩
    · exact ⟨_, .cons .userColons (.cons .visCrate .nil), rfl⟩
  | local_ => exact .step fun a h => ⟨_, .alias_ ((inferInstance : Sub Ready Left).sub a h), rfl⟩

theorem t_local : T Left (root q .local_) (InCrate []) := .step fun _ h => ⟨_, .alias_ h, rfl⟩

theorem leave {A : At → Prop} {x : Toks} {segs : List String} (h : segs ∈ exported) (ht : T A x (InCrate segs)) :
    T A x Left := by
  intro a ha
  obtain ⟨b, hb, rfl⟩ := ht a ha
  exact ⟨_, hb, .crate h⟩

theorem t_priv (r : Root) (names : List String) (h : "__private" :: names ∈ exported) :
    T Ready (priv q r names) Left := leave h ((t_root q r).seq (t_segments q _ []))

theorem t_privLocal (names : List String) (h : "__private" :: names ∈ exported) :
    T Left (priv q .local_ names) Left := leave h ((t_local q).seq (t_segments q _ []))

theorem t_garg (a : GArg) : T Ready (garg q a) Left := by
  cases a with
  | lifetime s => exact (t_life _ _).to
  | ident s => exact (t_U s).to

theorem t_adt (n : String) (as : List GArg) : T Left (adt q n as) Left :=
  (t_U n).seq (t_angles q _ fun t ht => by
    obtain ⟨a, -, rfl⟩ := List.mem_map.1 ht
    exact t_garg q a)

theorem t_generic {x y : Toks} {A : At → Prop} (hx : T A x Left) (hy : T Ready y Left) :
    T A (x ++ P q "<" ++ y ++ P q ">") Left :=
  (((hx.seq (t_P q "<" (by decide))).seq hy).seq (t_P q ">" (by decide))).to

theorem t_ty (t : GTy) : T Ready (ty q t) Left := by
  induction t with
  | user n => exact (t_users _).to
  | paren t ih => exact (((t_P q "(" (by decide)).seq ih).seq (t_P q ")" (by decide))).to
  | ref lt m t ih =>
    have h1 : T Ready (lt.toList.map (life q.lt)) Ready := by
      cases lt with
      | none => exact .nil
      | some l => exact (t_life _ _).to
    have h2 : T Ready (if m then W q "mut" else []) Ready := by
      split
      · exact (t_K q "mut" (by decide) (by decide)).to
      · exact .nil
    exact ((((t_P q "&" (by decide)).seq h1).seq h2).seq ih).to
  | pin r t ih => exact t_generic q (t_priv q r _ (by decide)) ih
  | phantomData r t ih => exact t_generic q (t_priv q r _ (by decide)) ih
  | phantomPinned => exact (t_privLocal q _ (by decide)).to
  | adt n as => exact (t_adt q n as).to
  | param n => exact (t_U n).to
  | selfTy => exact (t_self q _ (by decide)).to
  | ptrMut t ih => exact (((t_P q "*" (by decide)).seq (t_K q "mut" (by decide) (by decide))).seq ih).to
  | pinnedFieldsOf t ih => exact (t_generic q (t_privLocal q _ (by decide)) ih).to
  | wrapper lt t ih =>
    exact ((((((t_privLocal q ["Wrapper"] (by decide)).seq (t_P q "<" (by decide))).seq (t_life q.lt lt)).seq
      (t_P q "," (by decide))).seq ih).seq (t_P q ">" (by decide))).to
  | alwaysUnpin lt ps =>
    refine ((((((t_privLocal q ["AlwaysUnpin"] (by decide)).seq (t_P q "<" (by decide))).seq (t_life q.lt lt)).seq
      (t_P q "," (by decide))).seq (t_parens q _ fun t ht => ?_)).seq (t_P q ">" (by decide))).to
    obtain ⟨p, -, rfl⟩ := List.mem_map.1 ht
    exact (t_generic q (t_privLocal q _ (by decide)) (t_U p).to).to
  | unit => exact ((t_P q "(" (by decide)).seq (t_P q ")" (by decide))).to

theorem t_trait (t : GTrait) : T Left (trait_ q t) Left := by
  cases t with
  | unsafeUnpin => exact leave (by decide) ((t_local q).seq (t_segments q _ []))
  | mustNotImplDrop n => exact (t_U n).to
  | _ => exact t_privLocal q _ (by decide)

theorem t_gparam (p : GParam) : T Ready (gparam q p) Left := by
  cases p with
  | lifetime n bs => exact (T.seq (x := [_]) (t_life _ _) (t_users _)).to
  | type n bs d => exact (t_users _).to
  | const n t d => exact (t_users _).to

theorem t_generics (ps : List GParam) : T Left (generics q ps) Left :=
  t_angles q _ fun t ht => by
    obtain ⟨a, -, rfl⟩ := List.mem_map.1 ht
    exact t_gparam q a

theorem t_pred (b : Span) (p : WPred) : T Ready (pred q b p) Left := by
  cases p with
  | user n => exact (t_users _).to
  | outlives t lt => exact (((t_ty _ t).seq (t_P _ ":" (by decide))).seq (t_life _ _)).to
  | bound t tr => exact (((t_ty _ t).seq (t_P _ ":" (by decide))).seq (t_trait _ tr)).to

theorem t_wheres (b : Span) (ps : List WPred) : T Left (wheres q b ps) Left := by
  unfold wheres
  split
  · exact .nil
  · refine ((t_K _ "where" (by decide) (by decide)).seq (t_sep _ _ fun t ht => ?_)).to
    obtain ⟨a, -, rfl⟩ := List.mem_map.1 ht
    exact t_pred q b a

theorem t_field (own : Bool) (f : GField) (h : own = true → ∀ i, f.ident = some i → OwnName i) :
    T Ready (field q own f) Left := by
  refine T.seq (B := Ready) ((t_vis f.vis).seq (B' := Ready) ?_) (t_ty q f.ty)
  cases hf : f.ident with
  | none => exact .nil
  | some i =>
    have h1 : T Left (if own = true then W q i else U i) Left := by
      split
      · next ho => exact (t_own q (h ho i hf)).to
      · exact (t_U i).to
    exact (h1.seq (t_P q ":" (by decide))).to

theorem t_fields (own : Bool) (f : GFields) (h : own = true → ∀ g ∈ f.fields, ∀ i, g.ident = some i → OwnName i) :
    T Left (fields q own f) Left :=
  t_delimited q _ _ fun t ht => by
    obtain ⟨g, hg, rfl⟩ := List.mem_map.1 ht
    exact t_field q own g fun ho i hi => h ho g hg i hi

/-! ## Bodies

The conditions on the names: variables are `self` or names of generated code, and so are the bindings of fields
without names. -/

def LocalName (x : String) : Prop := x = "self" ∨ OwnName x
def BinderOk (d : Option Delim) (x : String) : Prop := d ≠ some .brace → OwnName x

def FExprOk (d : Option Delim) : FExpr → Prop
  | .bind x | .pinNew x | .read x => BinderOk d x
  | .phantom => True

def InitOk (d : Option Delim) : GInit → Prop
  | .labelled _ e => FExprOk d e
  | .bare x => BinderOk d x

def CtorOk (c : GCtor) : Prop := ∀ i ∈ c.inits, InitOk c.delim i

def PatOk (p : GPat) : Prop := ∀ x ∈ p.binders, BinderOk p.delim x

def RhsOk (d : Option Delim) : RHS → Prop
  | .var x | .getUncheckedMut x | .getRef x | .reborrow x | .pinNew x | .pinnedDropCall x => LocalName x
  | .ctor c => CtorOk c
  | .overwriteGuard p v => LocalName p ∧ LocalName v
  | .dropGuard x => BinderOk d x
  | .unit => True

def StmtOk (d : Option Delim) : GStmt → Prop
  | .letPat p e => PatOk p ∧ RhsOk d e
  | .letVar x t e => LocalName x ∧ (∀ s, t = some s → s = "*mut Self") ∧ RhsOk d e
  | .scope ss => ∀ s ∈ ss, LocalName s.1 ∧ RhsOk d s.2
  | .expr e => RhsOk d e

def ArmOk (a : GArm) : Prop := PatOk a.pat ∧ (∀ s ∈ a.stmts, StmtOk a.pat.delim s) ∧ RhsOk a.pat.delim a.tail

def BodyOk (b : GBody) : Prop :=
  (∀ s ∈ b.stmts, StmtOk (structDelim b.stmts) s) ∧
  match b.tail with
  | .expr e => RhsOk (structDelim b.stmts) e
  | .match_ s arms => RhsOk none s ∧ ∀ a ∈ arms, ArmOk a

theorem t_local_ {x : String} (h : LocalName x) : T Left (W q x) Name := by
  rcases h with rfl | h
  · exact t_self q _ (by decide)
  · exact t_own q h

theorem t_binder {d : Option Delim} {x : String} (h : BinderOk d x) : T Left (binder q d x) Left := by
  unfold binder
  split
  · exact (t_U x).to
  · next hd => exact (t_own _ (h hd)).to

theorem t_selfPath (v : String) : T Left (W q "Self" ++ (P q "::" ++ U v)) Left := by
  have h2 : T Name (P q "::") (fun a => a = .sepName) := .step fun _ ha => ⟨_, ha ▸ .nameColons, rfl⟩
  have h3 : T (fun a => a = .sepName) (U v) Ready := .step fun _ ha => ⟨_, ha ▸ .selfSegment, .inr rfl⟩
  exact ((t_self q "Self" (by decide)).seq (h2.seq h3)).to

theorem t_userPath (x v : String) : T Left (U x ++ (P q "::" ++ U v)) Left := by
  have h1 : T Left (U x) (fun a => a = .user) := .step fun _ ha => ⟨_, .user ha, rfl⟩
  have h2 : T (fun a => a = .user) (P q "::") (fun a => a = .sepUser) := .step fun _ ha => ⟨_, ha ▸ .userColons, rfl⟩
  have h3 : T (fun a => a = .sepUser) (U v) Ready := .step fun _ ha => ⟨_, ha ▸ .userSegment, .inr rfl⟩
  exact (h1.seq (h2.seq h3)).to

theorem t_pat {p : GPat} (h : PatOk p) : T Left (pat q p) Left := by
  have hb : ∀ t ∈ p.binders.map (binder q p.delim), T Ready t Left := fun t ht => by
    obtain ⟨x, hx, rfl⟩ := List.mem_map.1 ht
    exact (t_binder q (h x hx)).to
  unfold pat
  cases p.variant with
  | none => exact ((t_self q "Self" (by decide)).seq (.nil (A := Name) (B := Left))).seq (t_delimited q _ _ hb)
  | some v => exact (t_selfPath q v).seq (t_delimited q _ _ hb)

theorem t_call {x y : Toks} (hx : T Left x Left) (hy : T Left y Left) : T Left (x ++ P q "(" ++ y ++ P q ")") Idle :=
  ((hx.seq (t_P q "(" (by decide))).seq hy).seq (t_P q ")" (by decide))

theorem t_fexpr {d : Option Delim} {e : FExpr} (h : FExprOk d e) : T Left (fexpr q d e) Left := by
  cases e with
  | bind x => exact t_binder q h
  | pinNew x => exact (t_call q (t_privLocal q _ (by decide)) (t_binder q h)).to
  | read x => exact (t_call q (t_privLocal q _ (by decide)) (t_binder q h)).to
  | phantom => exact t_privLocal q _ (by decide)

theorem t_init {d : Option Delim} {i : GInit} (h : InitOk d i) : T Ready (init q d i) Left := by
  cases i with
  | bare x => exact (t_binder q h).to
  | labelled i e =>
    cases i with
    | none => exact (t_fexpr q h).to
    | some i => exact (((t_U i).seq (t_P q ":" (by decide))).seq (t_fexpr q h)).to

theorem t_ctor {c : GCtor} (h : CtorOk c) : T Left (ctor q c) Left := by
  have hb : ∀ t ∈ c.inits.map (init q c.delim), T Ready t Left := fun t ht => by
    obtain ⟨x, hx, rfl⟩ := List.mem_map.1 ht
    exact t_init q (h x hx)
  unfold ctor
  cases c.variant with
  | none => exact ((t_U c.ty).seq (.nil (A := Ready) (B := Left))).seq (t_delimited q _ _ hb)
  | some v => exact (t_userPath q c.ty v).seq (t_delimited q _ _ hb)

theorem t_method {x : String} (w : String) (hw : w ∈ ["get_unchecked_mut", "get_ref"]) (h : LocalName x) :
    T Left (W q x ++ P q "." ++ W q w ++ P q "(" ++ P q ")") Left := by
  have h2 : T Name (P q ".") (fun a => a = .dot) := .step fun _ ha => ⟨_, ha ▸ .dot, rfl⟩
  have h3 : T (fun a => a = .dot) (W q w) Name := .step fun _ ha => ⟨_, ha ▸ .method hw, rfl⟩
  exact (((((t_local_ q h).seq h2).seq h3).seq (t_P q "(" (by decide))).seq (t_P q ")" (by decide))).to

theorem t_rhs {d : Option Delim} {e : RHS} (h : RhsOk d e) : T Left (rhs q d e) Left := by
  cases e with
  | var x => exact (t_local_ q h).to
  | getUncheckedMut x => exact t_method q _ (by decide) h
  | getRef x => exact t_method q _ (by decide) h
  | reborrow x =>
    exact ((((t_P q "&" (by decide)).seq (t_K q "mut" (by decide) (by decide))).seq (t_P q "*" (by decide))).seq
      (t_local_ q h)).to
  | pinNew x => exact (t_call q (t_privLocal q _ (by decide)) (t_local_ q h).to).to
  | ctor c => exact t_ctor q h
  | overwriteGuard p v =>
    exact ((((((t_privLocal q ["UnsafeOverwriteGuard", "new"] (by decide)).seq (t_P q "(" (by decide))).seq
      (t_local_ q h.1)).seq (t_P q "," (by decide))).seq (t_local_ q h.2)).seq (t_P q ")" (by decide))).to
  | dropGuard x => exact (t_call q (t_privLocal q _ (by decide)) (t_binder q h)).to
  | pinnedDropCall x => exact (t_call q (t_privLocal q _ (by decide)) (t_local_ q h).to).to
  | unit => exact .nil

theorem t_ascription {t : Option String} (h : ∀ s, t = some s → s = "*mut Self") : T Left (ascription q t) Left := by
  cases t with
  | none => exact .nil
  | some s =>
    obtain rfl := h s rfl
    exact ((t_P q ":" (by decide)).seq
      (((t_P q "*" (by decide)).seq (t_K q "mut" (by decide) (by decide))).seq (t_self q "Self" (by decide)))).to

theorem t_let : T Left (W q "let") Idle := t_K q "let" (by decide) (by decide)

theorem t_stmt {d : Option Delim} {s : GStmt} (h : StmtOk d s) : T Left (stmt q d s) Left := by
  cases s with
  | letPat p e =>
    exact (((((t_let q).seq (t_pat q h.1)).seq (t_P q "=" (by decide))).seq (t_rhs q h.2)).seq
      (t_P q ";" (by decide))).to
  | letVar x t e =>
    exact ((((((t_let q).seq (t_local_ q h.1)).seq (t_ascription q h.2.1)).seq (t_P q "=" (by decide))).seq
      (t_rhs q h.2.2)).seq (t_P q ";" (by decide))).to
  | scope ss =>
    refine (((t_P q "{" (by decide)).seq (T.flatMap (A := Left) ss _ fun s hs => ?_)).seq (t_P q "}" (by decide))).to
    exact (((((t_let q).seq (t_local_ q (h s hs).1)).seq (t_P q "=" (by decide))).seq (t_rhs q (h s hs).2)).seq
      (t_P q ";" (by decide))).to
  | expr e => exact ((t_rhs q h).seq (t_P q ";" (by decide))).to

theorem t_ite {A B : At → Prop} {x y : Toks} {c : Prop} [Decidable c] (hx : T A x B) (hy : T A y B) :
    T A (if c then x else y) B := by split <;> assumption

theorem t_arm (brace : Bool) {a : GArm} (h : ArmOk a) : T Left (arm q brace a) Left :=
  ((((((t_pat q h.1).seq (t_P q "=>" (by decide))).seq
    (t_ite (B := Left) (t_P q "{" (by decide)).to (.nil (A := Left)))).seq
    (T.flatMap (A := Left) _ _ fun s hs => t_stmt q (h.2.1 s hs))).seq (t_rhs q h.2.2)).seq
    (t_ite (t_P q "}" (by decide)) (t_P q "," (by decide)))).to

theorem t_body {b : GBody} (h : BodyOk b) : T Left (body q b) Left := by
  refine (T.flatMap (A := Left) _ _ fun s hs => t_stmt q (h.1 s hs)).seq (B' := Left) ?_
  have h2 := h.2
  cases hb : b.tail with
  | expr e =>
    rw [hb] at h2
    exact t_rhs q h2
  | match_ s arms =>
    rw [hb] at h2
    exact (((((t_K q "match" (by decide) (by decide)).seq (t_rhs q h2.1)).seq (t_P q "{" (by decide))).seq
      (T.flatMap (A := Left) _ _ fun a ha => t_arm q _ (h2.2 a ha))).seq (t_P q "}" (by decide))).to

theorem t_receiver (t : GTy) : T Left (receiver q t) Left := by
  unfold receiver
  split
  · exact (((t_P q "&" (by decide)).seq (t_K q "mut" (by decide) (by decide))).seq (t_self q "self" (by decide))).to
  · exact ((t_self q "self" (by decide)).seq (t_P q ":" (by decide))).seq (t_ty q _)

structure FnOk (f : GFn) : Prop where
  attrs : ∀ a ∈ f.attrs, a ∈ ["allow(dead_code)", "inline", "allow(clippy::missing_inline_in_public_items)"]
  params : ∀ p ∈ f.params, LocalName p.1
  body : BodyOk f.body
  name : f.name ∈ ["project", "project_ref", "project_replace", "drop"]

theorem t_unsafety : T Left unsafety Idle := .step fun _ ha => ⟨_, .keyword ha (by decide) (by decide), rfl⟩

theorem t_sig {f : GFn} (h : FnOk f) : T Left (sig q f) Left := by
  have hfn : T Left (vis f.vis ++ (if f.isUnsafe then unsafety else []) ++ W q "fn" ++ W q f.name) Name := by
    rw [List.append_assoc]
    exact ((t_visLeft f.vis).seq (t_ite (B := Left) t_unsafety.to (.nil (A := Left)))).seq (t_fn q f.name)
  refine ((hfn.seq (t_angles q _ fun t ht => ?_)).seq (t_parens q _ fun t ht => ?_)).seq (B' := Idle) ?_
  · obtain ⟨l, -, rfl⟩ := List.mem_map.1 ht
    exact (t_life _ _).to
  · rcases List.mem_cons.1 ht with rfl | ht
    · exact (t_receiver q _).to
    · obtain ⟨p, hp, rfl⟩ := List.mem_map.1 ht
      exact (((t_local_ q (h.params p hp)).seq (t_P q ":" (by decide))).seq (t_ty q _)).to
  · split
    · exact T.nil (A := Idle)
    · exact (((t_P q "->" (by decide)).seq (t_ty q _)).to)

theorem t_fnAttr {a : String} (h : a ∈ ["allow(dead_code)", "inline", "allow(clippy::missing_inline_in_public_items)"]) :
    T Left (fnAttr q a) Left := by
  simp only [List.mem_cons, List.not_mem_nil, or_false] at h
  rcases h with rfl | rfl | rfl
  · exact (t_attr q "allow" _ (by decide)).to
  · exact (t_attr q "inline" _ (by decide)).to
  · exact (t_attr q "allow" _ (by decide)).to

theorem t_gfn (s : Span) {f : GFn} (h : FnOk f) : T Left (fn q s f) Left := by
  refine ((((T.flatMap (A := Left) _ _ fun a ha => t_fnAttr q (h.attrs a ha)).seq (t_sig _ h)).seq
    (t_P q "{" (by decide))).seq (B' := Left) (C := Left) ?_).seq (t_P q "}" (by decide)) |>.to
  exact t_ite (((t_unsafety.seq (t_P q "{" (by decide))).seq (t_body q h.body)).seq (t_P q "}" (by decide))).to
    (t_body q h.body).to

end

theorem t_fieldRef (r : String) : T (fun a => a = .dot) (fieldRef r) Left := by
  unfold fieldRef
  split
  · exact .step fun _ ha => ⟨_, ha ▸ .index, .name⟩
  · exact .step fun _ ha => ⟨_, ha ▸ .userField, .user⟩

/-- What the items of an expansion have in common. -/
def ItemOk (own : Bool) : GItem → Prop
  | .struct_ _ _ _ _ _ fs => own = true → ∀ g ∈ fs.fields, ∀ i, g.ident = some i → OwnName i
  | .enum_ _ _ _ _ _ _ => own = false
  | .inherent _ _ _ _ fns => ∀ f ∈ fns, FnOk f
  | .traitImpl _ _ _ _ _ _ _ fns => ∀ f ∈ fns, FnOk f
  | _ => True

theorem ownName {w : String} (h : w ∈ ["T", "this", "__self_ptr", "__guard", "__result", "__replacement",
    "__pinned_self", "__pin_project_use_generics", "__drop_inner"]) : OwnName w := .inl h

theorem t_item (lt : String) (u : UnpinImpl) (own : Bool) {i : GItem} (h : ItemOk own i) :
    T Left (item lt u own i) Left := by
  have t_A := fun (q : Quote) as => t_attr q "allow" as (by decide)
  cases i with
  | struct_ attrs v n ps ws fs =>
    refine ((((((t_A _ attrs).seq (t_visLeft v)).seq (t_K _ "struct" (by decide) (by decide))).seq (t_U n)).seq
      (t_generics _ ps)).seq (B' := Left) ?_)
    refine t_ite ?_ ((t_wheres _ _ ws).seq (t_fields _ own fs h))
    exact (((t_fields _ own fs h).seq (t_wheres _ _ ws)).seq (t_P _ ";" (by decide))).to
  | enum_ attrs v n ps ws vs =>
    refine (((((((((t_A _ attrs).seq (t_visLeft v)).seq (t_K _ "enum" (by decide) (by decide))).seq (t_U n)).seq
      (t_generics _ ps)).seq (t_wheres _ _ ws)).seq (t_P _ "{" (by decide))).seq
      (t_sep _ _ fun t ht => ?_)).seq (t_P _ "}" (by decide))).to
    obtain ⟨x, hx, rfl⟩ := List.mem_map.1 ht
    exact ((t_U x.1).seq (t_fields _ own x.2 fun ho => by rw [show own = false from h] at ho; cases ho)).to
  | inherent ps n as ws fns =>
    refine (((((((t_K _ "impl" (by decide) (by decide)).seq (t_generics _ ps)).seq (t_adt _ n as)).seq
      (t_wheres _ _ ws)).seq (t_P _ "{" (by decide))).seq
      (T.flatMap (A := Left) _ _ fun f hf => ?_)).seq (t_P _ "}" (by decide))).to
    obtain ⟨g, hg, rfl⟩ := List.mem_map.1 hf
    exact t_gfn _ _ (h g hg)
  | traitImpl hidden isUnsafe ps tr n as ws fns =>
    refine (((((((((((t_ite (B := Left) (t_attr _ "doc" _ (by decide)).to (T.nil (A := Left))).seq
      (t_ite (B := Left) t_unsafety.to (T.nil (A := Left)))).seq (t_K _ "impl" (by decide) (by decide))).seq
      (t_generics _ ps)).seq (t_trait _ tr)).seq (t_K _ "for" (by decide) (by decide))).seq (t_adt _ n as)).seq
      (t_wheres _ _ ws)).seq (t_P _ "{" (by decide))).seq
      (T.flatMap (A := Left) _ _ fun f hf => ?_)).seq (t_P _ "}" (by decide))).to
    obtain ⟨g, hg, rfl⟩ := List.mem_map.1 hf
    exact t_gfn _ _ (h g hg)
  | traitDef n =>
    exact ((((t_K _ "trait" (by decide) (by decide)).seq (t_U n)).seq (t_P _ "{" (by decide))).seq
      (t_P _ "}" (by decide))).to
  | blanketDrop n =>
    exact ((((((((((((t_A _ _).seq (t_K _ "impl" (by decide) (by decide))).seq (t_P _ "<" (by decide))).seq
      (t_own _ (ownName (by decide)))).seq (t_P _ ":" (by decide))).seq (t_privLocal _ _ (by decide))).seq
      (t_P _ ">" (by decide))).seq (t_U n)).seq (t_K _ "for" (by decide) (by decide))).seq
      (t_own _ (ownName (by decide)))).seq (t_P _ "{" (by decide))).seq (t_P _ "}" (by decide))).to
  | assertNotPacked ps n as ws refs =>
    simp only [item, functions, List.flatMap_cons, List.flatMap_nil, List.append_nil, assertFn]
    have h0 : T Left (attr ⟨lt, .site⟩ "forbid" ["unaligned_references", "safe_packed_borrows"] ++
        W ⟨lt, .site⟩ "fn" ++ W ⟨lt, .site⟩ "__assert_not_repr_packed") Name := by
      rw [List.append_assoc]
      exact (t_attr _ _ _ (by decide)).seq (t_fn _ _)
    refine (((((((((((h0.seq (t_generics _ ps)).seq (t_P _ "(" (by decide))).seq
      (t_own _ (ownName (by decide)))).seq (t_P _ ":" (by decide))).seq (t_P _ "&" (by decide))).seq
      (t_adt _ n as)).seq (t_P _ ")" (by decide))).seq (t_wheres _ _ ws)).seq (t_P _ "{" (by decide))).seq
      (T.flatMap (A := Left) _ _ fun r hr => ?_)).seq (t_P _ "}" (by decide))).to
    have h_ : T Left (W ⟨lt, .site⟩ "_") Idle := .step fun _ ha => ⟨_, .underscore ha, rfl⟩
    have hd : T Name (P ⟨lt, .site⟩ ".") (fun a => a = .dot) := .step fun _ ha => ⟨_, ha ▸ .dot, rfl⟩
    exact ((((((((t_let _).seq h_).seq (t_P _ "=" (by decide))).seq (t_P _ "&" (by decide))).seq
      (t_own _ (ownName (by decide)))).seq hd).seq (t_fieldRef r)).seq (t_P _ ";" (by decide))).to

/-- An expansion whose items satisfy the conditions can be read. -/
theorem t_expansion (cx : Ctx) (E : Expansion) (h1 : ∀ i ∈ E.exposed, ItemOk false i)
    (h2 : ∀ i ∈ E.inScope, ItemOk (isHelper i) i) : T Left (expansion cx E) Left := by
  have hu : T Left (W ⟨cx.lifetime, .site⟩ "_") Idle := .step fun _ ha => ⟨_, .underscore ha, rfl⟩
  have hk : T Left (W ⟨cx.lifetime, .site⟩ "crate") (fun a => a = .krate) := .step fun _ ha => ⟨_, .krate ha, rfl⟩
  have hp : T (fun a => a = .krate) (W ⟨cx.lifetime, .site⟩ "pin_project") Name :=
    .step fun _ ha => ⟨_, ha ▸ .crateName, rfl⟩
  have ha : T Left (W ⟨cx.lifetime, .site⟩ "as") (fun a => a = .alias) := .step fun _ ha => ⟨_, .as_ ha, rfl⟩
  have hn : T (fun a => a = .alias) (W ⟨cx.lifetime, .site⟩ "_pin_project") Name :=
    .step fun _ ha => ⟨_, ha ▸ .aliasName, rfl⟩
  have t_A := fun (q : Quote) as => t_attr q "allow" as (by decide)
  exact ((((((((((((((((((T.flatMap (A := Left) _ _ fun i hi => t_item _ _ _ (h1 i hi)).seq (t_A _ _)).seq
    (t_K _ "const" (by decide) (by decide))).seq hu).seq (t_P _ ":" (by decide))).seq (t_P _ "(" (by decide))).seq
    (t_P _ ")" (by decide))).seq (t_P _ "=" (by decide))).seq (t_P _ "{" (by decide))).seq (t_A _ _)).seq
    (t_K _ "extern" (by decide) (by decide))).seq hk).seq hp).seq ha).seq hn).seq (t_P _ ";" (by decide))).seq
    (T.flatMap (A := Left) _ _ fun i hi => t_item _ _ _ (h2 i hi))).seq (t_P _ "}" (by decide))).seq
    (t_P _ ";" (by decide)) |>.to


/-! ## The items of an expansion satisfy the conditions -/

theorem ownIndex (n : Nat) : OwnName ("_" ++ toString n) := .inr ⟨n, by simp⟩

theorem binding_ok {fields : Fields} (h : fields.WF) {x : Field × Nat} (hx : x ∈ fields.list.zipIdx) :
    BinderOk fields.delim (binding x.2 x.1) := by
  intro hd
  cases fields with
  | named fs => exact absurd rfl hd
  | unit => simp [Fields.list] at hx
  | unnamed fs =>
    have h1 : x.1.ident = none := h _ (List.fst_mem_of_mem_zipIdx hx)
    simp only [binding, h1, Option.getD_none]
    exact ownIndex _

theorem pat_ok {fields : Fields} (h : fields.WF) (cx : Ctx) (v : Option String) :
    PatOk (projectedOf cx v fields).projPat := by
  intro b hb
  obtain ⟨x, hx, rfl⟩ := List.mem_map.1 hb
  exact binding_ok h hx

theorem projInit_ok {fields : Fields} (h : fields.WF) {x : Field × Nat} (hx : x ∈ fields.list.zipIdx) :
    InitOk fields.delim (projInit x) := by
  have := binding_ok h hx
  unfold projInit
  (repeat' split) <;> exact this

theorem moveInit_ok {fields : Fields} (h : fields.WF) {x : Field × Nat} (hx : x ∈ fields.list.zipIdx) :
    InitOk fields.delim (moveInit x) := by
  have := binding_ok h hx
  unfold moveInit
  split
  · trivial
  · exact this

theorem ctor_ok {fields : Fields} (h : fields.WF) (cx : Ctx) (v : Option String) (n : String) :
    CtorOk ⟨n, v, (projectedOf cx v fields).projBody.1, (projectedOf cx v fields).projBody.2⟩ := by
  intro i hi
  obtain ⟨x, hx, rfl⟩ := List.mem_map.1 hi
  exact projInit_ok h hx

theorem own_ok {fields : Fields} (h : fields.WF) (cx : Ctx) (v : Option String) :
    (∀ s ∈ (projectedOf cx v fields).projOwnBody.1, StmtOk fields.delim s) ∧
    RhsOk fields.delim (projectedOf cx v fields).projOwnBody.2 := by
  refine ⟨?_, .inr (ownName (by decide))⟩
  intro s hs
  simp only [projectedOf, projOwnBody, List.mem_cons, List.not_mem_nil, or_false] at hs
  rcases hs with rfl | rfl
  · refine ⟨.inr (ownName (by decide)), fun _ h => by simp at h, ?_⟩
    intro i hi
    obtain ⟨x, hx, rfl⟩ := List.mem_map.1 hi
    exact moveInit_ok h hx
  · intro s hs
    obtain ⟨b, hb, rfl⟩ := List.mem_map.1 hs
    refine ⟨.inr (ownName (w := "__guard") (by decide)), ?_⟩
    obtain ⟨x, hx, rfl⟩ := List.mem_map.1 (List.mem_reverse.1 hb)
    exact binding_ok h (List.mem_filter.1 hx).1

theorem selfLocal : LocalName "self" := .inl rfl

theorem bodiesS_ok {fields : Fields} (h : fields.WF) (cx : Ctx) :
    BodyOk (projMutBodyS cx fields) ∧ BodyOk (projRefBodyS cx fields) ∧
    BodyOk (projectReplaceFn cx (projOwnBodyS cx fields)).body := by
  refine ⟨⟨?_, ctor_ok h cx none cx.mutIdent⟩, ⟨?_, ctor_ok h cx none cx.refIdent⟩, ?_, (own_ok h cx none).2⟩
  · intro s hs
    obtain rfl := List.mem_singleton.1 hs
    exact ⟨pat_ok h cx none, selfLocal⟩
  · intro s hs
    obtain rfl := List.mem_singleton.1 hs
    exact ⟨pat_ok h cx none, selfLocal⟩
  · intro s hs
    show StmtOk fields.delim s
    simp only [projectReplaceFn, projOwnBodyS, List.cons_append, List.nil_append, List.mem_cons] at hs
    rcases hs with rfl | rfl | rfl | hs
    · exact ⟨.inr (ownName (by decide)), fun _ h => by simpa using h.symm, selfLocal⟩
    · exact ⟨.inr (ownName (by decide)), fun _ h => by simp at h, .inr (ownName (by decide)), .inr (ownName (by decide))⟩
    · exact ⟨pat_ok h cx none, .inr (ownName (by decide))⟩
    · exact (own_ok h cx none).1 s hs

theorem bodiesE_ok {vs : List Variant} (h : ∀ v ∈ vs, v.fields.WF) (cx : Ctx) :
    BodyOk (projMutBodyE cx vs) ∧ BodyOk (projRefBodyE cx vs) ∧
    BodyOk (projectReplaceFn cx (projOwnBodyE cx vs)).body := by
  refine ⟨⟨fun _ hs => (by cases hs), selfLocal, ?_⟩, ⟨fun _ hs => (by cases hs), selfLocal, ?_⟩, ?_,
    .inr (ownName (by decide)), ?_⟩
  · intro a ha
    obtain ⟨v, hv, rfl⟩ := List.mem_map.1 ha
    exact ⟨pat_ok (h v hv) cx _, fun _ hs => (by cases hs), ctor_ok (h v hv) cx _ _⟩
  · intro a ha
    obtain ⟨v, hv, rfl⟩ := List.mem_map.1 ha
    exact ⟨pat_ok (h v hv) cx _, fun _ hs => (by cases hs), ctor_ok (h v hv) cx _ _⟩
  · intro s hs
    simp only [projectReplaceFn, projOwnBodyE, List.mem_cons, List.append_nil, List.not_mem_nil, or_false] at hs
    rcases hs with rfl | rfl
    · exact ⟨.inr (ownName (by decide)), fun _ h => by simpa using h.symm, selfLocal⟩
    · exact ⟨.inr (ownName (by decide)), fun _ h => by simp at h, .inr (ownName (by decide)), .inr (ownName (by decide))⟩
  · intro a ha
    obtain ⟨v, hv, rfl⟩ := List.mem_map.1 ha
    exact ⟨pat_ok (h v hv) cx _, (own_ok (h v hv) cx (some v.ident)).1,
      (own_ok (h v hv) cx (some v.ident)).2⟩

theorem impl_ok (cx : Ctx) (b1 b2 b3 : GBody) (own : Bool) (h1 : BodyOk b1) (h2 : BodyOk b2)
    (h3 : BodyOk (projectReplaceFn cx b3).body) : ItemOk own (makeProjImpl cx b1 b2 b3) := by
  rw [makeProjImpl_eq]
  intro f hf
  have hattr : ∀ a ∈ ["allow(dead_code)", "inline"],
      a ∈ ["allow(dead_code)", "inline", "allow(clippy::missing_inline_in_public_items)"] := by decide
  have : f = projectFn cx b1 ∨ f = projectRefFn cx b2 ∨ f = projectReplaceFn cx b3 := by
    simp only [implFns, List.mem_append] at hf
    rcases hf with (hf | hf) | hf <;> split at hf <;> simp at hf <;> simp [hf]
  rcases this with rfl | rfl | rfl
  · exact ⟨hattr, fun _ h => (by cases h), h1, by simp [projectFn]⟩
  · exact ⟨hattr, fun _ h => (by cases h), h2, by simp [projectRefFn]⟩
  · refine ⟨hattr, fun p h => ?_, h3, by simp [projectReplaceFn]⟩
    obtain rfl := List.mem_singleton.1 h
    exact .inr (ownName (by decide))

theorem unpin_ok (cx : Ctx) (tys : List Node) : ∀ i ∈ makeUnpinImpl cx tys, ItemOk (isHelper i) i := by
  intro i hi
  unfold makeUnpinImpl at hi
  split at hi
  · obtain rfl := List.mem_singleton.1 hi
    exact fun f hf => by cases hf
  · simp only [List.mem_cons, List.not_mem_nil, or_false] at hi
    rcases hi with rfl | rfl <;> exact fun f hf => by cases hf
  · simp only [List.mem_cons, List.not_mem_nil, or_false] at hi
    rcases hi with rfl | rfl | rfl
    · intro _ g hg n hn
      simp only [List.cons_append, List.mem_cons, List.mem_append, List.mem_mapIdx] at hg
      rcases hg with rfl | ⟨k, hk, rfl⟩ | ⟨k, hk, rfl⟩ <;> cases hn
      · exact ownName (by decide)
      · exact .inr ⟨k, by simp⟩
      · exact .inr ⟨k, by simp⟩
    · exact fun f hf => by cases hf
    · exact fun f hf => by cases hf

theorem drop_ok (cx : Ctx) : ∀ i ∈ makeDropImpl cx, ItemOk (isHelper i) i := by
  intro i hi
  unfold makeDropImpl at hi
  split at hi
  · obtain rfl := List.mem_singleton.1 hi
    intro f hf
    obtain rfl := List.mem_singleton.1 hf
    refine ⟨by simp, fun _ h => (by cases h), ⟨?_, trivial⟩, by decide⟩
    intro s hs
    simp only [List.mem_cons, List.not_mem_nil, or_false] at hs
    rcases hs with rfl | rfl
    · exact ⟨.inr (ownName (by decide)), fun _ h => by simp at h, selfLocal⟩
    · exact .inr (ownName (by decide))
  · simp only [List.mem_cons, List.not_mem_nil, or_false] at hi
    rcases hi with rfl | rfl | rfl | rfl
    · trivial
    · trivial
    · exact fun f hf => by cases hf
    · intro f hf
      obtain rfl := List.mem_singleton.1 hf
      exact ⟨fun _ h => (by cases h), fun _ h => (by cases h), ⟨fun _ h => (by cases h), trivial⟩, by decide⟩

/-- Projected types are not taken for the helper struct. -/
theorem not_helper (cx : Ctx) (v : Vis) (n : String) (ps : List GParam) (ws : List WPred) (fs : GFields) :
    isHelper (.struct_ (projAllowedLints cx).1 v n ps ws fs) = false ∧
    isHelper (.struct_ (projAllowedLints cx).2.1 v n ps ws fs) = false ∧
    isHelper (.struct_ (projAllowedLints cx).2.2 v n ps ws fs) = false := by
  simp [isHelper, projAllowedLints]

/-- The conditions on all items of an expansion. -/
def ExpansionOk (E : Expansion) : Prop := (∀ i ∈ E.exposed, ItemOk false i) ∧ ∀ i ∈ E.inScope, ItemOk (isHelper i) i

theorem struct_ok {fields : Fields} (h : fields.WF) (cx : Ctx) : ExpansionOk (structExpansion cx fields) := by
  obtain ⟨b1, b2, b3⟩ := bodiesS_ok h cx
  have hp : ItemOk (isHelper (projItemS cx fields)) (projItemS cx fields) := by
    rw [projItemS, (not_helper cx _ _ _ _ _).1]; exact fun h => by cases h
  have hr : ItemOk (isHelper (refItemS cx fields)) (refItemS cx fields) := by
    rw [refItemS, (not_helper cx _ _ _ _ _).2.1]; exact fun h => by cases h
  have ho : ItemOk (isHelper (ownItemS cx fields)) (ownItemS cx fields) := by
    rw [ownItemS, (not_helper cx _ _ _ _ _).2.2]; exact fun h => by cases h
  refine ⟨?_, ?_⟩
  · intro i hi
    have : i = projItemS cx fields ∨ i = refItemS cx fields ∨ i = ownItemS cx fields := by
      simp only [structExpansion, List.mem_append] at hi
      rcases hi with (hi | hi) | hi <;> (repeat' split at hi) <;> simp at hi <;> simp [hi]
    rcases this with rfl | rfl | rfl <;> exact fun h => by cases h
  · intro i hi
    simp only [structExpansion, List.mem_append] at hi
    rcases hi with ((((( hi | hi) | hi) | hi) | hi) | hi) | hi
    · split at hi <;> simp at hi; subst hi; exact hp
    · split at hi <;> simp at hi; subst hi; exact hr
    · (repeat' split at hi) <;> simp at hi; subst hi; exact ho
    · obtain rfl := List.mem_singleton.1 hi
      exact impl_ok cx _ _ _ _ b1 b2 b3
    · obtain rfl := List.mem_singleton.1 hi
      trivial
    · exact unpin_ok cx _ i hi
    · exact drop_ok cx i hi

theorem enum_ok {vs : List Variant} (h : ∀ v ∈ vs, v.fields.WF) (cx : Ctx) :
    ExpansionOk (enumExpansion cx vs) := by
  obtain ⟨b1, b2, b3⟩ := bodiesE_ok h cx
  refine ⟨?_, ?_⟩
  · intro i hi
    have : i = projItemE cx vs ∨ i = refItemE cx vs ∨ i = ownItemE cx vs := by
      simp only [enumExpansion, List.mem_append] at hi
      rcases hi with (hi | hi) | hi <;> (repeat' split at hi) <;> simp at hi <;> simp [hi]
    rcases this with rfl | rfl | rfl <;> rfl
  · intro i hi
    simp only [enumExpansion, List.mem_append] at hi
    rcases hi with (hi | hi) | hi
    · obtain rfl := List.mem_singleton.1 hi
      exact impl_ok cx _ _ _ _ b1 b2 b3
    · exact unpin_ok cx _ i hi
    · exact drop_ok cx i hi

/-! ## `#[pinned_drop]` -/

theorem t_anglesReady (q : Quote) (ts : List Toks) (h : ∀ t ∈ ts, T Ready t Left) : T Ready (angles q ts) Ready := by
  unfold angles
  split
  · exact .nil
  · exact (((t_P q "<" (by decide)).seq (t_sep q ts h)).seq (t_P q ">" (by decide))).to

theorem t_userAttr (a : Attribute) : T Left (userAttr a) Left := t_users _

theorem t_innerAttr (a : Attribute) : T Left (innerAttr a) Left := by
  have h : innerAttr a = (("#" :: "!" :: (match a.m with
    | .path p => ["["] ++ spath p ++ ["]"]
    | .list p d ts => ["["] ++ spath p ++ tts [.group d ts] ++ ["]"]
    | .nameValue p ts => ["["] ++ spath p ++ ["="] ++ tts ts ++ ["]"]))).map .user := by
    unfold innerAttr userAttr
    cases a.m <;> rfl
  rw [h]
  exact t_users _

theorem t_inner (f : DropInner) : T Left (inner f) Left := by
  have hfn : T Left (attr dropQuote "allow" ["clippy::missing_const_for_fn",
      "clippy::needless_pass_by_value", "clippy::single_call_fn"] ++ f.attrs.flatMap userAttr ++ vis f.vis ++
      qualifiers f.quals (if f.isUnsafe then U "unsafe" else []) ++ W dropQuote "fn" ++ W dropQuote f.name) Name := by
    rw [List.append_assoc]
    exact ((((t_attr _ "allow" _ (by decide)).seq (T.flatMap (A := Left) _ _ fun a _ => t_userAttr a)).seq (t_visLeft _)).seq
      (((t_users _).seq (t_ite (B := Left) (t_U _).to (T.nil (A := Left)))).seq (t_users _))).seq (t_fn _ _)
  have hout : T Left (match f.output with | some t => (["->"] ++ node t).map .user | none => []) Left := by
    split
    · exact t_users _
    · exact .nil
  exact (((((((((((((((hfn.seq (t_generics _ _)).seq (t_P _ "(" (by decide))).seq
    (T.flatMap (A := Left) _ _ fun a _ => t_userAttr a)).seq (t_ite (B := Left) (t_U _).to (T.nil (A := Left)))).seq (t_U _)).seq (t_P _ ":" (by decide))).seq
    (t_users _)).seq (t_users _)).seq (t_P _ ")" (by decide))).seq hout).seq (t_wheres _ _ _)).seq (t_P _ "{" (by decide))).seq
    (T.flatMap (A := Left) _ _ fun a _ => t_innerAttr a)).seq (t_users _)).seq (t_P _ "}" (by decide))).to

theorem t_pinnedDrop (i : PinnedDropImpl) (attrs : List Attribute) (v : Vis) (sg : Signature) (ias : List Attribute) (f : DropInner)
    (hi : i.items = [.drop attrs v sg ias [.fnItem f, .call "__drop_inner" "self"]])
    (hp : i.traitPath = .mk true [.mk "pin_project" .none, .mk "__private" .none, .mk "PinnedDrop" .none]) :
    T Left (pinnedDrop i) Left := by
  have hitem : T Left (i.items.flatMap outItem) Left := by
    rw [hi]
    refine .flatMap _ _ fun x hx => ?_
    obtain rfl := List.mem_singleton.1 hx
    refine (((((((((((((T.flatMap (A := Left) _ _ fun a _ => t_userAttr a).seq (t_visLeft _)).seq (((t_users _).seq
      (t_ite (B := Left) t_unsafety.to (T.nil (A := Left)))).seq (t_users _))).seq (t_users _)).seq (t_generics _ _)).seq
      (t_users _)).seq (T.flatMap (A := Left) _ _ fun a _ => t_userAttr a)).seq (t_users _)).seq (t_wheres _ _ _)).seq (t_P _ "{" (by decide))).seq
      (T.flatMap (A := Left) _ _ fun a _ => t_innerAttr a)).seq (T.flatMap (A := Left) _ _ fun s hs => ?_)).seq (t_P _ "}" (by decide))).to
    simp only [List.mem_cons, List.not_mem_nil, or_false] at hs
    rcases hs with rfl | rfl
    · exact t_inner f
    · exact (((((t_own _ (ownName (w := "__drop_inner") (by decide))).seq (t_P _ "(" (by decide))).seq (t_U _)).seq
        (t_P _ ")" (by decide))).seq (t_P _ ";" (by decide))).to
  have hpath : T Ready (templatePath dropQuote i.traitPath) Left := by
    rw [hp]
    exact leave (by decide) ((t_root dropQuote .abs).seq (t_segments dropQuote ["__private", "PinnedDrop"] []))
  have hg : T Ready (generics dropQuote i.generics.defParams) Ready := t_anglesReady _ _ fun t ht => by
    obtain ⟨a, -, rfl⟩ := List.mem_map.1 ht
    exact t_gparam _ a
  exact (((((((((((((T.flatMap (A := Left) _ _ fun a _ => t_userAttr a).seq
    (t_ite (B := Left) (t_U _).to (T.nil (A := Left)))).seq (t_ite (B := Left) (t_U _).to (T.nil (A := Left)))).seq (t_U _)).seq hg).seq
    (t_ite (A := Ready) (B := Ready) (t_U _).to (T.nil (A := Ready)))).seq hpath).seq (t_U _)).seq (t_users _)).seq
    (t_wheres _ _ _)).seq (t_P _ "{" (by decide))).seq (T.flatMap (A := Left) _ _ fun a _ => t_innerAttr a)).seq hitem).seq (t_P _ "}" (by decide)) |>.to

end Emit

/-- Whenever the macro succeeds there are tokens. -/
theorem deriveTokens_ok {item : Item} {E : Expansion} (h : parseDerive item = .ok E) :
    ∃ cx, deriveCtx item = .ok cx ∧ deriveTokens item = .ok (Emit.expansion cx E) := by
  have : ∃ cx, deriveCtx item = .ok cx := by
    cases item with
    | struct_ s =>
      obtain ⟨A, hA, hn, -⟩ := (deriveStruct_iff s E).1 h
      exact ⟨_, (ctxNew_iff _ _ _ _ _ _).2 ⟨A, hA, hn, rfl⟩⟩
    | enum_ s =>
      obtain ⟨A, hA, hn, -⟩ := (deriveEnum_iff s E).1 h
      exact ⟨_, (ctxNew_iff _ _ _ _ _ _).2 ⟨A, hA, hn, rfl⟩⟩
    | other a => cases h
  obtain ⟨cx, hcx⟩ := this
  refine ⟨cx, hcx, ?_⟩
  rw [deriveTokens, hcx, h]
  rfl

theorem expansion_ok {item : Item} (hwf : ItemWF item) {E : Expansion} (h : parseDerive item = .ok E) :
    Emit.ExpansionOk E := by
  cases item with
  | struct_ s =>
    obtain ⟨A, -, -, -, -, -, -, rfl⟩ := (deriveStruct_iff s E).1 h
    exact Emit.struct_ok (wf_visit (mkSelfTy s.ident s.generics.tyGenerics) _ (hwf.fields none s.fields ⟨rfl, rfl⟩)) _
  | enum_ s =>
    obtain ⟨A, -, -, -, -, -, -, -, rfl⟩ := (deriveEnum_iff s E).1 h
    refine Emit.enum_ok (fun v hv => ?_) _
    rw [ItemEnum.pre_variants] at hv
    obtain ⟨w, hw, rfl⟩ := List.mem_map.1 hv
    exact wf_visit _ _ (hwf.fields (some w.ident) w.fields ⟨w, hw, rfl, rfl⟩)
  | other a => cases h

theorem deriveTokens_inv {item : Item} {toks : List ETok} (h : deriveTokens item = .ok toks) :
    ∃ cx E, deriveCtx item = .ok cx ∧ parseDerive item = .ok E ∧ toks = Emit.expansion cx E := by
  unfold deriveTokens at h
  rw [bind_ok] at h
  obtain ⟨cx, h1, h⟩ := h
  rw [bind_ok] at h
  obtain ⟨E, h2, h⟩ := h
  exact ⟨cx, E, h1, h2, (Except.ok.inj h).symm⟩

/-- **C74** In the tokens that `#[pin_project]` produces, every word of a template is a keyword, a name that the
expansion introduces itself, or part of a path to something that `pin_project` exports. Nothing is taken from the
prelude or from what is in scope at the attribute, and no macro is called. -/
theorem C74_resolved (item : Item) (hwf : ItemWF item) (toks : List ETok) (h : deriveTokens item = .ok toks) :
    Resolved toks := by
  obtain ⟨cx, E, -, h2, ht⟩ := deriveTokens_inv h
  rw [ht]
  exact Emit.t_expansion cx E (expansion_ok hwf h2).1 (expansion_ok hwf h2).2 _ .idle

/-- **C74** The same for `#[pinned_drop]`. -/
theorem C74_pinned_drop (args : List TT) (item : ItemImpl) (out : PinnedDropImpl)
    (h : pinnedDropAttribute args item = .expanded out) : Resolved (Emit.pinnedDrop out) := by
  rcases attribute_cases args item with ⟨neg, m, q, p, b, sh, ty, ⟨hc, -⟩, hty, hr, hpin, heq⟩ | ⟨_, h2⟩
  · rw [heq] at h
    obtain rfl := PinnedDropOut.expanded.inj h
    exact Emit.t_pinnedDrop _ m.attrs m.vis { m.sig with isUnsafe := true, inputs := [.receiver false sh ty] } m.innerAttrs
      (dropInner ⟨q, p, item.selfToks⟩ item.generics m b ty) rfl rfl _ .idle
  · exact absurd h (h2 out)

/-! ## Examples -/

/-- The enum of `Props/Project.lean` has tokens, and they can be read. -/
example : ∃ toks, deriveTokens (.enum_ demoEnum) = .ok toks ∧ toks ≠ [] ∧ Resolved toks :=
  ⟨_, rfl, by decide, C74_resolved _ demoEnum_wf _ rfl⟩

/-- And an impl for `#[pinned_drop]`. -/
example : ∃ out, pinnedDropAttribute [] demoImpl = .expanded out ∧ Resolved (Emit.pinnedDrop out) := by
  obtain ⟨out, h⟩ := C33_documented _ _ _ demoImpl_documented
  exact ⟨out, h, C74_pinned_drop _ _ _ h⟩

theorem ownName_underscore {w : String} (h : OwnName w) (hw : w.toList.head? ≠ some '_') : w = "T" ∨ w = "this" := by
  rcases h with h | ⟨n, h⟩
  · simp only [List.mem_cons, List.not_mem_nil, or_false] at h
    rcases h with rfl | rfl | rfl | rfl | rfl | rfl | rfl | rfl | rfl <;> first | (simp; done) | exact absurd (by decide) hw
  · exfalso
    apply hw
    simp only [List.mem_cons, List.not_mem_nil, or_false] at h
    rcases h with rfl | rfl | rfl <;> rw [String.toList_append]
    · rw [show "_".toList = ['_'] from by decide]; rfl
    · rw [show "__field".toList = ['_', '_', 'f', 'i', 'e', 'l', 'd'] from by decide]; rfl
    · rw [show "__lifetime".toList = ['_', '_', 'l', 'i', 'f', 'e', 't', 'i', 'm', 'e'] from by decide]; rfl

theorem no_word {w : String} {s : Span} {b : At} (h : Step .idle (.word w s) b) :
    w ∈ strictKeywords ∨ w ∈ ["_", "_pin_project"] ∨ OwnName w := by
  cases h with
  | keyword _ h _ => exact .inl h
  | self_ _ h =>
    simp only [List.mem_cons, List.not_mem_nil, or_false] at h
    rcases h with rfl | rfl <;> exact .inl (by decide)
  | own _ h => exact .inr (.inr h)
  | underscore | alias_ => exact .inr (.inl (by decide))
  | fn | krate | as_ => exact .inl (by decide)

theorem root_word {w : String} {s : Span} {b : At} (h : Step .root (.word w s) b) : w = "pin_project" := by
  have hl : ¬ Left .root := fun h => by cases h
  cases h with
  | rootCrate => rfl
  | _ => exact absurd (by assumption) hl

theorem step_punct {a b : At} {p : String} {s : Span} (h : Step a (.punct p s) b) :
    (Left a ∧ p ∉ ["::", ".", "!"] ∧ b = .idle) ∨
    (p = "::" ∧ ((a = .idle ∧ b = .root) ∨ (a = .user ∧ b = .sepUser) ∨ (a = .name ∧ b = .sepName) ∨
      ∃ segs, a = .inCrate segs ∧ b = .sepCrate segs)) ∨ (p = "." ∧ a = .name) := by
  cases h <;> simp_all

/-- The specification refuses a function of the prelude, `drop(..)`, .. -/
example (ts : List ETok) : ¬ Resolved (.word "drop" .site :: ts) := by
  generalize hw : "drop" = w
  rintro ⟨a, h, -⟩
  cases h with
  | cons hs _ =>
    rcases no_word hs with h | h | h
    · rw [← hw] at h; revert h; decide
    · rw [← hw] at h; revert h; decide
    · rw [← hw] at h
      rcases ownName_underscore h (by decide) with h | h <;> revert h <;> decide

/-- .. an absolute path into another crate, `::core::..`, .. -/
example (ts : List ETok) : ¬ Resolved (.punct "::" .site :: .word "core" .site :: ts) := by
  generalize hw : "core" = w
  generalize hp : "::" = p
  rintro ⟨a, h, -⟩
  cases h with
  | cons hs h =>
    rcases step_punct hs with ⟨-, h, -⟩ | ⟨-, ⟨-, rfl⟩ | ⟨h, -⟩ | ⟨h, -⟩ | ⟨_, h, -⟩⟩ | ⟨h, -⟩
    · rw [← hp] at h; exact h (by decide)
    · cases h with
      | cons hs _ =>
        have := root_word hs
        rw [← hw] at this
        revert this; decide
    · cases h
    · cases h
    · cases h
    · rw [← hp] at h; revert h; decide

/-- .. something that `pin_project` does not export, as in `_pin_project::__private::Clone;`, .. -/
example (s : Span) (segs : List String) (ts : List ETok) (hs : segs ∉ exported) (a : At) :
    ¬ Reads (.inCrate segs) (.punct ";" s :: ts) a := by
  generalize hp : ";" = p
  intro h
  cases h with
  | cons h _ =>
    rcases step_punct h with ⟨h, -⟩ | ⟨h, -⟩ | ⟨h, -⟩
    · cases h; contradiction
    · rw [← hp] at h; revert h; decide
    · rw [← hp] at h; revert h; decide

example : ["__private", "Clone"] ∉ exported := by decide

/-- .. and macros, `panic!()`. -/
example (ts : List ETok) : ¬ Resolved (.user "panic" :: .punct "!" .site :: ts) := by
  generalize hp : "!" = p
  rintro ⟨a, h, -⟩
  cases h with
  | cons _ h =>
    cases h with
    | cons hs _ =>
      rcases step_punct hs with ⟨-, h, -⟩ | ⟨h, -⟩ | ⟨h, -⟩
      · rw [← hp] at h; exact h (by decide)
      · rw [← hp] at h; revert h; decide
      · rw [← hp] at h; revert h; decide

end PinProject
