import Verif.Props.Tokens
import Verif.Props.Provenance
import Verif.Spec.UnsafeCode
/-!
# C89: no code of the user in an `unsafe` context
-/
namespace PinProject
open Spec

namespace Emit

/-- The reader takes no notice of the token. -/
def quietTok : ETok → Bool
  | .word w _ => !(["unsafe", "fn", "impl"].contains w)
  | .punct c _ => !(["{", "}"].contains c)
  | _ => true

def Quiet (ts : Toks) : Prop := ∀ t ∈ ts, quietTok t = true

theorem step_quiet {t : ETok} (h : quietTok t = true) (p : Spot) : p.step t = p := by
  cases t with
  | word w s =>
    simp only [quietTok, List.contains_cons, List.contains_nil, Bool.or_false, Bool.not_eq_true', Bool.or_eq_false_iff,
      beq_eq_false_iff_ne, ne_eq] at h
    simp [Spot.step, h]
  | punct c s =>
    simp only [quietTok, List.contains_cons, List.contains_nil, Bool.or_false, Bool.not_eq_true', Bool.or_eq_false_iff,
      beq_eq_false_iff_ne, ne_eq] at h
    simp [Spot.step, h]
  | _ => rfl

theorem after_append (p : Spot) (x y : Toks) : p.after (x ++ y) = (p.after x).after y := List.foldl_append ..

theorem code_append (x y : Toks) : ∀ p : Spot, unsafeCode p (x ++ y) = unsafeCode p x ++ unsafeCode (p.after x) y := by
  induction x with
  | nil => exact fun _ => rfl
  | cons t x ih =>
    intro p
    cases t with
    | user s =>
      show (if p.isUnsafe then [s] else []) ++ unsafeCode p (x ++ y) = _
      rw [ih p, ← List.append_assoc]
      rfl
    | _ => exact ih _

theorem after_quiet {ts : Toks} (h : Quiet ts) (p : Spot) : p.after ts = p := by
  induction ts with
  | nil => rfl
  | cons t ts ih =>
    show (p.step t).after ts = p
    rw [step_quiet (h t (.head _)) p]
    exact ih fun t ht => h t (.tail _ ht)

theorem code_quiet {ts : Toks} (h : Quiet ts) {p : Spot} (hp : p.isUnsafe = false) : unsafeCode p ts = [] := by
  induction ts with
  | nil => rfl
  | cons t ts ih =>
    have h1 := step_quiet (h t (.head _)) p
    have h2 := ih fun t ht => h t (.tail _ ht)
    cases t with
    | user s => simp [unsafeCode, hp, h2]
    | _ => show unsafeCode (p.step _) ts = []; rw [h1]; exact h2

theorem code_mem {ts : Toks} {x : String} : ∀ {p : Spot}, x ∈ unsafeCode p ts → .user x ∈ ts := by
  induction ts with
  | nil => exact fun h => absurd h (List.not_mem_nil)
  | cons t ts ih =>
    intro p h
    cases t with
    | user s =>
      rcases List.mem_append.1 h with h | h
      · split at h
        · obtain rfl := List.mem_singleton.1 h
          exact .head _
        · cases h
      · exact .tail _ (ih h)
    | _ => exact .tail _ (ih h)

/-! ## Quiet tokens -/

theorem q_append {x y : Toks} : Quiet (x ++ y) ↔ Quiet x ∧ Quiet y := by
  simp [Quiet, or_imp, forall_and]
theorem q_nil : Quiet [] ↔ True := by simp [Quiet]
theorem q_flatMap {α : Type} {xs : List α} {f : α → Toks} : Quiet (xs.flatMap f) ↔ ∀ x ∈ xs, Quiet (f x) := by
  simp only [Quiet, List.mem_flatMap]
  exact ⟨fun h x hx t ht => h t ⟨x, hx, ht⟩, fun h t ⟨x, hx, ht⟩ => h x hx t ht⟩
theorem q_users (xs : List String) : Quiet (xs.map .user) := by
  intro t ht
  obtain ⟨x, -, rfl⟩ := List.mem_map.1 ht
  rfl
theorem q_U (x : String) : Quiet (U x) := q_users [x]
theorem q_W {q : Quote} {w : String} : Quiet (W q w) ↔ w ∉ ["unsafe", "fn", "impl"] := by
  simp [Quiet, W, quietTok]
theorem q_P {q : Quote} {w : String} : Quiet (P q w) ↔ w ∉ ["{", "}"] := by simp [Quiet, P, quietTok]
theorem q_attr (q : Quote) (n : String) (as : List String) : Quiet (attr q n as) := by simp [Quiet, attr, quietTok]
theorem q_life (lt l : String) : quietTok (life lt l) = true := by unfold life; split <;> rfl
theorem q_lifes (lt : String) (ls : List String) : Quiet (ls.map (life lt)) := by
  intro t ht
  obtain ⟨l, -, rfl⟩ := List.mem_map.1 ht
  exact q_life lt l
theorem q_life1 (lt l : String) : Quiet [life lt l] := q_lifes lt [l]
theorem q_ite {c : Prop} [Decidable c] {x y : Toks} (hx : Quiet x) (hy : Quiet y) : Quiet (if c then x else y) := by
  split <;> assumption

theorem q_vis (v : Vis) : Quiet (vis v) := by
  cases v with
  | inherited => exact q_nil.2 trivial
  | pub => exact q_U _
  | restricted i p => exact q_users _

section
variable (q : Quote)

theorem q_p (w : String) (h : w ∉ ["{", "}"] := by decide) : Quiet (P q w) := q_P.2 h
theorem q_w (w : String) (h : w ∉ ["unsafe", "fn", "impl"] := by decide) : Quiet (W q w) := q_W.2 h

theorem q_sep {ts : List Toks} (h : ∀ t ∈ ts, Quiet t) : Quiet (sep q ts) :=
  q_flatMap.2 fun t ht => q_append.2 ⟨h t ht, q_p q ","⟩

theorem q_parens {ts : List Toks} (h : ∀ t ∈ ts, Quiet t) : Quiet (parens q ts) :=
  q_append.2 ⟨q_append.2 ⟨q_p q "(", q_sep q h⟩, q_p q ")"⟩

theorem q_angles {ts : List Toks} (h : ∀ t ∈ ts, Quiet t) : Quiet (angles q ts) :=
  q_ite (q_nil.2 trivial) (q_append.2 ⟨q_append.2 ⟨q_p q "<", q_sep q h⟩, q_p q ">"⟩)

theorem q_segments {ns : List String} (h : ∀ n ∈ ns, n ∉ ["unsafe", "fn", "impl"]) : Quiet (segments q ns) := by
  induction ns with
  | nil => exact q_nil.2 trivial
  | cons n ns ih =>
    exact q_append.2 ⟨q_append.2 ⟨q_p q "::", q_w q n (h n (.head _))⟩, ih fun n hn => h n (.tail _ hn)⟩

theorem q_root (r : Root) : Quiet (root q r) := by
  cases r with
  | abs => exact q_append.2 ⟨q_p q "::", q_w q _⟩
  | local_ => exact q_w q _

theorem q_priv (r : Root) (ns : List String) (h : ∀ n ∈ ns, n ∉ ["unsafe", "fn", "impl"] := by decide) : Quiet (priv q r ns) :=
  q_append.2 ⟨q_root q r, q_segments q fun n hn => by
    rcases List.mem_cons.1 hn with rfl | hn
    · decide
    · exact h n hn⟩

theorem q_garg (a : GArg) : Quiet (garg q a) := by
  cases a with
  | lifetime s => exact q_life1 _ _
  | ident s => exact q_U _

theorem q_adt (n : String) (as : List GArg) : Quiet (adt q n as) :=
  q_append.2 ⟨q_U n, q_angles q fun t ht => by obtain ⟨a, -, rfl⟩ := List.mem_map.1 ht; exact q_garg q a⟩

theorem q_ty (t : GTy) : Quiet (ty q t) := by
  induction t with
  | user n => exact q_users _
  | paren t ih => exact q_append.2 ⟨q_append.2 ⟨q_p q _, ih⟩, q_p q _⟩
  | ref lt m t ih =>
    exact q_append.2 ⟨q_append.2 ⟨q_append.2 ⟨q_p q _, q_lifes _ _⟩, q_ite (q_w q _) (q_nil.2 trivial)⟩, ih⟩
  | pin r t ih => exact q_append.2 ⟨q_append.2 ⟨q_append.2 ⟨q_priv q _ _, q_p q _⟩, ih⟩, q_p q _⟩
  | phantomData r t ih => exact q_append.2 ⟨q_append.2 ⟨q_append.2 ⟨q_priv q _ _, q_p q _⟩, ih⟩, q_p q _⟩
  | phantomPinned => exact q_priv q _ _
  | adt n as => exact q_adt q n as
  | param n => exact q_U n
  | selfTy => exact q_w q _
  | ptrMut t ih => exact q_append.2 ⟨q_append.2 ⟨q_p q _, q_w q _⟩, ih⟩
  | pinnedFieldsOf t ih => exact q_append.2 ⟨q_append.2 ⟨q_append.2 ⟨q_priv q _ _, q_p q _⟩, ih⟩, q_p q _⟩
  | wrapper lt t ih =>
    exact q_append.2 ⟨q_append.2 ⟨q_append.2 ⟨q_append.2 ⟨q_append.2 ⟨q_priv q _ _, q_p q _⟩, q_life1 _ _⟩, q_p q _⟩, ih⟩, q_p q _⟩
  | alwaysUnpin lt ps =>
    refine q_append.2 ⟨q_append.2 ⟨q_append.2 ⟨q_append.2 ⟨q_append.2 ⟨q_priv q _ _, q_p q _⟩, q_life1 _ _⟩, q_p q _⟩, ?_⟩, q_p q _⟩
    refine q_parens q fun t ht => ?_
    obtain ⟨p, -, rfl⟩ := List.mem_map.1 ht
    exact q_append.2 ⟨q_append.2 ⟨q_append.2 ⟨q_priv q _ _, q_p q _⟩, q_U _⟩, q_p q _⟩
  | unit => exact q_append.2 ⟨q_p q _, q_p q _⟩

theorem q_trait (t : GTrait) : Quiet (trait_ q t) := by
  cases t with
  | unsafeUnpin => exact q_append.2 ⟨q_root q _, q_segments q (by decide)⟩
  | mustNotImplDrop n => exact q_U n
  | _ => exact q_priv q _ _

theorem q_gparam (p : GParam) : Quiet (gparam q p) := by
  cases p with
  | lifetime n bs => exact q_append.2 ⟨q_life1 _ _, q_users _⟩
  | type n bs d => exact q_users _
  | const n t d => exact q_users _

theorem q_generics (ps : List GParam) : Quiet (generics q ps) :=
  q_angles q fun t ht => by obtain ⟨a, -, rfl⟩ := List.mem_map.1 ht; exact q_gparam q a

theorem q_pred (b : Span) (p : WPred) : Quiet (pred q b p) := by
  cases p with
  | user n => exact q_users _
  | outlives t lt => exact q_append.2 ⟨q_append.2 ⟨q_ty _ t, q_p _ _⟩, q_life1 _ _⟩
  | bound t tr => exact q_append.2 ⟨q_append.2 ⟨q_ty _ t, q_p _ _⟩, q_trait _ tr⟩

theorem q_wheres (b : Span) (ps : List WPred) : Quiet (wheres q b ps) :=
  q_ite (q_nil.2 trivial) (q_append.2 ⟨q_w _ _, q_sep _ fun t ht => by
    obtain ⟨a, -, rfl⟩ := List.mem_map.1 ht; exact q_pred q b a⟩)

theorem own_quiet {w : String} (h : OwnName w) : w ∉ ["unsafe", "fn", "impl"] := by
  rcases h with h | ⟨n, h⟩
  · revert w
    decide
  · have h1 : ∀ x y : String, x.toList.head? = some '_' → x ++ y ∉ ["unsafe", "fn", "impl"] := by
      intro x y hx hm
      have : (x ++ y).toList.head? = some '_' := by rw [String.toList_append, List.head?_append, hx]; rfl
      revert this hm
      generalize x ++ y = z
      revert z
      decide
    simp only [List.mem_cons, List.not_mem_nil, or_false] at h
    rcases h with rfl | rfl | rfl <;> exact h1 _ _ (by decide)

theorem local_quiet {w : String} (h : LocalName w) : w ∉ ["unsafe", "fn", "impl"] := by
  rcases h with rfl | h
  · decide
  · exact own_quiet h

theorem q_field (own : Bool) (f : GField) (h : own = true → ∀ i, f.ident = some i → OwnName i) : Quiet (field q own f) := by
  refine q_append.2 ⟨q_append.2 ⟨q_vis _, ?_⟩, q_ty q _⟩
  split
  · rename_i i hi
    refine q_append.2 ⟨?_, q_p q _⟩
    split
    · rename_i ho
      exact q_w q i (own_quiet (h ho i hi))
    · exact q_U i
  · exact q_nil.2 trivial

theorem q_binder {d : Option Delim} {x : String} (h : BinderOk d x) : Quiet (binder q d x) := by
  unfold binder
  split
  · exact q_U x
  · rename_i hd
    exact q_w _ x (own_quiet (h hd))

theorem q_variant (v : Option String) : Quiet (variantToks q v) := by
  cases v with
  | none => exact q_nil.2 trivial
  | some v => exact q_append.2 ⟨q_p q _, q_U v⟩

theorem q_fexpr {d : Option Delim} {e : FExpr} (h : FExprOk d e) : Quiet (fexpr q d e) := by
  cases e with
  | bind x => exact q_binder q h
  | pinNew x => exact q_append.2 ⟨q_append.2 ⟨q_append.2 ⟨q_priv q _ _, q_p q _⟩, q_binder q h⟩, q_p q _⟩
  | read x => exact q_append.2 ⟨q_append.2 ⟨q_append.2 ⟨q_priv q _ _, q_p q _⟩, q_binder q h⟩, q_p q _⟩
  | phantom => exact q_priv q _ _

theorem q_init {d : Option Delim} {i : GInit} (h : InitOk d i) : Quiet (init q d i) := by
  cases i with
  | labelled i e =>
    refine q_append.2 ⟨?_, q_fexpr q h⟩
    cases i with
    | none => exact q_nil.2 trivial
    | some i => exact q_append.2 ⟨q_U i, q_p q _⟩
  | bare x => exact q_binder q h

/-! ## Braces in bodies -/

/-- At the end the reader is where it was at the beginning. -/
def Bal (ts : Toks) : Prop := ∀ bs, Spot.after ⟨bs, none⟩ ts = ⟨bs, none⟩

variable {q}

theorem Quiet.bal {ts : Toks} (h : Quiet ts) : Bal ts := fun _ => after_quiet h _

theorem Bal.append {x y : Toks} (hx : Bal x) (hy : Bal y) : Bal (x ++ y) := fun bs => by rw [after_append, hx, hy]

theorem Bal.flatMap {α : Type} {xs : List α} {f : α → Toks} (h : ∀ x ∈ xs, Bal (f x)) : Bal (xs.flatMap f) := by
  induction xs with
  | nil => exact fun _ => rfl
  | cons x xs ih => exact (h x (.head _)).append (ih fun x hx => h x (.tail _ hx))

theorem Bal.brace {x : Toks} (h : Bal x) : Bal (P q "{" ++ x ++ P q "}") := by
  intro bs
  rw [after_append, after_append]
  show (Spot.after ⟨_ :: bs, none⟩ x).after _ = _
  rw [h]
  rfl

theorem Bal.unsafeBlock {x : Toks} (h : Bal x) : Bal (unsafety ++ P q "{" ++ x ++ P q "}") := by
  intro bs
  rw [after_append, after_append]
  show (Spot.after ⟨_ :: bs, none⟩ x).after _ = _
  rw [h]
  rfl

variable (q)

theorem bal_delimited (d : Option Delim) {ts : List Toks} (h : ∀ t ∈ ts, Quiet t) : Bal (delimited q d ts) := by
  rcases d with _ | d
  · exact (q_nil.2 trivial).bal
  · cases d with
    | paren => exact (q_append.2 ⟨q_append.2 ⟨q_p q "(", q_sep q h⟩, q_p q ")"⟩).bal
    | brace => exact (q_sep q h).bal.brace
    | bracket => exact (q_append.2 ⟨q_append.2 ⟨q_p q "[", q_sep q h⟩, q_p q "]"⟩).bal

theorem bal_pat {p : GPat} (h : PatOk p) : Bal (pat q p) := by
  rw [pat_eq]
  refine (q_append.2 ⟨q_w q "Self", q_variant q _⟩).bal.append (bal_delimited q _ fun t ht => ?_)
  obtain ⟨x, hx, rfl⟩ := List.mem_map.1 ht
  exact q_binder q (h x hx)

theorem bal_ctor {c : GCtor} (h : CtorOk c) : Bal (ctor q c) := by
  rw [ctor_eq]
  refine (q_append.2 ⟨q_U _, q_variant q _⟩).bal.append (bal_delimited q _ fun t ht => ?_)
  obtain ⟨x, hx, rfl⟩ := List.mem_map.1 ht
  exact q_init q (h x hx)

theorem bal_rhs {d : Option Delim} {e : RHS} (h : RhsOk d e) : Bal (rhs q d e) := by
  have hl : ∀ {x}, LocalName x → Quiet (W q x) := fun h => q_w q _ (local_quiet h)
  cases e with
  | var x => exact (hl h).bal
  | getUncheckedMut x => exact (q_append.2 ⟨q_append.2 ⟨q_append.2 ⟨q_append.2 ⟨hl h, q_p q _⟩, q_w q _⟩, q_p q _⟩, q_p q _⟩).bal
  | getRef x => exact (q_append.2 ⟨q_append.2 ⟨q_append.2 ⟨q_append.2 ⟨hl h, q_p q _⟩, q_w q _⟩, q_p q _⟩, q_p q _⟩).bal
  | reborrow x => exact (q_append.2 ⟨q_append.2 ⟨q_append.2 ⟨q_p q _, q_w q _⟩, q_p q _⟩, hl h⟩).bal
  | pinNew x => exact (q_append.2 ⟨q_append.2 ⟨q_append.2 ⟨q_priv q _ _, q_p q _⟩, hl h⟩, q_p q _⟩).bal
  | ctor c => exact bal_ctor q h
  | overwriteGuard p v =>
    exact (q_append.2 ⟨q_append.2 ⟨q_append.2 ⟨q_append.2 ⟨q_append.2 ⟨q_priv q _ _, q_p q _⟩, hl h.1⟩, q_p q _⟩, hl h.2⟩, q_p q _⟩).bal
  | dropGuard x => exact (q_append.2 ⟨q_append.2 ⟨q_append.2 ⟨q_priv q _ _, q_p q _⟩, q_binder q h⟩, q_p q _⟩).bal
  | pinnedDropCall x => exact (q_append.2 ⟨q_append.2 ⟨q_append.2 ⟨q_priv q _ _, q_p q _⟩, hl h⟩, q_p q _⟩).bal
  | unit => exact (q_nil.2 trivial).bal

theorem q_ascription {t : Option String} (h : ∀ s, t = some s → s = "*mut Self") : Quiet (ascription q t) := by
  cases t with
  | none => exact q_nil.2 trivial
  | some t =>
    obtain rfl := h t rfl
    exact q_append.2 ⟨q_p q _, by rw [if_pos rfl]; exact q_append.2 ⟨q_append.2 ⟨q_p q _, q_w q _⟩, q_w q _⟩⟩

theorem bal_stmt {d : Option Delim} {s : GStmt} (h : StmtOk d s) : Bal (stmt q d s) := by
  have hp := fun c h => (q_p q c h).bal
  have hw := fun c h => (q_w q c h).bal
  cases s with
  | letPat p e =>
    exact ((((hw "let" (by decide)).append (bal_pat q h.1)).append (hp "=" (by decide))).append (bal_rhs q h.2)).append
      (hp ";" (by decide))
  | letVar x t e =>
    exact (((((hw "let" (by decide)).append (hw x (local_quiet h.1))).append (q_ascription q h.2.1).bal).append
      (hp "=" (by decide))).append (bal_rhs q h.2.2)).append (hp ";" (by decide))
  | scope ss =>
    refine Bal.brace (Bal.flatMap fun s hs => ?_)
    exact ((((hw "let" (by decide)).append (hw _ (local_quiet (h s hs).1))).append
      (hp "=" (by decide))).append (bal_rhs q (h s hs).2)).append (hp ";" (by decide))
  | expr e => exact (bal_rhs q h).append (hp ";" (by decide))

theorem bal_arm {a : GArm} (brace : Bool) (h : ArmOk a) : Bal (arm q brace a) := by
  have hs : Bal (a.stmts.flatMap (stmt q a.pat.delim) ++ rhs q a.pat.delim a.tail) :=
    (Bal.flatMap fun s hs => bal_stmt q (h.2.1 s hs)).append (bal_rhs q h.2.2)
  have hpat := (bal_pat q h.1).append (q_p q "=>").bal
  cases brace with
  | false =>
    have := (hpat.append hs).append (q_p q ",").bal
    simpa [arm, List.append_assoc] using this
  | true =>
    have := hpat.append (hs.brace (q := q))
    simpa [arm, List.append_assoc] using this

theorem bal_body {b : GBody} (h : BodyOk b) : Bal (body q b) := by
  refine (Bal.flatMap fun s hs => bal_stmt q (h.1 s hs)).append ?_
  have := h.2
  cases ht : b.tail with
  | expr e => rw [ht] at this; exact bal_rhs q this
  | match_ e arms =>
    rw [ht] at this
    have h1 := ((q_w q "match").bal.append (bal_rhs q this.1)).append
      (Bal.brace (q := q) (Bal.flatMap fun a ha => bal_arm q (!a.stmts.isEmpty) (this.2 a ha)))
    simpa [List.append_assoc] using h1

/-! ## Items -/

/-- In a block that does (`u`) or does not allow unsafe operations, the tokens are balanced and the code of the user in unsafe
contexts satisfies `S`. -/
def Inner (u : Bool) (S : String → Prop) (ts : Toks) : Prop :=
  ∀ bs, Spot.after ⟨u :: bs, none⟩ ts = ⟨u :: bs, none⟩ ∧ ∀ x ∈ unsafeCode ⟨u :: bs, none⟩ ts, S x

/-- The same outside of unsafe contexts. -/
def Fine (S : String → Prop) (ts : Toks) : Prop :=
  ∀ bs, (bs.head? == some true) = false → Spot.after ⟨bs, none⟩ ts = ⟨bs, none⟩ ∧ ∀ x ∈ unsafeCode ⟨bs, none⟩ ts, S x

variable {S : String → Prop} {q}

theorem Fine.inner {ts : Toks} (h : Fine S ts) : Inner false S ts := fun bs => h (false :: bs) rfl

theorem fine_nil : Fine S [] := fun _ _ => ⟨rfl, nofun⟩

theorem Fine.append {x y : Toks} (hx : Fine S x) (hy : Fine S y) : Fine S (x ++ y) := by
  intro bs hb
  rw [after_append, code_append, (hx bs hb).1]
  exact ⟨(hy bs hb).1, fun s hs => (List.mem_append.1 hs).elim ((hx bs hb).2 s) ((hy bs hb).2 s)⟩

theorem Fine.flatMap {α : Type} {xs : List α} {f : α → Toks} (h : ∀ x ∈ xs, Fine S (f x)) : Fine S (xs.flatMap f) := by
  induction xs with
  | nil => exact fine_nil
  | cons x xs ih => exact (h x (.head _)).append (ih fun x hx => h x (.tail _ hx))

theorem safe_place {bs : List Bool} (hb : (bs.head? == some true) = false) : Spot.isUnsafe ⟨bs, none⟩ = false := by
  simp only [Spot.isUnsafe, hb, Bool.and_false]

theorem Quiet.fine {ts : Toks} (h : Quiet ts) : Fine S ts := by
  intro bs hb
  rw [after_quiet h, code_quiet h (safe_place hb)]
  exact ⟨rfl, nofun⟩

/-- Keywords, a signature and a block. -/
theorem fine_block {u : Bool} {kw sg x : Toks}
    (hk : ∀ bs, (bs.head? == some true) = false → Spot.after ⟨bs, none⟩ kw = ⟨bs, some u⟩ ∧ unsafeCode ⟨bs, none⟩ kw = [])
    (hs : Quiet sg) (hx : Inner u S x) : Fine S (kw ++ sg ++ P q "{" ++ x ++ P q "}") := by
  intro bs hb
  simp only [after_append, code_append, (hk bs hb).1, (hk bs hb).2, after_quiet hs,
    code_quiet hs (show Spot.isUnsafe ⟨bs, some u⟩ = false from rfl), List.nil_append]
  have h1 : Spot.after ⟨bs, some u⟩ (P q "{") = ⟨u :: bs, none⟩ := rfl
  have h2 : ∀ p, unsafeCode p (P q "{") = [] := fun _ => rfl
  have h3 : ∀ p, unsafeCode p (P q "}") = [] := fun _ => rfl
  rw [h1, h2, h3, (hx bs).1, List.nil_append, List.append_nil]
  exact ⟨rfl, (hx bs).2⟩

theorem Fine.brace {x : Toks} (h : Fine S x) : Fine S (P q "{" ++ x ++ P q "}") := by
  intro bs hb
  have h1 : Spot.after ⟨bs, none⟩ (P q "{") = ⟨false :: bs, none⟩ := by
    show (⟨(none : Option Bool).getD (bs.head? == some true) :: bs, none⟩ : Spot) = _
    rw [hb]
    rfl
  have h2 : ∀ p, unsafeCode p (P q "{") = [] := fun _ => rfl
  have h3 : ∀ p, unsafeCode p (P q "}") = [] := fun _ => rfl
  simp only [after_append, code_append, h1, h2, h3, List.nil_append, List.append_nil, (h.inner bs).1]
  exact ⟨rfl, (h.inner bs).2⟩

theorem bal_inner {u : Bool} {x : Toks} (h : Bal x) (hS : ∀ s, .user s ∈ x → S s) : Inner u S x :=
  fun _ => ⟨h _, fun s hs => hS s (code_mem hs)⟩

theorem fine_delimited (d : Option Delim) {ts : List Toks} (h : ∀ t ∈ ts, Quiet t) : Fine S (delimited q d ts) := by
  rcases d with _ | d
  · exact fine_nil
  · cases d with
    | paren => exact (q_append.2 ⟨q_append.2 ⟨q_p q "(", q_sep q h⟩, q_p q ")"⟩).fine
    | brace => exact (q_sep q h).fine.brace
    | bracket => exact (q_append.2 ⟨q_append.2 ⟨q_p q "[", q_sep q h⟩, q_p q "]"⟩).fine

theorem fine_fields (own : Bool) (f : GFields) (h : own = true → ∀ g ∈ f.fields, ∀ i, g.ident = some i → OwnName i) :
    Fine S (fields q own f) :=
  fine_delimited _ fun t ht => by
    obtain ⟨g, hg, rfl⟩ := List.mem_map.1 ht
    exact q_field q own g fun ho => h ho g hg

theorem q_receiver (t : GTy) : Quiet (receiver q t) := by
  unfold receiver
  split
  · exact q_append.2 ⟨q_append.2 ⟨q_p q _, q_w q _⟩, q_w q _⟩
  · exact q_append.2 ⟨q_append.2 ⟨q_w q _, q_p q _⟩, q_ty q _⟩

theorem q_fnAttr (a : String) : Quiet (fnAttr q a) := q_ite (q_attr _ _ _) (q_ite (q_attr _ _ _) (q_attr _ _ _))

theorem fine_fn {lt : String} {s s' : Span} {f : GFn} (h : FnOk f) (hb : BodyP S f.body) : Fine S (fn ⟨lt, s⟩ s' f) := by
  let sg : Toks := W ⟨lt, s'⟩ f.name ++ angles ⟨lt, s'⟩ (f.ltParam.toList.map (fun l => [life lt l])) ++
    parens ⟨lt, s'⟩ (receiver ⟨lt, s'⟩ f.recv :: f.params.map (fun p => W ⟨lt, s'⟩ p.1 ++ P ⟨lt, s'⟩ ":" ++ ty ⟨lt, s'⟩ p.2)) ++
    (match f.ret with | .unit => [] | t => P ⟨lt, s'⟩ "->" ++ ty ⟨lt, s'⟩ t)
  have hsg : Quiet sg := by
    refine q_append.2 ⟨q_append.2 ⟨q_append.2 ⟨q_w _ _ ?_, q_angles _ fun t ht => ?_⟩, q_parens _ fun t ht => ?_⟩, ?_⟩
    · have := h.name
      simp only [List.mem_cons, List.not_mem_nil, or_false] at this
      rcases this with h | h | h | h <;> rw [h] <;> decide
    · obtain ⟨l, -, rfl⟩ := List.mem_map.1 ht
      exact q_life1 _ _
    · rcases List.mem_cons.1 ht with rfl | ht
      · exact q_receiver _
      · obtain ⟨p, hp, rfl⟩ := List.mem_map.1 ht
        exact q_append.2 ⟨q_append.2 ⟨q_w _ _ (local_quiet (h.params p hp)), q_p _ _⟩, q_ty _ _⟩
    · split
      · exact q_nil.2 trivial
      · exact q_append.2 ⟨q_p _ _, q_ty _ _⟩
  have hbody := bal_body ⟨lt, s⟩ h.body
  have hus := o_body (G := fun _ => True) (lt := lt) (s := s) trivial trivial hb
  have hx : Inner f.isUnsafe S (if f.unsafeBlock then unsafety ++ P ⟨lt, s⟩ "{" ++ body ⟨lt, s⟩ f.body ++ P ⟨lt, s⟩ "}"
      else body ⟨lt, s⟩ f.body) := by
    split
    · refine bal_inner hbody.unsafeBlock fun x hx => ?_
      simp only [List.mem_append, unsafety, P, List.mem_singleton, reduceCtorEq, false_or, or_false] at hx
      exact hus _ hx
    · exact bal_inner hbody fun x hx => hus _ hx
  have hk : ∀ bs, (bs.head? == some true) = false →
      Spot.after ⟨bs, none⟩ ((if f.isUnsafe then unsafety else []) ++ W ⟨lt, s'⟩ "fn") = ⟨bs, some f.isUnsafe⟩ ∧
      unsafeCode ⟨bs, none⟩ ((if f.isUnsafe then unsafety else []) ++ W ⟨lt, s'⟩ "fn") = [] := by
    intro _ _
    cases f.isUnsafe <;> exact ⟨rfl, rfl⟩
  have := (q_append.2 ⟨q_flatMap.2 fun a (_ : a ∈ f.attrs) => q_fnAttr (q := ⟨lt, s⟩) a, q_vis f.vis⟩).fine.append
    (fine_block (q := ⟨lt, s⟩) hk hsg hx)
  simp only [fn, sig, sg, List.append_assoc] at this ⊢
  exact this

/-- What is needed of an item: only names in the bodies of its functions. -/
def ItemN (S : String → Prop) : GItem → Prop
  | .inherent _ _ _ _ fns => ∀ f ∈ fns, BodyP S f.body
  | .traitImpl _ _ _ _ _ _ _ fns => ∀ f ∈ fns, BodyP S f.body
  | _ => True

theorem impl_keyword {isUnsafe : Bool} {q : Quote} {bs : List Bool} :
    Spot.after ⟨bs, none⟩ ((if isUnsafe then unsafety else []) ++ W q "impl") = ⟨bs, some false⟩ ∧
      unsafeCode ⟨bs, none⟩ ((if isUnsafe then unsafety else []) ++ W q "impl") = [] := by
  cases isUnsafe <;> exact ⟨rfl, rfl⟩

theorem fine_item {lt : String} {u : UnpinImpl} {own : Bool} {i : GItem} (h : ItemOk own i) (hn : ItemN S i) :
    Fine S (item lt u own i) := by
  cases i with
  | struct_ attrs v n ps ws fs =>
    refine (q_append.2 ⟨q_append.2 ⟨q_append.2 ⟨q_append.2 ⟨q_attr _ _ _, q_vis v⟩, q_w _ _⟩, q_U n⟩, q_generics _ ps⟩).fine.append ?_
    split
    · exact ((fine_fields own fs h).append (q_wheres _ _ ws).fine).append (q_p _ _).fine
    · exact (q_wheres _ _ ws).fine.append (fine_fields own fs h)
  | enum_ attrs v n ps ws vs =>
    have hv : Fine S (sep ⟨lt, .site⟩ (vs.map (fun x => U x.1 ++ fields ⟨lt, .site⟩ own x.2))) := by
      refine Fine.flatMap fun t ht => ?_
      obtain ⟨x, hx, rfl⟩ := List.mem_map.1 ht
      refine ((q_U _).fine.append (fine_fields own x.2 fun ho => ?_)).append (q_p _ _).fine
      rw [show own = false from h] at ho
      cases ho
    have := (q_append.2 ⟨q_append.2 ⟨q_append.2 ⟨q_append.2 ⟨q_append.2 ⟨q_attr ⟨lt, .site⟩ "allow" attrs, q_vis v⟩,
      q_w ⟨lt, .site⟩ "enum"⟩, q_U n⟩, q_generics ⟨lt, .site⟩ ps⟩, q_wheres ⟨lt, .site⟩ .site ws⟩).fine.append (hv.brace (q := ⟨lt, .site⟩))
    simpa only [item, List.append_assoc] using this
  | inherent ps n as ws fns =>
    have := fine_block (S := S) (q := ⟨lt, .site⟩) (u := false) (kw := W ⟨lt, .site⟩ "impl") (fun bs _ => ⟨rfl, rfl⟩)
      (q_append.2 ⟨q_append.2 ⟨q_generics ⟨lt, .site⟩ ps, q_adt ⟨lt, .site⟩ n as⟩, q_wheres ⟨lt, .site⟩ .site ws⟩)
      (x := (functions lt u (.inherent ps n as ws fns)).flatMap Prod.snd) (Fine.inner (Fine.flatMap fun f hf => by
        obtain ⟨g, hg, rfl⟩ := List.mem_map.1 hf
        exact fine_fn (h g hg) (hn g hg)))
    simpa only [item, List.append_assoc] using this
  | traitImpl hidden isUnsafe ps tr n as ws fns =>
    have := (q_ite (c := hidden = true) (q_attr ⟨lt, (implSpans u tr).1⟩ "doc" ["hidden"]) (q_nil.2 trivial)).fine.append
      (fine_block (S := S) (q := ⟨lt, (implSpans u tr).1⟩) (u := false)
      (kw := (if isUnsafe then unsafety else []) ++ W ⟨lt, (implSpans u tr).1⟩ "impl") (fun bs _ => impl_keyword)
      (q_append.2 ⟨q_append.2 ⟨q_append.2 ⟨q_append.2 ⟨q_generics ⟨lt, (implSpans u tr).1⟩ ps, q_trait ⟨lt, (implSpans u tr).1⟩ tr⟩,
        q_w ⟨lt, (implSpans u tr).1⟩ "for"⟩, q_adt ⟨lt, (implSpans u tr).1⟩ n as⟩,
        q_wheres ⟨lt, (implSpans u tr).1⟩ (implSpans u tr).2 ws⟩)
      (x := (functions lt u (.traitImpl hidden isUnsafe ps tr n as ws fns)).flatMap Prod.snd) (Fine.inner (Fine.flatMap fun f hf => by
        obtain ⟨g, hg, rfl⟩ := List.mem_map.1 hf
        exact fine_fn (h g hg) (hn g hg))))
    simpa only [item, List.append_assoc] using this
  | traitDef n =>
    have := (q_append.2 ⟨q_w ⟨lt, .site⟩ "trait", q_U n⟩).fine.append (fine_nil (S := S) |>.brace (q := ⟨lt, .site⟩))
    simpa only [item, List.append_assoc, List.nil_append] using this
  | blanketDrop n =>
    have := (q_attr ⟨lt, .site⟩ "allow" ["clippy::drop_bounds", "drop_bounds"]).fine.append (fine_block (S := S)
      (q := ⟨lt, .site⟩) (u := false) (kw := W ⟨lt, .site⟩ "impl") (fun bs _ => ⟨rfl, rfl⟩)
      (q_append.2 ⟨q_append.2 ⟨q_append.2 ⟨q_append.2 ⟨q_append.2 ⟨q_append.2 ⟨q_append.2 ⟨q_p ⟨lt, .site⟩ "<", q_w ⟨lt, .site⟩ "T"⟩,
        q_p ⟨lt, .site⟩ ":"⟩, q_priv ⟨lt, .site⟩ .local_ ["Drop"]⟩, q_p ⟨lt, .site⟩ ">"⟩, q_U n⟩, q_w ⟨lt, .site⟩ "for"⟩,
        q_w ⟨lt, .site⟩ "T"⟩) fine_nil.inner)
    simpa only [item, List.append_assoc, List.nil_append] using this
  | assertNotPacked ps n as ws refs =>
    have hb : Quiet (refs.flatMap (fun r => W ⟨lt, .site⟩ "let" ++ W ⟨lt, .site⟩ "_" ++ P ⟨lt, .site⟩ "=" ++ P ⟨lt, .site⟩ "&" ++
        W ⟨lt, .site⟩ "this" ++ P ⟨lt, .site⟩ "." ++ fieldRef r ++ P ⟨lt, .site⟩ ";")) := by
      refine q_flatMap.2 fun r _ => ?_
      refine q_append.2 ⟨q_append.2 ⟨q_append.2 ⟨q_append.2 ⟨q_append.2 ⟨q_append.2 ⟨q_append.2 ⟨q_w _ _, q_w _ _⟩, q_p _ _⟩,
        q_p _ _⟩, q_w _ _⟩, q_p _ _⟩, ?_⟩, q_p _ _⟩
      unfold fieldRef
      split
      · intro t ht
        obtain rfl := List.mem_singleton.1 ht
        rfl
      · exact q_U r
    have := (q_attr ⟨lt, .site⟩ "forbid" ["unaligned_references", "safe_packed_borrows"]).fine.append (fine_block (S := S)
      (q := ⟨lt, .site⟩) (u := false) (kw := W ⟨lt, .site⟩ "fn") (fun bs _ => ⟨rfl, rfl⟩)
      (q_append.2 ⟨q_append.2 ⟨q_append.2 ⟨q_append.2 ⟨q_append.2 ⟨q_append.2 ⟨q_append.2 ⟨q_append.2
        ⟨q_w ⟨lt, .site⟩ "__assert_not_repr_packed", q_generics ⟨lt, .site⟩ ps⟩, q_p ⟨lt, .site⟩ "("⟩,
        q_w ⟨lt, .site⟩ "this"⟩, q_p ⟨lt, .site⟩ ":"⟩, q_p ⟨lt, .site⟩ "&"⟩, q_adt ⟨lt, .site⟩ n as⟩, q_p ⟨lt, .site⟩ ")"⟩,
        q_wheres ⟨lt, .site⟩ .site ws⟩) hb.fine.inner)
    simpa only [item, functions, List.flatMap_cons, List.flatMap_nil, List.append_nil, assertFn, List.append_assoc] using this

theorem fine_expansion {cx : Ctx} {E : Expansion} (ho : ExpansionOk E) (hn : ∀ i ∈ E.exposed ++ E.inScope, ItemN S i) :
    Fine S (expansion cx E) := by
  unfold expansion
  generalize constLints = lints
  have h1 : Fine S (E.exposed.flatMap (item cx.lifetime cx.unpinImpl false)) :=
    Fine.flatMap fun i hi => fine_item (ho.1 i hi) (hn i (List.mem_append_left _ hi))
  have h2 : Fine S (E.inScope.flatMap (fun i => item cx.lifetime cx.unpinImpl (isHelper i) i)) :=
    Fine.flatMap fun i hi => fine_item (ho.2 i hi) (hn i (List.mem_append_right _ hi))
  have h3 := (q_append.2 ⟨q_append.2 ⟨q_append.2 ⟨q_append.2 ⟨q_append.2 ⟨q_append.2 ⟨q_attr ⟨cx.lifetime, .site⟩ "allow" lints,
    q_w ⟨cx.lifetime, .site⟩ "const"⟩, q_w ⟨cx.lifetime, .site⟩ "_"⟩, q_p ⟨cx.lifetime, .site⟩ ":"⟩,
    q_p ⟨cx.lifetime, .site⟩ "("⟩, q_p ⟨cx.lifetime, .site⟩ ")"⟩, q_p ⟨cx.lifetime, .site⟩ "="⟩)
  have h4 := (q_append.2 ⟨q_append.2 ⟨q_append.2 ⟨q_append.2 ⟨q_append.2 ⟨q_append.2 ⟨q_attr ⟨cx.lifetime, .site⟩ "allow"
    ["unused_extern_crates"], q_w ⟨cx.lifetime, .site⟩ "extern"⟩, q_w ⟨cx.lifetime, .site⟩ "crate"⟩,
    q_w ⟨cx.lifetime, .site⟩ "pin_project"⟩, q_w ⟨cx.lifetime, .site⟩ "as"⟩, q_w ⟨cx.lifetime, .site⟩ "_pin_project"⟩,
    q_p ⟨cx.lifetime, .site⟩ ";"⟩)
  have := ((h1.append h3.fine).append ((h4.fine.append h2).brace (q := ⟨cx.lifetime, .site⟩))).append
    (q_p ⟨cx.lifetime, .site⟩ ";").fine
  simpa only [List.append_assoc] using this

/-! ## Bodies -/

theorem impl_n (cx : Ctx) {b1 b2 b3 : GBody} (h1 : BodyP S b1) (h2 : BodyP S b2) (h3 : BodyP S b3) :
    ItemN S (makeProjImpl cx b1 b2 b3) := by
  rw [makeProjImpl_eq]
  intro f hf
  have : f = projectFn cx b1 ∨ f = projectRefFn cx b2 ∨ f = projectReplaceFn cx b3 := by
    simp only [implFns, List.mem_append] at hf
    rcases hf with (hf | hf) | hf <;> split at hf <;> simp at hf <;> simp [hf]
  rcases this with rfl | rfl | rfl
  · exact h1
  · exact h2
  · exact late_body h3 _ _ _ _ _

theorem unpin_n (cx : Ctx) (tys : List Node) : ∀ i ∈ makeUnpinImpl cx tys, ItemN S i := by
  intro i hi
  unfold makeUnpinImpl at hi
  split at hi <;> simp only [List.mem_cons, List.not_mem_nil, or_false] at hi
  · subst hi
    exact fun f hf => by cases hf
  · rcases hi with rfl | rfl <;> exact fun f hf => by cases hf
  · rcases hi with rfl | rfl | rfl
    · trivial
    · exact fun f hf => by cases hf
    · exact fun f hf => by cases hf

theorem drop_n (cx : Ctx) : ∀ i ∈ makeDropImpl cx, ItemN S i := by
  intro i hi
  unfold makeDropImpl at hi
  split at hi <;> simp only [List.mem_cons, List.not_mem_nil, or_false] at hi
  · subst hi
    intro f hf
    obtain rfl := List.mem_singleton.1 hf
    refine ⟨?_, trivial⟩
    intro s hs
    simp only [List.mem_cons, List.not_mem_nil, or_false] at hs
    rcases hs with rfl | rfl <;> trivial
  · rcases hi with rfl | rfl | rfl | rfl
    · trivial
    · trivial
    · exact fun f hf => by cases hf
    · intro f hf
      obtain rfl := List.mem_singleton.1 hf
      exact ⟨nofun, trivial⟩

theorem struct_n {fs : Fields} (h : FieldsN S fs) {cx : Ctx} (hc : NamesP S cx) :
    ∀ i ∈ (structExpansion cx fs).exposed ++ (structExpansion cx fs).inScope, ItemN S i := by
  obtain ⟨b1, b2, b3⟩ := bodiesS_p h hc
  intro i hi
  simp only [structExpansion, List.mem_append, List.mem_ite_nil_left, List.mem_ite_nil_right, List.mem_singleton] at hi
  rcases hi with ((⟨_, rfl⟩ | ⟨_, rfl⟩) | ⟨_, _, rfl⟩) | ((((((⟨_, rfl⟩ | ⟨_, rfl⟩) | ⟨_, _, rfl⟩) | rfl) | rfl) | hi) | hi)
  all_goals first
    | trivial
    | exact impl_n cx b1 b2 b3
    | exact unpin_n cx _ i hi
    | exact drop_n cx i hi

theorem enum_n {vs : List PinProject.Variant} (h : ∀ v ∈ vs, S v.ident ∧ FieldsN S v.fields) {cx : Ctx} (hc : NamesP S cx) :
    ∀ i ∈ (enumExpansion cx vs).exposed ++ (enumExpansion cx vs).inScope, ItemN S i := by
  obtain ⟨b1, b2, b3⟩ := bodiesE_p h hc
  intro i hi
  simp only [enumExpansion, List.mem_append, List.mem_ite_nil_right, List.mem_singleton] at hi
  rcases hi with ((⟨_, rfl⟩ | ⟨_, rfl⟩) | ⟨_, rfl⟩) | ((rfl | hi) | hi)
  all_goals first
    | trivial
    | exact impl_n cx b1 b2 b3
    | exact unpin_n cx _ i hi
    | exact drop_n cx i hi

theorem args_names {item : Item} {A : Args} (h : parseArgs (itemAttrs item) = .ok A) : ∀ n ∈ userNames A, IsName item n := by
  obtain ⟨a, p, d, ts, ha, hm, h⟩ := parseArgs_ok_shape h
  obtain ⟨as, h1, h2, rfl⟩ := parse_ok_iff.1 h
  have ha' : a ∈ (itemAttrs item).filter isPinAttr := by rw [ha]; exact .head _
  intro n hn
  have := argNames h1 n ((config_names as h2 n).1 hn)
  exact .arg ⟨a, (List.mem_filter.1 ha').1, p, d, ts, hm, this.2⟩ this.1

theorem ctx_isName {item : Item} {A : Args} (hu : ∀ n ∈ userNames A, IsName item n) {n : String} (hn : itemName item = some n)
    (attrs : List Attribute) (v : Vis) (g : PinProject.Generics) (k : TypeKind) : NamesP (IsName item) (mkCtx A attrs v n g k) := by
  have name : ∀ (o : Option String) (d : String), (∀ n, o = some n → n ∈ userNames A) → IsName item d →
      IsName item (o.getD d) := by
    intro o d ho hd
    cases o with
    | none => exact hd
    | some n => exact hu n (ho n rfl)
  have hmade : ∀ m ∈ madeFrom n, IsName item m := fun m hm => .made hn hm
  exact ⟨name _ _ (fun n hn => by simp [userNames, hn]) (hmade _ (by simp [madeFrom])),
    name _ _ (fun n hn => by simp [userNames, hn]) (hmade _ (by simp [madeFrom])),
    name _ _ (fun n hn => by simp [userNames, hn]) (hmade _ (by simp [madeFrom]))⟩

theorem fields_isName {item : Item} (s : SelfTy) {v : Option String × Fields} (hv : v ∈ itemVariants item) (hw : v.2.WF) :
    FieldsN (IsName item) (v.2.visit s) := by
  refine ⟨wf_visit _ _ hw, fun f hf i hi => ?_⟩
  rw [visit_fields_list] at hf
  obtain ⟨f, hf', rfl⟩ := List.mem_map.1 hf
  exact .field hv hf' hi

end
end Emit

theorem expansion_names {item : Item} (hwf : ItemWF item) {E : Expansion} (h : parseDerive item = .ok E) :
    ∀ i ∈ E.exposed ++ E.inScope, Emit.ItemN (IsName item) i := by
  cases item with
  | other a => cases h
  | struct_ s =>
    obtain ⟨A, hA, -, -, -, -, -, rfl⟩ := (deriveStruct_iff s E).1 h
    refine Emit.struct_n ?_ (Emit.ctx_isName (item := .struct_ s) (Emit.args_names (item := .struct_ s) hA) rfl _ _ _ _)
    exact Emit.fields_isName (item := .struct_ s) _ (v := (none, s.fields)) (.head _) (hwf.fields none s.fields ⟨rfl, rfl⟩)
  | enum_ s =>
    obtain ⟨A, hA, -, -, -, -, -, -, rfl⟩ := (deriveEnum_iff s E).1 h
    refine Emit.enum_n (fun v hv => ?_) (Emit.ctx_isName (item := .enum_ s) (Emit.args_names (item := .enum_ s) hA) rfl _ _ _ _)
    rw [ItemEnum.pre_variants] at hv
    obtain ⟨w, hw, rfl⟩ := List.mem_map.1 hv
    have hm : (some w.ident, w.fields) ∈ itemVariants (.enum_ s) := List.mem_map.2 ⟨w, hw, rfl⟩
    exact ⟨.variant hm rfl, Emit.fields_isName _ hm (hwf.fields (some w.ident) w.fields ⟨w, hw, rfl, rfl⟩)⟩

/-- **C89** In the tokens that `#[pin_project]` produces, all that stands in an `unsafe` context and was written by the user is a
name: of a field, of a variant, or of a projected type. No type, expression or macro call of the user is there. -/
theorem C89_names (item : Item) (hwf : ItemWF item) (toks : List ETok) (h : deriveTokens item = .ok toks) :
    ∀ x ∈ unsafeCode .start toks, IsName item x := by
  obtain ⟨cx, E, -, h2, ht⟩ := deriveTokens_inv h
  rw [ht]
  exact (Emit.fine_expansion (expansion_ok hwf h2) (expansion_names hwf h2) [] rfl).2

/-- **C89** Each block that the macro opens is closed: after the tokens the reader is outside of everything again. -/
theorem C89_closed (item : Item) (hwf : ItemWF item) (toks : List ETok) (h : deriveTokens item = .ok toks) :
    Spot.after .start toks = .start := by
  obtain ⟨cx, E, -, h2, ht⟩ := deriveTokens_inv h
  rw [ht]
  exact (Emit.fine_expansion (S := IsName item) (expansion_ok hwf h2) (expansion_names hwf h2) [] rfl).1

/-! ## `#[pinned_drop]` -/

namespace Emit

/-- The reader gets from `p` to `p'` and finds `us` in unsafe contexts. -/
def R (p : Spot) (ts us : Toks) (p' : Spot) : Prop := p.after ts = p' ∧ (unsafeCode p ts).map .user = us

theorem R.seq {p p' p'' : Spot} {x y us vs : Toks} (h1 : R p x us p') (h2 : R p' y vs p'') : R p (x ++ y) (us ++ vs) p'' := by
  obtain ⟨rfl, rfl⟩ := h1
  obtain ⟨rfl, rfl⟩ := h2
  exact ⟨after_append .., by rw [code_append, List.map_append]⟩

theorem R.quiet {ts : Toks} (h : Quiet ts) {p : Spot} (hp : p.isUnsafe = false) : R p ts [] p :=
  ⟨after_quiet h p, by rw [code_quiet h hp]; rfl⟩

theorem R.users (xs : List String) {p : Spot} (hp : p.isUnsafe = true) : R p (xs.map .user) (xs.map .user) p := by
  refine ⟨after_quiet (q_users xs) p, ?_⟩
  induction xs with
  | nil => rfl
  | cons x xs ih =>
    show ((if p.isUnsafe then [x] else []) ++ unsafeCode p (xs.map .user)).map ETok.user = _
    rw [hp, if_pos rfl, List.map_append, ih]
    rfl

/-- Only tokens of the user. -/
def Users (ts : Toks) : Prop := ∃ xs : List String, ts = xs.map .user

theorem Users.append {x y : Toks} (hx : Users x) (hy : Users y) : Users (x ++ y) := by
  obtain ⟨xs, rfl⟩ := hx
  obtain ⟨ys, rfl⟩ := hy
  exact ⟨xs ++ ys, by rw [List.map_append]⟩

theorem Users.flatMap {α : Type} {xs : List α} {f : α → Toks} (h : ∀ x, Users (f x)) : Users (xs.flatMap f) := by
  induction xs with
  | nil => exact ⟨[], rfl⟩
  | cons x xs ih => exact (h x).append ih

theorem Users.read {ts : Toks} (h : Users ts) {p : Spot} (hp : p.isUnsafe = true) : R p ts ts p := by
  obtain ⟨xs, rfl⟩ := h
  exact .users xs hp

theorem Users.quiet {ts : Toks} (h : Users ts) : Quiet ts := by
  obtain ⟨xs, rfl⟩ := h
  exact q_users xs

theorem users_attr (a : Attribute) : Users (userAttr a) := ⟨_, rfl⟩

theorem users_innerAttr (a : Attribute) : Users (innerAttr a) := by
  refine ⟨("#" :: "!" :: (match a.m with
    | .path p => ["["] ++ spath p ++ ["]"]
    | .list p d ts => ["["] ++ spath p ++ tts [.group d ts] ++ ["]"]
    | .nameValue p ts => ["["] ++ spath p ++ ["="] ++ tts ts ++ ["]"])), ?_⟩
  unfold innerAttr userAttr
  cases a.m <;> rfl

theorem users_vis (v : Vis) : Users (vis v) := by
  cases v with
  | inherited => exact ⟨[], rfl⟩
  | pub => exact ⟨["pub"], rfl⟩
  | restricted i p => exact ⟨_, rfl⟩

theorem users_quals (qs : List String) : Users (qualifiers qs []) :=
  Users.append (.append ⟨_, rfl⟩ ⟨[], rfl⟩) ⟨_, rfl⟩

theorem inner_read {f : DropInner} (hu : f.isUnsafe = false) (hn : f.name = "__drop_inner") (bs : List Bool) :
    R ⟨true :: bs, none⟩ (inner f) (f.attrs.flatMap userAttr ++ vis f.vis ++ qualifiers f.quals []) ⟨true :: bs, none⟩ := by
  have h1 : ∀ as, R ⟨true :: bs, none⟩ (attr dropQuote "allow" as) [] ⟨true :: bs, none⟩ := fun _ => ⟨rfl, rfl⟩
  unfold inner
  generalize ["clippy::missing_const_for_fn", "clippy::needless_pass_by_value", "clippy::single_call_fn"] = as
  rw [hu, hn]
  have h2 : R ⟨true :: bs, none⟩ (f.attrs.flatMap userAttr) (f.attrs.flatMap userAttr) ⟨true :: bs, none⟩ :=
    (Users.flatMap users_attr).read rfl
  have h3 : R ⟨true :: bs, none⟩ (W dropQuote "fn") [] ⟨true :: bs, some false⟩ := ⟨rfl, rfl⟩
  have hout : Quiet (match f.output with | some t => (["->"] ++ node t).map ETok.user | none => []) := by
    split
    · exact q_users _
    · exact q_nil.2 trivial
  have h4 := R.quiet (q_append.2 ⟨q_append.2 ⟨q_append.2 ⟨q_append.2 ⟨q_append.2 ⟨q_append.2 ⟨q_append.2 ⟨q_append.2 ⟨q_append.2
    ⟨q_append.2 ⟨q_append.2 ⟨q_w dropQuote "__drop_inner", q_generics dropQuote f.generics.defParams⟩, q_p dropQuote "("⟩,
    (Users.flatMap (xs := f.paramAttrs) users_attr).quiet⟩, q_ite (c := f.isMut = true) (q_U "mut") (q_nil.2 trivial)⟩, q_U f.param⟩,
    q_p dropQuote ":"⟩, q_users (node f.paramTy)⟩, q_users (lastParam f.comma f.variadic)⟩, q_p dropQuote ")"⟩, hout⟩,
    q_wheres dropQuote .site f.generics.preds⟩) (p := ⟨true :: bs, some false⟩) rfl
  have h5 : R ⟨true :: bs, some false⟩ (P dropQuote "{") [] ⟨false :: true :: bs, none⟩ := ⟨rfl, rfl⟩
  have h6 := R.quiet (q_append.2 ⟨(Users.flatMap (xs := f.innerAttrs) users_innerAttr).quiet, q_users (f.body.flatMap node)⟩)
    (p := ⟨false :: true :: bs, none⟩) rfl
  have h7 : R ⟨false :: true :: bs, none⟩ (P dropQuote "}") [] ⟨true :: bs, none⟩ := ⟨rfl, rfl⟩
  have := (((((((((h1 as).seq h2).seq ((users_vis f.vis).read rfl)).seq ((users_quals f.quals).read rfl)).seq h3).seq h4).seq h5).seq h6).seq h7)
  simp only [Bool.false_eq_true, if_false, List.append_assoc, List.append_nil, List.nil_append] at this ⊢
  exact this

theorem pinnedDrop_read (i : PinnedDropImpl) (attrs : List Attribute) (v : Vis) (sg : Signature) (ias : List Attribute) (f : DropInner)
    (hi : i.items = [.drop attrs v sg ias [.fnItem f, .call "__drop_inner" "self"]]) (hs : sg.isUnsafe = true)
    (hp : i.traitPath = .mk true [.mk "pin_project" .none, .mk "__private" .none, .mk "PinnedDrop" .none])
    (hu : f.isUnsafe = false) (hn : f.name = "__drop_inner") :
    R .start (pinnedDrop i) (ias.flatMap innerAttr ++ (f.attrs.flatMap userAttr ++ vis f.vis ++ qualifiers f.quals []) ++ [.user "self"])
      .start := by
  have hq : Quiet (templatePath dropQuote i.traitPath) := by
    rw [hp]
    exact q_append.2 ⟨q_p _ _, q_append.2 ⟨q_w _ _, q_segments _ (by decide)⟩⟩
  have h1 := R.quiet (q_append.2 ⟨q_append.2 ⟨q_append.2 ⟨q_append.2 ⟨q_append.2 ⟨q_append.2 ⟨q_append.2 ⟨q_append.2 ⟨q_append.2
    ⟨(Users.flatMap (xs := i.attrs) users_attr).quiet, q_ite (c := i.isDefault = true) (q_U "default") (q_nil.2 trivial)⟩,
    q_ite (c := i.isUnsafe = true) (q_U "unsafe") (q_nil.2 trivial)⟩, q_U "impl"⟩, q_generics dropQuote i.generics.defParams⟩,
    q_ite (c := i.bang = true) (q_U "!") (q_nil.2 trivial)⟩, hq⟩, q_U "for"⟩, q_users (node i.selfTy)⟩,
    q_wheres dropQuote .site i.generics.preds⟩) (p := .start) rfl
  have h2 : R .start (P dropQuote "{") [] ⟨[false], none⟩ := ⟨rfl, rfl⟩
  have h3 := R.quiet (q_append.2 ⟨q_append.2 ⟨q_append.2 ⟨(Users.flatMap (xs := i.innerAttrs) users_innerAttr).quiet,
    (Users.flatMap (xs := attrs) users_attr).quiet⟩, (users_vis v).quiet⟩,
    q_users (sg.quals.filter (fun w => w = "const" ∨ w = "async"))⟩) (p := ⟨[false], none⟩) rfl
  have h4 : R ⟨[false], none⟩ unsafety [] ⟨[false], some true⟩ := ⟨rfl, rfl⟩
  have h5 := R.quiet (q_append.2 ⟨q_append.2 ⟨q_append.2 ⟨q_append.2 ⟨q_append.2 ⟨q_append.2
    ⟨q_users (sg.quals.filter (fun w => ¬ (w = "const" ∨ w = "async"))), q_users ["fn", sg.ident]⟩,
    q_generics dropQuote sg.generics.defParams⟩, q_users ["("]⟩, (Users.flatMap (xs := sg.recvAttrs) users_attr).quiet⟩,
    q_users (((sg.inputs.map (fun i => match i with
        | .receiver m _ t => (if m then ["mut"] else []) ++ ["self", ":"] ++ node t
        | .typed p t => node p ++ [":"] ++ node t)).intersperse [","]).flatten ++ lastParam sg.comma sg.variadic ++ [")"] ++
      (match sg.output with | some t => ["->"] ++ node t | none => []))⟩,
    q_wheres dropQuote .site sg.generics.preds⟩) (p := ⟨[false], some true⟩) rfl
  have h6 : R ⟨[false], some true⟩ (P dropQuote "{") [] ⟨[true, false], none⟩ := ⟨rfl, rfl⟩
  have h7 : R ⟨[true, false], none⟩ (ias.flatMap innerAttr) (ias.flatMap innerAttr) ⟨[true, false], none⟩ :=
    (Users.flatMap users_innerAttr).read rfl
  have h8 := inner_read hu hn [false]
  have h9 : R ⟨[true, false], none⟩ (W dropQuote "__drop_inner" ++ P dropQuote "(" ++ U "self" ++ P dropQuote ")" ++ P dropQuote ";")
    [.user "self"] ⟨[true, false], none⟩ := ⟨rfl, rfl⟩
  have h10 : R ⟨[true, false], none⟩ (P dropQuote "}") [] ⟨[false], none⟩ := ⟨rfl, rfl⟩
  have h11 : R ⟨[false], none⟩ (P dropQuote "}") [] .start := ⟨rfl, rfl⟩
  have := ((((((((((h1.seq h2).seq h3).seq h4).seq h5).seq h6).seq h7).seq h8).seq h9).seq h10).seq h11)
  simp only [pinnedDrop, hi, List.flatMap_cons, List.flatMap_nil, outItem, outStmt, qualifiers, hs, if_true, List.append_assoc,
    List.append_nil, List.nil_append, List.map_append] at this ⊢
  exact this

end Emit

/-- **C89** In the expansion of `#[pinned_drop]`, whose `drop` is `unsafe`, no statement of the user is in an unsafe context: all
that is there from the user are the attributes and what else precedes the `fn` of their method, and the `self` that is passed on. -/
theorem C89_pinned_drop (args : List TT) (item : ItemImpl) (out : PinnedDropImpl)
    (h : pinnedDropAttribute args item = .expanded out) :
    ∃ m, item.items = [.fn m] ∧
      (unsafeCode .start (Emit.pinnedDrop out)).map .user = beforeFn m ++ [.user "self"] ∧
      Spot.after .start (Emit.pinnedDrop out) = .start := by
  rcases attribute_cases args item with ⟨neg, m, q, p, b, sh, ty, ⟨hc, -⟩, hty, hr, hpin, heq⟩ | ⟨_, h2⟩
  · rw [heq] at h
    have e := PinnedDropOut.expanded.inj h
    have := Emit.pinnedDrop_read out m.attrs m.vis { m.sig with isUnsafe := true, inputs := [.receiver false sh ty] } m.innerAttrs
      (dropInner ⟨q, p, item.selfToks⟩ item.generics m b ty) (by rw [← e]) rfl (by rw [← e]; rfl) hc.drop.safe rfl
    refine ⟨m, hc.onlyDrop, ?_, this.1⟩
    simpa only [beforeFn, dropInner, List.append_assoc] using this.2
  · exact absurd h (h2 out)

/-! ## Examples -/

/-- The hypotheses are met by an enum, and there are names in unsafe contexts. -/
example : ∃ toks, deriveTokens (.enum_ demoEnum) = .ok toks ∧ unsafeCode .start toks ≠ [] ∧
    ∀ x ∈ unsafeCode .start toks, IsName (.enum_ demoEnum) x :=
  ⟨_, rfl, by decide +kernel, C89_names _ demoEnum_wf _ rfl⟩

example : ∃ out m, pinnedDropAttribute [] demoImpl = .expanded out ∧ demoImpl.items = [.fn m] ∧ m.block ≠ [] ∧
    (unsafeCode .start (Emit.pinnedDrop out)).map .user = beforeFn m ++ [.user "self"] := by
  obtain ⟨out, h⟩ := C33_documented _ _ _ demoImpl_documented
  obtain ⟨m, h1, h2, -⟩ := C89_pinned_drop _ _ _ h
  refine ⟨out, m, h, h1, ?_, h2⟩
  cases h1
  nofun

/-- The types of its fields are no names of a definition. -/
example : ¬ IsName (.struct_ (demoGeneric [])) "T" := by
  intro h
  generalize hs : "T" = t at h
  cases h with
  | field hv hf hi =>
    obtain rfl := List.mem_singleton.1 hv
    simp only [demoGeneric, Fields.list, List.mem_cons, List.not_mem_nil, or_false] at hf
    rcases hf with rfl | rfl
    · exact absurd (hs.trans (Option.some.inj hi).symm) (by decide)
    · exact absurd (hs.trans (Option.some.inj hi).symm) (by decide)
  | variant hv hn =>
    obtain rfl := List.mem_singleton.1 hv
    cases hn
  | arg h =>
    obtain ⟨a, ha, p, d, ts, h, ht⟩ := h
    obtain rfl := List.mem_singleton.1 ha
    cases h
    cases ht
  | made h1 h =>
    subst hs
    cases h1
    exact absurd h (by decide)

/-- Without the inner function, a statement would be in an unsafe context. -/
example : unsafeCode .start ([.word "impl" .site, .punct "{" .site, .word "unsafe" .site, .word "fn" .site, .word "drop" .site,
    .punct "{" .site, .user "danger", .punct "}" .site, .punct "}" .site] : List ETok) = ["danger"] := by decide

/-- In the inner function it is not. -/
example : unsafeCode .start ([.word "impl" .site, .punct "{" .site, .word "unsafe" .site, .word "fn" .site, .word "drop" .site,
    .punct "{" .site, .word "fn" .site, .word "__drop_inner" .site, .punct "{" .site, .user "danger", .punct "}" .site,
    .punct "}" .site, .punct "}" .site] : List ETok) = [] := by decide

end PinProject
