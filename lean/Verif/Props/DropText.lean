import Verif.Props.Provenance
import Verif.Spec.DropText
import Verif.Props.GrammarDrop
import Verif.Props.Reader
/-!
# The text that `#[pinned_drop]` produces: C77
-/
namespace PinProject
open Spec Spec.Grammar Spec.Meaning Read

theorem spath_eq (p : SPath) : Emit.spath p = pathText p := by
  obtain ⟨l, segs⟩ := p
  have : Emit.colons segs = ((segs.map (fun s => [s])).intersperse ["::"]).flatten := by
    fun_induction Emit.colons segs with
    | case1 => rfl
    | case2 => rfl
    | case3 t ts h ih =>
      cases ts with
      | nil => exact absurd rfl h
      | cons u us => simp only [List.map_cons, List.intersperse, List.flatten_cons] at ih ⊢; rw [ih]; rfl
  unfold Emit.spath pathText
  rw [this]

theorem userAttr_eq (a : Attribute) : texts (Emit.userAttr a) = attributeText a := by
  unfold Emit.userAttr attributeText metaText
  rw [Emit.texts_user]
  cases a.m <;> simp only [spath_eq, Emit.tts, List.append_assoc, List.append_nil, List.cons_append, List.nil_append]

theorem innerAttr_eq (a : Attribute) : texts (Emit.innerAttr a) = innerText a := by
  have h : (Emit.userAttr a).tail = (metaText a).map .user := by
    unfold Emit.userAttr metaText
    cases a.m <;> simp only [spath_eq, Emit.tts, List.append_assoc, List.append_nil, List.cons_append, List.nil_append, List.map_cons,
      List.tail_cons]
  unfold Emit.innerAttr innerText
  rw [Emit.texts_append, Emit.texts_append, h, Emit.texts_user]
  rfl

theorem innerAttrs_eq (as : List Attribute) : texts (as.flatMap Emit.innerAttr) = as.flatMap innerText := by
  rw [Emit.texts_flatMap]
  simp only [innerAttr_eq]

theorem userAttrs_eq (as : List Attribute) : texts (as.flatMap Emit.userAttr) = as.flatMap attributeText := by
  rw [Emit.texts_flatMap]
  simp only [userAttr_eq]

theorem generics_text (ps : List GParam) : GenericsText ps (texts (Emit.generics Emit.dropQuote
    (ps.filter GParam.isLifetime ++ ps.filter (fun p => !p.isLifetime)))) := by
  refine .mk (each_map _ fun p _ => param_is Emit.dropQuote p) ?_
  unfold Emit.generics
  rw [angles_map]
  generalize ps.filter GParam.isLifetime ++ ps.filter (fun p => !p.isLifetime) = qs
  split
  · rename_i h
    rw [List.isEmpty_iff] at h
    rw [h]
    exact .none
  · rename_i h
    rw [List.isEmpty_iff] at h
    rw [List.flatMap_map]
    exact AppIs.some (t := []) h (sep_flatMap _ _)

theorem wheres_text (ws : List WPred) : WhereText ws (texts (Emit.wheres Emit.dropQuote .site ws)) := by
  rw [texts_wheres]
  cases ws with
  | nil => exact .none
  | cons w ws =>
    rw [if_neg (by simp), List.flatMap_map]
    exact .some (by simp) (each_map _ fun w _ => pred_is Emit.dropQuote .site w) (sep_flatMap _ _)

theorem visit_preds (s : SelfTy) (g : PinProject.Generics) : (g.visit s).preds = g.preds.map (WPred.visit s) := by
  obtain ⟨ps, _ | ws⟩ := g <;> rfl

theorem qualifiers_text {qs q1 q2 : List String} (h : Qualifiers qs q1 q2) (u : Emit.Toks) :
    texts (Emit.qualifiers qs u) = q1 ++ texts u ++ q2 := by
  cases h with
  | mk hc ha he =>
    rename_i c a
    have abi : ∀ s : String, "\"" ++ s ++ "\"" ≠ "const" ∧ "\"" ++ s ++ "\"" ≠ "async" := by
      intro s
      constructor <;>
      · intro h
        have := congrArg (fun s => s.toList.head?) h
        simp at this
    have split_ : (c ++ a ++ q2).filter (fun w => w = "const" ∨ w = "async") = c ++ a ∧
        (c ++ a ++ q2).filter (fun w => ¬ (w = "const" ∨ w = "async")) = q2 := by
      simp only [List.mem_cons, List.not_mem_nil, or_false] at hc ha he
      rcases hc with rfl | rfl <;> rcases ha with rfl | rfl <;> rcases he with (rfl | rfl) | ⟨s, rfl⟩ <;>
        simp [abi]
    rw [Emit.qualifiers, Emit.texts_append, Emit.texts_append, Emit.texts_user, Emit.texts_user, split_.1, split_.2]

theorem vis_eq (v : Vis) : texts (Emit.vis v) = visText v := by
  cases v with
  | inherited => rfl
  | pub => rfl
  | restricted i p =>
    unfold Emit.vis visText
    simp only [Emit.texts_user, ← spath_eq]
    simp only [Emit.spath, List.append_assoc]

theorem last_eq (sig : Signature) : Emit.lastParam sig.comma sig.variadic = lastText sig := by
  unfold lastText Emit.lastParam
  cases sig.variadic <;> cases sig.comma <;> rfl

theorem inner_text {item : ItemImpl} {m : Method} {q1 q2 : List String} (hq : Qualifiers m.sig.quals q1 q2) (hu : m.sig.isUnsafe = false)
    (b : Bool) (ty : Node) : InnerText item m b ty (texts (Emit.inner (dropInner (implSelfTy item) item.generics m b ty))) := by
  rw [Emit.inner_eq]
  have h1 := InnerText.mk (item := item) (m := m) (isMut := b) (ty := ty) (generics_text _) (wheres_text _)
  have h2 : q1 ++ q2 = m.sig.quals := by
    generalize m.sig.quals = qs at hq
    cases hq
    rfl
  simp only [dropInner, hu, Bool.false_eq_true, if_false, qualifiers_text hq, Emit.texts_nil, List.append_nil, h2, userAttrs_eq, innerAttrs_eq, vis_eq, last_eq,
    visit_preds, visitNodes_map, List.map_cons, List.flatMap_cons]
  have h3 : Emit.node (dummyDropInner.visit (implSelfTy item)) = ["fn", "__drop_inner", "(", ")", "{", "}"] := by
    simp only [dummyDropInner, Node.visit]; decide
  have h4 : ∀ o, Emit.outputToks o = returnText o := by intro o; cases o <;> rfl
  rw [h3, h4]
  simp only [List.append_assoc, List.cons_append, List.nil_append] at h1 ⊢
  exact h1

/-- **C77** The text that `#[pinned_drop]` produces is the impl of the user, of the private trait, with an `unsafe fn drop` that
calls a function inside it; that function has the generics of the impl, the attributes, qualifiers and result of the
user's function, `__self` instead of `self`, and its statements with `self` and `Self` replaced. -/
theorem C77_pinned_drop (args : List TT) (item : ItemImpl) (out : PinnedDropImpl) (h : pinnedDropAttribute args item = .expanded out)
    (hq : ∀ m, .fn m ∈ item.items → ∃ q1 q2, Qualifiers m.sig.quals q1 q2) :
    ∃ neg path m isMut sh ty, item.trait_ = some (neg, path) ∧ item.items = [.fn m] ∧ m.sig.inputs = [.receiver isMut sh ty] ∧
      DropText item neg m isMut ty (texts (Emit.pinnedDrop out)) := by
  rcases attribute_cases args item with ⟨neg, m, q, p, b, sh, ty, ⟨hc, -⟩, hty, hr, hpin, heq⟩ | ⟨_, h2⟩
  · rw [heq] at h
    obtain rfl := PinnedDropOut.expanded.inj h
    have hs : implSelfTy item = ⟨q, p, item.selfToks⟩ := by rw [implSelfTy, hty]
    obtain ⟨q1, q2, hq⟩ := hq m (by rw [hc.onlyDrop]; simp)
    refine ⟨neg, _, m, b, sh, ty, hc.pinnedDrop, hc.onlyDrop, hr, ?_⟩
    have hi := inner_text (item := item) hq hc.drop.safe b ty
    rw [hs] at hi
    have h1 := DropText.mk (item := item) (neg := neg) (m := m) (isMut := b) (ty := ty) (generics_text _) (wheres_text _) hq
      (generics_text _) (wheres_text _) hi
    unfold Emit.pinnedDrop
    have h2 : ∀ o, Emit.outputToks o = returnText o := by intro o; cases o <;> rfl
    have h3 : texts (Emit.userAttr docHidden) = ["#", "[", "doc", "(", "hidden", ")", "]"] := by decide
    have h4 : texts (if neg then Emit.U "!" else []) = if neg then ["!"] else [] := by cases neg <;> rfl
    have h5 : texts (Emit.templatePath Emit.dropQuote privatePinnedDropPath) = privateTrait := by decide
    have ho := Emit.outItem_eq m.attrs m.vis { m.sig with isUnsafe := true, inputs := [.receiver false sh ty] } m.innerAttrs sh ty
      [.fnItem (dropInner ⟨q, p, item.selfToks⟩ item.generics m b ty), .call "__drop_inner" "self"] rfl
    simp only [List.flatMap_cons, List.flatMap_nil, List.append_nil, Emit.outStmt, Emit.texts_append, Emit.texts_P, Emit.texts_W,
      qualifiers_text hq, userAttrs_eq, innerAttrs_eq, vis_eq, h2, hc.drop.name] at ho
    have hl : Emit.lastParam m.sig.comma m.sig.variadic = lastText m.sig := last_eq _
    rw [hl] at ho
    have h6 : texts (if item.isDefault then Emit.U "default" else []) = if item.isDefault then ["default"] else [] := by
      cases item.isDefault <;> rfl
    simp only [Emit.texts_append, Emit.texts_P, Emit.texts_U, Emit.texts_user, List.flatMap_cons, List.flatMap_nil,
      List.append_nil, hc.safe, Bool.false_eq_true, if_false, List.flatMap_append, userAttrs_eq, innerAttrs_eq, h3, h4, h5, h6,
      hc.drop.name]
    rw [ho]
    simp only [List.append_assoc, List.cons_append, List.nil_append] at h1 ⊢
    exact h1
  · exact absurd h (h2 out)

theorem dummy_eq {args : List TT} {item : ItemImpl} {msg : String} {d : DummyImpl}
    (h : pinnedDropAttribute args item = .compileError msg (some d)) :
    d = ⟨item.generics, privatePinnedDropPath, item.selfTy⟩ := by
  unfold pinnedDropAttribute at h
  dsimp only at h
  split at h
  · cases h
  · cases h
  · split at h
    · simp only [PinnedDropOut.compileError.injEq, Option.some.injEq] at h
      exact h.2.symm
    · cases h

theorem implGenerics_split (g : PinProject.Generics) : g.implGenerics =
    (g.params.map withoutDefault).filter GParam.isLifetime ++ (g.params.map withoutDefault).filter (fun p => !p.isLifetime) := by
  rw [withoutDefault_eq, List.filter_map, List.filter_map, ← List.map_append]
  have h1 : GParam.isLifetime ∘ GParam.noDefault = GParam.isLifetime := by funext p; cases p <;> rfl
  have h2 : (fun p => !p.isLifetime) ∘ GParam.noDefault = fun p : GParam => !p.isLifetime := by funext p; cases p <;> rfl
  rw [h1, h2]
  rfl

/-- **C77** The impl that is added to a compile error. -/
theorem C77_dummy (args : List TT) (item : ItemImpl) (msg : String) (d : DummyImpl)
    (h : pinnedDropAttribute args item = .compileError msg (some d)) : DummyText item (texts (Emit.dummyImpl d)) := by
  obtain rfl := dummy_eq h
  have h1 := DummyText.mk (item := item) (generics_text _) (wheres_text _)
  have h5 : texts (Emit.templatePath Emit.dropQuote privatePinnedDropPath) = privateTrait := by decide
  have h6 : texts (Emit.ty Emit.dropQuote (.pin .abs (.ref none true .selfTy))) =
    ["::", "pin_project", "::", "__private", "::", "Pin", "<", "&", "mut", "Self", ">"] := by decide
  unfold Emit.dummyImpl
  simp only [Emit.texts_append, Emit.texts_P, Emit.texts_W, Emit.texts_user, implGenerics_split, h5, h6]
  simp only [List.append_assoc, List.cons_append, List.nil_append] at h1 ⊢
  exact h1

/-- **C76** The impl that is added to a compile error parses. -/
theorem C76_grammar_dummy (L : User) (args : List TT) (item : ItemImpl) (msg : String) (d : DummyImpl)
    (h : pinnedDropAttribute args item = .compileError msg (some d))
    (hp : ∀ p ∈ item.generics.params, ParamWritten p ∧ paramPieces L p)
    (hw : ∀ w ∈ item.generics.preds, ∃ n, w = .user n ∧ L.pred (Emit.node n)) (ht : L.type (Emit.node item.selfTy)) :
    IsItem L (texts (Emit.dummyImpl d)) := by
  obtain rfl := dummy_eq h
  have hg : Grammar.Generics L false (texts (Emit.generics Emit.dropQuote item.generics.implGenerics)) :=
    Emit.g_generics _ (Emit.implParams_g hp)
  have hws : Where L (texts (Emit.wheres Emit.dropQuote .site item.generics.preds)) := Emit.g_wheres _ _ fun w hw' => by
    obtain ⟨n, rfl, hn⟩ := hw w hw'
    exact hn
  have hpath : Grammar.Path (texts (Emit.templatePath Emit.dropQuote privatePinnedDropPath)) :=
    .snoc (.snoc (.root (by decide)) (by decide)) (by decide)
  have hty : Grammar.Ty L .type (texts (Emit.ty Emit.dropQuote (.pin .abs (.ref none true .selfTy)))) :=
    (Emit.g_ty _ (by simp [Emit.TyG])).1
  have hf : Grammar.Fn L _ := .mk (as := []) (v := []) (m := ["unsafe"]) (w := "drop") (g := []) (r := []) (wh := []) (b := [])
    .nil .inherited (.some rfl) (by decide) .none (.one (.typed (.inr rfl) hty)) .none .none (.block .nil)
  have := IsItem.implTrait (as := []) (m := []) .nil .none hg hpath (.user ht) hws (many_single hf)
  unfold Emit.dummyImpl
  simp only [Emit.texts_append, Emit.texts_P, Emit.texts_W, Emit.texts_user]
  simpa only [List.append_assoc, List.cons_append, List.nil_append] using this

/-- The texts for `demoImpl`. -/
example : ∃ out m ty, pinnedDropAttribute [] demoImpl = .expanded out ∧
    DropText demoImpl false m true ty (texts (Emit.pinnedDrop out)) := by
  obtain ⟨out, h⟩ := C33_documented _ _ _ demoImpl_documented
  obtain ⟨neg, path, m, b, sh, ty, h1, h2, h3, h4⟩ := C77_pinned_drop _ _ out h fun m hm => by
    obtain hm := List.mem_singleton.1 hm
    cases hm
    exact ⟨[], [], .mk (c := []) (a := []) (by simp) (by simp) (by simp)⟩
  cases h1
  cases h2
  cases h3
  exact ⟨out, _, _, h, h4⟩

/-- `#![allow(x)]` in the impl stays inside its braces. -/
example : ∃ out, pinnedDropAttribute [] { demoImpl with innerAttrs := [⟨.list { segs := ["allow"] } .paren [.ident "x"]⟩] } = .expanded out ∧
    out.innerAttrs.flatMap innerText = ["#", "!", "[", "allow", "(", "x", ")", "]"] ∧ out.attrs = [docHidden] :=
  ⟨_, rfl, by decide, rfl⟩

/-- With arguments, the attribute is an error; the impl that is added has the generics of the user's. -/
example : ∃ msg d, pinnedDropAttribute [.ident "x"] demoImpl = .compileError msg (some d) ∧
    DummyText demoImpl (texts (Emit.dummyImpl d)) ∧ IsItem demoDropUser (texts (Emit.dummyImpl d)) := by
  refine ⟨_, _, rfl, C77_dummy [.ident "x"] demoImpl _ _ rfl, C76_grammar_dummy _ [.ident "x"] demoImpl _ _ rfl (fun p hp => ?_) nofun (.head _)⟩
  obtain rfl := List.mem_singleton.1 hp
  exact ⟨(by decide : Ident "T"), nofun, nofun⟩

end PinProject
