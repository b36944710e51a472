import Verif.Props.Grammar
import Verif.Props.PinnedDrop
/-!
# The tokens of `#[pinned_drop]` are an impl: C76
-/
namespace PinProject
open Spec Spec.Grammar

namespace Emit

variable {L : User}

theorem generics_proper {g : PinProject.Generics} (h : ProperGenerics L g) :
    Grammar.Generics L false (texts (generics dropQuote g.defParams)) ∧ Where L (texts (wheres dropQuote .site g.preds)) := by
  refine ⟨g_generics _ fun p hp => ?_, g_wheres _ _ fun w hw => ?_⟩
  · obtain ⟨h1, h2, h3⟩ := h.params p (by
      simp only [Generics.defParams, List.mem_append, List.mem_filter] at hp
      rcases hp with hp | hp <;> exact hp.1)
    exact ⟨h1, h2, fun _ => by rw [← withoutDefault_eq]; exact h3⟩
  · obtain ⟨n, rfl, hn⟩ := h.preds w hw
    exact hn

theorem attrs_proper {as : List Attribute} (h : ∀ a ∈ as, L.attr (texts (userAttr a))) :
    Many (AnyAttr L) (texts (as.flatMap userAttr)) :=
  g_many _ _ fun a ha => .user (h a ha)

theorem quals_proper {quals : List String} (h : ∃ c a e, quals = c ++ a ++ e ∧ c ∈ [[], ["const"]] ∧ a ∈ [[], ["async"]] ∧
    (e ∈ [[], ["extern"]] ∨ ∃ abi, e = ["extern", "\"" ++ abi ++ "\""])) {m : Toks}
    (hm : Opt (fun x => x = ["unsafe"]) (texts m)) : FnQualifiers (texts (qualifiers quals m)) := by
  obtain ⟨c, a, e, rfl, hc, ha, he⟩ := h
  have abi : ∀ s : String, "\"" ++ s ++ "\"" ≠ "const" ∧ "\"" ++ s ++ "\"" ≠ "async" := by
    intro s
    constructor <;>
    · intro h
      have := congrArg (fun s => s.toList.head?) h
      simp at this
  have split_ : (c ++ a ++ e).filter (fun w => w = "const" ∨ w = "async") = c ++ a ∧
      (c ++ a ++ e).filter (fun w => ¬ (w = "const" ∨ w = "async")) = e := by
    simp only [List.mem_cons, List.not_mem_nil, or_false] at hc ha he
    rcases hc with rfl | rfl <;> rcases ha with rfl | rfl <;> rcases he with (rfl | rfl) | ⟨s, rfl⟩ <;>
      simp [abi]
  rw [qualifiers, texts_append, texts_append, texts_user, texts_user, split_.1, split_.2]
  simp only [List.mem_cons, List.not_mem_nil, or_false] at hc ha he
  refine .mk ?_ ?_ hm ?_
  · rcases hc with rfl | rfl
    · exact .none
    · exact .some rfl
  · rcases ha with rfl | rfl
    · exact .none
    · exact .some rfl
  · rcases he with (rfl | rfl) | ⟨s, rfl⟩
    · exact .none
    · exact .some (.inl rfl)
    · exact .some (.inr ⟨s, rfl⟩)

/-- `-> T` -/
def outputToks (o : Option Node) : List String := match o with | some t => ["->"] ++ node t | none => []

theorem output_proper {o : Option Node} (h : ∀ t, o = some t → L.type (node t)) :
    Opt (fun x => ∃ t, L.type t ∧ x = ["->"] ++ t) (outputToks o) := by
  cases o with
  | none => exact .none
  | some t => exact .some ⟨_, h t rfl, rfl⟩

theorem dummy_proper : DropFn L (node dummyDropInner) := by
  have : node dummyDropInner = [] ++ [] ++ ([] ++ [] ++ [] ++ []) ++ ["fn", "__drop_inner"] ++ [] ++ ["("] ++ [] ++ [")"] ++ [] ++
      [] ++ ["{"] ++ [] ++ [] ++ ["}"] := by decide
  rw [this]
  exact .mk .nil .inherited (.mk .none .none .none .none) (by decide) .none (.list .nil) .none .none .nil .nil

theorem inner_eq (f : DropInner) : texts (inner f) =
    (texts (attr dropQuote "allow" ["clippy::missing_const_for_fn", "clippy::needless_pass_by_value", "clippy::single_call_fn"]) ++
      texts (f.attrs.flatMap userAttr)) ++ texts (vis f.vis) ++ texts (qualifiers f.quals (if f.isUnsafe then U "unsafe" else [])) ++ ["fn", f.name] ++
    texts (generics dropQuote f.generics.defParams) ++ ["("] ++
    (texts (f.paramAttrs.flatMap userAttr) ++ ((if f.isMut then ["mut"] else []) ++ [f.param, ":"] ++ node f.paramTy) ++
      lastParam f.comma f.variadic) ++ [")"] ++ outputToks f.output ++
    texts (wheres dropQuote .site f.generics.preds) ++ ["{"] ++ texts (f.innerAttrs.flatMap innerAttr) ++ f.body.flatMap node ++ ["}"] := by
  have e2 : texts (if f.isMut then U "mut" else []) = if f.isMut then ["mut"] else [] := by cases f.isMut <;> rfl
  unfold inner outputToks
  cases f.output <;> simp only [texts_append, e2, texts_P, texts_W, texts_U, texts_user] <;>
    simp only [List.append_assoc, List.cons_append, List.nil_append] <;> rfl

theorem innerAttrs_proper {as : List Attribute} (h : ∀ a ∈ as, L.attr (texts (userAttr a))) :
    Many (InnerAttr L) (texts (as.flatMap innerAttr)) := by
  refine g_many _ _ fun a ha => ?_
  have h1 : texts (userAttr a) = ["#"] ++ texts (userAttr a).tail := by
    unfold userAttr
    cases a.m <;> rfl
  have h2 := h a ha
  rw [h1] at h2
  unfold innerAttr
  rw [texts_append]
  exact .mk h2

theorem params_proper {as : List Attribute} (h : ∀ a ∈ as, L.attr (texts (userAttr a))) {p : List String} (hp : DropParam L p)
    (c v : Bool) : DropParams L (texts (as.flatMap userAttr) ++ p ++ lastParam c v) := by
  have h1 := DropParam.attrs (attrs_proper h) hp
  cases v with
  | true => exact .variadic h1
  | false =>
    cases c with
    | true => simpa [lastParam] using DropParams.list (.cons h1 .nil)
    | false => simpa [lastParam] using DropParams.list (.one h1)

theorem inner_proper {s : SelfTy} {g : PinProject.Generics} {m : Method} (hm : ProperMethod L s m)
    (hg : ProperGenerics L (g.visit s)) {b sh : Bool} {ty : Node} (hr : m.sig.inputs = [.receiver b sh ty]) :
    DropFn L (texts (inner (dropInner s g m b ty))) := by
  rw [inner_eq]
  refine .mk (many_append (many_single (.attr (g_attr _ _ _))) (attrs_proper fun a ha => hm.attrs a (List.mem_append_left _ ha))) (g_vis hm.vis) (quals_proper hm.quals ?_)
    (by decide : Ident "__drop_inner") (generics_proper hg).1 (params_proper hm.recvAttrs ?_ _ _) (output_proper ?_) (generics_proper hg).2
    (innerAttrs_proper fun a ha => hm.attrs a (List.mem_append_right _ ha)) ?_
  · show Opt _ (texts (if m.sig.isUnsafe then U "unsafe" else []))
    cases m.sig.isUnsafe
    · exact .none
    · exact .some rfl
  · have := (hm.receiver b sh ty (by simp [hr])).2
    cases b with
    | true => exact .mut_ (by decide : Ident "__self") this
    | false => exact .typed (by decide : Ident "__self") this
  · intro t ht
    obtain ⟨t', h1, rfl⟩ := Option.map_eq_some_iff.1 ht
    exact (hm.output t' h1).2
  · show Many _ ((visitNodes s (dummyDropInner :: m.block)).flatMap node)
    rw [visitNodes_map]
    refine many_flatMap _ _ fun n hn => ?_
    obtain ⟨n, hn', rfl⟩ := List.mem_map.1 hn
    rcases List.mem_cons.1 hn' with rfl | hn'
    · exact .fn dummy_proper
    · exact .user (hm.block n hn')

theorem outItem_eq (attrs : List Attribute) (v : Vis) (sg : Signature) (ias : List Attribute) (sh : Bool) (ty : Node) (ss : List OutStmt)
    (h : sg.inputs = [.receiver false sh ty]) : texts (outItem (.drop attrs v sg ias ss)) =
    texts (attrs.flatMap userAttr) ++ texts (vis v) ++ texts (qualifiers sg.quals (if sg.isUnsafe then unsafety else [])) ++ ["fn", sg.ident] ++
    texts (generics dropQuote sg.generics.defParams) ++ ["("] ++
    (texts (sg.recvAttrs.flatMap userAttr) ++ (["self", ":"] ++ node ty) ++ lastParam sg.comma sg.variadic) ++ [")"] ++
    outputToks sg.output ++ texts (wheres dropQuote .site sg.generics.preds) ++ ["{"] ++ texts (ias.flatMap innerAttr) ++ texts (ss.flatMap outStmt) ++
    ["}"] := by
  unfold outItem outputToks
  simp only [h, texts_append, texts_P, texts_user]
  cases sg.output <;>
    simp only [List.append_assoc, List.cons_append, List.nil_append, List.map_cons, List.map_nil, List.intersperse,
      List.flatten_cons, List.flatten_nil, List.append_nil, Bool.false_eq_true, if_false]

end Emit

/-- **C76** What `#[pinned_drop]` produces parses: an impl of a trait, with a function in which there is a function with
the statements of the user. -/
theorem C76_grammar_pinned_drop (L : User) (args : List TT) (item : ItemImpl) (hp : ProperImpl L item) (out : PinnedDropImpl)
    (h : pinnedDropAttribute args item = .expanded out) : DropImpl L (texts (Emit.pinnedDrop out)) := by
  rcases attribute_cases args item with ⟨neg, m, q, p, b, sh, ty, ⟨hc, -⟩, hty, hr, hpin, heq⟩ | ⟨_, h2⟩
  · rw [heq] at h
    obtain rfl := PinnedDropOut.expanded.inj h
    have hs : implSelfTy item = ⟨q, p, item.selfToks⟩ := by rw [implSelfTy, hty]
    have hm := hp.methods m (by rw [hc.onlyDrop]; simp)
    obtain ⟨hg1, hg2⟩ := hp.generics
    rw [hs] at hm hg2
    have hattrs : Many (AnyAttr L) (texts ((item.attrs ++ [docHidden]).flatMap Emit.userAttr)) := by
      rw [List.flatMap_append, Emit.texts_append]
      refine many_append (Emit.attrs_proper fun a ha => hp.attrs a (List.mem_append_left _ ha)) (many_single (.attr ?_))
      exact .list (n := "doc") (.one ⟨"hidden", rfl⟩) (by simp)
    have hbody : Many (DropFn L) (texts ([OutItem.drop m.attrs m.vis
        { m.sig with isUnsafe := true, inputs := [.receiver false sh ty] } m.innerAttrs
        [.fnItem (dropInner ⟨q, p, item.selfToks⟩ item.generics m b ty), .call "__drop_inner" "self"]].flatMap Emit.outItem)) := by
      refine Emit.g_many _ _ fun x hx => ?_
      obtain rfl := List.mem_singleton.1 hx
      rw [Emit.outItem_eq _ _ _ _ _ _ _ rfl]
      have hd : Ident m.sig.ident := by rw [hc.drop.name]; decide
      refine .mk (Emit.attrs_proper fun a ha => hm.attrs a (List.mem_append_left _ ha)) (Emit.g_vis hm.vis) (Emit.quals_proper hm.quals (.some rfl)) hd
        (Emit.generics_proper hm.generics).1 (Emit.params_proper hm.recvAttrs (.self_ (hm.receiver b sh ty (by simp [hr])).1) _ _)
        (Emit.output_proper fun t ht => (hm.output t ht).1) (Emit.generics_proper hm.generics).2
        (Emit.innerAttrs_proper fun a ha => hm.attrs a (List.mem_append_right _ ha)) ?_
      refine Emit.g_many _ _ fun s hs => ?_
      simp only [List.mem_cons, List.not_mem_nil, or_false] at hs
      rcases hs with rfl | rfl
      · exact .fn (Emit.inner_proper hm hg2 hr)
      · exact .code (.semi (.expr (.noStruct (.call (f := ["__drop_inner"]) (.path (.one (by decide)))
          (.one (Emit.code_of (.path (.self_ (w := "self") (by simp)))))))))
    have hpath : Grammar.Path (texts (Emit.templatePath Emit.dropQuote privatePinnedDropPath)) :=
      .snoc (.snoc (.root (by decide)) (by decide)) (by decide)
    have hu : Opt (fun x => x = ["unsafe"]) (texts (if item.isUnsafe then Emit.U "unsafe" else [])) := by
      rw [hc.safe]; exact .none
    have hn : Opt (fun x => x = ["!"]) (texts (if neg then Emit.U "!" else [])) := by
      cases neg
      · exact .none
      · exact .some rfl
    have hd : Opt (fun x => x = ["default"]) (texts (if item.isDefault then Emit.U "default" else [])) := by
      cases item.isDefault
      · exact .none
      · exact .some rfl
    have := DropImpl.mk hattrs hd hu (Emit.generics_proper hg1).1 hn hpath hp.selfTy (Emit.generics_proper hg1).2
      (Emit.innerAttrs_proper fun a ha => hp.attrs a (List.mem_append_right _ ha)) hbody
    unfold Emit.pinnedDrop
    generalize List.flatMap Emit.outItem _ = B at this ⊢
    generalize List.flatMap Emit.userAttr _ = A at this ⊢
    simp only [Emit.texts_append, Emit.texts_P, Emit.texts_U, Emit.texts_user]
    simpa only [List.append_assoc, List.cons_append, List.nil_append] using this
  · exact absurd h (h2 out)

/-- The statements of `demoImpl`, with `self` and `Self` resolved. -/
def demoStmts : List (List String) :=
  [["call", "__self", "<", "Foo", "<", "T", ",", ">", ">", "::", "N"], ["fn", "h", "(", ")", "{", "self", "}"],
    ["m", "!", "(", "__self", ")"], ["Foo", "::", "<", "T", ",", ">", "__self"]]

/-- The pieces of `demoImpl`. -/
def demoDropUser : User where
  type x := x ∈ [["Foo", "<", "T", ",", ">"], ["Pin", "<", "&", "mut", "Self", ",", ">"],
    ["Pin", "<", "&", "mut", "Foo", "<", "T", ",", ">", ",", ">"]]
  bound _ := False
  pred _ := False
  dflt _ := False
  attr _ := False
  stmt x := x ∈ demoStmts

theorem demoImpl_proper : ProperImpl demoDropUser demoImpl where
  attrs := nofun
  generics := by
    have : ProperGenerics demoDropUser demoImpl.generics := by
      refine ⟨fun p hp => ?_, nofun⟩
      obtain rfl := List.mem_singleton.1 hp
      exact ⟨(by decide : Ident "T"), ⟨nofun, nofun⟩, rfl⟩
    exact ⟨this, this⟩
  selfTy := .head _
  methods m hm := by
    obtain hm := List.mem_singleton.1 hm
    cases hm
    exact
      { attrs := nofun
        vis := trivial
        recvAttrs := nofun
        quals := ⟨[], [], [], rfl, by simp, by simp, by simp⟩
        generics := ⟨nofun, nofun⟩
        receiver := fun b sh t h => by
          obtain h := List.mem_singleton.1 h
          cases h
          exact ⟨.tail _ (.head _), .tail _ (.tail _ (.head _))⟩
        output := nofun
        block := fun n hn => by
          simp only [demoDropBody, List.mem_cons, List.not_mem_nil, or_false] at hn
          rcases hn with rfl | rfl | rfl | rfl
          · exact .head _
          · exact .tail _ (.head _)
          · show Emit.node (Node.visit (implSelfTy demoImpl) (.mac (.ofIdent "m") [.ident "self"])) ∈ demoStmts
            have : Node.visit (implSelfTy demoImpl) (.mac (.ofIdent "m") [.ident "self"]) =
                .mac (.ofIdent "m") [.ident "__self"] := by
              simp [Node.visit, visitMacToks, containsFn, visitToks]
              decide
            rw [this]
            decide
          · exact .tail _ (.tail _ (.tail _ (.head _))) }

/-- The hypotheses are met by an impl with a type parameter and a body that says `self` and `Self`. -/
example : ∃ out, pinnedDropAttribute [] demoImpl = .expanded out ∧ DropImpl demoDropUser (texts (Emit.pinnedDrop out)) := by
  obtain ⟨out, h⟩ := C33_documented _ _ _ demoImpl_documented
  exact ⟨out, h, C76_grammar_pinned_drop _ _ _ demoImpl_proper out h⟩

/-- An impl ends with its braces. -/
theorem dropImpl_last {L : User} {x : List String} (h : DropImpl L x) : x.getLast? = some "}" := by
  cases h
  exact List.getLast?_concat

example (L : User) : ¬ DropImpl L ["impl", "Drop", "for", "S", ";"] := fun h => absurd (dropImpl_last h) (by decide)

end PinProject
