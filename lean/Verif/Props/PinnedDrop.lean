import Verif.Spec.PinnedDrop
import Verif.Props.ReceiverTree
import Verif.Props.Accept
/-!
# C33-C36: `#[pinned_drop]`
-/
namespace PinProject
open Spec

theorem asMutRef_iff (n e : Node) : n.asMutRef = some e ↔ IsMutRef n e := by
  unfold IsMutRef
  constructor
  · intro h
    unfold Node.asMutRef at h
    split at h
    · simp only [Option.ite_none_right_eq_some, Option.some.injEq] at h
      obtain ⟨rfl, rfl⟩ := h
      exact .inl rfl
    · simp only [Option.ite_none_right_eq_some, Option.some.injEq] at h
      obtain ⟨rfl, rfl⟩ := h
      exact .inr ⟨_, rfl⟩
    · simp at h
  · rintro (rfl | ⟨lt, rfl⟩) <;> rfl

theorem tyPathNoQself_iff (n : Node) (p : Path) : n.tyPathNoQself = some p ↔ n = .tyPath .none p := by
  constructor
  · intro h
    unfold Node.tyPathNoQself at h
    split at h
    · simp only [Option.some.injEq] at h
      rw [h]
    · simp at h
  · rintro rfl
    rfl

theorem pathIsIdent_iff (p : Path) (s : String) : p.isIdent s = true ↔ p = .mk false [.mk s .none] := by
  constructor
  · intro h
    unfold Path.isIdent at h
    split at h
    · rename_i i x
      simp only [beq_iff_eq] at h
      rw [h]
    · simp at h
  · rintro rfl
    simp [Path.isIdent]

theorem isPinMutSelf_iff (ty : Node) : isPinMutSelf ty = true ↔ IsPinMutSelf ty := by
  constructor
  · intro h
    unfold isPinMutSelf at h
    split at h <;> try (simp at h; done)
    rename_i p hp
    rw [tyPathNoQself_iff] at hp
    subst hp
    split at h <;> try (simp at h; done)
    rename_i i c args hl
    split at h <;> try (simp at h; done)
    rename_i a more
    split at h <;> try (simp at h; done)
    rename_i e he
    rw [asMutRef_iff] at he
    split at h <;> try (simp at h; done)
    rename_i q hq
    rw [tyPathNoQself_iff] at hq
    subst hq
    simp only [Bool.and_eq_true, List.isEmpty_iff, beq_iff_eq, pathIsIdent_iff] at h
    obtain ⟨⟨rfl, rfl⟩, rfl⟩ := h
    obtain ⟨l, segs⟩ := p
    obtain ⟨front, hf⟩ := List.getLast?_eq_some_iff.1 hl
    simp only [Path.segs] at hf
    subst hf
    exact ⟨l, front, c, a, rfl, he⟩
  · rintro ⟨l, front, c, a, rfl, ha⟩
    rw [← asMutRef_iff] at ha
    have h1 : (Node.tyPath QS.none (Path.mk l (front ++ [Seg.mk "Pin" (.angle c [a])]))).tyPathNoQself =
      some (Path.mk l (front ++ [Seg.mk "Pin" (.angle c [a])])) := rfl
    have h2 : (Path.mk l (front ++ [Seg.mk "Pin" (.angle c [a])])).segs.getLast? = some (Seg.mk "Pin" (.angle c [a])) := by
      simp [Path.segs]
    unfold isPinMutSelf
    simp only [h1, h2, ha]
    simp [selfType, Node.tyPathNoQself, Path.isIdent]

theorem outputIsUnit_iff (o : Option Node) : outputIsUnit o = true ↔ o = none ∨ o = some (.other "tuple" []) := by
  cases o with
  | none => simp [outputIsUnit]
  | some t =>
    simp only [outputIsUnit, reduceCtorEq, Option.some.injEq, false_or]
    constructor
    · intro h
      unfold Node.isUnitTuple at h
      split at h
      · simp only [beq_iff_eq] at h
        rw [h]
      · simp at h
    · rintro rfl
      rfl

theorem validateSig_iff (sig : Signature) : validateSig sig = .ok () ↔ IsDropMethod sig := by
  unfold validateSig
  constructor
  · intro h
    simp only at h
    split at h
    · simp at h
    rename_i h1
    split at h
    · simp at h
    rename_i h2
    split at h <;> try (simp at h; done)
    rename_i b sh ty hi
    split at h <;> try (simp at h; done)
    rename_i hp
    split at h <;> try (simp at h; done)
    rename_i hu
    refine ⟨by simpa using h1, by simpa using hu, ⟨b, sh, ty, hi, (isPinMutSelf_iff ty).1 hp⟩, ?_⟩
    rw [← outputIsUnit_iff]
    simpa using h2
  · rintro ⟨h1, h2, ⟨b, sh, ty, h3, h4⟩, h5⟩
    rw [← outputIsUnit_iff] at h5
    simp [h1, h3, (isPinMutSelf_iff ty).2 h4, h2, h5]

theorem validateItems_iff (its : List ImplItem) (hne : its ≠ []) :
    validateItems 0 its = .ok () ↔ ∃ m, its = [.fn m] ∧ IsDropMethod m.sig := by
  match its, hne with
  | it :: rest, _ =>
    unfold validateItems
    cases it with
    | const n => simp [error_bind]
    | type n => simp [error_bind]
    | other => simp [error_bind]
    | fn m =>
      rw [bind_ok]
      simp only [↓reduceIte]
      constructor
      · rintro ⟨u, h1, h2⟩
        rw [ok_bind] at h2
        refine ⟨m, ?_, (validateSig_iff _).1 h1⟩
        match rest, h2 with
        | [], _ => rfl
        | it :: _, h2 =>
          unfold validateItems at h2
          cases it with
          | const n => simp [error_bind] at h2
          | type n => simp [error_bind] at h2
          | other => simp [error_bind] at h2
          | fn m' =>
            rw [bind_ok] at h2
            obtain ⟨_, -, h2⟩ := h2
            simp [error_bind] at h2
      · rintro ⟨m', h1, h2⟩
        simp only [List.cons.injEq, ImplItem.fn.injEq] at h1
        obtain ⟨rfl, rfl⟩ := h1
        refine ⟨(), (validateSig_iff _).2 h2, ?_⟩
        rw [ok_bind, validateItems]

theorem isTyPath_iff (n : Node) : n.isTyPath = true ↔ ∃ q p, n = .tyPath q p := by
  cases n <;> simp [Node.isTyPath]

theorem validateImpl_iff (item : ItemImpl) : validateImpl item = .ok () ↔
    ∃ neg m, Checked [] item neg m := by
  unfold validateImpl
  constructor
  · intro h
    simp only at h
    split at h
    · simp at h
    rename_i h1
    split at h
    · simp at h
    rename_i h2
    split at h
    · simp at h
    rename_i h3
    split at h
    · simp at h
    rename_i h4
    split at h
    · simp at h
    rename_i h5
    rw [validateItems_iff _ (by simpa using h4)] at h
    obtain ⟨m, hm, hd⟩ := h
    simp only [Bool.not_eq_true', Bool.not_eq_false] at h2
    unfold traitIsPinnedDrop at h2
    split at h2
    · rename_i b p hp
      rw [pathIsIdent_iff] at h2
      subst h2
      refine ⟨b, m, rfl, ?_, hp, by simpa using h3, ?_, hm, hd⟩
      · rw [Bool.not_eq_true, Option.isSome_eq_false_iff, Option.isNone_iff_eq_none, findAttr_none] at h1
        intro a ha
        simpa using h1 a ha
      · rw [← isTyPath_iff]
        simpa using h5
    · simp at h2
  · rintro ⟨neg, m, -, h1, h2, h3, h4, h5, h6⟩
    have h1' : findAttr item.allAttrs "pinned_drop" = none := by
      rw [findAttr_none]
      intro a ha
      simpa using h1 a ha
    rw [← isTyPath_iff] at h4
    simp [h1', h2, h3, h4, h5, traitIsPinnedDrop, Path.isIdent, (validateItems_iff [.fn m] (by simp)).2 ⟨m, rfl, h6⟩]

/-- The expansion of an impl that has been checked. -/
theorem expandImpl_eq {args : List TT} {item : ItemImpl} {neg : Bool} {m : Method} (h : Checked args item neg m)
    {q : QS} {p : Path} (hty : item.selfTy = .tyPath q p) {b sh : Bool} {ty : Node}
    (hr : m.sig.inputs = [.receiver b sh ty]) (hd : m.isDefault = false) :
    expandImpl item = .ok
      { attrs := item.attrs ++ [docHidden], innerAttrs := item.innerAttrs, isDefault := item.isDefault, isUnsafe := item.isUnsafe, generics := item.generics
        bang := neg, traitPath := privatePinnedDropPath, selfTy := item.selfTy
        items := [.drop m.attrs m.vis { m.sig with isUnsafe := true, inputs := [.receiver false sh ty] } m.innerAttrs
          [.fnItem (dropInner ⟨q, p, item.selfToks⟩ item.generics m b ty), .call "__drop_inner" "self"]] } := by
  unfold expandImpl
  simp only [h.pinnedDrop, h.onlyDrop, hr, hty, List.map_nil, hd, Bool.false_eq_true, if_false]

/-- The attribute accepts exactly the impls that pass the checks. -/
theorem attribute_cases (args : List TT) (item : ItemImpl) :
    (∃ neg m q p b sh ty, (Checked args item neg m ∧ m.isDefault = false) ∧ item.selfTy = .tyPath q p ∧
      m.sig.inputs = [.receiver b sh ty] ∧ IsPinMutSelf ty ∧
      pinnedDropAttribute args item = .expanded
        { attrs := item.attrs ++ [docHidden], innerAttrs := item.innerAttrs, isDefault := item.isDefault, isUnsafe := item.isUnsafe, generics := item.generics
          bang := neg, traitPath := privatePinnedDropPath, selfTy := item.selfTy
          items := [.drop m.attrs m.vis { m.sig with isUnsafe := true, inputs := [.receiver false sh ty] } m.innerAttrs
            [.fnItem (dropInner ⟨q, p, item.selfToks⟩ item.generics m b ty), .call "__drop_inner" "self"]] }) ∨
    ((∀ neg m, ¬ (Checked args item neg m ∧ m.isDefault = false)) ∧ ∀ i, pinnedDropAttribute args item ≠ .expanded i) := by
  by_cases hc : ∃ neg m, Checked args item neg m ∧ m.isDefault = false
  · obtain ⟨neg, m, hc, hd⟩ := hc
    obtain ⟨q, p, hty⟩ := hc.pathType
    obtain ⟨b, sh, ty, hr, hpin⟩ := hc.drop.receiver
    refine .inl ⟨neg, m, q, p, b, sh, ty, ⟨hc, hd⟩, hty, hr, hpin, ?_⟩
    have hargs := hc.noArgs
    subst hargs
    have hv := (validateImpl_iff item).2 ⟨neg, m, hc⟩
    unfold pinnedDropAttribute
    simp only [List.isEmpty_nil, Bool.not_true, Bool.false_eq_true, ↓reduceIte, hv, ok_bind,
      expandImpl_eq hc hty hr hd]
  · refine .inr ⟨fun neg m h => hc ⟨neg, m, h⟩, ?_⟩
    intro i h
    apply hc
    unfold pinnedDropAttribute at h
    simp only at h
    split at h <;> try (simp at h; done)
    rename_i j hj
    split at hj
    · simp at hj
    · rename_i ha
      have ha : args = [] := by simpa using ha
      subst ha
      rw [bind_ok] at hj
      obtain ⟨u, h1, h2⟩ := hj
      obtain ⟨neg, m, hc⟩ := (validateImpl_iff item).1 h1
      refine ⟨neg, m, hc, ?_⟩
      obtain ⟨q, p, hty⟩ := hc.pathType
      obtain ⟨b, sh, ty, hr, -⟩ := hc.drop.receiver
      unfold expandImpl at h2
      simp only [hc.pinnedDrop, hc.onlyDrop, hr, hty] at h2
      cases hd : m.isDefault
      · rfl
      · rw [hd, if_pos rfl] at h2
        cases h2

/-! ## C33 -/

/-- **C33** The impls that are accepted. Negative impls, `default impl`, a visibility, qualifiers (`async`, `const`, `extern`),
generics and `...` of the method are not looked at (`C33_not_only_documented`); that is left to rustc, which
refuses them because the trait method has none. With `default fn drop`, the macro panics (`C36_panics_iff`). -/
theorem C33_accepts_iff (args : List TT) (item : ItemImpl) :
    Accepts args item ↔ ∃ negative m, Checked args item negative m ∧ m.isDefault = false := by
  rcases attribute_cases args item with ⟨neg, m, _, _, _, _, _, hc, _, _, _, h⟩ | ⟨h1, h2⟩
  · exact ⟨fun _ => ⟨neg, m, hc⟩, fun _ => ⟨_, h⟩⟩
  · constructor
    · rintro ⟨i, hi⟩
      exact absurd hi (h2 i)
    · rintro ⟨neg, m, hc⟩
      exact absurd hc (h1 neg m)

/-- **C33** Every impl of the documented form is accepted. -/
theorem C33_documented (args : List TT) (item : ItemImpl) (m : Method) (h : Documented args item m) :
    Accepts args item :=
  (C33_accepts_iff args item).2 ⟨false, m, h.toChecked, h.noDefault.2⟩

/-- `Pin<&mut Self>`. -/
def demoPinTy : Node := .tyPath .none (.mk false [.mk "Pin" (.angle false [.other "&mut" [Node.tyIdent "Self"]])])

def demoDropSig : Signature := { ident := "drop", inputs := [.receiver true false demoPinTy] }

/-- The body `self.f(Self::N); fn h() { self } m!(self); Self { x: self }` (in a simplified tree). -/
def demoDropBody : List Node :=
  [.other "call" [.exprPath .none (.ofIdent "self"),
     .exprPath .none (.mk false [.mk "Self" .none, .mk "N" .none])],
   .item "fn h" [.exprPath .none (.ofIdent "self")],
   .mac (.ofIdent "m") [.ident "self"],
   .exprStruct .none (.ofIdent "Self") [.exprPath .none (.ofIdent "self")]]

/-- `impl<T> PinnedDrop for Foo<T> { fn drop(mut self: Pin<&mut Self>) { .. } }` -/
def demoImpl : ItemImpl :=
  { generics := { params := [.type "T" [] none] }
    trait_ := some (false, .ofIdent "PinnedDrop")
    selfTy := .tyPath .none (.mk false [.mk "Foo" (.angle false [Node.tyIdent "T"])])
    selfToks := demoRecvToks
    items := [.fn { sig := demoDropSig, block := demoDropBody }] }

theorem demoPin : IsPinMutSelf demoPinTy := ⟨false, [], false, _, rfl, .inl rfl⟩

theorem demoDropSig_ok : IsDropMethod demoDropSig := ⟨rfl, rfl, ⟨_, _, _, rfl, demoPin⟩, .inl rfl⟩

theorem demoImpl_documented : Documented [] demoImpl { sig := demoDropSig, block := demoDropBody } :=
  { noArgs := rfl, once := by simp [demoImpl, ItemImpl.allAttrs], pinnedDrop := rfl, safe := rfl, pathType := ⟨_, _, rfl⟩,
    onlyDrop := rfl, drop := demoDropSig_ok, noQualifiers := rfl, noGenerics := rfl, noDefault := ⟨rfl, rfl⟩,
    noVisibility := rfl, notVariadic := rfl }

example : Accepts [] demoImpl := C33_documented _ _ _ demoImpl_documented

/-- `self: &mut Self` is refused. -/
example : ¬ Accepts [] { demoImpl with items :=
    [.fn { sig := { demoDropSig with inputs := [.receiver false true (.other "&mut" [Node.tyIdent "Self"])] }, block := [] }] } := by
  rw [C33_accepts_iff]
  rintro ⟨neg, m, h, -⟩
  have h1 := h.onlyDrop
  simp only [List.cons.injEq, ImplItem.fn.injEq, and_true] at h1
  obtain ⟨b, sh, ty, hr, l, f, c, r, hty, -⟩ := h.drop.receiver
  rw [← h1] at hr
  simp only [List.cons.injEq, FnArg.receiver.injEq, and_true] at hr
  rw [← hr.2.2] at hty
  simp at hty

/-- **C33** The documented form is not the only one: `impl !PinnedDrop`, `async fn drop`, `fn drop<U>`, `pub fn drop`,
`fn drop(self: .., ...)` and `default impl` are accepted (and refused by rustc afterwards). -/
theorem C33_not_only_documented :
    (∃ item, Accepts [] item ∧ ∃ p, item.trait_ = some (true, p)) ∧
    (∃ item m, Accepts [] item ∧ item.items = [.fn m] ∧ m.sig.quals = ["async"]) ∧
    (∃ item m, Accepts [] item ∧ item.items = [.fn m] ∧ m.sig.generics.params = [.type "U" [] none]) ∧
    (∃ item m, Accepts [] item ∧ item.items = [.fn m] ∧ m.vis = .pub) ∧
    (∃ item m, Accepts [] item ∧ item.items = [.fn m] ∧ m.sig.variadic = true) ∧
    ∃ item, Accepts [] item ∧ item.isDefault = true := by
  refine ⟨⟨{ demoImpl with trait_ := some (true, .ofIdent "PinnedDrop") }, ?_, _, rfl⟩,
    ⟨{ demoImpl with items := [.fn { sig := { demoDropSig with quals := ["async"] }, block := [] }] }, _, ?_, rfl, rfl⟩,
    ⟨{ demoImpl with items := [.fn { sig := { demoDropSig with generics := { params := [.type "U" [] none] } }, block := [] }] },
      _, ?_, rfl, rfl⟩,
    ⟨{ demoImpl with items := [.fn { vis := .pub, sig := demoDropSig, block := [] }] }, _, ?_, rfl, rfl⟩,
    ⟨{ demoImpl with items := [.fn { sig := { demoDropSig with variadic := true }, block := [] }] }, _, ?_, rfl, rfl⟩,
    ⟨{ demoImpl with isDefault := true }, ?_, rfl⟩⟩
  · exact (C33_accepts_iff _ _).2 ⟨true, _, ⟨rfl, by simp [demoImpl, ItemImpl.allAttrs], rfl, rfl, ⟨_, _, rfl⟩, rfl, demoDropSig_ok⟩, rfl⟩
  all_goals exact (C33_accepts_iff _ _).2 ⟨false, _, ⟨rfl, by simp [demoImpl, ItemImpl.allAttrs], rfl, rfl, ⟨_, _, rfl⟩, rfl,
      ⟨rfl, rfl, ⟨_, _, _, rfl, demoPin⟩, .inl rfl⟩⟩, rfl⟩

/-! ## C34 -/

/-- **C34** The expansion has one item, an unsafe `drop` with the user's receiver (only `mut` is gone; its visibility is the
user's too),
whose body defines a function and calls it once with `self`; the trait is the private one, and the attributes of the impl
are the user's, with `#[doc(hidden)]`. -/
theorem C34_expansion (args : List TT) (item : ItemImpl) (out : PinnedDropImpl)
    (h : pinnedDropAttribute args item = .expanded out) :
    ∃ m sig inner isMut short ty,
      item.items = [.fn m] ∧ m.sig.inputs = [.receiver isMut short ty] ∧
      out.items = [.drop m.attrs m.vis sig m.innerAttrs [.fnItem inner, .call inner.name "self"]] ∧
      sig.ident = "drop" ∧ sig.isUnsafe = true ∧ sig.inputs = [.receiver false short ty] ∧
      inner.isMut = isMut ∧ sig.recvAttrs = m.sig.recvAttrs ∧ inner.paramAttrs = m.sig.recvAttrs ∧ inner.attrs = m.attrs ∧
      inner.innerAttrs = m.innerAttrs ∧ inner.vis = m.vis ∧ out.innerAttrs = item.innerAttrs ∧ out.isDefault = item.isDefault ∧
      out.selfTy = item.selfTy ∧ out.generics = item.generics ∧ out.isUnsafe = false ∧
      out.traitPath = .mk true [.mk "pin_project" .none, .mk "__private" .none, .mk "PinnedDrop" .none] ∧
      out.attrs = item.attrs ++ [⟨.list { segs := ["doc"] } .paren [.ident "hidden"]⟩] := by
  rcases attribute_cases args item with ⟨neg, m, q, p, b, sh, ty, ⟨hc, -⟩, hty, hr, hpin, heq⟩ | ⟨_, h2⟩
  · rw [heq] at h
    simp only [PinnedDropOut.expanded.injEq] at h
    subst h
    exact ⟨m, _, _, b, sh, ty, hc.onlyDrop, hr, rfl, hc.drop.name, rfl, rfl, rfl, rfl, rfl, rfl, rfl, rfl, rfl, rfl, rfl, rfl, hc.safe, rfl, rfl⟩
  · exact absurd h (h2 out)

/-- **C34** The call in the outer `drop` reaches the inner function. In the user's code, however deep,
a call of the same name does not: `nested` are the blocks between the call and the user's body. -/
theorem C34_shadowed (args : List TT) (item : ItemImpl) (out : PinnedDropImpl)
    (h : pinnedDropAttribute args item = .expanded out) (attrs : List Attribute) (v : Vis) (sig : Signature)
    (ias : List Attribute) (block : List OutStmt) (hi : .drop attrs v sig ias block ∈ out.items) (inner : DropInner)
    (hm : .fnItem inner ∈ block) :
    Reaches inner.name [OutDefines block] 0 ∧
    ∀ nested : List (String → Prop),
      ¬ Reaches inner.name (nested ++ [Defines inner.body, OutDefines block]) (nested.length + 1) := by
  rcases attribute_cases args item with ⟨neg, m, q, p, b, sh, ty, ⟨hc, -⟩, hty, hr, hpin, heq⟩ | ⟨_, h2⟩
  · rw [heq] at h
    simp only [PinnedDropOut.expanded.injEq] at h
    subst h
    simp only [List.mem_singleton, OutItem.drop.injEq] at hi
    obtain ⟨rfl, rfl, rfl, rfl, rfl⟩ := hi
    simp only [List.mem_cons, OutStmt.fnItem.injEq, reduceCtorEq, List.not_mem_nil, or_false] at hm
    refine ⟨⟨⟨_, rfl, inner, by simp [hm], rfl⟩, by simp⟩, ?_⟩
    rintro nested ⟨-, h⟩
    refine h nested.length (Nat.lt_succ_self _) (Defines inner.body) (by simp) ?_
    subst hm
    refine ⟨[], ?_⟩
    simp [dropInner, dummyDropInner, visitNodes, Node.visit]
  · exact absurd h (h2 out)

example : ∃ out, pinnedDropAttribute [] demoImpl = .expanded out ∧
    ∃ attrs v sig ias block inner, OutItem.drop attrs v sig ias block ∈ out.items ∧ .fnItem inner ∈ block := by
  obtain ⟨out, h⟩ := C33_documented _ _ _ demoImpl_documented
  obtain ⟨m, sig, inner, _, _, _, _, _, h3, _⟩ := C34_expansion _ _ _ h
  exact ⟨out, h, _, _, sig, _, _, inner, by rw [h3]; exact List.mem_singleton.2 rfl, List.mem_cons_self ..⟩

/-! ## C35 -/

theorem flatMap_visit_params (s : SelfTy) (ps : List GParam) :
    (ps.map (GParam.visit s)).flatMap paramNodes = (ps.flatMap paramNodes).map (Node.visit s) := by
  induction ps with
  | nil => rfl
  | cons p ps ih =>
    simp only [List.map_cons, List.flatMap_cons, List.map_append, ih]
    congr 1
    cases p with
    | lifetime => rfl
    | type n bs d => cases d <;> simp [GParam.visit, paramNodes]
    | const n t d => cases d <;> simp [GParam.visit, paramNodes]

/-- The where-clause was written by the user. -/
def Spec.UserPreds (g : Generics) : Prop := ∀ w ∈ g.whereClause.getD [], ∃ n, w = .user n

theorem flatMap_visit_preds (s : SelfTy) (ws : List WPred) (h : ∀ w ∈ ws, ∃ n, w = .user n) :
    (ws.map (WPred.visit s)).flatMap predNodes = (ws.flatMap predNodes).map (Node.visit s) := by
  induction ws with
  | nil => rfl
  | cons w ws ih =>
    obtain ⟨n, rfl⟩ := h w (List.mem_cons_self ..)
    simp only [List.map_cons, List.flatMap_cons, List.map_append,
      ih (fun w hw => h w (List.mem_cons_of_mem _ hw))]
    rfl

theorem genericsNodes_visit (s : SelfTy) (g : Generics) (h : UserPreds g) :
    genericsNodes (g.visit s) = (genericsNodes g).map (Node.visit s) := by
  simp only [genericsNodes, Generics.visit, List.map_append, flatMap_visit_params]
  congr 1
  unfold UserPreds at h
  cases hw : g.whereClause with
  | none => rfl
  | some ws =>
    rw [hw] at h
    exact flatMap_visit_preds s ws h

theorem rewritesNodes_map {s : SelfTy} (ns : List Node) (h : ∀ n ∈ ns, Rewrites s n (n.visit s)) :
    RewritesNodes s ns (ns.map (Node.visit s)) := by
  induction ns with
  | nil => exact .nil
  | cons n ns ih =>
    exact .cons (h n (List.mem_cons_self ..)) (ih (fun m hm => h m (List.mem_cons_of_mem _ hm)))

theorem visitNodes_map (s : SelfTy) (ns : List Node) : visitNodes s ns = ns.map (Node.visit s) := by
  induction ns with
  | nil => rw [visitNodes]; rfl
  | cons n ns ih => rw [visitNodes, ih]; rfl

/-- All code of the impl that is moved into the inner function. -/
def Spec.movedNodes (item : ItemImpl) (m : Method) (ty : Node) : List Node :=
  m.block ++ ty :: m.sig.output.toList ++ genericsNodes item.generics

/-- All code of the inner function. -/
def Spec.innerNodes (inner : DropInner) (body : List Node) : List Node :=
  body ++ inner.paramTy :: inner.output.toList ++ genericsNodes inner.generics

/-- The parts of an impl and of its expansion: the user's method `m` with a receiver of type `ty`, and the
inner function with its body after the leading dummy function. -/
structure Spec.Parts (item : ItemImpl) (out : PinnedDropImpl) (m : Method) (ty : Node) (inner : DropInner)
    (body : List Node) : Prop where
  method : item.items = [.fn m]
  receiver : ∃ isMut short, m.sig.inputs = [.receiver isMut short ty]
  outer : ∃ attrs v sig ias block, out.items = [.drop attrs v sig ias block] ∧ .fnItem inner ∈ block
  body : inner.body = .item "fn __drop_inner" [] :: body

theorem inner_nodes {args : List TT} {item : ItemImpl} {out : PinnedDropImpl}
    (h : pinnedDropAttribute args item = .expanded out) (hu : UserPreds item.generics)
    {q : QS} {p : Path} (hp : item.selfTy = .tyPath q p)
    {m : Method} {ty : Node} {inner : DropInner} {body : List Node} (hx : Parts item out m ty inner body) :
    inner.param = "__self" ∧
    innerNodes inner body = (movedNodes item m ty).map (Node.visit ⟨q, p, item.selfToks⟩) := by
  rcases attribute_cases args item with ⟨neg, m', q', p', b, sh, ty', ⟨hc, -⟩, hty, hr, hpin, heq⟩ | ⟨_, h2⟩
  · rw [heq] at h
    simp only [PinnedDropOut.expanded.injEq] at h
    subst h
    rw [hp] at hty
    cases hty
    have hm := hx.method
    rw [hc.onlyDrop] at hm
    cases hm
    obtain ⟨_, _, hr'⟩ := hx.receiver
    rw [hr] at hr'
    cases hr'
    obtain ⟨_, _, _, _, block, ho, hb⟩ := hx.outer
    simp only [List.cons.injEq, OutItem.drop.injEq, and_true] at ho
    obtain ⟨-, -, -, -, rfl⟩ := ho
    simp only [List.mem_cons, OutStmt.fnItem.injEq, reduceCtorEq, List.not_mem_nil, or_false] at hb
    have hbody := hx.body
    subst hb
    have hbody' : body = visitNodes ⟨q, p, item.selfToks⟩ m.block := by
      simp [dropInner, dummyDropInner, visitNodes, Node.visit] at hbody
      exact hbody.symm
    subst hbody'
    refine ⟨rfl, ?_⟩
    simp only [innerNodes, movedNodes, dropInner, genericsNodes_visit _ _ hu, visitNodes_map,
      List.map_append, List.map_cons]
    cases m.sig.output <;> rfl
  · exact absurd h (h2 out)

/-- **C35** The expansion has these parts. -/
theorem C35_parts (args : List TT) (item : ItemImpl) (out : PinnedDropImpl)
    (h : pinnedDropAttribute args item = .expanded out) : ∃ m ty inner body, Parts item out m ty inner body := by
  rcases attribute_cases args item with ⟨neg, m, q, p, b, sh, ty, ⟨hc, -⟩, hty, hr, hpin, heq⟩ | ⟨_, h2⟩
  · rw [heq] at h
    simp only [PinnedDropOut.expanded.injEq] at h
    subst h
    refine ⟨m, ty, _, visitNodes ⟨q, p, item.selfToks⟩ m.block, hc.onlyDrop, ⟨b, sh, hr⟩,
      ⟨_, _, _, _, _, rfl, List.mem_cons_self ..⟩, ?_⟩
    simp [dropInner, dummyDropInner, visitNodes, Node.visit]
  · exact absurd h (h2 out)

/-- **C35** The user's code, the parameter type and the generics are moved into the inner function with
`self` replaced by its parameter and `Self` by the implementing type, and nothing else is changed. This
holds exactly if the implementing type is a plain path (`impl PinnedDrop for Foo<T>`), or `Self` is not
used as a plain path: where it is, a type `<T as Trait>::Assoc` loses its `<T as ..>`, see
`C35_qself_lost`. -/
theorem C35_rewritten (args : List TT) (item : ItemImpl) (out : PinnedDropImpl)
    (h : pinnedDropAttribute args item = .expanded out) (hu : UserPreds item.generics)
    (m : Method) (ty : Node) (inner : DropInner) (body : List Node) (hx : Parts item out m ty inner body)
    (q : QS) (p : Path) (hp : item.selfTy = .tyPath q p) (hw : ∀ n ∈ movedNodes item m ty, WellUsed n) :
    inner.param = "__self" ∧
    (RewritesNodes ⟨q, p, item.selfToks⟩ (movedNodes item m ty) (innerNodes inner body) ↔
      q = .none ∨ ∀ n ∈ movedNodes item m ty, ∀ c, InScope c n → ¬ SelfAsPath c) := by
  obtain ⟨h1, h2⟩ := inner_nodes h hu hp hx
  refine ⟨h1, ?_⟩
  rw [h2]
  constructor
  · intro hr
    by_cases hq : q = .none
    · exact .inl hq
    · exact .inr fun n hn => ((rewrites_iff (hw n hn)).1 (rewritesNodes_mem (by rwa [visitNodes_map]) n hn)).resolve_left hq
  · intro hr
    exact rewritesNodes_map _ fun n hn => (rewrites_iff (hw n hn)).2 (hr.imp_right fun hr => hr n hn)

/-- **C35** In the inner function `self` and `Self` are left exactly where the user wrote them in a macro
call whose tokens contain `fn` (nested items, which have their own, are not counted). -/
theorem C35_none_left (args : List TT) (item : ItemImpl) (out : PinnedDropImpl)
    (h : pinnedDropAttribute args item = .expanded out) (hu : UserPreds item.generics)
    (m : Method) (ty : Node) (inner : DropInner) (body : List Node) (hx : Parts item out m ty inner body)
    (q : QS) (p : Path) (hp : item.selfTy = .tyPath q p) (hs : Closed ⟨q, p, item.selfToks⟩)
    (hw : ∀ n ∈ movedNodes item m ty, WellUsed n) (w : Word) :
    (∃ n ∈ innerNodes inner body, Mentions w n) ↔ ∃ n ∈ movedNodes item m ty, InFnMacro w n := by
  rw [(inner_nodes h hu hp hx).2]
  constructor
  · rintro ⟨n, hn, hm⟩
    obtain ⟨n', hn', rfl⟩ := List.mem_map.1 hn
    exact ⟨n', hn', (visit_mentions hs (hw n' hn')).1 hm⟩
  · rintro ⟨n, hn, hm⟩
    exact ⟨_, List.mem_map_of_mem hn, (visit_mentions hs (hw n hn)).2 hm⟩

/-- **C35** Code that uses neither `self` nor `Self` is not changed. -/
theorem C35_untouched (args : List TT) (item : ItemImpl) (out : PinnedDropImpl)
    (h : pinnedDropAttribute args item = .expanded out) (hu : UserPreds item.generics)
    (m : Method) (ty : Node) (inner : DropInner) (body : List Node) (hx : Parts item out m ty inner body) :
    (innerNodes inner body).length = (movedNodes item m ty).length ∧
    ∀ (i : Nat) (n : Node), (movedNodes item m ty)[i]? = some n → (∀ w, ¬ Refers w n) →
      (innerNodes inner body)[i]? = some n := by
  obtain ⟨q, p, hp⟩ : ∃ q p, item.selfTy = .tyPath q p := by
    obtain ⟨neg, m, hc, -⟩ := (C33_accepts_iff args item).1 ⟨out, h⟩
    exact hc.pathType
  have h8 := (inner_nodes h hu hp hx).2
  refine ⟨by rw [h8, List.length_map], ?_⟩
  intro i n hi hf
  rw [h8, List.getElem?_map, hi, Option.map_some, Node.visit_free _ n hf]

theorem wellUsed_leaf {n : Node} (h : SelfAllowed n) (hc : scopeChildren n = []) : WellUsed n := by
  rw [wellUsed_iff, hc]
  exact ⟨h, fun c hc => absurd hc List.not_mem_nil⟩

theorem wellUsed_node {n : Node} (h : SelfAllowed n) (hc : ∀ c ∈ scopeChildren n, WellUsed c) : WellUsed n :=
  (wellUsed_iff n).2 ⟨h, hc⟩

theorem demoBody_wellUsed : ∀ n ∈ movedNodes demoImpl { sig := demoDropSig, block := demoDropBody } demoPinTy, WellUsed n := by
  have leaf : ∀ s : String, WellUsed (Node.exprPath .none (.ofIdent s)) := by
    intro s
    refine wellUsed_leaf ?_ rfl
    rintro -
    exact ⟨rfl, by simp [Path.ofIdent, Path.segs, Seg.args, PArgs.isEmpty]⟩
  intro n hn
  simp only [movedNodes, demoDropBody, demoDropSig, demoImpl, demoPinTy, genericsNodes, paramNodes, List.cons_append,
    List.nil_append, List.mem_cons, Option.toList, List.flatMap_cons, List.flatMap_nil, Option.getD,
    List.append_nil, List.not_mem_nil, or_false] at hn
  rcases hn with rfl | rfl | rfl | rfl | rfl
  · refine wellUsed_node trivial ?_
    intro c hc
    simp only [scopeChildren, Node.children, List.mem_cons, List.not_mem_nil, or_false] at hc
    rcases hc with rfl | rfl
    · exact leaf _
    · refine wellUsed_leaf ?_ rfl
      rintro -
      exact ⟨rfl, by simp [Path.segs, Seg.args, PArgs.isEmpty]⟩
  · exact wellUsed_leaf trivial rfl
  · exact wellUsed_leaf trivial rfl
  · refine wellUsed_node ?_ ?_
    · rintro -
      exact ⟨rfl, by simp [Path.ofIdent, Path.segs, Seg.args, PArgs.isEmpty]⟩
    · intro c hc
      simp only [scopeChildren, Node.children, QS.children, Path.children, Path.ofIdent, Seg.args, PArgs.children,
        List.flatMap_cons, List.flatMap_nil, List.append_nil, List.nil_append, List.mem_cons, List.not_mem_nil,
        or_false] at hc
      subst hc
      exact leaf _
  · refine wellUsed_node ?_ ?_
    · rintro ⟨-, a, rest, h⟩
      simp [Path.segs] at h
    · intro c hc
      simp only [scopeChildren, Node.children, QS.children, Path.children, Seg.args, PArgs.children,
        List.flatMap_cons, List.flatMap_nil, List.append_nil, List.nil_append, List.mem_cons, List.not_mem_nil,
        or_false] at hc
      subst hc
      refine wellUsed_node trivial ?_
      intro c hc
      simp only [scopeChildren, Node.children, List.mem_cons, List.not_mem_nil, or_false] at hc
      subst hc
      refine wellUsed_leaf ?_ rfl
      rintro -
      exact ⟨rfl, by simp [Path.ofIdent, Path.segs, Seg.args, PArgs.isEmpty]⟩

/-- The receiver type `Foo<T>` is closed. -/
theorem demoRecv_closed : Closed ⟨.none, .mk false [.mk "Foo" (.angle false [Node.tyIdent "T"])], demoRecvToks⟩ := by
  refine ⟨?_, ?_, by simp [Path.segs]⟩
  · have leaf : Bare (Node.tyIdent "T") := by
      rw [bare_iff]
      refine ⟨?_, ?_, ?_⟩
      · rintro p ⟨⟩ w
        cases w
        · rw [Path.ofIdent, at_value_idents]; simp [Seg.ident]
        · rw [Path.ofIdent, at_type_idents]; simp [Seg.ident]
      · rintro ts ⟨⟩
      · intro c hc
        simp [scopeChildren, Node.tyIdent, Node.children, QS.children, Path.ofIdent, Path.children, Seg.args,
          PArgs.children] at hc
    refine (bare_iff _).2 ⟨?_, ?_, ?_⟩
    · rintro p ⟨⟩ w
      cases w
      · rw [at_value_idents]; simp [Seg.ident]
      · rw [at_type_idents]; simp [Seg.ident]
    · rintro ts ⟨⟩
    · intro c hc
      simp only [scopeChildren, Node.children, QS.children, Path.children, Seg.args, PArgs.children,
        List.flatMap_cons, List.flatMap_nil, List.append_nil, List.nil_append, List.mem_singleton] at hc
      rw [hc]
      exact leaf
  · intro w
    cases w <;> simp [demoRecvToks, Word.text, tokOccurs_ident, tokOccurs_punct, tokOccurs_nil]

example : UserPreds demoImpl.generics := by simp [UserPreds, demoImpl]

/-- The demo body after the expansion: `__self.f(<Foo<T>>::N); fn h() { self } m!(__self);
Foo::<T> { x: __self }`. -/
example : visitNodes ⟨.none, .mk false [.mk "Foo" (.angle false [Node.tyIdent "T"])], demoRecvToks⟩ demoDropBody =
    [.other "call" [.exprPath .none (.ofIdent "__self"),
       .exprPath (.some (.tyPath .none (.mk false [.mk "Foo" (.angle false [Node.tyIdent "T"])])) 0)
         (.mk true [.mk "N" .none])],
     .item "fn h" [.exprPath .none (.ofIdent "self")],
     .mac (.ofIdent "m") [.ident "__self"],
     .exprStruct .none (.mk false [.mk "Foo" (.angle true [Node.tyIdent "T"])])
       [.exprPath .none (.ofIdent "__self")]] := by
  simp [demoDropBody, visitNodes, Node.visit, selfToQself, selfToExprPath, startsWithSelf, QS.visit, QS.isNone,
    Path.visitSegs, visitSegList, Seg.visit, PArgs.visit, PArgs.isEmpty, renameSingle, prependUnderscore,
    turbofish, Path.ofIdent, Path.segs, Path.leading, visitMacToks, containsFn, visitToks]

/-- **C35** fails for receiver types `<T as Trait>::Assoc`: `Self {}` becomes `Trait::Assoc {}`, without
the `<T as ..>`. -/
theorem C35_qself_lost : ∃ (item : ItemImpl) (m : Method) (q : QS) (p : Path) (out : PinnedDropImpl)
    (ty : Node) (inner : DropInner) (body : List Node),
    pinnedDropAttribute [] item = .expanded out ∧ Parts item out m ty inner body ∧
    item.selfTy = .tyPath q p ∧ q = .some (Node.tyIdent "X") 1 ∧
    m.block = [.exprStruct .none (.ofIdent "Self") []] ∧ body = [.exprStruct .none p []] := by
  let m : Method := { sig := demoDropSig, block := [.exprStruct .none (.ofIdent "Self") []] }
  let p : Path := .mk false [.mk "Tr" .none, .mk "Assoc" .none]
  let q : QS := .some (Node.tyIdent "X") 1
  let item : ItemImpl := { demoImpl with selfTy := .tyPath q p, selfToks := [], items := [.fn m] }
  have hc : Checked [] item false m := ⟨rfl, by simp [item, demoImpl, ItemImpl.allAttrs], rfl, rfl, ⟨_, _, rfl⟩, rfl, demoDropSig_ok⟩
  rcases attribute_cases [] item with ⟨neg, m', q', p', b, sh, ty, ⟨hc', -⟩, hty, hr, hpin, heq⟩ | ⟨h, _⟩
  · have hm := hc'.onlyDrop
    rw [hc.onlyDrop] at hm
    cases hm
    cases hty
    refine ⟨item, m, _, _, _, ty, _, _, heq, ⟨rfl, ⟨b, sh, hr⟩, ⟨_, _, _, _, _, rfl, List.mem_cons_self ..⟩, ?_⟩, rfl, rfl,
      rfl, rfl⟩
    simp [dropInner, dummyDropInner, visitNodes, Node.visit, selfToExprPath, startsWithSelf, QS.visit, PArgs.isEmpty,
      turbofish, Path.ofIdent, Path.segs, Path.leading, Path.visitSegs, visitSegList, m, p]
  · exact absurd ⟨hc, rfl⟩ (h false m)

/-- **C35** The name `__self` is not reserved: a user variable of that name catches the uses of `self`.
Both `{ let __self = 0; self }` and `{ let __self = 0; __self }` become the same code. -/
theorem C35_capture : ∃ (a b : List Node), a ≠ b ∧ ∀ s : SelfTy, visitNodes s a = visitNodes s b := by
  refine ⟨[.other "let __self = 0" [], .exprPath .none (.ofIdent "self")],
    [.other "let __self = 0" [], .exprPath .none (.ofIdent "__self")], by simp [Path.ofIdent], fun s => ?_⟩
  simp [visitNodes, Node.visit, selfToQself, startsWithSelf, QS.visit, Path.visitSegs, visitSegList,
    Seg.visit, PArgs.visit, renameSingle, prependUnderscore, Path.ofIdent, Path.leading]

/-! ## C36 -/

theorem validateSig_bail {sig : Signature} {e : Err} (he : validateSig sig = .error e) : ∃ msg, e = .bail msg := by
  unfold validateSig at he
  simp only at he
  split at he
  · cases he; exact ⟨_, rfl⟩
  split at he
  · cases he; exact ⟨_, rfl⟩
  split at he
  · split at he
    · split at he
      · cases he; exact ⟨_, rfl⟩
      · simp at he
    · cases he; exact ⟨_, rfl⟩
  · cases he; exact ⟨_, rfl⟩

theorem validateItems_panic (its : List ImplItem) : (∃ msg, validateItems 0 its = .error (.panic msg)) ↔
    ∃ rest, its = .other :: rest ∨ ∃ m, IsDropMethod m.sig ∧ its = .fn m :: .other :: rest := by
  cases its with
  | nil => simp [validateItems]
  | cons it rest =>
    unfold validateItems
    cases it with
    | const n => simp [error_bind]
    | type n => simp [error_bind]
    | other => simp [error_bind]
    | fn m =>
      cases hv : validateSig m.sig with
      | error e =>
        obtain ⟨b, rfl⟩ := validateSig_bail hv
        have : ¬ IsDropMethod m.sig := fun h => by simp [(validateSig_iff _).2 h] at hv
        simp only [error_bind, hv, Except.error.injEq, reduceCtorEq, exists_const, List.cons.injEq, false_and,
          ImplItem.fn.injEq, false_or, false_iff, not_exists, not_and]
        rintro x y hd rfl
        exact absurd hd this
      | ok u =>
        have hd := (validateSig_iff _).1 hv
        simp only [hv, ok_bind, ↓reduceIte]
        cases rest with
        | nil => simp [validateItems]
        | cons it rest =>
          unfold validateItems
          cases it with
          | const n => simp [error_bind]
          | type n => simp [error_bind]
          | other =>
            simp only [error_bind, Except.error.injEq, Err.panic.injEq, exists_eq', true_iff]
            exact ⟨rest, .inr ⟨m, hd, rfl⟩⟩
          | fn m' =>
            cases hv' : validateSig m'.sig with
            | error e =>
              obtain ⟨b, rfl⟩ := validateSig_bail hv'
              simp [error_bind, hv']
            | ok u => simp [hv', ok_bind, error_bind]

theorem validateImpl_panic (item : ItemImpl) : (∃ msg, validateImpl item = .error (.panic msg)) ↔ ReachesMacro [] item := by
  unfold validateImpl
  constructor
  · rintro ⟨msg, h⟩
    simp only at h
    split at h
    · simp at h
    rename_i h1
    split at h
    · simp at h
    rename_i h2
    split at h
    · simp at h
    rename_i h3
    split at h
    · simp at h
    split at h
    · simp at h
    rename_i h5
    simp only [Bool.not_eq_true', Bool.not_eq_false] at h2
    unfold traitIsPinnedDrop at h2
    split at h2
    · rename_i b p hp
      rw [pathIsIdent_iff] at h2
      subst h2
      refine ⟨rfl, ?_, ⟨b, hp⟩, by simpa using h3, ?_, (validateItems_panic _).1 ⟨msg, h⟩⟩
      · rw [Bool.not_eq_true, Option.isSome_eq_false_iff, Option.isNone_iff_eq_none, findAttr_none] at h1
        intro a ha
        simpa using h1 a ha
      · rw [← isTyPath_iff]
        simpa using h5
    · simp at h2
  · rintro ⟨-, h1, ⟨neg, h2⟩, h3, h4, h5⟩
    have h1' : findAttr item.allAttrs "pinned_drop" = none := by
      rw [findAttr_none]
      intro a ha
      simpa using h1 a ha
    rw [← isTyPath_iff] at h4
    have h6 := (validateItems_panic item.items).2 h5
    have h7 : item.items.isEmpty = false := by
      obtain ⟨rest, h5 | ⟨m, _, h5⟩⟩ := h5 <;> simp [h5]
    simpa [h1', h2, h3, h4, h7, traitIsPinnedDrop, Path.isIdent] using h6

/-- **C36** The macro panics exactly if the checks reach a macro call in item position (or an item without a body), or if the impl passes all of them and
the method is `default fn drop`. -/
theorem C36_panics_iff (args : List TT) (item : ItemImpl) :
    (∃ msg, pinnedDropAttribute args item = .panicked msg) ↔
      ReachesMacro args item ∨ ∃ neg m, Checked args item neg m ∧ m.isDefault = true := by
  cases args with
  | cons a as =>
    constructor
    · rintro ⟨msg, h⟩
      cases h
    · rintro (h | ⟨_, _, h, _⟩) <;> cases h.noArgs
  | nil =>
    rw [← validateImpl_panic]
    cases hv : validateImpl item with
    | ok u =>
      cases u
      obtain ⟨neg, m, hc⟩ := (validateImpl_iff item).1 hv
      have hm : ∀ {neg' m'}, Checked [] item neg' m' → m' = m := by
        intro neg' m' h
        have := h.onlyDrop.symm.trans hc.onlyDrop
        simpa using this
      cases hd : m.isDefault with
      | false =>
        obtain ⟨i, hi⟩ := (C33_accepts_iff [] item).2 ⟨neg, m, hc, hd⟩
        simp only [hi, reduceCtorEq, exists_false, false_or, false_iff, not_exists, not_and]
        intro neg' m' h h'
        rw [hm h, hd] at h'
        cases h'
      | true =>
        refine ⟨fun _ => .inr ⟨neg, m, hc, hd⟩, fun _ => ?_⟩
        obtain ⟨q, p, hty⟩ := hc.pathType
        obtain ⟨b, sh, ty, hr, -⟩ := hc.drop.receiver
        refine ⟨"expected `;`", ?_⟩
        unfold pinnedDropAttribute
        simp only [List.isEmpty_nil, Bool.not_true, Bool.false_eq_true, ↓reduceIte, hv, ok_bind, expandImpl, hc.pinnedDrop,
          hc.onlyDrop, hr, hty, hd]
    | error e =>
      have : ¬ ∃ neg m, Checked [] item neg m ∧ m.isDefault = true := by
        rintro ⟨neg, m, hc, -⟩
        rw [(validateImpl_iff item).2 ⟨neg, m, hc⟩] at hv
        cases hv
      cases e <;> simp [pinnedDropAttribute, hv, error_bind, this]

/-- **C36** If the impl is not accepted and the macro does not panic (`C36_panics_iff`), the output is a
compile error, and a dummy impl of the private trait for the same type with the same generics is added
iff the type is a path. -/
theorem C36_rejected (args : List TT) (item : ItemImpl) (hno : ¬ ∃ msg, pinnedDropAttribute args item = .panicked msg)
    (h : ¬ Accepts args item) :
    ∃ msg dummy, pinnedDropAttribute args item = .compileError msg dummy ∧
      (dummy.isSome ↔ ∃ q p, item.selfTy = .tyPath q p) ∧
      ∀ d ∈ dummy, d.generics = item.generics ∧ d.selfTy = item.selfTy ∧
        d.traitPath = .mk true [.mk "pin_project" .none, .mk "__private" .none, .mk "PinnedDrop" .none] := by
  have hfin : ∀ msg, pinnedDropAttribute args item = .compileError msg (if item.selfTy.isTyPath then
        some { generics := item.generics, traitPath := privatePinnedDropPath, selfTy := item.selfTy }
      else none) → ∃ msg dummy, pinnedDropAttribute args item = .compileError msg dummy ∧
      (dummy.isSome ↔ ∃ q p, item.selfTy = .tyPath q p) ∧
      ∀ d ∈ dummy, d.generics = item.generics ∧ d.selfTy = item.selfTy ∧
        d.traitPath = .mk true [.mk "pin_project" .none, .mk "__private" .none, .mk "PinnedDrop" .none] := by
    intro msg hm
    refine ⟨msg, _, hm, ?_, ?_⟩
    · rw [← isTyPath_iff]
      split <;> simp_all
    · intro d hd
      split at hd
      · cases hd
        exact ⟨rfl, rfl, rfl⟩
      · cases hd
  cases args with
  | cons a as => exact hfin _ rfl
  | nil =>
    cases hv : validateImpl item with
    | ok u =>
      cases u
      obtain ⟨neg, m, hc⟩ := (validateImpl_iff item).1 hv
      cases hd : m.isDefault with
      | false => exact absurd ((C33_accepts_iff [] item).2 ⟨neg, m, hc, hd⟩) h
      | true => exact absurd ((C36_panics_iff [] item).2 (.inr ⟨neg, m, hc, hd⟩)) hno
    | error e =>
      cases e with
      | bail msg =>
        refine hfin msg ?_
        unfold pinnedDropAttribute
        simp [hv, error_bind]
      | panic msg =>
        refine absurd ⟨msg, ?_⟩ hno
        unfold pinnedDropAttribute
        simp [hv, error_bind]

/-- **C36** An impl that is not accepted never expands: the output is a compile error or a panic of the
macro, and rustc reports both as errors. -/
theorem C36_never_silent (args : List TT) (item : ItemImpl) (h : ¬ Accepts args item) :
    (∃ msg dummy, pinnedDropAttribute args item = .compileError msg dummy) ∨
      ∃ msg, pinnedDropAttribute args item = .panicked msg := by
  cases hp : pinnedDropAttribute args item with
  | expanded i => exact absurd ⟨i, hp⟩ h
  | compileError m d => exact .inl ⟨m, d, rfl⟩
  | panicked m => exact .inr ⟨m, rfl⟩

/-- **C36** A macro call in item position, or a method without a body, can make the macro panic although the type is a path, and so does
`default fn drop`; the dummy impl is missing then. -/
theorem C36_panics : (∃ item, (∃ q p, item.selfTy = .tyPath q p) ∧ item.items = [.other] ∧
      ∃ msg, pinnedDropAttribute [] item = .panicked msg) ∧
    ∃ item m, Checked [] item false m ∧ m.isDefault = true ∧ ∃ msg, pinnedDropAttribute [] item = .panicked msg := by
  refine ⟨⟨{ demoImpl with items := [.other] }, ⟨_, _, rfl⟩, rfl, "unexpected ImplItem", rfl⟩, ?_⟩
  have h : Checked [] { demoImpl with items := [.fn { isDefault := true, sig := demoDropSig, block := demoDropBody }] } false _ :=
    ⟨rfl, by simp [demoImpl, ItemImpl.allAttrs], rfl, rfl, ⟨_, _, rfl⟩, rfl, demoDropSig_ok⟩
  exact ⟨_, _, h, rfl, (C36_panics_iff _ _).2 (.inr ⟨_, _, h, rfl⟩)⟩

/-- Non-vacuity: an argument, a wrong receiver. -/
example : pinnedDropAttribute [.ident "foo"] demoImpl = .compileError "unexpected argument"
    (some ⟨demoImpl.generics, privatePinnedDropPath, demoImpl.selfTy⟩) := rfl

example : (¬ ∃ msg, pinnedDropAttribute [.ident "foo"] demoImpl = .panicked msg) ∧ ¬ Accepts [.ident "foo"] demoImpl := by
  refine ⟨(by rintro ⟨_, h⟩; cases h), ?_⟩
  rintro ⟨i, h⟩
  cases h

end PinProject
