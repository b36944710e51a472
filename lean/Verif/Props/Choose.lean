import Verif.Props.Independence
import Verif.Spec.Choose
/-!
# C93: the names chosen for the projections do not matter
-/
namespace PinProject
open Spec

namespace ChooseP

variable {ν : String → String}

/-- The renaming of a configuration. -/
def args (ν : String → String) (A : Args) : Args :=
  { A with
    project := A.project.map ν
    projectRef := A.projectRef.map ν
    projectReplace := match A.projectReplace with
      | .named n => .named (ν n)
      | r => r }

theorem config_choose (as : List Arg) : config (as.map (Arg.choose ν)) = args ν (config as) := by
  have hm : ∀ b : Arg, b.name? = none → (b ∈ as.map (Arg.choose ν) ↔ b ∈ as) := by
    intro b hb
    rw [List.mem_map]
    constructor
    · rintro ⟨a, ha, rfl⟩
      cases a <;> first | exact ha | cases hb
    · intro h
      refine ⟨b, h, ?_⟩
      cases b <;> first | rfl | cases hb
  have h1 : (config (as.map (Arg.choose ν))).project = (config as).project.map ν := by
    clear hm
    show List.findSome? _ _ = Option.map ν (List.findSome? _ _)
    induction as with
    | nil => rfl
    | cons a as ih => cases a <;> first | rfl | simpa [Arg.choose, List.findSome?_cons] using ih
  have h2 : (config (as.map (Arg.choose ν))).projectRef = (config as).projectRef.map ν := by
    clear hm h1
    show List.findSome? _ _ = Option.map ν (List.findSome? _ _)
    induction as with
    | nil => rfl
    | cons a as ih => cases a <;> first | rfl | simpa [Arg.choose, List.findSome?_cons] using ih
  have h3 : (config (as.map (Arg.choose ν))).projectReplace = (args ν (config as)).projectReplace := by
    clear hm h1 h2
    simp only [args]
    show Option.getD (List.findSome? _ _) _ = match Option.getD (List.findSome? _ _) _ with
      | ProjReplace.named n => ProjReplace.named (ν n)
      | r => r
    induction as with
    | nil => rfl
    | cons a as ih => cases a <;> first | rfl | simpa [Arg.choose, List.findSome?_cons] using ih
  have h4 : (config (as.map (Arg.choose ν))).pinnedDrop = (config as).pinnedDrop := by
    simp only [config, hm .pinnedDrop rfl]
  have h5 : (config (as.map (Arg.choose ν))).unpinImpl = (config as).unpinImpl := by
    simp only [config, hm .unsafeUnpin rfl, hm .notUnpin rfl]
  cases hc : config (as.map (Arg.choose ν))
  rw [hc] at h1 h2 h3 h4 h5
  simp only at h1 h2 h3 h4 h5
  subst h1 h2 h3 h4 h5
  rfl

/-- What changes in the context. -/
structure Rel (ν : String → String) (cx cx' : Ctx) : Prop where
  vis : cx'.vis = cx.vis
  ident : cx'.ident = cx.ident
  generics : cx'.generics = cx.generics
  kind : cx'.kind = cx.kind
  pinnedDrop : cx'.pinnedDrop = cx.pinnedDrop
  unpinImpl : cx'.unpinImpl = cx.unpinImpl
  project : cx'.project = cx.project
  projectRef : cx'.projectRef = cx.projectRef
  replaceSome : cx'.projectReplace.isSome = cx.projectReplace.isSome
  replaceIdent : cx'.projectReplace.ident.isSome = cx.projectReplace.ident.isSome
  projVis : cx'.projVis = cx.projVis
  mutIdent : cx'.mutIdent = ν cx.mutIdent
  refIdent : cx'.refIdent = ν cx.refIdent
  ownIdent : cx'.ownIdent = ν cx.ownIdent
  lifetime : cx'.lifetime = cx.lifetime
  projGenerics : cx'.projGenerics = cx.projGenerics
  projWhere : cx'.projWhere = cx.projWhere

theorem own (hk : KeepsOwn ν) (a b : String) : ν ("__" ++ a ++ b) = "__" ++ a ++ b := by
  rw [String.append_assoc]
  exact hk _

theorem rel (hk : KeepsOwn ν) (A : Args) (a a' : List Attribute) (v : Vis) (i : String) (g : Generics) (k : TypeKind) :
    Rel ν (mkCtx A a v i g k) (mkCtx (args ν A) a' v i g k) where
  vis := rfl
  ident := rfl
  generics := rfl
  kind := rfl
  pinnedDrop := rfl
  unpinImpl := rfl
  project := by simp [mkCtx, args]
  projectRef := by simp [mkCtx, args]
  replaceSome := by simp only [mkCtx, args]; cases A.projectReplace <;> rfl
  replaceIdent := by simp only [mkCtx, args]; cases A.projectReplace <;> rfl
  projVis := rfl
  mutIdent := by
    simp only [mkCtx, args]
    cases A.project
    · exact (own hk _ _).symm
    · rfl
  refIdent := by
    simp only [mkCtx, args]
    cases A.projectRef
    · exact (own hk _ _).symm
    · rfl
  ownIdent := by
    simp only [mkCtx, args]
    cases A.projectReplace
    · exact (own hk _ _).symm
    · exact (own hk _ _).symm
    · rfl
  lifetime := rfl
  projGenerics := rfl
  projWhere := rfl

section

variable {cx cx' : Ctx} (r : Rel ν cx cx')
include r

theorem lints : projAllowedLints cx' = projAllowedLints cx := by
  simp only [projAllowedLints, r.project, r.projectRef, r.replaceIdent, r.kind]

theorem ownBody (v : Option String) (m : Option Delim × List GInit) (ps : List String) :
    projOwnBody cx' v m ps =
      ((projOwnBody cx v m ps).1.map (GStmt.choose ν), (projOwnBody cx v m ps).2.choose ν) := by
  simp [projOwnBody, GStmt.choose, RHS.choose, r.ownIdent, Function.comp_def]

theorem impl (a b c : GBody) :
    makeProjImpl cx' (a.choose ν) (b.choose ν) (c.choose ν) = (makeProjImpl cx a b c).choose ν := by
  have hn : cx'.projectReplace.ident.isNone = cx.projectReplace.ident.isNone := by
    have := r.replaceIdent
    cases h : cx.projectReplace.ident <;> cases h' : cx'.projectReplace.ident <;> simp_all
  unfold makeProjImpl
  simp only [GItem.choose, List.map_append, apply_ite (List.map (GFn.choose ν)), List.map_cons, List.map_nil, GFn.choose,
    GBody.choose, GStmt.choose, RHS.choose, GTy.choose, r.ident, r.generics, r.kind, r.project, r.projectRef, r.replaceSome,
    hn, r.projVis, r.mutIdent, r.refIdent, r.ownIdent, r.lifetime, r.projGenerics]

theorem unpin (hk : KeepsOwn ν) (ts : List Node) : makeUnpinImpl cx' ts = (makeUnpinImpl cx ts).map (GItem.choose ν) := by
  unfold makeUnpinImpl
  rw [r.unpinImpl]
  cases cx.unpinImpl with
  | unsafe_ => simp [r.generics, r.projGenerics, r.lifetime, r.ident, GItem.choose]
  | negative => simp [r.generics, r.projGenerics, r.lifetime, r.ident, GItem.choose]
  | default =>
    simp only [r.generics, r.projGenerics, r.lifetime, r.ident, r.vis, GItem.choose, List.map_cons, List.map_nil, hk (unraw cx.ident)]

theorem drop_ : makeDropImpl cx' = (makeDropImpl cx).map (GItem.choose ν) := by
  unfold makeDropImpl
  rw [r.pinnedDrop, r.generics, r.ident]
  split <;> simp [GItem.choose, GFn.choose, GBody.choose, GStmt.choose, RHS.choose, GTail.choose, GTy.choose]

theorem struct_ (hk : KeepsOwn ν) (fs : Fields) : structExpansion cx' fs = (structExpansion cx fs).choose ν := by
  have e1 : projItemS cx' fs = (projItemS cx fs).choose ν := by
    simp [projItemS, lints r, r.projVis, r.mutIdent, r.projGenerics, r.projWhere, projectedOf, r.lifetime, GItem.choose]
  have e2 : refItemS cx' fs = (refItemS cx fs).choose ν := by
    simp [refItemS, lints r, r.projVis, r.refIdent, r.projGenerics, r.projWhere, projectedOf, r.lifetime, GItem.choose]
  have e3 : ownItemS cx' fs = (ownItemS cx fs).choose ν := by
    simp [ownItemS, lints r, r.projVis, r.ownIdent, r.generics, projectedOf, GItem.choose]
  have e4 : implItemS cx' fs = (implItemS cx fs).choose ν := by
    unfold implItemS
    rw [← impl r]
    congr 1
    · simp [projMutBodyS, GBody.choose, GStmt.choose, GTail.choose, RHS.choose, projectedOf, r.mutIdent]
    · simp [projRefBodyS, GBody.choose, GStmt.choose, GTail.choose, RHS.choose, projectedOf, r.refIdent]
    · simp [projOwnBodyS, GBody.choose, GStmt.choose, GTail.choose, projectedOf, ownBody r, RHS.choose]
  have e5 : assertItem cx' fs = (assertItem cx fs).choose ν := by
    simp [assertItem, r.generics, r.ident, GItem.choose]
  unfold structExpansion Expansion.choose
  simp only [e1, e2, e3, e4, e5, unpin r hk, drop_ r, r.project, r.projectRef, r.replaceSome, r.replaceIdent, List.map_append,
    apply_ite (List.map (GItem.choose ν)), List.map_cons, List.map_nil]

theorem enum_ (hk : KeepsOwn ν) (vs : List Variant) : enumExpansion cx' vs = (enumExpansion cx vs).choose ν := by
  have e1 : projItemE cx' vs = (projItemE cx vs).choose ν := by
    simp [projItemE, lints r, r.projVis, r.mutIdent, r.projGenerics, r.projWhere, projectedOf, r.lifetime, GItem.choose]
  have e2 : refItemE cx' vs = (refItemE cx vs).choose ν := by
    simp [refItemE, lints r, r.projVis, r.refIdent, r.projGenerics, r.projWhere, projectedOf, r.lifetime, GItem.choose]
  have e3 : ownItemE cx' vs = (ownItemE cx vs).choose ν := by
    simp [ownItemE, lints r, r.projVis, r.ownIdent, r.generics, projectedOf, GItem.choose]
  have e4 : implItemE cx' vs = (implItemE cx vs).choose ν := by
    unfold implItemE
    rw [← impl r]
    congr 1
    · simp [projMutBodyE, GBody.choose, GTail.choose, RHS.choose, GArm.choose, armMut, projectedOf, r.mutIdent]
    · simp [projRefBodyE, GBody.choose, GTail.choose, RHS.choose, GArm.choose, armRef, projectedOf, r.refIdent]
    · simp [projOwnBodyE, GBody.choose, GTail.choose, RHS.choose, GArm.choose, armOwn, projectedOf, ownBody r]
  unfold enumExpansion Expansion.choose
  simp only [e1, e2, e3, e4, unpin r hk, drop_ r, r.project, r.projectRef, r.replaceIdent, List.map_append,
    apply_ite (List.map (GItem.choose ν)), List.map_cons, List.map_nil]

end

/-! ## Acceptance -/

theorem nodup_map {α β : Type} {f : α → β} (hf : ∀ x y, f x = f y → x = y) (l : List α) :
    (l.map f).Nodup ↔ l.Nodup := by
  induction l with
  | nil => simp
  | cons a l ih =>
    rw [List.map_cons, List.nodup_cons, List.nodup_cons, ih]
    have : f a ∈ l.map f ↔ a ∈ l := by
      rw [List.mem_map]
      exact ⟨fun ⟨b, hb, e⟩ => hf _ _ e ▸ hb, fun h => ⟨a, h, rfl⟩⟩
    rw [this]

theorem acceptable (hinj : ∀ x y, ν x = ν y → x = y) (as : List Arg) :
    Acceptable (as.map (Arg.choose ν)) ↔ Acceptable as := by
  have hkind : (as.map (Arg.choose ν)).map Arg.kind = as.map Arg.kind := by
    rw [List.map_map]
    exact List.map_congr_left (fun a _ => by cases a <;> rfl)
  have hnames : (as.map (Arg.choose ν)).filterMap Arg.name? = (as.filterMap Arg.name?).map ν := by
    rw [List.filterMap_map, List.map_filterMap]
    congr 1
    funext a
    cases a <;> rfl
  have hm : ∀ b : Arg, b.name? = none → (b ∈ as.map (Arg.choose ν) ↔ b ∈ as) := by
    intro b hb
    rw [List.mem_map]
    constructor
    · rintro ⟨a, ha, rfl⟩
      cases a <;> first | exact ha | cases hb
    · intro h
      refine ⟨b, h, ?_⟩
      cases b <;> first | rfl | cases hb
  constructor
  · rintro ⟨h1, h2, h3, h4⟩
    rw [hkind] at h1 h2
    rw [hm _ rfl] at h2
    rw [hm _ rfl, hm _ rfl] at h3
    rw [hnames, nodup_map hinj] at h4
    exact ⟨h1, h2, h3, h4⟩
  · rintro ⟨h1, h2, h3, h4⟩
    refine ⟨by rwa [hkind], ?_, ?_, by rwa [hnames, nodup_map hinj]⟩
    · rwa [hkind, hm _ rfl]
    · rwa [hm _ rfl, hm _ rfl]

theorem userNames_args (A : Args) : userNames (args ν A) = (userNames A).map ν := by
  unfold userNames args
  simp only [List.map_append]
  congr 1
  · cases A.project <;> cases A.projectRef <;> rfl
  · cases A.projectReplace <;> rfl

theorem not_repr {a : Attribute} {ts : List TT} (h : reprArgs a = some ts) : isOurs a = false := by
  obtain ⟨m⟩ := a
  cases m with
  | path p => cases h
  | nameValue p v => cases h
  | list p d t =>
    simp only [reprArgs] at h
    split at h
    · rename_i hp
      have hp := eq_of_beq hp
      subst hp
      rfl
    · cases h

theorem reprs {item item' : Item} (h : SameOtherAttrs item item') :
    (ReprsWellFormed (itemAttrs item) ↔ ReprsWellFormed (itemAttrs item')) ∧
    (AsksForPacked (itemAttrs item) ↔ AsksForPacked (itemAttrs item')) := by
  refine ⟨⟨fun hr a ha ts e => hr a ((h a (not_repr e)).2 ha) ts e, fun hr a ha ts e => hr a ((h a (not_repr e)).1 ha) ts e⟩,
    ⟨?_, ?_⟩⟩
  · rintro ⟨a, ha, ts, ms, e, r⟩
    exact ⟨a, (h a (not_repr e)).1 ha, ts, ms, e, r⟩
  · rintro ⟨a, ha, ts, ms, e, r⟩
    exact ⟨a, (h a (not_repr e)).2 ha, ts, ms, e, r⟩

theorem sameDef {item item' : Item} (h : SameDefinition item item') :
    itemName item = itemName item' ∧ itemFields item = itemFields item' ∧ (ShapeOk item ↔ ShapeOk item') ∧
    ∀ A, ReplaceNamedOnEnum (args ν A) item' ↔ ReplaceNamedOnEnum A item := by
  have hr : ∀ A : Args, (args ν A).projectReplace ≠ .unnamed ↔ A.projectReplace ≠ .unnamed := by
    intro A
    simp only [args]
    cases A.projectReplace <;> simp
  cases item with
  | other a => exact h.elim
  | struct_ s =>
    cases item' with
    | struct_ s' =>
      obtain ⟨-, e2, -, e4⟩ := h
      exact ⟨congrArg some e2, congrArg Fields.list e4, by simp only [ShapeOk, e4], fun A => .rfl⟩
    | enum_ e => exact h.elim
    | other a => exact h.elim
  | enum_ s =>
    cases item' with
    | enum_ s' =>
      obtain ⟨-, e2, -, e4⟩ := h
      exact ⟨congrArg some e2, by simp only [itemFields, e4], by simp only [ShapeOk, e4], fun A => hr A⟩
    | struct_ e => exact h.elim
    | other a => exact h.elim

end ChooseP

open ChooseP

/-- **C93** Choose other names for the projections: if both definitions are accepted, the generated code of the second is that
of the first, with these names in the place of the old ones. -/
theorem C93_choose {item item' : Item} {E E' : Expansion} (h : parseDerive item = .ok E) (h' : parseDerive item' = .ok E')
    (hs : SameDefinition item item') {toks toks' : List TT} (hw : Written toks item) (hw' : Written toks' item')
    {as : List Arg} {ν : String → String} (hk : KeepsOwn ν) (ha : ArgsToks as toks)
    (ha' : ArgsToks (as.map (Arg.choose ν)) toks') : E' = E.choose ν := by
  obtain ⟨A, A', a, a', v, i, g, h1, h1', hE⟩ := Independence.both hs h h'
  obtain ⟨bs, b1, -, rfl⟩ := (C05_config toks item hw A).1 h1
  obtain ⟨bs', b1', -, rfl⟩ := (C05_config toks' item' hw' A').1 h1'
  obtain rfl := argsToks_unique b1 ha
  obtain rfl := argsToks_unique b1' ha'
  rw [config_choose] at hE
  rcases hE with ⟨fs, rfl, rfl⟩ | ⟨vs, rfl, rfl⟩
  · exact struct_ (rel hk _ _ _ _ _ _ _) hk fs
  · exact enum_ (rel hk _ _ _ _ _ _ _) hk vs

/-- **C93** Whether a definition is accepted does not depend on the names either, as long as different names remain different,
from one another and from the name of the type itself. -/
theorem C93_accepted {item item' : Item} (hs : SameDefinition item item') (hat : SameOtherAttrs item item')
    {toks toks' : List TT} (hw : Written toks item) (hw' : Written toks' item')
    {as : List Arg} {ν : String → String} (hinj : ∀ x y, ν x = ν y → x = y) (hid : ∀ n, itemName item = some n → ν n = n)
    (ha : ArgsToks as toks) (ha' : ArgsToks (as.map (Arg.choose ν)) toks') :
    (∃ E, parseDerive item = .ok E) ↔ ∃ E', parseDerive item' = .ok E' := by
  obtain ⟨e1, e2, e3, e4⟩ := sameDef (ν := ν) hs
  obtain ⟨r1, r2⟩ := reprs hat
  rw [C07_accepted_iff, C07_accepted_iff, ← e1, ← e2, ← e3, ← r1, ← r2]
  have hn : (∀ n, itemName item = some n → n ∉ userNames (config (as.map (Arg.choose ν)))) ↔
      ∀ n, itemName item = some n → n ∉ userNames (config as) := by
    rw [config_choose, userNames_args]
    constructor
    · intro h n hn hm
      exact h n hn (List.mem_map.2 ⟨n, hm, hid n hn⟩)
    · intro h n hn hm
      obtain ⟨m, hm, e⟩ := List.mem_map.1 hm
      have : m = n := hinj _ _ (e.trans (hid n hn).symm)
      exact h n hn (this ▸ hm)
  constructor
  · rintro ⟨A, h1, h2, h3⟩
    obtain ⟨bs, b1, b2, rfl⟩ := (C05_config toks item hw A).1 h1
    obtain rfl := argsToks_unique b1 ha
    refine ⟨_, (C05_config toks' item' hw' _).2 ⟨_, ha', (acceptable hinj bs).2 b2, rfl⟩, hn.2 h2, ?_⟩
    rw [config_choose, e4]
    exact h3
  · rintro ⟨A, h1, h2, h3⟩
    obtain ⟨bs, b1, b2, rfl⟩ := (C05_config toks' item' hw' A).1 h1
    obtain rfl := argsToks_unique b1 ha'
    refine ⟨_, (C05_config toks item hw _).2 ⟨_, ha, (acceptable hinj as).1 b2, rfl⟩, hn.1 h2, ?_⟩
    rw [config_choose, e4] at h3
    exact h3

/-! ## A concrete case -/

/-- Swap `P` and `Q`. -/
def swapPQ (s : String) : String := if s = "P" then "Q" else if s = "Q" then "P" else s

theorem swapPQ_keeps : KeepsOwn swapPQ := by
  intro s
  have h : ∀ c : Char, c ≠ '_' → "__" ++ s ≠ String.ofList [c] := by
    intro c hc e
    have := congrArg String.toList e
    rw [String.toList_append, show (String.ofList [c]).toList = [c] from by simp] at this
    exact hc (List.cons.inj this).1.symm
  have h1 : "__" ++ s ≠ "P" := h 'P' (by decide)
  have h2 : "__" ++ s ≠ "Q" := h 'Q' (by decide)
  simp [swapPQ, h1, h2]

theorem swapPQ_injective (x y : String) (h : swapPQ x = swapPQ y) : x = y := by
  unfold swapPQ at h
  split at h <;> split at h <;> (try split at h) <;> (try split at h) <;> simp_all

/-- `#[pin_project(project = Q)]` -/
def demoArgsQ : List TT := [.ident "project", .punct '=' false, .ident "Q"]

/-- `#[pin_project(project = P)]` and `#[pin_project(project = Q)]` on the same struct: all hypotheses are met, and the code
differs. -/
example : ∃ E E', parseDerive (demoWith demoArgs) = .ok E ∧ parseDerive (demoWith demoArgsQ) = .ok E' ∧
    SameDefinition (demoWith demoArgs) (demoWith demoArgsQ) ∧ SameOtherAttrs (demoWith demoArgs) (demoWith demoArgsQ) ∧
    Written demoArgs (demoWith demoArgs) ∧ Written demoArgsQ (demoWith demoArgsQ) ∧
    (∀ n, itemName (demoWith demoArgs) = some n → swapPQ n = n) ∧
    ArgsToks [.project "P"] demoArgs ∧ ArgsToks ([.project "P"].map (Arg.choose swapPQ)) demoArgsQ ∧
    E' = E.choose swapPQ ∧ E.exposed.map (fun i => (asTypeDef i).map (·.name)) = [some "P"] ∧
    E'.exposed.map (fun i => (asTypeDef i).map (·.name)) = [some "Q"] := by
  have h : ∃ E, parseDerive (demoWith demoArgs) = .ok E ∧
      E.exposed.map (fun i => (asTypeDef i).map (·.name)) = [some "P"] := ⟨_, rfl, rfl⟩
  have h' : ∃ E, parseDerive (demoWith demoArgsQ) = .ok E ∧
      E.exposed.map (fun i => (asTypeDef i).map (·.name)) = [some "Q"] := ⟨_, rfl, rfl⟩
  obtain ⟨E, h, hn⟩ := h
  obtain ⟨E', h', hn'⟩ := h'
  have hs : SameDefinition (demoWith demoArgs) (demoWith demoArgsQ) := ⟨rfl, rfl, rfl, rfl⟩
  have hw : Written demoArgs (demoWith demoArgs) := rfl
  have hw' : Written demoArgsQ (demoWith demoArgsQ) := rfl
  have ha' : ArgsToks ([Arg.project "P"].map (Arg.choose swapPQ)) demoArgsQ := .last (.project _ _ (by decide))
  refine ⟨E, E', h, h', hs, ?_, hw, hw', ?_, demoArgs_toks.1, ha',
    C93_choose h h' hs hw hw' swapPQ_keeps demoArgs_toks.1 ha', hn, hn'⟩
  · intro a ho
    have e : ∀ ts, itemAttrs (demoWith ts) = [pinPrivateAttr ts] := fun _ => rfl
    rw [e, e, List.mem_singleton, List.mem_singleton]
    constructor <;> (rintro rfl; cases ho)
  · intro n hn
    cases hn
    decide

/-- The name of the type itself cannot be chosen: here the condition on `ν` fails, and so does the macro. -/
example : itemName (demoWith demoArgs) = some "R" ∧
    (parseDerive (demoWith [.ident "project", .punct '=' false, .ident "R"])).isOk = false := ⟨rfl, rfl⟩

end PinProject
