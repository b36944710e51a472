import Verif.Spec.Groups
import Verif.Props.ReprLemmas
import Verif.Props.PinnedDrop
/-!
# C71: definitions and arguments written by `macro_rules!` macros
-/
namespace PinProject
open Spec

namespace Groups

theorem visibleAll_append (a b : List RT) : visibleAll (a ++ b) = visibleAll a ++ visibleAll b := by
  induction a with
  | nil => rfl
  | cons t a ih => simp only [List.cons_append, visibleAll, ih, List.append_assoc]

theorem fullAll_append {a b : List RT} : FullAll (a ++ b) ↔ FullAll a ∧ FullAll b := by
  induction a with
  | nil => simp [FullAll]
  | cons t a ih => simp only [List.cons_append, FullAll, ih, and_assoc]

theorem fullInside_append {a b : List RT} : FullInsideAll (a ++ b) ↔ FullInsideAll a ∧ FullInsideAll b := by
  induction a with
  | nil => simp [FullInsideAll]
  | cons t a ih => simp only [List.cons_append, FullInsideAll, ih, and_assoc]

mutual
theorem openWith_visible (t : RT) {rest op : List RT} (h : visibleAll op = visibleAll rest) :
    visibleAll (t.openWith rest op) = visible t ++ visibleAll rest := by
  match t with
  | .ident s => rfl
  | .punct c j => rfl
  | .lit s => rfl
  | .group (some d) ts => rfl
  | .group none ts => exact openAll_visible ts h
theorem openAll_visible (ts : List RT) {rest op : List RT} (h : visibleAll op = visibleAll rest) :
    visibleAll (openAll ts rest op) = visibleAll ts ++ visibleAll rest := by
  match ts with
  | [] => exact h
  | t :: ts =>
    have h2 : visibleAll (openAll ts rest op) = visibleAll (ts ++ rest) := by
      rw [openAll_visible ts h, visibleAll_append]
    rw [openAll, openWith_visible t h2, visibleAll_append, visibleAll, List.append_assoc]
end

/-- The first token is not an invisible group. -/
def Open : List RT → Prop
  | .group none _ :: _ => False
  | _ => True

mutual
theorem openWith_open (t : RT) {rest op : List RT} (h : Open op) : Open (t.openWith rest op) := by
  match t with
  | .ident s => trivial
  | .punct c j => trivial
  | .lit s => trivial
  | .group (some d) ts => trivial
  | .group none ts => exact openAll_open ts h
theorem openAll_open (ts : List RT) {rest op : List RT} (h : Open op) : Open (openAll ts rest op) := by
  match ts with
  | [] => exact h
  | t :: ts => exact openWith_open t (openAll_open ts h)
end

mutual
theorem openWith_full (t : RT) {rest op : List RT} (ht : Full t) (hr : FullAll rest) (h : FullAll op) :
    FullAll (t.openWith rest op) := by
  match t with
  | .ident s => exact ⟨ht, hr⟩
  | .punct c j => exact ⟨ht, hr⟩
  | .lit s => exact ⟨ht, hr⟩
  | .group (some d) ts => exact ⟨ht, hr⟩
  | .group none ts => exact openAll_full ts ht.2 hr h
theorem openAll_full (ts : List RT) {rest op : List RT} (ht : FullAll ts) (hr : FullAll rest) (h : FullAll op) :
    FullAll (openAll ts rest op) := by
  match ts with
  | [] => exact h
  | t :: ts => exact openWith_full t ht.1 (fullAll_append.2 ⟨ht.2, hr⟩) (openAll_full ts ht.2 hr h)
end

mutual
theorem openWith_inside (t : RT) {rest op : List RT} (ht : FullInside t) (hr : FullInsideAll rest) (h : FullInsideAll op) :
    FullInsideAll (t.openWith rest op) := by
  match t with
  | .ident s => exact ⟨ht, hr⟩
  | .punct c j => exact ⟨ht, hr⟩
  | .lit s => exact ⟨ht, hr⟩
  | .group (some d) ts => exact ⟨ht, hr⟩
  | .group none ts => exact openAll_inside ts ht hr h
theorem openAll_inside (ts : List RT) {rest op : List RT} (ht : FullInsideAll ts) (hr : FullInsideAll rest)
    (h : FullInsideAll op) : FullInsideAll (openAll ts rest op) := by
  match ts with
  | [] => exact h
  | t :: ts => exact openWith_inside t ht.1 (fullInside_append.2 ⟨ht.2, hr⟩) (openAll_inside ts ht.2 hr h)
end

mutual
theorem visible_ne (t : RT) (h : Full t) : visible t ≠ [] := by
  match t with
  | .ident s => simp [visible]
  | .punct c j => simp [visible]
  | .lit s => simp [visible]
  | .group (some d) ts => simp [visible]
  | .group none ts => exact visibleAll_ne ts h.1 h.2
theorem visibleAll_ne (ts : List RT) (hn : ts ≠ []) (h : FullAll ts) : visibleAll ts ≠ [] := by
  match ts with
  | [] => exact absurd rfl hn
  | t :: ts =>
    intro he
    exact visible_ne t h.1 (List.append_eq_nil_iff.1 he).1
end

theorem isEmpty_iff {toks : List RT} (h : FullAll toks) : toks.isEmpty = (visibleAll toks).isEmpty := by
  cases toks with
  | nil => rfl
  | cons t ts =>
    have := visibleAll_ne (t :: ts) (by simp) h
    cases hv : visibleAll (t :: ts) with
    | nil => exact absurd hv this
    | cons => rfl

mutual
theorem weight_eq (t : RT) : Raw.weight t = (visible t).length := by
  match t with
  | .ident s => rfl
  | .punct c j => rfl
  | .lit s => rfl
  | .group (some d) ts => rfl
  | .group none ts => exact weightAll_eq ts
theorem weightAll_eq (ts : List RT) : Raw.weightAll ts = (visibleAll ts).length := by
  match ts with
  | [] => rfl
  | t :: ts => rw [Raw.weightAll, visibleAll, List.length_append, weight_eq t, weightAll_eq ts]
end

/-- The next token, with and without invisible groups. -/
inductive View : List RT → List TT → Prop
  | nil : View [] []
  | ident (s : String) (rest : List RT) : View (.ident s :: rest) (.ident s :: visibleAll rest)
  | punct (c : Char) (j : Bool) (rest : List RT) : View (.punct c j :: rest) (.punct c j :: visibleAll rest)
  | lit (s : String) (rest : List RT) : View (.lit s :: rest) (.lit s :: visibleAll rest)
  | group (d : Delim) (ts rest : List RT) : View (.group (some d) ts :: rest) (.group d (visibleAll ts) :: visibleAll rest)

theorem view (toks : List RT) : View (openHead toks) (visibleAll toks) := by
  have h1 : visibleAll (openHead toks) = visibleAll toks := by
    rw [openHead, openAll_visible toks rfl]
    simp [visibleAll]
  have h2 : Open (openHead toks) := openAll_open toks trivial
  rw [← h1]
  cases h : openHead toks with
  | nil => exact .nil
  | cons t rest =>
    rw [h] at h2
    match t, h2 with
    | .ident s, _ => exact .ident s rest
    | .punct c j, _ => exact .punct c j rest
    | .lit s, _ => exact .lit s rest
    | .group (some d) ts, _ => exact .group d ts rest

theorem full_open {toks : List RT} (h : FullAll toks) : FullAll (openHead toks) := openAll_full toks h trivial trivial

theorem inside_open {toks : List RT} (h : FullInsideAll toks) : FullInsideAll (openHead toks) :=
  openAll_inside toks h trivial trivial

/-- Same result, and the rest of the tokens is the same but for invisible groups. -/
def Same {α : Type} : Res (α × List RT) → Res (α × List TT) → Prop
  | .ok (a, r), q => q = .ok (a, visibleAll r) ∧ FullAll r
  | .error e, q => q = .error e

def SameT : Res (List RT) → Res (List TT) → Prop
  | .ok r, q => q = .ok (visibleAll r) ∧ FullAll r
  | .error e, q => q = .error e

theorem Same.bind {α β : Type} {x : Res (α × List RT)} {y : Res (α × List TT)} (h : Same x y)
    {f : α × List RT → Res (β × List RT)} {g : α × List TT → Res (β × List TT)}
    (hf : ∀ a r, FullAll r → Same (f (a, r)) (g (a, visibleAll r))) : Same (x >>= f) (y >>= g) := by
  match x, h with
  | .ok (a, r), h => rw [h.1]; exact hf a r h.2
  | .error e, h => rw [show y = .error e from h]; rfl

theorem SameT.bind {β : Type} {x : Res (List RT)} {y : Res (List TT)} (h : SameT x y)
    {f : List RT → Res (β × List RT)} {g : List TT → Res (β × List TT)}
    (hf : ∀ r, FullAll r → Same (f r) (g (visibleAll r))) : Same (x >>= f) (y >>= g) := by
  match x, h with
  | .ok r, h => rw [h.1]; exact hf r h.2
  | .error e, h => rw [show y = .error e from h]; rfl

theorem Same.bindE {α β γ : Type} {x : Res (α × List RT)} {y : Res (α × List TT)} (h : Same x y)
    {f : α × List RT → Res β} {g : α × List TT → Res γ} {k : γ → β}
    (hf : ∀ a r, FullAll r → f (a, r) = (g (a, visibleAll r)).map k) : (x >>= f) = (y >>= g).map k := by
  match x, h with
  | .ok (a, r), h => rw [h.1]; exact hf a r h.2
  | .error e, h => rw [show y = .error e from h]; rfl

theorem SameT.bindE {β γ : Type} {x : Res (List RT)} {y : Res (List TT)} (h : SameT x y)
    {f : List RT → Res β} {g : List TT → Res γ} {k : γ → β}
    (hf : ∀ r, FullAll r → f r = (g (visibleAll r)).map k) : (x >>= f) = (y >>= g).map k := by
  match x, h with
  | .ok r, h => rw [h.1]; exact hf r h.2
  | .error e, h => rw [show y = .error e from h]; rfl

theorem parseIdent_same {toks : List RT} (h : FullAll toks) : Same (Raw.parseIdent toks) (parseIdent (visibleAll toks)) := by
  have hf := full_open h
  have hv := view toks
  unfold Raw.parseIdent
  generalize openHead toks = o at hf hv
  generalize visibleAll toks = v at hv
  cases hv with
  | ident s rest =>
    simp only [parseIdent]
    split
    · exact ⟨rfl, hf.2⟩
    · rfl
  | _ => rfl

theorem peekPunct_same (c : Char) (toks : List RT) : Raw.peekPunct c toks = peekPunct c (visibleAll toks) := by
  have hv := view toks
  unfold Raw.peekPunct
  generalize openHead toks = o at hv
  generalize visibleAll toks = v at hv
  cases hv <;> rfl

theorem parsePunct_same (c : Char) {toks : List RT} (h : FullAll toks) :
    SameT (Raw.parsePunct c toks) (parsePunct c (visibleAll toks)) := by
  have hf := full_open h
  have hv := view toks
  unfold Raw.parsePunct
  generalize openHead toks = o at hf hv
  generalize visibleAll toks = v at hv
  cases hv with
  | punct d j rest =>
    simp only [parsePunct]
    split
    · exact ⟨rfl, hf.2⟩
    · rfl
  | _ => rfl

theorem parseKwUnpin_same {toks : List RT} (h : FullAll toks) :
    SameT (Raw.parseKwUnpin toks) (parseKwUnpin (visibleAll toks)) := by
  have hf := full_open h
  have hv := view toks
  unfold Raw.parseKwUnpin
  generalize openHead toks = o at hf hv
  generalize visibleAll toks = v at hv
  cases hv with
  | ident d rest =>
    simp only [parseKwUnpin]
    split
    · exact ⟨rfl, hf.2⟩
    · rfl
  | _ => rfl

theorem parseValue_same {toks : List RT} (h : FullAll toks) (name : String) (hasPrev : Bool) :
    Same (Raw.parseValue toks name hasPrev) (parseValue (visibleAll toks) name hasPrev) := by
  unfold Raw.parseValue parseValue
  rw [isEmpty_iff h]
  split
  · rfl
  · refine (parsePunct_same '=' h).bind fun r hr => ?_
    rw [isEmpty_iff hr]
    split
    · rfl
    · refine (parseIdent_same hr).bind fun v r hr => ?_
      simp only
      split
      · rfl
      · exact ⟨rfl, hr⟩

theorem parseArg_same (a : ArgAcc) {toks : List RT} (h : FullAll toks) :
    Same (Raw.parseArg a toks) (parseArg a (visibleAll toks)) := by
  unfold Raw.parseArg parseArg
  rw [peekPunct_same]
  split
  · refine (parsePunct_same '!' h).bind fun r hr => ?_
    rw [isEmpty_iff hr]
    split
    · rfl
    · refine (parseKwUnpin_same hr).bind fun r hr => ?_
      split
      · rfl
      · exact ⟨rfl, hr⟩
  · refine (parseIdent_same h).bind fun token r hr => ?_
    simp only
    by_cases h1 : token = "PinnedDrop"
    · rw [if_pos h1, if_pos h1]
      split
      · rfl
      · exact ⟨rfl, hr⟩
    rw [if_neg h1, if_neg h1]
    by_cases h2 : token = "UnsafeUnpin"
    · rw [if_pos h2, if_pos h2]
      split
      · rfl
      · exact ⟨rfl, hr⟩
    rw [if_neg h2, if_neg h2]
    by_cases h3 : token = "project"
    · rw [if_pos h3, if_pos h3]
      exact (parseValue_same hr _ _).bind fun v r hr => ⟨rfl, hr⟩
    rw [if_neg h3, if_neg h3]
    by_cases h4 : token = "project_ref"
    · rw [if_pos h4, if_pos h4]
      exact (parseValue_same hr _ _).bind fun v r hr => ⟨rfl, hr⟩
    rw [if_neg h4, if_neg h4]
    by_cases h5 : token = "project_replace"
    · rw [if_pos h5, if_pos h5, peekPunct_same]
      split
      · exact (parseValue_same hr _ _).bind fun v r hr => ⟨rfl, hr⟩
      · split
        · rfl
        · exact ⟨rfl, hr⟩
    rw [if_neg h5, if_neg h5]
    split <;> rfl

theorem parseLoop_same (n : Nat) (a : ArgAcc) {toks : List RT} (h : FullAll toks) :
    Raw.parseLoop n a toks = parseLoop n a (visibleAll toks) := by
  induction n generalizing a toks with
  | zero =>
    cases toks with
    | nil => rfl
    | cons t ts =>
      have hne := visibleAll_ne (t :: ts) (by simp) h
      cases hv : visibleAll (t :: ts) with
      | nil => exact absurd hv hne
      | cons => rfl
  | succ n ih =>
    cases toks with
    | nil => rfl
    | cons t ts =>
      have hne := visibleAll_ne (t :: ts) (by simp) h
      have hs := parseArg_same a h
      cases hv : visibleAll (t :: ts) with
      | nil => exact absurd hv hne
      | cons u us =>
        rw [hv] at hs
        rw [Raw.parseLoop, parseLoop]
        case x_3 => simp
        case x_3 => simp
        have := hs.bindE (k := id) (f := fun x => if x.2.isEmpty then .ok x.1 else do
            let toks ← Raw.parsePunct ',' x.2
            Raw.parseLoop n x.1 toks)
          (g := fun x => if x.2.isEmpty then .ok x.1 else do
            let toks ← parsePunct ',' x.2
            parseLoop n x.1 toks) (fun a r hr => by
              simp only
              rw [isEmpty_iff hr]
              split
              · rfl
              · refine (parsePunct_same ',' hr).bindE fun r hr => ?_
                rw [ih a hr]
                cases parseLoop n a (visibleAll r) <;> rfl)
        refine this.trans ?_
        generalize (parseArg a (u :: us) >>= _) = z
        cases z <;> rfl

theorem parseArgs_same {toks : List RT} (h : FullAll toks) : Raw.parseArgs toks = Args.parse (visibleAll toks) := by
  unfold Raw.parseArgs Args.parse
  rw [parseLoop_same _ _ h, weightAll_eq]

theorem modPathTail_same (n : Nat) {toks : List RT} (h : FullAll toks) (hn : (visibleAll toks).length ≤ n) :
    Same (Raw.modPathTail n toks) (modPathTail (visibleAll toks)) := by
  induction n generalizing toks with
  | zero =>
    have : visibleAll toks = [] := List.eq_nil_of_length_eq_zero (Nat.le_zero.1 hn)
    rw [this]
    exact ⟨by rw [this]; rfl, h⟩
  | succ n ih =>
    have hself : Same (.ok (([] : List String), toks)) (.ok (([] : List String), visibleAll toks)) := ⟨rfl, h⟩
    have hf := full_open h
    have hv := view toks
    unfold Raw.modPathTail
    generalize openHead toks = o at hf hv
    generalize hvt : visibleAll toks = v at hv hself hn
    cases hv with
    | nil => exact hself
    | ident => exact hself
    | lit => exact hself
    | group => exact hself
    | punct c j rest =>
      cases j with
      | false => exact hself
      | true =>
        have hf2 := full_open hf.2
        have hv2 := view rest
        simp only
        generalize openHead rest = o2 at hf2 hv2
        generalize visibleAll rest = v2 at hv2 hself hn
        cases hv2 with
        | nil => exact hself
        | ident => exact hself
        | lit => exact hself
        | group => exact hself
        | punct d j rest2 =>
          rw [modPathTail.eq_def]
          simp only
          by_cases hc : c = ':' ∧ d = ':'
          · rw [if_pos hc, if_pos hc]
            have hf3 := full_open hf2.2
            have hv3 := view rest2
            generalize openHead rest2 = o3 at hf3 hv3
            generalize visibleAll rest2 = v3 at hv3 hn
            cases hv3 with
            | nil => rfl
            | punct => rfl
            | lit => rfl
            | group => rfl
            | ident s rest3 =>
              simp only
              split
              · refine (ih hf3.2 ?_).bind fun ss r hr => ⟨rfl, hr⟩
                simp only [List.length_cons] at hn
                omega
              · rfl
          · rw [if_neg hc, if_neg hc]
            exact hself

theorem parseModPath_same {toks : List RT} (h : FullAll toks) :
    Same (Raw.parseModPath toks) (parseModPath (visibleAll toks)) := by
  have htail : ∀ {rest : List RT}, FullAll rest → Same (Raw.modPathTail (Raw.weightAll rest) rest) (modPathTail (visibleAll rest)) :=
    fun h => modPathTail_same _ h (Nat.le_of_eq (weightAll_eq _).symm)
  have hf := full_open h
  have hv := view toks
  unfold Raw.parseModPath
  generalize openHead toks = o at hf hv
  generalize visibleAll toks = v at hv
  cases hv with
  | nil => rfl
  | lit => rfl
  | group => rfl
  | ident s rest =>
    simp only [parseModPath]
    split
    · exact (htail hf.2).bind fun ss r hr => ⟨rfl, hr⟩
    · rfl
  | punct c j rest =>
    cases j with
    | false => rfl
    | true =>
      have hf2 := full_open hf.2
      have hv2 := view rest
      simp only
      generalize openHead rest = o2 at hf2 hv2
      generalize visibleAll rest = v2 at hv2
      cases hv2 with
      | nil => rfl
      | ident => rfl
      | lit => rfl
      | group => rfl
      | punct d j rest2 =>
        simp only [parseModPath]
        by_cases hc : c = ':' ∧ d = ':'
        · rw [if_pos hc, if_pos hc]
          have hf3 := full_open hf2.2
          have hv3 := view rest2
          generalize openHead rest2 = o3 at hf3 hv3
          generalize visibleAll rest2 = v3 at hv3
          cases hv3 with
          | nil => rfl
          | punct => rfl
          | lit => rfl
          | group => rfl
          | ident s rest3 =>
            simp only
            split
            · exact (htail hf3.2).bind fun ss r hr => ⟨rfl, hr⟩
            · rfl
        · rw [if_neg hc, if_neg hc]
          rfl

/-- See `Raw.skipValue`. -/
theorem skipValue_same (n : Nat) {toks : List RT} (h : FullAll toks) (hn : (visibleAll toks).length ≤ n) :
    (Raw.skipValue n toks).1 = !(takeValue (visibleAll toks)).1.isEmpty ∧
      visibleAll (Raw.skipValue n toks).2 = (takeValue (visibleAll toks)).2 ∧ FullAll (Raw.skipValue n toks).2 := by
  induction n generalizing toks with
  | zero =>
    have : visibleAll toks = [] := List.eq_nil_of_length_eq_zero (Nat.le_zero.1 hn)
    rw [this]
    exact ⟨rfl, this, h⟩
  | succ n ih =>
    have hf := full_open h
    have hv := view toks
    unfold Raw.skipValue
    generalize openHead toks = o at hf hv
    generalize hvt : visibleAll toks = v at hv hn
    cases hv with
    | nil => exact ⟨rfl, hvt, h⟩
    | ident s rest =>
      have := ih hf.2 (Nat.le_of_succ_le_succ hn)
      exact ⟨rfl, this.2⟩
    | lit s rest =>
      have := ih hf.2 (Nat.le_of_succ_le_succ hn)
      exact ⟨rfl, this.2⟩
    | group d ts rest =>
      have := ih hf.2 (Nat.le_of_succ_le_succ hn)
      exact ⟨rfl, this.2⟩
    | punct c j rest =>
      have := ih hf.2 (Nat.le_of_succ_le_succ hn)
      simp only [takeValue]
      by_cases hc : c = ','
      · rw [if_pos hc, if_pos hc]
        exact ⟨rfl, hvt, h⟩
      · rw [if_neg hc, if_neg hc]
        exact ⟨rfl, this.2⟩

/-- What `ensure_not_packed` looks at. -/
def brief (m : Meta) : SPath × Bool := (m.getPath, m.isNameValue)

/-- Same result, but for the tokens inside the argument. -/
def SameM : Res ((SPath × Bool) × List RT) → Res (Meta × List TT) → Prop
  | .ok (a, r), q => (∃ m, q = .ok (m, visibleAll r) ∧ brief m = a) ∧ FullAll r
  | .error e, q => q = .error e

theorem parseMeta_same {toks : List RT} (h : FullAll toks) : SameM (Raw.parseMeta toks) (parseMeta (visibleAll toks)) := by
  have hp := parseModPath_same h
  unfold Raw.parseMeta parseMeta
  match Raw.parseModPath toks, hp with
  | .error e, hp => rw [show parseModPath (visibleAll toks) = .error e from hp]; rfl
  | .ok (p, rest), hp =>
    obtain ⟨hp, hr⟩ := hp
    rw [hp]
    have hf := full_open hr
    have hv := view rest
    simp only [bind, Except.bind]
    generalize openHead rest = o at hf hv
    generalize hvr : visibleAll rest = v at hv
    cases hv with
    | nil => exact ⟨⟨.path p, by rw [hvr], rfl⟩, hr⟩
    | ident => exact ⟨⟨.path p, by rw [hvr], rfl⟩, hr⟩
    | lit => exact ⟨⟨.path p, by rw [hvr], rfl⟩, hr⟩
    | group d ts rest' => exact ⟨⟨.list p d (visibleAll ts), rfl, rfl⟩, hf.2⟩
    | punct c j rest' =>
      simp only
      by_cases hc : c = '='
      · rw [if_pos hc, if_pos hc]
        obtain ⟨h1, h2, h3⟩ := skipValue_same (Raw.weightAll rest') hf.2 (Nat.le_of_eq (weightAll_eq _).symm)
        rw [h1]
        cases he : (takeValue (visibleAll rest')).1.isEmpty with
        | true => rfl
        | false =>
          refine ⟨⟨.nameValue p (takeValue (visibleAll rest')).1, ?_, rfl⟩, h3⟩
          rw [h2]
          rfl
      · rw [if_neg hc, if_neg hc]
        exact ⟨⟨.path p, by rw [hvr], rfl⟩, hr⟩

theorem parseMetas_same (n : Nat) {toks : List RT} (h : FullAll toks) :
    Raw.parseMetas n toks = (parseMetas n (visibleAll toks)).map (List.map brief) := by
  induction n generalizing toks with
  | zero =>
    cases toks with
    | nil => rfl
    | cons t ts =>
      have hne := visibleAll_ne (t :: ts) (by simp) h
      cases hv : visibleAll (t :: ts) with
      | nil => exact absurd hv hne
      | cons => rfl
  | succ n ih =>
    cases toks with
    | nil => rfl
    | cons t ts =>
      have hne := visibleAll_ne (t :: ts) (by simp) h
      have hs := parseMeta_same h
      cases hv : visibleAll (t :: ts) with
      | nil => exact absurd hv hne
      | cons u us =>
        rw [hv] at hs
        rw [Raw.parseMetas, parseMetas]
        case x_2 => simp
        case x_2 => simp
        match Raw.parseMeta (t :: ts), hs with
        | .error e, hs => rw [show parseMeta (u :: us) = .error e from hs]; rfl
        | .ok (a, r), ⟨⟨m, hm, hb⟩, hr⟩ =>
          rw [hm]
          simp only [bind, Except.bind]
          rw [isEmpty_iff hr]
          split
          · rw [← hb]; rfl
          · have := (parsePunct_same ',' hr).bindE (k := List.map brief)
              (f := fun toks => (Raw.parseMetas n toks).bind (fun ms => .ok (a :: ms)))
              (g := fun toks => (parseMetas n toks).bind (fun ms => .ok (m :: ms))) (fun r hr => by
                rw [ih hr, ← hb]
                cases parseMetas n (visibleAll r) <;> rfl)
            exact this

theorem checkReprs_find (isStruct : Bool) (ms : List Meta) : checkReprs isStruct ms =
    match (ms.map brief).find? (fun m => m.1.isIdent "packed") with
    | none => .ok ()
    | some m => .error (.bail (
        if !isStruct then "#[repr(packed)] attribute should be applied to a struct or union"
        else if m.2 then "#[repr(packed)] attribute should not be name-value pair"
        else "#[pin_project] attribute may not be used on #[repr(packed)] types")) := by
  induction ms with
  | nil => rfl
  | cons m ms ih =>
    simp only [checkReprs, List.map_cons, List.find?_cons, brief]
    cases m.getPath.isIdent "packed" with
    | true => rfl
    | false => simpa using ih

theorem checkRepr_same (isStruct : Bool) {toks : List RT} (h : FullAll toks) :
    Raw.checkRepr isStruct toks = (do
      let ms ← parseMetas (visibleAll toks).length (visibleAll toks)
      checkReprs isStruct ms) := by
  unfold Raw.checkRepr
  rw [parseMetas_same _ h, weightAll_eq]
  cases parseMetas (visibleAll toks).length (visibleAll toks) with
  | error e => rfl
  | ok ms => exact (checkReprs_find isStruct ms).symm

theorem peekStructOrEnum_same (toks : List RT) : Raw.peekStructOrEnum toks = peekStructOrEnum (visibleAll toks) := by
  have hv := view toks
  unfold Raw.peekStructOrEnum
  generalize openHead toks = o at hv
  generalize visibleAll toks = v at hv
  cases hv <;> rfl

/-- `skipVis`, if there is no empty invisible group at the beginning. -/
theorem skipVis_same {toks : List RT} (h : FullInsideAll toks) (hne : ∀ rest, toks ≠ .group none [] :: rest) :
    (Raw.skipVis toks).map visibleAll = skipVis (visibleAll toks) := by
  have hi := inside_open h
  have hv := view toks
  have hdef : Raw.skipVis toks = (match openHead toks with
    | .ident "pub" :: rest =>
      match openHead rest with
      | .group (some .paren) inner :: rest' =>
        match openHead inner with
        | .ident k :: more =>
          if k = "crate" ∨ k = "self" ∨ k = "super" then
            if more.isEmpty then .ok rest' else .ok rest
          else if k = "in" then do
            let (_, r) ← Raw.parseModPath more
            if r.isEmpty then .ok rest' else .error (.bail "unexpected token")
          else .ok rest
        | _ => .ok rest
      | _ => .ok rest
    | _ => .ok toks) := by
    unfold Raw.skipVis
    split
    · rename_i rest
      exact absurd rfl (hne rest)
    · rfl
  rw [hdef]
  clear hdef
  generalize openHead toks = o at hi hv
  have hself : (Except.ok toks : Res (List RT)).map visibleAll = .ok (visibleAll toks) := rfl
  generalize visibleAll toks = v at hv hself
  cases hv with
  | nil => exact hself
  | punct => exact hself
  | lit => exact hself
  | group => exact hself
  | ident s rest =>
    by_cases hs : s = "pub"
    · subst hs
      have hi2 := inside_open hi.2
      have hv2 := view rest
      have hself2 : (Except.ok rest : Res (List RT)).map visibleAll = .ok (visibleAll rest) := rfl
      simp only [skipVis]
      generalize openHead rest = o2 at hi2 hv2
      generalize visibleAll rest = v2 at hv2 hself2
      cases hv2 with
      | nil => exact hself2
      | punct => exact hself2
      | lit => exact hself2
      | ident => exact hself2
      | group d inner rest' =>
        cases d with
        | brace => exact hself2
        | bracket => exact hself2
        | paren =>
          have hf : FullAll inner := hi2.1
          have hf3 := full_open hf
          have hv3 := view inner
          simp only
          generalize openHead inner = o3 at hf3 hv3
          generalize visibleAll inner = v3 at hv3 hself2
          cases hv3 with
          | nil => exact hself2
          | punct => exact hself2
          | lit => exact hself2
          | group => exact hself2
          | ident k more =>
            simp only
            by_cases hk : k = "crate" ∨ k = "self" ∨ k = "super"
            · rw [if_pos hk, if_pos hk, isEmpty_iff hf3.2]
              split
              · rfl
              · exact hself2
            · rw [if_neg hk, if_neg hk]
              by_cases hk2 : k = "in"
              · rw [if_pos hk2, if_pos hk2]
                have hp := parseModPath_same hf3.2
                match Raw.parseModPath more, hp with
                | .error e, hp => rw [show parseModPath (visibleAll more) = .error e from hp]; rfl
                | .ok (p, r), ⟨hp, hr⟩ =>
                  rw [hp]
                  simp only [bind, Except.bind]
                  rw [isEmpty_iff hr]
                  split <;> rfl
              · rw [if_neg hk2, if_neg hk2]
                exact hself2
    · have : skipVis (.ident s :: visibleAll rest) = .ok (.ident s :: visibleAll rest) := by
        unfold skipVis
        split
        · rename_i heq
          cases heq
          exact absurd rfl hs
        · rfl
      rw [this, ← hself]
      split
      · rename_i heq
        cases heq
        exact absurd rfl hs
      · rfl

end Groups

open Groups

/-- **C71** The arguments of `#[pin_project(..)]` mean the same, and are rejected with the same message, whether they are written
by hand or put together by a `macro_rules!` macro. -/
theorem C71_args (toks : List RT) (h : FullAll toks) : Raw.parseArgs toks = Args.parse (visibleAll toks) := parseArgs_same h

/-- **C71** So do the definitions to which `#[pin_project]` is applied: also if the visibility is a `$vis:vis` that matched
nothing, an empty group (which can only be followed by something other than a visibility). -/
theorem C71_attribute (attrs : List Attribute) (body : List RT) (h : FullInsideAll body)
    (hvis : ∀ rest, body = .group none [] :: rest → ∀ more, visibleAll rest ≠ .ident "pub" :: more) :
    Raw.parseInput attrs body = (parseInput ⟨attrs, visibleAll body⟩).map (fun _ => ()) := by
  have key : (Raw.skipVis body).map visibleAll = skipVis (visibleAll body) := by
    by_cases hb : ∃ rest, body = .group none [] :: rest
    · obtain ⟨rest, rfl⟩ := hb
      have hr := hvis rest rfl
      have e1 : visibleAll (.group none [] :: rest) = visibleAll rest := by simp [visibleAll, visible]
      have e2 : Raw.skipVis (.group none [] :: rest) = .ok rest := rfl
      rw [e1, e2]
      unfold skipVis
      split
      · rename_i heq
        exact absurd heq (hr _)
      · rfl
    · exact skipVis_same h (fun rest hr => hb ⟨rest, hr⟩)
  unfold Raw.parseInput parseInput
  simp only
  rw [← key]
  cases Raw.skipVis body with
  | error e => rfl
  | ok ahead =>
    simp only [bind, Except.bind, Except.map]
    rw [peekStructOrEnum_same]
    split
    · rfl
    · split
      · rfl
      · split <;> rfl

/-- **C71** An invisible group does not hide `packed`: the arguments of `#[repr(..)]` are accepted if and only if what one sees is a
list of arguments without `packed`. -/
theorem C71_repr (isStruct : Bool) (toks : List RT) (h : FullAll toks) :
    Raw.checkRepr isStruct toks = .ok () ↔
      ∃ ms, MetasToks ms (visibleAll toks) ∧ ∀ m ∈ ms, isPacked m = false := by
  have hc := checkPacked_ok (b := isStruct) (attrs := [⟨.list { segs := ["repr"] } .paren (visibleAll toks)⟩])
  have e1 : reprArgs ⟨.list { segs := ["repr"] } .paren (visibleAll toks)⟩ = some (visibleAll toks) := rfl
  simp only [List.mem_singleton, forall_eq, e1, Option.some.injEq, forall_eq'] at hc
  rw [← hc, checkRepr_same isStruct h]
  simp only [checkPacked]
  rw [if_pos (by rfl)]
  cases parseMetas (visibleAll toks).length (visibleAll toks) with
  | error e => exact Iff.rfl
  | ok ms =>
    simp only [bind, Except.bind]
    cases checkReprs isStruct ms with
    | error e => exact Iff.rfl
    | ok u => exact Iff.rfl

/-- **C71** The exception: `#[pinned_drop] impl PinnedDrop for $t` is rejected if `$t` was matched as a type. Its type is an
invisible group, not a path (`Type::Group`, which is a node of its own in the syntax tree). -/
theorem C71_pinned_drop (args : List TT) (input : ItemImpl) (t : Node) (h : input.selfTy = .other "group" [t]) :
    ∃ msg, pinnedDropAttribute args input = .compileError msg none := by
  have hn : input.selfTy.isTyPath = false := by rw [h]; rfl
  have key : ∃ msg, (do
      if !args.isEmpty then .error (.bail "unexpected argument")
      else do
        validateImpl input
        expandImpl input : Res PinnedDropImpl) = .error (.bail msg) := by
    split
    · exact ⟨_, rfl⟩
    · unfold validateImpl
      simp only [hn, Bool.not_false, if_true]
      repeat' split
      all_goals exact ⟨_, rfl⟩
  obtain ⟨msg, hm⟩ := key
  refine ⟨msg, ?_⟩
  unfold pinnedDropAttribute
  simp only
  rw [hm]
  simp only [hn]
  rfl

/-- `#[pin_project($a, $b)]`, where `$a:meta` is `project = Proj` and `$b:tt` .. is `!Unpin`. -/
def demoGroups : List RT :=
  [.group none [.ident "project", .punct '=' false, .ident "Proj"], .punct ',' false,
   .group none [.group none [.punct '!' false], .ident "Unpin"]]

example : FullAll demoGroups ∧
    visibleAll demoGroups = [.ident "project", .punct '=' false, .ident "Proj", .punct ',' false, .punct '!' false, .ident "Unpin"] ∧
    Raw.parseArgs demoGroups = .ok { project := some "Proj", unpinImpl := .negative } :=
  ⟨by simp [demoGroups, FullAll, Full], rfl, rfl⟩

/-- Without the hypothesis it is false: an empty invisible group at the end is not seen, but counts. -/
example : Args.parse (visibleAll [.ident "PinnedDrop", .group none []]) = .ok { pinnedDrop := true } ∧
    Raw.parseArgs [.ident "PinnedDrop", .group none []] = .error (.bail "expected `,`") := ⟨rfl, rfl⟩

/-- `$vis struct S { .. }`, without a visibility and with `pub(crate)`. -/
example : Raw.parseInput [] [.group none [], .ident "struct", .ident "S", .group (some .brace) []] = .ok () ∧
    Raw.parseInput [] [.group none [.ident "pub", .group (some .paren) [.ident "crate"]], .ident "struct", .ident "S",
      .group (some .brace) []] = .ok () ∧
    FullInsideAll [.group none [], .ident "struct", .ident "S", .group (some .brace) []] :=
  ⟨rfl, rfl, by simp [FullInsideAll, FullInside, FullAll]⟩

/-- `#[repr($r)]`, where `$r:meta` is `packed(2)`. -/
example : FullAll [.group none [.ident "packed", .group (some .paren) [.lit "2"]]] ∧
    Raw.checkRepr true [.group none [.ident "packed", .group (some .paren) [.lit "2"]]] =
      .error (.bail "#[pin_project] attribute may not be used on #[repr(packed)] types") :=
  ⟨by simp [FullAll, Full], rfl⟩

/-- An impl that is accepted, but not if its type is a `$t:ty` that is the same type. -/
example : (∃ out, pinnedDropAttribute [] demoImpl = .expanded out) ∧
    pinnedDropAttribute [] { demoImpl with selfTy := .other "group" [demoImpl.selfTy] } =
      .compileError "implementing the trait `PinnedDrop` on this type is unsupported" none :=
  ⟨⟨_, rfl⟩, rfl⟩

end PinProject
