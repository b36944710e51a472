import Verif.Model.Receiver
/-!
# pin-project-internal/src/utils.rs:89-107, 230-275: rewriting of tokens, with spans

`visitToks` (Model/Receiver) again, on tokens that carry spans of an arbitrary type `S`.
-/
namespace PinProject

/-- A token tree with its span. Simplification: a group has one span, for both delimiters. (utils.rs:262-267) -/
inductive PTok (S : Type)
  | ident (s : String) (sp : S)
  | punct (c : Char) (joint : Bool) (sp : S)
  | lit (s : String) (sp : S)
  | group (d : Delim) (ts : List (PTok S)) (sp : S)

variable {S : Type}

/-- utils.rs:102 `TokenTree::set_span`: of a group, only the span of the delimiters is changed. -/
def PTok.setSpan (sp : S) : PTok S → PTok S
  | .ident s _ => .ident s sp
  | .punct c j _ => .punct c j sp
  | .lit s _ => .lit s sp
  | .group d ts _ => .group d ts sp

/-- utils.rs:98-107 `respan_tokens`. `respan` (89-96) parses the result and it is printed again, which is assumed to give the same
tokens. -/
def respanToks (sp : S) (ts : List (PTok S)) : List (PTok S) := ts.map (PTok.setSpan sp)

/-- `quote_spanned!(span=> <#self_ty>)`. (utils.rs:248-249) -/
def angledAt (sp : S) (ts : List (PTok S)) : List (PTok S) := .punct '<' false sp :: ts ++ [.punct '>' false sp]

/-- Is the first token the character `c`? (utils.rs:242-247) -/
def headPunctP (c : Char) : List (PTok S) → Bool
  | .punct d _ _ :: _ => d == c
  | _ => false

/-- utils.rs:230-275 `visit_token_stream`, with `prepend_underscore_to_self` (364-370): the resulting tokens. `sty` is the type of
the receiver, as it was written. -/
def visitPlaced (sty : List (PTok S)) : List (PTok S) → List (PTok S)
  | [] => []
  | .ident s sp :: rest =>
    if s = "Self" then
      match rest with
      | .punct c true sp' :: rest' =>
        if c = ':' then
          (if headPunctP ':' rest' then angledAt sp (respanToks sp sty) else respanToks sp sty) ++
            .punct c true sp' :: visitPlaced sty rest'
        else respanToks sp sty ++ .punct c true sp' :: visitPlaced sty rest'
      | rest => respanToks sp sty ++ visitPlaced sty rest
    else .ident (prependUnderscore s) sp :: visitPlaced sty rest
  | .group d ts sp :: rest => .group d (visitPlaced sty ts) sp :: visitPlaced sty rest
  | .punct c j sp :: rest => .punct c j sp :: visitPlaced sty rest
  | .lit s sp :: rest => .lit s sp :: visitPlaced sty rest

/-- utils.rs:356-362 `contains_fn`. -/
def containsFnP : List (PTok S) → Bool
  | [] => false
  | .ident s _ :: rest => s == "fn" || containsFnP rest
  | .group _ ts _ :: rest => containsFnP ts || containsFnP rest
  | .punct _ _ _ :: rest => containsFnP rest
  | .lit _ _ :: rest => containsFnP rest

/-- utils.rs:344-353 `visit_macro_mut`. -/
def visitMacPlaced (sty toks : List (PTok S)) : List (PTok S) :=
  if containsFnP toks then toks else visitPlaced sty toks

end PinProject
