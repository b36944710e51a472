import Verif.Model.Groups
/-!
# Specification: tokens without invisible groups
-/
namespace PinProject.Spec

mutual
/-- What one sees: the tokens as they would be written by hand. -/
def visible : RT → List TT
  | .group none ts => visibleAll ts
  | .group (some d) ts => [.group d (visibleAll ts)]
  | .ident s => [.ident s]
  | .punct c j => [.punct c j]
  | .lit s => [.lit s]
def visibleAll : List RT → List TT
  | [] => []
  | t :: ts => visible t ++ visibleAll ts
end

mutual
/-- No invisible group is empty. -/
def Full : RT → Prop
  | .group none ts => ts ≠ [] ∧ FullAll ts
  | .group (some _) ts => FullAll ts
  | .ident _ => True
  | .punct _ _ => True
  | .lit _ => True
def FullAll : List RT → Prop
  | [] => True
  | t :: ts => Full t ∧ FullAll ts
end

mutual
/-- No invisible group inside delimiters is empty; outside they may be. -/
def FullInside : RT → Prop
  | .group none ts => FullInsideAll ts
  | .group (some _) ts => FullAll ts
  | .ident _ => True
  | .punct _ _ => True
  | .lit _ => True
def FullInsideAll : List RT → Prop
  | [] => True
  | t :: ts => FullInside t ∧ FullInsideAll ts
end

end PinProject.Spec
