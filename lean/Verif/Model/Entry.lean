import Verif.Model.Derive
/-!
# pin-project-internal/src/pin_project/mod.rs and the entry points in pin-project-internal/src/lib.rs

`pinned_drop` (lib.rs:567-571) is `pinnedDropAttribute` in Model/PinnedDrop. Parsing the input of the
macros into syntax trees is done by `syn` and is not modelled.
-/
namespace PinProject

/-- What a macro produces for rustc. (lib.rs:485, 575) -/
inductive MacroOut (α : Type)
  /-- the generated code -/
  | code (out : α)
  /-- only `compile_error!(msg)` -/
  | compileError (msg : String)
  /-- the macro panicked; rustc reports an error -/
  | panicked (msg : String)
  deriving Inhabited

/-- mod.rs:14,18 `.unwrap_or_else(Error::into_compile_error)`. -/
def Res.toOut {α : Type} : Res α → MacroOut α
  | .ok a => .code a
  | .error (.bail m) => .compileError m
  | .error (.panic m) => .panicked m

/-- lib.rs:485-487 `pin_project`, mod.rs:13-15 `attribute`. -/
def pinProjectAttribute (args : List TT) (input : RawInput) : MacroOut RawInput :=
  Res.toOut (parseAttribute args input)

/-- lib.rs:575-577 `__pin_project_internal_derive`, mod.rs:17-19 `derive`. -/
def pinProjectDerive (item : Item) : MacroOut Expansion := Res.toOut (parseDerive item)

end PinProject
