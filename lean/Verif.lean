import Verif.Model.Derive
import Verif.Model.PinnedDrop
import Verif.Model.Emit
import Verif.Props.Arguments
import Verif.Props.Accept
import Verif.Props.Entry
import Verif.Props.ProjectReplace
import Verif.Props.Drop
import Verif.Props.History
import Verif.Props.Types
import Verif.Props.Layout
import Verif.Props.Coherence
import Verif.Props.PinnedDrop
import Verif.Props.SelfTypes
import Verif.Props.Headers
import Verif.Props.Typing
import Verif.Props.WellFormed
import Verif.Props.Sized
import Verif.Props.Bounds
import Verif.Props.Attrs
import Verif.Props.Capture
import Verif.Props.Shadow
import Verif.Props.Client
import Verif.Props.ClientUnique
import Verif.Props.ClientDemo
import Verif.Props.Ownership
import Verif.Props.Borrow
import Verif.Props.BorrowChain
import Verif.Props.BorrowLift
import Verif.Props.BorrowMiri
import Verif.Props.BorrowStacked
import Verif.Props.BorrowTree
import Verif.Props.BorrowUb
import Verif.Props.BorrowAgree
import Verif.Props.Conform
import Verif.Props.AutoTraits
import Verif.Props.Variance
import Verif.Spec.Privacy
import Verif.Props.Privacy
import Verif.Spec.Recursion
import Verif.Props.Recursion
import Verif.Spec.Errors
import Verif.Props.ErrorsArgs
import Verif.Props.Errors
import Verif.Props.TypeSyntax
import Verif.Props.Together
import Verif.Props.Cfg
import Verif.Test.Snapshots
import Verif.Test.Ui
import Verif.Test.UiPlaces
import Verif.Test.Run
import Verif.Model.Groups
import Verif.Spec.Groups
import Verif.Props.Groups
import Verif.Sem.StackedMiri
import Verif.Spec.BorrowHistory
import Verif.Props.BorrowShares
import Verif.Props.BorrowFrame
import Verif.Props.BorrowCalm
import Verif.Props.BorrowHistory
import Verif.Spec.Tokens
import Verif.Spec.Spans
import Verif.Props.Tokens
import Verif.Props.Spans
import Verif.Spec.Lints
import Verif.Props.Lints
import Verif.Spec.Grammar
import Verif.Props.Grammar
import Verif.Spec.Reader
import Verif.Spec.Meaning
import Verif.Props.Reader
import Verif.Props.GrammarDrop
import Verif.Spec.Provenance
import Verif.Props.Provenance
import Verif.Spec.DropText
import Verif.Props.DropText
import Verif.Spec.Cells
import Verif.Props.CellsFrame
import Verif.Props.CellsRules
import Verif.Props.Cells
import Verif.Model.Locate
import Verif.Spec.Locate
import Verif.Props.LocateErase
import Verif.Props.LocateArgs
import Verif.Props.Locate
import Verif.Spec.Constants
import Verif.Props.Constants
import Verif.Spec.Lookup
import Verif.Props.Lookup
import Verif.Spec.DropCheck
import Verif.Props.DropCheck
import Verif.Props.Calls
import Verif.Spec.Races
import Verif.Props.Races
import Verif.Spec.Docs
import Verif.Props.Docs
import Verif.Spec.Interleave
import Verif.Props.Interleave
import Verif.Spec.Independence
import Verif.Props.Independence
import Verif.Spec.Compiles
import Verif.Props.Compiles
import Verif.Spec.UnsafeCode
import Verif.Props.UnsafeCode
import Verif.Spec.Rename
import Verif.Props.Rename
import Verif.Spec.Retype
import Verif.Props.Retype
import Verif.Spec.Support
import Verif.Props.Support
import Verif.Spec.Choose
import Verif.Props.Choose
import Verif.Spec.VariantStruct
import Verif.Props.VariantStruct
import Verif.Spec.OwnName
import Verif.Props.OwnName
import Verif.Spec.OtherVariants
import Verif.Props.OtherVariants
import Verif.Spec.Nested
import Verif.Props.Nested
import Verif.Sem.DestroyDeep
import Verif.Spec.DestroyDeep
import Verif.Props.DestroyDeep
import Verif.Model.ReceiverSpans
import Verif.Spec.ReceiverSpans
import Verif.Props.ReceiverSpans
import Verif.Props.NestedReplace
import Verif.Model.TreeSpans
import Verif.Spec.TreeSpans
import Verif.Props.TreeSpans
import Verif.Spec.NestedUnpin
import Verif.Props.NestedUnpin
