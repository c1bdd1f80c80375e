import Verif.Props.Fields
import Verif.Props.Structs
import Verif.Props.Views
import Verif.Props.Vectors
import Verif.Props.Storage
import Verif.Props.Interchange
import Verif.Props.ExtVectors
import Verif.Props.CrashExact
import Verif.Props.MvCrashExact
import Verif.Props.CloseExact
import Verif.Props.VecClose
import Verif.Props.VecReads
import Verif.Props.MultiViews
import Verif.Props.MultiVectors
import Verif.Props.MvClose
import Verif.Props.MvReads
import Verif.Props.Archives
import Verif.Props.Build
import Verif.Props.Format
import Verif.Props.Copy
import Verif.Props.Subarchives
import Verif.Props.Succeeds
import Verif.Props.Handles
import Verif.Props.Debug
import Verif.Spec.Interrupt
import Verif.Proofs.Interrupt
import Verif.Proofs.InterruptRun
import Verif.Props.Interrupt
import Verif.Model.Iter
import Verif.Spec.Iter
import Verif.Proofs.Iter
import Verif.Props.Iterators
import Verif.Props.Builder
import Verif.Spec.Client
import Verif.Proofs.Agree
import Verif.Props.Profiles
import Verif.Proofs.StraddleBits
import Verif.Props.FieldsExact
import Verif.Props.MultiExact
import Verif.Props.StorageExact
import Verif.Spec.Safe
import Verif.Proofs.SafePure
import Verif.Proofs.Safe
import Verif.Proofs.SafeArchive
import Verif.Props.Safe
import Verif.Model.Error
import Verif.Spec.Error
import Verif.Props.Errors
import Verif.Props.ViewsExact
import Verif.Spec.Neighbours
import Verif.Proofs.Neighbours
import Verif.Props.Neighbours
import Verif.Spec.Shared
import Verif.Proofs.Shared
import Verif.Proofs.SharedFiles
import Verif.Proofs.SharedWrite
import Verif.Proofs.SharedRun
import Verif.Proofs.SharedRead
import Verif.Props.Shared
import Verif.Props.Wide
import Verif.Proofs.Simulate
import Verif.Spec.Parallel
import Verif.Proofs.Parallel
import Verif.Props.Parallel
import Verif.Spec.Moved
import Verif.Proofs.Moved
import Verif.Props.Moved
import Verif.Spec.Looks
import Verif.Proofs.Looks
import Verif.Props.Looks
import Verif.Spec.Written
import Verif.Proofs.Written
import Verif.Props.Written
import Verif.Proofs.Stale
import Verif.Props.Rewrite
import Verif.Spec.Blind
import Verif.Proofs.Blind
import Verif.Props.Blind
import Verif.Proofs.WriteCalls
import Verif.Props.WriteCalls
import Verif.Model.Narrow
import Verif.Spec.Narrow
import Verif.Proofs.Narrow
import Verif.Props.Narrow
import Verif.Model.Borrow
import Verif.Spec.Session
import Verif.Proofs.Session
import Verif.Proofs.Borrow
import Verif.Props.Borrow
import Verif.Model.Owner
import Verif.Spec.Owner
import Verif.Proofs.Owner
import Verif.Props.Owner
import Verif.Props.StructsExact
import Verif.Props.DebugExact
import Verif.Model.NarrowWrite
import Verif.Spec.NarrowWrite
import Verif.Proofs.NarrowWrite
import Verif.Proofs.NarrowMulti
import Verif.Props.NarrowWrite
import Verif.Props.NarrowMulti
import Verif.Spec.Reports
import Verif.Proofs.Reports
import Verif.Props.Reports
import Verif.Spec.Power
import Verif.Proofs.Power
import Verif.Props.Power
import Verif.Spec.WrittenCut
import Verif.Proofs.WrittenCut
import Verif.Props.WrittenCut
import Verif.Proofs.Messages
import Verif.Spec.Messages
import Verif.Props.Messages
import Verif.Model.OsPath
import Verif.Spec.OsPath
import Verif.Proofs.OsPath
import Verif.Props.OsPath
import Verif.Model.Unwind
import Verif.Spec.Unwind
import Verif.Proofs.Unwind
import Verif.Props.Unwind
import Verif.Model.Capacity
import Verif.Spec.Capacity
import Verif.Proofs.Capacity
import Verif.Props.Capacity
import Verif.Model.OpenFiles
import Verif.Spec.OpenFiles
import Verif.Proofs.OpenFiles
import Verif.Props.OpenFiles
import Verif.Props.MoreExact
import Verif.Spec.Disturbed
import Verif.Spec.MDisturbed
import Verif.Proofs.Disturbed
import Verif.Proofs.MDisturbed
import Verif.Props.Disturbed
import Verif.Props.MDisturbed
import Verif.Spec.Crowded
import Verif.Proofs.Crowded
import Verif.Props.Crowded
import Verif.Spec.Peeked
import Verif.Spec.MPeeked
import Verif.Props.ReadsExact
import Verif.Props.MvReadsExact
import Verif.Props.IndepExact
