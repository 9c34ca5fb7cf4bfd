import Verif.Model.Main
import Verif.Spec.Basic
import Verif.Proofs.Bits
import Verif.Proofs.AddrLaws
import Verif.Proofs.AddrMore
import Verif.Props.Addr
import Verif.Proofs.BitManip
import Verif.Props.BitManip
import Verif.Proofs.Net
import Verif.Props.Net
import Verif.Spec.Text
import Verif.Proofs.Text
import Verif.Proofs.AddrText
import Verif.Proofs.V6Display
import Verif.Proofs.V6RoundTrip
import Verif.Props.Text
import Verif.Spec.Regex
import Verif.Proofs.Regex
import Verif.Proofs.Parse
import Verif.Props.Parse
import Verif.Spec.Listing
import Verif.Proofs.Cli
import Verif.Proofs.Enumerate
import Verif.Props.Enumerate
import Verif.Proofs.Blocks
import Verif.Proofs.CidrBlocks
import Verif.Proofs.Derange
import Verif.Props.Derange
import Verif.Proofs.Comp
import Verif.Proofs.MinimizeSet
import Verif.Proofs.MinimizeMerge
import Verif.Proofs.Minimize
import Verif.Props.Minimize
import Verif.Props.Resize
import Verif.Spec.Output
import Verif.Proofs.Split
import Verif.Proofs.Color
import Verif.Proofs.Show
import Verif.Props.Show
import Verif.Props.Split
import Verif.Props.SplitExact
import Verif.Props.Commands
import Verif.Spec.Colors
import Verif.Proofs.ShowColors
import Verif.Props.Colors
import Verif.Props.Main
import Verif.Spec.Errors
import Verif.Proofs.Errors
import Verif.Props.Errors
import Verif.Model.Messages
import Verif.Model.Terminal
import Verif.Spec.Messages
import Verif.Spec.Terminal
import Verif.Proofs.Messages
import Verif.Proofs.Tidy
import Verif.Props.Messages
import Verif.Props.Terminal
import Verif.Props.Families
import Verif.Spec.Counts
import Verif.Proofs.Counts
import Verif.Spec.Complaints
import Verif.Spec.Wording
import Verif.Props.Complaints
import Verif.Props.Wording
import Verif.Spec.Rfc
import Verif.Proofs.Rfc
import Verif.Props.Rfc
import Verif.Props.Compose
import Verif.Props.RangeSize
import Verif.Props.ColorTest
import Verif.Props.MergeAll
import Verif.Props.Joining
import Verif.Props.Process
import Verif.Model.Pattern
import Verif.Spec.Pattern
import Verif.Props.Pattern
import Verif.Spec.Rounds
import Verif.Props.Rounds
import Verif.Model.Stdio
import Verif.Spec.Stdio
import Verif.Spec.Lines
import Verif.Proofs.Stdio
import Verif.Proofs.Lines
import Verif.Props.Lines
import Verif.Props.Stdio
import Verif.Spec.Columns
import Verif.Proofs.Columns
import Verif.Proofs.Readback
import Verif.Props.Columns
import Verif.Spec.Repro
import Verif.Proofs.Repro
import Verif.Props.Repro
import Verif.Props.Panics
import Verif.Props.Lists
import Verif.Props.Headings
import Verif.Props.Splitting
import Verif.Props.Program
import Verif.Props.Shared
import Verif.Model.Pad
import Verif.Props.Pad
import Verif.Props.InSteps
import Verif.Props.Usage
import Verif.Props.Maximal
import Verif.Props.AskLess
import Verif.Props.Room
import Verif.Props.Moved
import Verif.Props.Together
import Verif.Props.Alike
import Verif.Props.AnyMasks
import Verif.Props.WordSize
import Verif.Props.RangeCount
import Verif.Props.RangeShape
import Verif.Props.Added
import Verif.Props.Renaming
import Verif.Props.Widths
import Verif.Props.Requests
import Verif.Props.LineCount
import Verif.Props.CutOut
import Verif.Props.Agreement
import Verif.Props.Zeros
import Verif.Props.Tree
import Verif.Props.EqualParts
import Verif.Props.Permutes
import Verif.Props.BinaryColumn
import Verif.Witness.Base
import Verif.Witness.Networks
import Verif.Witness.Lists
import Verif.Witness.Splits
import Verif.Witness.Texts
import Verif.Witness.Runs
import Verif.Witness.Processes
import Verif.Props.Characters
import Verif.Props.Nested
import Verif.Props.FullText
import Verif.Props.UsageLines
import Verif.Conformance.Eval
import Verif.Conformance.Basic
import Verif.Conformance.Addr
import Verif.Conformance.Cidr
import Verif.Conformance.Net
import Verif.Conformance.Derange
import Verif.Conformance.Enumerate
import Verif.Conformance.Minimize
import Verif.Conformance.Resize
import Verif.Conformance.Split
import Verif.Conformance.Readme
