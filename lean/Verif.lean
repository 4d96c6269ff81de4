import Verif.Check.Base
import Verif.Check.Errors1
import Verif.Check.Errors2
import Verif.Check.Integers
import Verif.Check.Modules
import Verif.Check.Special
import Verif.Core.Ops
import Verif.Core.Syntax
import Verif.Core.Types
import Verif.Model.Cli
import Verif.Model.CliDebug
import Verif.Model.Copies
import Verif.Model.Debug
import Verif.Model.DebugCore
import Verif.Model.DebugErrors
import Verif.Model.Depth
import Verif.Model.Display
import Verif.Model.Drops
import Verif.Model.Encoders
import Verif.Model.Equality
import Verif.Model.Errors
import Verif.Model.Helpers
import Verif.Model.Instructions
import Verif.Model.Integer
import Verif.Model.Io
import Verif.Model.Module
import Verif.Model.Opcodes
import Verif.Model.OwnBuf
import Verif.Model.OwnExact
import Verif.Model.Sections
import Verif.Model.StdReaders
import Verif.Model.Steps
import Verif.Model.StepsBase
import Verif.Model.Target
import Verif.Model.TargetBase
import Verif.Model.Types
import Verif.Model.Usage
import Verif.Proof.AnyReader
import Verif.Proof.AnyReaderAll
import Verif.Proof.Assemble
import Verif.Proof.Bits
import Verif.Proof.Block
import Verif.Proof.Brief
import Verif.Proof.Calculus
import Verif.Proof.Calm
import Verif.Proof.CalmAll
import Verif.Proof.Clear
import Verif.Proof.CodeEntry
import Verif.Proof.Context
import Verif.Proof.ContextEnds
import Verif.Proof.Copies
import Verif.Proof.Curt
import Verif.Proof.CurtBase
import Verif.Proof.Cut
import Verif.Proof.Debug
import Verif.Proof.DebugBase
import Verif.Proof.DebugCompact
import Verif.Proof.DebugErrors
import Verif.Proof.DebugInstr
import Verif.Proof.DebugLines
import Verif.Proof.DebugModule
import Verif.Proof.DebugNames
import Verif.Proof.DebugStr
import Verif.Proof.DebugTypes
import Verif.Proof.Depth
import Verif.Proof.DepthOnly
import Verif.Proof.Drops
import Verif.Proof.DropsNone
import Verif.Proof.Duo
import Verif.Proof.DuoAll
import Verif.Proof.Encode
import Verif.Proof.Encoders
import Verif.Proof.Equality
import Verif.Proof.ErrPost
import Verif.Proof.Fault
import Verif.Proof.FaultExpr
import Verif.Proof.FaultInstr
import Verif.Proof.FaultLeaf
import Verif.Proof.FaultModule
import Verif.Proof.FaultSections
import Verif.Proof.FaultTypes
import Verif.Proof.FaultUtf8
import Verif.Proof.Helpers
import Verif.Proof.Ink
import Verif.Proof.InkModule
import Verif.Proof.InkTypes
import Verif.Proof.Insert
import Verif.Proof.Instr
import Verif.Proof.Lamp
import Verif.Proof.LastRead
import Verif.Proof.Leaf
import Verif.Proof.LeafG
import Verif.Proof.Leb
import Verif.Proof.LebErr
import Verif.Proof.Lines
import Verif.Proof.Log
import Verif.Proof.LogAll
import Verif.Proof.Mark
import Verif.Proof.MarkInstr
import Verif.Proof.MarkModule
import Verif.Proof.MarkTypes
import Verif.Proof.Module
import Verif.Proof.ModuleErr
import Verif.Proof.ModuleG
import Verif.Proof.Nesting
import Verif.Proof.NoFuel
import Verif.Proof.NoFuelAll
import Verif.Proof.Opens
import Verif.Proof.OpensModule
import Verif.Proof.OpensOnly
import Verif.Proof.Owes
import Verif.Proof.OwesAll
import Verif.Proof.OwnBuf
import Verif.Proof.OwnExact
import Verif.Proof.Pays
import Verif.Proof.PaysAll
import Verif.Proof.PaysModule
import Verif.Proof.Place
import Verif.Proof.Pushes
import Verif.Proof.Reader
import Verif.Proof.Sane
import Verif.Proof.Section
import Verif.Proof.Sections
import Verif.Proof.Shortest
import Verif.Proof.ShortestModule
import Verif.Proof.Size
import Verif.Proof.Spends
import Verif.Proof.SpendsAll
import Verif.Proof.Splice
import Verif.Proof.StdKeeps
import Verif.Proof.StdReaders
import Verif.Proof.StepsSame
import Verif.Proof.StepsSameAll
import Verif.Proof.Sticks
import Verif.Proof.Tables
import Verif.Proof.Tape
import Verif.Proof.TargetAt
import Verif.Proof.TargetGrown
import Verif.Proof.TargetModule
import Verif.Proof.TargetSame
import Verif.Proof.Text
import Verif.Proof.Texts
import Verif.Proof.Types
import Verif.Proof.Unambig
import Verif.Proof.Usage
import Verif.Proof.UsageNeeded
import Verif.Proof.Uses
import Verif.Proof.Utf8
import Verif.Props.AnyReader
import Verif.Props.Causes
import Verif.Props.Cli
import Verif.Props.Copies
import Verif.Props.Counts
import Verif.Props.Debug
import Verif.Props.DebugSample
import Verif.Props.Depth
import Verif.Props.Drops
import Verif.Props.Encoders
import Verif.Props.Equality
import Verif.Props.Fault
import Verif.Props.Headline
import Verif.Props.Insert
import Verif.Props.Instructions
import Verif.Props.Integers
import Verif.Props.LastRead
import Verif.Props.Layout
import Verif.Props.Length
import Verif.Props.Lines
import Verif.Props.Markers
import Verif.Props.Module
import Verif.Props.Names
import Verif.Props.Numbers
import Verif.Props.OwnBuf
import Verif.Props.OwnExact
import Verif.Props.Place
import Verif.Props.Position
import Verif.Props.Prompt
import Verif.Props.ReportLength
import Verif.Props.Reserved
import Verif.Props.Resources
import Verif.Props.Robust
import Verif.Props.RoundTrip
import Verif.Props.Sample
import Verif.Props.Sections
import Verif.Props.Shortest
import Verif.Props.Source
import Verif.Props.Splice
import Verif.Props.StdReaders
import Verif.Props.Steps
import Verif.Props.Streams
import Verif.Props.Target
import Verif.Props.Texts
import Verif.Props.Types
import Verif.Props.Unambiguous
import Verif.Props.Usage
import Verif.Props.Values
import Verif.Props.Witness
import Verif.Source.AgreeCli
import Verif.Source.AgreeInstr
import Verif.Source.AgreeLeaf
import Verif.Source.AgreeModule
import Verif.Source.AgreeSections
import Verif.Source.AgreeTypes
import Verif.Source.Base
import Verif.Source.Cli
import Verif.Source.CliPrelude
import Verif.Source.Instructions
import Verif.Source.Leaf
import Verif.Source.Module
import Verif.Source.Prelude
import Verif.Source.Sections
import Verif.Source.Types
import Verif.Spec.AnyReader
import Verif.Spec.Binary
import Verif.Spec.Context
import Verif.Spec.Debug
import Verif.Spec.Encode
import Verif.Spec.Equality
import Verif.Spec.Fault
import Verif.Spec.Headline
import Verif.Spec.Instr
import Verif.Spec.Layout
import Verif.Spec.Leb
import Verif.Spec.Length
import Verif.Spec.Lines
import Verif.Spec.Mark
import Verif.Spec.MarkOf
import Verif.Spec.Module
import Verif.Spec.Names
import Verif.Spec.Opcodes
import Verif.Spec.Opens
import Verif.Spec.OwnBuf
import Verif.Spec.OwnExact
import Verif.Spec.Place
import Verif.Spec.Reader
import Verif.Spec.Shortest
import Verif.Spec.Size
import Verif.Spec.Splice
import Verif.Spec.Steps
import Verif.Spec.Streams
import Verif.Spec.Texts
import Verif.Spec.Unambiguous
import Verif.Spec.Usage
