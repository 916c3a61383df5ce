import Verif.Model.Rust
import Verif.Model.AddressMap
import Verif.Model.Memory
import Verif.Model.Page
import Verif.Model.StepState
import Verif.Spec.Bus
import Verif.Proofs.Bus
import Verif.Proofs.BusMem
import Verif.Props.Bus
import Verif.Props.StepState
import Verif.Model.Mos.Cpu
import Verif.Spec.Mos6502
import Verif.Proofs.Mos6502
import Verif.Proofs.MosCanon
import Verif.Proofs.MosGenerate
import Verif.Proofs.MosEffect
import Verif.Proofs.MosStep
import Verif.Proofs.MosSample
import Verif.Proofs.MosArith
import Verif.Props.Mos.Arith
import Verif.Props.Mos.Status
import Verif.Props.Mos.Data
import Verif.Spec.MosStack
import Verif.Proofs.MosControl
import Verif.Proofs.MosStack
import Verif.Props.Mos.Control
import Verif.Props.Mos.Stack
import Verif.Spec.MosRun
import Verif.Model.Mos.Capture
import Verif.Proofs.MosRun
import Verif.Proofs.MosRel
import Verif.Props.Mos.Run
import Verif.Props.Mos.Reset
import Verif.Model.Mos.Demo
import Verif.Props.Mos.Demo
import Verif.Model.Chip8.U12
import Verif.Model.Chip8.Ring
import Verif.Model.Chip8.Display
import Verif.Model.Chip8.Register
import Verif.Model.Chip8.State
import Verif.Model.Chip8.Decode
import Verif.Model.Chip8.Operations
import Verif.Model.Chip8.Cpu
import Verif.Model.Chip8.Capture
import Verif.Spec.Chip8
import Verif.Proofs.Chip8Decode
import Verif.Proofs.Chip8Step
import Verif.Props.Chip8.Decode
import Verif.Props.Chip8.U12
import Verif.Props.Chip8.Ring
import Verif.Proofs.Chip8Effect
import Verif.Proofs.Chip8Sample
import Verif.Props.Chip8.Data
import Verif.Props.Chip8.Memory
import Verif.Props.Chip8.Control
import Verif.Spec.Chip8Font
import Verif.Proofs.Chip8Display
import Verif.Props.Chip8.Display
import Verif.Model.Chip8.Rng
import Verif.Props.Chip8.Rng
import Verif.Props.Chip8.Run
import Verif.Props.Chip8.Capture
import Verif.Props.Chip8.RunWorld
import Verif.Spec.Chip8Frame
import Verif.Props.Chip8.Frame
import Verif.Props.Chip8.Panic
import Verif.Spec.Builders
import Verif.Props.Builders
import Verif.Spec.MosOpcodes
import Verif.Props.Mos.Opcodes
import Verif.Spec.MosRef
import Verif.Proofs.MosRef
import Verif.Props.Mos.Reference
import Verif.Model.Mos.Peripheral
import Verif.Spec.MosTraffic
import Verif.Proofs.MosTraffic
import Verif.Props.Mos.Traffic
import Verif.Props.Mos.Peripheral
import Verif.Spec.Chip8Ref
import Verif.Proofs.Chip8Ref
import Verif.Props.Chip8.Reference
import Verif.Props.Chip8.FontLoad
import Verif.Spec.BusCalls
import Verif.Props.BusCalls
import Verif.Conformance.Basic
import Verif.Conformance.MosBasic
import Verif.Conformance.MosGenerate
import Verif.Conformance.MosRun
import Verif.Conformance.MosRun2
import Verif.Conformance.Chip8Basic
import Verif.Conformance.Chip8Ops
import Verif.Conformance.Chip8Rest
import Verif.Conformance.Bus
import Verif.Proofs.MosCycles
import Verif.Props.Mos.Throughput
import Verif.Spec.BusNest
import Verif.Props.BusNest
import Verif.Model.Chip8.U12Fmt
import Verif.Spec.Numeral
import Verif.Props.Chip8.U12Fmt
import Verif.Props.BusText
import Verif.Props.Mos.Alike
import Verif.Props.Chip8.Alike
import Verif.Props.Mos.Multibyte
import Verif.Props.Mos.Copy
import Verif.Props.Mos.Rom
import Verif.Props.Chip8.Rom
import Verif.Props.Mos.Periodic
import Verif.Props.Mos.Frame
import Verif.Props.Chip8.FrameRun
import Verif.Props.Chip8.Loops
import Verif.Props.Mos.Devices
import Verif.Props.Mos.Microcode
import Verif.Props.Chip8.Microcode
import Verif.Spec.Structured
import Verif.Proofs.Structured
import Verif.Props.Chip8.Structured
import Verif.Props.Mos.Structured
import Verif.Model.GenericMap
import Verif.Spec.GenericMap
import Verif.Props.GenericMap
import Verif.Props.MapText
import Verif.Spec.Recursive
import Verif.Proofs.Recursive
import Verif.Props.Mos.Recursive
import Verif.Spec.PanicText
import Verif.Props.PanicText
import Verif.Props.Fresh
import Verif.Proofs.Chip8Finite
import Verif.Props.Chip8.Periodic
import Verif.Proofs.Chip8Causes
import Verif.Props.Chip8.PanicText
import Verif.Proofs.Subroutine
import Verif.Props.Chip8.Subroutine
import Verif.Proofs.Timed
import Verif.Props.Mos.Timed
import Verif.Model.Live.Bus
import Verif.Model.Live.Device
import Verif.Model.Mos.Live.Helpers
import Verif.Model.Mos.Live.Arith
import Verif.Model.Mos.Live.Branch
import Verif.Model.Mos.Live.Compare
import Verif.Model.Mos.Live.Flag
import Verif.Model.Mos.Live.IncDec
import Verif.Model.Mos.Live.Jump
import Verif.Model.Mos.Live.Load
import Verif.Model.Mos.Live.Logic
import Verif.Model.Mos.Live.Shift
import Verif.Model.Mos.Live.Stack
import Verif.Model.Mos.Live.Store
import Verif.Model.Mos.Live.Transfer
import Verif.Model.Mos.Live.Generate
import Verif.Model.Mos.Live.Cpu
import Verif.Spec.LiveBus
import Verif.Proofs.LiveBus
import Verif.Proofs.LiveGenerate
import Verif.Proofs.LiveRun
import Verif.Proofs.LiveShared
import Verif.Props.Mos.Live
import Verif.Props.Mos.LivePanic
import Verif.Model.Chip8.Live.Operations
import Verif.Model.Chip8.Live.Cpu
import Verif.Spec.LiveChip8
import Verif.Proofs.LiveChip8
import Verif.Props.Chip8.Live
import Verif.Model.Chip8.Live.Generator
import Verif.Spec.Chip8Random
import Verif.Proofs.Chip8Random
import Verif.Props.Chip8.Random
import Verif.Spec.LivePrivate
import Verif.Props.Live
import Verif.Proofs.Chip8Rng
import Verif.Spec.Builds
import Verif.Proofs.Builds
import Verif.Props.Builds
import Verif.Spec.Relocate
import Verif.Proofs.MosRelocate
import Verif.Props.Mos.Relocate
import Verif.Spec.Chip8Time
import Verif.Props.Chip8.Time
import Verif.Props.Chip8.Split
import Verif.Spec.MosUses
import Verif.Proofs.MosUses
import Verif.Props.Mos.Uses
import Verif.Spec.Chip8Uses
import Verif.Proofs.Chip8Uses
import Verif.Props.Chip8.Uses
import Verif.Spec.Chip8Link
import Verif.Proofs.Chip8Link
import Verif.Props.Chip8.RunRel
import Verif.Props.Chip8.Link
import Verif.Spec.Chip8Rename
import Verif.Proofs.Chip8Rename
import Verif.Props.Chip8.Rename
import Verif.Spec.Listing
import Verif.Proofs.Listing
import Verif.Props.Listing
import Verif.Spec.MosMirror
import Verif.Proofs.MosMirror
import Verif.Props.Mos.Mirror
import Verif.Proofs.MosReorder
import Verif.Props.Mos.Reorder
import Verif.Proofs.Chip8Reorder
import Verif.Props.Chip8.Reorder
import Verif.Props.Mos.Repeat
import Verif.Props.Chip8.Repeat
import Verif.Props.Mos.Inverse
import Verif.Props.Chip8.Inverse
import Verif.Props.Mos.Dead
import Verif.Props.Chip8.Dead
import Verif.Model.Chip8.Nibbles
import Verif.Props.Chip8.Nibbles
import Verif.Props.Mos.Link
import Verif.Props.Mos.StackMove
import Verif.Props.Mos.Place
import Verif.Props.Chip8.LivePanic
import Verif.Props.Chip8.Place
import Verif.Spec.StructuredMap
import Verif.Proofs.StructuredMap
import Verif.Props.Agree
import Verif.Props.BuildsLive
import Verif.Props.Mos.Modes
import Verif.Props.Chip8.Drawing
import Verif.Spec.Checksum
import Verif.Proofs.Checksum
import Verif.Props.Mos.Checksum
import Verif.Props.Chip8.Checksum
import Verif.Spec.Registration
import Verif.Props.Registration
import Verif.Spec.MosTime
import Verif.Props.Mos.ConstantTime
import Verif.Spec.Flow
import Verif.Proofs.Flow
import Verif.Props.Chip8.Arrays
import Verif.Props.Mos.Arrays
import Verif.Props.ArraysAgree
import Verif.Spec.Sort
import Verif.Proofs.Sort
import Verif.Spec.LiveSplit
import Verif.Proofs.LiveSplit
import Verif.Props.LiveSplit
import Verif.Spec.Bound
import Verif.Proofs.MosBound
import Verif.Props.Mos.Bound
import Verif.Proofs.Chip8Bound
import Verif.Props.Chip8.Bound
import Verif.Spec.MosCounter
import Verif.Spec.Snapshot
import Verif.Proofs.MosCounter
import Verif.Props.Mos.BoundTight
import Verif.Props.Mos.Snapshot
import Verif.Spec.Chip8Counter
import Verif.Props.Chip8.BoundTight
import Verif.Spec.Console
import Verif.Proofs.Console
import Verif.Props.Mos.Console
import Verif.Props.Chip8.Console
import Verif.Props.Mos.Watch
import Verif.Props.Chip8.Watch
import Verif.Spec.Swap
import Verif.Props.Mos.Swap
import Verif.Spec.Chip8Swap
import Verif.Props.Chip8.Swap
import Verif.Spec.Chip8Host
import Verif.Props.Chip8.Host
import Verif.Spec.FlowTimed
import Verif.Spec.SortTimed
import Verif.Proofs.FlowTimed
import Verif.Props.Mos.ArraysTimed
import Verif.Props.SortCounted
import Verif.Props.Charts
import Verif.Props.Mos.ChartsTimed
import Verif.Props.Automata
import Verif.Props.Mos.Print
import Verif.Props.Turing
import Verif.Props.TuringTimed
import Verif.Spec.AutomatonTimed
import Verif.Proofs.AutomatonTimed
import Verif.Props.AutomataTimed
import Verif.Spec.Slices
import Verif.Props.Slices
import Verif.Spec.Frames
import Verif.Props.Chip8.Keys
import Verif.Spec.Mailbox
import Verif.Props.Mos.Mailbox
