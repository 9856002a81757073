import Verif.Model.Access
import Verif.Model.Alu
import Verif.Model.Assembler
import Verif.Model.Basic
import Verif.Model.Cpu
import Verif.Model.CpuDetails
import Verif.Model.Decode
import Verif.Model.DecoderTable
import Verif.Model.Disasm
import Verif.Model.Exception
import Verif.Model.Fast
import Verif.Model.Ffi
import Verif.Model.Interp
import Verif.Model.InterpArith
import Verif.Model.InterpBit
import Verif.Model.InterpControl
import Verif.Model.InterpLogic
import Verif.Model.InterpMove
import Verif.Model.InterpShift
import Verif.Model.Isa
import Verif.Model.Run
import Verif.Model.Slices
import Verif.Model.StatusRegister
import Verif.Model.Types
import Verif.Spec.Machine
import Verif.Spec.Alu
import Verif.Spec.Instr
import Verif.Spec.Timing
import Verif.Spec.Isa
import Verif.Lemmas.Exec
import Verif.Lemmas.Operand
import Verif.Lemmas.Alu
import Verif.Lemmas.Rotate
import Verif.Lemmas.Shift
import Verif.Lemmas.Forms
import Verif.Lemmas.Bcd
import Verif.Lemmas.Sr
import Verif.Lemmas.InstrArith
import Verif.Lemmas.InstrLogic
import Verif.Lemmas.InstrBit
import Verif.Lemmas.InstrShift
import Verif.Lemmas.InstrControl
import Verif.Lemmas.InstrMove
import Verif.Lemmas.Table
import Verif.Lemmas.Decode
import Verif.Lemmas.Refine
import Verif.Spec.Claims
import Verif.Spec.OpcodeMap
import Verif.Spec.Step
import Verif.Lemmas.Claims
import Verif.Lemmas.Ends
import Verif.Lemmas.OpcodeMap
import Verif.Lemmas.SrWord
import Verif.Lemmas.Step
import Verif.Props.C01
import Verif.Props.C02
import Verif.Props.C03
import Verif.Props.C04
import Verif.Props.C09
import Verif.Props.Demo
import Verif.Spec.ClaimsBit
import Verif.Spec.ClaimsShift
import Verif.Lemmas.ClaimsShift
import Verif.Lemmas.Commute
import Verif.Lemmas.EndsBit
import Verif.Lemmas.EndsMul
import Verif.Lemmas.EndsShift
import Verif.Lemmas.Regs
import Verif.Props.C07
import Verif.Props.C08
import Verif.Props.C10
import Verif.Props.C11
import Verif.Props.C12
import Verif.Props.C13
import Verif.Lemmas.AnyStep
import Verif.Lemmas.Simulate
import Verif.Lemmas.Traverse
import Verif.Props.C25
import Verif.Spec.Alike
import Verif.Spec.Ram
import Verif.Lemmas.Alike
import Verif.Lemmas.AlikeSlices
import Verif.Lemmas.Ram
import Verif.Props.C33
import Verif.Props.C43
import Verif.Props.C44
import Verif.Lemmas.CpuModel
import Verif.Lemmas.EndsControl
import Verif.Props.C22
import Verif.Props.C23
import Verif.Props.C32
import Verif.Props.C38
import Verif.Props.C46
import Verif.Props.C47
import Verif.Props.C48
import Verif.Props.C49
import Verif.Spec.Length
import Verif.Lemmas.Legal
import Verif.Lemmas.LegalExec
import Verif.Lemmas.Length
import Verif.Props.C24
import Verif.Props.C40
import Verif.Props.C41
import Verif.Props.C42
import Verif.Spec.Named
import Verif.Lemmas.Named
import Verif.Lemmas.NamedExec
import Verif.Props.C14
import Verif.Spec.Contents
import Verif.Spec.Effective
import Verif.Spec.Operand
import Verif.Lemmas.Contents
import Verif.Lemmas.Shifts
import Verif.Lemmas.Stack
import Verif.Props.C15
import Verif.Props.C17
import Verif.Props.C20
import Verif.Props.C21
import Verif.Props.DemoRam
import Verif.Spec.RegList
import Verif.Lemmas.MovemRam
import Verif.Lemmas.ShiftsMove
import Verif.Props.C16
import Verif.Props.C18
import Verif.Spec.Exception
import Verif.Lemmas.Entry
import Verif.Lemmas.Pending
import Verif.Props.C19
import Verif.Props.C26
import Verif.Props.C27
import Verif.Spec.Loop
import Verif.Lemmas.Cost
import Verif.Props.C28
import Verif.Props.C29
import Verif.Props.C30
import Verif.Props.C31
import Verif.Props.C35
import Verif.Props.C36
import Verif.Props.C51
import Verif.Spec.Words
import Verif.Lemmas.Agree
import Verif.Lemmas.Takes
import Verif.Lemmas.WordFields
import Verif.Lemmas.Words
import Verif.Props.C34
import Verif.Props.C45
import Verif.Lemmas.Asm
import Verif.Lemmas.AsmFixed
import Verif.Lemmas.AsmShapes
import Verif.Props.C39
import Verif.Props.C39Fixed
import Verif.Spec.Chain
import Verif.Lemmas.Arrays
import Verif.Lemmas.Chain
import Verif.Lemmas.Decimal
import Verif.Props.C05
import Verif.Props.C06
import Verif.Props.C50
import Verif.Model.Generator
import Verif.Lemmas.Generator
import Verif.Lemmas.GeneratorCheck
import Verif.Lemmas.GeneratorTable
import Verif.Props.C37
import Verif.Props.C52
import Verif.Props.C53
import Verif.Model.Text
import Verif.Model.TextRun
import Verif.Spec.Reader
import Verif.Lemmas.Text
import Verif.Lemmas.TextDecode
import Verif.Lemmas.TextIsa
import Verif.Lemmas.TextLines
import Verif.Lemmas.TextPrint
import Verif.Props.C54
import Verif.Spec.Written
import Verif.Lemmas.Written
import Verif.Lemmas.WrittenExec
import Verif.Props.C55
import Verif.Spec.Access
import Verif.Lemmas.Access
import Verif.Lemmas.AccessExec
import Verif.Props.C56
import Verif.Spec.Cycles
import Verif.Lemmas.Cycles
import Verif.Props.C57
import Verif.Model.FfiCores
import Verif.Spec.Saved
import Verif.Lemmas.Saved
import Verif.Lemmas.Total
import Verif.Props.C42Runs
import Verif.Props.C58
import Verif.Props.C59
import Verif.Props.C60
import Verif.Spec.Decoded
import Verif.Spec.Listing
import Verif.Lemmas.Decoded
import Verif.Props.C61
import Verif.Props.C62
import Verif.Spec.Reassemble
import Verif.Lemmas.Form
import Verif.Lemmas.Reassemble
import Verif.Lemmas.ReassembleEa
import Verif.Lemmas.ReassembleFixed
import Verif.Props.C63
import Verif.Props.C64
import Verif.Model.Tool
import Verif.Spec.Tool
import Verif.Props.C65
import Verif.Model.Board
import Verif.Props.C66
import Verif.Spec.Panic
import Verif.Props.C67
import Verif.Model.GeneratorMain
import Verif.Spec.Fence
import Verif.Spec.Program
import Verif.Spec.SourceTable
import Verif.Lemmas.Fence
import Verif.Props.C68
import Verif.Props.C69
import Verif.Props.C70
import Verif.Spec.Interrupt
import Verif.Props.C71
import Verif.Props.C71Tick
import Verif.Model.Usize
import Verif.Spec.BigLoop
import Verif.Spec.LoopTime
import Verif.Spec.Nested
import Verif.Lemmas.BigLoop
import Verif.Lemmas.Bound
import Verif.Lemmas.LoopTime
import Verif.Lemmas.Recursion
import Verif.Props.C72
import Verif.Props.C73
import Verif.Props.C74
import Verif.Props.C75
import Verif.Spec.Fault
import Verif.Lemmas.Fault
import Verif.Lemmas.FaultExec
import Verif.Props.C76
import Verif.Model.CExample
import Verif.Spec.CExample
import Verif.Props.C77
import Verif.Spec.OddAddress
import Verif.Spec.Undo
import Verif.Props.C33Odd
import Verif.Props.C78
import Verif.Spec.Registers
import Verif.Lemmas.Others
import Verif.Lemmas.OthersExec
import Verif.Lemmas.OthersRun
import Verif.Props.C79
import Verif.Spec.Invariant
import Verif.Lemmas.Masked
import Verif.Props.C80
import Verif.Spec.Source
import Verif.Spec.SourceProgram
import Verif.Lemmas.SourceCases
import Verif.Lemmas.SourceProgram
import Verif.Lemmas.SourceStep
import Verif.Props.C81
import Verif.Model.BoardFfi
import Verif.Spec.Boards
import Verif.Props.C82
import Verif.Tests.Assembler
import Verif.Tests.Memory
import Verif.Tests.Operators
import Verif.Tests.Status
import Verif.Spec.Programs
import Verif.Lemmas.Programs
import Verif.Props.C83
import Verif.Spec.Cores
import Verif.Lemmas.Cores
import Verif.Lemmas.Lock
import Verif.Props.C84
import Verif.Spec.Territory
import Verif.Lemmas.Territory
import Verif.Props.C85
import Verif.Spec.Whole
import Verif.Lemmas.Whole
import Verif.Props.C86
import Verif.Spec.Compile
import Verif.Lemmas.Compile
import Verif.Lemmas.CompileExpr
import Verif.Lemmas.CompileMem
import Verif.Lemmas.CompileRun
import Verif.Lemmas.CompileStmt
import Verif.Props.C87
import Verif.Spec.Routines
import Verif.Lemmas.Routines
import Verif.Lemmas.RoutinesCmd
import Verif.Lemmas.RoutinesRun
import Verif.Props.C88
import Verif.Spec.Disturbed
import Verif.Lemmas.Disturbed
import Verif.Props.C89
import Verif.Model.Utils
import Verif.Spec.Utils
import Verif.Lemmas.Utils
import Verif.Props.C90
import Verif.Spec.Manual
import Verif.Lemmas.Manual
import Verif.Props.C91
import Verif.Model.Bench
import Verif.Props.C92
import Verif.Props.C35Fetch
import Verif.Spec.Opcodes
import Verif.Props.C57Trace
import Verif.Spec.CompileTime
import Verif.Lemmas.CompileTime
import Verif.Props.C93
import Verif.Props.C93Cycle
import Verif.Spec.RoutinesTime
import Verif.Lemmas.RoutinesTime
import Verif.Props.C93Routines
import Verif.Props.C93Interrupted
import Verif.Spec.InterruptTime
import Verif.Props.C94
import Verif.Spec.Secret
import Verif.Props.C95
import Verif.Spec.Clock
import Verif.Props.C96
