import Verif.Model.Base
import Verif.Model.Codes
import Verif.Model.CommandLine
import Verif.Model.Error
import Verif.Model.ForwardRef
import Verif.Model.Generator
import Verif.Model.Hash
import Verif.Model.IO
import Verif.Model.Lexer
import Verif.Model.Links
import Verif.Model.Main
import Verif.Model.Memory
import Verif.Model.Opcode
import Verif.Model.Options
import Verif.Model.Parser
import Verif.Model.Pointers
import Verif.Model.Prime
import Verif.Model.Process
import Verif.Model.Steps
import Verif.Model.SymTab
import Verif.Model.Unsigned
import Verif.Spec.Append
import Verif.Spec.Assembler
import Verif.Spec.Change
import Verif.Spec.Changing
import Verif.Spec.Check
import Verif.Spec.Concurrent
import Verif.Spec.Crash
import Verif.Spec.Cut
import Verif.Spec.Diagnostic
import Verif.Spec.Disassemble
import Verif.Spec.Equivalence
import Verif.Spec.Files
import Verif.Spec.Insert
import Verif.Spec.LexFault
import Verif.Spec.Linked
import Verif.Spec.Machine
import Verif.Spec.Messages
import Verif.Spec.Modules
import Verif.Spec.OpTable
import Verif.Spec.Parts
import Verif.Spec.Pieces
import Verif.Spec.Program
import Verif.Spec.Reference
import Verif.Spec.Relocate
import Verif.Spec.Rename
import Verif.Spec.Same
import Verif.Spec.SynFault
import Verif.Spec.Syntax
import Verif.Spec.Truncate
import Verif.Spec.WriteLog
import Verif.Proofs.Alike
import Verif.Proofs.AnyRun
import Verif.Proofs.Append
import Verif.Proofs.BadLine
import Verif.Proofs.Bytes
import Verif.Proofs.Change
import Verif.Proofs.Changing
import Verif.Proofs.Codes1
import Verif.Proofs.Codes2
import Verif.Proofs.Codes3
import Verif.Proofs.Congr
import Verif.Proofs.Diag
import Verif.Proofs.Equiv
import Verif.Proofs.Files
import Verif.Proofs.Files2
import Verif.Proofs.Final
import Verif.Proofs.FloorSqrt
import Verif.Proofs.ForwardRef
import Verif.Proofs.Hash
import Verif.Proofs.HashRun
import Verif.Proofs.IO
import Verif.Proofs.Image
import Verif.Proofs.Insert
import Verif.Proofs.Lex
import Verif.Proofs.LexCut
import Verif.Proofs.LexFault
import Verif.Proofs.LexFault2
import Verif.Proofs.LexFault3
import Verif.Proofs.LexForms
import Verif.Proofs.LexSpec
import Verif.Proofs.LexUnique
import Verif.Proofs.LineFacts
import Verif.Proofs.Linked
import Verif.Proofs.Low1
import Verif.Proofs.Low10
import Verif.Proofs.Low11
import Verif.Proofs.Low12
import Verif.Proofs.Low13
import Verif.Proofs.Low14
import Verif.Proofs.Low15
import Verif.Proofs.Low2
import Verif.Proofs.Low3
import Verif.Proofs.Low4
import Verif.Proofs.Low5
import Verif.Proofs.Low6
import Verif.Proofs.Low7
import Verif.Proofs.Low8
import Verif.Proofs.Low9
import Verif.Proofs.Memory
import Verif.Proofs.MemoryCost
import Verif.Proofs.MemoryGrow
import Verif.Proofs.MemoryRun
import Verif.Proofs.MemorySim
import Verif.Proofs.MemoryTop
import Verif.Proofs.Messages
import Verif.Proofs.Messages2
import Verif.Proofs.Messages3
import Verif.Proofs.Messages4
import Verif.Proofs.Modes
import Verif.Proofs.Modules
import Verif.Proofs.Numbers
import Verif.Proofs.OnePass
import Verif.Proofs.Out
import Verif.Proofs.ParseFacts
import Verif.Proofs.Parts
import Verif.Proofs.Pieces
import Verif.Proofs.Prime
import Verif.Proofs.Process
import Verif.Proofs.ProcessLog
import Verif.Proofs.Program
import Verif.Proofs.Program2
import Verif.Proofs.Program3
import Verif.Proofs.Program4
import Verif.Proofs.Reference1
import Verif.Proofs.Reference2
import Verif.Proofs.Reference3
import Verif.Proofs.Reference4
import Verif.Proofs.Relocate
import Verif.Proofs.Rename
import Verif.Proofs.Result
import Verif.Proofs.Sim
import Verif.Proofs.Sim2
import Verif.Proofs.Sim3
import Verif.Proofs.Sim4
import Verif.Proofs.SpecFacts
import Verif.Proofs.Step
import Verif.Proofs.Steps
import Verif.Proofs.StepsLex
import Verif.Proofs.StepsRun
import Verif.Proofs.StepsTable
import Verif.Proofs.SymTab
import Verif.Proofs.SynFault
import Verif.Proofs.SynSpec
import Verif.Proofs.Syntax
import Verif.Proofs.Truncate
import Verif.Proofs.Twin
import Verif.Proofs.TwoPass
import Verif.Proofs.Unsigned
import Verif.Proofs.UnsignedAcc
import Verif.Proofs.UnsignedRun
import Verif.Proofs.Whole
import Verif.Props.C01_Literals
import Verif.Props.C03_Names
import Verif.Props.C04_CaseInsensitive
import Verif.Props.C04_Chars
import Verif.Props.C05_Layout
import Verif.Props.C06_Lexing
import Verif.Props.C10_Syntax
import Verif.Props.C12_Modes
import Verif.Props.C12_Runs
import Verif.Props.C13_Opcodes
import Verif.Props.C15_Encoding
import Verif.Props.C17_SymbolTable
import Verif.Props.C19_NextPrime
import Verif.Props.C20_Labels
import Verif.Props.C20_Uses
import Verif.Props.C21_Runs
import Verif.Props.C23_Forward
import Verif.Props.C24_Unresolved
import Verif.Props.C26_TwoPass
import Verif.Props.C27_Undamaged
import Verif.Props.C28_Image
import Verif.Props.C29_AnyText
import Verif.Props.C30_End
import Verif.Props.C31_Exit
import Verif.Props.C33_Diagnostics
import Verif.Props.C35_Limit
import Verif.Props.C37_Links
import Verif.Props.C39_LabelLines
import Verif.Props.C39_Messages
import Verif.Props.C40_LiteralNotation
import Verif.Props.C41_WriteLog
import Verif.Props.C42_Memory
import Verif.Props.C45_CommandLine
import Verif.Props.C46_Locality
import Verif.Props.C47_Renaming
import Verif.Props.C48_Messages
import Verif.Props.C49_AnyText
import Verif.Props.C49_Inlining
import Verif.Props.C50_Disassembly
import Verif.Props.C50_Sections
import Verif.Props.C51_Writable
import Verif.Props.C52_Leftover
import Verif.Props.C53_Size
import Verif.Props.C54_IO
import Verif.Props.C55_AnyText
import Verif.Props.C55_Bytes
import Verif.Props.C55_Crash
import Verif.Props.C56_Pointers
import Verif.Props.C57_Reference
import Verif.Props.C58_Relocate
import Verif.Props.C59_Append
import Verif.Props.C60_Modules
import Verif.Props.C61_Cost
import Verif.Props.C62_Constants
import Verif.Props.C63_Origins
import Verif.Props.C64_EqualNames
import Verif.Props.C65_Codes
import Verif.Props.C66_Forms
import Verif.Props.C67_Characters
import Verif.Props.C68_Prefix
import Verif.Props.C69_Execution
import Verif.Props.C70_Edit
import Verif.Props.C71_Addresses
import Verif.Props.C72_Before
import Verif.Props.C73_Time
import Verif.Props.C74_Char
import Verif.Props.C75_Hash
import Verif.Props.C76_Processes
import Verif.Props.C77_Changing
import Verif.Props.C78_Options
import Verif.Props.C79_Linked
import Verif.Props.C79_Parts
import Verif.Props.C80_Insert
import Verif.Props.C81_Files
import Verif.Props.C82_Change
import Verif.Props.C83_Same
import Verif.Props.Cases
import Verif.Props.Cases2
import Verif.Props.Conformance
import Verif.Props.Conformance2
import Verif.Props.Example
import Verif.Props.Reach
import Verif.Props.Shipped
