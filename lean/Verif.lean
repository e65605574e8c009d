import Verif.Basic
import Verif.Arith
import Verif.CodeArray
import Verif.Label
import Verif.Gen
import Verif.CodeArrayLemmas
import Verif.GenSafe
import Verif.Props.Buffer
import Verif.GenChar
import Verif.StepSafe
import Verif.Life
import Verif.Keep
import Verif.Props.Labels
import Verif.Spec.Asm
import Verif.Cells
import Verif.Refine
import Verif.RefineStep
import Verif.RefineEmit
import Verif.RefineOps
import Verif.RefineDef
import Verif.RefineRun
import Verif.RefineEnd
import Verif.SpecRun
import Verif.Lands
import Verif.ScopeRun
import Verif.Props.Refinement
import Verif.Props.LabelKinds
import Verif.Props.LabelMore
import Verif.Props.Jumps
import Verif.Props.Align
import Verif.Props.Failures
import Verif.Operand
import Verif.RegExp
import Verif.Enc
import Verif.EncOps
import Verif.Props.RegExp
import Verif.Spec.X86
import Verif.Sib
import Verif.Props.Address
import Verif.Head
import Verif.Legacy
import Verif.OpAddr
import Verif.Props.Legacy
import Verif.Spec.X86Ops
import Verif.Props.Imm
import Verif.Props.Stack
import Verif.Vex
import Verif.Props.Vex
import Verif.Props.Evex
import Verif.Spec.Machine
import Verif.StackFrame
import Verif.Props.StackFrame
import Verif.Props.Views
import Verif.Props.Branch
import Verif.Names
import Verif.Props.Names
import Verif.Errors
import Verif.Props.Errors
import Verif.Mem
import Verif.Props.Mem
import Verif.Cpu
import Verif.Spec.Cpuid
import Verif.Props.Cpu
import Verif.Props.Topology
import Verif.Mnemonic.All
import Verif.Apx
import Verif.Spec.Apx
import Verif.Props.Apx
import Verif.Props.Cond
import Verif.Props.Jcc
import Verif.Props.CondTable
import Verif.Props.Shift
import Verif.Spec.Cond
import Verif.Emit
import Verif.Props.Length
import Verif.Puts
import Verif.Props.Rip
import Verif.Sel
import Verif.SelTable
import Verif.Props.Distinct
import Verif.Spec.Pseudo
import Verif.Props.Pseudo
import Verif.High
import Verif.Props.High
import Verif.Spec.Manual
import Verif.Props.Manual
import Verif.Lower
import Verif.Reads
import Verif.Props.Roles
import Verif.Spec.Kinds
import Verif.LowerS
import Verif.Props.Sse
import Verif.Spec.Gp
import Verif.LowerG
import Verif.Props.Gp
import Verif.Spec.Fixed
import Verif.Props.Fixed
import Verif.Props.Fpu
import Verif.Props.TestImul
import Verif.Spec.Seg
import Verif.EncMore
import Verif.Props.Seg
import Verif.Pack
import Verif.Props.Pack
import Verif.Spec.Movd
import Verif.Props.Movd
import Verif.Called
import Verif.Props.Decor
import Verif.Spec.VecLen
import Verif.VecLen
import Verif.Props.VecLen
import Verif.Spec.Gather
import Verif.Props.Gather
import Verif.EncMode
import Verif.Spec.Encoding
import Verif.Props.Encoding
import Verif.Spec.Round
import Verif.Props.Round
import Verif.Spec.ApxForms
import Verif.LowerA
import Verif.Props.ApxForms
import Verif.Spec.Misc
import Verif.Props.Misc
import Verif.Props.SibMem
import Verif.Like
import Verif.LikeEnc
import Verif.LikeOps
import Verif.LikeLeaf
import Verif.LikeTab
import Verif.Props.Shape
import Verif.Accept
import Verif.Spec.Sizes
import Verif.AcceptGp
import Verif.AcceptSse
import Verif.Props.Accept
import Verif.Plain
import Verif.PlainLeaf
import Verif.PlainWeak
import Verif.Spec.VecForms
import Verif.AcceptVec
import Verif.AcceptVecChk
import Verif.Props.AcceptVec
import Verif.SoundVec
import Verif.SoundVecChk
import Verif.Props.SoundVec
import Verif.Spec.Masks
import Verif.AcceptMask
import Verif.AcceptMaskChk
import Verif.Props.Masks
import Verif.Dump
import Verif.Props.Dump
import Verif.Util
import Verif.Props.Util
import Verif.X32
import Verif.Spec.X32
import Verif.Dec32
import Verif.Props.X32
import Verif.Props.X32Accept
import Verif.AcceptGather
import Verif.Props.AcceptGather
import Verif.AcceptApx
import Verif.Props.AcceptApx
import Verif.AcceptCond
import Verif.Props.AcceptCond
import Verif.Spec.Direct
import Verif.Props.Direct
import Verif.Spec.Skip
import Verif.Skip
import Verif.Props.Stream
import Verif.Memfd
import Verif.Props.Memfd
import Verif.Spec.Run
import Verif.StackCode
import Verif.Props.Frame
import Verif.Spec.Mov
import Verif.Props.Mov
import Verif.Props.AcceptMov
import Verif.Spec.Lock
import Verif.Props.Boundary
import Verif.Spec.Prog
import Verif.ProgMem
import Verif.Props.Prog
