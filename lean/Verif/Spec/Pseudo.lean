import Verif.Mnemonic.Basic
/-!
# Predicates of floating-point comparisons and selectors of carry-less multiplication

Written from the Intel SDM (volume 2, CMPPD tables 3-1 to 3-3, PCLMULQDQ tables 4-12 and 4-13), independently of the assembler.
-/
namespace Xbyak
namespace X86

/-- The result of comparing two floating-point numbers. -/
inductive Cmp | gt | lt | eq | unordered
  deriving DecidableEq, Repr

/-- A comparison predicate: for which results it holds, and whether a quiet NaN raises the invalid exception. -/
structure Pred where
  gt : Bool
  lt : Bool
  eq : Bool
  un : Bool
  signals : Bool
  deriving DecidableEq, Repr

/-- Table 3-1: the predicate with number 0 to 15. -/
def predLow : List Pred :=
  [⟨false, false, true, false, false⟩, ⟨false, true, false, false, true⟩, ⟨false, true, true, false, true⟩, ⟨false, false, false, true, false⟩,
   ⟨true, true, false, true, false⟩, ⟨true, false, true, true, true⟩, ⟨true, false, false, true, true⟩, ⟨true, true, true, false, false⟩,
   ⟨false, false, true, true, false⟩, ⟨false, true, false, true, true⟩, ⟨false, true, true, true, true⟩, ⟨false, false, false, false, false⟩,
   ⟨true, true, false, false, false⟩, ⟨true, false, true, false, true⟩, ⟨true, false, false, false, true⟩, ⟨true, true, true, true, false⟩]

/-- Numbers 16 to 31 hold for the same results and signal the other way round. -/
def pred (n : Nat) : Option Pred :=
  if n < 16 then predLow[n]? else (predLow[n - 16]?).map fun p => { p with signals := !p.signals }

/-- A predicate given by the results for which it holds. -/
def holds (f : Cmp → Bool) (s : Bool) : Pred := ⟨f .gt, f .lt, f .eq, f .unordered, s⟩

/-- The eight predicates of SSE: equal, less than, less or equal, unordered, and their negations. -/
def ssePreds : List (Nat × Pred) :=
  [(n!"eq", holds (· == .eq) false), (n!"lt", holds (· == .lt) true), (n!"le", holds (fun c => c == .lt || c == .eq) true),
   (n!"unord", holds (· == .unordered) false), (n!"neq", holds (· != .eq) false), (n!"nlt", holds (· != .lt) true),
   (n!"nle", holds (fun c => !(c == .lt || c == .eq)) true), (n!"ord", holds (· != .unordered) false)]

/-- The 32 predicates of AVX: a relation (and its negation), `o`/`u`: false/true for unordered operands, `q`/`s`: quiet or signalling. -/
def avxPreds : List (Nat × Pred) := ssePreds ++
  [(n!"eq_uq", holds (fun c => c == .eq || c == .unordered) false), (n!"nge", holds (fun c => !(c == .gt || c == .eq)) true),
   (n!"ngt", holds (· != .gt) true), (n!"false", holds (fun _ => false) false),
   (n!"neq_oq", holds (fun c => c != .eq && c != .unordered) false), (n!"ge", holds (fun c => c == .gt || c == .eq) true),
   (n!"gt", holds (· == .gt) true), (n!"true", holds (fun _ => true) false),
   (n!"eq_os", holds (· == .eq) true), (n!"lt_oq", holds (· == .lt) false), (n!"le_oq", holds (fun c => c == .lt || c == .eq) false),
   (n!"unord_s", holds (· == .unordered) true), (n!"neq_us", holds (· != .eq) true), (n!"nlt_uq", holds (· != .lt) false),
   (n!"nle_uq", holds (fun c => !(c == .lt || c == .eq)) false), (n!"ord_s", holds (· != .unordered) true),
   (n!"eq_us", holds (fun c => c == .eq || c == .unordered) true), (n!"nge_uq", holds (fun c => !(c == .gt || c == .eq)) false),
   (n!"ngt_uq", holds (· != .gt) false), (n!"false_os", holds (fun _ => false) true),
   (n!"neq_os", holds (fun c => c != .eq && c != .unordered) true), (n!"ge_oq", holds (fun c => c == .gt || c == .eq) false),
   (n!"gt_oq", holds (· == .gt) false), (n!"true_us", holds (fun _ => true) true)]

/-- The formats of the comparisons. -/
def fmts : List Nat := [n!"pd", n!"ps", n!"sd", n!"ss"]

/-- Names glued together. -/
def glue (p s : Nat) : Nat := p * 256 ^ (Nat.log2 s / 8 + 1) + s

/-- The pseudo-ops of carry-less multiplication: which quadword of the first and of the second source is used (high?). -/
def clmulHalves : List (Nat × Bool × Bool) := [(n!"lqlq", false, false), (n!"hqlq", true, false), (n!"lqhq", false, true), (n!"hqhq", true, true)]

/-- Bits 0 and 4 of the immediate select the quadwords of the first and second source. -/
def clmulSel (i : BitVec 8) : Bool × Bool := (i.getLsbD 0, i.getLsbD 4)

/-- The mnemonics above that are SSE instructions without immediate operand. -/
def pseudos : List Nat :=
  (ssePreds.flatMap fun s => fmts.map fun x => glue (glue n!"cmp" s.1) x) ++ clmulHalves.map fun s => glue (glue n!"pclmul" s.1) n!"dq"

end X86
end Xbyak
