import Verif.Gen
/-!
# Printing the code buffer

Models `CodeArray::dump`, xbyak.h 1225-1246, and `CodeGenerator::dump` of the test build, xbyak.h 3231-3235.  The text written to the standard
output is a list of characters; a read outside of the memory block is `none`.
-/
namespace Xbyak
namespace CA

/-- one digit of `printf("%02X")`, xbyak.h 1237 -/
def hexDigit (n : Nat) : Char := ['0', '1', '2', '3', '4', '5', '6', '7', '8', '9', 'A', 'B', 'C', 'D', 'E', 'F'].getD n '0'

/-- `printf("%02X", b)`, xbyak.h 1237 -/
def hex2 (b : Byte) : List Char := [hexDigit (b.toNat / 16), hexDigit (b.toNat % 16)]

/-- the inner loop over `j`, xbyak.h 1235-1239 -/
def dumpCols (mem : List Byte) (i disp : Nat) : List Nat → Option (List Char)
  | [] => some []
  | j :: t =>
    if j < disp then
      match mem[i * 16 + j]? with
      | none => none
      | some b => (dumpCols mem i disp t).map (hex2 b ++ ·)
    else dumpCols mem i disp t

/-- the outer loop over `i`, xbyak.h 1230-1245: `k` iterations are left -/
def dumpRows (mem : List Byte) : (k i remain : Nat) → Option (List Char)
  | 0, _, _ => some []
  | k + 1, i, remain =>
    let disp := if remain < 16 then remain else 16
    match dumpCols mem i disp (List.range 16) with
    | none => none
    | some row =>
      let remain := remain - disp
      if remain = 0 then some (row ++ ['\n'])
      else (dumpRows mem k (i + 1) remain).map (row ++ '\n' :: ·)

/-- xbyak.h 1225-1246 `CodeArray::dump` -/
def dump (c : CA) : Option (List Char) := dumpRows c.mem 4 0 c.size

end CA

namespace G

/-- xbyak.h 3231-3235 `CodeGenerator::dump` (XBYAK_TEST): the text and the state afterwards -/
def dump (doClear : Bool) (g : G) : Option (List Char × G) :=
  g.ca.dump.map fun s => (s, if doClear then { g with ca := { g.ca with size := 0 } } else g)

end G
end Xbyak
