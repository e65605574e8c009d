import Verif.Spec.X86
/-!
# VMOVD and VMOVW (SDM and AVX10.2 specification)

`dir`: the destination is the xmm register in ModRM.reg; `vec`: a register in ModRM.rm is an xmm register.
-/
namespace Xbyak.X86

structure MovForm where
  dir : Bool
  vec : Bool
  bytes : Nat
  deriving DecidableEq, Repr

/-- No second source, no masking, no broadcast, 128 bits. -/
def plain128 (h : Head) : Bool :=
  h.vreg == 0 && h.L == 0 && !h.p66 && !h.pF2 && !h.pF3 && (h.space == .vex || h.aaa == 0 && !h.z && !h.b)

/-- VMOVD: (E)VEX.128.66.0F.W0 6E/7E; EVEX.128.F3.0F.W0 7E; EVEX.128.66.0F.W0 D6. -/
def vmovd (h : Head) : Option MovForm :=
  if plain128 h && h.map == 1 && !h.w && (h.space == .vex || h.space == .evex) then
    if h.pp == 1 && h.opcode == 0x6E then some ⟨true, false, 4⟩
    else if h.pp == 1 && h.opcode == 0x7E then some ⟨false, false, 4⟩
    else if h.space == .evex && h.pp == 2 && h.opcode == 0x7E then some ⟨true, true, 4⟩
    else if h.space == .evex && h.pp == 1 && h.opcode == 0xD6 then some ⟨false, true, 4⟩
    else none
  else none

/-- VMOVW: EVEX.128.66.MAP5.WIG 6E/7E; EVEX.128.F3.MAP5.W0 6E/7E. -/
def vmovw (h : Head) : Option MovForm :=
  if plain128 h && h.map == 5 && h.space == .evex then
    if h.pp == 1 && h.opcode == 0x6E then some ⟨true, false, 2⟩
    else if h.pp == 1 && h.opcode == 0x7E then some ⟨false, false, 2⟩
    else if h.pp == 2 && !h.w && h.opcode == 0x6E then some ⟨true, true, 2⟩
    else if h.pp == 2 && !h.w && h.opcode == 0x7E then some ⟨false, true, 2⟩
    else none
  else none

end Xbyak.X86
