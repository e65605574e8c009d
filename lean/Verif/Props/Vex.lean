import Verif.Vex
import Verif.Props.Legacy
/-!
# VEX-encoded instructions (C38)
-/
namespace Xbyak
open E

/-- The decoded head has no legacy prefix and the requested map, embedded prefix, W, L, opcode and second source. -/
structure VexOp (type : Ty) (r : Reg) (v : Option Reg) (code : Byte) (p67 : Bool) (h : X86.Head) : Prop where
  space : h.space = .vex
  map : h.map = mapOf type
  pp : h.pp = ppOf type
  w : h.w = type.has T_W1
  L : h.L = if vexL type r then 1 else 0
  opcode : h.opcode = code
  vreg : h.vreg = vIdx v
  p66 : h.p66 = false
  pF2 : h.pF2 = false
  pF3 : h.pF3 = false
  p67 : h.p67 = p67
  seg : h.seg = none

theorem gives_dbOpt {o : Option Byte} {w : List Act} {u : Unit} : (dbOpt o).Gives w u ↔ w = o.toList.map .byte := by
  cases o with
  | none => show (Pure.pure () : Enc Unit).Gives w u ↔ _
            rw [Enc.gives_pure]; simp
  | some b => show (Enc.db b).Gives w u ↔ _
              rw [Enc.gives_db]; simp

theorem modrm_reg (h : X86.Head) (vs : Bool) (n : Nat) (a b : BitVec 5) (t : List Byte) :
    X86.modrm h vs n (modRM 3 a b :: t) = some (a.extractLsb' 0 3, .reg (b.extractLsb' 0 3), t) := by
  unfold X86.modrm
  dsimp only
  rw [modRM_mod, modRM_reg, modRM_rm, if_pos rfl]

/-- Bit 4 clear: the number is rebuilt from bit 3 and the low bits. -/
theorem mk5_small {i : BitVec 5} (h : i.getLsbD 4 = false) : X86.mk5 false (i.getLsbD 3) (i.extractLsb' 0 3) = i := by
  rw [← h]; exact mk5_idx i

/-- C38, register operands: an accepted VEX instruction decodes to the requested map, prefix, W, L, opcode, destination, second source and
register source, followed by the immediate. -/
theorem c38_reg (r : Reg) (v : Option Reg) (base : Reg) (type : Ty) (code : Byte) (imm8 : Option Byte)
    (he : regEvex r v base type = false) {w : List Act} (hw : (opVex r v (.reg base) type code imm8).Gives w ()) :
    ∃ (bs : List Byte) (h : X86.Head) (reg rm : BitVec 3), w = bs.map .byte ∧
      (∀ t, X86.insn false 1 (bs ++ t) = some (⟨h, reg, .reg rm⟩, imm8.toList ++ t)) ∧
      VexOp type r v code false h ∧ X86.regNum h reg = r.idx ∧ X86.rmVec h rm = base.idx ∧ X86.rmGpr h rm = base.idx := by
  unfold opVex at hw
  dsimp only at hw
  rw [if_neg (by rw [he]; decide)] at hw
  simp only [Enc.gives_bind, vex_gives, setModRM, Enc.gives_db, gives_dbOpt] at hw
  obtain ⟨_, _, _, ⟨⟨h1, h2, h3⟩, rfl⟩, ⟨_, _, _, rfl, rfl, rfl⟩, rfl⟩ := hw
  refine ⟨vexBytes r base v type code false ++ ([modRM 3 r.idx base.idx] ++ imm8.toList), vexHead r base v type code false false,
    r.idx.extractLsb' 0 3, base.idx.extractLsb' 0 3, by simp, fun t => ?_, ⟨rfl, rfl, rfl, rfl, rfl, rfl, rfl, rfl, rfl, rfl, rfl, rfl⟩,
    mk5_small h2, mk5_small h3, mk5_small h3⟩
  unfold X86.insn
  have e := head_vex r base v type code false false h1 (modRM 3 r.idx base.idx :: (imm8.toList ++ t))
  have eb : (vexBytes r base v type code false ++ ([modRM 3 r.idx base.idx] ++ imm8.toList) ++ t) =
      X86.opt false 0x67 ++ (vexBytes r base v type code false ++ (modRM 3 r.idx base.idx :: (imm8.toList ++ t))) := by
    simp [X86.opt]
  rw [eb, e]
  dsimp only
  rw [modrm_reg]

/-- What `opVex` does to its copy of the address before `opAddr` (xbyak.h 2517-2519). -/
def vexAddr (a : Addr) (type : Ty) (n : Nat) (imm8 : Option Byte) : Addr :=
  { a with permitVsib := a.permitVsib || type.has T_VSIB, disp8N := if n ≠ 0 then n else a.disp8N
           immSize := if imm8.isSome then 1 else a.immSize }

theorem vexAddr_wf {a : Addr} (h : a.WF) (type : Ty) (n : Nat) (imm8 : Option Byte) : (vexAddr a type n imm8).WF := ⟨h.exp, h.rip, h.kind⟩

/-- The address as it is encoded: `immSize` counts the trailing immediate. -/
def Addr.withImm (a : Addr) (imm8 : Option Byte) : Addr := { a with immSize := if imm8.isSome then 1 else a.immSize }

theorem wf_index' {a : Addr} (ha : a.WF) (ht : a.e.index.kind ≠ .tmm) : a.e.index = .nil ∨ a.e.index.kind = .reg ∨ a.e.index.isSIMD = true := by
  by_cases hm : a.mode = .modRM
  · rcases (ha.exp hm).1.index with h | h | h | h | h | h
    · exact .inl h
    · exact .inr (.inl h.1)
    · exact .inr (.inr (by simp [Reg.isSIMD, Reg.isXMM, h.1]))
    · exact .inr (.inr (by simp [Reg.isSIMD, Reg.isYMM, h.1]))
    · exact .inr (.inr (by simp [Reg.isSIMD, Reg.isZMM, h.1]))
    · exact absurd h.1 ht
  · exact .inl (ha.rip hm).2

/-- The base register that is encoded is a general register or absent. -/
theorem enc_base {a : Addr} (ha : a.WF) : a.getRegExp.base = .nil ∨ a.getRegExp.base.kind = .reg := by
  by_cases hm : a.mode = .modRM
  · rcases (getRegExp_wf (ha.exp hm).1).base with h | h
    · exact .inl h
    · exact .inr h.1
  · rw [nil_getRegExp a (ha.rip hm)]; exact .inl (ha.rip hm).1

/-- C38, memory operands: an accepted VEX instruction decodes to the requested fields and address.
Partial: excluded are `ptr[uint64_t]` operands (`c38_refuted_disp64`), vector index registers above 15 (`c38_refuted_vsib`) and tile
registers used as index (`c32_refuted_tile`), for which the accepted bytes mean something else. -/
theorem c38_mem_partial (r : Reg) (v : Option Reg) (a : Addr) (ha : a.WF) (hn : a.disp8N = 0) (ht : a.e.index.kind ≠ .tmm)
    (hd : a.mode ≠ .disp64) (hv : a.e.index.isSIMD = true → a.e.index.idx.toNat < 16) (type : Ty) (code : Byte) (imm8 : Option Byte)
    (he : memEvex r v a type = false) {w : List Act} (hw : (opVex r v (.mem a) type code imm8).Gives w ()) (fill : Act → BitVec 32) :
    ∃ (h : X86.Head) (reg : BitVec 3) (m : X86.Mem),
      (∀ t, X86.insn a.e.index.isSIMD 1 (concr fill w ++ t) = some (⟨h, reg, .mem m⟩, imm8.toList ++ t)) ∧
      VexOp type r v code a.is32bit h ∧ X86.regNum h reg = r.idx ∧ (a.withImm imm8).Means fill h m := by
  unfold opVex at hw
  dsimp only at hw
  rw [if_neg (by rw [he]; decide)] at hw
  rw [Enc.dbIf_bind] at hw
  obtain ⟨w1, rfl, hw⟩ := hw
  simp only [Enc.gives_bind, vex_gives, gives_dbOpt, Enc.gives_pure] at hw
  obtain ⟨_, _, _, ⟨⟨h1, h2, h3⟩, rfl⟩, ⟨_, _, _, ⟨rfl, rfl⟩, ⟨_, _, _, hw, rfl, rfl⟩, rfl⟩, rfl⟩ := hw
  have hw : (opAddr (vexAddr a type 0 imm8) r.idx).Gives _ () := hw
  have hb := enc_base ha
  have ix := (getRegExp_index a).1
  have hr2 : a.hasRex2 = false := by
    unfold memEvex at he
    simp only [Bool.or_eq_false_iff] at he
    exact he.2
  have hi4 : a.e.index.idx.getLsbD 4 = false := by
    rcases wf_index' ha ht with h | h | h
    · rw [h]; rfl
    · have := bit4_rex2 (.inr h)
      cases h4 : a.e.index.idx.getLsbD 4 with
      | false => rfl
      | true => have h5 := this h4
                unfold Addr.hasRex2 at hr2; rw [h5] at hr2; simp at hr2
    · have h16 : ∀ i : BitVec 5, i.toNat < 16 → i.getLsbD 4 = false := by decide +kernel
      exact h16 _ (hv h)
  have hh : HeadFor (vexHead r a.getRegExp.base v type code a.getRegExp.index.isExtIdx a.is32bit) (vexAddr a type 0 imm8).getRegExp := by
    refine ⟨fun _ => ⟨rfl, h3.symm⟩, rfl, fun _ => ?_, fun _ => ?_, is32bit_getRegExp a⟩
    · show false = a.getRegExp.index.idx.getLsbD 4
      rw [ix, hi4]
    · show (vIdx v).getLsbD 4 = a.getRegExp.index.idx.getLsbD 4
      rw [ix, hi4, h1]
  obtain ⟨m, hm, hme⟩ := opAddr_decode (vexAddr a type 0 imm8) (vexAddr_wf ha _ _ _) ht hd r.idx (.inl hn) hw _ hh fill
  refine ⟨vexHead r a.getRegExp.base v type code a.getRegExp.index.isExtIdx a.is32bit, r.idx.extractLsb' 0 3, m, fun t => ?_,
    ⟨rfl, rfl, rfl, rfl, rfl, rfl, rfl, rfl, rfl, rfl, rfl, rfl⟩, mk5_small h2, hme⟩
  have hm := hm (imm8.toList ++ t)
  have hn' : (vexAddr a type 0 imm8).disp8N = 0 := hn
  rw [hn', if_pos rfl] at hm
  have hm : X86.modrm _ a.e.index.isSIMD 1 _ = _ := hm
  unfold X86.insn
  have e := head_vex r a.getRegExp.base v type code a.getRegExp.index.isExtIdx a.is32bit h1
  simp only [concr_append, concr_bytes, List.append_assoc]
  have eo : (if a.is32bit = true then [103#8] else []) = X86.opt a.is32bit 0x67 := rfl
  show (match X86.head ((if a.is32bit = true then [103#8] else []) ++ _) with | none => none | some (h, t) => _) = _
  rw [eo, e]
  dsimp only
  rw [show concr fill [] = [] from rfl, List.nil_append, hm]

/-- `vaddps xmm1, xmm2, xmm3` = C5 E8 58 CB and `vaddps xmm9, xmm2, xmm11` = C4 41 68 58 CB -/
example : (opVex (.xmm 1) (some (.xmm 2)) (.reg (.xmm 3)) (T_0F ||| T_YMM) 0x58).acts = [0xC5, 0xE8, 0x58, 0xCB].map .byte ∧
    (opVex (.xmm 9) (some (.xmm 2)) (.reg (.xmm 11)) (T_0F ||| T_YMM) 0x58).acts = [0xC4, 0x41, 0x68, 0x58, 0xCB].map .byte := by
  decide +kernel

/-- Bug: `vaddps(xmm1, xmm2, ptr[(uint64_t)0x123456789abc])` is accepted and emits no ModRM byte (`opMR` refuses such operands). -/
theorem c38_refuted_disp64 : ∃ (a : Addr) (w : List Act), a.WF ∧ a.mode = .disp64 ∧
    (opVex (.xmm 1) (some (.xmm 2)) (.mem a) (T_0F ||| T_YMM) 0x58).Gives w () ∧ w = [0xC5, 0xE8, 0x58].map .byte := by
  refine ⟨{ o := { idx := 0, ext8 := false, kind := .mem, bit := 0 }, e := { base := .nil, index := .nil, scale := 0, disp := 0x123456789abc }, mode := .disp64 }, _, ⟨fun h => ?_, fun _ => ⟨rfl, rfl⟩, rfl⟩, rfl, ⟨rfl, rfl⟩, ?_⟩
  · cases h
  · decide +kernel

/-- Bug: `vgatherdps(xmm1, ptr[rax + xmm16*4], xmm3)` is accepted and encodes the index xmm0 (C4 E2 61 92 0C 80): VEX has no bit 4 for the
index and `vex` does not check it. -/
theorem c38_refuted_vsib : ∃ (a : Addr) (w : List Act), a.WF ∧ a.e.index = .xmm 16 ∧
    (opVex (.xmm 1) (some (.xmm 3)) (.mem a) (T_66 ||| T_0F38 ||| T_YMM ||| T_VSIB ||| T_W0) 0x92).Gives w () ∧
    ∃ i m, X86.insn true 1 (concr (fun _ => 0) w) = some (i, []) ∧ i.rm = .mem m ∧ m.index = some 0 := by
  refine ⟨{ o := { idx := 0, ext8 := false, kind := .mem, bit := 0 }, e := { base := .gp 0 64, index := .xmm 16, scale := 4, disp := 0 } }, _,
    ⟨fun _ => ⟨⟨?_, ?_, ?_⟩, rfl⟩, fun h => absurd rfl h, rfl⟩, rfl, ⟨rfl, rfl⟩, ?_⟩
  · exact .inr ⟨rfl, .inr rfl, rfl⟩
  · exact .inr (.inr (.inl ⟨rfl, rfl⟩))
  · exact fun _ => .inr (.inr (.inl rfl))
  · exact ⟨_, _, rfl, rfl, rfl⟩

end Xbyak
