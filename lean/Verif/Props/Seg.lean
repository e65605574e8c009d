import Verif.EncMore
import Verif.Props.Imm
import Verif.Lower
import Verif.Spec.Seg
import Verif.Mnemonic.All
/-!
# bswap (C73) and segment registers (C74)
-/
namespace Xbyak
open E

/-! ## bswap -/

/-- The bytes of `bswap`. -/
def bswapExt (w : Bool) (i : BitVec 5) : X86.Ext :=
  { w := w, r3 := false, x3 := false, b3 := i.getLsbD 3, b4 := i.getLsbD 4, rex2 := i.getLsbD 4 }

/-- C73: `bswap(r)` never fails and decodes to BSWAP of exactly that register with its width. -/
theorem c73_bswap (r : Reg) (hk : r.kind = .reg) (hb : r.bit = 32 ∨ r.bit = 64) (fill : Act → BitVec 32) :
    ∃ w, (E.bswap r).Gives w () ∧ ∀ t, X86.bswap (concr fill w ++ t) = some (r.bit, r.idx, t) := by
  have hr : r.isREG 64 = (r.bit == 64) := by
    unfold Reg.isREG Reg.isBit; rw [hk]; rcases hb with h | h <;> rw [h] <;> decide
  have hq : E.bswap r = E.bswap (.gp r.idx (if r.bit == 64 then 64 else 32)) := by
    unfold E.bswap
    rw [hr]
    rcases hb with h | h <;> rw [h]
    · have : ∀ i, (Reg.gp i 32).isREG 64 = false := by decide +kernel
      simp [this]; rfl
    · have : ∀ i, (Reg.gp i 64).isREG 64 = true := by decide +kernel
      simp [this]; rfl
  refine ⟨((bswapExt (r.bit == 64) r.idx).bytes 1 (0xC8 ||| (r.idx &&& 7).setWidth 8)).map .byte, ?_, fun t => ?_⟩
  · rw [hq]
    generalize r.idx = i
    have key : ∀ (w : Bool) (i : BitVec 5), (E.bswap (.gp i (if w then 64 else 32))).acts =
        ((bswapExt w i).bytes 1 (0xC8 ||| (i &&& 7).setWidth 8)).map .byte ∧
        (match (E.bswap (.gp i (if w then 64 else 32))).res with | .ok _ => true | .error _ => false) = true := by decide +kernel
    obtain ⟨k1, k2⟩ := key (r.bit == 64) i
    unfold Enc.Gives
    cases hE : E.bswap (.gp i (if r.bit == 64 then 64 else 32)) with
    | mk a s =>
      rw [hE] at k1 k2
      cases s with
      | error e => cases k2
      | ok u => exact ⟨k1, rfl⟩
  · rw [concr_bytes]
    unfold X86.bswap
    have ho : ∀ i : BitVec 5, X86.OpcodeOK 1 (0xC8 ||| (i &&& 7).setWidth 8) := by decide +kernel
    have := X86.head_legacy false false false false (bswapExt (r.bit == 64) r.idx) 1 (by decide) (fun _ => by decide)
      (0xC8 ||| (r.idx &&& 7).setWidth 8) (ho _) t
    have this : X86.head ((bswapExt (r.bit == 64) r.idx).bytes 1 (0xC8 ||| (r.idx &&& 7).setWidth 8) ++ t) = some (_, t) := this
    rw [this]
    dsimp only
    have key : ∀ (w : Bool) (i : BitVec 5), let h := (bswapExt w i).head {} 1 (0xC8 ||| (i &&& 7).setWidth 8)
      ((h.space = .legacy ∨ h.space = .rex2) ∧ h.map = 1 ∧ h.opcode.extractLsb' 3 5 = 0x19 ∧ h.p66 = false ∧ h.pF2 = false ∧ h.pF3 = false) ∧
      X86.opBits h = (if w then 64 else 32) ∧ X86.mk5 h.b4 h.b3 (h.opcode.extractLsb' 0 3) = i := by decide +kernel
    obtain ⟨k1, k2, k3⟩ := key (r.bit == 64) r.idx
    rw [if_pos k1, k2, k3]
    rcases hb with h | h <;> rw [h] <;> rfl

/-- `bswap(r9)`, `bswap(r17d)` -/
example : E.bswap (.gp 9 64) = ⟨[.byte 0x49, .byte 0x0F, .byte 0xC9], .ok ()⟩ ∧
    E.bswap (.gp 17 32) = ⟨[.byte 0xD5, .byte 0x90, .byte 0xC9], .ok ()⟩ := ⟨rfl, rfl⟩

/-! ## Segment registers -/

theorem prefixes_seg (bs : List Byte) : ∀ (h : X86.Head) (s : Option Byte),
    X86.prefixes { h with seg := s } bs =
      ({ (X86.prefixes { h with seg := none } bs).1 with seg := (X86.prefixes { h with seg := none } bs).1.seg.or s },
        (X86.prefixes { h with seg := none } bs).2) := by
  induction bs with
  | nil => intro h s; rfl
  | cons c t ih =>
    intro h s
    unfold X86.prefixes
    by_cases h1 : c = 0x66
    · rw [if_pos h1, if_pos h1]; exact ih { h with p66 := true } s
    rw [if_neg h1, if_neg h1]
    by_cases h2 : c = 0xF2
    · rw [if_pos h2, if_pos h2]; exact ih { h with pF2 := true } s
    rw [if_neg h2, if_neg h2]
    by_cases h3 : c = 0xF3
    · rw [if_pos h3, if_pos h3]; exact ih { h with pF3 := true } s
    rw [if_neg h3, if_neg h3]
    by_cases h4 : c = 0x67
    · rw [if_pos h4, if_pos h4]; exact ih { h with p67 := true } s
    rw [if_neg h4, if_neg h4]
    by_cases h5 : c = 0x26 ∨ c = 0x2E ∨ c = 0x36 ∨ c = 0x3E ∨ c = 0x64 ∨ c = 0x65
    · rw [if_pos h5, if_pos h5]
      have := ih h (some c)
      show X86.prefixes { h with seg := some c } t = (_, (X86.prefixes { h with seg := some c } t).2)
      rw [this]
      dsimp only
      rw [Option.or_assoc]
      rfl
    · rw [if_neg h5, if_neg h5]; rfl

theorem after_seg (bs : List Byte) (h : X86.Head) (s : Option Byte) :
    X86.afterPrefixes { h with seg := s } bs = (X86.afterPrefixes h bs).map fun p => ({ p.1 with seg := s }, p.2) := by
  have ho : ∀ (h : X86.Head) bs, X86.opcode { h with seg := s } bs = (X86.opcode h bs).map fun p => ({ p.1 with seg := s }, p.2) := by
    intro h bs
    unfold X86.opcode
    repeat' split
    all_goals first | rfl | skip
  unfold X86.afterPrefixes
  cases bs with
  | nil => rfl
  | cons k t =>
    dsimp only
    by_cases h1 : k = 0xC5
    · rw [if_pos h1, if_pos h1]; split <;> rfl
    rw [if_neg h1, if_neg h1]
    by_cases h2 : k = 0xC4
    · rw [if_pos h2, if_pos h2]; split <;> rfl
    rw [if_neg h2, if_neg h2]
    by_cases h3 : k = 0x62
    · rw [if_pos h3, if_pos h3]; split <;> rfl
    rw [if_neg h3, if_neg h3]
    by_cases h4 : k = 0xD5
    · rw [if_pos h4, if_pos h4]; split <;> rfl
    rw [if_neg h4, if_neg h4]
    by_cases h5 : k.extractLsb' 4 4 = 4
    · rw [if_pos h5, if_pos h5]; exact ho (X86.withRex h k) t
    · rw [if_neg h5, if_neg h5]; exact ho h (k :: t)

/-- A segment prefix in front of an instruction without one. -/
theorem head_seg {bs t : List Byte} {h : X86.Head} (e : X86.head bs = some (h, t)) (hn : h.seg = none) {c : Byte}
    (hc : c = 0x26 ∨ c = 0x2E ∨ c = 0x36 ∨ c = 0x3E ∨ c = 0x64 ∨ c = 0x65) :
    X86.head (c :: bs) = some ({ h with seg := some c }, t) := by
  unfold X86.head at e ⊢
  dsimp only at e ⊢
  have e1 : X86.prefixes {} (c :: bs) = X86.prefixes { ({} : X86.Head) with seg := some c } bs := by
    rcases hc with h | h | h | h | h | h <;> subst h <;> rfl
  have e2 := prefixes_seg bs {} (some c)
  have e3 := after_seg (X86.prefixes {} bs).2 (X86.prefixes {} bs).1 (X86.prefixes {} bs).1.seg
  rw [e] at e3
  have e4 : h.seg = (X86.prefixes {} bs).1.seg := by
    have := congrArg (Option.map fun p : X86.Head × List Byte => p.1.seg) e3
    exact Option.some.inj this
  rw [e1, e2]
  dsimp only
  rw [after_seg]
  show (X86.afterPrefixes (X86.prefixes {} bs).1 (X86.prefixes {} bs).2).map _ = _
  rw [e, show ({ ({} : X86.Head) with seg := none } : X86.Head) = {} from rfl, ← e4, hn]
  rfl

/-- C74: `putSeg(fs)` and `putSeg(gs)` override the segment of the instruction that follows, and nothing else. -/
theorem c74_put_partial (seg : Nat) (hs : seg = 4 ∨ seg = 5) (bs : List Byte) (h : X86.Head) (t : List Byte)
    (e : X86.head bs = some (h, t)) (hn : h.seg = none) (fill : Act → BitVec 32) :
    ∃ w, (putSeg seg).Gives w () ∧ X86.head (concr fill w ++ bs) = some ({ h with seg := X86.segPrefix seg }, t) := by
  rcases hs with rfl | rfl
  · exact ⟨[.byte 0x64], ⟨rfl, rfl⟩, head_seg e hn (by decide)⟩
  · exact ⟨[.byte 0x65], ⟨rfl, rfl⟩, head_seg e hn (by decide)⟩

/-- C74 does not hold in full: `putSeg` of es, cs, ss, ds writes the prefix of cs, ss, ds, es. -/
theorem c74_refuted_put : ∀ seg < 4, ∃ c, putSeg seg = ⟨[.byte c], .ok ()⟩ ∧ X86.segPrefix seg ≠ some c ∧ X86.segPrefix ((seg + 1) % 4) = some c := by
  intro seg hs
  have : seg = 0 ∨ seg = 1 ∨ seg = 2 ∨ seg = 3 := by omega
  rcases this with rfl | rfl | rfl | rfl <;> exact ⟨_, rfl, by decide, rfl⟩

/-- C74: `push(seg)` and `pop(seg)` of fs and gs are PUSH and POP of that segment register. -/
theorem c74_stack_partial (seg : Nat) (hs : seg = 4 ∨ seg = 5) (fill : Act → BitVec 32) :
    (∃ w, (pushSeg seg).Gives w () ∧ ∀ t, X86.stackSeg (concr fill w ++ t) = some (true, seg, t)) ∧
    (∃ w, (popSeg seg).Gives w () ∧ ∀ t, X86.stackSeg (concr fill w ++ t) = some (false, seg, t)) := by
  rcases hs with rfl | rfl
  · exact ⟨⟨[.byte 0x0F, .byte 0xA0], ⟨rfl, rfl⟩, fun t => rfl⟩, ⟨[.byte 0x0F, .byte 0xA1], ⟨rfl, rfl⟩, fun t => rfl⟩⟩
  · exact ⟨⟨[.byte 0x0F, .byte 0xA8], ⟨rfl, rfl⟩, fun t => rfl⟩, ⟨[.byte 0x0F, .byte 0xA9], ⟨rfl, rfl⟩, fun t => rfl⟩⟩

/-- C74 does not hold in full: `push` of es, cs, ss, ds and `pop` of es, ss, ds are accepted; the opcodes are invalid in 64-bit mode. -/
theorem c74_refuted_stack : (∀ seg < 4, ∃ c, pushSeg seg = ⟨[.byte c], .ok ()⟩ ∧ X86.stackSeg [c] = none) ∧
    (∀ seg < 4, seg ≠ 1 → ∃ c, popSeg seg = ⟨[.byte c], .ok ()⟩ ∧ X86.stackSeg [c] = none) ∧ popSeg 1 = Enc.throw .BAD_COMBINATION := by
  refine ⟨fun seg hs => ?_, fun seg hs h1 => ?_, rfl⟩
  · have : seg = 0 ∨ seg = 1 ∨ seg = 2 ∨ seg = 3 := by omega
    rcases this with rfl | rfl | rfl | rfl <;> exact ⟨_, rfl, rfl⟩
  · have : seg = 0 ∨ seg = 2 ∨ seg = 3 := by omega
    rcases this with rfl | rfl | rfl <;> exact ⟨_, rfl, rfl⟩

private theorem seg_type : mapOf (T_ALLOW_DIFF_SIZE ||| T_ALLOW_ABCDH) = 0 ∧
    (∀ (s : BitVec 5), opc (T_ALLOW_DIFF_SIZE ||| T_ALLOW_ABCDH) (.r8 s) 0x8C = 0x8C ∧ opc (T_ALLOW_DIFF_SIZE ||| T_ALLOW_ABCDH) (.r8 s) 0x8E = 0x8E) ∧
    Ty.has (T_ALLOW_DIFF_SIZE ||| T_ALLOW_ABCDH) T_66 = false ∧ Ty.has (T_ALLOW_DIFF_SIZE ||| T_ALLOW_ABCDH) T_APX = false := by decide +kernel

theorem mk5_seg : ∀ (b4 b3 : Bool) (lo : BitVec 3) (s : BitVec 5), s.toNat < 6 → X86.mk5 b4 b3 lo = s → lo.toNat = s.toNat := by decide +kernel

/-- C74: an accepted `mov(op, seg)` stores exactly that segment register in exactly that register, with its width, or memory operand. -/
theorem c74_from (op : Operand) (hop : OpOK op) (hq : ∀ q, op = .reg q → q.Named) (seg : BitVec 5) (hs : seg.toNat < 6)
    {w : List Act} (hw : (movFromSeg op seg).Gives w ()) (fill : Act → BitVec 32) :
    ∃ i : X86.MovSeg, (∀ t, X86.movSeg (concr fill w ++ t) = some (i, t)) ∧ i.load = false ∧ i.seg = seg.toNat ∧
      RmIs fill i.head i.rm (op.withImm 0) ∧ ∀ q, op = .reg q → q.kind = .reg ∧ (q.bit = 16 ∨ q.bit = 32 ∨ q.bit = 64) ∧ i.bits = q.bit := by
  obtain ⟨m0, ho, h66, hapx⟩ := seg_type
  unfold movFromSeg at hw
  obtain ⟨h, reg, rm, hdec, hl, _⟩ := c34_ro (.r8 seg) (fun h => absurd rfl h) op hop _ _ _ _ (fun h => by rw [hapx] at h; cases h)
    (by rw [m0, (ho seg).1]; decide) hw fill
  have e1 := hl.head.map
  have e2 := hl.head.opcode
  rw [m0] at e1
  rw [(ho seg).1] at e2
  have e3 : reg.toNat = seg.toNat := mk5_seg _ _ _ _ hs hl.reg
  refine ⟨⟨h, false, reg.toNat, X86.opBits h, rm⟩, fun t => ?_, rfl, e3, hl.rm, ?_⟩
  · unfold X86.movSeg
    rw [hdec]
    dsimp only
    rw [if_neg (by rw [e1, e3]; simp; omega), if_pos e2]
  · rintro q rfl
    have hb : q.isREG 112 = true := by
      have hw : (Enc.throwIf (!(q.isREG 112)) .BAD_COMBINATION >>= fun _ => _).Gives w () := hw
      rw [Enc.throwIf_bind] at hw
      simpa using hw.1
    have hk : q.kind = .reg := by
      unfold Reg.isREG at hb
      simp only [Bool.and_eq_true, beq_iff_eq] at hb
      exact hb.1
    have hbit : q.bit = 16 ∨ q.bit = 32 ∨ q.bit = 64 := by
      have hn := (hq q rfl).shape
      simp only [hk] at hn
      rcases hn with ⟨_, h8 | h⟩ | h | h | h | h | h | h | h | h
      · unfold Reg.isREG Reg.isBit at hb; rw [h8, hk] at hb; exact absurd hb (by decide)
      · exact h
      all_goals exact absurd h.1 (by decide)
    refine ⟨hk, hbit, ?_⟩
    have e4 := hl.head.p66
    have e5 := hl.head.w
    show X86.opBits h = q.bit
    unfold X86.opBits
    rw [e4, e5]
    unfold p66of Operand.isREG Reg.isREG Reg.isBit Operand.hd
    dsimp only
    rw [hk, h66]
    rcases hbit with h | h | h <;> rw [h] <;> simp [Reg.r8]

/-- C74: an accepted `mov(seg, op)` loads exactly that segment register from exactly that register or memory operand.  `hcs`: loading CS is
accepted too (`c74_refuted_cs`). -/
theorem c74_to_partial (op : Operand) (hop : OpOK op) (seg : BitVec 5) (hs : seg.toNat < 6) (hcs : seg ≠ 1)
    {w : List Act} (hw : (movToSeg seg op).Gives w ()) (fill : Act → BitVec 32) :
    ∃ i : X86.MovSeg, (∀ t, X86.movSeg (concr fill w ++ t) = some (i, t)) ∧ i.load = true ∧ i.seg = seg.toNat ∧
      RmIs fill i.head i.rm (op.withImm 0) ∧ ∀ q, op = .reg q → q.isREG 112 = true := by
  obtain ⟨m0, ho, h66, hapx⟩ := seg_type
  unfold movToSeg at hw
  have h1 : ∃ op', OpOK op' ∧ (∀ h rm, RmIs fill h rm (op'.withImm 0) → RmIs fill h rm (op.withImm 0)) ∧
      (opRO (.r8 seg) op' (T_ALLOW_DIFF_SIZE ||| T_ALLOW_ABCDH) 0x8E (op.isREG 112)).Gives w () ∧ ∀ q, op = .reg q → q.isREG 112 = true := by
    dsimp only at hw
    split at hw
    · rename_i hr
      rw [Enc.lift_bind] at hw
      obtain ⟨q, g3, hw⟩ := hw
      cases op with
      | mem a => rw [isREG_mem hop.1] at hr; cases hr
      | reg p =>
        have g3 : p.cvtGp 32 = .ok q := g3
        unfold Reg.cvtGp at g3
        cases hp : p.changeBit 32 with
        | error e => rw [hp] at g3; cases g3
        | ok p' =>
          rw [hp] at g3
          cases g3
          refine ⟨.reg (.gp p'.idx 32), (fun h => absurd rfl h : LegacyReg (.gp p'.idx 32)), ?_, hw, ?_⟩
          · rintro h rm ⟨lo, g4, g5⟩
            have g6 := Mn.setBit_idx' hp
            exact ⟨lo, g4, Eq.trans g5 g6⟩
          · rintro _ ⟨⟩; exact hr
    · rename_i hr
      refine ⟨op, hop, fun _ _ h => h, hw, ?_⟩
      rintro q rfl
      have hw : (Enc.throwIf (!(q.isREG 112)) .BAD_COMBINATION >>= fun _ => _).Gives w () := hw
      rw [Enc.throwIf_bind] at hw
      simpa using hw.1
  obtain ⟨op', hop', himp, hw', hreg⟩ := h1
  obtain ⟨h, reg, rm, hdec, hl, _⟩ := c34_ro (.r8 seg) (fun h => absurd rfl h) op' hop' _ _ _ _ (fun h => by rw [hapx] at h; cases h)
    (by rw [m0, (ho seg).2]; decide) hw' fill
  have e1 := hl.head.map
  have e2 := hl.head.opcode
  rw [m0] at e1
  rw [(ho seg).2] at e2
  have e3 : reg.toNat = seg.toNat := mk5_seg _ _ _ _ hs hl.reg
  have e4 : reg.toNat ≠ 1 := by
    rw [e3]; intro h; exact hcs (BitVec.eq_of_toNat_eq h)
  refine ⟨⟨h, true, reg.toNat, X86.opBits h, rm⟩, fun t => ?_, rfl, e3, himp _ _ hl.rm, hreg⟩
  unfold X86.movSeg
  rw [hdec]
  dsimp only
  rw [if_neg (by rw [e1, e3]; simp; omega), if_neg (by rw [e2]; decide), if_pos ⟨e2, e4⟩]

/-- C74 does not hold in full: `mov(cs, ax)` is accepted; loading CS is an invalid opcode. -/
theorem c74_refuted_cs : movToSeg 1 (.reg (.gp 0 16)) = ⟨[.byte 0x8E, .byte 0xC8], .ok ()⟩ ∧ X86.movSeg [0x8E, 0xC8] = none := ⟨rfl, rfl⟩

/-- `mov(r9w, fs)` and `mov(ds, word [rcx])` -/
example : movFromSeg (.reg (.gp 9 16)) 4 = ⟨[.byte 0x66, .byte 0x41, .byte 0x8C, .byte 0xE1], .ok ()⟩ ∧
    ∃ a, Term.addr (.reg (.gp 1 64)) 16 false = .ok a ∧ movToSeg 3 (.mem a) = ⟨[.byte 0x66, .byte 0x8E, .byte 0x19], .ok ()⟩ := ⟨rfl, _, rfl, rfl⟩

/-! ## lfs, lgs, lss -/

private theorem load_type : ∀ c : Byte, (∀ r, opc (T_0F ||| T_ALLOW_DIFF_SIZE) r c = c) := by
  intro c r
  unfold opc
  rw [show (T_0F ||| T_ALLOW_DIFF_SIZE) &&& T_SENTRY = T_0F from by decide, show (T_0F ||| T_ALLOW_DIFF_SIZE).has T_CODE1_IF1 = false from by decide]
  rw [show (T_0F == (0 : Ty)) = false from by decide]
  simp [sel]

/-- C74: an accepted `lfs`, `lgs`, `lss` of a register and an address below r16 decodes to the 0F opcode with exactly that register, its width and
exactly that address.  `hx`, `hs`: r16-r31 and sized memory are accepted too (`c74_refuted_rex2`, `c74_refuted_size`). -/
theorem c74_load_partial (a : Addr) (hop : OpOK (.mem a)) (r : Reg) (hr : r.Named) (hk : r.kind = .reg) (hx : (extMR r a).rex2 = false)
    (hs : a.o.bit = 0) (code : Byte) (hc : code = 0xB2 ∨ code = 0xB4 ∨ code = 0xB5) {w : List Act} (hw : (opLoadSeg a r T_0F code).Gives w ())
    (fill : Act → BitVec 32) :
    ∃ (h : X86.Head) (reg : BitVec 3) (m : X86.Mem), (∀ t, X86.insn false 1 (concr fill w ++ t) = some (⟨h, reg, .mem m⟩, t)) ∧
      h.map = 1 ∧ h.opcode = code ∧ X86.regNum h reg = r.idx ∧ a.Means fill h m ∧ X86.opBits h = r.bit := by
  have hm : mapOf (T_0F ||| T_ALLOW_DIFF_SIZE) = 1 := by decide
  have ho : X86.OpcodeOK 1 code := by rcases hc with rfl | rfl | rfl <;> decide
  have hw1 : (r.isBit 8) = false ∧ (opMR a r (T_0F ||| T_ALLOW_DIFF_SIZE) code).Gives w () := by
    unfold opLoadSeg at hw
    rw [Enc.throwIf_bind, Enc.throwIf_bind, Enc.gives_bind] at hw
    obtain ⟨h8, h64, w0, v, w1, g1, g2, rfl⟩ := hw
    rw [rex_mem] at g1
    obtain ⟨g3, rfl, rfl⟩ := g1
    rw [Enc.dbIf_bind] at g2
    obtain ⟨w2, rfl, g2⟩ := g2
    rw [Enc.db_bind] at g2
    obtain ⟨w3, rfl, g2⟩ := g2
    refine ⟨h8, ?_⟩
    rw [opMR_gives _ _ _ _ (fun h => by revert h; decide)]
    refine ⟨h64, by rw [show (T_0F ||| T_ALLOW_DIFF_SIZE).has T_ALLOW_DIFF_SIZE = true from by decide]; rfl, ⟨g3.1, g3.2.1, fun _ => by decide⟩, w3, g2, ?_⟩
    rw [load_type, ← rex_code _ _ _ _ _ (by decide)]
    unfold codeBytes
    rw [hx, hm]
    have e1 : p66of (T_0F ||| T_ALLOW_DIFF_SIZE) a.o r = p66of T_0F a.o r := by
      unfold p66of; rfl
    rw [e1]
    simp
    rfl
  obtain ⟨h8, hw1⟩ := hw1
  obtain ⟨ha, hp, hn, ht⟩ := hop
  obtain ⟨h, reg, m, hh, g1, _, hdec, hm'⟩ := c34_mr a ha hp hn ht r (fun h => absurd hk h) _ code (fun h => by revert h; decide)
    (by rw [hm, load_type]; exact ho) hw1 fill
  refine ⟨h, reg, m, hdec, hh.map.trans hm, hh.opcode.trans (load_type _ _), g1, hm', ?_⟩
  have e4 := hh.p66
  have e5 := hh.w
  have hb := hr.shape
  simp only [hk] at hb
  unfold X86.opBits
  rw [e4, e5]
  unfold p66of Reg.isREG Reg.isBit
  rw [hk, hs]
  unfold Reg.isBit at h8
  rcases hb with ⟨_, h | h | h | h⟩ | h | h | h | h | h | h | h | h
  · rw [h] at h8; exact absurd h8 (by decide)
  · rw [h]; decide
  · rw [h]; decide
  · rw [h]; decide
  all_goals exact absurd h.1 (by decide)

/-- C74 does not hold in full: `lss(r16d, ptr [rax])` writes the escape byte after REX2, which already selects the map: it is read as 0F 0F. -/
theorem c74_refuted_rex2 : ∃ a h, Term.addr (.reg (.gp 0 64)) 0 false = .ok a ∧
    opLoadSeg a (.gp 16 32) T_0F 0xB2 = ⟨[.byte 0xD5, .byte 0xC0, .byte 0x0F, .byte 0xB2, .byte 0x00], .ok ()⟩ ∧
    X86.head [0xD5, 0xC0, 0x0F, 0xB2, 0x00] = some (h, [0xB2, 0x00]) ∧ h.map = 1 ∧ h.opcode = 0x0F := ⟨_, _, rfl, rfl, rfl, rfl, rfl⟩

/-- C74 does not hold in full: `lss(ax, dword [rcx])` has no operand size prefix: it loads eax. -/
theorem c74_refuted_size : ∃ a h, Term.addr (.reg (.gp 1 64)) 32 false = .ok a ∧
    opLoadSeg a (.gp 0 16) T_0F 0xB2 = ⟨[.byte 0x0F, .byte 0xB2, .byte 0x01], .ok ()⟩ ∧
    X86.head [0x0F, 0xB2, 0x01] = some (h, [0x01]) ∧ X86.opBits h = 32 := ⟨_, _, rfl, rfl, rfl, rfl⟩

namespace Mn

/-- The call of `opLoadSeg` a function consists of. -/
def Entry.loadSeg (e : Entry) : Option (Ty × Byte) :=
  match e.body with
  | .leaf (.loadSeg (.a 1) (.a 0) t c) => some (t, c)
  | _ => none

/-- The functions that consist of a call of `opLoadSeg`, and their opcodes: LFS = 0F B4, LGS = 0F B5, LSS = 0F B2. -/
theorem c74_load_table : (all.filterMap fun e => e.loadSeg.map fun p => (e.name, e.params, p)) =
    [(n!"lfs", [.reg, .addr], T_0F, 0xB4), (n!"lgs", [.reg, .addr], T_0F, 0xB5), (n!"lss", [.reg, .addr], T_0F, 0xB2)] := by decide +kernel

end Mn
end Xbyak
