import Verif.Props.Cond
import Verif.Props.Jumps
import Verif.Props.LabelMore
/-!
# C44: conditional jumps
-/
namespace Xbyak.Asm
open CA G

/-- The two bytes that start the forms of a conditional jump (xbyak_mnemonic.h 528-660: `opJmp(label, type, 0x70 | cc, 0x80 | cc, 0x0F)`). -/
def jccS (cc : BitVec 4) : Byte := 0x70 ||| cc.setWidth 8
def jccL (cc : BitVec 4) : Byte := 0x80 ||| cc.setWidth 8

theorem jcc_codes : ∀ cc : BitVec 4, X86.OpcodeOK 0 (jccS cc) ∧ jccS cc &&& 0xF0 = 0x70 ∧ (jccS cc).extractLsb' 0 4 = cc ∧
    X86.OpcodeOK 1 (jccL cc) ∧ jccL cc &&& 0xF0 = 0x80 ∧ (jccL cc).extractLsb' 0 4 = cc := by decide +kernel

def noExt : X86.Ext := { w := false, r3 := false, x3 := false, b3 := false }

theorem jcc_short (cc : BitVec 4) (bs : List Byte) (h : 1 ≤ bs.length) :
    X86.jcc (jccS cc :: bs) = some (cc, sextLE (bs.take 1), bs.drop 1) := by
  obtain ⟨h1, h2, h3, _⟩ := jcc_codes cc
  have hd := X86.head_legacy false false false false noExt 0 (by decide) (by decide) (jccS cc) h1 bs
  unfold X86.jcc
  have e : (X86.opt false 0x66 ++ X86.opt false 0xF2 ++ X86.opt false 0xF3 ++ X86.opt false 0x67 ++ (X86.Ext.bytes noExt 0 (jccS cc)) ++ bs : List Byte) = jccS cc :: bs := rfl
  rw [e] at hd
  rw [hd]
  dsimp only
  rw [if_neg (by exact not_not_intro rfl), if_pos ⟨rfl, h2⟩]
  unfold X86.imm
  rw [if_pos h]
  show some ((jccS cc).extractLsb' 0 4, _, _) = _
  rw [h3]

theorem jcc_long (cc : BitVec 4) (bs : List Byte) (h : 4 ≤ bs.length) :
    X86.jcc (0x0F :: jccL cc :: bs) = some (cc, sextLE (bs.take 4), bs.drop 4) := by
  obtain ⟨_, _, _, h1, h2, h3⟩ := jcc_codes cc
  have hd := X86.head_legacy false false false false noExt 1 (by decide) (by decide) (jccL cc) h1 bs
  unfold X86.jcc
  have e : (X86.opt false 0x66 ++ X86.opt false 0xF2 ++ X86.opt false 0xF3 ++ X86.opt false 0x67 ++ (X86.Ext.bytes noExt 1 (jccL cc)) ++ bs : List Byte) = 0x0F :: jccL cc :: bs := rfl
  rw [e] at hd
  rw [hd]
  dsimp only
  rw [if_neg (by exact not_not_intro rfl), if_neg (by rintro ⟨h, _⟩; exact absurd (show (1 : BitVec 5) = 0 from h) (by decide)), if_pos ⟨rfl, h2⟩]
  unfold X86.imm
  rw [if_pos h]
  show some ((jccL cc).extractLsb' 0 4, _, _) = _
  rw [h3]

theorem drop_cons {l : List Byte} {p : Nat} {b : Byte} (h : l[p]? = some b) : l.drop p = b :: l.drop (p + 1) := by
  obtain ⟨h1, h2⟩ := List.getElem?_eq_some_iff.1 h
  rw [List.drop_eq_getElem_cons h1, h2]

/-- The cells of a conditional jump in finished code decode as that jump. -/
theorem jcc_cells {code : List Byte} {top : Word} {s : Spec} (hi : Implements code top s) (cc : BitVec 4) (short : Bool) (t : Tgt)
    (pre post : List Cell) (hc : s.cells = pre ++ (jmpCells short (jccS cc) (jccL cc) 0x0F t ++ post)) :
    let p := len pre
    let q := p + len (jmpCells short (jccS cc) (jccL cc) 0x0F t)
    let w := if q - p = 2 then 1 else 4
    X86.jcc (code.drop p) = some (cc, sextLE (bytesAt code (q - w) w), code.drop q) := by
  have hlen : code.length = len s.cells := hi.length
  rw [hc, len_append, len_append] at hlen
  cases short with
  | true =>
    have e : jmpCells true (jccS cc) (jccL cc) 0x0F t = [.byte (jccS cc), .field ⟨.w1, false, t⟩] := rfl
    rw [e] at hc hlen ⊢
    have hb := hi.bytes pre (jccS cc) (.field ⟨.w1, false, t⟩ :: post) hc
    have el : len [.byte (jccS cc), .field ⟨.w1, false, t⟩] = 2 := rfl
    rw [el] at hlen ⊢
    dsimp only
    rw [if_pos (by omega), drop_cons hb, jcc_short cc _ (by rw [List.length_drop]; omega), List.drop_drop]
    have : len pre + 2 - 1 = len pre + 1 := by omega
    rw [this]
    rfl
  | false =>
    have e : jmpCells false (jccS cc) (jccL cc) 0x0F t = [.byte 0x0F, .byte (jccL cc), .field ⟨.w4, false, t⟩] := rfl
    rw [e] at hc hlen ⊢
    have hb := hi.bytes pre 0x0F (.byte (jccL cc) :: .field ⟨.w4, false, t⟩ :: post) hc
    have hb2 := hi.bytes (pre ++ [.byte 0x0F]) (jccL cc) (.field ⟨.w4, false, t⟩ :: post) (by rw [hc]; simp)
    have e1 : len (pre ++ [Cell.byte 0x0F]) = len pre + 1 := by rw [len_append]; rfl
    rw [e1] at hb2
    have el : len [.byte 0x0F, .byte (jccL cc), .field ⟨.w4, false, t⟩] = 6 := rfl
    rw [el] at hlen ⊢
    dsimp only
    rw [if_neg (by omega), drop_cons hb, drop_cons hb2, jcc_long cc _ (by rw [List.length_drop]; omega), List.drop_drop]
    have : len pre + 6 - 4 = len pre + 1 + 1 := by omega
    rw [this]
    rfl

/-- **C44.** A conditional jump to a label of any kind, anywhere in a program, whatever form is chosen and whatever follows, is in the
finished code a Jcc with the requested condition; it ends where the next instruction begins, and its displacement is the one the
theorems about labels (`Reaches`) speak of. -/
theorem c44_jcc (env : Env) (he : env.Sane) (c : CA) (hc : NewCode c) (a d : List Op) (l : LRef) (ty : LabelType) (cc : BitVec 4)
    (g1 g2 g3 g4 : G) (hh : Hist (CallOk (cxOf c) env) env (a ++ .jmp l ty (jccS cc) (jccL cc) 0x0F :: d) (G.init c))
    (h1 : run env a (G.init c) = .ok g1) (h2 : step env (.jmp l ty (jccS cc) (jccL cc) 0x0F) g1 = .ok () g2)
    (h3 : run env d g2 = .ok g3) (h4 : Final env g3 g4) (hr : .reset ∉ d) :
    ∃ v, X86.jcc (g4.ca.code.drop g1.ca.size) = some (cc, v, g4.ca.code.drop g2.ca.size) ∧
      ∀ o, Reaches g4.ca.code g1.ca.size g2.ca.size o → BitVec.ofNat 64 g2.ca.size + v = BitVec.ofNat 64 o := by
  obtain ⟨ha, hh⟩ := hist_append hh h1
  obtain ⟨hp, hh⟩ := hist_cons_ok hh h2
  obtain ⟨sp1, r1, s1⟩ := (St.mk hc.inv hc.safe (init_life c)).run he ha h1
  obtain ⟨sp2, r2, s2⟩ := s1.step he hp h2
  obtain ⟨sp3, r3, s3⟩ := s2.run he hh h3
  obtain ⟨cs, hcs⟩ := (r3.grow (outcomes_noreset hr)).cells
  obtain ⟨k, _, rfl⟩ := r2
  have hi := (final_implements s3.inv s3.safe h4).1
  unfold Spec.emit at hcs
  simp only at hcs
  rw [sp_touch_cells, List.append_assoc] at hcs
  have := jcc_cells hi cc _ _ _ _ hcs
  have e1 : g1.ca.size = len sp1.cells := s1.inv.buf.size
  have e2 : g2.ca.size = len sp1.cells + len (jmpCells (sp1.shortForm k ty) (jccS cc) (jccL cc) 0x0F (.label k 0)) := by
    rw [s2.inv.buf.size]
    unfold Spec.emit
    simp only
    rw [len_append, sp_touch_cells]
  dsimp only at this
  rw [← e2, ← e1] at this
  exact ⟨_, this, fun o ho => ho.2.2⟩

/-- **C44.** The same for a conditional jump to an address. -/
theorem c44_jcc_addr (env : Env) (he : env.Sane) (c : CA) (hc : NewCode c) (a d : List Op) (addr : Word) (ty : LabelType) (cc : BitVec 4)
    (g1 g2 g3 g4 : G) (hh : Hist (CallOk (cxOf c) env) env (a ++ .jmpAbs addr ty (jccS cc) (jccL cc) 0x0F :: d) (G.init c))
    (h1 : run env a (G.init c) = .ok g1) (h2 : step env (.jmpAbs addr ty (jccS cc) (jccL cc) 0x0F) g1 = .ok () g2)
    (h3 : run env d g2 = .ok g3) (h4 : Final env g3 g4) (hr : .reset ∉ d) :
    ∃ v, X86.jcc (g4.ca.code.drop g1.ca.size) = some (cc, v, g4.ca.code.drop g2.ca.size) ∧
      g4.ca.top + BitVec.ofNat 64 g2.ca.size + v = addr := by
  have hre := c23_partial env he c hc a d addr ty _ _ _ g1 g2 g3 g4 hh h1 h2 h3 h4 hr
  obtain ⟨ha, hh⟩ := hist_append hh h1
  obtain ⟨hp, hh⟩ := hist_cons_ok hh h2
  obtain ⟨sp1, r1, s1⟩ := (St.mk hc.inv hc.safe (init_life c)).run he ha h1
  obtain ⟨sp2, r2, s2⟩ := s1.step he hp h2
  obtain ⟨sp3, r3, s3⟩ := s2.run he hh h3
  obtain ⟨cs, hcs⟩ := (r3.grow (outcomes_noreset hr)).cells
  have r2 : sp2 = sp1.emit (jmpCells (sp1.shortAbs (cxOf c) addr ty) (jccS cc) (jccL cc) 0x0F (.addr addr)) := r2
  subst r2
  have hi := (final_implements s3.inv s3.safe h4).1
  unfold Spec.emit at hcs
  simp only at hcs
  rw [List.append_assoc] at hcs
  have := jcc_cells hi cc _ _ _ _ hcs
  have e1 : g1.ca.size = len sp1.cells := s1.inv.buf.size
  have e2 : g2.ca.size = len sp1.cells + len (jmpCells (sp1.shortAbs (cxOf c) addr ty) (jccS cc) (jccL cc) 0x0F (.addr addr)) := by
    rw [s2.inv.buf.size]
    unfold Spec.emit
    simp only
    rw [len_append]
  dsimp only at this
  rw [← e2, ← e1] at this
  exact ⟨_, this, hre.2.2⟩

/-- `L("top"); nop; jne("top"); ja("end", T_NEAR); L("end")`: the jumps decode as conditions 5 (ne) and 7 (a). -/
example : (match run demoEnv [.defL (.str "top"), .db 0x90, .jmp (.str "top") .auto (jccS 5) (jccL 5) 0x0F,
      .jmp (.str "end") .near (jccS 7) (jccL 7) 0x0F, .defL (.str "end")] (G.init demoCA) with
    | .ok g => (g.ca.code, (X86.jcc (g.ca.code.drop 1)).map (fun r => (r.1, r.2.1)), (X86.jcc (g.ca.code.drop 3)).map (fun r => (r.1, r.2.1)))
    | .error _ => ([], none, none)) = ([0x90, 0x75, 0xFD, 0x0F, 0x87, 0, 0, 0, 0], some (5, -3), some (7, 0)) := by decide +kernel

end Xbyak.Asm
