import Verif.Legacy
/-!
# Decoding memory operands
-/
namespace Xbyak
open E

/-- The bytes of an act list, the 4-byte fields of `[rip + …]` operands being given by `fill`. -/
def concr (fill : Act → BitVec 32) : List Act → List Byte
  | [] => []
  | .byte b :: t => b :: concr fill t
  | a :: t => leBytes 4 ((fill a).setWidth 64) ++ concr fill t

theorem concr_append (fill : Act → BitVec 32) (a b : List Act) : concr fill (a ++ b) = concr fill a ++ concr fill b := by
  induction a with
  | nil => rfl
  | cons x t ih => cases x <;> simp [concr, ih]

theorem concr_bytes (fill : Act → BitVec 32) (l : List Byte) : concr fill (l.map .byte) = l := by
  induction l with
  | nil => rfl
  | cons x t ih => simp [concr, ih]

/-- The addresses a program can build (`ptr[e]`, `ptr[rip + …]`, `ptr[uint64]`), possibly with modifiers. -/
structure Addr.WF (a : Addr) : Prop where
  exp : a.mode = .modRM → a.e.WF ∧ a.label = none
  rip : a.mode ≠ .modRM → a.e.base = .nil ∧ a.e.index = .nil
  kind : a.o.kind = .mem

theorem Addr.ofExp_wf {t : Term} (ht : t.Named) {bit : Nat} {bc : Bool} {a : Addr} (h : t.addr bit bc = .ok a) : a.WF := by
  obtain ⟨e, h1, h2, rfl⟩ := addr_ok h
  exact ⟨fun _ => ⟨addr_wf ht h1 h2, rfl⟩, fun h => absurd rfl h, rfl⟩

theorem Addr.ofRip_wf (bit : Nat) (bc : Bool) (r : RegRip) : (Addr.ofRip bit bc r).WF :=
  ⟨fun h => (by unfold Addr.ofRip at h; dsimp only at h; split at h <;> cases h), fun _ => ⟨rfl, rfl⟩, rfl⟩

/-- The value of the 4-byte field of a `[rip + …]` operand. -/
def Addr.field (fill : Act → BitVec 32) (a : Addr) : Word :=
  match a.label with
  | some l => (fill (.rel l (a.e.disp - BitVec.ofNat 64 a.immSize))).signExtend 64
  | none => if a.mode = .ripAddr then (fill (.ripAddr a.e.disp a.immSize)).signExtend 64 else a.e.disp

/-- The decoded operand has this base, index, scale and displacement. -/
def RegExp.Parts (e : RegExp) (m : X86.Mem) : Prop :=
  m.base = (if e.base = .nil then none else some e.base.idx) ∧ m.index = (if e.index = .nil then none else some e.index.idx) ∧
  (e.index ≠ .nil → (m.scale : Int) = e.scale) ∧ m.disp = e.disp

/-- The decoded operand `m` means the address `a`: the same effective address for all register contents, and the same base and index (which
matters for MIB and SIBMEM operands), except that `reg * 2` may have been replaced by `reg + reg`; or the instruction pointer plus the field. -/
def Addr.Means (fill : Act → BitVec 32) (a : Addr) (h : X86.Head) (m : X86.Mem) : Prop :=
  match a.mode with
  | .modRM => m.rip = false ∧ (∀ g v next, X86.ea h m a.e.index.isSIMD g v next = a.e.ea g v) ∧ (a.getRegExp.Parts m ∨ a.e.Parts m)
  | .rip | .ripAddr => m = { base := none, index := none, scale := 1, disp := a.field fill, rip := true } ∧ h.p67 = false
  | .disp64 => False

theorem sext_field (d : BitVec 32) : sextLE (leBytes 4 (d.setWidth 64)) = d.signExtend 64 := by
  have e := sext_lo32 (d.signExtend 64) ?_
  · have : lo32 (d.signExtend 64) = d := by
      unfold lo32; ext i hi
      have : i < 64 := by omega
      simp [BitVec.getElem_signExtend, hi, this]
    rw [this] at e; exact e
  · rw [BitVec.toInt_signExtend_of_le (by decide)]
    exact ⟨by have := BitVec.le_toInt d; omega, by have := BitVec.toInt_lt (x := d); omega⟩

theorem getRegExp_wf {a : Addr} (h : a.e.WF) : a.getRegExp.WF := by
  unfold Addr.getRegExp; split
  · exact optimize_wf h
  · exact h

theorem getRegExp_ea (a : Addr) (g v : BitVec 5 → Word) : a.getRegExp.ea g v = a.e.ea g v := by
  unfold Addr.getRegExp; split
  · exact optimize_ea _ g v
  · rfl

theorem optimize_index (e : RegExp) : e.optimize.index = e.index ∧ e.optimize.disp = e.disp := by
  unfold RegExp.optimize; split <;> exact ⟨rfl, rfl⟩
theorem getRegExp_index (a : Addr) : a.getRegExp.index = a.e.index ∧ a.getRegExp.disp = a.e.disp := by
  unfold Addr.getRegExp; split
  · exact optimize_index _
  · exact ⟨rfl, rfl⟩

theorem is32bit_getRegExp (a : Addr) : a.is32bit = (a.getRegExp.base.bit == 32 || a.getRegExp.index.bit == 32) := by
  unfold Addr.getRegExp Addr.is32bit RegExp.optimize
  split
  · split
    · rename_i h
      simp only [Bool.and_eq_true, beq_iff_eq] at h
      have := h.1.2
      simp [this]
    · rfl
  · rfl

theorem nil_getRegExp (a : Addr) (h : a.e.base = .nil ∧ a.e.index = .nil) : a.getRegExp = a.e := by
  unfold Addr.getRegExp RegExp.optimize
  rw [h.1, h.2]
  simp [Reg.nil, Reg.isBit]

/-- The bytes of a memory operand decode to it. -/
theorem opAddr_decode (a : Addr) (ha : a.WF) (ht : a.e.index.kind ≠ .tmm) (hm : a.mode ≠ .disp64) (reg : BitVec 5)
    (hn : a.disp8N = 0 ∨ IsN a.disp8N) {w : List Act} (hw : (opAddr a reg).Gives w ()) (h : X86.Head) (hh : HeadFor h a.getRegExp)
    (fill : Act → BitVec 32) :
    ∃ m, (∀ t, X86.modrm h a.e.index.isSIMD (if a.disp8N = 0 then 1 else a.disp8N) (concr fill w ++ t) = some (reg.extractLsb' 0 3, .mem m, t)) ∧
      a.Means fill h m := by
  unfold opAddr at hw
  rw [Enc.throwIf_bind] at hw
  obtain ⟨_, hw⟩ := hw
  have ripDec : ∀ (d : BitVec 32) (t : List Byte), X86.modrm h a.e.index.isSIMD (if a.disp8N = 0 then 1 else a.disp8N)
      (modRM 0 reg 5 :: (leBytes 4 (d.setWidth 64) ++ t)) =
      some (reg.extractLsb' 0 3, .mem { base := none, index := none, scale := 1, disp := d.signExtend 64, rip := true }, t) := by
    intro d t
    unfold X86.modrm
    dsimp only
    rw [modRM_mod, modRM_reg, modRM_rm, if_neg (by decide), if_neg (by decide), if_pos (by decide), fromLE4]
    show (match some (sextLE [_, _, _, _], t) with | none => none | some (d, t) => some (_, X86.RM.mem { base := none, index := none, scale := 1, disp := d, rip := true }, t)) = _
    rw [← fromLE4, sext_field]
  have ripCase : a.mode = .rip ∨ a.mode = .ripAddr →
      (do setModRM 0 reg 5
          match a.label with
          | some l => Enc.act (.rel l (a.e.disp - BitVec.ofNat 64 a.immSize))
          | none =>
            if a.mode = .ripAddr then Enc.act (.ripAddr a.e.disp a.immSize)
            else do
              Enc.throwIf (!isInInt32 a.e.disp) .OFFSET_IS_TOO_BIG
              Enc.dbN ((lo32 a.e.disp).setWidth 64) 4 : Enc Unit).Gives w () →
      ∃ m, (∀ t, X86.modrm h a.e.index.isSIMD (if a.disp8N = 0 then 1 else a.disp8N) (concr fill w ++ t) = some (reg.extractLsb' 0 3, .mem m, t)) ∧
        m = { base := none, index := none, scale := 1, disp := a.field fill, rip := true } ∧ h.p67 = false := by
    clear hw
    intro hmode hw
    have hnil := ha.rip (by rcases hmode with h | h <;> rw [h] <;> simp)
    have hp : h.p67 = false := by
      rw [hh.p67, nil_getRegExp a hnil, hnil.1, hnil.2]; rfl
    unfold setModRM at hw
    rw [Enc.db_bind] at hw
    obtain ⟨w', rfl, hw⟩ := hw
    unfold Addr.field
    cases hl : a.label with
    | some l =>
      rw [hl] at hw
      rw [Enc.gives_act.1 hw]
      refine ⟨_, fun t => ?_, rfl, hp⟩
      simp only [concr, List.append_nil, List.cons_append]
      exact ripDec _ t
    | none =>
      rw [hl] at hw
      dsimp only at hw ⊢
      split at hw
      · rename_i hr
        rw [if_pos hr, Enc.gives_act.1 hw]
        refine ⟨_, fun t => ?_, rfl, hp⟩
        simp only [concr, List.append_nil, List.cons_append]
        exact ripDec _ t
      · rename_i hr
        rw [if_neg hr]
        rw [Enc.throwIf_bind, Enc.gives_dbN] at hw
        obtain ⟨h32, rfl⟩ := hw
        have h32 : isInInt32 a.e.disp = true := by simpa using h32
        refine ⟨_, fun t => ?_, rfl, hp⟩
        simp only [concr, concr_bytes, List.cons_append]
        have := ripDec (lo32 a.e.disp) t
        rw [lo32_sext _ ((isInInt32_iff _).1 h32)] at this
        exact this
  unfold Addr.Means
  cases hmd : a.mode with
  | disp64 => exact absurd hmd hm
  | rip =>
    have hw' := hw
    rw [hmd] at hw' 
    apply ripCase (Or.inl hmd)
    rw [hmd]; exact hw'
  | ripAddr =>
    have hw' := hw
    rw [hmd] at hw' 
    apply ripCase (Or.inr hmd)
    rw [hmd]; exact hw'
  | modRM =>
    rw [hmd] at hw
    have hwf := getRegExp_wf (ha.exp hmd).1
    have ix := getRegExp_index a
    obtain ⟨hd, rfl⟩ := (setSIB_gives _ _ _ _).1 hw
    have ht' : a.getRegExp.index.kind ≠ .tmm := by rw [ix.1]; exact ht
    obtain ⟨s, hs, hmm⟩ := modrm_sib a.getRegExp hwf ht' reg a.disp8N hn hd h hh
    rw [concr_bytes]
    rw [ix.1] at hmm
    refine ⟨_, hmm, rfl, fun g v next => ?_, Or.inl ⟨rfl, by rw [ix.1], hs, rfl⟩⟩
    have := ea_mem a.getRegExp hwf ht' h hh.p67 s hs g v next
    rw [ix.1] at this
    rw [← getRegExp_ea, ← this]

end Xbyak
