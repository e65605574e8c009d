import Verif.Props.Length
import Verif.Props.Imm
import Verif.Puts
/-!
# `[rip + label]` and `[rip + &address]` operands (C31)

`Verif/Emit.lean` shows where in an instruction the field of such an operand stands and for which end of the instruction it is computed;
the refinement of the label machinery shows what is finally stored there.  Here both are put together: instructions are emitted in the
middle of an arbitrary program.
-/
namespace Xbyak
open Asm

namespace G

/-- Execution of one act of an encoder on the generator: `db`; `putL_inner(label, true, disp)`; the `M_ripAddr` branch of `opAddr`
(xbyak.h 2190-2199). -/
def act (env : Env) : Act → M G Unit
  | .byte b => step env (.db b)
  | .rel l d => step env (.ripL (.obj l) d)
  | .ripAddr t k => do
    let g ← M.get
    M.throwIf g.ca.isAutoGrow .INVALID_RIP_IN_AUTO_GROW
    let d ← CA.verifyInInt32 (t - (g.ca.getCurr + 4 + BitVec.ofNat 64 k))
    liftCA (CA.dd env d)

/-- An instruction: its acts one after the other. -/
def emit (env : Env) : List Act → M G Unit
  | [] => M.pure ()
  | x :: t => do act env x; emit env t

theorem emit_cons {env : Env} {x : Act} {t : List Act} {g g' : G} (h : emit env (x :: t) g = .ok () g') :
    ∃ g1, act env x g = .ok () g1 ∧ emit env t g1 = .ok () g' := by
  unfold emit at h
  rw [M.bind_run] at h
  cases hx : act env x g with
  | ok u g1 => rw [hx] at h; exact ⟨g1, rfl, h⟩
  | err _ _ => rw [hx] at h; cases h
  | ub _ => rw [hx] at h; cases h

theorem emit_append {env : Env} {u w : List Act} {g g' : G} (h : emit env (u ++ w) g = .ok () g') :
    ∃ g1, emit env u g = .ok () g1 ∧ emit env w g1 = .ok () g' := by
  induction u generalizing g with
  | nil => exact ⟨g, rfl, h⟩
  | cons x t ih =>
    obtain ⟨g1, h1, h2⟩ := emit_cons h
    obtain ⟨g2, h3, h4⟩ := ih h2
    refine ⟨g2, ?_, h4⟩
    unfold emit
    rw [M.bind_run, h1]
    exact h3

end G

namespace Asm
open G

/-- Only bytes and label fields are added. -/
def Adds (t : List (Op × Bool)) : Prop := ∀ e ∈ t, (∃ b, e.1 = .db b) ∨ ∃ l d, e.1 = .ripL l d

theorem Adds.append {a b : List (Op × Bool)} (h : Adds a) (h' : Adds b) : Adds (a ++ b) := by
  intro e he
  rcases List.mem_append.mp he with he | he
  · exact h e he
  · exact h' e he

theorem Adds.noreset {t : List (Op × Bool)} (h : Adds t) : ∀ e ∈ t, e.1 ≠ .reset := by
  intro e he hc
  rcases h e he with ⟨b, hb⟩ | ⟨l, d, hb⟩ <;> rw [hb] at hc <;> cases hc

theorem Adds.norenew {t : List (Op × Bool)} (h : Adds t) (x : Nat) : ∀ e ∈ t, ¬ Renews x e.1 := by
  intro e he hc
  rcases h e he with ⟨b, hb⟩ | ⟨l, d, hb⟩ <;> rw [hb] at hc <;> exact hc

theorem touch_live (s : Spec) (l : LRef) (x : Nat) (h : s.objs x ≠ none) : (s.touch l).objs x ≠ none := by
  unfold Spec.touch
  split
  · exact h
  · rename_i y
    split
    · simp only [upd]; split
      · simp
      · exact h
    · exact h

/-- Bytes written one by one. -/
theorem dbs_run {cx : Cx} {env : Env} (he : env.Sane) (bs : List Byte) {g g' : G} {sp : Spec} (s : St cx g sp)
    (h : liftCA (CA.dbs env bs) g = .ok () g') :
    ∃ t, Run cx t sp (sp.emit (bs.map .byte)) ∧ Adds t ∧ St cx g' (sp.emit (bs.map .byte)) := by
  induction bs generalizing g sp with
  | nil =>
    have : g' = g := by
      unfold liftCA CA.dbs at h
      cases h; rfl
    subst this
    refine ⟨[], ?_, (fun e he => by cases he), ?_⟩
    · simp only [Spec.emit, List.map_nil, List.append_nil]; exact .nil _
    · simpa only [Spec.emit, List.map_nil, List.append_nil] using s
  | cons b t ih =>
    have h' : (liftCA (CA.db env b) >>= fun _ => liftCA (CA.dbs env t)) g = .ok () g' := by
      rw [← h, M.bind_run]
      rw [CA.dbs]
      unfold liftCA
      rw [M.bind_run]
      cases CA.db env b g.ca <;> rfl
    rw [M.bind_run] at h'
    cases hb : liftCA (CA.db env b) g with
    | ok u g1 =>
      rw [hb] at h'
      obtain ⟨sp1, st, s1⟩ := s.step he (op := .db b) ⟨trivial, trivial, trivial⟩ hb
      cases st
      obtain ⟨ev, r, hs, s2⟩ := ih s1 h'
      have e : (sp.emit [.byte b]).emit (t.map .byte) = sp.emit ((b :: t).map .byte) := by simp [Spec.emit]
      rw [e] at r s2
      refine ⟨(.db b, true) :: ev, .ok rfl r, ?_, s2⟩
      intro e he
      rcases List.mem_cons.mp he with rfl | he
      · exact .inl ⟨b, rfl⟩
      · exact hs e he
    | err _ _ => rw [hb] at h'; cases h'
    | ub _ => rw [hb] at h'; cases h'

/-- What one act adds to the program. -/
def Wrote (cx : Cx) (sp sp' : Spec) : Act → Prop
  | .byte b => sp' = sp.emit [.byte b]
  | .rel l d => Step cx (.ripL (.obj l) d) sp sp'
  | .ripAddr t k => cx.auto = false ∧ ∃ bs : List Byte, sp' = sp.emit (bs.map .byte) ∧ bs.length = 4 ∧
      cx.top + BitVec.ofNat 64 (sp.size + 4 + k) + sextLE bs = t

theorem act_run {cx : Cx} {env : Env} (he : env.Sane) {x : Act} {g g' : G} {sp : Spec} (s : St cx g sp)
    (hl : ∀ l d, x = .rel l d → sp.objs l ≠ none) (h : act env x g = .ok () g') :
    ∃ t sp', Run cx t sp sp' ∧ Adds t ∧ St cx g' sp' ∧ Wrote cx sp sp' x ∧ sp'.size = sp.size + x.size := by
  cases x with
  | byte b =>
    obtain ⟨sp1, st, s1⟩ := s.step he (op := .db b) ⟨trivial, trivial, trivial⟩ h
    refine ⟨[(.db b, true)], sp1, .ok st (.nil _), ?_, s1, st, ?_⟩
    · intro e he
      cases he with
      | head => exact .inl ⟨b, rfl⟩
      | tail _ h => cases h
    · cases st; unfold Spec.size Spec.emit; rw [len_append]; rfl
  | rel l d =>
    have hlive : LiveRef g (.obj l) := by
      have := hl l d rfl
      rw [s.inv.tab.objs] at this
      intro hc
      rw [hc] at this
      exact this rfl
    obtain ⟨sp1, st, s1⟩ := s.step he (op := .ripL (.obj l) d) ⟨hlive, trivial, trivial⟩ h
    refine ⟨[(.ripL (.obj l) d, true)], sp1, .ok st (.nil _), ?_, s1, st, ?_⟩
    · intro e he
      cases he with
      | head => exact .inr ⟨_, d, rfl⟩
      | tail _ h => cases h
    · obtain ⟨k, _, rfl⟩ := st
      unfold Spec.size Spec.emit
      rw [sp_touch_cells, len_append]; rfl
  | ripAddr t k =>
    simp only [act] at h
    rw [M.bind_run] at h
    simp only [M.get] at h
    rw [s.inv.buf.auto] at h
    cases ha : cx.auto with
    | true => rw [ha] at h; cases h
    | false =>
      rw [ha] at h
      have h' : (CA.verifyInInt32 (t - (g.ca.getCurr + 4 + BitVec.ofNat 64 k)) >>= fun d => liftCA (CA.dd env d)) g = .ok () g' := h
      rw [verifyInInt32_bind] at h'
      split at h'
      · rename_i hi
        have h2 : liftCA (CA.dbs env (leBytes 4 ((lo32 (t - (g.ca.getCurr + 4 + BitVec.ofNat 64 k))).setWidth 64))) g = .ok () g' := h'
        obtain ⟨ev, r, hs, s2⟩ := dbs_run he _ s h2
        refine ⟨ev, _, r, hs, s2, ⟨ha, _, rfl, leBytes_length _ _, ?_⟩, ?_⟩
        · have hv : isInInt32 (t - (g.ca.getCurr + 4 + BitVec.ofNat 64 k)) = true := hi
          have hc : g.ca.getCurr = cx.top + BitVec.ofNat 64 sp.size := by
            unfold CA.getCurr; rw [s.inv.buf.top ha, s.inv.buf.size]; rfl
          rw [hc] at hv ⊢
          have e : (leBytes 4 ((lo32 (t - (cx.top + BitVec.ofNat 64 sp.size + 4 + BitVec.ofNat 64 k))).setWidth 64)) =
              leBytes 4 (t - (cx.top + BitVec.ofNat 64 sp.size + 4 + BitVec.ofNat 64 k)) := by
            refine List.map_congr_left fun i hi => ?_
            have := List.mem_range.mp hi
            ext j hj
            simp only [lo32, BitVec.getElem_setWidth, BitVec.getLsbD_ushiftRight, BitVec.getLsbD_setWidth]
            have h1 : i * 8 + j < 64 := by omega
            have h2 : i * 8 + j < 32 := by omega
            simp [h1, h2, Nat.mul_comm]
          rw [e, sextLE_leBytes 4 _ (by omega) ((isInInt32_iff _).mp hv), BitVec.ofNat_add, BitVec.ofNat_add]
          generalize BitVec.ofNat 64 sp.size = A
          generalize BitVec.ofNat 64 k = B
          rw [show BitVec.ofNat 64 4 = (4 : BitVec 64) from rfl, show cx.top + (A + 4 + B) = cx.top + A + 4 + B by ac_rfl]
          rw [BitVec.add_comm, BitVec.sub_add_cancel]
        · unfold Spec.size Spec.emit
          rw [len_append, len_bytes, leBytes_length]; rfl
      · cases h'

theorem emit_run {cx : Cx} {env : Env} (he : env.Sane) (w : List Act) {g g' : G} {sp : Spec} (s : St cx g sp)
    (hl : ∀ l d, .rel l d ∈ w → sp.objs l ≠ none) (h : emit env w g = .ok () g') :
    ∃ t sp', Run cx t sp sp' ∧ Adds t ∧ St cx g' sp' ∧ sp'.size = sp.size + asize w ∧ ∀ l, sp.objs l ≠ none → sp'.objs l ≠ none := by
  induction w generalizing g sp with
  | nil =>
    cases h
    exact ⟨[], sp, .nil _, (fun e he => by cases he), s, rfl, fun _ h => h⟩
  | cons x t ih =>
    obtain ⟨g1, h1, h2⟩ := emit_cons h
    obtain ⟨ev, sp1, r1, a1, s1, w1, z1⟩ := act_run he s (fun l d e => hl l d (by rw [e]; exact List.mem_cons_self ..)) h1
    have hk : ∀ l, sp.objs l ≠ none → sp1.objs l ≠ none := by
      intro l this
      cases x with
      | byte b => cases w1; exact this
      | rel l' d' => obtain ⟨k, _, rfl⟩ := w1; exact touch_live _ _ _ this
      | ripAddr t' k' => obtain ⟨_, bs, rfl, _⟩ := w1; exact this
    obtain ⟨ev', sp2, r2, a2, s2, z2, k2⟩ := ih s1 (fun l d e => hk l (hl l d (List.mem_cons_of_mem _ e))) h2
    refine ⟨ev ++ ev', sp2, Run.append.mpr ⟨_, r1, r2⟩, a1.append a2, s2, ?_, fun l h => k2 l (hk l h)⟩
    rw [z2, z1]; simp only [asize]; omega

end Asm

open G

/-- The CPU reaches the operand: the 32-bit field at offset `p` of the code, relative to the end `e` of the instruction, leads to
label + displacement (offsets from the start of the code), or to the given address. -/
def Addr.Reached (a : Addr) (code : List Byte) (top : Word) (bound : Nat → Nat → Prop) (p e : Nat) : Prop :=
  match a.label with
  | some l => ∀ o, bound l o → BitVec.ofNat 64 e + sextLE (bytesAt code p 4) = BitVec.ofNat 64 o + a.e.disp
  | none => a.mode = .ripAddr ∧ top + BitVec.ofNat 64 e + sextLE (bytesAt code p 4) = a.e.disp

theorem ripOf_touch {cx : Cx} {g : G} {sp sp' : Spec} {l : Nat} {d : Word} (s : St cx g sp) (st : Step cx (.ripL (.obj l) d) sp sp') :
    ∃ n, n ≠ 0 ∧ (sp.touch (.obj l)).keyRef (.obj l) = some (.obj n) ∧ sp'.objs l = some n := by
  obtain ⟨k, hk, rfl⟩ := st
  simp only [Spec.keyRef] at hk ⊢
  cases hx : (sp.touch (.obj l)).objs l with
  | none => rw [hx] at hk; cases hk
  | some n =>
    refine ⟨n, ?_, rfl, hx⟩
    rintro rfl
    unfold Spec.touch at hx
    simp only at hx
    split at hx
    · simp only [upd_same, Option.some.injEq] at hx
      have := s.inv.tab.idPos
      omega
    · rename_i hne; exact hne hx

/-- An instruction in the middle of a program: its bytes stay where they were emitted, and its fields reach the operands they were made
for. -/
theorem emit_reaches (env : Env) (he : env.Sane) (c : CA) (hc : NewCode c) (a d : List Op) (w : List Act) {S : Addr → Prop} (hw : Tail S 0 w)
    (g1 g2 g3 g4 : G) (ha : Hist (CallOk (cxOf c) env) env a (G.init c)) (h1 : G.run env a (G.init c) = .ok g1)
    (hlive : ∀ l x, .rel l x ∈ w → g1.heap l ≠ none) (h2 : G.emit env w g1 = .ok () g2)
    (hd : Hist (CallOk (cxOf c) env) env d g2) (h3 : G.run env d g2 = .ok g3) (hr : .reset ∉ d) (h4 : Final env g3 g4) :
    g2.ca.size = g1.ca.size + asize w ∧ ∀ p x q, w = p ++ x :: q →
      (∃ b, x = .byte b ∧ g4.ca.code[g1.ca.size + asize p]? = some b) ∨
      ∃ ad, S ad ∧ ad.FieldAt (asize q) x ∧
        ad.Reached g4.ca.code g4.ca.top (fun l o => (∀ op ∈ d, ¬ Renews l op) ∧ Bound g3 l o) (g1.ca.size + asize p) g2.ca.size := by
  obtain ⟨sp1, r1, s1⟩ := (St.mk hc.inv hc.safe (init_life c)).run he ha h1
  have hlive' : ∀ l x, .rel l x ∈ w → sp1.objs l ≠ none := by
    intro l x hx
    rw [s1.inv.tab.objs]
    cases hq : g1.heap l with
    | none => exact absurd hq (hlive l x hx)
    | some o => simp
  have hsz : g2.ca.size = g1.ca.size + asize w := by
    obtain ⟨_, sp2, _, _, s2, z2, _⟩ := emit_run he w s1 hlive' h2
    rw [s1.inv.buf.size, s2.inv.buf.size]; exact z2
  refine ⟨hsz, ?_⟩
  rintro p x q rfl
  obtain ⟨gp, e1, e2⟩ := emit_append h2
  obtain ⟨gx, e3, e4⟩ := emit_cons e2
  obtain ⟨_, spp, rp, ap, stp, zp, kp⟩ := emit_run he p s1 (fun l x hx => hlive' l x (List.mem_append_left _ hx)) e1
  obtain ⟨_, spx, rx, ax, stx, wx, zx⟩ := act_run he stp (fun l y e => kp l (hlive' l y (by rw [e]; simp))) e3
  have kx : ∀ l, spp.objs l ≠ none → spx.objs l ≠ none := by
    intro l this
    cases x with
    | byte b => cases wx; exact this
    | rel l' d' => obtain ⟨k, _, rfl⟩ := wx; exact touch_live _ _ _ this
    | ripAddr t' k' => obtain ⟨_, bs, rfl, _⟩ := wx; exact this
  obtain ⟨_, sp2, r2, a2, s2, z2, k2⟩ := emit_run he q stx (fun l y hy => kx l (kp l (hlive' l y (by simp [hy])))) e4
  obtain ⟨sp3, r3, s3⟩ := s2.run he hd h3
  have hg := (r2.grow a2.noreset).trans (r3.grow (outcomes_noreset hr))
  have hi := (final_implements s3.inv s3.safe h4).1
  have hp : g1.ca.size + asize p = spp.size := by rw [zp, s1.inv.buf.size]; rfl
  have hend : g2.ca.size = spp.size + x.size + asize q := by
    rw [s2.inv.buf.size]; show sp2.size = _; rw [z2, zx]
  rw [hp]
  cases x with
  | byte b =>
    refine .inl ⟨b, rfl, ?_⟩
    cases wx
    obtain ⟨cs, hcs⟩ := hg.cells
    exact hi.bytes spp.cells b cs (by rw [hcs]; simp [Spec.emit])
  | rel l y =>
    rcases hw p _ q rfl with ⟨b, hb⟩ | ⟨ad, hS, hf⟩
    · cases hb
    rw [Nat.add_zero] at hf
    refine .inr ⟨ad, hS, hf, ?_⟩
    obtain ⟨f1, f2, f3⟩ := hf
    unfold Addr.Reached
    rw [f1]
    rintro o ⟨hn, hb⟩
    obtain ⟨n, n0, nk, no⟩ := ripOf_touch stp wx
    obtain ⟨id, i0, io, idf⟩ := bound_spec s3 hb
    have t1 := r2.objs no n0 (a2.norenew l)
    have t2 := r3.objs t1 n0 (fun e he => hn _ (outcomes_fst env d g2 e he))
    rw [t2] at io; cases io
    have := (rip_lands (cx := cxOf c) wx hg hi nk idf).2
    rw [hend]
    simp only [Act.size]
    rw [BitVec.ofNat_add, BitVec.add_assoc, BitVec.add_comm (BitVec.ofNat 64 (asize q)), ← BitVec.add_assoc, this, f3, BitVec.add_assoc,
      BitVec.sub_add_cancel]
  | ripAddr t k =>
    rcases hw p _ q rfl with ⟨b, hb⟩ | ⟨ad, hS, hf⟩
    · cases hb
    rw [Nat.add_zero] at hf
    refine .inr ⟨ad, hS, hf, ?_⟩
    obtain ⟨f1, f2, f3, f4⟩ := hf
    unfold Addr.Reached
    rw [f1]
    refine ⟨f2, ?_⟩
    obtain ⟨hau, bs, rfl, hlen, hv⟩ := wx
    obtain ⟨cs, hcs⟩ := hg.cells
    have hb : bytesAt g4.ca.code spp.size 4 = bs := by
      apply List.ext_getElem?
      intro i
      unfold bytesAt
      rw [List.getElem?_take]
      split
      · rename_i h4i
        have hib : i < bs.length := by omega
        rw [List.getElem?_drop, List.getElem?_eq_getElem hib]
        have hsplit : bs = bs.take i ++ bs[i] :: bs.drop (i + 1) := by simp
        have hm : bs.map Cell.byte = (bs.take i).map .byte ++ .byte bs[i] :: (bs.drop (i + 1)).map .byte :=
          (congrArg (List.map Cell.byte) hsplit).trans (by simp only [List.map_append, List.map_cons])
        have := hi.bytes (spp.cells ++ (bs.take i).map .byte) bs[i] ((bs.drop (i + 1)).map .byte ++ cs) (by
          rw [hcs]
          simp only [Spec.emit]
          rw [hm]
          simp only [List.append_assoc, List.cons_append])
        rw [len_append, len_bytes, List.length_take, Nat.min_eq_left (Nat.le_of_lt hib)] at this
        exact this
      · rename_i h4i
        rw [List.getElem?_eq_none (by omega)]
    have ht : g4.ca.top = (cxOf c).top := by
      have := h4
      unfold Final at this
      rw [s3.inv.buf.auto, hau] at this
      rw [show g4 = g3 by simpa using this]
      exact s3.inv.buf.top hau
    rw [hb, ht, hend, ← f3, ← hv, f4]
    rfl

namespace Mn

/-- xbyak_mnemonic.h 1439 `vpextrw` -/
def vpextrwBody : Body := .guard (fun g => !(((g.reg 0).isREG 112 || (g.op 0).isMEM) && (g.reg 1).isXMM)) .BAD_COMBINATION
  (.ite (fun g => (g.reg 0).isREG && decide ((g.reg 1).idx.toNat < 16)) (.leaf (.avx3 (.xmmOf 0) (.r (.xmm 0)) (.a 1) (fl [T_0F, T_66]) 0xC5 (.i 0)))
    (.leaf (.vex (.a 1) none (.a 0) (fl [T_0F3A, T_66, T_EVEX, T_N2]) 0x15 (.i 0))))

set_option maxRecDepth 100000 in
theorem vpextrw_named : named n!"vpextrw" = [⟨1439, n!"vpextrw", [.op, .xmm, .int], 0, vpextrwBody⟩] := rfl

/-- All other functions use their `Operand` and `Address` parameters in every case. -/
theorem uses_all : all.all (fun e => Nat.beq e.name n!"vpextrw" ||
    (List.range (e.params.filter Param.isOperand).length).all fun i =>
      (match (e.params.filter Param.isOperand)[i]? with | some .op | some .addr => false | _ => true) || e.body.Uses (.a i)) = true := by
  decide +kernel

theorem Param.takes_mem {p : Param} {a : Addr} (h : p.takes (.mem a) = true) : p = .op ∨ p = .addr := by
  cases p <;> first | exact .inl rfl | exact .inr rfl | (simp [Param.takes, Operand.isMEM] at h)

/-- A memory operand of a call that needs a field gets one. -/
theorem puts_all {e : Entry} (he : e ∈ all) {g : Args} (hg : g.Fits e.params e.opt) (hs : ¬ e.body.Silent g) {m : Enc Unit}
    (hm : e.body.run g = some m) {a : Addr} (ha : .mem a ∈ g.ops) (h : a.Needs) : m.Puts a.IsField := by
  obtain ⟨i, hi⟩ := List.mem_iff_getElem?.mp ha
  have ho : (Slot.a i).op g = .mem a := by show (g.ops[i]?).getD _ = _; rw [hi]; rfl
  have hlt : i < g.ops.length := by
    rcases Nat.lt_or_ge i g.ops.length with h | h
    · exact h
    · rw [List.getElem?_eq_none h] at hi; cases hi
  obtain ⟨g1, g2, g3⟩ := hg
  have hp : i < (e.params.filter Param.isOperand).length := Nat.lt_of_lt_of_le hlt g1
  have ht := Param.takes_mem (g3 i _ _ (List.getElem?_eq_getElem hp) hi)
  have hu := List.all_eq_true.mp uses_all e he
  rcases Bool.or_eq_true_iff.mp hu with hn | hu
  · have : e ∈ named n!"vpextrw" := List.mem_filter.mpr ⟨he, hn⟩
    rw [vpextrw_named] at this
    cases List.mem_singleton.mp this
    have hi0 : i = 0 := by
      have hp : i < 2 := hp
      rcases (by omega : i = 0 ∨ i = 1) with rfl | rfl
      · rfl
      · rcases ht with ht | ht <;> cases ht
    subst hi0
    obtain ⟨m', hm', rfl⟩ := Option.map_eq_some_iff.mp hm
    refine .bindR fun _ => ?_
    have hr : (g.reg 0).isREG = false := by
      unfold Args.reg
      rw [show g.op 0 = .mem a from ho]
      show (a.o.isREG) = false
      unfold Reg.isREG
      simp [h.1]
    unfold Body.run at hm'
    rw [if_neg (by dsimp only; rw [hr, Bool.false_and]; exact Bool.false_ne_true)] at hm'
    cases hm'
    exact Leaf.puts (.vex ..) (fun h => h.elim) (s := .a 0) (by simp [Leaf.mems]) h ho
  · have hu := List.all_eq_true.mp hu i (List.mem_range.mpr hp)
    rw [List.getElem?_eq_getElem hp] at hu
    rcases ht with ht | ht <;> rw [ht] at hu <;> exact e.body.puts hs (by simpa using hu) h ho hm

end Mn
open Mn

/-- C31: the instruction with the acts `w` whose memory operands are `S`: its bytes are in the final code where they were emitted; each of its
fields reaches, from the end of the instruction, one of its operands; and the operand that needs a field has one. -/
def Reaches (S : Addr → Prop) (w : List Act) (c4 : CA) (bound : Nat → Nat → Prop) (start : Nat) : Prop :=
  (∀ p x q, w = p ++ x :: q → (∃ b, x = .byte b ∧ c4.code[start + asize p]? = some b) ∨
    ∃ ad, S ad ∧ ad.FieldAt (asize q) x ∧ ad.Reached c4.code c4.top bound (start + asize p) (start + asize w)) ∧
  ∀ ad, S ad → ad.Needs → (∀ ad', S ad' → ad' = ad) →
    ∃ p x q, w = p ++ x :: q ∧ ad.FieldAt (asize q) x ∧ ad.Reached c4.code c4.top bound (start + asize p) (start + asize w)

theorem reaches_of {S : Addr → Prop} {w : List Act} {c4 : CA} {bound : Nat → Nat → Prop} {start : Nat}
    (h : ∀ p x q, w = p ++ x :: q → (∃ b, x = .byte b ∧ c4.code[start + asize p]? = some b) ∨
      ∃ ad : Addr, (ad.mode ≠ .modRM → S ad) ∧ ad.FieldAt (asize q) x ∧ ad.Reached c4.code c4.top bound (start + asize p) (start + asize w))
    (h' : ∀ ad : Addr, S ad → ad.Needs → ∃ x ∈ w, ad.IsField x) : Reaches S w c4 bound start := by
  have hS : ∀ {ad : Addr} {k : Nat} {x : Act}, (ad.mode ≠ .modRM → S ad) → ad.FieldAt k x → S ad := by
    intro ad k x hs hf
    apply hs
    cases x with
    | byte b => exact hf.elim
    | rel l y => exact hf.2.1
    | ripAddr t i => rw [hf.2.1]; decide
  constructor
  · intro p x q e
    rcases h p x q e with hb | ⟨ad, hs, hf, hr⟩
    · exact .inl hb
    · exact .inr ⟨ad, hS hs hf, hf, hr⟩
  · intro ad hs hn hu
    obtain ⟨x, hx, hf⟩ := h' ad hs hn
    obtain ⟨p, q, e⟩ := List.append_of_mem hx
    rcases h p x q e with ⟨b, rfl, _⟩ | ⟨ad', hs', hf', hr⟩
    · exact hf.elim
    · cases hu ad' (hS hs' hf')
      exact ⟨p, x, q, e, hf', hr⟩

/-- **C31**, the functions of xbyak_mnemonic.h: a program `a`, then the instruction, then a program `d`, then `ready()` in auto-grow mode.
Partial: not for the calls of `RipBug` (the immediate size is not passed on: `c31_refuted_rorx`, `c46_refuted_rip`; which functions these are
is `c31_where`), and not for those of `Silent` (nothing at all is emitted for the operands: `c41_refuted_empty`). -/
theorem c31_table_partial (env : Env) (he : env.Sane) (c : CA) (hc : NewCode c) (a d : List Op) (e : Entry) (hm : e ∈ all) (g : Args)
    (hg : g.Fits e.params e.opt) (hf : g.Fresh) (hb : ¬ e.body.RipBug g) (hs : ¬ e.body.Silent g) {m : Enc Unit} (hr : e.body.run g = some m)
    (w : List Act) (hw : m.Gives w ()) (g1 g2 g3 g4 : G) (ha : Hist (CallOk (cxOf c) env) env a (G.init c)) (h1 : G.run env a (G.init c) = .ok g1)
    (hlive : ∀ ad l, .mem ad ∈ g.ops → ad.label = some l → g1.heap l ≠ none) (h2 : G.emit env w g1 = .ok () g2)
    (hd : Hist (CallOk (cxOf c) env) env d g2) (h3 : G.run env d g2 = .ok g3) (hn : .reset ∉ d) (h4 : Final env g3 g4) :
    g2.ca.size = g1.ca.size + asize w ∧
    Reaches (fun ad => .mem ad ∈ g.ops) w g4.ca (fun l o => (∀ op ∈ d, ¬ Renews l op) ∧ Bound g3 l o) g1.ca.size := by
  have ht := (Body.out hf e.body hb hr w () hw).1
  have hl : ∀ l x, .rel l x ∈ w → g1.heap l ≠ none := by
    intro l x hx
    obtain ⟨p, q, rfl⟩ := List.append_of_mem hx
    rcases ht p _ q rfl with ⟨b, hb⟩ | ⟨ad, hS, f1, f2, _⟩
    · cases hb
    · exact hlive ad l (hS f2) f1
  obtain ⟨hz, hx⟩ := emit_reaches env he c hc a d w ht g1 g2 g3 g4 ha h1 hl h2 hd h3 hn h4
  rw [hz] at hx
  exact ⟨hz, reaches_of hx fun ad hS hN => (puts_all hm hg hs hr hS hN).of _ _ hw⟩

theorem Direct.puts (d : Direct) {a : Addr} (h : a.Needs) (ha : .mem a ∈ d.ops) : d.run.Puts a.IsField := by
  cases d with
  | test op r => simp [ops] at ha; cases ha; exact E.test_puts h ..
  | testI op i => simp [ops] at ha; cases ha; exact E.testI_puts h ..
  | imulI r op i => simp [ops] at ha; cases ha; exact E.imulI_puts h ..
  | push op => simp [ops] at ha; cases ha; exact E.opPushPop_puts h ..
  | pop op => simp [ops] at ha; cases ha; exact E.opPushPop_puts h ..
  | mov p q => simp [ops] at ha; rcases ha with rfl | rfl; exact E.mov_puts1 h ..; exact E.mov_puts2 h ..
  | movI op i => simp [ops] at ha; cases ha; exact E.movI_puts h ..
  | xchg p q => simp [ops] at ha; rcases ha with rfl | rfl; exact E.xchg_puts1 h ..; exact E.xchg_puts2 h ..
  | movFromSeg op s => simp [ops] at ha; cases ha; exact E.movFromSeg_puts h ..
  | movToSeg s op => simp [ops] at ha; cases ha; exact E.movToSeg_puts h ..
  | jmpOp op f x => simp [ops] at ha; cases ha; exact E.opJmpOp_puts h ..
  | _ => cases ha

/-- **C31**, the instructions defined in xbyak.h. -/
theorem c31_direct (env : Env) (he : env.Sane) (c : CA) (hc : NewCode c) (a d : List Op) (x : Direct) (hx : x.Ok) (w : List Act)
    (hw : x.run.Gives w ()) (g1 g2 g3 g4 : G) (ha : Hist (CallOk (cxOf c) env) env a (G.init c)) (h1 : G.run env a (G.init c) = .ok g1)
    (hlive : ∀ ad l, .mem ad ∈ x.ops → ad.label = some l → g1.heap l ≠ none) (h2 : G.emit env w g1 = .ok () g2)
    (hd : Hist (CallOk (cxOf c) env) env d g2) (h3 : G.run env d g2 = .ok g3) (hn : .reset ∉ d) (h4 : Final env g3 g4) :
    g2.ca.size = g1.ca.size + asize w ∧
    Reaches (fun ad => .mem ad ∈ x.ops) w g4.ca (fun l o => (∀ op ∈ d, ¬ Renews l op) ∧ Bound g3 l o) g1.ca.size := by
  have ht := (Direct.out x hx w () hw).1
  have hl : ∀ l y, .rel l y ∈ w → g1.heap l ≠ none := by
    intro l y hy
    obtain ⟨p, q, rfl⟩ := List.append_of_mem hy
    rcases ht p _ q rfl with ⟨b, hb⟩ | ⟨ad, hS, f1, f2, _⟩
    · cases hb
    · exact hlive ad l (hS f2) f1
  obtain ⟨hz, hq⟩ := emit_reaches env he c hc a d w ht g1 g2 g3 g4 ha h1 hl h2 hd h3 hn h4
  rw [hz] at hq
  exact ⟨hz, reaches_of hq fun ad hS hN => (x.puts hN hS).of _ _ hw⟩

namespace Mn

/-- The calls of `RipBug` that the shape of the function allows. -/
def Leaf.mayBug : Leaf → Bool
  | shiftI .. => true
  | rextI _ _ _ t _ _ => t.has T_APX
  | rro _ _ _ _ _ i => match i with | .none => false | _ => true
  | _ => false
def Body.mayBug : Body → Bool
  | leaf l => l.mayBug
  | guard _ _ b | check _ _ _ b | pre _ _ b | apx _ _ _ _ _ b => b.mayBug
  | ite _ t e => t.mayBug || e.mayBug
  | jmp .. | jmpAbs .. => false

theorem Body.mayBug_of {g : Args} (b : Body) (h : b.RipBug g) : b.mayBug = true := by
  induction b with
  | leaf l =>
    cases l with
    | rro d r op t c i =>
      have : i ≠ .none := h.2.1
      cases i <;> first | rfl | exact absurd rfl this
    | shiftI => rfl
    | rextI op b e t c i => exact h.2
    | _ => exact h.elim
  | guard _ _ b ih => exact ih h
  | check _ _ _ b ih => exact ih h
  | pre _ _ b ih => exact ih h
  | apx _ _ _ _ _ b ih => exact ih h
  | ite c t e iht ihe =>
    unfold Body.RipBug at h
    unfold Body.mayBug
    split at h
    · rw [iht h, Bool.true_or]
    · rw [ihe h, Bool.or_true]
  | jmp | jmpAbs => exact h.elim

theorem mayBug_all : all.all (fun e => !e.body.mayBug ||
    [n!"rcl", n!"rcr", n!"rol", n!"ror", n!"sal", n!"sar", n!"shl", n!"shr", n!"rorx"].any (Nat.beq e.name)) = true := by decide +kernel

end Mn

/-- The functions that compute a wrong displacement for some operands are the shifts and rotates by an immediate and `rorx`. -/
theorem c31_where (e : Entry) (he : e ∈ all) (g : Args) (h : e.body.RipBug g) :
    e.name ∈ [n!"rcl", n!"rcr", n!"rol", n!"ror", n!"sal", n!"sar", n!"shl", n!"shr", n!"rorx"] := by
  have h1 := List.all_eq_true.mp mayBug_all e he
  rw [e.body.mayBug_of h] at h1
  obtain ⟨n, hn, hb⟩ := List.any_eq_true.mp (Bool.or_eq_true_iff.mp h1 |>.resolve_left (by decide))
  rw [Nat.eq_of_beq_eq_true hb]
  exact hn

/-- `add(dword [rip + L + 8], 1000)` after `nop`, then `ret` and `L:`: the instruction ends at 11, `L` is at 12, the field 4 bytes before the
end is 9 = 12 + 8 - 11. -/
example : (match (do G.step demoEnv (.newLabel 0); G.step demoEnv (.db 0x90)
                     G.emit demoEnv (E.opOI (.mem (Addr.ofRip 32 false { disp := 8, label := some 0 })) 1000 0 0).acts
                     G.step demoEnv (.db 0xC3); G.step demoEnv (.defL (.obj 0)) : M G Unit) (G.init demoCA) with
    | .ok _ g => g.ca.code.take 12 | _ => []) = [0x90, 0x81, 0x05, 9, 0, 0, 0, 0xE8, 3, 0, 0, 0xC3] := by decide +kernel

/-- C31 does not hold in full: `rorx(eax, dword [rip + L], 3)` allows for the immediate byte, `rorx(r16d, dword [rip + L], 3)` does not. -/
theorem c31_refuted_rorx : let a := Addr.ofRip 32 false { label := some 1 }
    ∃ e ∈ all, e.name = n!"rorx" ∧
      (e.body.run { ops := [.reg (.gp 0 32), .mem a], ints := [3] }).map (fun m => m.acts) =
        some [.byte 0xC4, .byte 0xE3, .byte 0x7B, .byte 0xF0, .byte 0x05, .rel 1 (-1), .byte 3] ∧
      (e.body.run { ops := [.reg (.gp 16 32), .mem a], ints := [3] }).map (fun m => m.acts) =
        some [.byte 0x62, .byte 0xE3, .byte 0x7F, .byte 0x08, .byte 0xF0, .byte 0x05, .rel 1 0, .byte 3] := by
  refine ⟨(named n!"rorx").head (by decide +kernel), ?_, ?_, ?_, ?_⟩
  · exact (List.mem_filter.mp (List.head_mem _)).1
  · decide +kernel
  · decide +kernel
  · decide +kernel

end Xbyak
