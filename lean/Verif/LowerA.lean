import Verif.LowerG
import Verif.Props.Apx
import Verif.Spec.ApxForms
/-!
# From integer instructions to `opROO`

The helpers whose instructions have an extended EVEX form call `opROO` (xbyak.h 2253-2273) for APX operands.  Which call that is depends on the
arguments only through their kinds and sizes (`Leaf.ashapes`, `Body.ashapes`); `Body.asent` proves it.
-/
namespace Xbyak
namespace Mn
open E

/-- Why a helper calls `opROO`: it always does; `opROI` (xbyak.h 2368-2374); `opRRO` (xbyak.h 2540); `opSSE_APX` (xbyak.h 2828); `opEncodeKey` (xbyak.h 2820). -/
inductive How | roo | roi | rro | sse | key
  deriving DecidableEq

/-- A call of `opROO`: its three operands, flags, opcode, number of immediate bytes it is told, the integer argument written behind it with
its size, an argument known to be CL. -/
structure AShape where
  d : Slot
  a : Slot
  b : Slot
  t : Ty
  c : Byte
  n : Nat := 0
  imm : Option (Nat × Nat) := none
  cl : Option Nat := none
  how : How := .roo

/-- The immediate bytes. -/
def AShape.tail (sh : AShape) (g : Args) : List Byte := match sh.imm with | some (i, k) => leBytes k (g.int i) | none => []

/-- The operands choose the extended EVEX form. -/
def AShape.used (sh : AShape) (g : Args) : Bool :=
  match sh.how with
  | .roo | .roi => rooUsed (sh.d.reg g) (sh.a.op g) (sh.b.op g) sh.t
  | .rro => (sh.b.reg g).hasRex2 || (sh.d.reg g).hasRex2 || (sh.a.op g).hasRex2 || (sh.b.reg g).nf
  | .sse => (sh.a.op g).hasRex2
  | .key => !(decide ((sh.b.reg g).idx.toNat < 8) && decide ((sh.a.reg g).idx.toNat < 8))

/-- What was written is a call of this shape. -/
structure ASent (g : Args) (sh : AShape) (w : List Act) : Prop where
  call : ∃ w' v, w = w' ++ (sh.tail g).map .byte ∧ (opROO (sh.d.reg g) (sh.a.op g) (sh.b.op g) sh.t sh.c sh.n).Gives w' v
  roo : rooUsed (sh.d.reg g) (sh.a.op g) (sh.b.op g) sh.t = true
  cl : ∀ i, sh.cl = some i → (g.reg i).idx = 1

/-- The integer argument written as a byte. -/
def Imm.arg : Imm → Option (Nat × Nat)
  | .i k => some (k, 1)
  | _ => Option.none
def Imm.len : Imm → Nat
  | .none => 0
  | _ => 1
/-- No immediate, or an integer argument. -/
def Imm.plain : Imm → Bool
  | .none | .i _ => true
  | _ => false

/-- The sizes of immediates for an operand size. -/
def immBits (b : Nat) : List Nat := if Nat.beq b 8 then [8] else if Nat.beq b 16 then [8, 16] else [8, 32]

/-- The call made for arguments of these kinds and sizes (for immediates: one for each size). -/
def Leaf.ashapes (G : Args) : Leaf → List AShape
  | roo d a b t c => [{ d, a, b, t, c }]
  | roi d op i t e => match d with
    | .a j => (immBits (G.reg j).bit).map fun k =>
        { d, a := op, b := .bitOf j e, t, c := 0x80 ||| (if k < min (G.reg j).bit 32 then 2 else 0), n := k / 8, imm := some (i, k / 8), how := .roi }
    | _ => []
  | mr m r _ c t2 c2 => if t2 = 0 then [] else [{ d := .r .nil, a := m, b := r, t := t2, c := c2.getD c }]
  | shxd d op r i _ c2 => [{ d, a := op, b := r, t := T_APX ||| T_NF ||| (if (d.reg G).isREG then T_ND1 else 0), c := c2, n := 1, imm := some (i, 1) }]
  | shxdCL d op r cl c _ => [{ d, a := op, b := r, t := T_APX ||| T_NF ||| (if (d.reg G).isREG then T_ND1 else 0), c := c ||| 1, cl := cl.arg }]
  | rro d r op t c i => [{ d := r, a := op, b := d, t := t ||| (if (d.reg G).bit = 64 then T_W1 else T_W0), c, how := .rro
                           imm := i.arg }]
  | sseApx x op _ _ t2 c2 i => [{ d := .r .nil, a := op, b := x, t := t2, c := c2, how := .sse
                                  n := i.len
                                  imm := i.arg }]
  | kmov k op rev size =>
    let isReg := (op.reg G).isREG (if size < 64 then 32 else 64)
    let mem := (op.op G).isMEM
    let type : Ty := T_APX ||| (T_0F ||| (if size = 8 then T_W0 ||| T_66 else if size = 16 then T_W0
      else if size = 32 then (if isReg then T_W0 ||| T_F2 else T_W1 ||| T_66)
      else if size = 64 then (if isReg then T_W1 ||| T_F2 else T_W1) else 0))
    if rev then if isReg then [{ d := .r .nil, a := k, b := op, t := type, c := 0x93 }] else if mem then [{ d := .r .nil, a := op, b := k, t := type, c := 0x91 }] else []
    else if (op.reg G).isOPMASK || mem then [{ d := .r .nil, a := op, b := k, t := type, c := 0x90 }]
    else if isReg then [{ d := .r .nil, a := op, b := k, t := type, c := 0x92 }] else []
  | encodeKey r1 r2 _ c2 => [{ d := .r .nil, a := r2, b := r1, t := T_MUST_EVEX ||| T_F3, c := c2, how := .key }]
  | _ => []

/-- Slots whose kind and size follow from those of the arguments. -/
def Slot.stable : Slot → Bool
  | .a _ | .r _ | .bitOf .. => true
  | _ => false

/-- The leaves `Leaf.asent` speaks about. -/
def Leaf.aped (ps : List Param) : Leaf → Bool
  | roo .. => true
  | roi d _ _ _ _ => d.arg.isSome && d.isMem ps == some false
  | mr m r _ _ t2 _ => m.arg.isSome && m.isMem ps == some true && r.isMem ps == some false && t2 != 0
  | shxd d _ r _ _ _ => d.stable && r.isMem ps == some false
  | shxdCL d _ r cl _ _ => d.stable && r.isMem ps == some false && cl.arg.isSome
  | rro d r _ _ _ i => d.stable && d.isMem ps == some false && r.isMem ps == some false && i.plain
  | sseApx x _ _ _ _ _ i => x.isMem ps == some false && i.plain
  | kmov k op _ _ => k.isMem ps == some false && op.stable
  | encodeKey r1 r2 _ _ => r1.isMem ps == some false && r2.isMem ps == some false
  | _ => false

variable {g : Args} {ps : List Param} {w : List Act}

theorem Slot.stable_rep {s : Slot} (h : s.stable = true) (g : Args) : (s.op g.rep).isMEM = (s.op g).isMEM ∧ (s.reg g.rep).kind = (s.reg g).kind ∧ (s.reg g.rep).bit = (s.reg g).bit := by
  cases s with
  | a i => exact Args.rep_facts g i
  | r q => exact ⟨rfl, rfl, rfl⟩
  | bitOf i n => exact ⟨rfl, rfl, Args.rep_bit g i⟩
  | _ => cases h

theorem Slot.op_reg (ht : g.Are ps) {s : Slot} (h : s.isMem ps = some false) : s.op g = .reg (s.reg g) := by
  have := Slot.isMem_op ht h
  unfold Slot.reg
  cases ho : s.op g with
  | mem a => rw [ho] at this; cases this
  | reg q => rfl

theorem leBytes_one (x : Word) : leBytes 1 x = [x.setWidth 8] := by
  simp [leBytes, List.range_succ]

theorem leBytes_i32 {k : Nat} (hk : k ≤ 4) (x : Word) : leBytes k ((x.setWidth 32).setWidth 64) = leBytes k x := by
  unfold leBytes
  refine List.map_congr_left fun i hi => ?_
  have hi : i < k := List.mem_range.mp hi
  ext j hj
  simp only [BitVec.getElem_setWidth, BitVec.getLsbD_ushiftRight, BitVec.getLsbD_setWidth]
  have h1 : 8 * i + j < 32 := by omega
  have h2 : 8 * i + j < 64 := by omega
  simp [h1, h2]

theorem val_i8 {i : Imm} (h : i.plain = true) (g : Args) :
    (i.val g).toList.map Act.byte = (match i.arg with | some (i, k) => leBytes k (g.int i) | none => [] : List Byte).map .byte := by
  cases i with
  | none => rfl
  | i k => show [Act.byte (g.i8 k)] = (leBytes 1 (g.int k)).map Act.byte; rw [leBytes_one]; rfl
  | _ => cases h

theorem ASent.plain {d a b : Slot} {t : Ty} {c : Byte} {m : Enc Unit} (hu : rooUsed (d.reg g) (a.op g) (b.op g) t = true)
    (hw : (opROO (d.reg g) (a.op g) (b.op g) t c >>= fun done => if done then Pure.pure () else m).Gives w ()) : ASent g { d, a, b, t, c } w := by
  rw [Enc.gives_bind] at hw
  obtain ⟨w1, v, w2, h1, hw, rfl⟩ := hw
  obtain ⟨_, rfl, _⟩ := (roo_gives _ _ _ _ _ _ _ hu _ _).1 h1
  rw [if_pos rfl, Enc.gives_pure] at hw
  exact ⟨⟨w1, true, by simp [AShape.tail, hw.1], h1⟩, hu, fun _ h => by cases h⟩

/-- A call of a helper for APX operands is the call of `opROO`. -/
theorem Leaf.asent (ht : g.Are ps) {l : Leaf} (hi : ∀ sh ∈ l.ashapes g.rep, (∀ i, sh.cl = some i → (g.reg i).idx = 1) → sh.used g = true)
    (hx : ∀ sh ∈ l.ashapes g.rep, (sh.how = .sse → (sh.b.reg g).isXMM = true) ∧ (sh.how = .roi → (sh.d.reg g).kind = .reg))
    (hb : ∀ j, (g.reg j).kind = .reg → (g.reg j).bit = 8 ∨ (g.reg j).bit = 16 ∨ (g.reg j).bit = 32 ∨ (g.reg j).bit = 64)
    (hl : l.aped ps = true) (hw : (l.run g).Gives w ()) :
    ∃ sh ∈ l.ashapes g.rep, ASent g sh w := by
  cases l with
  | roo d a b t c =>
    have hu := hi _ (List.mem_singleton.mpr rfl) (fun _ h => by cases h)
    replace hw : (opROO (d.reg g) (a.op g) (b.op g) t c >>= fun _ => (Pure.pure () : Enc Unit)).Gives w () := hw
    rw [Enc.gives_bind] at hw
    obtain ⟨w1, v, w2, h1, h2, rfl⟩ := hw
    rw [Enc.gives_pure] at h2
    refine ⟨_, List.mem_singleton.mpr rfl, ⟨w1, v, by simp [AShape.tail, h2.1], h1⟩, hu, fun _ h => by cases h⟩
  | roi d op i t e =>
    simp only [Leaf.aped, Bool.and_eq_true, beq_iff_eq] at hl
    obtain ⟨j, rfl⟩ := Slot.arg_eq hl.1
    have hkj : (g.reg j).kind = .reg := by
      have hne : ∃ k, k ∈ immBits (g.rep.reg j).bit := ⟨8, by unfold immBits; split; · decide
                                                              split <;> decide⟩
      obtain ⟨k, hk⟩ := hne
      exact (hx _ (List.mem_map.mpr ⟨k, hk, rfl⟩)).2 rfl
    have hbj := hb j hkj
    replace hw : (opROI (g.reg j) (op.op g) (g.i32 i) t e).Gives w () := hw
    unfold opROI at hw
    rw [Enc.gives_bind] at hw
    obtain ⟨w0, k, w1, hk, hw2, rfl⟩ := hw
    have hdb : (Operand.reg (g.reg j)).bit = 8 ∨ (Operand.reg (g.reg j)).bit = 16 ∨ (Operand.reg (g.reg j)).bit = 32 ∨ (Operand.reg (g.reg j)).bit = 64 := hbj
    obtain ⟨rfl, hk'⟩ := getImmBit_gives (.reg (g.reg j)) (g.i32 i) w0 k hk hdb
    have hc := immBit_cases hdb hk'
    unfold Operand.bit Operand.hd at hc
    dsimp only at hc
    dsimp only at hw2
    rw [Enc.gives_bind] at hw2
    obtain ⟨w2, v, w3, hr, hd, rfl⟩ := hw2
    rw [Enc.gives_dbN] at hd
    subst hd
    have hmem : k ∈ immBits (g.rep.reg j).bit := by
      rw [Args.rep_bit]
      rcases hc with ⟨h1, h2⟩ | ⟨h1, h2, _⟩ | ⟨h1, h2⟩ | ⟨h1, h2, _⟩ | ⟨h1, h2⟩ | ⟨h1, h2, _⟩ | ⟨h1, h2⟩ <;> rw [h1, h2] <;> decide
    have hk4 : k / 8 ≤ 4 := by omega
    refine ⟨_, List.mem_map.mpr ⟨k, hmem, rfl⟩, ⟨w2, v, ?_, ?_⟩, ?_, fun _ h => by cases h⟩
    · rw [List.nil_append]
      congr 2
      exact leBytes_i32 hk4 _
    · rw [Args.rep_bit]; exact hr
    · show rooUsed (g.reg j) _ _ _ = true
      unfold rooUsed Reg.isREG
      rw [hkj]; simp
  | mr m r t c t2 c2 =>
    simp only [Leaf.aped, Bool.and_eq_true, beq_iff_eq, bne_iff_ne] at hl
    obtain ⟨⟨⟨hm, hmm⟩, hr⟩, h2⟩ := hl
    obtain ⟨k, rfl⟩ := Slot.arg_eq hm
    have e : (mr (.a k) r t c t2 c2).ashapes g.rep = [{ d := .r .nil, a := .a k, b := r, t := t2, c := c2.getD c }] := by
      simp only [Leaf.ashapes, if_neg h2]
    have hu := hi _ (e ▸ List.mem_singleton.mpr rfl) (fun _ h => by cases h)
    rw [e]
    obtain ⟨a, ha⟩ := isMEM_iff (Slot.isMem_op ht hmm)
    have ha : g.op k = .mem a := ha
    replace hw : (opMR (g.mem k) (r.reg g) t c t2 c2).Gives w () := hw
    rw [show g.mem k = a by unfold Args.mem; rw [ha]] at hw
    unfold opMR at hw
    rw [if_pos h2, Enc.gives_bind] at hw
    obtain ⟨w1, v, w2, h1, hw, rfl⟩ := hw
    have e1 : (Slot.a k).op g = .mem a := ha
    have e2 := Slot.op_reg ht hr
    have hu : rooUsed .nil ((Slot.a k).op g) (r.op g) t2 = true := hu
    rw [e1, e2] at hu
    obtain ⟨_, rfl, _⟩ := (roo_gives _ _ _ _ _ _ _ hu _ _).1 h1
    dsimp only at hw
    rw [if_pos rfl, Enc.gives_pure] at hw
    refine ⟨_, List.mem_singleton.mpr rfl, ⟨w1, true, by simp [AShape.tail, hw.1], ?_⟩, ?_, fun _ h => by cases h⟩
    · rw [e1, e2]; exact h1
    · rw [e1, e2]; exact hu
  | shxd d op r i c c2 =>
    simp only [Leaf.aped, Bool.and_eq_true, beq_iff_eq] at hl
    have hu := hi _ (List.mem_singleton.mpr rfl) (fun _ h => by cases h)
    have hs := Slot.stable_rep hl.1 g
    have hR : (d.reg g.rep).isREG = (d.reg g).isREG := by unfold Reg.isREG Reg.isBit; rw [hs.2.1, hs.2.2]
    have e2 := Slot.op_reg ht hl.2
    replace hw : (opShxd (d.reg g) (op.op g) (r.reg g) (g.i8 i) c c2).Gives w () := hw
    unfold opShxd at hw
    dsimp only at hw
    rw [Enc.throwIf_bind, Enc.throwIf_bind, Enc.gives_bind] at hw
    obtain ⟨_, _, w1, v, w2, h1, hw, rfl⟩ := hw
    unfold AShape.used at hu
    dsimp only at hu
    rw [e2, hR] at hu
    obtain ⟨_, rfl, _⟩ := (roo_gives _ _ _ _ _ _ _ hu _ _).1 h1
    try dsimp only at hw
    rw [if_pos rfl] at hw
    have hw : ((Pure.pure () : Enc Unit) >>= fun _ => Enc.db (g.i8 i)).Gives w2 () := hw
    rw [Enc.pure_bind, Enc.gives_db] at hw
    refine ⟨_, List.mem_singleton.mpr rfl, ⟨w1, true, ?_, ?_⟩, ?_, fun _ h => by cases h⟩
    · rw [hw]; show _ = w1 ++ (leBytes 1 (g.int i)).map Act.byte; rw [leBytes_one]; rfl
    · dsimp only; rw [e2, hR]; exact h1
    · dsimp only; rw [e2, hR]; exact hu
  | shxdCL d op r cl c c2 =>
    simp only [Leaf.aped, Bool.and_eq_true, beq_iff_eq] at hl
    obtain ⟨⟨hl1, hl2⟩, hl3⟩ := hl
    obtain ⟨j, rfl⟩ := Slot.arg_eq hl3
    have hs := Slot.stable_rep hl1 g
    have hR : (d.reg g.rep).isREG = (d.reg g).isREG := by unfold Reg.isREG Reg.isBit; rw [hs.2.1, hs.2.2]
    have e2 := Slot.op_reg ht hl2
    replace hw : (opShxd (d.reg g) (op.op g) (r.reg g) 0 c c2 (some (g.reg j))).Gives w () := hw
    unfold opShxd at hw
    dsimp only at hw
    rw [Enc.throwIf_bind, Enc.throwIf_bind, Enc.gives_bind] at hw
    obtain ⟨hcl, _, w1, v, w2, h1, hw, rfl⟩ := hw
    have hcl : (g.reg j).idx = 1 := by simpa using hcl
    have hcl' : ∀ i, (Slot.a j).arg = some i → (g.reg i).idx = 1 := by
      intro i h; cases h; exact hcl
    have hu := hi _ (List.mem_singleton.mpr rfl) hcl'
    unfold AShape.used at hu
    dsimp only at hu
    rw [e2, hR] at hu
    obtain ⟨_, rfl, _⟩ := (roo_gives _ _ _ _ _ _ _ hu _ _).1 h1
    try dsimp only at hw
    rw [if_pos rfl] at hw
    have hw : ((Pure.pure () : Enc Unit) >>= fun _ => Enc.dbIf false 0).Gives w2 () := hw
    rw [Enc.pure_bind] at hw
    have hw : w2 = [] := hw.1.symm
    refine ⟨_, List.mem_singleton.mpr rfl, ⟨w1, true, by simp [AShape.tail, hw], ?_⟩, ?_, hcl'⟩
    · dsimp only; rw [e2, hR]; exact h1
    · dsimp only; rw [e2, hR]; exact hu
  | rro d r op t c i =>
    simp only [Leaf.aped, Bool.and_eq_true, beq_iff_eq] at hl
    obtain ⟨⟨⟨l1, l2⟩, l3⟩, l4⟩ := hl
    have hu := hi _ (List.mem_singleton.mpr rfl) (fun _ h => by cases h)
    have e1 := Slot.op_reg ht l2
    have hbit := (Slot.stable_rep l1 g).2.2
    replace hw : (opRRO (d.reg g) (r.reg g) (op.op g) t c (i.val g)).Gives w () := hw
    unfold opRRO at hw
    dsimp only at hw
    have hu : ((d.reg g).hasRex2 || (r.reg g).hasRex2 || (op.op g).hasRex2 || (d.reg g).nf) = true := hu
    rw [Enc.throwIf_bind, if_pos hu, Enc.gives_bind] at hw
    obtain ⟨_, w1, v, w2, h1, hw, rfl⟩ := hw
    rw [gives_dbOpt] at hw
    refine ⟨_, List.mem_singleton.mpr rfl, ⟨w1, v, ?_, ?_⟩, ?_, fun _ h => by cases h⟩
    · rw [hw]; congr 1; exact val_i8 l4 g
    · dsimp only; rw [e1, hbit]; exact h1
    · dsimp only
      rw [e1]
      unfold rooUsed
      simp only [Bool.or_eq_true] at hu
      have hd : ∀ q : Reg, q.hasRex2 = true → (Operand.reg q).hasRex2NFZU = true := by
        intro q hq
        unfold Operand.hasRex2NFZU Operand.hasRex2
        simp [hq]
      rcases hu with ((h | h) | h) | h
      · simp [hd _ h]
      · simp [hd _ h]
      · simp [Operand.hasRex2NFZU, h]
      · have : (Operand.reg (d.reg g)).hasRex2NFZU = true := by
          unfold Operand.hasRex2NFZU; simp [Operand.hd, h]
        simp [this]
  | sseApx x op t1 c1 t2 c2 i =>
    simp only [Leaf.aped, Bool.and_eq_true, beq_iff_eq] at hl
    have hu := hi _ (List.mem_singleton.mpr rfl) (fun _ h => by cases h)
    have hu : (op.op g).hasRex2 = true := hu
    have e1 := Slot.op_reg ht hl.1
    replace hw : (opSSE_APX (x.reg g) (op.op g) t1 c1 t2 c2 (i.val g)).Gives w () := hw
    unfold opSSE_APX at hw
    have hR : rooUsed .nil (op.op g) (.reg (x.reg g)) t2 = true := by
      unfold rooUsed Operand.hasRex2NFZU; simp [hu]
    by_cases h15 : (x.reg g).idx.toNat ≤ 15
    · rw [if_pos (by rw [hu]; simp [h15]), Enc.gives_bind] at hw
      obtain ⟨w1, v, w2, h1, hw, rfl⟩ := hw
      obtain ⟨_, rfl, _⟩ := (roo_gives _ _ _ _ _ _ _ hR _ _).1 h1
      dsimp only at hw
      rw [if_pos rfl, gives_dbOpt] at hw
      refine ⟨_, List.mem_singleton.mpr rfl, ⟨w1, true, ?_, ?_⟩, ?_, fun _ h => by cases h⟩
      · rw [hw]; congr 1; exact val_i8 hl.2 g
      · dsimp only; rw [e1]
        have : optSize (i.val g) = i.len := by cases i <;> rfl
        rw [← this]; exact h1
      · dsimp only; rw [e1]; exact hR
    · exfalso
      rw [if_neg (by simp [h15]), Enc.pure_bind] at hw
      dsimp only at hw
      rw [if_neg Bool.false_ne_true] at hw
      unfold opSSE at hw
      rw [Enc.throwIf_bind, Enc.throwIf_bind] at hw
      have := hw.2.1
      unfold isValidSSE at this
      rw [show (Operand.reg (x.reg g)).hd = x.reg g from rfl, show (x.reg g).isXMM = true from (hx _ (List.mem_singleton.mpr rfl)).1 rfl] at this
      simp [show 16 ≤ (x.reg g).idx.toNat by omega] at this
  | kmov k op rev size =>
    simp only [Leaf.aped, Bool.and_eq_true, beq_iff_eq] at hl
    obtain ⟨hkm, hos⟩ := hl
    have hs := Slot.stable_rep hos g
    have e1 := Slot.op_reg ht hkm
    have hR : ∀ m, (op.reg g.rep).isREG m = (op.reg g).isREG m := by intro m; unfold Reg.isREG Reg.isBit; rw [hs.2.1, hs.2.2]
    have hO : (op.reg g.rep).isOPMASK = (op.reg g).isOPMASK := by unfold Reg.isOPMASK; rw [hs.2.1]
    replace hw : (opKmov (k.reg g) (op.op g) rev size).Gives w () := hw
    unfold opKmov at hw
    dsimp only at hw
    have eR : (op.op g).isREG (if size < 64 then 32 else 64) = (op.reg g).isREG (if size < 64 then 32 else 64) := rfl
    have eO : (op.op g).hd.isOPMASK = (op.reg g).isOPMASK := rfl
    rw [eR, eO] at hw
    simp only [Leaf.ashapes, hR, hO, hs.1] at hi ⊢
    rw [Enc.throwIf_bind] at hw
    obtain ⟨hc, hw⟩ := hw
    generalize hr : (op.reg g).isREG (if size < 64 then 32 else 64) = isReg at *
    generalize hm : (op.op g).isMEM = mem at *
    generalize (op.reg g).isOPMASK = opm at *
    cases rev with
    | true =>
      simp only [if_true] at hi hw hc ⊢
      cases isReg with
      | true =>
        simp only [if_true] at hi hw ⊢
        refine ⟨_, List.mem_singleton.mpr rfl, ?_⟩
        have hu := hi _ (List.mem_singleton.mpr rfl) (fun _ h => by cases h)
        exact ASent.plain hu (by rw [e1]; exact hw)
      | false =>
        simp only [Bool.false_eq_true, if_false] at hi hw hc ⊢
        cases mem with
        | true =>
          simp only [if_true] at hi hw ⊢
          refine ⟨_, List.mem_singleton.mpr rfl, ?_⟩
          have hu := hi _ (List.mem_singleton.mpr rfl) (fun _ h => by cases h)
          exact ASent.plain hu (by rw [e1]; exact hw)
        | false => simp at hc
    | false =>
      simp only [Bool.false_eq_true, if_false] at hi hw hc ⊢
      cases hom : (opm || mem) with
      | true =>
        simp only [hom, if_true] at hi hw ⊢
        refine ⟨_, List.mem_singleton.mpr rfl, ?_⟩
        have hu := hi _ (List.mem_singleton.mpr rfl) (fun _ h => by cases h)
        exact ASent.plain hu (by rw [e1]; exact hw)
      | false =>
        simp only [hom, Bool.false_eq_true, if_false] at hi hw hc ⊢
        cases isReg with
        | true =>
          simp only [if_true] at hi hw ⊢
          refine ⟨_, List.mem_singleton.mpr rfl, ?_⟩
          have hu := hi _ (List.mem_singleton.mpr rfl) (fun _ h => by cases h)
          exact ASent.plain hu (by rw [e1]; exact hw)
        | false => simp at hc
  | encodeKey r1 r2 c1 c2 =>
    simp only [Leaf.aped, Bool.and_eq_true, beq_iff_eq] at hl
    have hu := hi _ (List.mem_singleton.mpr rfl) (fun _ h => by cases h)
    have e1 := Slot.op_reg ht hl.1
    have e2 := Slot.op_reg ht hl.2
    replace hw : (opEncodeKey (r1.reg g) (r2.reg g) c1 c2).Gives w () := hw
    unfold opEncodeKey at hw
    have hu : (!(decide ((r1.reg g).idx.toNat < 8) && decide ((r2.reg g).idx.toNat < 8))) = true := hu
    rw [if_neg (by intro h; rw [decide_eq_true h.1, decide_eq_true h.2] at hu; cases hu), Enc.gives_bind] at hw
    obtain ⟨w1, v, w2, h1, hw, rfl⟩ := hw
    rw [Enc.gives_pure] at hw
    refine ⟨_, List.mem_singleton.mpr rfl, ⟨w1, v, by simp [AShape.tail, hw.1], ?_⟩, ?_, fun _ h => by cases h⟩
    · dsimp only; rw [e1, e2]; exact h1
    · dsimp only; unfold rooUsed; rw [show (T_MUST_EVEX ||| T_F3 : Ty).has T_MUST_EVEX = true from by decide]; rfl
  | _ => cases hl

/-! ## Bodies -/

def Body.ashapes (G : Args) : Body → List AShape
  | leaf l => l.ashapes G
  | guard bad _ b => if bad G then [] else b.ashapes G
  | apx d a b t c _ => [{ d, a, b, t, c }]
  | ite c t e => if c G then t.ashapes G else e.ashapes G
  | _ => []

/-- A function considered here. -/
def Body.aped (ps : List Param) : Body → Bool
  | leaf l => l.aped ps
  | guard _ _ b => b.aped ps
  | apx .. => true
  | ite _ t e => t.aped ps && e.aped ps
  | _ => false

/-- The conditions of the body, as far as `ashapes` follows it, depend on kinds and sizes only. -/
def Body.AbsA : Body → Prop
  | guard bad _ b => (∀ g : Args, bad g.rep = bad g) ∧ b.AbsA
  | ite c t e => (∀ g : Args, c g.rep = c g) ∧ t.AbsA ∧ e.AbsA
  | _ => True

theorem Body.asent (ht : g.Are ps) {b : Body} (hi : ∀ sh ∈ b.ashapes g.rep, (∀ i, sh.cl = some i → (g.reg i).idx = 1) → sh.used g = true)
    (hx : ∀ sh ∈ b.ashapes g.rep, (sh.how = .sse → (sh.b.reg g).isXMM = true) ∧ (sh.how = .roi → (sh.d.reg g).kind = .reg))
    (hb : ∀ j, (g.reg j).kind = .reg → (g.reg j).bit = 8 ∨ (g.reg j).bit = 16 ∨ (g.reg j).bit = 32 ∨ (g.reg j).bit = 64)
    (hl : b.aped ps = true) (ha : b.AbsA) {m : Enc Unit} (hr : b.run g = some m) (hw : m.Gives w ()) : ∃ sh ∈ b.ashapes g.rep, ASent g sh w := by
  induction b generalizing m w with
  | leaf l =>
    cases hr
    exact Leaf.asent ht hi hx hb hl hw
  | guard bad err b ih =>
    simp only [Body.run, Option.map_eq_some_iff] at hr
    obtain ⟨m', hr, rfl⟩ := hr
    rw [Enc.throwIf_bind] at hw
    unfold Body.ashapes at hi hx ⊢
    rw [ha.1 g, hw.1, if_neg Bool.false_ne_true] at hi hx ⊢
    exact ih hi hx hl ha.2 hr hw.2
  | apx d a b' t c b ih =>
    simp only [Body.run, Option.map_eq_some_iff] at hr
    obtain ⟨m', hr, rfl⟩ := hr
    have hu := hi _ (List.mem_singleton.mpr rfl) (fun _ h => by cases h)
    rw [Enc.gives_bind] at hw
    obtain ⟨w1, v, w2, h1, hw, rfl⟩ := hw
    obtain ⟨_, rfl, _⟩ := (roo_gives _ _ _ _ _ _ _ hu _ _).1 h1
    try dsimp only at hw
    rw [if_pos rfl, Enc.gives_pure] at hw
    exact ⟨_, List.mem_singleton.mpr rfl, ⟨w1, true, by simp [AShape.tail, hw.1], h1⟩, hu, fun _ h => by cases h⟩
  | ite c t e iht ihe =>
    simp only [Body.aped, Bool.and_eq_true] at hl
    unfold Body.run at hr
    unfold Body.ashapes at hi hx ⊢
    rw [ha.1 g] at hi hx ⊢
    by_cases hc : c g = true
    · rw [if_pos hc] at hi hx hr ⊢
      exact iht hi hx hl.1 ha.2.1 hr hw
    · rw [if_neg hc] at hi hx hr ⊢
      exact ihe hi hx hl.2 ha.2.2 hr hw
  | _ => cases hl

end Mn
end Xbyak
