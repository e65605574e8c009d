import Verif.StackFrame
/-!
# StackFrame: registers handed out, preservation of the caller's state, parameters (C49-C51)

The register assignment is a finite table (two calling conventions, 5 x 15 counts, two flags), checked completely by evaluation; stack
sizes, machine states and function bodies are arbitrary.
-/
namespace Xbyak
namespace SF
open X86

/-- The registers handed out are as required; checked for every accepted combination of arguments. -/
def GoodRegs (abi : Abi) (p t saveNum : Nat) (useRcx useRdx : Bool) (ps ts : List Gpr) : Prop :=
  ps.length = p ∧ ts.length = t ∧ (ps ++ ts).Nodup ∧ rsp ∉ ps ++ ts ∧ rax ∉ ps ++ ts ∧ (useRcx = true → rcx ∉ ps ++ ts) ∧
    (useRdx = true → rdx ∉ ps ++ ts) ∧
    (∀ r ∈ ps ++ ts, r ∈ abi.calleeSaved → r ∈ ((orderTbl abi).drop (noSaveNum abi)).take saveNum) ∧
    (∀ i, i < p → ps[i]? = some (if useRcx && decide (abi.args[i]? = some rcx) then 10 else
      if useRdx && decide (abi.args[i]? = some rdx) then 11 else (abi.args[i]?).getD 0)) ∧
    (orderTbl abi).length ≥ noSaveNum abi + saveNum

instance (abi : Abi) (p t s : Nat) (c d : Bool) (ps ts : List Gpr) : Decidable (GoodRegs abi p t s c d ps ts) := by
  unfold GoodRegs; infer_instance

def saveNumOf (abi : Abi) (p t : Nat) (useRcx useRdx : Bool) : Nat :=
  p + t + b2n useRcx + b2n useRdx - noSaveNum abi

/-- The lists computed by the constructor are good. -/
def CaseOK (abi : Abi) (p t : Nat) (c d : Bool) : Prop :=
  p + t + b2n c + b2n d ≤ 14 →
    match getRegs abi c d p 0 with
    | none => False
    | some (ps, pos) =>
      match getRegs abi c d t pos with
      | none => False
      | some (ts, _) => GoodRegs abi p t (saveNumOf abi p t c d) c d ps ts

instance (abi : Abi) (p t : Nat) (c d : Bool) : Decidable (CaseOK abi p t c d) := by
  unfold CaseOK
  have : Decidable (match getRegs abi c d p 0 with
    | none => False
    | some (ps, pos) =>
      match getRegs abi c d t pos with
      | none => False
      | some (ts, _) => GoodRegs abi p t (saveNumOf abi p t c d) c d ps ts) := by
    cases getRegs abi c d p 0 with
    | none => exact .isFalse id
    | some x =>
      obtain ⟨ps, pos⟩ := x
      dsimp only
      cases getRegs abi c d t pos with
      | none => exact .isFalse id
      | some y => exact inferInstanceAs (Decidable (GoodRegs ..))
  infer_instance

theorem cases_ok : ∀ (abi : Abi) (p : Fin 5) (t : Fin 15) (c d : Bool), CaseOK abi p t c d := by
  intro abi
  cases abi <;> decide +kernel

theorem case_ok (abi : Abi) (p t : Nat) (c d : Bool) (hp : p ≤ 4)
    (h : p + t + b2n c + b2n d ≤ 14) :
    ∃ ps pos ts pos', getRegs abi c d p 0 = some (ps, pos) ∧ getRegs abi c d t pos = some (ts, pos') ∧
      GoodRegs abi p t (saveNumOf abi p t c d) c d ps ts := by
  have := cases_ok abi ⟨p, by omega⟩ ⟨t, by omega⟩ c d h
  dsimp only at this
  cases h1 : getRegs abi c d p 0 with
  | none => rw [h1] at this; exact this.elim
  | some x =>
    obtain ⟨ps, pos⟩ := x
    rw [h1] at this
    dsimp only at this
    cases h2 : getRegs abi c d t pos with
    | none => rw [h2] at this; exact this.elim
    | some y => rw [h2] at this; exact ⟨ps, pos, y.1, y.2, rfl, h2, this⟩

/-- The number of temporaries in a `tNum` argument. -/
def tCount (tNum : BitVec 32) : Nat := (tNum &&& ~~~0xC0).toNat

/-- The number of registers taken from the order table. -/
def total (pNum tNum : BitVec 32) : Nat :=
  pNum.toNat + tCount tNum + b2n (tNum.getLsbD 6) + b2n (tNum.getLsbD 7)

theorem toInt_small (x : BitVec 32) (h : 0 ≤ x.toInt) : x.toInt = x.toNat := by
  have := x.isLt
  rw [BitVec.toInt_eq_toNat_cond] at h ⊢
  split at h <;> split <;> omega

/-- What a successful constructor call means. -/
theorem make_ok {abi : Abi} {pNum tNum ss : BitVec 32} {f : Frame} (h : make abi pNum tNum ss = .ok f) :
    pNum.toNat ≤ 4 ∧ total pNum tNum ≤ 14 ∧ f.useRcx = tNum.getLsbD 6 ∧ f.useRdx = tNum.getLsbD 7 ∧
      f.saveNum = total pNum tNum - noSaveNum abi ∧ localBytes ss.toInt f.saveNum = some f.P ∧
      f.prologue = prologue abi pNum.toNat f.saveNum f.P f.useRcx f.useRdx ∧
      GoodRegs abi pNum.toNat (tCount tNum) f.saveNum f.useRcx f.useRdx f.p f.t := by
  unfold make at h
  dsimp only at h
  split at h
  · cases h
  rename_i hp
  split at h
  · cases h
  rename_i ht
  have hp0 : 0 ≤ pNum.toInt := by omega
  have ht0 : 0 ≤ (tNum &&& ~~~0xC0).toInt := by omega
  have ep := toInt_small _ hp0
  have et := toInt_small _ ht0
  have hp4 : pNum.toNat ≤ 4 := by omega
  have htot : total pNum tNum ≤ 14 := by
    unfold total tCount
    have : maxRegNum = 14 := rfl
    omega
  obtain ⟨ps, pos, ts, pos', e1, e2, g⟩ := case_ok abi pNum.toNat (tCount tNum) (tNum.getLsbD 6) (tNum.getLsbD 7) hp4 htot
  unfold build at h
  dsimp only at h
  split at h
  · cases h
  rename_i P hP
  split at h
  · cases h
  rw [e1] at h
  dsimp only at h
  have e2' : getRegs abi (tNum.getLsbD 6) (tNum.getLsbD 7) (tNum &&& ~~~0xC0).toNat pos = some (ts, pos') := e2
  rw [e2'] at h
  dsimp only at h
  cases h
  exact ⟨hp4, htot, rfl, rfl, rfl, hP, rfl, g⟩

theorem localBytes_ok {ss : Int} {n P : Nat} (h : localBytes ss n = some P) :
    P % 8 = 0 ∧ ss ≤ P ∧ P < 2 ^ 31 ∧ (0 < ss → (P / 8 + n) % 2 = 1) ∧ (ss ≤ 0 → P = 0) := by
  unfold localBytes at h
  split at h
  · cases h
  rename_i h1
  dsimp only at h
  have hd : 0 < ss + 7 → (ss + 7).tdiv 8 = (ss + 7) / 8 := fun h => Int.tdiv_eq_ediv_of_nonneg (by omega)
  have hd' : ss + 7 ≤ 0 → (ss + 7).tdiv 8 ≤ 0 := fun h => by
    have := Int.tdiv_nonneg (a := -(ss + 7)) (b := 8) (by omega) (by omega)
    rw [Int.neg_tdiv] at this
    omega
  generalize (ss + 7).tdiv 8 = q at *
  split at h
  · rename_i h2
    split at h
    · cases h
    rename_i h3
    cases h
    have hs : 0 < ss + 7 := by
      rcases Int.lt_or_le 0 (ss + 7) with h | h
      · exact h
      · have := hd' h; omega
    have := hd hs
    omega
  · rename_i h2
    split at h
    · cases h
    rename_i h3
    cases h
    rcases Int.lt_or_le 0 (ss + 7) with h | h
    · have := hd h; omega
    · have := hd' h; omega

/-- C49: every accepted frame hands out `pNum` parameter registers and the requested number of temporaries; they are pairwise distinct, none
is rsp or the scratch register rax, and rcx/rdx are left to the caller when requested. -/
theorem c49_regs {abi : Abi} {pNum tNum ss : BitVec 32} {f : Frame} (h : make abi pNum tNum ss = .ok f) :
    f.p.length = pNum.toNat ∧ f.t.length = tCount tNum ∧ (f.p ++ f.t).Nodup ∧ rsp ∉ f.p ++ f.t ∧ rax ∉ f.p ++ f.t ∧
      (tNum.getLsbD 6 = true → rcx ∉ f.p ++ f.t) ∧ (tNum.getLsbD 7 = true → rdx ∉ f.p ++ f.t) := by
  obtain ⟨_, _, hc, hd, _, _, _, g1, g2, g3, g4, g5, g6, g7, _⟩ := make_ok h
  exact ⟨g1, g2, g3, g4, g5, hc ▸ g6, hd ▸ g7⟩

/-- C49: which requests are accepted: 0..4 parameters and at most 14 registers; for stack sizes up to 2^31 - 32 there is no signed overflow. -/
theorem c49_accept (abi : Abi) (pNum tNum ss : BitVec 32) (hs : ss.toInt ≤ 2 ^ 31 - 32) :
    ((∃ f, make abi pNum tNum ss = .ok f) ↔ (0 ≤ pNum.toInt ∧ pNum.toInt ≤ 4 ∧ 0 ≤ (tNum &&& ~~~0xC0).toInt ∧ total pNum tNum ≤ 14)) ∧
      make abi pNum tNum ss ≠ .ub := by
  unfold make
  dsimp only
  by_cases hp : pNum.toInt < 0 ∨ pNum.toInt > 4
  · rw [if_pos hp]
    exact ⟨⟨fun ⟨_, h⟩ => (by cases h), fun ⟨_, _, _⟩ => (by omega)⟩, fun h => (by cases h)⟩
  rw [if_neg hp]
  have ep := toInt_small pNum (by omega)
  have mx : maxRegNum = 14 := rfl
  by_cases ht : (tNum &&& ~~~0xC0).toInt < 0 ∨ pNum.toInt + (tNum &&& ~~~0xC0).toInt + b2n (tNum.getLsbD 6) + b2n (tNum.getLsbD 7) > maxRegNum
  · rw [if_pos ht]
    refine ⟨⟨fun ⟨_, h⟩ => (by cases h), fun ⟨_, _, h3, h4⟩ => ?_⟩, fun h => (by cases h)⟩
    have et := toInt_small _ h3
    unfold total tCount at h4
    omega
  rw [if_neg ht]
  have et := toInt_small (tNum &&& ~~~0xC0) (by omega)
  have htot : total pNum tNum ≤ 14 := by
    unfold total tCount
    omega
  obtain ⟨ps, pos, ts, pos', e1, e2, g⟩ :=
    case_ok abi pNum.toNat (tCount tNum) (tNum.getLsbD 6) (tNum.getLsbD 7) (by omega) htot
  have e2' : getRegs abi (tNum.getLsbD 6) (tNum.getLsbD 7) (tNum &&& ~~~0xC0).toNat pos = some (ts, pos') := e2
  have lb : ∀ n, ∃ P, localBytes ss.toInt n = some P := by
    intro n
    unfold localBytes
    rw [if_neg (by omega)]
    dsimp only
    have hd : 0 < ss.toInt + 7 → (ss.toInt + 7).tdiv 8 = (ss.toInt + 7) / 8 := fun h => Int.tdiv_eq_ediv_of_nonneg (by omega)
    have hd' : ss.toInt + 7 ≤ 0 → (ss.toInt + 7).tdiv 8 ≤ 0 := fun h => by
      have := Int.tdiv_nonneg (a := -(ss.toInt + 7)) (b := 8) (by omega) (by omega)
      rw [Int.neg_tdiv] at this
      omega
    generalize (ss.toInt + 7).tdiv 8 = q at *
    have hq : q * 8 < 2 ^ 31 - 16 := by
      rcases Int.lt_or_le 0 (ss.toInt + 7) with h | h
      · have := hd h; omega
      · have := hd' h; omega
    split
    · exact ⟨_, if_neg (by omega)⟩
    · exact ⟨_, if_neg (by omega)⟩
  unfold build
  dsimp only
  obtain ⟨P, hP⟩ := lb (pNum.toNat + (tNum &&& ~~~0xC0).toNat + b2n (tNum.getLsbD 6) + b2n (tNum.getLsbD 7)
    - noSaveNum abi)
  rw [hP]
  dsimp only
  rw [if_neg (by have := g.2.2.2.2.2.2.2.2.2; exact Nat.not_lt.mpr this), e1]
  dsimp only
  rw [e2']
  exact ⟨⟨fun _ => ⟨by omega, by omega, by omega, htot⟩, fun _ => ⟨_, rfl⟩⟩, fun h => (by cases h)⟩

example : make .sysv 3 (5 ||| 64 ||| 128) 100 =
    .ok ⟨[7, 6, 11], [10, 8, 9, 3, 5], 104, 2, true, true, [.push 3, .push 5, .sub 104, .mov 11 2]⟩ := by decide +kernel

/-- The machine instruction a call stands for (that the emitted bytes are those instructions is C33, C36 and C47). -/
def Call.ins : Call → Ins
  | .push r => .push r
  | .pop r => .pop r
  | .sub i => .sub rsp (i.signExtend 64)
  | .add i => .add rsp (i.signExtend 64)
  | .mov d s => .mov d s
  | .ret => .ret

def exec (l : List Call) (s : Mach) : Mach := execAll (l.map Call.ins) s

theorem exec_append (l l' : List Call) (s : Mach) : exec (l ++ l') s = exec l' (exec l s) := by
  unfold exec; rw [List.map_append, execAll_append]

theorem sext_P {P : Nat} (h : P < 2 ^ 31) : (BitVec.ofNat 32 P).signExtend 64 = BitVec.ofNat 64 P := by
  have hm : (BitVec.ofNat 32 P).msb = false := by
    rw [BitVec.msb_eq_decide, BitVec.toNat_ofNat]
    simp only [decide_eq_false_iff_not]
    omega
  rw [BitVec.signExtend_eq_setWidth_of_msb_false hm]
  apply BitVec.eq_of_toNat_eq
  simp only [BitVec.toNat_setWidth, BitVec.toNat_ofNat]
  omega

theorem saved_facts (abi : Abi) (n : Nat) :
    let L := ((orderTbl abi).drop (noSaveNum abi)).take n
    rsp ∉ L ∧ (10 : Gpr) ∉ L ∧ (11 : Gpr) ∉ L ∧ L.length ≤ 8 := by
  have h : ∀ L : List Gpr, (rsp ∉ L ∧ (10 : Gpr) ∉ L ∧ (11 : Gpr) ∉ L ∧ L.length ≤ 8) →
      (rsp ∉ L.take n ∧ (10 : Gpr) ∉ L.take n ∧ (11 : Gpr) ∉ L.take n ∧ (L.take n).length ≤ 8) := by
    rintro L ⟨h1, h2, h3, h4⟩
    refine ⟨fun h => h1 (List.mem_of_mem_take h), fun h => h2 (List.mem_of_mem_take h), fun h => h3 (List.mem_of_mem_take h), ?_⟩
    rw [List.length_take]; omega
  apply h
  cases abi <;> decide +kernel

/-- State after the prologue. -/
theorem prologue_eff (abi : Abi) (p n P : Nat) (c d : Bool) (hn : noSaveNum abi + n ≤ (orderTbl abi).length) (hP : P < 2 ^ 31) (s : Mach) :
    let L := ((orderTbl abi).drop (noSaveNum abi)).take n
    let u := exec (prologue abi p n P c d) s
    let v := execAll (L.map .push) s
    L.length = n ∧ u.reg rsp = v.reg rsp - BitVec.ofNat 64 P ∧ u.mem = v.mem ∧
      (∀ r, r ≠ rsp → r ≠ 10 → r ≠ 11 → u.reg r = v.reg r) ∧
      u.reg 10 = v.reg (if c && decide (rcxPos abi < p) then rcx else 10) ∧
      u.reg 11 = v.reg (if d && decide (rdxPos abi < p) then rdx else 11) := by
  intro L u v
  have hL : L.length = n := by
    show (((orderTbl abi).drop (noSaveNum abi)).take n).length = n
    rw [List.length_take, List.length_drop]; omega
  have hu : u = exec (if d && decide (rdxPos abi < p) then [.mov 11 2] else [])
      (exec (if c && decide (rcxPos abi < p) then [.mov 10 1] else [])
        (exec (if P > 0 then [.sub (BitVec.ofNat 32 P)] else []) v)) := by
    show exec (prologue abi p n P c d) s = _
    unfold prologue
    rw [exec_append, exec_append, exec_append]
    congr 3
    show execAll (((L.map Call.push)).map Call.ins) s = _
    rw [List.map_map]
    rfl
  rw [hu]
  have hsub : ∀ w : Mach, let x := exec (if P > 0 then [.sub (BitVec.ofNat 32 P)] else []) w
      x.reg rsp = w.reg rsp - BitVec.ofNat 64 P ∧ x.mem = w.mem ∧ ∀ r, r ≠ rsp → x.reg r = w.reg r := by
    intro w
    split
    · refine ⟨?_, rfl, fun r hr => setReg_ne _ _ hr⟩
      show (w.setReg rsp (w.reg rsp - (BitVec.ofNat 32 P).signExtend 64)).reg rsp = _
      rw [setReg_eq, sext_P hP]
    · have : P = 0 := by omega
      subst this
      refine ⟨?_, rfl, fun r _ => rfl⟩
      show w.reg rsp = _
      simp
  obtain ⟨b1, b2, b3⟩ := hsub v
  have hmov : ∀ (b : Bool) (a q : Gpr) (w : Mach), let x := exec (if b then [.mov a q] else []) w
      x.mem = w.mem ∧ (∀ r, r ≠ a → x.reg r = w.reg r) ∧ x.reg a = w.reg (if b then q else a) := by
    intro b a q w
    cases b
    · exact ⟨rfl, fun _ _ => rfl, rfl⟩
    · refine ⟨rfl, fun r hr => setReg_ne _ _ hr, setReg_eq _ _ _⟩
  obtain ⟨m1, m2, m3⟩ := hmov (c && decide (rcxPos abi < p)) 10 1 (exec (if P > 0 then [.sub (BitVec.ofNat 32 P)] else []) v)
  obtain ⟨k1, k2, k3⟩ := hmov (d && decide (rdxPos abi < p)) 11 2
    (exec (if c && decide (rcxPos abi < p) then [.mov 10 1] else []) (exec (if P > 0 then [.sub (BitVec.ofNat 32 P)] else []) v))
  refine ⟨hL, ?_, by rw [k1, m1, b2], ?_, ?_, ?_⟩
  · rw [k2 _ (by decide), m2 _ (by decide), b1]
  · intro r h1 h2 h3
    rw [k2 _ h3, m2 _ h2, b3 _ h1]
  · rw [k2 _ (by decide), m3, b3]
    · rfl
    · split <;> decide
  · rw [k3, m2, b3]
    · rfl
    · split <;> decide
    · split <;> decide

/-- C51: in the body, `p[i]` holds the `i`-th integer argument of the calling convention. -/
theorem c51_params {abi : Abi} {pNum tNum ss : BitVec 32} {f : Frame} (h : make abi pNum tNum ss = .ok f) (s : Mach) (i : Nat)
    (hi : i < pNum.toNat) :
    ∃ r a, f.p[i]? = some r ∧ abi.args[i]? = some a ∧ (exec f.prologue s).reg r = s.reg a := by
  obtain ⟨h4, h14, hc, hd, hn, hP, hpro, g⟩ := make_ok h
  obtain ⟨-, -, hlt, -, -⟩ := localBytes_ok hP
  obtain ⟨g1, g2, g3, g4, g5, g6, g7, g8, g9, g10⟩ := g
  rw [hpro]
  obtain ⟨e0, e1, e2, e3, e4, e5⟩ := prologue_eff abi pNum.toNat f.saveNum f.P f.useRcx f.useRdx g10 hlt s
  obtain ⟨s1, s2, s3, s4⟩ := saved_facts abi f.saveNum
  obtain ⟨-, v2, -, -⟩ := pushes_eff (((orderTbl abi).drop (noSaveNum abi)).take f.saveNum) s (by omega) s1
  generalize exec (prologue abi pNum.toNat f.saveNum f.P f.useRcx f.useRdx) s = u at *
  have key : ∀ i : Fin 4, ∃ a, abi.args[i.1]? = some a ∧ a ≠ rsp ∧ a ≠ 10 ∧ a ≠ 11 ∧ (a = rcx ↔ i.1 = rcxPos abi) ∧ (a = rdx ↔ i.1 = rdxPos abi) := by
    cases abi
    · intro i; match i with
      | 0 => exact ⟨7, by decide⟩
      | 1 => exact ⟨6, by decide⟩
      | 2 => exact ⟨2, by decide⟩
      | 3 => exact ⟨1, by decide⟩
    · intro i; match i with
      | 0 => exact ⟨1, by decide⟩
      | 1 => exact ⟨2, by decide⟩
      | 2 => exact ⟨8, by decide⟩
      | 3 => exact ⟨9, by decide⟩
  obtain ⟨a, ha, n1, n2, n3, hrcx, hrdx⟩ := key ⟨i, by omega⟩
  dsimp only at ha hrcx hrdx
  refine ⟨_, a, g9 i hi, ha, ?_⟩
  rw [ha]
  simp only [Option.some.injEq, Option.getD_some]
  by_cases hx : a = rcx
  · have hne : a ≠ rdx := by rw [hx]; decide
    have hpos : rcxPos abi < pNum.toNat := by rw [← hrcx.mp hx]; exact hi
    cases hcc : f.useRcx
    · simp only [hx, Bool.false_and, Bool.false_eq_true, if_false]
      have : (decide (rcx = rdx)) = false := by decide
      rw [this, Bool.and_false, if_neg Bool.false_ne_true]
      rw [e3 _ (by decide) (by decide) (by decide), v2 _ (by decide)]
    · simp only [hx, decide_true, Bool.and_self, if_true]
      rw [e4, hcc, decide_eq_true hpos, v2 _ (by decide)]
      rfl
  · rw [decide_eq_false hx, Bool.and_false, if_neg Bool.false_ne_true]
    by_cases hy : a = rdx
    · have hpos : rdxPos abi < pNum.toNat := by rw [← hrdx.mp hy]; exact hi
      cases hdd : f.useRdx
      · simp only [hy, Bool.false_and, Bool.false_eq_true, if_false]
        rw [e3 _ (by decide) (by decide) (by decide), v2 _ (by decide)]
      · simp only [hy, decide_true, Bool.and_self, if_true]
        rw [e5, hdd, decide_eq_true hpos, v2 _ (by decide)]
        rfl
    · rw [decide_eq_false hy, Bool.and_false, if_neg Bool.false_ne_true, e3 _ n1 n2 n3, v2 _ n1]

theorem below_area {sp x : Word} {n P : Nat} (hn : n ≤ 8) (hP : P < 2 ^ 31) (hx : Below (sp + 8) (8 * n + 8) x) :
    P ≤ (x - (sp - BitVec.ofNat 64 (8 * n) - BitVec.ofNat 64 P)).toNat ∧
      (x - (sp - BitVec.ofNat 64 (8 * n) - BitVec.ofNat 64 P)).toNat <
        (sp + 8 - (sp - BitVec.ofNat 64 (8 * n) - BitVec.ofNat 64 P)).toNat := by
  unfold Below at hx
  generalize hk : sp + 8 - 1 - x = k at hx
  have ex : x = sp + 7 - k := by
    subst hk
    grind
  have e1 : x - (sp - BitVec.ofNat 64 (8 * n) - BitVec.ofNat 64 P) = BitVec.ofNat 64 (7 + 8 * n + P) - k := by
    subst ex
    rw [BitVec.ofNat_add, BitVec.ofNat_add]
    show sp + 7 - k - _ = 7 + _ + _ - k
    generalize BitVec.ofNat 64 (8 * n) = a
    generalize BitVec.ofNat 64 P = b
    grind
  have e2 : sp + 8 - (sp - BitVec.ofNat 64 (8 * n) - BitVec.ofNat 64 P) = BitVec.ofNat 64 (8 + 8 * n + P) := by
    rw [BitVec.ofNat_add, BitVec.ofNat_add]
    show sp + 8 - _ = 8 + _ + _
    generalize BitVec.ofNat 64 (8 * n) = a
    generalize BitVec.ofNat 64 P = b
    grind
  rw [e1, e2]
  simp only [BitVec.toNat_sub, BitVec.toNat_ofNat]
  omega

theorem below_up {sp x : Word} {n : Nat} (hx : Below sp (8 * n) x) : Below (sp + 8) (8 * n + 8) x := by
  unfold Below at hx ⊢
  have : sp + 8 - 1 - x = (sp - 1 - x) + 8 := by grind
  rw [this]
  generalize sp - 1 - x = k at *
  rw [BitVec.toNat_add, n8]
  omega

theorem below_ret {sp : Word} {n i : Nat} (hn : n ≤ 8) (hi : i < 8) :
    Below (sp + 8) (8 * n + 8) (sp + BitVec.ofNat 64 i) ∧ ¬ Below sp (8 * n) (sp + BitVec.ofNat 64 i) := by
  have : i = 0 ∨ i = 1 ∨ i = 2 ∨ i = 3 ∨ i = 4 ∨ i = 5 ∨ i = 6 ∨ i = 7 := by omega
  have key : ∀ k : Word, sp + 8 - 1 - (sp + k) = 7 - k ∧ sp - 1 - (sp + k) = 0xFFFFFFFFFFFFFFFF - k := by
    intro k
    constructor <;> grind
  unfold Below
  rw [(key _).1, (key _).2]
  have h7 : (7 : Word).toNat = 7 := rfl
  have hm : (0xFFFFFFFFFFFFFFFF : Word).toNat = 0xFFFFFFFFFFFFFFFF := by simp
  rcases this with rfl | rfl | rfl | rfl | rfl | rfl | rfl | rfl
  all_goals
    simp only [BitVec.toNat_sub, BitVec.toNat_ofNat, h7, hm]
    omega

theorem ret_sp (m : Mach) : (Ins.exec .ret m).reg rsp = m.reg rsp + 8 := setReg_eq m rsp _
theorem ret_reg (m : Mach) {r : Gpr} (h : r ≠ rsp) : (Ins.exec .ret m).reg r = m.reg r := setReg_ne m _ h
theorem ret_rip (m : Mach) : (Ins.exec .ret m).rip = read64 m.mem (m.reg rsp) := rfl

/-- C50: whatever the body does, if it restores rsp, leaves the bytes between the end of its locals and the end of the return address alone
and does not touch callee-saved registers it was not given, then after the epilogue the function has returned to its caller with rsp and all
callee-saved registers as on entry. -/
theorem c50_preserve {abi : Abi} {pNum tNum ss : BitVec 32} {f : Frame} (h : make abi pNum tNum ss = .ok f) (s : Mach) (body : Mach → Mach)
    (hsp : (body (exec f.prologue s)).reg rsp = (exec f.prologue s).reg rsp)
    (hmem : ∀ x, ss.toInt ≤ (x - (exec f.prologue s).reg rsp).toNat →
      (x - (exec f.prologue s).reg rsp).toNat < (s.reg rsp + 8 - (exec f.prologue s).reg rsp).toNat →
      (body (exec f.prologue s)).mem x = (exec f.prologue s).mem x)
    (hreg : ∀ r ∈ abi.calleeSaved, r ∉ f.p ++ f.t → (body (exec f.prologue s)).reg r = (exec f.prologue s).reg r) :
    let s' := exec (f.close abi true) (body (exec f.prologue s))
    s'.reg rsp = s.reg rsp + 8 ∧ s'.rip = read64 s.mem (s.reg rsp) ∧ ∀ r ∈ abi.calleeSaved, s'.reg r = s.reg r := by
  obtain ⟨h4, h14, hc, hd, hn, hP, hpro, g⟩ := make_ok h
  obtain ⟨-, hss, hlt, -, -⟩ := localBytes_ok hP
  obtain ⟨g1, g2, g3, g4, g5, g6, g7, g8, g9, g10⟩ := g
  rw [hpro] at hsp hmem hreg ⊢
  obtain ⟨e0, e1, e2, e3, -, -⟩ := prologue_eff abi pNum.toNat f.saveNum f.P f.useRcx f.useRdx g10 hlt s
  obtain ⟨k1, k2, k3, k4⟩ := saved_facts abi f.saveNum
  generalize hu : exec (prologue abi pNum.toNat f.saveNum f.P f.useRcx f.useRdx) s = u at *
  generalize hL : ((orderTbl abi).drop (noSaveNum abi)).take f.saveNum = L at *
  obtain ⟨v1, v2, v3, v4⟩ := pushes_eff L s (by omega) k1
  generalize hb : body u = b at *
  -- after `add rsp, P`
  have hadd : ∃ c : Mach, exec (f.close abi true) b = Ins.exec .ret (execAll (L.reverse.map .pop) c) ∧
      c.reg rsp = b.reg rsp + BitVec.ofNat 64 f.P ∧ c.mem = b.mem ∧ ∀ r, r ≠ rsp → c.reg r = b.reg r := by
    refine ⟨exec (if f.P > 0 then [.add (BitVec.ofNat 32 f.P)] else []) b, ?_, ?_⟩
    · unfold Frame.close
      rw [exec_append, exec_append, hL]
      show Ins.exec .ret (execAll ((L.reverse.map Call.pop).map Call.ins) _) = _
      rw [List.map_map]
      rfl
    · split
      · refine ⟨?_, rfl, fun r hr => setReg_ne _ _ hr⟩
        show (b.setReg rsp (b.reg rsp + (BitVec.ofNat 32 f.P).signExtend 64)).reg rsp = _
        rw [setReg_eq, sext_P hlt]
      · have : f.P = 0 := by omega
        rw [this]
        refine ⟨?_, rfl, fun r _ => rfl⟩
        show b.reg rsp = _
        simp
  obtain ⟨c, hcl, c1, c2, c3⟩ := hadd
  rw [hcl]
  have usp : u.reg rsp = s.reg rsp - BitVec.ofNat 64 (8 * f.saveNum) - BitVec.ofNat 64 f.P := by rw [e1, v1, e0]
  have csp : c.reg rsp = (execAll (L.map .push) s).reg rsp := by
    rw [c1, hsp, e1]
    rw [BitVec.sub_add_cancel]
  have hkeep : ∀ x, Below (s.reg rsp + 8) (8 * f.saveNum + 8) x → c.mem x = u.mem x := by
    intro x hx
    rw [c2]
    have hs8 : f.saveNum ≤ 8 := by rw [← e0]; exact k4
    obtain ⟨a1, a2⟩ := below_area hs8 hlt hx
    rw [← usp] at a1 a2
    exact hmem x (Int.le_trans hss (Int.ofNat_le.mpr a1)) a2
  have hs8 : f.saveNum ≤ 8 := by rw [← e0]; exact k4
  obtain ⟨p1, p2, p3, p4⟩ := pops_eff L s c (by omega) k1 csp (by
    intro x hx
    rw [← e2]
    rw [e0] at hx
    exact hkeep x (below_up hx))
  generalize execAll (L.reverse.map .pop) c = z at *
  dsimp only
  refine ⟨?_, ?_, ?_⟩
  · rw [ret_sp, p1]
  · rw [ret_rip, p1, p2]
    apply read_congr
    intro i hi
    rw [hkeep _ (below_ret hs8 hi).1, e2, v4]
    rw [e0]
    exact (below_ret hs8 hi).2
  · intro r hr
    have hrs : r ≠ rsp ∧ r ≠ 10 ∧ r ≠ 11 := by
      have : ∀ r ∈ abi.calleeSaved, r ≠ rsp ∧ r ≠ 10 ∧ r ≠ 11 := by cases abi <;> decide
      exact this r hr
    rw [ret_reg _ hrs.1]
    by_cases hm : r ∈ L
    · exact p3 r hm
    · rw [p4 r hm hrs.1, c3 r hrs.1, hreg r hr (fun hm' => hm (g8 r hm' hr)), e3 r hrs.1 hrs.2.1 hrs.2.2, v2 r hrs.1]

/-- C50: the locals: `stackSizeByte` bytes above rsp that the prologue neither needs nor overlaps with anything the caller owns, and the
prologue writes only below the return address. -/
theorem c50_locals {abi : Abi} {pNum tNum ss : BitVec 32} {f : Frame} (h : make abi pNum tNum ss = .ok f) (s : Mach) :
    (∃ n, n < 2 ^ 32 ∧ (exec f.prologue s).reg rsp = s.reg rsp - BitVec.ofNat 64 n ∧ ss.toInt ≤ n ∧
      (0 < ss.toInt → n % 16 = 8)) ∧
    ∀ x, ¬ Below (s.reg rsp) 64 x → (exec f.prologue s).mem x = s.mem x := by
  obtain ⟨h4, h14, hc, hd, hn, hP, hpro, g⟩ := make_ok h
  obtain ⟨h8, hss, hlt, hodd, -⟩ := localBytes_ok hP
  obtain ⟨g1, g2, g3, g4, g5, g6, g7, g8, g9, g10⟩ := g
  rw [hpro]
  obtain ⟨e0, e1, e2, e3, -, -⟩ := prologue_eff abi pNum.toNat f.saveNum f.P f.useRcx f.useRdx g10 hlt s
  obtain ⟨k1, k2, k3, k4⟩ := saved_facts abi f.saveNum
  generalize ((orderTbl abi).drop (noSaveNum abi)).take f.saveNum = L at *
  obtain ⟨v1, v2, v3, v4⟩ := pushes_eff L s (by omega) k1
  refine ⟨⟨8 * f.saveNum + f.P, by omega, ?_, by omega, fun h => ?_⟩, ?_⟩
  · rw [e1, v1, e0]
    apply BitVec.eq_of_toNat_eq
    simp only [BitVec.toNat_sub, BitVec.toNat_ofNat]
    omega
  · have := hodd h; omega
  · intro x hx
    rw [e2]
    apply v4
    intro hb
    apply hx
    unfold Below at hb ⊢
    omega

/-- C50: with a stack area and the alignment every caller provides (rsp is 8 modulo 16 at entry), rsp is 16-byte aligned in the body. -/
theorem c50_align {abi : Abi} {pNum tNum ss : BitVec 32} {f : Frame} (h : make abi pNum tNum ss = .ok f) (hs : 0 < ss.toInt) (s : Mach)
    (ha : (s.reg rsp).toNat % 16 = 8) : ((exec f.prologue s).reg rsp).toNat % 16 = 0 := by
  obtain ⟨⟨n, h1, h2, -, h4⟩, -⟩ := c50_locals h s
  have := h4 hs
  rw [h2]
  simp only [BitVec.toNat_sub, BitVec.toNat_ofNat]
  omega
end SF
end Xbyak
