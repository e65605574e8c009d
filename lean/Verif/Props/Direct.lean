import Verif.Spec.Direct
import Verif.Props.Jcc
/-!
# C98: direct jumps, calls and loops
-/
namespace Xbyak.Asm
open CA G

/-- A function of the library that jumps to a label: the byte in front of `opJmp`, the type it passes (`none`: the argument), the opcodes of the
short and the long form, and the instruction it is named after. -/
structure BranchFn where
  name : String
  pre : Option Byte := none
  ty : Option LabelType := none
  short : Byte
  long : Byte
  op : X86.Direct

/-- xbyak.h 2941-2950, xbyak_mnemonic.h 660-668, 1858-1861 -/
def branchFns : List BranchFn :=
  [{ name := "jmp", short := 0xEB, long := 0xE9, op := .jmp }, { name := "call", ty := some .near, short := 0, long := 0xE8, op := .call },
   { name := "loop", ty := some .short, short := 0xE2, long := 0, op := .loop 64 }, { name := "loope", ty := some .short, short := 0xE1, long := 0, op := .loope 64 },
   { name := "loopne", ty := some .short, short := 0xE0, long := 0, op := .loopne 64 },
   { name := "jecxz", pre := some 0x67, ty := some .short, short := 0xE3, long := 0, op := .jcxz 32 },
   { name := "jrcxz", ty := some .short, short := 0xE3, long := 0, op := .jcxz 64 }]

/-- The type with which `opJmp` is called. -/
def BranchFn.type (f : BranchFn) (ty : LabelType) : LabelType := f.ty.getD ty

/-- The calls a function makes. -/
def BranchFn.calls (f : BranchFn) (l : LRef) (ty : LabelType) : List Op :=
  f.pre.toList.map .db ++ [.jmp l (f.type ty) f.short f.long 0]

/-- The bytes in front of the displacement. -/
def BranchFn.start (f : BranchFn) (short : Bool) : List Byte := f.pre.toList ++ [if short then f.short else f.long]

theorem imm_append (rel t : List Byte) : X86.imm rel.length (rel ++ t) = some (sextLE rel, t) := by
  unfold X86.imm
  rw [if_pos (by simp)]
  simp

/-- Every form of the functions above is the instruction it is named after. -/
theorem direct_fn {f : BranchFn} (hf : f ∈ branchFns) {short : Bool} (hn : f.ty = some .near → short = false) (hs : f.ty = some .short → short = true)
    {rel : List Byte} (hl : rel.length = if short then 1 else 4) (t : List Byte) :
    X86.direct (f.start short ++ rel ++ t) = some (f.op, sextLE rel, t) := by
  have hi := imm_append rel t
  have one : ∀ (o : Byte) (d : X86.Direct), o ∈ ([0xEB, 0xE0, 0xE1, 0xE2, 0xE3] : List Byte) → rel.length = 1 →
      (X86.imm 1 (rel ++ t)).map (fun p => (d, p)) = some (d, sextLE rel, t) := by
    intro o d _ h1
    rw [h1] at hi
    rw [hi]; rfl
  have four : ∀ d : X86.Direct, rel.length = 4 → (X86.imm 4 (rel ++ t)).map (fun p => (d, p)) = some (d, sextLE rel, t) := by
    intro d h1
    rw [h1] at hi
    rw [hi]; rfl
  simp only [branchFns, List.mem_cons, List.not_mem_nil, or_false] at hf
  rcases hf with rfl | rfl | rfl | rfl | rfl | rfl | rfl
  · cases short
    · exact four .jmp hl
    · exact one 0xEB .jmp (by decide) hl
  · cases hn rfl
    exact four .call hl
  · cases hs rfl; exact one 0xE2 _ (by decide) hl
  · cases hs rfl; exact one 0xE1 _ (by decide) hl
  · cases hs rfl; exact one 0xE0 _ (by decide) hl
  · cases hs rfl; exact one 0xE3 _ (by decide) hl
  · cases hs rfl; exact one 0xE3 _ (by decide) hl

/-- The cells of a jump in finished code. -/
theorem jmp_cells {code : List Byte} {top : Word} {s : Spec} (hi : Implements code top s) (b lo : Byte) (short : Bool) (t : Tgt)
    (pre post : List Cell) (hc : s.cells = pre ++ (jmpCells short b lo 0 t ++ post)) :
    let p := len pre
    let q := p + len (jmpCells short b lo 0 t)
    let w := if q - p = 2 then 1 else 4
    (bytesAt code (q - w) w).length = (if short then 1 else 4) ∧ code.drop p = [if short then b else lo] ++ bytesAt code (q - w) w ++ code.drop q := by
  have hlen : code.length = len s.cells := hi.length
  rw [hc, len_append, len_append] at hlen
  have key : ∀ (x : Byte) (n : Nat), code[len pre]? = some x → len pre + 1 + n ≤ code.length →
      (bytesAt code (len pre + 1) n).length = n ∧ code.drop (len pre) = [x] ++ bytesAt code (len pre + 1) n ++ code.drop (len pre + 1 + n) := by
    intro x n hx hn
    unfold bytesAt
    refine ⟨by rw [List.length_take, List.length_drop]; omega, ?_⟩
    rw [drop_cons hx, show code.drop (len pre + 1 + n) = (code.drop (len pre + 1)).drop n from List.drop_drop.symm, List.append_assoc, List.take_append_drop]
    rfl
  cases short with
  | true =>
    have e : jmpCells true b lo 0 t = [.byte b, .field ⟨.w1, false, t⟩] := rfl
    rw [e] at hc hlen ⊢
    have hb := hi.bytes pre b (.field ⟨.w1, false, t⟩ :: post) hc
    have el : len [.byte b, .field ⟨.w1, false, t⟩] = 2 := rfl
    rw [el] at hlen ⊢
    dsimp only
    rw [if_pos (by omega), show len pre + 2 - 1 = len pre + 1 by omega]
    exact key b 1 hb (by omega)
  | false =>
    have e : jmpCells false b lo 0 t = [.byte lo, .field ⟨.w4, false, t⟩] := rfl
    rw [e] at hc hlen ⊢
    have hb := hi.bytes pre lo (.field ⟨.w4, false, t⟩ :: post) hc
    have el : len [.byte lo, .field ⟨.w4, false, t⟩] = 5 := rfl
    rw [el] at hlen ⊢
    dsimp only
    rw [if_neg (by omega), show len pre + 5 - 4 = len pre + 1 by omega]
    exact key lo 4 hb (by omega)

/-- A successful call with `T_SHORT` uses the short form, with `T_NEAR` the long one. -/
theorem jmp_form {cx : Cx} {env : Env} (he : env.Sane) {g g' : G} {sp : Spec} (h : St cx g sp) {l : LRef} {ty : LabelType} {s lo p : Byte}
    (hr : G.step env (.jmp l ty s lo p) g = .ok () g') {k : Key} (hk : (sp.touch l).keyRef l = some k) :
    (ty = .near → sp.shortForm k ty = false) ∧ (ty = .short → sp.shortForm k ty = true) := by
  refine ⟨?_, ?_⟩
  · rintro rfl
    unfold Spec.shortForm
    split <;> rfl
  · rintro rfl
    have hj := opJmp_sat env he l .short s lo p g h.safe.wf h.safe.loc
    have hr : opJmp env l .short s lo p g = .ok () g' := hr
    rw [hr] at hj
    obtain ⟨_, l', off, hres, hm⟩ := hj
    obtain ⟨k', hk', hoff, -⟩ := resolved_key (h.inv.touch h.life l) (h.safe.touch l) (touched_id h.inv.tab l) hres
    rw [hk] at hk'
    cases hk'
    rw [sp_touch_defs] at hoff
    unfold Spec.shortForm
    rw [← hoff]
    cases off with
    | none => rfl
    | some o =>
      obtain ⟨h1, bs, h2, -⟩ := hm
      have hsp := (jmpBytes_spec h1 h2).1
      unfold jmpBytes at h2
      split at h2
      · cases h2
        dsimp only
        have e : BitVec.ofNat 64 o - BitVec.ofNat 64 g.ca.size - 2 = BitVec.ofNat 64 o - BitVec.ofNat 64 (sp.size + 2) := by
          rw [show g.ca.size = sp.size from h.inv.buf.size]; exact sub_sub_ofNat _ _ 2
        rw [e] at hsp
        cases hF : (decide ((LabelType.short) ≠ .near) && decide (Fits8 (BitVec.ofNat 64 o - BitVec.ofNat 64 (sp.size + 2)))) with
        | true => rfl
        | false =>
          rw [hF] at hsp
          have := congrArg List.length hsp
          simp [fwdHdr, Width.len, leBytes] at this
      · rw [if_pos rfl] at h2; cases h2

/-- The calls succeed one after the other. -/
def Done (env : Env) : List Op → G → G → Prop
  | [], g, g' => g' = g
  | op :: t, g, g' => ∃ g1, step env op g = .ok () g1 ∧ Done env t g1 g'

/-- What a jump to a label leaves in the finished code. -/
theorem jmp_final {env : Env} (he : env.Sane) {cx : Cx} {d : List Op} {l : LRef} {ty : LabelType} {b lo : Byte} {g1 g2 g3 g4 : G} {sp1 : Spec} (s1 : St cx g1 sp1)
    (hh : Hist (CallOk cx env) env (.jmp l ty b lo 0 :: d) g1) (h2 : step env (.jmp l ty b lo 0) g1 = .ok () g2)
    (h3 : run env d g2 = .ok g3) (h4 : Final env g3 g4) (hr : .reset ∉ d) :
    (∃ short rel, (ty = .near → short = false) ∧ (ty = .short → short = true) ∧ rel.length = (if short then 1 else 4) ∧
      g4.ca.code.drop g1.ca.size = [if short then b else lo] ++ rel ++ g4.ca.code.drop g2.ca.size ∧
      ∀ o, Reaches g4.ca.code g1.ca.size g2.ca.size o → BitVec.ofNat 64 g2.ca.size + sextLE rel = BitVec.ofNat 64 o) ∧
    ∀ pre x post, sp1.cells = pre ++ .byte x :: post → g4.ca.code[len pre]? = some x := by
  obtain ⟨hp, hh⟩ := hist_cons_ok hh h2
  obtain ⟨sp2, r2, s2⟩ := s1.step he hp h2
  obtain ⟨sp3, r3, s3⟩ := s2.run he hh h3
  obtain ⟨cs, hcs⟩ := (r3.grow (outcomes_noreset hr)).cells
  obtain ⟨k, hk, rfl⟩ := r2
  have hform := jmp_form he s1 h2 hk
  have hi := (final_implements s3.inv s3.safe h4).1
  unfold Spec.emit at hcs
  simp only at hcs
  rw [sp_touch_cells, List.append_assoc] at hcs
  have := jmp_cells hi b lo _ _ _ _ hcs
  have e1 : g1.ca.size = len sp1.cells := s1.inv.buf.size
  have e2 : g2.ca.size = len sp1.cells + len (jmpCells (sp1.shortForm k ty) b lo 0 (.label k 0)) := by
    rw [s2.inv.buf.size]
    unfold Spec.emit
    simp only
    rw [len_append, sp_touch_cells]
  dsimp only at this
  rw [← e2, ← e1] at this
  refine ⟨⟨_, _, hform.1, hform.2, this.1, this.2, fun o ho => ho.2.2⟩, fun pre x post hx => ?_⟩
  exact hi.bytes pre x (post ++ (jmpCells (sp1.shortForm k ty) b lo 0 (.label k 0) ++ cs)) (by rw [hcs, hx]; simp)

/-- **C98.** A successful call of `jmp`, `call`, `loop`, `loope`, `loopne`, `jecxz` or `jrcxz` for a label, anywhere in a program, whatever form is
chosen and whatever follows, is in the finished code the instruction the function is named after; it ends where the next one begins, and its
displacement is the one the theorems about labels (`Reaches`) speak of. -/
theorem c98_label (env : Env) (he : env.Sane) (c : CA) (hc : NewCode c) (a d : List Op) (l : LRef) (ty : LabelType) (f : BranchFn) (hf : f ∈ branchFns)
    (g1 g2 g3 g4 : G) (hh : Hist (CallOk (cxOf c) env) env (a ++ (f.calls l ty ++ d)) (G.init c))
    (h1 : run env a (G.init c) = .ok g1) (h2 : Done env (f.calls l ty) g1 g2)
    (h3 : run env d g2 = .ok g3) (h4 : Final env g3 g4) (hr : .reset ∉ d) :
    ∃ v, X86.direct (g4.ca.code.drop g1.ca.size) = some (f.op, v, g4.ca.code.drop g2.ca.size) ∧
      ∀ o, Reaches g4.ca.code (g1.ca.size + f.pre.toList.length) g2.ca.size o → BitVec.ofNat 64 g2.ca.size + v = BitVec.ofNat 64 o := by
  obtain ⟨ha, hh⟩ := hist_append hh h1
  obtain ⟨sp1, r1, s1⟩ := (St.mk hc.inv hc.safe (init_life c)).run he ha h1
  have near : ∀ {short : Bool}, (f.type ty = .near → short = false) → f.ty = some .near → short = false := by
    intro short h e
    exact h (by unfold BranchFn.type; rw [e]; rfl)
  have shrt : ∀ {short : Bool}, (f.type ty = .short → short = true) → f.ty = some .short → short = true := by
    intro short h e
    exact h (by unfold BranchFn.type; rw [e]; rfl)
  have dir := fun {short : Bool} hn hs {rel : List Byte} hl t => direct_fn hf (short := short) hn hs (rel := rel) hl t
  unfold BranchFn.start at dir
  unfold BranchFn.calls at hh h2
  cases hp : f.pre with
  | none =>
    rw [hp] at hh h2 dir
    obtain ⟨g, h2, rfl⟩ := h2
    obtain ⟨⟨short, rel, hn, hs, hl, hd, hR⟩, -⟩ := jmp_final he s1 hh h2 h3 h4 hr
    exact ⟨_, by rw [hd]; exact dir (near hn) (shrt hs) hl _, hR⟩
  | some x =>
    rw [hp] at hh h2 dir
    obtain ⟨g1', hb, g, h2, rfl⟩ := h2
    obtain ⟨hP, hh⟩ := hist_cons_ok hh hb
    obtain ⟨sp1', r2, s1'⟩ := s1.step he hP hb
    obtain ⟨⟨short, rel, hn, hs, hl, hd, hR⟩, hB⟩ := jmp_final he s1' hh h2 h3 h4 hr
    have r2 : sp1' = sp1.emit [.byte x] := r2
    subst r2
    have e1 : g1.ca.size = len sp1.cells := s1.inv.buf.size
    have e2 : g1'.ca.size = g1.ca.size + 1 := by
      rw [s1'.inv.buf.size, e1]
      unfold Spec.emit
      simp only
      rw [len_append]; rfl
    have hx := hB sp1.cells x [] rfl
    rw [← e1] at hx
    rw [e2] at hd hR
    refine ⟨_, ?_, hR⟩
    rw [drop_cons hx, hd]
    exact dir (near hn) (shrt hs) hl _

/-- **C98.** The same for `jmp` and `call` with an address. -/
theorem c98_addr_partial (env : Env) (he : env.Sane) (c : CA) (hc : NewCode c) (a d : List Op) (addr : Word) (ty : LabelType) (call : Bool)
    (g1 g2 g3 g4 : G) (hh : Hist (CallOk (cxOf c) env) env (a ++ .jmpAbs addr (if call then .near else ty) (if call then 0 else 0xEB) (if call then 0xE8 else 0xE9) 0 :: d) (G.init c))
    (h1 : run env a (G.init c) = .ok g1) (h2 : step env (.jmpAbs addr (if call then .near else ty) (if call then 0 else 0xEB) (if call then 0xE8 else 0xE9) 0) g1 = .ok () g2)
    (h3 : run env d g2 = .ok g3) (h4 : Final env g3 g4) (hr : .reset ∉ d) :
    ∃ v, X86.direct (g4.ca.code.drop g1.ca.size) = some (if call then .call else .jmp, v, g4.ca.code.drop g2.ca.size) ∧
      g4.ca.top + BitVec.ofNat 64 g2.ca.size + v = addr := by
  have hre := c23_partial env he c hc a d addr _ _ _ _ g1 g2 g3 g4 hh h1 h2 h3 h4 hr
  obtain ⟨ha, hh⟩ := hist_append hh h1
  obtain ⟨hp, hh⟩ := hist_cons_ok hh h2
  obtain ⟨sp1, r1, s1⟩ := (St.mk hc.inv hc.safe (init_life c)).run he ha h1
  obtain ⟨sp2, r2, s2⟩ := s1.step he hp h2
  obtain ⟨sp3, r3, s3⟩ := s2.run he hh h3
  obtain ⟨cs, hcs⟩ := (r3.grow (outcomes_noreset hr)).cells
  have r2 : sp2 = sp1.emit (jmpCells (sp1.shortAbs (cxOf c) addr (if call then .near else ty)) (if call then 0 else 0xEB) (if call then 0xE8 else 0xE9) 0 (.addr addr)) := r2
  subst r2
  have hi := (final_implements s3.inv s3.safe h4).1
  unfold Spec.emit at hcs
  simp only at hcs
  rw [List.append_assoc] at hcs
  have := jmp_cells hi _ _ _ _ _ _ hcs
  have e1 : g1.ca.size = len sp1.cells := s1.inv.buf.size
  have e2 : g2.ca.size = len sp1.cells + len (jmpCells (sp1.shortAbs (cxOf c) addr (if call then .near else ty)) (if call then 0 else 0xEB) (if call then 0xE8 else 0xE9) 0 (.addr addr)) := by
    rw [s2.inv.buf.size]
    unfold Spec.emit
    simp only
    rw [len_append]
  dsimp only at this
  rw [← e2, ← e1] at this
  refine ⟨_, ?_, hre.2.2⟩
  rw [this.2]
  have hl := this.1
  cases call with
  | true =>
    have hs : sp1.shortAbs (cxOf c) addr .near = false := by
      simp [Spec.shortAbs]
    exact direct_fn (f := { name := "call", ty := some .near, short := 0, long := 0xE8, op := .call }) (by simp [branchFns]) (fun _ => hs) (fun h => by cases h) hl _
  | false =>
    exact direct_fn (f := { name := "jmp", short := 0xEB, long := 0xE9, op := .jmp }) (by simp [branchFns]) (fun h => by cases h) (fun h => by cases h) hl _

/-- `L("top"); nop; jecxz("top"); loop("top"); call("end"); jmp("end"); L("end")` -/
example : (match run demoEnv ([.defL (.str "top"), .db 0x90, .db 0x67, .jmp (.str "top") .short 0xE3 0 0, .jmp (.str "top") .short 0xE2 0 0,
      .jmp (.str "end") .near 0 0xE8 0, .jmp (.str "end") .auto 0xEB 0xE9 0, .defL (.str "end")]) (G.init demoCA) with
    | .ok g => (g.ca.code, [1, 4, 6, 11].map fun p => (X86.direct (g.ca.code.drop p)).map fun r => (r.1, r.2.1))
    | .error _ => ([], [])) = ([0x90, 0x67, 0xE3, 0xFC, 0xE2, 0xFA, 0xE8, 2, 0, 0, 0, 0xEB, 0], [some (.jcxz 32, -4), some (.loop 64, -6), some (.call, 2), some (.jmp, 0)]) := by
  decide +kernel

/-- The functions are reached: `jecxz` of a label defined before. -/
example : ∃ f ∈ branchFns, f.name = "jecxz" ∧ f.calls (.str "top") .auto = [.db 0x67, .jmp (.str "top") .short 0xE3 0 0] :=
  ⟨_, List.mem_cons_of_mem _ (List.mem_cons_of_mem _ (List.mem_cons_of_mem _ (List.mem_cons_of_mem _ (List.mem_cons_of_mem _ (List.mem_cons_self ..))))), rfl, rfl⟩

end Xbyak.Asm
