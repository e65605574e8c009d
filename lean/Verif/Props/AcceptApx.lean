import Verif.AcceptApx
/-!
# C95: the extended EVEX forms of the APX specification are accepted

`c82_partial` says that what the functions write for APX operands is a form of the specification; here, that every form of the specification can be written: some function of that
name accepts the operands.
-/
namespace Xbyak
open X86 (AForm)
namespace Mn
open E

/-- The operands are those of the form `f` of the mnemonic `name`, as programs write them, and ask for APX. -/
structure AsksFor (name : Nat) (f : AForm) (g : Args) : Prop where
  /-- kinds and sizes, for one of the operand sizes -/
  takes : ∃ n ∈ aSizes, takesAll n f.ops g.ops = true
  /-- no `T_zu`; `T_nf` where the form has NF; vector registers below 16 -/
  regs : ∀ q, .reg q ∈ g.ops → q.Named ∧ q.zu = false ∧ (q.nf = true → f.nf = true) ∧ (q.kind = .xmm → q.idx.toNat ≤ 15)
  mems : ∀ a, .mem a ∈ g.ops → AddrA a ∧ a.o.bit ∈ memBits
  /-- CRC32: the size of the source is not known otherwise -/
  crc : name = n!"crc32" → ∀ a, .mem a ∈ g.ops → a.o.bit ≠ 0
  /-- TILESTORED: the manual wants a SIB byte; the index has the stride -/
  sib : name = n!"tilestored" → ∀ a, .mem a ∈ g.ops → a.e.base.bit ≠ 0 ∧ a.e.index.bit ≠ 0
  cl : ∀ i : Nat, f.ops[i]? = some .cl → (g.reg i).idx = 1
  /-- an immediate for 16-bit operands fits, signed or unsigned -/
  imm : (g.reg 0).bit = 16 → -(2 ^ 15 : Int) ≤ (g.i32 0).toInt ∧ (g.i32 0).toInt < 2 ^ 16
  /-- a new data destination; a register of 16 to 31; NF on the first operand (not for BLSI, BLSMSK and BLSR: `c82_refuted_nf`) -/
  asks : f.nd = true ∨ (∃ o ∈ g.ops, o.hasRex2 = true) ∨ (f.nf = true ∧ name ∉ blsNames ∧ (g.op 0).isMEM = false ∧ (g.reg 0).nf = true)

theorem pTakes_zip : ∀ {ps : List Param} {xs : List Operand}, pTakes ps (xs.map Operand.rep) = true → ps.length = xs.length ∧ ((ps.zip xs).all fun p => p.1.takes p.2) = true := by
  intro ps
  induction ps with
  | nil => intro xs h; cases xs with | nil => exact ⟨rfl, rfl⟩ | cons x xs => cases h
  | cons p ps ih =>
    intro xs h
    cases xs with
    | nil => cases h
    | cons x xs =>
      have h : (p.takes x.rep && pTakes ps (xs.map Operand.rep)) = true := h
      rw [Bool.and_eq_true, takes_rep] at h
      obtain ⟨h1, h2⟩ := ih h.2
      exact ⟨congrArg (· + 1) h1, by rw [List.zip_cons_cons, List.all_cons, h.1, h2]; rfl⟩

theorem c95_accepts {name : Nat} {F : List AForm} (hF : (name, F) ∈ X86.aforms) {f : AForm} (hf : f ∈ F) {g : Args} (h : AsksFor name f g) :
    ∃ e w, e.name = name ∧ e.params.contains .int = (f.imm != .no) ∧ Calls e g w := by
  obtain ⟨n, hn, ht⟩ := h.takes
  have hall : ∀ x ∈ g.ops, (∀ q, x = .reg q → q.Named) ∧ (∀ a, x = .mem a → a.o.kind = .mem ∧ a.o.bit ∈ memBits) := by
    intro x hx
    refine ⟨fun q e => (h.regs q (e ▸ hx)).1, fun a e => ?_⟩
    obtain ⟨h1, h2⟩ := h.mems a (e ▸ hx)
    obtain ⟨b, hb⟩ := h1.o
    exact ⟨by rw [hb]; rfl, h2⟩
  have hc := List.all_eq_true.1 (List.all_eq_true.1 (List.all_eq_true.1 (List.all_eq_true.1 apxAccepted_ok _ hF) f hf) n hn) _ (alists_mem ht hall)
  rw [Bool.or_eq_true] at hc
  have hc := hc.resolve_left (by
    rw [Bool.and_eq_true]
    rintro ⟨h1, h2⟩
    obtain ⟨o, ho, h2⟩ := List.any_eq_true.1 h2
    obtain ⟨x, hx, rfl⟩ := List.mem_map.1 ho
    rw [Bool.and_eq_true] at h2
    cases x with
    | reg q => cases h2.1
    | mem a => exact h.crc (Nat.eq_of_beq_eq_true h1) a hx (Nat.eq_of_beq_eq_true h2.2))
  obtain ⟨e, he, hc⟩ := List.any_eq_true.1 hc
  obtain ⟨hm, hname⟩ := of_namedT e he
  unfold Entry.okA at hc
  simp only [Bool.and_eq_true] at hc
  obtain ⟨⟨⟨⟨h0, h1⟩, h2⟩, h3⟩, h4⟩ := hc
  have habs : e.body.AbsA := by
    rcases (Bool.or_eq_true _ _ ▸ h3 : e.aped = true ∨ e.body.simpleA = true) with h3 | h3
    · exact Entry.absA hm h3
    · exact Body.simpleA_abs h3
  have hctx : CtxA f.nf f.nd (f.nf && !blsNames.contains name) (Nat.beq name n!"tilestored") (clsOf f.ops) g := by
    have opm : ∀ i, (g.op i ∈ g.ops) ∨ g.op i = .reg .nil := by
      intro i
      unfold Args.op
      cases hi : g.ops[i]? with
      | none => exact .inr rfl
      | some o => exact .inl (List.mem_of_getElem? hi)
    have named : ∀ i, (g.op i).isMEM = false → (g.reg i) = .nil ∨ .reg (g.reg i) ∈ g.ops := by
      intro i hi
      rcases opm i with ho | ho
      · right
        unfold Args.reg
        cases hq : g.op i with
        | mem a => rw [hq] at hi; cases hi
        | reg q => rw [hq] at ho; exact ho
      · left; unfold Args.reg; rw [ho]; rfl
    have memk : ∀ i, (g.op i).isMEM = true → (g.reg i).kind = .mem := by
      intro i hi
      rcases opm i with ho | ho
      · unfold Args.reg
        cases hq : g.op i with
        | mem a => rw [hq] at ho; obtain ⟨b, hb⟩ := (h.mems a ho).1.o; show a.o.kind = _; rw [hb]; rfl
        | reg q => rw [hq] at hi; cases hi
      · rw [ho] at hi; cases hi
    refine ⟨?_, ?_, ?_, ?_, ?_, h.imm, ?_⟩
    · intro o ho
      cases o with
      | reg q => obtain ⟨_, h1, h2, _⟩ := h.regs q ho; exact ⟨h1, h2⟩
      | mem a => exact (h.mems a ho).1
    · rcases h.asks with h | ⟨o, ho, h⟩ | ⟨h1, h2, h3, h4⟩
      · exact .inl h
      · obtain ⟨i, hi⟩ := List.mem_iff_getElem?.1 ho
        exact .inr (.inl ⟨i, by unfold Args.op; rw [hi]; exact h⟩)
      · refine .inr (.inr ⟨?_, h3, h4⟩)
        rw [h1, Bool.true_and, Bool.not_eq_true']
        cases hb : blsNames.contains name with
        | false => rfl
        | true => exact absurd (List.contains_iff_mem.1 hb) h2
    · intro i hi
      exact h.cl i (beq_iff_eq.1 (List.mem_filter.1 hi).2)
    · intro i hi
      cases hmem : (g.op i).isMEM with
      | true => rw [memk i hmem] at hi; cases hi
      | false =>
        rcases named i hmem with hq | hq
        · rw [hq]; decide
        · exact (h.regs _ hq).2.2.2 hi
    · intro i hi
      cases hmem : (g.op i).isMEM with
      | true => rw [memk i hmem] at hi; cases hi
      | false =>
        rcases named i hmem with hq | hq
        · rw [hq] at hi; cases hi
        · have hs := (h.regs _ hq).1.shape
          rw [hi] at hs
          simpa using hs
    · intro hs i a ha
      refine h.sib (Nat.eq_of_beq_eq_true hs) a ?_
      rcases opm i with ho | ho
      · rw [ha] at ho; exact ho
      · rw [ha] at ho; cases ho
  obtain ⟨m, hr, hok⟩ := Body.okA_ok hctx habs (by rw [List.length_map] at h4; exact h4)
  have hacc : e.accepts g = true := by
    obtain ⟨hl, htk⟩ := pTakes_zip h1
    unfold Entry.accepts
    rw [hr]
    simp only [hok, Bool.and_true, Bool.and_eq_true, decide_eq_true_eq]
    exact ⟨by omega, htk⟩
  obtain ⟨w, hw⟩ := Entry.accepts_calls hm hacc
  exact ⟨e, w, hname, beq_iff_eq.1 h2, hw⟩

/-- `add(r20, [r30 + rcx*4 + 16], 1000)` with `T_nf` -/
example : ∃ e w, e.name = n!"add" ∧ e.params.contains .int = true ∧
    Calls e { ops := [.reg { Reg.gp 20 64 with nf := true }, .mem { o := Addr.memOp 64, e := { base := .gp 30 64, index := .gp 1 64, scale := 4, disp := 16 } }], ints := [1000] } w :=
  c95_accepts (F := X86.Apx.alu 0 true) (f := { op := 0x81, pp := none, ext := some 0, nd := true, nf := true, ops := [.v .v, .rm .v], imm := .iz })
    (by simp [X86.aforms]) (by decide)
    ⟨⟨64, by decide, by decide⟩, by simp; exact ⟨⟨.inl (by decide), by decide, by decide, by decide⟩, rfl, by simp [Reg.gp]⟩,
      by simp; exact ⟨⟨⟨64, rfl⟩, .inr ⟨30, rfl⟩, .inr ⟨1, rfl⟩, by decide⟩, by decide⟩,
      fun h => absurd h (by decide), fun h => absurd h (by decide), fun i h => by rcases i with _ | _ | i <;> simp at h, fun h => absurd h (by decide), .inl rfl⟩

/-- `kmovq(k1, r17)` -/
example : ∃ e w, e.name = n!"kmovq" ∧ e.params.contains .int = false ∧ Calls e { ops := [.reg { idx := 1, ext8 := false, kind := .opmask, bit := 64 }, .reg (.gp 17 64)] } w :=
  c95_accepts (F := X86.Apx.kmov 0 true 3 true .q .q) (f := { map := 1, op := 0x92, pp := some 3, w := true, ops := [.k, .rr .q] })
    (by simp [X86.aforms]) (by decide)
    ⟨⟨64, by decide, by decide⟩, by
        intro q hq
        simp only [List.mem_cons, List.not_mem_nil, or_false, Operand.reg.injEq] at hq
        rcases hq with rfl | rfl
        · exact ⟨⟨by simp, by simp, by simp, by simp⟩, rfl, by simp, by simp⟩
        · exact ⟨⟨.inl (by decide), by decide, by decide, by decide⟩, rfl, by simp [Reg.gp], by simp [Reg.gp]⟩,
      by simp, fun h => absurd h (by decide), fun h => absurd h (by decide), fun i h => by rcases i with _ | _ | i <;> simp at h, fun h => absurd h (by decide),
      .inr (.inl ⟨.reg (.gp 17 64), by simp, by decide⟩)⟩

end Mn
end Xbyak
