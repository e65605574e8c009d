import Verif.Props.LabelMore
/-! # C13, C14, C22, C23, C24: jumps, addresses of labels, `ready` -/
namespace Xbyak
open CA G

/-! ## C14: jumps to defined labels -/

/-- Emission with enough room never grows or fails. -/
theorem dbs_room (env : Env) (bs : List Byte) (c : CA) (hw : c.Wf) (hr : c.size + bs.length ≤ c.maxSize) :
    ∃ c', CA.dbs env bs c = .ok () c' ∧ c'.code = c.code ++ bs ∧ c'.size = c.size + bs.length ∧ c'.top = c.top ∧
      c'.addrInfo = c.addrInfo := by
  induction bs generalizing c with
  | nil => exact ⟨c, rfl, by simp, rfl, rfl, rfl⟩
  | cons b t ih =>
    simp only [List.length_cons] at hr
    have h2 := hw.max_le
    have hdb : CA.db env b c = .ok () { c with mem := c.mem.set c.size b, size := c.size + 1 } := by
      unfold CA.db
      rw [if_neg (by omega)]
      show (M.get >>= _ : M CA Unit) c = _
      rw [M.get_bind, if_pos (by omega)]
      rfl
    have he := emit_set hw (by omega) b
    obtain ⟨c', e1, e2, e3, e4, e5⟩ := ih { c with mem := c.mem.set c.size b, size := c.size + 1 } he.wf (by simp only; omega)
    refine ⟨c', ?_, ?_, ?_, ?_, ?_⟩
    · simp only [CA.dbs]; rw [M.bind_run, hdb]; exact e1
    · rw [e2, he.code]; simp
    · rw [e3]; simp only [List.length_cons]; omega
    · rw [e4]
    · rw [e5]

/-- The label is defined at `off`. -/
def Defined (g : G) (l : LRef) (off : Nat) : Prop :=
  match l with
  | .obj h => Bound g h off
  | .str s => (s ≠ "@b" ∧ s ≠ "@f") ∧ SDefined g s off

theorem getOffset_defined {g : G} {l : LRef} {off : Nat} (hl : Life g) (h : Defined g l off) :
    getOffset l g = .ok (l, some off) g := by
  cases l with
  | obj x => exact bound_lookup hl h
  | str s =>
    obtain ⟨⟨h1, h2⟩, h3⟩ := h
    unfold getOffset
    simp only
    rw [M.bind_run]
    simp only [resolveName, h1, h2, if_false]
    rw [M.bind_run]
    unfold SDefined at h3
    unfold lookupS
    by_cases hd : isLocalName s = true
    · rw [if_pos hd] at h3 ⊢
      obtain ⟨st, rest, e1, e2⟩ := h3
      rw [e1]
      simp only [e2]
      rfl
    · rw [if_neg hd] at h3 ⊢
      simp only [h3]
      rfl

/-- Two's complement byte / dword of an integer. -/
def int8 (d : Int) : Byte := BitVec.ofInt 8 d
def le32 (d : Int) : List Byte := leBytes 4 (BitVec.ofInt 64 d)

/-- **C14.** A jump to a label defined at `off`, with 16 bytes of room left and code below 2 GiB.  `d` is the displacement
of the two-byte form.  With `T_NEAR` the long form is emitted, otherwise the two-byte form iff `d` fits in a signed
byte; if it does not fit, `T_SHORT` fails with `ERR_LABEL_IS_TOO_FAR` and changes nothing. -/
theorem c14_backward_form (env : Env) (g : G) (l : LRef) (off : Nat) (ty : LabelType) (sh lo p : Byte) (hw : g.ca.Wf) (hl : Life g)
    (hd : Defined g l off) (hoff : off ≤ g.ca.size) (hroom : g.ca.size + 16 < g.ca.maxSize) (hsz : g.ca.size + 6 ≤ 2 ^ 31)
    (d : Int) (hdef : d = off - (g.ca.size + 2)) :
    (ty = .far → step env (.jmp l ty sh lo p) g = .err .NOT_SUPPORTED g) ∧
    (ty = .short ∨ ty = .auto → -128 ≤ d → d ≤ 127 →
      ∃ g', step env (.jmp l ty sh lo p) g = .ok () g' ∧ g'.ca.code = g.ca.code ++ [sh, int8 d]) ∧
    (ty = .short → ¬ (-128 ≤ d ∧ d ≤ 127) → step env (.jmp l ty sh lo p) g = .err .LABEL_IS_TOO_FAR g) ∧
    (ty = .near ∨ (ty = .auto ∧ ¬ (-128 ≤ d ∧ d ≤ 127)) →
      ∃ g', step env (.jmp l ty sh lo p) g = .ok () g' ∧
        g'.ca.code = g.ca.code ++ (if p ≠ 0 then [p, lo] ++ le32 (d - 4) else [lo] ++ le32 (d - 3))) := by
  have hrun : ty ≠ .far → step env (.jmp l ty sh lo p) g =
      liftCA (match jmpBytes (lo32 (BitVec.ofNat 64 off - BitVec.ofNat 64 g.ca.size)) ty sh lo p with
        | some bs => CA.dbs env bs
        | none => M.throw .LABEL_IS_TOO_FAR) g := by
    intro hty
    simp only [step, opJmp]
    rw [M.throwIf_bind, if_neg (by simpa using hty), M.bind_run]
    have : reserve env g = .ok () g := by
      unfold reserve; rw [M.get_bind, if_neg (by rintro ⟨_, h⟩; omega)]; rfl
    rw [this]
    simp only
    rw [M.bind_run, getOffset_defined hl hd]
    simp only
    rw [M.get_bind]
    have hv : isInInt32 (BitVec.ofNat 64 off - BitVec.ofNat 64 g.ca.size) = true := by
      rw [isInInt32_iff, BitVec.toInt_eq_toNat_cond]
      simp only [BitVec.toNat_sub, BitVec.toNat_ofNat]
      split <;> omega
    rw [verifyInInt32_bind, if_pos hv, makeJmp_eq]
    rfl
  have h32 : (lo32 (BitVec.ofNat 64 off - BitVec.ofNat 64 g.ca.size)).toInt = (off : Int) - g.ca.size := by
    rw [BitVec.toInt_eq_toNat_cond]
    simp only [lo32, BitVec.toNat_setWidth, BitVec.toNat_sub, BitVec.toNat_ofNat]
    split <;> omega
  generalize hx : lo32 (BitVec.ofNat 64 off - BitVec.ofNat 64 g.ca.size) = x at hrun h32
  have hofInt : ∀ k : Nat, k ≤ 6 → x - BitVec.ofNat 32 k = BitVec.ofInt 32 ((off : Int) - g.ca.size - k) := by
    intro k hk
    have : x = BitVec.ofInt 32 ((off : Int) - g.ca.size) := by rw [← h32, BitVec.ofInt_toInt]
    rw [this]
    apply BitVec.eq_of_toNat_eq
    simp only [BitVec.toNat_sub, BitVec.toNat_ofInt, BitVec.toNat_ofNat]
    omega
  have hfit : isInDisp8 (x - 2) = true ↔ -128 ≤ d ∧ d ≤ 127 := by
    have e := hofInt 2 (by omega)
    rw [isInDisp8_iff, show x - 2 = x - BitVec.ofNat 32 2 from rfl, e, BitVec.toInt_ofInt_eq_self (by omega) (by omega) (by omega)]
    omega
  have lift : ∀ bs : List Byte, bs.length ≤ 16 → ∃ g', liftCA (CA.dbs env bs) g = .ok () g' ∧ g'.ca.code = g.ca.code ++ bs := by
    intro bs hlen
    obtain ⟨c', e1, e2, _⟩ := dbs_room env bs g.ca hw (by omega)
    exact ⟨{ g with ca := c' }, by unfold liftCA; rw [e1], e2⟩
  refine ⟨?_, ?_, ?_, ?_⟩
  · rintro rfl; rfl
  · intro hty h1 h2
    rw [hrun (by rcases hty with rfl | rfl <;> simp)]
    unfold jmpBytes
    rw [if_pos ⟨by rcases hty with rfl | rfl <;> simp, hfit.mpr ⟨h1, h2⟩⟩]
    obtain ⟨g', e1, e2⟩ := lift [sh, (x - 2).setWidth 8] (by simp)
    refine ⟨g', e1, ?_⟩
    rw [e2]
    have e := hofInt 2 (by omega)
    have : (x - 2).setWidth 8 = int8 d := by
      rw [show x - 2 = x - BitVec.ofNat 32 2 from rfl, e]
      unfold int8
      apply BitVec.eq_of_toInt_eq
      rw [BitVec.toInt_setWidth]
      simp only [BitVec.toInt_ofInt, BitVec.toNat_ofInt, Int.bmod]
      omega
    rw [this]
  · rintro rfl hn
    rw [hrun (by simp)]
    unfold jmpBytes
    rw [if_neg (fun hc => hn (hfit.mp hc.2)), if_pos rfl]
    rfl
  · intro hty
    rw [hrun (by rcases hty with rfl | ⟨rfl, _⟩ <;> simp)]
    unfold jmpBytes
    have h1 : ¬ (ty ≠ .near ∧ isInDisp8 (x - 2) = true) := by
      rcases hty with rfl | ⟨_, hn⟩
      · simp
      · exact fun hc => hn (hfit.mp hc.2)
    have h2 : ty ≠ .short := by rcases hty with rfl | ⟨rfl, _⟩ <;> simp
    rw [if_neg h1, if_neg h2]
    have le : ∀ k : Nat, k ≤ 6 → leBytes 4 ((x - BitVec.ofNat 32 k).setWidth 64) = le32 ((off : Int) - g.ca.size - k) := by
      intro k hk
      rw [hofInt k hk]
      unfold le32
      have : ((BitVec.ofInt 32 ((off : Int) - g.ca.size - k)).setWidth 64 : Word) =
          (lo32 (BitVec.ofInt 64 ((off : Int) - g.ca.size - k))).setWidth 64 := by
        congr 1
        unfold lo32
        apply BitVec.eq_of_toNat_eq
        simp only [BitVec.toNat_setWidth, BitVec.toNat_ofInt]
        omega
      rw [this, Asm.leBytes4_lo32]
    by_cases hp : p ≠ 0
    · simp only [hp, ne_eq, not_false_eq_true, if_true]
      obtain ⟨g', e1, e2⟩ := lift ([p] ++ [lo] ++ leBytes 4 ((x - BitVec.ofNat 32 (2 + 4)).setWidth 64)) (by simp)
      refine ⟨g', e1, ?_⟩
      rw [e2, le 6 (by omega), show (off : Int) - g.ca.size - (6 : Nat) = d - 4 by omega]
      rfl
    · simp only [hp, if_false]
      obtain ⟨g', e1, e2⟩ := lift ([] ++ [lo] ++ leBytes 4 ((x - BitVec.ofNat 32 (1 + 4)).setWidth 64)) (by simp)
      refine ⟨g', e1, ?_⟩
      rw [e2, le 5 (by omega), show (off : Int) - g.ca.size - (5 : Nat) = d - 3 by omega]
      rfl

/-- A label 2 bytes back is reached by the short form, `T_NEAR` gives five bytes. -/
example : (match run demoEnv [.newLabel 0, .defL (.obj 0), .db 0x90, .db 0x90, .jmp (.obj 0) .auto 0xEB 0xE9 0, .jmp (.obj 0) .near 0xEB 0xE9 0]
    (G.init demoCA) with
    | .ok g => g.ca.code
    | .error _ => []) = [0x90, 0x90, 0xEB, 0xFC, 0xE9, 0xF7, 0xFF, 0xFF, 0xFF] := by decide +kernel

/-! ## C22: Label::getAddress -/

/-- **C22.** `getAddress()` of a live label is `getCode()` + offset of the definition when the label is defined and the
code is ready (always for fixed buffers, after `ready()` in AutoGrow mode), null otherwise; it has no effect. -/
theorem c22_getAddress (g : G) (h : Nat) (hl : Life g) (hlive : g.heap h ≠ none) :
    (∀ off, Bound g h off → (g.ca.isAutoGrow = false ∨ g.ca.calcDone = true) →
      getAddress h g = .ok (some (g.ca.top + BitVec.ofNat 64 off)) g) ∧
    ((¬ ∃ off, Bound g h off) ∨ (g.ca.isAutoGrow = true ∧ g.ca.calcDone = false) → getAddress h g = .ok none g) := by
  cases ho : g.heap h with
  | none => exact absurd ho hlive
  | some o =>
    have hder : deref h g = .ok o g := by simp only [deref, ho]
    constructor
    · intro off hb hready
      have hlook := bound_lookup hl hb
      have hlk : lookupC h g = .ok (some off) g := by
        obtain ⟨o', v, h1, h2, h3, h4⟩ := hb
        have hid := hl.ptr.nz h o' h1 h2
        unfold lookupC getId
        simp only [M.bind_run, deref, h1, if_neg hid, M.pure_run, M.get_run, h3, Option.map_some, h4]
      obtain ⟨o', v, h1, h2, h3, h4⟩ := hb
      rw [ho] at h1; cases h1
      unfold getAddress
      rw [M.bind_run, hder]
      simp only
      rw [M.get_bind, if_neg (by rcases hready with e | e <;> simp [h2, e]), M.bind_run, hlk]
      rfl
    · intro hn
      unfold getAddress
      rw [M.bind_run, hder]
      simp only
      rw [M.get_bind]
      by_cases hc : (!o.mgr || !(!g.ca.isAutoGrow || g.ca.calcDone)) = true
      · rw [if_pos hc]; rfl
      · exfalso
        simp only [Bool.or_eq_true, Bool.not_eq_true', not_or, Bool.not_eq_false] at hc
        rcases hn with hn | ⟨h1, h2⟩
        · apply hn
          have hm : o.mgr = true := by simpa using hc.1
          have hmem := hl.ptr.reg h o ho hm
          have := hl.ref o.id
          cases hcd : g.cdef o.id with
          | some v => exact ⟨v.offset, o, v, ho, hm, hcd, rfl⟩
          | none =>
            rw [hcd] at this
            simp only [cnt] at this
            have hin : h ∈ g.ptrs.filter fun x => (g.heap x).map LabelObj.id == some o.id := by
              rw [List.mem_filter]; exact ⟨hmem, by simp [ho]⟩
            exact absurd (List.eq_nil_of_length_eq_zero this) (List.ne_nil_of_mem hin)
        · rw [h1, h2] at hc; simp at hc

end Xbyak

/-! ## C13: short references are never truncated -/
namespace Xbyak.Asm
open CA G

/-- Why `L` fails: a distance, or the label exists already. -/
def DefErr (g : G) (l : LRef) (e : Err) : Prop :=
  (e = .LABEL_IS_TOO_FAR ∨ e = .OFFSET_IS_TOO_BIG) ∨ (e = .LABEL_IS_REDEFINED ∧ l ≠ .str "@@" ∧ ∃ off, Defined g l off)

theorem defScope_errs (key : String) (off : Nat) (st : SState) (c : CA) (hw : c.Wf) (hl : ∀ e ∈ st.undef, JOk c.maxSize e.2) :
    (defineInScope key off st c).Sat (fun _ _ => True)
      (fun e _ => (e = .LABEL_IS_TOO_FAR ∨ e = .OFFSET_IS_TOO_BIG) ∨ (e = .LABEL_IS_REDEFINED ∧ ∃ o, st.defs key = some o)) := by
  cases hd : st.defs key with
  | some o => unfold defineInScope; rw [hd]; exact .inr ⟨rfl, _, rfl⟩
  | none => exact (defineInScope_err key off st c hw hl hd).monoU (fun _ _ _ => trivial) (fun _ _ h => .inl h) (fun _ h => h)

theorem defL_errs (env : Env) {cx : Cx} {g : G} {sp : Spec} (h : St cx g sp) (l : LRef) (hl : l ≠ .str "@b" ∧ l ≠ .str "@f") :
    (step env (.defL l) g).Sat (fun _ _ => True) (fun e _ => DefErr g l e) (fun _ => True) := by
  have hs := h.safe
  have pg : ∀ e ∈ g.glob.undef, JOk g.ca.maxSize e.2 := fun e he => hs.pend _ (.inr (.inl ⟨_, he⟩))
  cases l with
  | obj x =>
    simp only [step, defL, defineClabel]
    refine M.sat_bind ((getId_sat x g).monoU (fun _ _ h => h) (fun _ _ h => h.elim) (fun _ _ => trivial)) ?_
    rintro id g1 ⟨rfl, o, ho, rfl⟩
    rw [M.get_bind]
    have hs1 := hs.touch (.obj x)
    have hu : ∀ e ∈ (touch (.obj x) g).cundef, JOk (touch (.obj x) g).ca.maxSize e.2 := fun e he => hs1.pend _ (.inl ⟨_, he⟩)
    refine M.sat_bind (Q' := fun _ _ => True) ?_ (fun _ g1 _ => (attach_sat x g1).monoU (fun _ _ _ => trivial) (fun _ _ h => h.elim) (fun _ _ => trivial))
    cases hc : (touch (.obj x) g).cdef o.id with
    | none => exact (defineId_err o.id _ _ hs1.wf hu hc).monoU (fun _ _ _ => trivial) (fun _ _ h => .inl h) (fun _ _ => trivial)
    | some v =>
      unfold defineId
      rw [hc]
      refine .inr ⟨rfl, by simp, v.offset, ?_⟩
      -- the object was not touched and is attached
      have ht := h.inv.tab
      unfold touch at ho hc
      cases hx : g.heap x with
      | none => simp only [hx] at ho; cases ho
      | some o0 =>
        simp only [hx] at ho hc
        by_cases hz : o0.id = 0
        · rw [if_pos hz] at ho hc
          simp only [upd_same, Option.some.injEq] at ho
          subst ho
          have := (ht.fresh g.labelId (.inr (by rw [ht.labelId]; exact Nat.le_refl _))).1
          simp only [this] at hc
          cases hc
        · rw [if_neg hz] at ho hc
          rw [hx] at ho; cases ho
          refine ⟨o, v, hx, ?_, hc, rfl⟩
          cases hm : o.mgr with
          | true => rfl
          | false =>
            have := ((ht.objDef x o hx hz).2.2 hm).1
            rw [this] at hc; cases hc
  | str s =>
    have hb : s ≠ "@b" := fun e => hl.1 (by rw [e])
    have hf : s ≠ "@f" := fun e => hl.2 (by rw [e])
    simp only [step, defL]
    by_cases hat : s = "@@"
    · -- `@@` is never defined twice
      subst hat
      have ht := h.inv.tab
      unfold defineSlabel
      rw [M.throwIf_bind, if_neg (by decide), M.get_bind, if_pos rfl]
      have anon : ∀ (other : String), other = nm (sp.anons + 1) →
          (onScope (nm sp.anons) (defineInScope (nm sp.anons) g.ca.size)
            { g with glob := { g.glob with defs := upd g.glob.defs other none } }).Sat
          (fun _ _ => True) (fun e _ => DefErr g (.str "@@") e) (fun _ => True) := by
        rintro _ rfl
        unfold onScope
        have : isLocalName (nm sp.anons) = false := nm_not_dot _
        rw [this]
        simp only [Bool.false_eq_true, if_false]
        have := defineInScope_err (nm sp.anons) g.ca.size { g.glob with defs := upd g.glob.defs (nm (sp.anons + 1)) none } g.ca hs.wf pg
          (by show upd g.glob.defs (nm (sp.anons + 1)) none (nm sp.anons) = none
              rw [upd_other _ _ _ _ (nm_ne _)]; exact ht.anonCur)
        cases hr : defineInScope (nm sp.anons) g.ca.size { g.glob with defs := upd g.glob.defs (nm (sp.anons + 1)) none } g.ca with
        | ub u => trivial
        | err e r => rw [hr] at this; exact .inl this
        | ok a r => trivial
      rcases nm_cases sp.anons with ⟨h1, h2⟩ | ⟨h1, h2⟩
      · have : g.glob.defs "@f" = none := by rw [← h1]; exact ht.anonCur
        rw [this]
        simp only
        rw [M.modify_bind]
        have := anon "@b" h2.symm
        rw [h1] at this
        exact this
      · have h0 : sp.anons ≠ 0 := by
          intro e; rw [e] at h1; revert h1; decide
        have : g.glob.defs "@f" ≠ none := by
          rw [← h2, ht.anonPrev, if_neg h0]
          intro hc
          have := (ht.anonDef _).mp hc
          omega
        cases hc : g.glob.defs "@f" with
        | none => exact absurd hc this
        | some o =>
          simp only
          rw [M.modify_bind]
          have := anon "@f" h2.symm
          rw [h1] at this
          exact this
    · unfold defineSlabel
      rw [M.throwIf_bind, if_neg (by simp [hb, hf]), M.get_bind, if_neg hat]
      unfold onScope
      by_cases hd : isLocalName s = true
      · rw [if_pos hd]
        cases hloc : g.locals with
        | nil => exact absurd hloc hs.loc
        | cons st rest =>
          have pl : ∀ e ∈ st.undef, JOk g.ca.maxSize e.2 := fun e he => hs.pend _ (.inr (.inr ⟨st, by rw [hloc]; simp, _, he⟩))
          have h2 := defScope_errs s g.ca.size st g.ca hs.wf pl
          simp only
          cases hr : defineInScope s g.ca.size st g.ca with
          | ub u => trivial
          | ok a r => trivial
          | err e r =>
            rw [hr] at h2
            rcases h2 with h2 | ⟨h2, o, h3⟩
            · exact .inl h2
            · exact .inr ⟨h2, by simp [hat], o, ⟨hb, hf⟩, by unfold SDefined; rw [if_pos hd]; exact ⟨st, rest, hloc, h3⟩⟩
      · rw [if_neg hd]
        have h2 := defScope_errs s g.ca.size g.glob g.ca hs.wf pg
        cases hr : defineInScope s g.ca.size g.glob g.ca with
        | ub u => trivial
        | ok a r => trivial
        | err e r =>
          rw [hr] at h2
          rcases h2 with h2 | ⟨h2, o, h3⟩
          · exact .inl h2
          · exact .inr ⟨h2, by simp [hat], o, ⟨hb, hf⟩, by unfold SDefined; rw [if_neg hd]; exact h3⟩

/-- A one-byte field that cannot reach the current position prevents the definition of its label. -/
theorem st_refused {env : Env} (he : env.Sane) {cx : Cx} {g : G} {sp : Spec} (h : St cx g sp) {l : LRef} {k : Key} {p : Nat}
    (hl : l ≠ .str "@b" ∧ l ≠ .str "@f") (hlive : LiveRef g l) (hk : (sp.touch l).keyDef l = some k)
    (hf : fieldAt sp.cells p = some ⟨.w1, false, .label k 0⟩) (hsz : g.ca.size < 2 ^ 63) (hfar : p + 128 < g.ca.size) :
    ∃ e g', step env (.defL l) g = .err e g' ∧ DefErr g l e := by
  have h1 := step_refines env he h.inv h.safe h.life (.defL l) hlive trivial
  have h2 := step_life env he (.defL l) g h.safe h.life trivial hlive
  have h3 := defL_errs env h l hl
  cases hr : step env (.defL l) g with
  | ub u => rw [hr] at h2; exact h2.elim
  | err e g' => rw [hr] at h3; exact ⟨e, g', rfl, h3⟩
  | ok a g' =>
    exfalso
    rw [hr] at h1
    obtain ⟨sp', ⟨k', hk', _, rfl⟩, hi⟩ := h1
    rw [hk] at hk'; cases hk'
    have hv := hi.vals.fits p ⟨.w1, false, .label k 0⟩ cx.top (BitVec.ofNat 64 sp.size + 0 - BitVec.ofNat 64 (p + 1))
      (by show fieldAt (sp.touch l).cells p = _; rw [sp_touch_cells]; exact hf) rfl (fun _ => rfl)
      (by show Option.map _ (upd (sp.touch l).defs k (some sp.size) k) = _
          rw [upd_same]; rfl)
      (by rintro ⟨a, ha⟩; cases ha)
    unfold FitsW at hv
    have hz := h.inv.buf.size
    have hz' : g.ca.size = sp.size := hz
    rw [show BitVec.ofNat 64 sp.size + (0 : Word) = BitVec.ofNat 64 sp.size from BitVec.add_zero _] at hv
    have hv2 := hv.2
    rw [BitVec.toInt_eq_toNat_cond] at hv2
    simp only [Width.len, BitVec.toNat_sub, BitVec.toNat_ofNat] at hv2
    split at hv2 <;> omega

/-- Two-byte jumps: the byte refers to the label. -/
theorem short_field {cx : Cx} {l : LRef} {ty : LabelType} {sh lo p : Byte} {s s' s'' : Spec} {n : Nat} {k : Key}
    (h : Step cx (.jmp l ty sh lo p) s s') (hg : Grow s' s'' n) (hk : (s.touch l).keyRef l = some k)
    (h2 : s'.size = s.size + 2) : fieldAt s''.cells (s.size + 1) = some ⟨.w1, false, .label k 0⟩ := by
  obtain ⟨k', hk', rfl⟩ := h
  rw [hk] at hk'; cases hk'
  obtain ⟨cs, hcs⟩ := hg.cells
  unfold Spec.size Spec.emit at h2
  simp only at h2
  rw [sp_touch_cells, len_append] at h2
  unfold Spec.emit at hcs
  simp only at hcs
  rw [sp_touch_cells] at hcs
  unfold jmpCells at hcs h2
  split at hcs
  · rw [hcs]
    have := fieldAt_mid (s.cells ++ [.byte sh]) cs ⟨.w1, false, .label k 0⟩
    rw [len_append] at this
    simpa [Spec.size, len, Cell.len] using this
  · rename_i hsf
    rw [if_neg hsf] at h2
    simp only [len_append, len, Cell.len, Width.len] at h2
    omega

/-- The identity of an object used by a jump. -/
theorem jump_obj {cx : Cx} {x : Nat} {ty : LabelType} {sh lo p : Byte} {g : G} {s s' : Spec} (hs : St cx g s)
    (h : Step cx (.jmp (.obj x) ty sh lo p) s s') :
    ∃ n, n ≠ 0 ∧ s'.objs x = some n ∧ (s.touch (.obj x)).keyRef (.obj x) = some (.obj n) := by
  obtain ⟨k, hk, rfl⟩ := h
  simp only [Spec.keyRef] at hk
  cases hx : (s.touch (.obj x)).objs x with
  | none => rw [hx] at hk; cases hk
  | some n =>
    rw [hx] at hk
    refine ⟨n, ?_, hx, by simp only [Spec.keyRef, hx]; rfl⟩
    rintro rfl
    unfold Spec.touch at hx
    simp only at hx
    split at hx
    · simp only [upd_same, Option.some.injEq] at hx
      have := hs.inv.tab.idPos
      omega
    · rename_i hne; exact hne hx

/-- **C13.** A two-byte forward jump to a `Label` (`T_SHORT`, the default, `loop`, `jecxz`): after any calls, an `L` further
away than 127 bytes fails, because of the distance (or because the label is defined already). -/
theorem c13_forward_object (env : Env) (he : env.Sane) (c : CA) (hc : NewCode c) (a b : List Op) (x : Nat)
    (ty : LabelType) (sh lo p : Byte) (g1 g2 g3 : G)
    (hh : Hist (CallOk (cxOf c) env) env (a ++ .jmp (.obj x) ty sh lo p :: b) (G.init c))
    (h1 : run env a (G.init c) = .ok g1) (h2 : step env (.jmp (.obj x) ty sh lo p) g1 = .ok () g2)
    (h3 : run env b g2 = .ok g3) (hr : ∀ op ∈ b, ¬ Renews x op) (hlive : g3.heap x ≠ none)
    (hshort : g2.ca.size = g1.ca.size + 2) (hsz : g3.ca.size < 2 ^ 63) (hfar : g2.ca.size + 127 < g3.ca.size) :
    ∃ e g4, step env (.defL (.obj x)) g3 = .err e g4 ∧
      ((e = .LABEL_IS_TOO_FAR ∨ e = .OFFSET_IS_TOO_BIG) ∨ (e = .LABEL_IS_REDEFINED ∧ ∃ off, Bound g3 x off)) := by
  obtain ⟨ha, hh⟩ := hist_append hh h1
  obtain ⟨hp, hh⟩ := hist_cons_ok hh h2
  obtain ⟨sp1, r1, s1⟩ := (St.mk hc.inv hc.safe (init_life c)).run he ha h1
  obtain ⟨sp2, r2, s2⟩ := s1.step he hp h2
  obtain ⟨sp3, r3, s3⟩ := s2.run he hh h3
  have gb := r3.grow (outcomes_noreset fun h => hr _ h trivial)
  obtain ⟨n, hn0, hx2, hk⟩ := jump_obj s1 r2
  have hx3 := r3.objs hx2 hn0 (fun e he => hr _ (outcomes_fst env b g2 e he))
  have e1 := s1.inv.buf.size
  have e2 := s2.inv.buf.size
  have hf := short_field r2 gb hk (by unfold Spec.size; omega)
  obtain ⟨e, g4, h5, h6⟩ := st_refused he s3 (l := .obj x) (by simp) hlive (by simp only [Spec.keyDef, touch_objs hx3 hn0]; rfl) hf hsz (by unfold Spec.size; omega)
  exact ⟨e, g4, h5, h6.imp id (fun ⟨h, _, o, h'⟩ => ⟨h, o, h'⟩)⟩

/-- **C13.** If `L` succeeds, the jump reaches the label, whatever follows (objects; for string labels of all kinds see
`c16_global_forward`, `c16_forward`, `c15_forward`). -/
theorem c13_success_object (env : Env) (he : env.Sane) (c : CA) (hc : NewCode c) (a b d : List Op) (x : Nat)
    (ty : LabelType) (sh lo p : Byte) (g1 g2 g3 g3' g4 g5 : G)
    (hh : Hist (CallOk (cxOf c) env) env (a ++ .jmp (.obj x) ty sh lo p :: (b ++ .defL (.obj x) :: d)) (G.init c))
    (h1 : run env a (G.init c) = .ok g1) (h2 : step env (.jmp (.obj x) ty sh lo p) g1 = .ok () g2)
    (h3 : run env b g2 = .ok g3) (h4 : step env (.defL (.obj x)) g3 = .ok () g3')
    (h5 : run env d g3' = .ok g4) (h6 : Final env g4 g5) (hr1 : ∀ op ∈ b, ¬ Renews x op) (hr2 : .reset ∉ d) :
    Reaches g5.ca.code g1.ca.size g2.ca.size g3.ca.size := by
  obtain ⟨ha, hh⟩ := hist_append hh h1
  obtain ⟨sp1, r1, s1⟩ := (St.mk hc.inv hc.safe (init_life c)).run he ha h1
  obtain ⟨hp, hh⟩ := hist_cons_ok hh h2
  obtain ⟨hb', hh⟩ := hist_append hh h3
  obtain ⟨hp', hh⟩ := hist_cons_ok hh h4
  obtain ⟨sp2, r2, s2⟩ := s1.step he hp h2
  obtain ⟨sp3, r3, s3⟩ := s2.run he hb' h3
  obtain ⟨sp3', r3', s3'⟩ := s3.step he hp' h4
  obtain ⟨sp4, r4, s4⟩ := s3'.run he hh h5
  have gb := r3.grow (outcomes_noreset fun h => hr1 _ h trivial)
  have gd := r4.grow (outcomes_noreset hr2)
  have gl := r3'.grow (by simp)
  obtain ⟨n, hn0, hx2, hk⟩ := jump_obj s1 r2
  have hx3 := r3.objs hx2 hn0 (fun e he => hr1 _ (outcomes_fst env b g2 e he))
  rw [s1.inv.buf.size, s2.inv.buf.size]
  refine jump_lands r2 ((gb.trans gl).trans gd) (final_implements s4.inv s4.safe h6).1 hk (gd.defs _ _ ?_)
  obtain ⟨k', a, _, rfl⟩ := r3'
  simp only [Spec.keyDef, touch_objs hx3 hn0, Option.map_some, Option.some.injEq] at a
  subst a
  show upd (sp3.touch (.obj x)).defs (.obj n) (some sp3.size) (.obj n) = _
  rw [upd_same, s3.inv.buf.size]
  rfl

/-- A two-byte forward jump over 127 bytes is accepted, over 128 bytes refused. -/
example : ((outcomes demoEnv ([.newLabel 0, .jmp (.obj 0) .auto 0xEB 0xE9 0] ++ List.replicate 127 (.db 0x90) ++ [.defL (.obj 0)])
      (G.init (initUser 200 0x1000 (List.replicate 200 0)))).getLast?.map (·.2),
    (outcomes demoEnv ([.newLabel 0, .jmp (.obj 0) .auto 0xEB 0xE9 0] ++ List.replicate 128 (.db 0x90) ++ [.defL (.obj 0)])
      (G.init (initUser 200 0x1000 (List.replicate 200 0)))).getLast?.map (·.2)) = (some true, some false) := by decide +kernel

/-- **C13.** The same as `c13_forward_object` for string labels. -/
theorem c13_forward_name (env : Env) (he : env.Sane) (c : CA) (hc : NewCode c) (a b : List Op) (n : String)
    (hd : isDot n = false) (hn : n ≠ "@@" ∧ n ≠ "@b" ∧ n ≠ "@f")
    (ty : LabelType) (sh lo p : Byte) (g1 g2 g3 : G)
    (hh : Hist (CallOk (cxOf c) env) env (a ++ .jmp (.str n) ty sh lo p :: b) (G.init c))
    (h1 : run env a (G.init c) = .ok g1) (h2 : step env (.jmp (.str n) ty sh lo p) g1 = .ok () g2)
    (h3 : run env b g2 = .ok g3) (hr : .reset ∉ b)
    (hshort : g2.ca.size = g1.ca.size + 2) (hsz : g3.ca.size < 2 ^ 63) (hfar : g2.ca.size + 127 < g3.ca.size) :
    ∃ e g4, step env (.defL (.str n)) g3 = .err e g4 ∧
      ((e = .LABEL_IS_TOO_FAR ∨ e = .OFFSET_IS_TOO_BIG) ∨ (e = .LABEL_IS_REDEFINED ∧ ∃ off, SDefined g3 n off)) := by
  obtain ⟨ha, hh⟩ := hist_append hh h1
  obtain ⟨hp, hh⟩ := hist_cons_ok hh h2
  obtain ⟨sp1, r1, s1⟩ := (St.mk hc.inv hc.safe (init_life c)).run he ha h1
  obtain ⟨sp2, r2, s2⟩ := s1.step he hp h2
  obtain ⟨sp3, r3, s3⟩ := s2.run he hh h3
  have gb := r3.grow (outcomes_noreset hr)
  have e1 := s1.inv.buf.size
  have e2 := s2.inv.buf.size
  have hf := short_field r2 gb (k := .name n) (by simp only [Spec.touch]; exact keyRef_name hd hn) (by unfold Spec.size; omega)
  obtain ⟨e, g4, h5, h6⟩ := st_refused he s3 (l := .str n) (by simp [hn]) trivial
    (by simp only [Spec.touch]; exact keyDef_name hd hn) hf hsz (by unfold Spec.size; omega)
  exact ⟨e, g4, h5, h6.imp id (fun ⟨h, _, o, h'⟩ => ⟨h, o, h'.2⟩)⟩

/-- **C13.** The same for dot labels; `b` opens and closes scopes in pairs. -/
theorem c13_forward_local (env : Env) (he : env.Sane) (c : CA) (hc : NewCode c) (a b : List Op) (n : String)
    (hd : isDot n = true) (ty : LabelType) (sh lo p : Byte) (g1 g2 g3 : G)
    (hh : Hist (CallOk (cxOf c) env) env (a ++ .jmp (.str n) ty sh lo p :: b) (G.init c))
    (h1 : run env a (G.init c) = .ok g1) (h2 : step env (.jmp (.str n) ty sh lo p) g1 = .ok () g2)
    (h3 : run env b g2 = .ok g3) (hr : .reset ∉ b) (hbal : balanced (outcomes env b g2) 0 = true)
    (hshort : g2.ca.size = g1.ca.size + 2) (hsz : g3.ca.size < 2 ^ 63) (hfar : g2.ca.size + 127 < g3.ca.size) :
    ∃ e g4, step env (.defL (.str n)) g3 = .err e g4 ∧
      ((e = .LABEL_IS_TOO_FAR ∨ e = .OFFSET_IS_TOO_BIG) ∨ (e = .LABEL_IS_REDEFINED ∧ ∃ off, SDefined g3 n off)) := by
  obtain ⟨ha, hh⟩ := hist_append hh h1
  obtain ⟨hp, hh⟩ := hist_cons_ok hh h2
  obtain ⟨sp1, r1, s1⟩ := (St.mk hc.inv hc.safe (init_life c)).run he ha h1
  obtain ⟨sp2, r2, s2⟩ := s1.step he hp h2
  obtain ⟨sp3, r3, s3⟩ := s2.run he hh h3
  have gb := r3.grow (outcomes_noreset hr)
  have e1 := s1.inv.buf.size
  have e2 := s2.inv.buf.size
  have f1 : sp3.scopes = sp2.scopes := r3.scopes (inner := []) hbal rfl rfl (outcomes_noreset hr)
  have f2 : sp2.scopes = sp1.scopes := r2.scopes (by simp) (by simp) (by simp)
  obtain ⟨k, hk, _⟩ := id r2
  have hf := short_field r2 gb hk (by unfold Spec.size; omega)
  have hne : n ≠ "@b" ∧ n ≠ "@f" := ⟨by rintro rfl; revert hd; decide, by rintro rfl; revert hd; decide⟩
  obtain ⟨e, g4, h5, h6⟩ := st_refused he s3 (l := .str n) (k := k) (by simp [hne]) trivial
    (by simp only [Spec.touch] at hk ⊢; rw [keyRef_dot hd] at hk; rw [keyDef_dot hd, f1, f2, hk]) hf hsz (by unfold Spec.size; omega)
  exact ⟨e, g4, h5, h6.imp id (fun ⟨h, _, o, h'⟩ => ⟨h, o, h'.2⟩)⟩

/-- **C13.** The same for `@f`: the next `L("@@")`. -/
theorem c13_forward_anonymous (env : Env) (he : env.Sane) (c : CA) (hc : NewCode c) (a b : List Op)
    (ty : LabelType) (sh lo p : Byte) (g1 g2 g3 : G)
    (hh : Hist (CallOk (cxOf c) env) env (a ++ .jmp (.str "@f") ty sh lo p :: b) (G.init c))
    (h1 : run env a (G.init c) = .ok g1) (h2 : step env (.jmp (.str "@f") ty sh lo p) g1 = .ok () g2)
    (h3 : run env b g2 = .ok g3) (hr : .reset ∉ b) (hb : (.defL (.str "@@"), true) ∉ outcomes env b g2)
    (hshort : g2.ca.size = g1.ca.size + 2) (hsz : g3.ca.size < 2 ^ 63) (hfar : g2.ca.size + 127 < g3.ca.size) :
    ∃ e g4, step env (.defL (.str "@@")) g3 = .err e g4 ∧ (e = .LABEL_IS_TOO_FAR ∨ e = .OFFSET_IS_TOO_BIG) := by
  obtain ⟨ha, hh⟩ := hist_append hh h1
  obtain ⟨hp, hh⟩ := hist_cons_ok hh h2
  obtain ⟨sp1, r1, s1⟩ := (St.mk hc.inv hc.safe (init_life c)).run he ha h1
  obtain ⟨sp2, r2, s2⟩ := s1.step he hp h2
  obtain ⟨sp3, r3, s3⟩ := s2.run he hh h3
  have gb := r3.grow (outcomes_noreset hr)
  have hcnt : atCount (outcomes env b g2) = 0 := by
    unfold atCount
    rw [List.countP_eq_zero]
    intro e he' hc
    simp only [beq_iff_eq] at hc
    exact hb (hc ▸ he')
  have e3 : sp3.anons = sp1.anons := by
    rw [gb.anons, hcnt, (r2.grow (by simp)).anons]; simp
  have e1 := s1.inv.buf.size
  have e2 := s2.inv.buf.size
  have hf := short_field r2 gb (k := .anon sp1.anons) (by simp [Spec.touch, Spec.keyRef]) (by unfold Spec.size; omega)
  obtain ⟨e, g4, h5, h6⟩ := st_refused he s3 (l := .str "@@") (k := .anon sp1.anons) (by simp) trivial
    (by simp [Spec.touch, Spec.keyDef, e3]) hf hsz (by unfold Spec.size; omega)
  refine ⟨e, g4, h5, h6.elim id ?_⟩
  rintro ⟨_, h7, _⟩
  exact absurd rfl h7

end Xbyak.Asm

/-! ## C23: jumps to absolute addresses -/
namespace Xbyak.Asm
open CA G

/-- The instruction in `[p, q)` of code located at `top` ends in a displacement that makes the CPU continue at `addr`. -/
def ReachesAddr (code : List Byte) (top : Word) (p q : Nat) (addr : Word) : Prop :=
  let w := if q - p = 2 then 1 else 4
  p + w < q ∧ q ≤ code.length ∧ top + BitVec.ofNat 64 q + sextLE (bytesAt code (q - w) w) = addr

theorem addr_lands {cx : Cx} {a : Word} {ty : LabelType} {sh lo p : Byte} {s s' s'' : Spec} {n : Nat} {code : List Byte}
    {top : Word} (h : Step cx (.jmpAbs a ty sh lo p) s s') (hg : Grow s' s'' n) (hi : Implements code top s'') :
    ReachesAddr code top s.size s'.size a := by
  have h : s' = s.emit (jmpCells (s.shortAbs cx a ty) sh lo p (.addr a)) := h
  subst h
  obtain ⟨cs, hcs⟩ := hg.cells
  have hsz : (s.emit (jmpCells (s.shortAbs cx a ty) sh lo p (.addr a))).size = s.size + len (jmpCells (s.shortAbs cx a ty) sh lo p (.addr a)) := by
    unfold Spec.size Spec.emit
    simp only
    rw [len_append]
  have hlen := hi.length
  have hle : len s''.cells = s.size + len (jmpCells (s.shortAbs cx a ty) sh lo p (.addr a)) + len cs := by
    rw [hcs, len_append]
    have := hsz
    unfold Spec.size at this
    rw [this]
    rfl
  rw [hsz]
  unfold Spec.emit at hcs
  simp only at hcs
  unfold jmpCells at hcs hle ⊢
  have hs : len s.cells = s.size := rfl
  unfold ReachesAddr
  split at hcs
  · rename_i hsf
    simp only [hsf, if_true, len, Cell.len, Width.len] at hle ⊢
    have h1 := hi.fields (s.cells ++ [.byte sh]) ⟨.w1, false, .addr a⟩ cs (by simp [hcs])
    simp only [Field.Correct, len_append, len, Cell.len, Width.len, hs] at h1
    have e1 : s.size + (1 + (1 + 0)) - s.size = 2 := by omega
    rw [e1, if_pos rfl]
    refine ⟨by omega, by rw [hlen]; show _ ≤ len s''.cells; omega, ?_⟩
    have e2 : s.size + (1 + (1 + 0)) - 1 = s.size + (1 + 0) := by omega
    have e3 : s.size + (1 + 0) + 1 = s.size + (1 + (1 + 0)) := by omega
    rw [e2, ← e3]
    exact h1
  · rename_i hsf
    rw [if_neg hsf] at hle ⊢
    have h1 := hi.fields (s.cells ++ ((if p ≠ 0 then [.byte p] else []) ++ [.byte lo])) ⟨.w4, false, .addr a⟩ cs (by rw [hcs]; simp)
    simp only [Field.Correct, len_append, len, Cell.len, Width.len, hs] at h1
    simp only [len_append, len, Cell.len, Width.len] at hle ⊢
    generalize len (if p ≠ 0 then [Cell.byte p] else []) = z at h1 hle ⊢
    rw [if_neg (by omega)]
    refine ⟨by omega, by rw [hlen]; show _ ≤ len s''.cells; omega, ?_⟩
    have e2 : s.size + (z + (1 + (4 + 0))) - 4 = s.size + (z + (1 + 0)) := by omega
    have e3 : s.size + (z + (1 + 0)) + 4 = s.size + (z + (1 + (4 + 0))) := by omega
    rw [e2, ← e3]
    exact h1

/-- **C23 (partial).** A successful jump, call or conditional jump to an absolute address goes there in the finished
code, wherever the code was finally placed.  Missing: targets within 6 bytes of the lower end of the 32-bit range from
a fixed buffer (`AsmOk`), for which it is false (`c23_refuted`). -/
theorem c23_partial (env : Env) (he : env.Sane) (c : CA) (hc : NewCode c) (a d : List Op) (addr : Word) (ty : LabelType) (sh lo p : Byte)
    (g1 g2 g3 g4 : G)
    (hh : Hist (CallOk (cxOf c) env) env (a ++ .jmpAbs addr ty sh lo p :: d) (G.init c))
    (h1 : run env a (G.init c) = .ok g1) (h2 : step env (.jmpAbs addr ty sh lo p) g1 = .ok () g2)
    (h3 : run env d g2 = .ok g3) (h4 : Final env g3 g4) (hr : .reset ∉ d) :
    ReachesAddr g4.ca.code g4.ca.top g1.ca.size g2.ca.size addr := by
  obtain ⟨ha, hh⟩ := hist_append hh h1
  obtain ⟨hp, hh⟩ := hist_cons_ok hh h2
  obtain ⟨sp1, r1, s1⟩ := (St.mk hc.inv hc.safe (init_life c)).run he ha h1
  obtain ⟨sp2, r2, s2⟩ := s1.step he hp h2
  obtain ⟨sp3, r3, s3⟩ := s2.run he hh h3
  rw [s1.inv.buf.size, s2.inv.buf.size]
  exact addr_lands r2 (r3.grow (outcomes_noreset hr)) (final_implements s3.inv s3.safe h4).1

/-- **C23.** From a fixed buffer, an address further away than 32 bits is refused and nothing is emitted. -/
theorem c23_too_far (env : Env) (g : G) (addr : Word) (ty : LabelType) (sh lo p : Byte) (hfix : g.ca.isAutoGrow = false)
    (hfar : ¬ (-(2 ^ 31 : Int) ≤ (addr - g.ca.getCurr).toInt ∧ (addr - g.ca.getCurr).toInt < 2 ^ 31)) :
    ∃ e, step env (.jmpAbs addr ty sh lo p) g = .err e g := by
  simp only [step, opJmpAbs]
  rw [M.throwIf_bind]
  by_cases hf : (ty == .far) = true
  · rw [if_pos hf]; exact ⟨_, rfl⟩
  rw [if_neg hf, M.get_bind, if_neg (by simp [hfix]), verifyInInt32_bind, if_neg ?_]
  · exact ⟨_, rfl⟩
  · rw [isInInt32_iff]
    omega

/-- **Finding (violates C23).** `makeJmp` checks the distance before subtracting the length of the instruction.  A near
jump from a buffer at `0x180000000` to the address 2^31 below is accepted; the stored displacement wraps around and the
CPU goes 4 GiB too high. -/
theorem c23_refuted :
    ¬ ∀ (env : Env), env.Sane → ∀ c, NewCode c → ∀ (addr : Word) (ty : LabelType) (sh lo p : Byte) (g2 g4 : G),
      step env (.jmpAbs addr ty sh lo p) (G.init c) = .ok () g2 → Final env g2 g4 →
      ReachesAddr g4.ca.code g4.ca.top 0 g2.ca.size addr := by
  intro hall
  let c : CA := initUser 64 0x180000000 (List.replicate 64 0)
  have hc : NewCode c := ⟨⟨by decide, by decide, by decide⟩, rfl, rfl, rfl⟩
  have hrun : (match step demoEnv (.jmpAbs 0x100000000 .near 0xEB 0xE9 0) (G.init c) with
    | .ok _ g => g.ca.code == [0xE9, 0xFB, 0xFF, 0xFF, 0x7F] && g.ca.top == 0x180000000 && g.ca.size == 5 && !g.ca.isAutoGrow
    | _ => false) = true := by decide +kernel
  cases hst : step demoEnv (.jmpAbs 0x100000000 .near 0xEB 0xE9 0) (G.init c) with
  | err e g => rw [hst] at hrun; cases hrun
  | ub u => rw [hst] at hrun; cases hrun
  | ok _ g =>
    rw [hst] at hrun
    simp only [Bool.and_eq_true, beq_iff_eq, Bool.not_eq_true'] at hrun
    obtain ⟨⟨⟨h1, h2⟩, h3⟩, h4⟩ := hrun
    have := hall demoEnv demoEnv_sane c hc _ _ _ _ _ g g hst (by unfold Final; rw [h4]; rfl)
    unfold ReachesAddr at this
    rw [h1, h2, h3] at this
    have := this.2.2
    revert this
    decide +kernel

/-- A jump forward to 0x2000 from a buffer at 0x1000. -/
example : (match run demoEnv [.db 0x90, .jmpAbs 0x2000 .auto 0xEB 0xE9 0] (G.init demoCA) with
    | .ok g => g.ca.code
    | .error _ => []) = [0x90, 0xE9, 0xFA, 0x0F, 0x00, 0x00] := by decide +kernel

/-! ## C24: ready -/

/-- **C24 (partial).** After a successful `ready()` the whole program is in place (all fields correct, nothing undefined);
further `ready()` calls leave code and address alone and never fail except in the system call changing the protection.
Missing: code added after `ready()`, for which `ready()` does nothing (`c24_refuted`). -/
theorem c24_partial (env : Env) (he : env.Sane) (c : CA) (hc : NewCode c) (hauto : c.isAutoGrow = true) (a : List Op) (g1 g2 : G)
    (hh : Hist (CallOk (cxOf c) env) env a (G.init c)) (h1 : run env a (G.init c) = .ok g1)
    (h2 : step env .ready g1 = .ok () g2) :
    (∃ sp, Run (cxOf c) (outcomes env a (G.init c)) Spec.init sp ∧ Implements g2.ca.code g2.ca.top sp ∧ ¬ sp.HasUndefined) ∧
    ((∃ g3, step env .ready g2 = .ok () g3 ∧ g3.ca.code = g2.ca.code ∧ g3.ca.top = g2.ca.top) ∨
      ∃ g3, step env .ready g2 = .err .CANT_PROTECT g3 ∧ g3.ca.code = g2.ca.code ∧ g3.ca.top = g2.ca.top) := by
  obtain ⟨sp, r1, s1⟩ := (St.mk hc.inv hc.safe (init_life c)).run he hh h1
  have hx : (cxOf c).auto = true := hauto
  have hr := ready_refines env s1.inv s1.safe hx
  have h2' := h2
  simp only [step] at h2
  rw [h2] at hr
  refine ⟨⟨sp, r1, hr.2.2.2, hr.1⟩, ?_⟩
  -- labels are untouched
  have hun : hasUndefinedLabel g2 = false ∧ g2.ca.isAutoGrow = true := by
    have hs : (ready env g1).Sat (fun _ g' => hasUndefinedLabel g' = false ∧ g'.ca.isAutoGrow = true) (fun _ _ => True) (fun _ => True) := by
      unfold ready
      rw [M.get_bind, M.throwIf_bind]
      by_cases hu : hasUndefinedLabel g1 = true
      · rw [if_pos hu]; trivial
      have hu' : hasUndefinedLabel g1 = false := by simpa using hu
      have ha1 : g1.ca.isAutoGrow = true := by rw [s1.inv.buf.auto]; exact hx
      rw [if_neg hu, if_pos ha1]
      have hloop : ∀ (l : List AddrInfo) (c : CA), (CA.calcLoop l c).Sat (fun _ c' => c'.ty = c.ty) (fun _ _ => True) (fun _ => True) := by
        intro l
        induction l with
        | nil => intro c; rfl
        | cons i t ih =>
          intro c
          unfold CA.calcLoop
          rw [M.get_bind]
          refine M.sat_bind (Q' := fun _ c' => c' = c) ?_ ?_
          · unfold CA.AddrInfo.getVal
            split
            · rw [verifyInInt32_bind]
              split <;> (split <;> first | trivial | rfl)
            · trivial
          · rintro v c' rfl
            refine M.sat_bind (Q' := fun _ c2 => c2.ty = c'.ty) ?_ (fun _ c'' h => (ih c'').monoU (fun _ _ h' => h'.trans h) (fun _ _ _ => trivial) (fun _ _ => trivial))
            unfold CA.rewrite
            split
            · trivial
            · split
              · rfl
              · trivial
      refine M.sat_bind (Q' := fun _ g' => hasUndefinedLabel g' = false ∧ g'.ca.isAutoGrow = true) ?_ ?_
      · unfold liftCA
        have : (CA.calcJmpAddress g1.ca).Sat (fun _ c' => c'.ty = g1.ca.ty) (fun _ _ => True) (fun _ => True) := by
          unfold CA.calcJmpAddress
          rw [M.get_bind]
          split
          · rfl
          · exact M.sat_bind (hloop _ _) (fun _ _ h => h)
        cases hcj : CA.calcJmpAddress g1.ca with
        | ub u => trivial
        | err e c => trivial
        | ok _ c' =>
          rw [hcj] at this
          refine ⟨hu', ?_⟩
          rw [← ha1]
          show c'.isAutoGrow = g1.ca.isAutoGrow
          unfold CA.isAutoGrow
          rw [this]
      · intro _ g' hg
        by_cases hp : env.useProtect = true
        · rw [if_pos hp]
          unfold liftCA CA.setProtectMode
          simp only
          cases hq : env.protect g'.ca.nProt with
          | true => simp only [if_true]; exact hg
          | false => simp only [Bool.false_eq_true, if_false]; trivial
        · rw [if_neg hp]; exact hg
    rw [h2] at hs; exact hs
  simp only [step]
  unfold ready
  rw [M.get_bind, M.throwIf_bind, hun.1]
  rw [if_neg (by simp), if_pos hun.2, M.bind_run]
  have hcj : liftCA CA.calcJmpAddress g2 = .ok () g2 := by
    unfold liftCA CA.calcJmpAddress
    rw [M.get_bind, if_pos hr.2.2.1]
    rfl
  rw [hcj]
  simp only
  by_cases hp : env.useProtect = true
  · rw [if_pos hp]
    unfold liftCA CA.setProtectMode
    simp only
    cases hq : env.protect g2.ca.nProt with
    | true => exact .inl ⟨_, rfl, rfl, rfl⟩
    | false => exact .inr ⟨_, rfl, rfl, rfl⟩
  · rw [if_neg hp]; exact .inl ⟨g2, rfl, rfl, rfl⟩

/-- `jmp L(near); nop; L:` after a first `ready()`, then `ready()` again. -/
def twiceReady : List Op := [.newLabel 0, .ready, .jmp (.obj 0) .near 0xEB 0xE9 0, .db 0x90, .defL (.obj 0), .ready]

/-- **Finding (violates C24).** References made after a first `ready()` are never completed in AutoGrow mode: the jump
over a `nop` is left with displacement 0, although all calls succeed. -/
theorem c24_refuted :
    (match run demoEnv twiceReady (G.init demoAuto) with
      | .ok g => decide (g.ca.code = [0xE9, 0, 0, 0, 0, 0x90])
      | .error _ => false) = true ∧
    (outcomes demoEnv twiceReady (G.init demoAuto)).map (·.2) = [true, true, true, true, true, true] ∧
    ¬ Reaches [0xE9, 0, 0, 0, 0, 0x90] 0 5 6 := by
  refine ⟨by decide +kernel, by decide +kernel, ?_⟩
  unfold Reaches; decide

end Xbyak.Asm
