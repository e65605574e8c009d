import Verif.Gen
import Verif.CodeArrayLemmas
/-! # Safety invariant of the generator (helper lemmas for C04, C17, C58) -/
namespace Xbyak
namespace G
open CA

/-- A pending reference lies inside the capacity. -/
def JOk (maxSize : Nat) (j : JmpLabel) : Prop :=
  (j.jmpSize = 1 ∨ j.jmpSize = 4 ∨ j.jmpSize = 8) ∧ j.jmpSize ≤ j.endOfJmp ∧ j.endOfJmp ≤ maxSize

/-- A deferred write lies inside the capacity. -/
def IOk (maxSize : Nat) (i : AddrInfo) : Prop :=
  (i.jmpSize = 1 ∨ i.jmpSize = 4 ∨ i.jmpSize = 8) ∧ i.codeOffset + i.jmpSize ≤ maxSize

/-- Pending references of a generator. -/
def Pending (g : G) (j : JmpLabel) : Prop :=
  (∃ k, (k, j) ∈ g.cundef) ∨ (∃ k, (k, j) ∈ g.glob.undef) ∨ ∃ st ∈ g.locals, ∃ k, (k, j) ∈ st.undef

/-- The registered pointers are exactly the live label objects attached to the manager. -/
structure PtrOk (g : G) : Prop where
  nodup : g.ptrs.Nodup
  live : ∀ h ∈ g.ptrs, ∃ o, g.heap h = some o ∧ o.mgr = true
  reg : ∀ h o, g.heap h = some o → o.mgr = true → h ∈ g.ptrs
  nz : ∀ h o, g.heap h = some o → o.mgr = true → o.id ≠ 0
  idpos : 0 < g.labelId

/-- Buffer safety: everything the generator may still write lies inside its block. -/
structure BufSafe (g : G) : Prop where
  wf : g.ca.Wf
  pend : ∀ j, Pending g j → JOk g.ca.maxSize j
  info : ∀ i ∈ g.ca.addrInfo, IOk g.ca.maxSize i
  loc : g.locals ≠ []

/-- `g'` differs from `g` in the buffer only, which got `bs` appended. -/
structure EmitG (g g' : G) (bs : List Byte) : Prop where
  frame : g' = { g with ca := g'.ca }
  emit : Emit g.ca g'.ca bs

theorem JOk.mono {a b : Nat} {j : JmpLabel} (h : JOk a j) (hab : a ≤ b) : JOk b j :=
  ⟨h.1, h.2.1, Nat.le_trans h.2.2 hab⟩
theorem IOk.mono {a b : Nat} {j : AddrInfo} (h : IOk a j) (hab : a ≤ b) : IOk b j :=
  ⟨h.1, Nat.le_trans h.2 hab⟩

theorem EmitG.refl {g : G} (h : g.ca.Wf) : EmitG g g [] := ⟨rfl, Emit.refl h⟩
theorem EmitG.trans {a b c : G} {x y : List Byte} (h : EmitG a b x) (h' : EmitG b c y) : EmitG a c (x ++ y) := by
  refine ⟨?_, h.emit.trans h'.emit⟩
  rw [h'.frame, h.frame]

theorem liftCA_sat {α : Type} {m : M CA α} {g : G} {Q : α → CA → Prop} {E : Err → CA → Prop}
    (h : (m g.ca).Sat Q E) :
    (liftCA m g).Sat (fun a g' => g' = { g with ca := g'.ca } ∧ Q a g'.ca)
      (fun e g' => g' = { g with ca := g'.ca } ∧ E e g'.ca) := by
  unfold liftCA
  cases hm : m g.ca with
  | ok a c => rw [hm] at h; exact ⟨rfl, h⟩
  | err a c => rw [hm] at h; exact ⟨rfl, h⟩
  | ub u => rw [hm] at h; exact h

theorem BufSafe.of {g g' : G} (h : BufSafe g) (wf : g'.ca.Wf) (hm : g.ca.maxSize ≤ g'.ca.maxSize)
    (hp : ∀ j, Pending g' j → Pending g j ∨ JOk g'.ca.maxSize j)
    (hi : ∀ i ∈ g'.ca.addrInfo, i ∈ g.ca.addrInfo ∨ IOk g'.ca.maxSize i) (hl : g'.locals ≠ []) : BufSafe g' := by
  refine ⟨wf, ?_, ?_, hl⟩
  · intro j hj
    rcases hp j hj with h1 | h1
    · exact (h.pend j h1).mono hm
    · exact h1
  · intro i hj
    rcases hi i hj with h1 | h1
    · exact (h.info i h1).mono hm
    · exact h1

theorem EmitG.safe {g g' : G} {bs : List Byte} (h : BufSafe g) (he : EmitG g g' bs) : BufSafe g' := by
  have hf := he.frame
  refine h.of he.emit.wf he.emit.max ?_ ?_ ?_
  · intro j hj; rw [hf] at hj; exact .inl hj
  · intro i hi; rw [he.emit.info] at hi; exact .inl hi
  · rw [hf]; exact h.loc

variable (env : Env)

/-- outcome "some bytes were appended, nothing else" -/
def Appends (g : G) (g' : G) : Prop := ∃ bs, EmitG g g' bs

theorem Appends.trans {a b c : G} (h : Appends a b) (h' : Appends b c) : Appends a c := by
  obtain ⟨x, hx⟩ := h
  obtain ⟨y, hy⟩ := h'
  exact ⟨_, hx.trans hy⟩

theorem db_g (he : env.Sane) {g : G} (h : g.ca.Wf) (b : Byte) :
    (liftCA (CA.db env b) g).Sat (fun _ g' => EmitG g g' [b]) (fun _ g' => Appends g g') := by
  refine (liftCA_sat (db_sat env he h b)).mono ?_ ?_
  · intro _ g' hg; exact ⟨hg.1, hg.2⟩
  · intro _ g' hg; exact ⟨_, hg.1, hg.2⟩

theorem dbs_g (he : env.Sane) {g : G} (h : g.ca.Wf) (bs : List Byte) :
    (liftCA (CA.dbs env bs) g).Sat (fun _ g' => EmitG g g' bs) (fun _ g' => Appends g g') := by
  refine (liftCA_sat (dbs_sat env he bs h)).mono ?_ ?_
  · intro _ g' hg; exact ⟨hg.1, hg.2⟩
  · rintro _ g' ⟨hg, p, _, hp⟩; exact ⟨p, hg, hp⟩

theorem dbN_g (he : env.Sane) {g : G} (h : g.ca.Wf) (v : Word) (n : Nat) :
    (liftCA (CA.dbN env v n) g).Sat (fun _ g' => EmitG g g' (leBytes n v)) (fun _ g' => Appends g g') := by
  refine (liftCA_sat (dbN_sat env he v n h)).mono ?_ ?_
  · intro _ g' hg; exact ⟨hg.1, hg.2.2⟩
  · rintro _ g' ⟨hg, p, hp⟩; exact ⟨p, hg, hp⟩

theorem reserve_g (he : env.Sane) {g : G} (h : g.ca.Wf) :
    (reserve env g).Sat (fun _ g' => EmitG g g' []) (fun _ g' => Appends g g') := by
  unfold reserve
  rw [M.get_bind]
  split
  · rename_i hc
    refine (liftCA_sat (growMemory_sat env he h (by simpa [CA.isAutoGrow] using hc.1))).mono ?_ ?_
    · intro _ g' hg; exact ⟨hg.1, hg.2.1⟩
    · intro _ g' hg
      refine ⟨[], hg.1, ?_⟩
      rw [hg.2]
      exact ⟨by simp, by simp [code], ⟨h.size_le, h.max_le, h.lt⟩, rfl, rfl, rfl, Nat.le_refl _, fun _ => ⟨rfl, rfl, rfl⟩, rfl⟩
  · exact EmitG.refl h

/-- Specification of the bytes chosen by `makeJmp`. -/
def jmpBytes (disp : BitVec 32) (ty : LabelType) (short long pref : Byte) : Option (List Byte) :=
  if ty ≠ .near ∧ isInDisp8 (disp - 2) then some [short, (disp - 2).setWidth 8]
  else if ty = .short then none
  else some ((if pref ≠ 0 then [pref] else []) ++ [long] ++
    leBytes 4 ((disp - BitVec.ofNat 32 ((if pref ≠ 0 then 2 else 1) + 4)).setWidth 64))

theorem makeJmp_eq (disp : BitVec 32) (ty : LabelType) (short long pref : Byte) :
    makeJmp env disp ty short long pref =
      match jmpBytes disp ty short long pref with
      | some bs => CA.dbs env bs
      | none => M.throw .LABEL_IS_TOO_FAR := by
  unfold makeJmp jmpBytes
  have one : ∀ b, CA.dbs env [b] = CA.db env b := by
    intro b; funext c
    simp only [dbs]; rw [M.bind_run]; cases CA.db env b c <;> rfl
  by_cases hc : ty ≠ .near ∧ isInDisp8 (disp - 2) = true
  · rw [if_pos hc, if_pos hc]
    simp only [dbs]
    congr 1
    funext _
    exact (one _).symm
  · rw [if_neg hc, if_neg hc]
    have e4 : ∀ v : BitVec 32, CA.dd env v = CA.dbs env (leBytes 4 (v.setWidth 64)) := by
      intro v; funext c
      unfold dd dbN
      rw [M.throwIf_bind]
      simp
    by_cases hs : ty = .short
    · subst hs
      rw [if_pos rfl]
      funext c
      rfl
    · have : (ty == LabelType.short) = false := by simpa using hs
      rw [if_neg hs, this]
      funext c
      rw [M.throwIf_bind]
      simp only [Bool.false_eq_true, if_false]
      by_cases hp : pref ≠ 0
      · rw [if_pos hp, if_pos hp, if_pos hp]
        simp only [List.cons_append, List.nil_append, dbs]
        rw [e4]
      · rw [if_neg hp, if_neg hp, if_neg hp]
        simp only [List.nil_append, List.cons_append, dbs]
        rw [e4]

theorem makeJmp_g (he : env.Sane) {g : G} (h : g.ca.Wf) (disp : BitVec 32) (ty : LabelType) (s l p : Byte) :
    (liftCA (makeJmp env disp ty s l p) g).Sat
      (fun _ g' => ∃ bs, jmpBytes disp ty s l p = some bs ∧ EmitG g g' bs) (fun _ g' => Appends g g') := by
  rw [makeJmp_eq]
  cases hj : jmpBytes disp ty s l p with
  | none => exact ⟨[], EmitG.refl h⟩
  | some bs =>
    refine (dbs_g env he h bs).mono ?_ (fun _ _ h => h)
    intro _ g' hg; exact ⟨bs, rfl, hg⟩

/-! ### fix-ups -/

/-- Value stored by a fix-up (`cur` = `getCurr()`). -/
def fixVal (addrOffset : Nat) (j : JmpLabel) (cur : Word) : Except Err Word :=
  match j.mode with
  | .addTop => .ok (BitVec.ofNat 64 addrOffset)
  | .abs => .ok cur
  | .asIs =>
    let disp := BitVec.ofNat 64 addrOffset - BitVec.ofNat 64 j.endOfJmp + j.disp
    if j.jmpSize ≤ 4 ∧ isInInt32 disp = false then .error .OFFSET_IS_TOO_BIG
    else if j.jmpSize = 1 ∧ isInDisp8 (lo32 disp) = false then .error .LABEL_IS_TOO_FAR
    else .ok disp

/-- Effect of a fix-up. -/
def applyFix (c : CA) (j : JmpLabel) (v : Word) : CA :=
  if c.isAutoGrow then { c with addrInfo := c.addrInfo ++ [⟨j.endOfJmp - j.jmpSize, v, j.jmpSize, j.mode⟩] }
  else { c with mem := patch c.mem (j.endOfJmp - j.jmpSize) (leBytes j.jmpSize v) }

theorem patch_length (l : List Byte) (off : Nat) (bs : List Byte) (h : off + bs.length ≤ l.length) :
    (patch l off bs).length = l.length := by
  simp only [patch, List.length_append, List.length_take, List.length_drop]; omega

theorem fixup_eq (off : Nat) (j : JmpLabel) (c : CA) (hw : c.Wf) (hj : JOk c.maxSize j) :
    fixup off j c = match fixVal off j c.getCurr with
      | .ok v => .ok () (applyFix c j v)
      | .error e => .err e c := by
  have hm := hw.max_le
  obtain ⟨h1, h2, h3⟩ := hj
  have hrw : ∀ v : Word, (if c.isAutoGrow then CA.save (j.endOfJmp - j.jmpSize) v j.jmpSize j.mode
      else CA.rewrite (j.endOfJmp - j.jmpSize) v j.jmpSize) c = .ok () (applyFix c j v) := by
    intro v
    unfold applyFix
    by_cases ha : c.isAutoGrow = true
    · simp only [ha, if_true, CA.save]
    · simp only [ha, Bool.false_eq_true, if_false]
      unfold rewrite
      rw [if_neg (by omega), if_pos (by omega)]
  unfold fixup fixVal
  rw [M.get_bind]
  cases hmode : j.mode with
  | addTop => rw [hmode] at hrw; simp only []; exact hrw _
  | abs => rw [hmode] at hrw; simp only []; exact hrw _
  | asIs =>
    rw [hmode] at hrw
    simp only []
    rw [M.bind_assoc', M.throwIf_bind]
    by_cases hc : j.jmpSize ≤ 4 ∧ isInInt32 (BitVec.ofNat 64 off - BitVec.ofNat 64 j.endOfJmp + j.disp) = false
    · rw [if_pos hc]
      simp [hc]
    · rw [if_neg hc]
      have : (decide (j.jmpSize ≤ 4) && !isInInt32 (BitVec.ofNat 64 off - BitVec.ofNat 64 j.endOfJmp + j.disp)) = false := by
        by_cases h4 : j.jmpSize ≤ 4
        · simp only [h4, true_and, Bool.not_eq_false] at hc
          simp [hc]
        · simp [h4]
      simp only [this, Bool.false_eq_true, if_false]
      rw [M.bind_assoc', M.throwIf_bind]
      by_cases hc : j.jmpSize = 1 ∧ isInDisp8 (lo32 (BitVec.ofNat 64 off - BitVec.ofNat 64 j.endOfJmp + j.disp)) = false
      · rw [if_pos hc]
        simp [hc]
      · rw [if_neg hc]
        have : (decide (j.jmpSize = 1) && !isInDisp8 (lo32 (BitVec.ofNat 64 off - BitVec.ofNat 64 j.endOfJmp + j.disp))) = false := by
          by_cases h4 : j.jmpSize = 1
          · simp only [h4, true_and, Bool.not_eq_false] at hc
            simp [hc, h4]
          · simp [h4]
        simp only [this, Bool.false_eq_true, if_false]
        exact hrw _

/-- Two buffers that differ in contents and deferred writes only. -/
structure SameBuf (c c' : CA) : Prop where
  ty : c'.ty = c.ty
  maxSize : c'.maxSize = c.maxSize
  top : c'.top = c.top
  size : c'.size = c.size
  len : c'.mem.length = c.mem.length
  calcD : c'.calcDone = c.calcDone
  nAlloc : c'.nAlloc = c.nAlloc
  nProt : c'.nProt = c.nProt

theorem SameBuf.refl (c : CA) : SameBuf c c := ⟨rfl, rfl, rfl, rfl, rfl, rfl, rfl, rfl⟩
theorem SameBuf.trans {a b c : CA} (h : SameBuf a b) (h' : SameBuf b c) : SameBuf a c :=
  ⟨h'.ty.trans h.ty, h'.maxSize.trans h.maxSize, h'.top.trans h.top, h'.size.trans h.size,
   h'.len.trans h.len, h'.calcD.trans h.calcD, h'.nAlloc.trans h.nAlloc, h'.nProt.trans h.nProt⟩
theorem SameBuf.wf {c c' : CA} (h : SameBuf c c') (hw : c.Wf) : c'.Wf :=
  ⟨by rw [h.size, h.maxSize]; exact hw.size_le, by rw [h.len, h.maxSize]; exact hw.max_le,
   by rw [h.ty, h.maxSize]; exact hw.lt⟩
theorem SameBuf.curr {c c' : CA} (h : SameBuf c c') : c'.getCurr = c.getCurr := by
  unfold getCurr; rw [h.top, h.size]

theorem applyFix_same {c : CA} (hw : c.Wf) {j : JmpLabel} (hj : JOk c.maxSize j) (v : Word) :
    SameBuf c (applyFix c j v) := by
  have hm := hw.max_le
  obtain ⟨h1, h2, h3⟩ := hj
  unfold applyFix
  by_cases ha : c.isAutoGrow = true
  · simp only [ha, if_true]; exact ⟨rfl, rfl, rfl, rfl, rfl, rfl, rfl, rfl⟩
  · simp only [ha, Bool.false_eq_true, if_false]
    refine ⟨rfl, rfl, rfl, rfl, ?_, rfl, rfl, rfl⟩
    simp only
    exact patch_length _ _ _ (by rw [leBytes_length]; omega)

/-- Sequence of fix-ups. -/
def applyFixes (c : CA) : List (JmpLabel × Word) → CA
  | [] => c
  | (j, v) :: t => applyFixes (applyFix c j v) t

theorem applyFixes_same {c : CA} (hw : c.Wf) (l : List (JmpLabel × Word)) (hl : ∀ e ∈ l, JOk c.maxSize e.1) :
    SameBuf c (applyFixes c l) := by
  induction l generalizing c with
  | nil => exact SameBuf.refl c
  | cons e t ih =>
    obtain ⟨j, v⟩ := e
    have h1 := applyFix_same hw (hl (j, v) (by simp)) v
    refine h1.trans (ih (h1.wf hw) ?_)
    intro e he
    rw [h1.maxSize]
    exact hl e (by simp [he])

theorem applyFixes_info {c : CA} (hw : c.Wf) (l : List (JmpLabel × Word)) (hl : ∀ e ∈ l, JOk c.maxSize e.1)
    (hi : ∀ i ∈ c.addrInfo, IOk c.maxSize i) : ∀ i ∈ (applyFixes c l).addrInfo, IOk c.maxSize i := by
  induction l generalizing c with
  | nil => exact hi
  | cons e t ih =>
    obtain ⟨j, v⟩ := e
    have hj := hl (j, v) (by simp)
    have h1 := applyFix_same hw hj v
    have := ih (c := applyFix c j v) (h1.wf hw) (by rw [h1.maxSize]; exact fun e he => hl e (by simp [he]))
    rw [h1.maxSize] at this
    refine this ?_
    intro i hmem
    unfold applyFix at hmem
    by_cases ha : c.isAutoGrow = true
    · simp only [ha, if_true, List.mem_append, List.mem_singleton] at hmem
      rcases hmem with hmem | rfl
      · exact hi i hmem
      · obtain ⟨h1, h2, h3⟩ := hj
        exact ⟨h1, by simp only at *; omega⟩
    · simp only [ha, Bool.false_eq_true, if_false] at hmem
      exact hi i hmem

section
variable {κ : Type} [DecidableEq κ]

/-- Outcome of the resolution loop. -/
theorem resolve_sat (key : κ) (off : Nat) (l : List (κ × JmpLabel)) (c : CA) (hw : c.Wf)
    (hl : ∀ e ∈ l, JOk c.maxSize e.2) :
    (resolve key off l c).Sat
      (fun _ r => r.1 = l.filter (fun e => e.1 ≠ key) ∧
        ∃ fx : List (JmpLabel × Word), r.2 = applyFixes c fx ∧
          fx.map Prod.fst = (l.filter (fun e => e.1 = key)).map Prod.snd ∧
          ∀ e ∈ fx, fixVal off e.1 c.getCurr = .ok e.2)
      (fun _ r => r.1.Sublist l ∧
        ∃ fx : List (JmpLabel × Word), r.2 = applyFixes c fx ∧
          (∀ e ∈ fx, (key, e.1) ∈ l) ∧
          ∀ e ∈ fx, fixVal off e.1 c.getCurr = .ok e.2) := by
  induction l generalizing c with
  | nil => exact ⟨by simp, [], by simp [applyFixes]⟩
  | cons e t ih =>
    obtain ⟨k, j⟩ := e
    have hj : JOk c.maxSize j := hl (k, j) (by simp)
    unfold resolve
    by_cases hk : k = key
    · rw [if_pos hk, fixup_eq off j c hw hj]
      cases hv : fixVal off j c.getCurr with
      | error e =>
        simp only [Res.Sat]
        exact ⟨List.Sublist.refl _, [], rfl, by simp, by simp⟩
      | ok v =>
        simp only
        have hs := applyFix_same hw hj v
        refine (ih (applyFix c j v) (hs.wf hw) (by rw [hs.maxSize]; exact fun e he => hl e (by simp [he]))).mono ?_ ?_
        · rintro _ ⟨l', c'⟩ ⟨h1, fx, h2, h3, h4⟩
          refine ⟨by rw [h1]; simp [hk], (j, v) :: fx, h2, ?_, ?_⟩
          · simp [hk, h3]
          · rw [hs.curr] at h4
            intro e he
            rcases List.mem_cons.mp he with rfl | he
            · exact hv
            · exact h4 e he
        · rintro _ ⟨l', c'⟩ ⟨h1, fx, h2, h3, h4⟩
          refine ⟨h1.trans (List.sublist_cons_self _ _), (j, v) :: fx, h2, ?_, ?_⟩
          · intro e he
            rcases List.mem_cons.mp he with rfl | he
            · simp [hk]
            · simp [h3 e he]
          · rw [hs.curr] at h4
            intro e he
            rcases List.mem_cons.mp he with rfl | he
            · exact hv
            · exact h4 e he
    · rw [if_neg hk]
      have := ih c hw (fun e he => hl e (by simp [he]))
      cases hr : resolve key off t c with
      | ub u => rw [hr] at this; exact this
      | ok a r =>
        obtain ⟨l', c'⟩ := r
        rw [hr] at this
        obtain ⟨h1, fx, h2, h3, h4⟩ := this
        simp only [Res.Sat]
        refine ⟨?_, fx, h2, ?_, h4⟩
        · simp only at h1
          rw [h1]; simp [hk]
        · rw [h3]; simp [hk]
      | err a r =>
        obtain ⟨l', c'⟩ := r
        rw [hr] at this
        obtain ⟨h1, fx, h2, h3, h4⟩ := this
        simp only [Res.Sat]
        refine ⟨List.Sublist.cons_cons _ h1, fx, h2, ?_, h4⟩
        intro e he
        simp [h3 e he]
end

end G
end Xbyak
