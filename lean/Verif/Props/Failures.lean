import Verif.Props.Align
/-! # C58: failing calls -/
namespace Xbyak
open CA G

/-- The byte at offset `i` belongs to a reference that is not complete: its label is undefined, or (AutoGrow) it waits for
`ready()`. -/
def OpenByte (g : G) (i : Nat) : Prop :=
  (∃ j, Pending g j ∧ j.endOfJmp - j.jmpSize ≤ i ∧ i < j.endOfJmp) ∨
  ∃ a ∈ g.ca.addrInfo, a.codeOffset ≤ i ∧ i < a.codeOffset + a.jmpSize

/-- `c'` is at least as long as `c` and has the same bytes outside `o`. -/
def Kept (o : Nat → Prop) (c c' : CA) : Prop := c.size ≤ c'.size ∧ ∀ i, i < c.size → ¬ o i → c'.code[i]? = c.code[i]?

theorem Kept.refl (o : Nat → Prop) (c : CA) : Kept o c c := ⟨Nat.le_refl _, fun _ _ _ => rfl⟩

theorem Kept.emit {o : Nat → Prop} {c c' : CA} {bs : List Byte} (hw : c.Wf) (h : Emit c c' bs) : Kept o c c' := by
  refine ⟨by rw [h.size]; omega, fun i hi _ => ?_⟩
  rw [h.code, List.getElem?_append_left (by rw [code_length hw]; exact hi)]

theorem patch_getElem {l : List Byte} {off : Nat} {bs : List Byte} {i : Nat} (h : off + bs.length ≤ l.length)
    (hi : ¬ (off ≤ i ∧ i < off + bs.length)) : (patch l off bs)[i]? = l[i]? := by
  unfold patch
  have ht : (l.take off).length = off := by rw [List.length_take]; omega
  by_cases h1 : i < off
  · rw [List.append_assoc, List.getElem?_append_left (by rw [ht]; exact h1), List.getElem?_take_of_lt h1]
  · rw [List.getElem?_append_right (by rw [List.length_append, ht]; omega), List.length_append, ht, List.getElem?_drop]
    congr 1; omega

theorem code_getElem {c : CA} {i : Nat} (h : i < c.size) : c.code[i]? = c.mem[i]? := List.getElem?_take_of_lt h

theorem applyFixes_kept {o : Nat → Prop} {c : CA} (hw : c.Wf) (l : List (JmpLabel × Word)) (hl : ∀ e ∈ l, JOk c.maxSize e.1)
    (ho : ∀ e ∈ l, ∀ i, e.1.endOfJmp - e.1.jmpSize ≤ i → i < e.1.endOfJmp → o i) : Kept o c (applyFixes c l) := by
  induction l generalizing c with
  | nil => exact Kept.refl _ _
  | cons e t ih =>
    obtain ⟨j, v⟩ := e
    have hj : JOk c.maxSize j := hl (j, v) (by simp)
    have h1 := applyFix_same hw hj v
    obtain ⟨h2, h3⟩ := ih (h1.wf hw) (fun e he => by rw [h1.maxSize]; exact hl e (by simp [he])) (fun e he => ho e (by simp [he]))
    refine ⟨by rw [← h1.size]; exact h2, fun i hi hno => ?_⟩
    show (applyFixes (applyFix c j v) t).code[i]? = _
    rw [h3 i (by rw [h1.size]; exact hi) hno, code_getElem (by rw [h1.size]; exact hi), code_getElem hi]
    unfold applyFix
    split
    · rfl
    · have hml := hw.max_le
      refine patch_getElem (by rw [leBytes_length]; have := hj.2; omega) ?_
      rw [leBytes_length]
      rintro ⟨ha, hb⟩
      exact hno (ho (j, v) (by simp) i ha (by have := hj.2.1; show i < j.endOfJmp; omega))

theorem partFixed_kept {κ : Type} [DecidableEq κ] {key : κ} {off : Nat} {l l' : List (κ × JmpLabel)} {c c' : CA} {o : Nat → Prop}
    (hw : c.Wf) (hl : ∀ e ∈ l, JOk c.maxSize e.2) (h : PartFixed key off l l' c c')
    (ho : ∀ e ∈ l, ∀ i, e.2.endOfJmp - e.2.jmpSize ≤ i → i < e.2.endOfJmp → o i) : Kept o c c' := by
  obtain ⟨_, fx, rfl, h1, _⟩ := h
  exact applyFixes_kept hw fx (fun e he => hl _ (h1 e he)) (fun e he => ho _ (h1 e he))

theorem defineId_kept (id off : Nat) (g : G) (h : BufSafe g) :
    (defineId id off g).Sat (fun _ _ => True) (fun _ g' => Kept (OpenByte g) g.ca g'.ca) := by
  have hl : ∀ e ∈ g.cundef, JOk g.ca.maxSize e.2 := fun e he => h.pend _ (.inl ⟨_, he⟩)
  refine (defineId_sat id off g h.wf hl).mono (fun _ _ _ => trivial) ?_
  rintro _ g' (⟨_, rfl, _⟩ | ⟨_, hf, hx⟩)
  · exact Kept.refl _ _
  · exact partFixed_kept h.wf hl hx (fun e he i h1 h2 => .inl ⟨e.2, .inl ⟨_, he⟩, h1, h2⟩)

theorem onScope_kept (key : String) (off : Nat) (k : String) (g : G) (h : BufSafe g) :
    (onScope k (defineInScope key off) g).Sat (fun _ _ => True) (fun _ g' => Kept (OpenByte g) g.ca g'.ca) := by
  unfold onScope
  split
  · cases hloc : g.locals with
    | nil => exact absurd hloc h.loc
    | cons st rest =>
      simp only
      have hp : ∀ e ∈ st.undef, Pending g e.2 := fun e he => .inr (.inr ⟨st, by rw [hloc]; simp, _, he⟩)
      have hl : ∀ e ∈ st.undef, JOk g.ca.maxSize e.2 := fun e he => h.pend _ (hp e he)
      have := defineInScope_sat key off st g.ca h.wf hl
      cases hr : defineInScope key off st g.ca with
      | ub u => rw [hr] at this; exact this
      | ok a r => trivial
      | err e r =>
        obtain ⟨st', c'⟩ := r
        rw [hr] at this
        rcases this with ⟨_, h2, _⟩ | ⟨_, _, hx⟩
        · cases h2; exact Kept.refl _ _
        · exact partFixed_kept h.wf hl hx (fun e he i h1 h2 => .inl ⟨e.2, hp e he, h1, h2⟩)
  · have hp : ∀ e ∈ g.glob.undef, Pending g e.2 := fun e he => .inr (.inl ⟨_, he⟩)
    have hl : ∀ e ∈ g.glob.undef, JOk g.ca.maxSize e.2 := fun e he => h.pend _ (hp e he)
    have := defineInScope_sat key off g.glob g.ca h.wf hl
    cases hr : defineInScope key off g.glob g.ca with
    | ub u => rw [hr] at this; exact this
    | ok a r => trivial
    | err e r =>
      obtain ⟨st', c'⟩ := r
      rw [hr] at this
      rcases this with ⟨_, h2, _⟩ | ⟨_, _, hx⟩
      · cases h2; exact Kept.refl _ _
      · exact partFixed_kept h.wf hl hx (fun e he i h1 h2 => .inl ⟨e.2, hp e he, h1, h2⟩)

theorem defineSlabel_kept (s : String) (g : G) (h : BufSafe g) :
    (defineSlabel s g).Sat (fun _ _ => True) (fun _ g' => Kept (OpenByte g) g.ca g'.ca) := by
  unfold defineSlabel
  rw [M.throwIf_bind]
  split
  · exact Kept.refl _ _
  · rw [M.get_bind]
    split
    · cases hf : g.glob.defs "@f" with
      | some o =>
        simp only
        rw [M.modify_bind]
        have h1 : Fewer g { g with glob := { g.glob with defs := upd g.glob.defs "@f" none } } := .frame rfl rfl rfl rfl
        exact onScope_kept _ _ _ _ (h1.safe h)
      | none =>
        simp only
        rw [M.modify_bind]
        have h1 : Fewer g { g with glob := { g.glob with defs := upd g.glob.defs "@b" none } } := .frame rfl rfl rfl rfl
        exact onScope_kept _ _ _ _ (h1.safe h)
    · exact onScope_kept _ _ _ _ h

theorem calcLoop_kept (o : Nat → Prop) (l : List AddrInfo) (c : CA) (hw : c.Wf) (hl : ∀ i ∈ l, IOk c.maxSize i)
    (ho : ∀ a ∈ l, ∀ i, a.codeOffset ≤ i → i < a.codeOffset + a.jmpSize → o i) :
    (CA.calcLoop l c).Sat (fun _ c' => Kept o c c') (fun _ c' => Kept o c c') := by
  induction l generalizing c with
  | nil => exact Kept.refl _ _
  | cons a t ih =>
    unfold CA.calcLoop
    rw [M.get_bind]
    refine M.sat_bind (Q' := fun _ c' => c' = c) ?_ ?_
    · unfold CA.AddrInfo.getVal
      split
      · rw [verifyInInt32_bind]
        split <;> (split <;> first | rfl | exact Kept.refl _ _)
      · rfl
    · rintro v c' rfl
      have ha := hl a (by simp)
      have hml := hw.max_le
      have hb : a.codeOffset + a.jmpSize ≤ c'.mem.length := Nat.le_trans ha.2 hml
      have hsz := ha.1
      have hrw : CA.rewrite a.codeOffset v a.jmpSize c' =
          .ok () { c' with mem := patch c'.mem a.codeOffset (leBytes a.jmpSize v) } := by
        unfold CA.rewrite
        rw [if_neg (by omega), if_pos hb]
      rw [M.bind_run, hrw]
      simp only
      have hlen : (patch c'.mem a.codeOffset (leBytes a.jmpSize v)).length = c'.mem.length :=
        patch_length _ _ _ (by rw [leBytes_length]; exact hb)
      have hk : Kept o c' { c' with mem := patch c'.mem a.codeOffset (leBytes a.jmpSize v) } := by
        refine ⟨Nat.le_refl _, fun i hi hno => ?_⟩
        rw [code_getElem (c := { c' with mem := patch c'.mem a.codeOffset (leBytes a.jmpSize v) }) hi, code_getElem hi]
        refine patch_getElem (by rw [leBytes_length]; exact hb) ?_
        rw [leBytes_length]
        exact fun hc => hno (ho a (by simp) i hc.1 hc.2)
      have step := ih { c' with mem := patch c'.mem a.codeOffset (leBytes a.jmpSize v) }
        ⟨hw.size_le, by show _ ≤ List.length _; rw [hlen]; exact hml, hw.lt⟩ (fun i hi => hl i (by simp [hi]))
        (fun i hi => ho i (by simp [hi]))
      have tr : ∀ c2, Kept o { c' with mem := patch c'.mem a.codeOffset (leBytes a.jmpSize v) } c2 → Kept o c' c2 := by
        rintro c2 ⟨k1, k2⟩
        exact ⟨k1, fun i hi hno => (k2 i hi hno).trans (hk.2 i hi hno)⟩
      exact step.mono (fun _ _ h => tr _ h) (fun _ _ h => tr _ h)

theorem RefErr.kept {o : Nat → Prop} {g g' : G} {l : LRef} (h : BufSafe g) (ha : RefErr l g g') : Kept o g.ca g'.ca := by
  rcases ha with ⟨bs, hb⟩ | ⟨bs, hb⟩
  · exact Kept.emit h.wf hb.emit
  · have := hb.emit
    rw [touch_ca] at this
    exact Kept.emit h.wf this

/-- **C58.** Whatever call fails, in every state reachable or not that satisfies the safety invariants: the code is not
shortened, and every byte of it that does not belong to a still incomplete reference is unchanged. -/
theorem c58_failing_call (env : Env) (he : env.Sane) (op : Op) (g g' : G) (e : Err) (h : BufSafe g) (hr : RewriteInside g op)
    (hst : step env op g = .err e g') :
    g.ca.size ≤ g'.ca.size ∧ ∀ i, i < g.ca.size → ¬ OpenByte g i → g'.ca.code[i]? = g.ca.code[i]? := by
  have key : ∀ {E : Err → G → Prop} {Q : Unit → G → Prop} {U : UB → Prop}, (step env op g).Sat Q E U → E e g' := by
    intro E Q U h; rw [hst] at h; exact h
  show Kept (OpenByte g) g.ca g'.ca
  cases op with
  | db b =>
    obtain ⟨bs, hb⟩ := key (db_g env he h.wf b)
    exact Kept.emit h.wf hb.emit
  | defL l =>
    cases l with
    | str s => exact key (defineSlabel_kept s g h)
    | obj x =>
      have : (step env (.defL (.obj x)) g).Sat (fun _ _ => True) (fun _ g' => Kept (OpenByte g) g.ca g'.ca) (fun _ => True) := by
        simp only [step, defL, defineClabel]
        refine M.sat_bind ((getId_sat x g).monoU (fun _ _ h => h) (fun _ _ h => h.elim) (fun _ _ => trivial)) ?_
        rintro id g1 ⟨rfl, o, ho, rfl⟩
        rw [M.get_bind]
        refine M.sat_bind (Q' := fun _ _ => True) ((defineId_kept o.id _ _ (h.touch (.obj x))).monoU (fun _ _ _ => trivial) ?_ (fun _ _ => trivial))
          (fun _ g1 _ => (attach_sat x g1).monoU (fun _ _ _ => trivial) (fun _ _ h => h.elim) (fun _ _ => trivial))
        rintro _ g2 hk
        have hob : ∀ i, OpenByte (touch (.obj x) g) i → OpenByte g i := by
          rintro i (⟨j, hj, h1⟩ | ⟨a, ha, h1⟩)
          · refine .inl ⟨j, ?_, h1⟩
            unfold Pending at hj ⊢
            rwa [touch_cundef, touch_glob, touch_locals] at hj
          · rw [touch_ca] at ha; exact .inr ⟨a, ha, h1⟩
        rw [touch_ca] at hk
        exact ⟨hk.1, fun i hi hno => hk.2 i hi (fun hc => hno (hob i hc))⟩
      exact key this
  | jmp l ty s lo p => exact RefErr.kept h (key (opJmp_sat env he l ty s lo p g h.wf h.loc))
  | jmpAbs a ty s lo p =>
    obtain ⟨bs, hb⟩ := key (opJmpAbs_sat env he a ty s lo p g h.wf)
    exact Kept.emit h.wf hb.emit
  | putL l => exact RefErr.kept h (key (putLInner_sat env he l _ _ g h.wf h.loc))
  | ripL l d => exact RefErr.kept h (key (putLInner_sat env he l _ _ g h.wf h.loc))
  | assignL d s =>
    have : (step env (.assignL d s) g).Sat (fun _ _ => True) (fun _ g' => Kept (OpenByte g) g.ca g'.ca) (fun _ => True) := by
      simp only [step, assign]
      refine M.sat_bind ((deref_sat s g).monoU (fun _ _ h => h) (fun _ _ h => h.elim) (fun _ _ => trivial)) ?_
      rintro so g1 ⟨rfl, hso⟩
      rw [M.get_bind]
      cases hc : g1.cdef so.id with
      | none => exact Kept.refl _ _
      | some v =>
        simp only
        refine M.sat_bind ((deref_sat d g1).monoU (fun _ _ h => h) (fun _ _ h => h.elim) (fun _ _ => trivial)) ?_
        rintro o g2 ⟨rfl, hdo⟩
        exact M.sat_bind (Q' := fun _ _ => True) ((defineId_kept o.id _ _ h).monoU (fun _ _ _ => trivial) (fun _ _ h => h) (fun _ _ => trivial))
          (fun _ g1 _ => (attach_sat d g1).monoU (fun _ _ _ => trivial) (fun _ _ h => h.elim) (fun _ _ => trivial))
    exact key this
  | inLocal => cases hst
  | outLocal =>
    simp only [step, leaveLocal] at hst
    split at hst
    · cases hst; exact Kept.refl _ _
    · cases hst; exact Kept.refl _ _
    · split at hst
      · cases hst; exact Kept.refl _ _
      · cases hst
  | newLabel o =>
    have : (step env (.newLabel o) g).Sat (fun _ _ => True) (fun _ _ => False) (fun _ => True) := by
      simp only [step, newLabel]
      rw [M.get_bind]
      cases g.heap o <;> trivial
    exact (key this).elim
  | copyLabel o s =>
    have : (step env (.copyLabel o s) g).Sat (fun _ _ => True) (fun _ g' => Kept (OpenByte g) g.ca g'.ca) (fun _ => True) := by
      simp only [step, copyLabel]
      refine M.sat_bind ((deref_sat s g).monoU (fun _ _ h => h) (fun _ _ h => h.elim) (fun _ _ => trivial)) ?_
      rintro r g1 ⟨rfl, _⟩
      rw [M.get_bind]
      cases g1.heap o with
      | some _ => trivial
      | none =>
        simp only
        rw [M.set_bind]
        split <;> trivial
    exact key this
  | assignLabel o s =>
    have : (step env (.assignLabel o s) g).Sat (fun _ _ => True) (fun _ g' => Kept (OpenByte g) g.ca g'.ca) (fun _ => True) := by
      simp only [step, assignLabel]
      refine M.sat_bind ((deref_sat o g).monoU (fun _ _ h => h) (fun _ _ h => h.elim) (fun _ _ => trivial)) ?_
      rintro r g1 ⟨rfl, _⟩
      rw [M.throwIf_bind]
      split
      · exact Kept.refl _ _
      · refine M.sat_bind ((deref_sat s g1).monoU (fun _ _ h => h) (fun _ _ h => h.elim) (fun _ _ => trivial)) ?_
        rintro r' g2 ⟨rfl, _⟩
        rw [M.modify_bind]
        split <;> trivial
    exact key this
  | dtorLabel o =>
    have : (step env (.dtorLabel o) g).Sat (fun _ _ => True) (fun _ _ => False) (fun _ => True) := by
      simp only [step, dtorLabel]
      refine M.sat_bind ((deref_sat o g).monoU (fun _ _ h => h) (fun _ _ h => h.elim) (fun _ _ => trivial)) ?_
      rintro r g1 ⟨rfl, _⟩
      split
      · unfold decRef
        rw [M.modify_bind]
        trivial
      · trivial
    exact (key this).elim
  | setDefaultJmpNEAR b => cases hst
  | align x m =>
    have : (align env x m g.ca).Sat (fun _ _ => True) (fun _ c' => ∃ bs, Emit g.ca c' bs) := by
      unfold align
      split
      · trivial
      · rw [M.get_bind, M.throwIf_bind]
        split
        · exact ⟨[], Emit.refl h.wf⟩
        · rw [M.throwIf_bind]
          split
          · exact ⟨[], Emit.refl h.wf⟩
          · split
            · exact (dbs_sat env he _ h.wf).mono (fun _ _ h => trivial) (fun _ _ ⟨p, _, h⟩ => ⟨p, h⟩)
            · trivial
    obtain ⟨_, bs, hb⟩ := key (liftCA_sat this)
    exact Kept.emit h.wf hb
  | setSize n =>
    have : (CA.setSize n g.ca).Sat (fun _ _ => True) (fun _ c' => c' = g.ca) := by
      unfold CA.setSize
      split
      · exact rfl
      · trivial
    have := (key (liftCA_sat this)).2
    rw [this]; exact Kept.refl _ _
  | rewrite o v n =>
    have : (CA.rewrite o v n g.ca).Sat (fun _ _ => True) (fun _ c' => c' = g.ca) := by
      unfold CA.rewrite
      split
      · exact rfl
      · rename_i hn
        rw [if_pos (hr (by omega))]; trivial
    have := (key (liftCA_sat this)).2
    rw [this]; exact Kept.refl _ _
  | ready =>
    have : (step env .ready g).Sat (fun _ _ => True) (fun _ g' => Kept (OpenByte g) g.ca g'.ca) := by
      simp only [step, ready]
      rw [M.get_bind, M.throwIf_bind]
      split
      · exact Kept.refl _ _
      · split
        · refine M.sat_bind (Q' := fun _ g' => Kept (OpenByte g) g.ca g'.ca) ?_ ?_
          · have : (calcJmpAddress g.ca).Sat (fun _ c' => Kept (OpenByte g) g.ca c') (fun _ c' => Kept (OpenByte g) g.ca c') := by
              unfold calcJmpAddress
              rw [M.get_bind]
              split
              · exact Kept.refl _ _
              · exact M.sat_bind (calcLoop_kept _ _ _ h.wf h.info (fun a ha i h1 h2 => .inr ⟨a, ha, h1, h2⟩)) (fun _ _ h => h)
            exact (liftCA_sat this).mono (fun _ _ h => h.2) (fun _ _ h => h.2)
          · intro _ g1 hg
            by_cases hp : env.useProtect = true
            · rw [if_pos hp]
              unfold liftCA CA.setProtectMode
              simp only
              cases hq : env.protect g1.ca.nProt with
              | true => trivial
              | false => exact hg
            · rw [if_neg hp]; trivial
        · trivial
    exact key this
  | reset => exact (key (reset_safe g h)).elim

/-- An instance: the full buffer refuses the second byte of a two-byte jump, the first bytes stay. -/
example : (match run demoEnv [.db 1, .db 2, .db 3, .newLabel 0, .defL (.obj 0), .jmp (.obj 0) .auto 0xEB 0xE9 0]
    (G.init (initUser 4 0x1000 [0, 0, 0, 0])) with
    | .ok g => g.ca.code
    | .error _ => []) = [1, 2, 3, 0xEB] := by decide +kernel

end Xbyak
