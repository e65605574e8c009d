import Verif.SpecRun
/-! # From the specification to the finished code -/
namespace Xbyak
open CA G
namespace Asm

/-- The instruction occupying `[p, q)` of `code` ends in a displacement field (one byte in a two-byte instruction, four
bytes otherwise) that makes the CPU continue at offset `target`. -/
def Reaches (code : List Byte) (p q target : Nat) : Prop :=
  let w := if q - p = 2 then 1 else 4
  p + w < q ∧ q ≤ code.length ∧ BitVec.ofNat 64 q + sextLE (bytesAt code (q - w) w) = BitVec.ofNat 64 target

/-- The code handed to the CPU: the contents of a fixed buffer at any time; in AutoGrow mode after a successful
`ready()`. -/
def Final (env : Env) (g g' : G) : Prop :=
  if g.ca.isAutoGrow then step env .ready g = .ok () g' else g' = g

/-- A buffer as constructed (xbyak.h 1173-1206). -/
structure NewCode (c : CA) : Prop where
  wf : c.Wf
  size : c.size = 0
  info : c.addrInfo = []
  calcD : c.calcDone = false

/-- Mode and address of the specification belonging to a buffer. -/
def cxOf (c : CA) : Cx := ⟨c.isAutoGrow, c.top⟩

theorem NewCode.inv {c : CA} (h : NewCode c) : Inv (cxOf c) (G.init c) Spec.init :=
  inv_init (cxOf c) c h.wf h.size h.info h.calcD rfl (fun _ => rfl)

theorem NewCode.safe {c : CA} (h : NewCode c) : BufSafe (G.init c) := by
  refine ⟨h.wf, ?_, ?_, ?_⟩
  · intro j hj
    rcases hj with ⟨_, hj⟩ | ⟨_, hj⟩ | ⟨st, hst, _, hj⟩
    · cases hj
    · cases hj
    · simp only [G.init, List.mem_singleton] at hst; subst hst; cases hj
  · intro i hi; simp only [G.init, h.info] at hi; cases hi
  · simp [G.init]

theorem final_implements {env : Env} {cx : Cx} {g g' : G} {sp : Spec} (h : Inv cx g sp) (hs : BufSafe g)
    (hf : Final env g g') : Implements g'.ca.code g'.ca.top sp ∧ (cx.auto = true → ¬ sp.HasUndefined) := by
  unfold Final at hf
  rw [h.buf.auto] at hf
  cases hx : cx.auto with
  | true =>
    rw [hx, if_pos rfl] at hf
    have := ready_refines env h hs hx
    simp only [step] at hf
    rw [hf] at this
    exact ⟨this.2.2.2, fun _ => this.1⟩
  | false =>
    rw [hx] at hf
    simp only [Bool.false_eq_true, if_false] at hf
    subst hf
    exact ⟨h.implements hx, fun h => by cases h⟩

theorem hist_append {P : G → Op → Prop} {env : Env} {a b : List Op} {g g' : G} (h : Hist P env (a ++ b) g)
    (hr : run env a g = .ok g') : Hist P env a g ∧ Hist P env b g' := by
  induction a generalizing g with
  | nil => cases hr; exact ⟨trivial, h⟩
  | cons op t ih =>
    rw [List.cons_append] at h
    obtain ⟨h1, h2⟩ := h
    unfold run at hr
    refine (fun h => ⟨⟨h1, h.1⟩, h.2⟩ : _ ∧ Hist P env b g' → _) ?_
    cases hst : step env op g with
    | ok _ g1 => rw [hst] at h2 hr; exact ih h2 hr
    | err _ g1 => rw [hst] at h2 hr; exact ih h2 hr
    | ub u => rw [hst] at hr; cases hr

theorem hist_cons_ok {P : G → Op → Prop} {env : Env} {op : Op} {b : List Op} {g g' : G} (h : Hist P env (op :: b) g)
    (hr : step env op g = .ok () g') : P g op ∧ Hist P env b g' := by
  obtain ⟨h1, h2⟩ := h
  rw [hr] at h2
  exact ⟨h1, h2⟩

/-- A generator state together with a specification state it implements. -/
structure St (cx : Cx) (g : G) (sp : Spec) : Prop where
  inv : Inv cx g sp
  safe : BufSafe g
  life : Life g

theorem St.run {cx : Cx} {env : Env} {ops : List Op} {g g' : G} {sp : Spec} (h : St cx g sp) (he : env.Sane)
    (hh : Hist (CallOk cx env) env ops g) (hr : G.run env ops g = .ok g') :
    ∃ sp', Run cx (outcomes env ops g) sp sp' ∧ St cx g' sp' := by
  obtain ⟨g1, sp1, h1, h2, h3, h4, h5⟩ := run_refines env he ops h.inv h.safe h.life hh
  rw [hr] at h1; cases h1
  exact ⟨sp1, h2, h3, h4, h5⟩

theorem St.step {cx : Cx} {env : Env} {op : Op} {g g' : G} {sp : Spec} (h : St cx g sp) (he : env.Sane)
    (hc : CallOk cx env g op) (hr : G.step env op g = .ok () g') :
    ∃ sp', Step cx op sp sp' ∧ St cx g' sp' := by
  obtain ⟨h1, h2, hw⟩ := hc
  have a := step_refines env he h.inv h.safe h.life op h1 h2
  have b := step_safe env he op g h.safe h2.inside
  have c := step_life env he op g h.safe h.life h2.inside h1
  rw [hr] at a b c
  obtain ⟨sp', h3, h4⟩ := a
  exact ⟨sp', h3, h4, b, c⟩

theorem outcomes_fst (env : Env) (ops : List Op) (g : G) : ∀ e ∈ outcomes env ops g, e.1 ∈ ops := by
  induction ops generalizing g with
  | nil => intro e h; cases h
  | cons op t ih =>
    intro e h
    unfold outcomes at h
    cases hst : step env op g with
    | ok _ g1 =>
      rw [hst] at h
      rcases List.mem_cons.mp h with rfl | h
      · simp
      · exact List.mem_cons_of_mem _ (ih g1 e h)
    | err _ g1 =>
      rw [hst] at h
      rcases List.mem_cons.mp h with rfl | h
      · simp
      · exact List.mem_cons_of_mem _ (ih g1 e h)
    | ub u => rw [hst] at h; cases h

theorem outcomes_append {env : Env} {a b : List Op} {g g' : G} (h : G.run env a g = .ok g') :
    outcomes env (a ++ b) g = outcomes env a g ++ outcomes env b g' := by
  induction a generalizing g with
  | nil => cases h; rfl
  | cons op t ih =>
    rw [List.cons_append, outcomes, outcomes.eq_2 env g op t]
    unfold G.run at h
    cases hst : G.step env op g with
    | ok _ g1 => rw [hst] at h; simp only [ih h, List.cons_append]
    | err _ g1 => rw [hst] at h; simp only [ih h, List.cons_append]
    | ub u => rw [hst] at h; cases h

theorem outcomes_cons_ok {env : Env} {op : Op} {b : List Op} {g g' : G} (h : G.step env op g = .ok () g') :
    outcomes env (op :: b) g = (op, true) :: outcomes env b g' := by
  rw [outcomes, h]

/-- The later phases of `ready` fail in other ways only. -/
theorem ready_err (env : Env) (g : G) :
    ((if g.ca.isAutoGrow then do
        liftCA CA.calcJmpAddress
        if env.useProtect then liftCA (CA.setProtectMode env) else pure ()
      else pure () : M G Unit) g).Sat (fun _ _ => True) (fun e _ => e ≠ .LABEL_IS_NOT_FOUND) (fun _ => True) := by
  have hloop : ∀ (l : List AddrInfo) (c : CA),
      (CA.calcLoop l c).Sat (fun _ _ => True) (fun e _ => e ≠ .LABEL_IS_NOT_FOUND) (fun _ => True) := by
    intro l
    induction l with
    | nil => intro c; trivial
    | cons i t ih =>
      intro c
      unfold CA.calcLoop
      rw [M.get_bind]
      refine M.sat_bind (Q' := fun _ _ => True) ?_ ?_
      · unfold CA.AddrInfo.getVal
        split
        · rw [verifyInInt32_bind]
          split <;> (split <;> first | trivial | exact fun h => by cases h)
        · trivial
      · intro v c' _
        refine M.sat_bind (Q' := fun _ _ => True) ?_ (fun _ c'' _ => ih c'')
        unfold CA.rewrite
        split
        · exact fun h => by cases h
        · split
          · trivial
          · trivial
  split
  · refine M.sat_bind (Q' := fun _ _ => True) ?_ ?_
    · unfold liftCA
      have : (CA.calcJmpAddress g.ca).Sat (fun _ _ => True) (fun e _ => e ≠ .LABEL_IS_NOT_FOUND) (fun _ => True) := by
        unfold CA.calcJmpAddress
        rw [M.get_bind]
        split
        · trivial
        · exact M.sat_bind (Q' := fun _ _ => True) (hloop _ _) (fun _ _ _ => trivial)
      cases hc : CA.calcJmpAddress g.ca with
      | ok a c => trivial
      | ub u => trivial
      | err e c => rw [hc] at this; exact this
    · intro _ g1 _
      split
      · unfold liftCA CA.setProtectMode
        simp only
        split
        · trivial
        · rename_i h; split at h <;> cases h; exact fun h => by cases h
        · trivial
      · trivial
  · trivial

theorem outcomes_noreset {env : Env} {ops : List Op} {g : G} (h : .reset ∉ ops) : ∀ e ∈ outcomes env ops g, e.1 ≠ .reset := by
  intro e he hc
  exact h (hc ▸ outcomes_fst env ops g e he)

/-- The fields written by a jump stay and are correct in the finished code. -/
theorem jump_lands {cx : Cx} {l : LRef} {ty : LabelType} {sh lo p : Byte} {s s' s'' : Spec} {n : Nat} {code : List Byte}
    {top : Word} {o : Nat} {k : Key} (h : Step cx (.jmp l ty sh lo p) s s') (hg : Grow s' s'' n)
    (hi : Implements code top s'') (hk : (s.touch l).keyRef l = some k) (ho : s''.defs k = some o) :
    Reaches code s.size s'.size o := by
  obtain ⟨k', hk', rfl⟩ := h
  rw [hk] at hk'; cases hk'
  obtain ⟨cs, hcs⟩ := hg.cells
  have hsz : ((s.touch l).emit (jmpCells (s.shortForm k ty) sh lo p (.label k 0))).size = s.size + len (jmpCells (s.shortForm k ty) sh lo p (.label k 0)) := by
    unfold Spec.size Spec.emit
    simp only
    rw [len_append, sp_touch_cells]
  have hlen := hi.length
  have hle : len s''.cells = s.size + len (jmpCells (s.shortForm k ty) sh lo p (.label k 0)) + len cs := by
    rw [hcs, len_append]
    have := hsz
    unfold Spec.size at this
    rw [this]
    rfl
  rw [hsz]
  unfold Spec.emit at hcs
  simp only at hcs
  rw [sp_touch_cells] at hcs
  unfold jmpCells at hcs hle ⊢
  have e0 : BitVec.ofNat 64 o + (0 : Word) = BitVec.ofNat 64 o := BitVec.add_zero _
  have hs : len s.cells = s.size := rfl
  unfold Reaches
  split at hcs
  · rename_i hsf
    simp only [hsf, if_true, len, Cell.len, Width.len] at hle ⊢
    have := hi.fields (s.cells ++ [.byte sh]) ⟨.w1, false, .label k 0⟩ cs (by simp [hcs])
    simp only [Field.Correct] at this
    have h1 := this o ho
    simp only [Bool.false_eq_true, if_false, len_append, len, Cell.len, Width.len, hs] at h1
    have e1 : s.size + (1 + (1 + 0)) - s.size = 2 := by omega
    rw [e1, if_pos rfl]
    refine ⟨by omega, by rw [hlen]; show _ ≤ len s''.cells; omega, ?_⟩
    rw [e0] at h1
    have e2 : s.size + (1 + (1 + 0)) - 1 = s.size + (1 + 0) := by omega
    have e3 : s.size + (1 + 0) + 1 = s.size + (1 + (1 + 0)) := by omega
    rw [e2, ← e3]
    exact h1
  · rename_i hsf
    rw [if_neg hsf] at hle ⊢
    have := hi.fields (s.cells ++ ((if p ≠ 0 then [.byte p] else []) ++ [.byte lo])) ⟨.w4, false, .label k 0⟩ cs (by rw [hcs]; simp)
    simp only [Field.Correct] at this
    have h1 := this o ho
    simp only [Bool.false_eq_true, if_false, len_append, len, Cell.len, Width.len, hs] at h1
    simp only [len_append, len, Cell.len, Width.len] at hle ⊢
    rw [e0] at h1
    generalize len (if p ≠ 0 then [Cell.byte p] else []) = z at h1 hle ⊢
    rw [if_neg (by omega)]
    refine ⟨by omega, by rw [hlen]; show _ ≤ len s''.cells; omega, ?_⟩
    have e2 : s.size + (z + (1 + (4 + 0))) - 4 = s.size + (z + (1 + 0)) := by omega
    have e3 : s.size + (z + (1 + 0)) + 4 = s.size + (z + (1 + (4 + 0))) := by omega
    rw [e2, ← e3]
    exact h1

/-- The same for absolute references. -/
theorem abs_lands {cx : Cx} {l : LRef} {s s' s'' : Spec} {n : Nat} {code : List Byte}
    {top : Word} {o : Nat} {k : Key} (h : Step cx (.putL l) s s') (hg : Grow s' s'' n)
    (hi : Implements code top s'') (hk : (s.touch l).keyRef l = some k) (ho : s''.defs k = some o) :
    s.size + 8 ≤ code.length ∧ BitVec.ofNat 64 (fromLE (bytesAt code s.size 8)) = top + BitVec.ofNat 64 o := by
  obtain ⟨k', hk', rfl⟩ := h
  rw [hk] at hk'; cases hk'
  obtain ⟨cs, hcs⟩ := hg.cells
  unfold Spec.emit at hcs
  simp only at hcs
  rw [sp_touch_cells] at hcs
  have hlen := hi.length
  have := hi.fields s.cells ⟨.w8, true, .label k 0⟩ cs (by rw [hcs]; simp)
  refine ⟨?_, this o ho⟩
  rw [hlen]
  unfold Spec.size
  rw [hcs, len_append, len_append]
  simp only [len, Cell.len, Width.len]
  omega

/-- The same for `[rip + label + d]`. -/
theorem rip_lands {cx : Cx} {l : LRef} {d : Word} {s s' s'' : Spec} {n : Nat} {code : List Byte}
    {top : Word} {o : Nat} {k : Key} (h : Step cx (.ripL l d) s s') (hg : Grow s' s'' n)
    (hi : Implements code top s'') (hk : (s.touch l).keyRef l = some k) (ho : s''.defs k = some o) :
    s.size + 4 ≤ code.length ∧
      BitVec.ofNat 64 (s.size + 4) + sextLE (bytesAt code s.size 4) = BitVec.ofNat 64 o + d := by
  obtain ⟨k', hk', rfl⟩ := h
  rw [hk] at hk'; cases hk'
  obtain ⟨cs, hcs⟩ := hg.cells
  unfold Spec.emit at hcs
  simp only at hcs
  rw [sp_touch_cells] at hcs
  have hlen := hi.length
  have := hi.fields s.cells ⟨.w4, false, .label k d⟩ cs (by rw [hcs]; simp)
  refine ⟨?_, this o ho⟩
  rw [hlen]
  unfold Spec.size
  rw [hcs, len_append, len_append]
  simp only [len, Cell.len, Width.len]
  omega

/-- Calls that end or replace the object `x`. -/
def Renews (x : Nat) : Op → Prop
  | .newLabel h | .dtorLabel h => h = x
  | .copyLabel h _ | .assignLabel h _ => h = x
  | .reset => True
  | _ => False

theorem touch_objs {s : Spec} {x n : Nat} (h : s.objs x = some n) (h0 : n ≠ 0) (l : LRef) : (s.touch l).objs x = some n := by
  unfold Spec.touch
  cases l with
  | str _ => exact h
  | obj y =>
    simp only
    split
    · rename_i hy
      have : x ≠ y := by rintro rfl; rw [h] at hy; cases hy; exact h0 rfl
      simp only [upd_other _ _ _ _ this]; exact h
    · exact h

theorem Step.objs {cx : Cx} {op : Op} {s s' : Spec} {x n : Nat} (h : Step cx op s s') (hx : s.objs x = some n) (h0 : n ≠ 0)
    (hr : ¬ Renews x op) : s'.objs x = some n := by
  have hu : ∀ (y : Nat) (v : Option Nat), y ≠ x → upd s.objs y v x = some n := by
    intro y v hy; rw [upd_other _ _ _ _ (Ne.symm hy)]; exact hx
  cases op with
  | db b => subst h; exact hx
  | defL l => obtain ⟨k, a, b, rfl⟩ := h; exact touch_objs hx h0 l
  | jmp l => obtain ⟨k, a, rfl⟩ := h; exact touch_objs hx h0 l
  | jmpAbs => subst h; exact hx
  | putL l => obtain ⟨k, a, rfl⟩ := h; exact touch_objs hx h0 l
  | ripL l => obtain ⟨k, a, rfl⟩ := h; exact touch_objs hx h0 l
  | assignL d r => obtain ⟨nd, nr, o, _, _, _, b, rfl⟩ := h; exact touch_objs hx h0 _
  | inLocal => subst h; exact hx
  | outLocal => obtain ⟨_, _, _, _, _, rfl⟩ := h; exact hx
  | newLabel y => subst h; exact hu y _ hr
  | copyLabel y => obtain ⟨_, _, rfl⟩ := h; exact hu y _ hr
  | assignLabel y => obtain ⟨_, _, _, rfl⟩ := h; exact hu y _ hr
  | dtorLabel y => subst h; exact hu y _ hr
  | setDefaultJmpNEAR => subst h; exact hx
  | align => obtain ⟨_, rfl⟩ := h; exact hx
  | setSize => exact h.elim
  | rewrite => exact h.elim
  | reset => exact absurd trivial hr
  | ready => obtain ⟨_, rfl⟩ := h; exact hx

theorem Fail.objs {op : Op} {s s' : Spec} {x n : Nat} (h : Fail op s s') (hx : s.objs x = some n) (h0 : n ≠ 0) :
    s'.objs x = some n := by
  obtain ⟨bs, rfl | ⟨l, _, rfl⟩⟩ := h
  · exact hx
  · exact touch_objs hx h0 l

/-- An object in use keeps its identity. -/
theorem Run.objs {cx : Cx} {t : List (Op × Bool)} {s s' : Spec} {x n : Nat} (h : Run cx t s s') (hx : s.objs x = some n)
    (h0 : n ≠ 0) (hr : ∀ e ∈ t, ¬ Renews x e.1) : s'.objs x = some n := by
  induction h with
  | nil s => exact hx
  | @ok op t s s' s'' a b ih => exact ih (a.objs hx h0 (hr (op, true) (by simp))) (fun e he => hr e (by simp [he]))
  | @fail op t s s' s'' a b ih => exact ih (a.objs hx h0) (fun e he => hr e (by simp [he]))

/-- A jump executed in the middle of a program, seen from its end. -/
theorem St.jump {cx : Cx} {env : Env} {g1 g2 g3 g4 : G} {sp1 : Spec} {l : LRef} {ty : LabelType} {sh lo p : Byte} {d : List Op}
    (h : St cx g1 sp1) (he : env.Sane) (hh : Hist (CallOk cx env) env (.jmp l ty sh lo p :: d) g1)
    (h2 : G.step env (.jmp l ty sh lo p) g1 = .ok () g2) (h3 : G.run env d g2 = .ok g3) (hr : .reset ∉ d)
    (h4 : Final env g3 g4) :
    ∃ sp2 sp3 k, Step cx (.jmp l ty sh lo p) sp1 sp2 ∧ Run cx (outcomes env d g2) sp2 sp3 ∧ St cx g2 sp2 ∧ St cx g3 sp3 ∧
      (sp1.touch l).keyRef l = some k ∧
      Grow sp2 sp3 (atCount (outcomes env d g2)) ∧ ∀ o, sp3.defs k = some o → Reaches g4.ca.code g1.ca.size g2.ca.size o := by
  obtain ⟨hp, hb⟩ := hist_cons_ok hh h2
  obtain ⟨sp2, r2, s2⟩ := h.step he hp h2
  obtain ⟨sp3, r3, s3⟩ := s2.run he hb h3
  obtain ⟨k, hk, _⟩ := id r2
  have hg := r3.grow (outcomes_noreset hr)
  refine ⟨sp2, sp3, k, r2, r3, s2, s3, hk, hg, fun o ho => ?_⟩
  have := jump_lands r2 hg (final_implements s3.inv s3.safe h4).1 hk ho
  rw [h.inv.buf.size, s2.inv.buf.size]
  exact this

/-- Change of the scope nesting relative to the start, never going below it. -/
def balanced : List (Op × Bool) → Nat → Bool
  | [], d => d == 0
  | (.inLocal, true) :: t, d => balanced t (d + 1)
  | (.outLocal, true) :: t, d => match d with
    | 0 => false
    | d + 1 => balanced t d
  | _ :: t, d => balanced t d

theorem Step.scopes {cx : Cx} {op : Op} {s s' : Spec} (h : Step cx op s s') (h1 : op ≠ .inLocal) (h2 : op ≠ .outLocal)
    (h3 : op ≠ .reset) : s'.scopes = s.scopes := by
  cases op with
  | db b => subst h; rfl
  | defL l => obtain ⟨k, a, b, rfl⟩ := h; exact sp_touch_scopes s l
  | jmp l => obtain ⟨k, a, rfl⟩ := h; exact sp_touch_scopes s l
  | jmpAbs => subst h; rfl
  | putL l => obtain ⟨k, a, rfl⟩ := h; exact sp_touch_scopes s l
  | ripL l => obtain ⟨k, a, rfl⟩ := h; exact sp_touch_scopes s l
  | assignL d r => obtain ⟨nd, nr, o, _, _, _, b, rfl⟩ := h; exact sp_touch_scopes s _
  | inLocal => exact absurd rfl h1
  | outLocal => exact absurd rfl h2
  | newLabel y => subst h; rfl
  | copyLabel y => obtain ⟨_, _, rfl⟩ := h; rfl
  | assignLabel y => obtain ⟨_, _, _, rfl⟩ := h; rfl
  | dtorLabel y => subst h; rfl
  | setDefaultJmpNEAR => subst h; rfl
  | align => obtain ⟨_, rfl⟩ := h; rfl
  | setSize => exact h.elim
  | rewrite => exact h.elim
  | reset => exact absurd rfl h3
  | ready => obtain ⟨_, rfl⟩ := h; rfl

theorem Fail.scopes {op : Op} {s s' : Spec} (h : Fail op s s') : s'.scopes = s.scopes := by
  obtain ⟨bs, rfl | ⟨l, _, rfl⟩⟩ := h
  · rfl
  · exact sp_touch_scopes s l

/-- After a balanced part of a program the same scope instance is current. -/
theorem Run.scopes {cx : Cx} {t : List (Op × Bool)} {s s' : Spec} {d : Nat} {base inner : List Nat} (h : Run cx t s s')
    (hb : balanced t d = true) (hs : s.scopes = inner ++ base) (hd : inner.length = d) (hr : ∀ e ∈ t, e.1 ≠ .reset) :
    s'.scopes = base := by
  induction h generalizing d inner with
  | nil s =>
    have : d = 0 := by simpa [balanced] using hb
    have : inner = [] := List.eq_nil_of_length_eq_zero (by omega)
    rw [hs, this]; rfl
  | @ok op t s s' s'' a b ih =>
    have hr' : ∀ e ∈ t, e.1 ≠ .reset := fun e he => hr e (by simp [he])
    by_cases h1 : op = .inLocal
    · subst h1
      refine ih (d := d + 1) (inner := s.nextScope :: inner) hb ?_ (by simp [hd]) hr'
      rw [a]; simp [hs]
    · by_cases h2 : op = .outLocal
      · subst h2
        obtain ⟨σ, σ', rest, c1, _, rfl⟩ := a
        cases d with
        | zero => simp [balanced] at hb
        | succ d =>
          match inner, hd with
          | i :: inner, hd =>
            refine ih (d := d) (inner := inner) hb ?_ (by simpa using hd) hr'
            rw [c1, List.cons_append] at hs
            simp only [List.cons.injEq] at hs
            exact hs.2
      · have := a.scopes h1 h2 (hr (op, true) (by simp))
        refine ih (d := d) (inner := inner) ?_ (by rw [this]; exact hs) hd hr'
        cases op <;> first | exact hb | exact absurd rfl h1 | exact absurd rfl h2
  | @fail op t s s' s'' a b ih =>
    refine ih (d := d) (inner := inner) ?_ (by rw [a.scopes]; exact hs) hd (fun e he => hr e (by simp [he]))
    cases op <;> exact hb

end Asm
end Xbyak
