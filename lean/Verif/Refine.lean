import Verif.Cells
import Verif.GenChar
import Verif.Life
/-! # Refinement invariant between the generator and the symbolic assembler -/
namespace Xbyak
open CA G
namespace Asm

/-- Admissible final addresses: any in AutoGrow mode, the fixed one otherwise. -/
def TopOk (cx : Cx) (t : Word) : Prop := cx.auto = false → t = cx.top

/-- The buffer holds the program. -/
structure Buf (cx : Cx) (c : CA) (cells : List Cell) (defs : Key → Option Nat) : Prop where
  wf : c.Wf
  auto : c.isAutoGrow = cx.auto
  top : cx.auto = false → c.top = cx.top
  nil : cx.auto = false → c.addrInfo = []
  calcD : c.calcDone = false
  size : c.size = len cells
  infoIn : ∀ i ∈ c.addrInfo, i.codeOffset + i.jmpSize ≤ c.size
  code : ∀ t, TopOk cx t → vcode t c = renderR (specR t defs) 0 cells
  addr : cx.auto = true → ∀ p f a, fieldAt cells p = some f → f.tgt = .addr a →
    (⟨p, a - BitVec.ofNat 64 (p + 4), 4, .abs⟩ : AddrInfo) ∈ c.addrInfo ∧ f.w = .w4

/-- Representable in a signed field. -/
def FitsW (w : Width) (v : Word) : Prop := -(2 ^ (8 * w.len - 1) : Int) ≤ v.toInt ∧ v.toInt < 2 ^ (8 * w.len - 1)

/-- Every resolved relative field is representable, absolute fields are 8 bytes wide. -/
structure Vals (cx : Cx) (cells : List Cell) (defs : Key → Option Nat) : Prop where
  fits : ∀ p f t v, fieldAt cells p = some f → f.abs = false → TopOk cx t → f.value t defs p = some v →
    ((∃ a, f.tgt = .addr a) → cx.auto = false) → FitsW f.w v
  shape : ∀ p f, fieldAt cells p = some f → f.abs = true → f.w = .w8 ∧ ∃ k d, f.tgt = .label k d
  defsLe : ∀ k o, defs k = some o → o ≤ len cells

/-- Table name of the next anonymous label. -/
def nm (n : Nat) : String := if n % 2 = 0 then "@f" else "@b"

/-- The pending reference `j` is recorded for the label `k`. -/
def Entry (g : G) (sp : Spec) (k : Key) (j : JmpLabel) : Prop :=
  match k with
  | .obj n => (n, j) ∈ g.cundef
  | .name s => isDot s = false ∧ s ≠ "@b" ∧ s ≠ "@f" ∧ (s, j) ∈ g.glob.undef
  | .anon i => i = sp.anons ∧ (nm i, j) ∈ g.glob.undef
  | .loc σ s => ∃ st, (σ, st) ∈ sp.scopes.zip g.locals ∧ (s, j) ∈ st.undef

/-- The place a pending reference points to. -/
def Site (cx : Cx) (cells : List Cell) (k : Key) (j : JmpLabel) : Prop :=
  ∃ f, fieldAt cells (j.endOfJmp - j.jmpSize) = some f ∧ f.w.len = j.jmpSize ∧ j.jmpSize ≤ j.endOfJmp ∧
    f.tgt = .label k j.disp ∧ j.mode = (if f.abs then (if cx.auto then .addTop else .abs) else .asIs)

/-- Pending references are exactly the fields of undefined labels. -/
structure Pend (cx : Cx) (g : G) (sp : Spec) : Prop where
  ok : ∀ k j, Entry g sp k j → sp.defs k = none ∧ Site cx sp.cells k j
  ex : ∀ p f k d, fieldAt sp.cells p = some f → f.tgt = .label k d → sp.defs k = none →
    ∃ j, Entry g sp k j ∧ j.endOfJmp = p + f.w.len ∧ j.jmpSize = f.w.len

/-- The label tables agree with the specification. -/
structure Tab (g : G) (sp : Spec) : Prop where
  near : g.defNear = sp.defNear
  labelId : g.labelId = sp.nextId
  idPos : 0 < sp.nextId
  objs : ∀ h, sp.objs h = (g.heap h).map LabelObj.id
  objDef : ∀ h o, g.heap h = some o → o.id ≠ 0 → o.id < sp.nextId ∧
    (g.cdef o.id).map CVal.offset = sp.defs (.obj o.id) ∧
    (o.mgr = false → g.cdef o.id = none ∧ ∀ h' o', g.heap h' = some o' → o'.id = o.id → h' = h)
  fresh : ∀ n, n = 0 ∨ sp.nextId ≤ n → g.cdef n = none ∧ sp.defs (.obj n) = none
  freshU : ∀ n j, (n, j) ∈ g.cundef → n < sp.nextId
  glob : ∀ s, isDot s = false → s ≠ "@b" → s ≠ "@f" → g.glob.defs s = sp.defs (.name s)
  globU : ∀ s j, (s, j) ∈ g.glob.undef → isDot s = false ∧ (s = "@b" ∨ s = "@f" → s = nm sp.anons)
  anonCur : g.glob.defs (nm sp.anons) = none
  anonPrev : g.glob.defs (nm (sp.anons + 1)) = if sp.anons = 0 then none else sp.defs (.anon (sp.anons - 1))
  anonDef : ∀ k, (sp.defs (.anon k) = none ↔ sp.anons ≤ k)
  locLen : sp.scopes.length = g.locals.length
  loc : ∀ σ st, (σ, st) ∈ sp.scopes.zip g.locals → (∀ s, isDot s = true → st.defs s = sp.defs (.loc σ s)) ∧
    ∀ s j, (s, j) ∈ st.undef → isDot s = true
  nodup : sp.scopes.Nodup
  scopeLt : ∀ σ ∈ sp.scopes, σ < sp.nextScope
  scopeFresh : ∀ σ s, sp.nextScope ≤ σ → sp.defs (.loc σ s) = none

structure Inv (cx : Cx) (g : G) (sp : Spec) : Prop where
  buf : Buf cx g.ca sp.cells sp.defs
  vals : Vals cx sp.cells sp.defs
  pend : Pend cx g sp
  tab : Tab g sp

/-! ## emission -/

theorem Buf.emit {cx : Cx} {c c1 : CA} {cells cs : List Cell} {defs} {bs : List Byte} (h : Buf cx c cells defs)
    (he : Emit c c1 bs) (hr : ∀ t, TopOk cx t → renderR (specR t defs) (len cells) cs = bs)
    (ha : cx.auto = true → ∀ p f a, fieldAt cs p = some f → f.tgt ≠ .addr a) : Buf cx c1 (cells ++ cs) defs := by
  have hlen : bs.length = len cs := by
    have := hr cx.top (fun _ => rfl)
    rw [← this, renderR_length]
  refine ⟨he.wf, ?_, ?_, ?_, he.calcD.trans h.calcD, ?_, ?_, ?_, ?_⟩
  · rw [← h.auto]; unfold CA.isAutoGrow; rw [he.ty]
  · intro hx
    rw [← h.top hx]
    have : c.isAutoGrow = false := by rw [h.auto]; exact hx
    exact (he.fixedTop (by simpa [CA.isAutoGrow] using this)).1
  · intro hx; rw [he.info]; exact h.nil hx
  · rw [he.size, h.size, len_append, hlen]
  · intro i hi
    rw [he.info] at hi
    have := h.infoIn i hi
    rw [he.size]; omega
  · intro t ht
    rw [vcode_emit t h.wf he h.infoIn, h.code t ht, renderR_append, Nat.zero_add, hr t ht]
  · intro hx p f a hf hta
    rw [he.info]
    rw [fieldAt_append] at hf
    split at hf
    · exact h.addr hx p f a hf hta
    · exact absurd hta (ha hx _ f a hf)

/-- Emission of a zero field whose value is deferred. -/
theorem Buf.emitSave {cx : Cx} {c c1 : CA} {cells : List Cell} {defs} {hdr : List Byte} {f : Field} {v : Word} {m : LabelMode}
    (h : Buf cx c cells defs) (he : Emit c c1 (hdr ++ leBytes f.w.len 0)) (hx : cx.auto = true)
    (hv : ∀ t, infoVal t ⟨0, v, 0, m⟩ = specR t defs (len cells + hdr.length) f)
    (ha : ∀ a, f.tgt = .addr a → f.w = .w4 ∧ v = a - BitVec.ofNat 64 (len cells + hdr.length + 4) ∧ m = .abs) :
    Buf cx { c1 with addrInfo := c1.addrInfo ++ [⟨c1.size - f.w.len, v, f.w.len, m⟩] }
      (cells ++ (hdr.map .byte ++ [.field f])) defs := by
  have hs : c1.size = len cells + hdr.length + f.w.len := by
    rw [he.size, h.size]; simp; omega
  have hl : len (cells ++ (hdr.map .byte ++ [.field f])) = c1.size := by
    rw [len_append, len_append, len_bytes, hs]; simp [len, Cell.len]; omega
  refine ⟨⟨he.wf.size_le, he.wf.max_le, he.wf.lt⟩, ?_, ?_, ?_, he.calcD.trans h.calcD, ?_, ?_, ?_, ?_⟩
  · rw [← h.auto]; unfold CA.isAutoGrow; simp only [he.ty]
  · intro h'; rw [hx] at h'; cases h'
  · intro h'; rw [hx] at h'; cases h'
  · exact hl.symm
  · intro i hi
    simp only [List.mem_append, List.mem_singleton] at hi
    rcases hi with hi | rfl
    · rw [he.info] at hi
      have := h.infoIn i hi
      have := h.size
      simp only; omega
    · simp only; omega
  · intro t ht
    have h1 : vcode t { c1 with addrInfo := c1.addrInfo ++ [⟨c1.size - f.w.len, v, f.w.len, m⟩] } =
        patch (vcode t c1) (c1.size - f.w.len) (leBytes f.w.len (infoVal t ⟨0, v, 0, m⟩)) := by
      simp only [vcode, CA.code, applyInfos, List.foldl_append, List.foldl_cons, List.foldl_nil, infoVal]
    rw [h1, vcode_emit t h.wf he h.infoIn, h.code t ht, renderR_append, renderR_append, renderR_bytes, hv, Nat.zero_add,
      len_bytes, hs]
    have hlen := renderR_length (specR t defs) 0 cells
    rw [← List.append_assoc, patch_append_right]
    · simp only [List.length_append, hlen, renderR, List.append_nil]
      have : len cells + hdr.length + f.w.len - f.w.len - (len cells + hdr.length) = 0 := by omega
      rw [this]
      unfold patch
      simp
    · simp only [List.length_append, hlen]; omega
  · intro _ p f' a hf hta
    simp only [List.mem_append, List.mem_singleton]
    rw [fieldAt_append] at hf
    split at hf
    · rw [he.info]
      exact ⟨.inl (h.addr hx p f' a hf hta).1, (h.addr hx p f' a hf hta).2⟩
    · rw [fieldAt_append, fieldAt_bytes, len_bytes] at hf
      split at hf
      · cases hf
      · simp only [fieldAt] at hf
        split at hf
        · cases hf
          obtain ⟨h1, h2, h3⟩ := ha a hta
          have hp : p = len cells + hdr.length := by omega
          refine ⟨.inr ?_, h1⟩
          subst h2 h3 hp
          rw [h1] at hs ⊢
          simp only [Width.len] at hs ⊢
          rw [hs]
          congr 1
        · split at hf <;> cases hf

/-! ## definition -/

/-- What a fix-up stores is what the specification asks for. -/
theorem fix_value {cx : Cx} {c : CA} {cells : List Cell} {defs} (h : Buf cx c cells defs) (k : Key) (off : Nat)
    (j : JmpLabel) (f : Field) (v : Word)
    (hf : f.w.len = j.jmpSize ∧ j.jmpSize ≤ j.endOfJmp ∧
      f.tgt = .label k j.disp ∧ j.mode = (if f.abs then (if cx.auto then .addTop else .abs) else .asIs))
    (hv : fixVal off j c.getCurr = .ok v) (habs : cx.auto = false → j.mode = .abs → off = c.size)
    (t : Word) (ht : TopOk cx t) :
    f.value t (upd defs k (some off)) (j.endOfJmp - j.jmpSize) = some (finV c.isAutoGrow t j v) ∧
      (f.abs = false → FitsW f.w v ∨ f.w = .w8) := by
  obtain ⟨h1, h2, h3, h4⟩ := hf
  have he : j.endOfJmp - j.jmpSize + f.w.len = j.endOfJmp := by omega
  unfold Field.value finV
  rw [h3, he]
  simp only [upd_same, Option.map_some]
  by_cases ha : f.abs = true
  · rw [ha] at h4 ⊢
    simp only [if_true] at h4 ⊢
    cases hx : cx.auto with
    | true =>
      rw [hx] at h4
      simp only [if_true] at h4
      rw [h.auto, hx]
      unfold fixVal at hv
      rw [h4] at hv
      cases hv
      simp only [if_true, infoVal, h4]
      exact ⟨by rw [BitVec.add_comm], by simp⟩
    | false =>
      rw [hx] at h4
      simp only [Bool.false_eq_true, if_false] at h4
      rw [h.auto, hx]
      unfold fixVal at hv
      rw [h4] at hv
      cases hv
      simp only [Bool.false_eq_true, if_false]
      rw [habs hx h4, ht hx, ← h.top hx]
      exact ⟨rfl, by simp⟩
  · have ha' : f.abs = false := by simpa using ha
    rw [ha'] at h4 ⊢
    simp only [Bool.false_eq_true, if_false] at h4 ⊢
    unfold fixVal at hv
    rw [h4] at hv
    simp only at hv
    split at hv
    · cases hv
    · rename_i c1
      split at hv
      · cases hv
      · rename_i c2
        cases hv
        refine ⟨?_, fun _ => ?_⟩
        · have e : BitVec.ofNat 64 off + j.disp - BitVec.ofNat 64 j.endOfJmp =
              BitVec.ofNat 64 off - BitVec.ofNat 64 j.endOfJmp + j.disp := by
            simp only [BitVec.sub_eq_add_neg]; ac_rfl
          rw [e]
          split
          · simp only [infoVal, h4]
          · rfl
        · cases hw' : f.w with
          | w8 => exact .inr rfl
          | w4 =>
            left
            rw [hw'] at h1
            simp only [Width.len] at h1
            have : isInInt32 (BitVec.ofNat 64 off - BitVec.ofNat 64 j.endOfJmp + j.disp) = true := by
              refine Bool.not_eq_false _ ▸ fun hc => c1 ⟨by omega, hc⟩
            exact (isInInt32_iff _).mp this
          | w1 =>
            left
            rw [hw'] at h1
            simp only [Width.len] at h1
            have i1 : isInInt32 (BitVec.ofNat 64 off - BitVec.ofNat 64 j.endOfJmp + j.disp) = true := by
              refine Bool.not_eq_false _ ▸ fun hc => c1 ⟨by omega, hc⟩
            have i2 : isInDisp8 (lo32 (BitVec.ofNat 64 off - BitVec.ofNat 64 j.endOfJmp + j.disp)) = true := by
              refine Bool.not_eq_false _ ▸ fun hc => c2 ⟨by omega, hc⟩
            generalize BitVec.ofNat 64 off - BitVec.ofNat 64 j.endOfJmp + j.disp = x at i1 i2 ⊢
            have a1 := (isInInt32_iff _).mp i1
            have a2 := (isInDisp8_iff _).mp i2
            unfold FitsW
            simp only [Width.len]
            have : (lo32 x).toInt = x.toInt := by
              unfold lo32
              rw [BitVec.toInt_setWidth]
              have := x.isLt
              simp only [BitVec.toInt_eq_toNat_cond] at a1 ⊢
              simp only [Int.bmod]
              split at a1 <;> split <;> omega
            rw [this] at a2
            omega

theorem Buf.define {cx : Cx} {g : G} {sp : Spec} {k : Key} {off : Nat} {fx : List (JmpLabel × Word)}
    (hb : Buf cx g.ca sp.cells sp.defs) (hv : Vals cx sp.cells sp.defs) (hp : Pend cx g sp) (hs : BufSafe g)
    (hk : sp.defs k = none) (hoff : off ≤ g.ca.size)
    (hfx : ∀ j, j ∈ fx.map Prod.fst ↔ Entry g sp k j) (hpend : ∀ j, Entry g sp k j → Pending g j)
    (hval : ∀ e ∈ fx, fixVal off e.1 g.ca.getCurr = .ok e.2)
    (habs : cx.auto = false → ∀ j, Entry g sp k j → j.mode = .abs → off = g.ca.size) :
    Buf cx (applyFixes g.ca fx) sp.cells (upd sp.defs k (some off)) ∧ Vals cx sp.cells (upd sp.defs k (some off)) := by
  have ent : ∀ e ∈ fx, Entry g sp k e.1 := fun e he => (hfx e.1).mp (List.mem_map_of_mem he)
  have jok : ∀ e ∈ fx, JOk g.ca.maxSize e.1 := fun e he => hs.pend _ (hpend _ (ent e he))
  have site : ∀ e ∈ fx, Site cx sp.cells k e.1 := fun e he => (hp.ok k e.1 (ent e he)).2
  have hin : ∀ e ∈ fx, e.1.endOfJmp ≤ g.ca.size := by
    intro e he
    obtain ⟨f, h1, h2, h3, _⟩ := site e he
    have := fieldAt_lt h1
    rw [hb.size]; omega
  have same := applyFixes_same hs.wf fx jok
  have hauto : (applyFixes g.ca fx).isAutoGrow = g.ca.isAutoGrow := by unfold CA.isAutoGrow; rw [same.ty]
  -- values stored by the fix-ups
  have vals : ∀ t, TopOk cx t → ∀ e ∈ fx, ∀ f, fieldAt sp.cells (e.1.endOfJmp - e.1.jmpSize) = some f →
      specR t (upd sp.defs k (some off)) (e.1.endOfJmp - e.1.jmpSize) f = finV g.ca.isAutoGrow t e.1 e.2 ∧
      (f.abs = false → FitsW f.w e.2 ∨ f.w = .w8) := by
    intro t ht e he f hf
    obtain ⟨f', h1, h2⟩ := site e he
    rw [hf] at h1; cases h1
    have := fix_value hb k off e.1 f e.2 h2 (hval e he) (fun hx hm => habs hx _ (ent e he) hm) t ht
    unfold specR
    rw [this.1]
    exact ⟨rfl, this.2⟩
  -- fields of other labels
  have other : ∀ t p f, fieldAt sp.cells p = some f → (∀ d, f.tgt ≠ .label k d) →
      f.value t (upd sp.defs k (some off)) p = f.value t sp.defs p := by
    intro t p f _ hne
    unfold Field.value
    cases htg : f.tgt with
    | addr a => rfl
    | label k' d =>
      simp only
      have hkk : k' ≠ k := by rintro rfl; exact hne d htg
      rw [upd_other _ _ _ _ hkk]
  -- fields of this label are patched
  have mine : ∀ p f d, fieldAt sp.cells p = some f → f.tgt = .label k d →
      ∃ e ∈ fx, e.1.endOfJmp - e.1.jmpSize = p := by
    intro p f d hf htg
    obtain ⟨j, h1, h2, h3⟩ := hp.ex p f k d hf htg hk
    obtain ⟨e, he, rfl⟩ := List.mem_map.mp ((hfx j).mpr h1)
    exact ⟨e, he, by omega⟩
  refine ⟨⟨same.wf hs.wf, hauto.trans hb.auto, fun hx => same.top.trans (hb.top hx), ?_, same.calcD.trans hb.calcD, same.size.trans hb.size, ?_, ?_, ?_⟩, ?_, hv.shape, ?_⟩
  · intro hx
    have : ∀ (c : CA) fx, c.isAutoGrow = false → (applyFixes c fx).addrInfo = c.addrInfo := by
      intro c fx
      induction fx generalizing c with
      | nil => intro _; rfl
      | cons e t ih =>
        intro hc
        obtain ⟨j, v⟩ := e
        simp only [applyFixes]
        have e1 : applyFix c j v = { c with mem := patch c.mem (j.endOfJmp - j.jmpSize) (leBytes j.jmpSize v) } := by
          unfold applyFix; simp [hc]
        rw [ih _ (by rw [e1]; exact hc), e1]
    rw [this _ _ (by rw [hb.auto]; exact hx)]
    exact hb.nil hx
  · -- deferred writes stay inside
    rw [same.size]
    have : ∀ (c : CA) fx, (∀ i ∈ c.addrInfo, i.codeOffset + i.jmpSize ≤ g.ca.size) →
        (∀ e ∈ fx, e.1.jmpSize ≤ e.1.endOfJmp ∧ e.1.endOfJmp ≤ g.ca.size) →
        ∀ i ∈ (applyFixes c fx).addrInfo, i.codeOffset + i.jmpSize ≤ g.ca.size := by
      intro c fx
      induction fx generalizing c with
      | nil => intro h1 _; exact h1
      | cons e t ih =>
        intro h1 h2
        obtain ⟨j, v⟩ := e
        simp only [applyFixes]
        refine ih _ ?_ (fun e he => h2 e (by simp [he]))
        have h3 := h2 (j, v) (by simp)
        intro i hi
        unfold applyFix at hi
        by_cases ha : c.isAutoGrow = true
        · simp only [ha, if_true, List.mem_append, List.mem_singleton] at hi
          rcases hi with hi | rfl
          · exact h1 i hi
          · simp only at h3 ⊢; omega
        · simp only [ha, Bool.false_eq_true, if_false] at hi
          exact h1 i hi
    exact this _ _ hb.infoIn (fun e he => ⟨(jok e he).2.1, hin e he⟩)
  · intro t ht
    rw [vcode_applyFixes t hs.wf (fun hx => hb.nil (by rw [← hb.auto]; exact hx)) fx (fun e he => ⟨jok e he, hin e he⟩),
      hb.code t ht, patches_render]
    · rw [List.map_map]
      refine renderR_congr _ _ _ _ fun p f hf => ?_
      rw [Nat.zero_add]
      by_cases hmine : ∃ d, f.tgt = .label k d
      · obtain ⟨d, hd⟩ := hmine
        refine updsr_in _ _ _ _ _ ?_ ?_
        · intro e he hep
          obtain ⟨e', he', rfl⟩ := List.mem_map.mp he
          simp only [Function.comp] at hep ⊢
          rw [← hep] at hf ⊢
          exact ((vals t ht e' he' f hf).1).symm
        · obtain ⟨e, he, hep⟩ := mine p f d hf hd
          exact ⟨_, List.mem_map_of_mem he, hep⟩
      · rw [updsr_notin]
        · unfold specR
          rw [other t p f hf (fun d hd => hmine ⟨d, hd⟩)]
        · intro e he hep
          obtain ⟨e', he', rfl⟩ := List.mem_map.mp he
          simp only [Function.comp] at hep
          obtain ⟨f', h1, _, _, h4, _⟩ := site e' he'
          rw [hep, hf] at h1; cases h1
          exact hmine ⟨_, h4⟩
    · intro e he
      obtain ⟨e', he', rfl⟩ := List.mem_map.mp he
      obtain ⟨f, h1, h2, _⟩ := site e' he'
      exact ⟨f, h1, h2⟩
  · intro hx p f a hf hta
    obtain ⟨h1, h2⟩ := hb.addr hx p f a hf hta
    refine ⟨?_, h2⟩
    have : ∀ (c : CA) fx i, i ∈ c.addrInfo → i ∈ (applyFixes c fx).addrInfo := by
      intro c fx i
      induction fx generalizing c with
      | nil => exact id
      | cons e t ih =>
        intro hi
        refine ih _ ?_
        unfold applyFix
        split
        · simp [hi]
        · exact hi
    exact this _ _ _ h1
  · intro p f t v hf hfa ht hval' hadr
    by_cases hmine : ∃ d, f.tgt = .label k d
    · obtain ⟨d, hd⟩ := hmine
      obtain ⟨e, he, hep⟩ := mine p f d hf hd
      rw [← hep] at hf hval'
      have h1 := vals t ht e he f hf
      unfold specR at h1
      rw [hval'] at h1
      simp only [Option.getD_some] at h1
      have hfin : finV g.ca.isAutoGrow t e.1 e.2 = e.2 := by
        obtain ⟨f', h1', _, _, _, h5⟩ := site e he
        rw [hf] at h1'; cases h1'
        rw [hfa] at h5
        simp only [Bool.false_eq_true, if_false] at h5
        unfold finV infoVal
        rw [h5]; simp
      rw [hfin] at h1
      rw [h1.1]
      rcases h1.2 hfa with h | h
      · exact h
      · rw [h]
        unfold FitsW
        simp only [Width.len]
        have := e.2.isLt
        simp only [BitVec.toInt_eq_toNat_cond]
        split <;> omega
    · rw [other t p f hf (fun d hd => hmine ⟨d, hd⟩)] at hval'
      exact hv.fits p f t v hf hfa ht hval' hadr
  · intro k' o
    unfold upd
    split
    · intro ho; cases ho; rw [← hb.size]; exact hoff
    · exact hv.defsLe k' o

theorem Pend.define {cx : Cx} {g g' : G} {sp sp' : Spec} {k : Key} {off : Nat} (hp : Pend cx g sp)
    (hc : sp'.cells = sp.cells) (hd : sp'.defs = upd sp.defs k (some off))
    (hent : ∀ k' j, Entry g' sp' k' j ↔ k' ≠ k ∧ Entry g sp k' j) : Pend cx g' sp' := by
  refine ⟨?_, ?_⟩
  · intro k' j he
    obtain ⟨h1, h2⟩ := (hent k' j).mp he
    obtain ⟨h3, h4⟩ := hp.ok k' j h2
    rw [hc, hd, upd_other _ _ _ _ h1]
    exact ⟨h3, h4⟩
  · intro p f k' d hf htg hn
    rw [hc] at hf
    have hne : k' ≠ k := by
      rintro rfl
      rw [hd, upd_same] at hn; cases hn
    rw [hd, upd_other _ _ _ _ hne] at hn
    obtain ⟨j, h1, h2⟩ := hp.ex p f k' d hf htg hn
    exact ⟨j, (hent k' j).mpr ⟨hne, h1⟩, h2⟩

end Asm
end Xbyak
