import Verif.Dump
/-!
# C89: the text printed by `dump`

Specification side: `rowsOf` lays bytes out in rows of sixteen, `readText` is a reader of hexadecimal text that skips line ends.
-/
namespace Xbyak
namespace CA

/-- Specification: the value of a hexadecimal digit. -/
def digitVal (c : Char) : Nat := if '0' ≤ c ∧ c ≤ '9' then c.toNat - '0'.toNat else c.toNat - 'A'.toNat + 10

/-- Specification: two digits for each byte. -/
def pairs : List Char → List Byte
  | a :: b :: t => BitVec.ofNat 8 (digitVal a * 16 + digitVal b) :: pairs t
  | _ => []

/-- Specification: the bytes a text of hexadecimal digits denotes; line ends are skipped. -/
def readText (s : List Char) : List Byte := pairs (s.filter (· ≠ '\n'))

/-- Specification: consecutive pieces of at most sixteen bytes, at least one piece. -/
def Pieces : List (List Byte) → List Byte → Prop
  | [], _ => False
  | [r], l => r = l ∧ r.length ≤ 16
  | r :: t, l => r.length = 16 ∧ ∃ l', l = r ++ l' ∧ l' ≠ [] ∧ Pieces t l'

/-- Specification: one line per piece, two digits per byte. -/
def IsText (s : List Char) (rows : List (List Byte)) : Prop :=
  ∃ lines : List (List Char), s = (lines.map (· ++ ['\n'])).flatten ∧ lines.map readText = rows ∧
    ∀ l ∈ lines, l.length = 2 * (readText l).length ∧ '\n' ∉ l ∧ ∀ c ∈ l, c ∈ "0123456789ABCDEF".toList

theorem hex2_all : ∀ b : Byte, digitVal (hexDigit (b.toNat / 16)) * 16 + digitVal (hexDigit (b.toNat % 16)) = b.toNat ∧
    hexDigit (b.toNat / 16) ∈ "0123456789ABCDEF".toList ∧ hexDigit (b.toNat % 16) ∈ "0123456789ABCDEF".toList := by
  decide +kernel

theorem nl_notin : ∀ c ∈ "0123456789ABCDEF".toList, c ≠ '\n' := by decide

theorem readText_hex2 (b : Byte) (t : List Char) : readText (hex2 b ++ t) = b :: readText t := by
  obtain ⟨h1, h2, h3⟩ := hex2_all b
  simp only [readText, hex2, List.cons_append, List.nil_append]
  rw [List.filter_cons_of_pos (by simpa using nl_notin _ h2), List.filter_cons_of_pos (by simpa using nl_notin _ h3), pairs, h1,
    BitVec.ofNat_toNat, BitVec.setWidth_eq]

theorem readText_nl (t : List Char) : readText ('\n' :: t) = readText t := by simp [readText]

theorem readText_hex2s (l : List Byte) : readText (l.flatMap hex2) = l := by
  induction l with
  | nil => rfl
  | cons b t ih => rw [List.flatMap_cons, readText_hex2, ih]

theorem hex2s_digits (l : List Byte) : ∀ c ∈ l.flatMap hex2, c ∈ "0123456789ABCDEF".toList := by
  intro c hc
  obtain ⟨b, _, hb⟩ := List.mem_flatMap.mp hc
  obtain ⟨_, h2, h3⟩ := hex2_all b
  simp only [hex2, List.mem_cons, List.not_mem_nil, or_false] at hb
  rcases hb with rfl | rfl
  · exact h2
  · exact h3

theorem hex2s_line (l : List Byte) : (l.flatMap hex2).length = 2 * (readText (l.flatMap hex2)).length ∧ '\n' ∉ l.flatMap hex2 ∧
    ∀ c ∈ l.flatMap hex2, c ∈ "0123456789ABCDEF".toList := by
  refine ⟨?_, fun hn => nl_notin _ (hex2s_digits _ _ hn) rfl, hex2s_digits _⟩
  rw [readText_hex2s]
  induction l with
  | nil => rfl
  | cons b t ih => rw [List.flatMap_cons, List.length_append, ih, List.length_cons]; simp only [hex2, List.length_cons, List.length_nil]; omega

/-- The columns printed are those of the piece. -/
theorem dumpCols_eq (mem : List Byte) (i disp n k : Nat) (hd : disp ≤ k + n) (hm : i * 16 + disp ≤ mem.length) :
    dumpCols mem i disp (List.range' k n) = some (((mem.drop (i * 16 + k)).take (disp - k)).flatMap hex2) := by
  induction n generalizing k with
  | zero =>
    have h0 : disp - k = 0 := by omega
    simp [dumpCols, h0]
  | succ n ih =>
    rw [List.range'_succ, dumpCols]
    by_cases h : k < disp
    · rw [if_pos h, ih (k + 1) (by omega)]
      have hl : i * 16 + k < mem.length := by omega
      rw [List.getElem?_eq_getElem hl, List.drop_eq_getElem_cons hl]
      obtain ⟨m, hmm⟩ : ∃ m, disp - k = m + 1 := ⟨disp - k - 1, by omega⟩
      have h1 : disp - (k + 1) = m := by omega
      rw [hmm, h1, List.take_succ_cons, List.flatMap_cons]
      rfl
    · rw [if_neg h, ih (k + 1) (by omega)]
      have h0 : disp - k = 0 := by omega
      have h1 : disp - (k + 1) = 0 := by omega
      simp [h0, h1]

theorem dumpRows_text (mem : List Byte) (k i remain : Nat) (hm : i * 16 + remain ≤ mem.length) :
    ∃ s rows, dumpRows mem (k + 1) i remain = some s ∧ IsText s rows ∧
      Pieces rows ((mem.drop (i * 16)).take (min remain ((k + 1) * 16))) := by
  induction k generalizing i remain with
  | zero =>
    rw [dumpRows]
    have hdisp : (if remain < 16 then remain else 16) = min remain 16 := by split <;> omega
    simp only [hdisp]
    rw [List.range_eq_range', dumpCols_eq mem i (min remain 16) 16 0 (by omega) (by omega)]
    let piece := (mem.drop (i * 16)).take (min remain 16)
    refine ⟨piece.flatMap hex2 ++ ['\n'], [piece], ?_, ⟨[piece.flatMap hex2], by simp, ?_, ?_⟩, ?_⟩
    · simp only [Nat.add_zero, Nat.sub_zero]
      split
      · rfl
      · rfl
    · simp [readText_hex2s]
    · intro l hl
      rw [List.mem_singleton.mp hl]
      exact hex2s_line _
    · refine ⟨rfl, ?_⟩
      simp only [piece, List.length_take]
      omega
  | succ k ih =>
    rw [dumpRows]
    have hdisp : (if remain < 16 then remain else 16) = min remain 16 := by split <;> omega
    simp only [hdisp]
    rw [List.range_eq_range', dumpCols_eq mem i (min remain 16) 16 0 (by omega) (by omega)]
    simp only [Nat.add_zero, Nat.sub_zero]
    let piece := (mem.drop (i * 16)).take (min remain 16)
    by_cases h0 : remain - min remain 16 = 0
    · rw [if_pos h0]
      have hle : remain ≤ 16 := by omega
      refine ⟨_, [piece], rfl, ⟨[piece.flatMap hex2], by simp [piece], by simp [readText_hex2s], ?_⟩, ?_⟩
      · intro l hl
        rw [List.mem_singleton.mp hl]
        exact hex2s_line _
      · have he : min remain ((k + 1 + 1) * 16) = min remain 16 := by omega
        rw [he]
        refine ⟨rfl, ?_⟩
        simp only [piece, List.length_take]
        omega
    · rw [if_neg h0]
      have h16 : min remain 16 = 16 := by omega
      obtain ⟨s, rows, hs, ⟨lines, e1, e2, e3⟩, hp⟩ := ih (i + 1) (remain - min remain 16) (by omega)
      rw [hs]
      refine ⟨_, piece :: rows, rfl, ⟨piece.flatMap hex2 :: lines, ?_, ?_, ?_⟩, ?_⟩
      · simp [e1, piece]
      · simp [readText_hex2s, e2]
      · intro l hl
        rcases List.mem_cons.mp hl with rfl | hl
        · exact hex2s_line _
        · exact e3 l hl
      · have hlen : piece.length = 16 := by
          simp only [piece, List.length_take, List.length_drop]
          omega
        cases rows with
        | nil => exact absurd hp (by simp [Pieces])
        | cons r t =>
          refine ⟨hlen, _, ?_, ?_, hp⟩
          · have he : min remain ((k + 1 + 1) * 16) = 16 + min (remain - min remain 16) ((k + 1) * 16) := by omega
            rw [he, List.take_add, List.drop_drop]
            simp only [piece, h16]
            congr 3
            omega
          · intro hn
            have := congrArg List.length hn
            simp only [List.length_take, List.length_drop, List.length_nil] at this
            omega

/-- C89: `dump` reads only bytes of the code and prints the first sixty-four of them (all of them, if there are no more), in
order, as lines of sixteen bytes of two upper-case digits. -/
theorem c89_text (c : CA) (h : c.size ≤ c.mem.length) :
    ∃ s rows, c.dump = some s ∧ IsText s rows ∧ Pieces rows (c.mem.take (min c.size 64)) := by
  have := dumpRows_text c.mem 3 0 c.size (by omega)
  simpa [dump] using this

/-- Reading whole lines of text gives the bytes of the rows one after another. -/
theorem Pieces.flatten_eq : ∀ {rows : List (List Byte)} {l : List Byte}, Pieces rows l → rows.flatten = l
  | [], _, h => h.elim
  | [r], l, h => by simpa using h.1
  | r :: q :: t, l, h => by
    obtain ⟨_, l', rfl, _, hp⟩ := h
    rw [List.flatten_cons, Pieces.flatten_eq hp]

theorem pairs_append : ∀ (a b : List Char), a.length % 2 = 0 → pairs (a ++ b) = pairs a ++ pairs b
  | [], _, _ => rfl
  | [_], _, h => by simp at h
  | x :: y :: t, b, h => by
    simp only [List.cons_append, pairs]
    rw [pairs_append t b (by simp only [List.length_cons] at h; omega)]

theorem IsText.read {s : List Char} {rows : List (List Byte)} (h : IsText s rows) : readText s = rows.flatten := by
  obtain ⟨lines, rfl, rfl, hl⟩ := h
  induction lines with
  | nil => rfl
  | cons l t ih =>
    obtain ⟨h1, h2, _⟩ := hl l (by simp)
    have hf : l.filter (· ≠ '\n') = l := List.filter_eq_self.mpr fun c hc => by
      have : c ≠ '\n' := fun e => h2 (e ▸ hc)
      simpa using this
    rw [List.map_cons, List.flatten_cons, List.map_cons, List.flatten_cons, ← ih (fun l hl' => hl l (List.mem_cons_of_mem _ hl')), readText, List.append_assoc,
      List.filter_append, hf, pairs_append _ _ (by omega)]
    have hr : readText l = pairs l := by rw [readText, hf]
    rw [hr]
    simp [readText]

/-- C89: reading the printed text back gives the first sixty-four bytes of the code. -/
theorem c89_read (c : CA) (h : c.size ≤ c.mem.length) : ∃ s, c.dump = some s ∧ readText s = c.mem.take (min c.size 64) := by
  obtain ⟨s, rows, h1, h2, h3⟩ := c89_text c h
  exact ⟨s, h1, by rw [h2.read, h3.flatten_eq]⟩

end CA

/-- A generator over a buffer of 100 bytes that are all `0x90`. -/
def dumpCA (n : Nat) : CA := { CA.initUser 100 0 (List.replicate 100 0x90#8) with size := n }

/-- Non-trivial case: eighteen bytes make two lines. -/
example : (dumpCA 18).dump = some "90909090909090909090909090909090\n9090\n".toList := by decide +kernel
/-- An empty buffer makes one empty line. -/
example : (dumpCA 0).dump = some "\n".toList := by decide +kernel

/-- C89, limit of the function: of a longer code only the first sixty-four bytes are printed, so different codes print the same text. -/
theorem c89_truncates : (dumpCA 64).dump = (dumpCA 65).dump ∧ (dumpCA 64).dump ≠ none := by decide +kernel

namespace G

/-- C89: the printing member of the test build prints the same text and changes nothing but the size, which it sets to zero on request. -/
theorem c89_clear (g : G) (d : Bool) (h : g.ca.size ≤ g.ca.mem.length) :
    ∃ s g', g.dump d = some (s, g') ∧ g.ca.dump = some s ∧ g' = { g with ca := { g.ca with size := if d then 0 else g.ca.size } } := by
  obtain ⟨s, rows, hs, _⟩ := CA.c89_text g.ca h
  refine ⟨s, _, by rw [dump, hs]; rfl, hs, ?_⟩
  cases d <;> rfl

/-- What the environment answers in the example below. -/
def dumpEnv : Env := ⟨fun _ _ => .fail, fun _ => true, false, 4096, fun _ _ => 0⟩

/-- The bytes of the code of a generator. -/
def codeOf : Except UB G → List Byte
  | .ok g => g.ca.mem.take g.ca.size
  | .error _ => []

/-- `dump()` and then the calls `ops` -/
def afterDump (before after : List Op) : Except UB G :=
  match run dumpEnv before (init (dumpCA 0)) with
  | .error u => .error u
  | .ok g => match g.dump true with
    | none => .error .bounds
    | some (_, g') => run dumpEnv after g'

/-- C89, refuted: after `dump()` has cleared the code, the generator is not as good as new.  A jump of the dropped code that still waits for
its label is patched into the new code, whose bytes differ from those the same calls give after `reset`. -/
theorem c89_refuted_clear : ∃ before after : List Op,
    codeOf (afterDump before after) ≠ codeOf (run dumpEnv (before ++ .reset :: after) (init (dumpCA 0))) ∧
    codeOf (afterDump before after) = [0x90, 0x01, 0x90] ∧
    codeOf (run dumpEnv (before ++ .reset :: after) (init (dumpCA 0))) = [0x90, 0x90, 0x90] :=
  ⟨[.jmp (.str "a") .short 0xEB 0xE9 0], [.db 0x90, .db 0x90, .db 0x90, .defL (.str "a")], by decide +kernel⟩

end G
end Xbyak
