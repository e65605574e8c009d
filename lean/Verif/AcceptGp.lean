import Verif.Accept
import Verif.Spec.Sizes
/-!
# The forms of integer instructions, by representatives
-/
namespace Xbyak
namespace Mn
open E X86

/-- The operand in the instruction column, for given sizes. -/
def gkinds (p66 w : Bool) : GOp → List OpKind
  | .r s | .rr s => [.gp (s.bits p66 w)]
  | .rm s => [.gp (s.bits p66 w), .mem (s.bits p66 w)]
  | .m s => [.mem (s.bits p66 w)]
  | .bnd => [.bnd]
  | .bndm => [.bnd, .mem 128]
  | .cl => [.cl]

/-- The same, with no size stated for the memory operand. -/
def gkinds0 (p66 w : Bool) : GOp → List OpKind
  | .rm _ | .m _ | .bndm => [.mem 0]
  | o => gkinds p66 w o

/-- The functions that refuse a memory operand with the size the manual gives it (the size is compared with that of the register that stands for
the ModRM.reg extension, see `c69_refuted_size`). -/
def sizeless : List Nat := [n!"cmpxchg8b", n!"cmpxchg16b", n!"fbld", n!"fbstp", n!"fldcw", n!"fnstcw", n!"fnstsw"]

def gcheck (p : Nat × List GForm) : Bool :=
  let es := fewNamed p.1
  p.2.all fun f => f.choices.all fun x => !f.listed x.1 x.2 || (choose (f.ops.map ((if Manual.isIn p.1 sizeless then gkinds0 else gkinds) x.1 x.2))).all fun ks =>
    covers es (if f.ib then 1 else 0) true ks

private theorem gcheck1 : (gforms.take 4).all gcheck = true := by decide +kernel
private theorem gcheck2 : ((gforms.drop 4).take 4).all gcheck = true := by decide +kernel
private theorem gcheck3 : (((gforms.drop 4).drop 4).take 20).all gcheck = true := by decide +kernel
private theorem gcheck4 : ((((gforms.drop 4).drop 4).drop 20).take 20).all gcheck = true := by decide +kernel
private theorem gcheck5 : ((((gforms.drop 4).drop 4).drop 20).drop 20).all gcheck = true := by decide +kernel

theorem gcheck_all : gforms.all gcheck = true := by
  have sp : ∀ (l : List (Nat × List GForm)) (k : Nat), (l.take k).all gcheck = true → (l.drop k).all gcheck = true → l.all gcheck = true := by
    intro l k h1 h2
    rw [← List.take_append_drop k l, List.all_append, h1, h2]; rfl
  exact sp _ 4 gcheck1 (sp _ 4 gcheck2 (sp _ 20 gcheck3 (sp _ 20 gcheck4 gcheck5)))

end Mn
end Xbyak
