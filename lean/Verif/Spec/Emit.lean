import Verif.Model.Emit
import Verif.Spec.Buffer
/-!
# Arrays that are filled and never overflow
-/
namespace Ergo.Spec

/-- Between memory `m` and memory `m'` only the `size` bytes at `ptr` were read or written. -/
structure Confined (ptr size : Nat) (m m' : Mem) : Prop where
  reads : ∃ rd, m'.reads = m.reads ++ rd ∧ ∀ a ∈ rd, ptr ≤ a ∧ a < ptr + size
  writes : ∃ wr, m'.writes = m.writes ++ wr ∧ ∀ a ∈ wr, ptr ≤ a ∧ a < ptr + size
  outside : ∀ a, ¬ (ptr ≤ a ∧ a < ptr + size) → m'.byte a = m.byte a

/-- A function that fills the array of `size` bytes at `ptr` succeeds, the buffer then holds `bs` (and
these are the first bytes of the array), and no other memory was touched. -/
def Fills (ptr size : Nat) (m : Mem) (r : Option Out) (bs : Bytes) : Prop :=
  ∃ b m', r = some (b, m') ∧ view m' b.read = bs ∧ bs.length ≤ size ∧
    (List.range bs.length).map (fun k => m'.byte (ptr + k)) = bs ∧ Confined ptr size m m'

/-- Strings handed on through a scratch array of `size` bytes at `ptr`: all of them, and no other memory
was touched. -/
def Hands (ptr size : Nat) (m : Mem) (r : Option (List Bytes × Out)) (l : List Bytes) : Prop :=
  ∃ b m', r = some (l, b, m') ∧ Confined ptr size m m'

end Ergo.Spec
