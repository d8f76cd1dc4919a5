import Verif.Model.Layout
/-!
# Specification of the remembered change path

What the accesses to the union mean, without bytes: the path of the current output if it is one
(`none`: something else may have been written over it), and the path that was approved last.
-/
namespace Ergo.Spec

structure Kept where
  out : Option (List UInt32)
  last : List UInt32

/-- Effect of an access. -/
def Kept.step (a : Abi) (k : Kept) : Access → Kept
  | .wipe => ⟨none, []⟩
  | .approve _ _ | .confirm _ _ => ⟨none, k.last⟩
  | .serializer _ _ | .outputUi _ _ => k
  | .output o bs => if o + bs.length ≤ offsetOf a.outFields 3 then k else ⟨none, k.last⟩
  | .setPath p => ⟨some p, k.last⟩
  | .clear => ⟨k.out, []⟩
  | .store => ⟨k.out, k.out.getD []⟩

/-- After the accesses, the first one being a wipe. -/
def kept (a : Abi) (l : List Access) : Kept := l.foldl (Kept.step a) ⟨none, []⟩

/-- Only the path of an output that is a change output is stored. -/
def Proper (a : Abi) : Kept → List Access → Prop
  | _, [] => True
  | k, x :: xs => (x = .store → k.out ≠ none) ∧ Proper a (k.step a x) xs

/-- Possible choices of compiler and SDK. -/
structure Abi.WF (a : Abi) : Prop where
  ptr : 0 < a.ptr ∧ a.ptr ≤ 8
  enum : 0 < a.enum
  align64 : 0 < a.align64
  hashAlign : 0 < a.hashAlign

/-- The bytes from an offset on are those of a path. -/
def HoldsPath (m : UMem) (o : Nat) (p : List UInt32) : Prop :=
  m o = UInt8.ofNat p.length ∧ ∀ i < 4 * p.length, m (o + 4 + i) = (pathMem p).getD i 0

end Ergo.Spec
