import Verif.Spec.Text
import Verif.Spec.Path
import Verif.Spec.Base58
/-!
# What a formatting function does with an array of a given size

The arrays of the app have fixed sizes (20, 55, 60 and 70 characters).  Here the size is a parameter, as it
is for the functions themselves, and the array holds zeros when the function is called.
-/
namespace Ergo.Spec

/-- The possible results. -/
inductive Left where
  /-- A character outside of the array is read or written. -/
  | outside
  /-- The function returns `false`. -/
  | refused
  /-- The whole text and a terminator. -/
  | whole
  /-- The text fills the array and there is no terminator. -/
  | unterminated
  deriving DecidableEq, Repr

/-- The function leaves the array of `n` characters in this way. -/
def Leaves (n : Nat) (text : List Char) : Left → Option (List Char × Bool) → Prop
  | .outside, r => r = none
  | .refused, r => ∃ b, r = some (b, false) ∧ b.length = n
  | .whole, r => ∃ b, r = some (b, true) ∧ Holds n b text
  | .unterminated, r => r = some (text, true) ∧ text.length = n ∧ nul ∉ text

/-- A number of `d` digits. -/
def numberLeft (d n : Nat) : Left :=
  if d < n then .whole else if n = 1 ∧ d = 1 then .outside else .refused

/-- An amount of `d` digits in nanoERG. -/
def ergLeft (d n : Nat) : Left :=
  if d ≤ 9 then
    if 15 < n then .whole else if 11 - d < n ∧ n ≤ 11 then .outside else .refused
  else if d + 10 < n then .whole else .refused

/-- `k` bytes, as base58 text of `l` characters. -/
def base58Left (k l n : Nat) : Left :=
  if k = 0 ∨ 120 < k ∨ n < l then .refused else if l = n then .unterminated else .whole

/-- A token id. -/
def idLeft (n : Nat) : Left := if 64 < n then .whole else .refused

/-- A path of `k` components of which `need` characters must not be cut. -/
def pathLeft (k need n : Nat) : Left :=
  if k = 0 ∨ 10 < k then .refused else if n = 0 then .outside else if need < n then .whole else .refused

end Ergo.Spec
