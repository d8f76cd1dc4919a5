import Verif.Model.Bytes
/-!
# BIP-32 paths, src/common/bip32_ext.{h,c} and the SDK functions in unit-tests/utils/bip32.c

A path is the list of its components (`bip32_path_len` = length; `MAX_BIP32_PATH` = 10).
-/
namespace Ergo

/-- `BIP32_HARDENED_CONSTANT`, bip32_ext.h:5. -/
def hardened : UInt32 := 0x80000000
/-- `BIP32_HARDENED(44)`. -/
def purpose44 : UInt32 := hardened + 44
/-- `BIP32_HARDENED(BIP32_ERGO_COIN)`, constants.h (coin 429). -/
def coinErgo : UInt32 := hardened + 429

/-- `bip32_path_validation_type_e`, bip32_ext.h:9-16. -/
inductive PathKind where
  | coin | coinGe2Hard | accountE3 | accountGe3 | addressE5 | addressGe5
  deriving DecidableEq, Repr

/-- `bip32_path_validate`, bip32_ext.c:27-79, with `type` and `coin` as used everywhere. -/
def pathValidate (p : List UInt32) (kind : PathKind) : Bool :=
  if p.length ≤ 2 ∨ p.getD 0 0 ≠ purpose44 ∨ p.getD 1 0 ≠ coinErgo then false
  else
    match kind with
    | .coin => true
    | .coinGe2Hard => (p.drop 2).all (fun c => !(c < hardened))
    | .accountE3 => p.length = 3 ∧ p.getD 2 0 ≥ hardened
    | .accountGe3 =>
      if p.length < 3 then false else (p.drop 2).all (fun c => !(c < hardened))
    | .addressE5 =>
      p.length = 5 ∧ p.getD 2 0 ≥ hardened ∧ (p.getD 3 0 = 0 ∨ p.getD 3 0 = 1) ∧
        p.getD 4 0 < hardened
    | .addressGe5 =>
      if p.length < 5 then false
      else if p.getD 2 0 < hardened then false
      else if p.getD 3 0 ≠ 0 ∧ p.getD 3 0 ≠ 1 then false
      else (p.drop 4).all (fun c => !(c ≥ hardened))

/-- Memory image of a `uint32_t` on the (little endian) device. -/
def leBytes32 (v : UInt32) : Bytes :=
  [v.toUInt8, (v >>> 8).toUInt8, (v >>> 16).toUInt8, (v >>> 24).toUInt8]

/-- Memory image of a path. -/
def pathMem (p : List UInt32) : Bytes := p.flatMap leBytes32

/-- `bip32_path_is_equal`, bip32_ext.h:24-30: `memcmp` of `len` *bytes*. -/
def pathIsEqual (p q : List UInt32) : Bool :=
  p.length = q.length ∧ (pathMem p).take p.length = (pathMem q).take p.length

/-- `bip32_path_same_account`, bip32_ext.h:32-38: `memcmp` of 3 *bytes*. -/
def pathSameAccount (p q : List UInt32) : Bool :=
  p.length ≥ 3 ∧ q.length ≥ 3 ∧ (pathMem p).take 3 = (pathMem q).take 3

/-- Loop of `bip32_path_read`, unit-tests/utils/bip32.c:34-40. -/
def pathReadLoop : Nat → Bytes → Option (List UInt32 × Bytes)
  | 0, b => some ([], b)
  | n + 1, b =>
    match bufU32 b with
    | none => none
    | some (c, b') =>
      match pathReadLoop n b' with
      | none => none
      | some (cs, b'') => some (c :: cs, b'')

/-- `buffer_read_bip32_path` / `bip32_path_read`, unit-tests/utils/buffer.c:141-151 and
bip32.c:26-43. -/
def bufPath (len : Nat) (b : Bytes) : Option (List UInt32 × Bytes) :=
  if len = 0 ∨ len > 10 then none else pathReadLoop len b

/-- Decimal digits (`"%u"`). -/
def decimal (n : Nat) : List Char := Nat.toDigits 10 n

/-- One `snprintf(out + offset, out_len - offset, …)` + `strlen` + check of
`bip32_path_format`, bip32.c:56-62: the text is cut to the space left (minus the terminator);
the call fails only if nothing was written.  The test `written >= out_len - offset` can not hold. -/
def snput (outLen : Nat) (acc : List Char) (txt : List Char) : Option (List Char) :=
  let w := txt.take (outLen - acc.length - 1)
  if w.length = 0 ∨ w.length ≥ outLen - acc.length then none else some (acc ++ w)

/-- One component, bip32.c:56-82; `last` is `i == bip32_path_len - 1`. -/
def pathFormatOne (outLen : Nat) (acc : List Char) (c : UInt32) (last : Bool) :
    Option (List Char) :=
  match snput outLen acc (decimal (c &&& 0x7FFFFFFF).toNat) with
  | none => none
  | some acc =>
    match (if c &&& 0x80000000 ≠ 0 then snput outLen acc ['\''] else some acc) with
    | none => none
    | some acc => if last then some acc else snput outLen acc ['/']

/-- Loop of `bip32_path_format`, bip32.c:53-83. -/
def pathFormatLoop (outLen : Nat) : List Char → List UInt32 → Option (List Char)
  | acc, [] => some acc
  | acc, c :: cs =>
    match pathFormatOne outLen acc c cs.isEmpty with
    | none => none
    | some acc => pathFormatLoop outLen acc cs

/-- `bip32_path_format`, bip32.c:45-86. -/
def pathFormat (p : List UInt32) (outLen : Nat) : Option (List Char) :=
  if p.length = 0 ∨ p.length > 10 then none else pathFormatLoop outLen [] p

end Ergo
