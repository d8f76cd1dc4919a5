/-!
# Checked arithmetic, src/common/safeint.h

`none` is the C result `false` (destination not written).  Mixed signed/unsigned expressions follow
the usual arithmetic conversions: the `int64_t` operand is converted to `uint64_t` (modulo 2^64).
-/
namespace Ergo

/-- `INT64_MAX` as a `uint64_t`. -/
def i64MaxU : UInt64 := 0x7FFFFFFFFFFFFFFF

/-- `UINT64_MAX - l`, which can not wrap around (written with natural subtraction because the
proof checker handles that better than wrapping subtraction from a large constant). -/
def u64MaxMinus (l : UInt64) : UInt64 := UInt64.ofNat (0xFFFFFFFFFFFFFFFF - l.toNat)

/-- `checked_add_u64`, safeint.h:6-10. -/
def checkedAddU64 (l r : UInt64) : Option UInt64 :=
  if u64MaxMinus l < r then none else some (l + r)

/-- `checked_sub_u64`, safeint.h:12-16. -/
def checkedSubU64 (l r : UInt64) : Option UInt64 :=
  if r > l then none else some (l - r)

/-- `checked_add_i64`, safeint.h:18-28.  `(uint64_t) -l` is modelled with two's complement
negation; for `l = INT64_MIN` the C expression `-l` is undefined (that case is shown unreachable in
the application, see `Verif/Props`). -/
def checkedAddI64 (l : Int64) (r : UInt64) : Option Int64 :=
  if l < 0 then
    if r ≥ (-l).toUInt64 ∧ r + l.toUInt64 > i64MaxU then none
    else some (l.toUInt64 + r).toInt64
  else
    if r > i64MaxU ∨ i64MaxU - r < l.toUInt64 then none
    else some (l.toUInt64 + r).toInt64

/-- `checked_sub_i64`, safeint.h:30-40. -/
def checkedSubI64 (l : Int64) (r : UInt64) : Option Int64 :=
  if l < 0 then
    if r > i64MaxU ∨ r - l.toUInt64 > i64MaxU + 1 then none
    else some (l.toUInt64 - r).toInt64
  else
    if l.toUInt64 < r ∧ r - l.toUInt64 > i64MaxU + 1 then none
    else some (l.toUInt64 - r).toInt64

end Ergo
