/-
Model of `signify/asn1/ctl.py`, class `FileTime`.  Times are integers: microseconds since 1601-01-01T00:00:00Z (the
resolution of `datetime`).
-/
import Verif.Model.SignedPE

set_option autoImplicit false

namespace Signify

/-- Round the rational `n / d` to an integer, ties to even. -/
def roundHalfEven (n d : Nat) : Nat :=
  if 2 * (n % d) < d then n / d
  else if 2 * (n % d) > d then n / d + 1
  else if n / d % 2 = 0 then n / d else n / d + 1

/-- The IEEE-754 binary64 number nearest to `n / d` (ties to even), in units of 2⁻¹⁰⁰.  `b - 52` is the position of the last
bit of a 53-bit significand.  Valid for 2⁻⁴⁸ ≤ n / d < 2¹⁰²⁴ and for 0, which covers every use below. -/
def toDouble (n d : Nat) : Nat :=
  let b := Nat.log2 (n * 2 ^ 100 / d)
  roundHalfEven (n * 2 ^ 100) (d * 2 ^ (b - 52)) * 2 ^ (b - 52)

/-- `datetime.timedelta(microseconds=x)` for a non-negative float `x` (in units of 2⁻¹⁰⁰): CPython rounds half to even. -/
def timedeltaUs (x : Nat) : Nat := roundHalfEven x (2 ^ 100)

/-- `datetime.datetime.max` in microseconds since 1601. -/
def datetimeMax : Nat := 265046774399999999

/-- `FileTime.native` on a fresh object; ctl.py:116-125. -/
def fileTimeNative (contents : Bytes) : Except Exc (Option Int) :=
  if contents = [] then .ok none                                              -- 118-119
  else if contents.length ≠ 8 then .error ⟨.structError, "unpack requires a buffer of 8 bytes"⟩
  else
    let value := leNat contents                                               -- 122
    let us := timedeltaUs (toDouble value 10)                                 -- 123
    if us > datetimeMax then .error ⟨.overflowError, "date value out of range"⟩
    else .ok (some us)

/-- The integer handed to `struct.pack` by `FileTime.set`: `int((value - epoch).total_seconds() * 100)`, for a time `us` after the epoch (before it: up to sign);
ctl.py:132.  `total_seconds()` is a true division (correctly rounded), as is the product with 100; `int` truncates. -/
def fileTimeTicks (us : Nat) : Nat := toDouble (toDouble us 1000000 * 100) (2 ^ 100) / 2 ^ 100

/-- `struct.pack` with an `n`-byte unsigned little-endian format. -/
def packLE : Nat → Nat → Bytes
  | 0, _ => []
  | n + 1, v => UInt8.ofNat (v % 256) :: packLE n (v / 256)

/-- `FileTime.set(value)` for a timezone-aware datetime: the contents afterwards; ctl.py:127-134.  `struct.pack` raises if the
number is negative or too large. -/
def fileTimeSet (us : Int) : Except Exc Bytes :=
  let ticks := fileTimeTicks us.natAbs
  if us < 0 ∧ ticks ≠ 0 then .error ⟨.structError, "argument out of range"⟩
  else if ticks ≥ 2 ^ 64 then .error ⟨.structError, "argument out of range"⟩
  else .ok (packLE 8 ticks)

end Signify
