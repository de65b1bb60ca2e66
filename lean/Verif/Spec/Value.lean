/-
Values in the Basic Encoding Rules (X.690, 8.1).
-/
import Verif.Spec.Der

set_option autoImplicit false

namespace Signify.Spec

/-- Identifier octets (8.1.2): class, whether constructed, and tag number; tag numbers from 31 on in base 128. -/
def identifierOctets (cls : Nat) (constructed : Bool) (tag : Nat) : Bytes :=
  if tag < 31 then [UInt8.ofNat (64 * cls + (if constructed then 32 else 0) + tag)]
  else UInt8.ofNat (64 * cls + (if constructed then 32 else 0) + 31) :: base128 tag

/-- The number in base 256, most significant octet first. -/
def octetsValue : Bytes → Nat
  | [] => 0
  | b :: l => b.toNat * 256 ^ l.length + octetsValue l

/-- The octets are the integer in two's complement (8.3.3), most significant octet first, with any number of superfluous octets: it has the
residue of the number in base 256, and is the one of this residue in the range for so many octets. -/
def IntegerIn (l : Bytes) (i : Int) : Prop :=
  (∃ k : Int, i = octetsValue l + k * 256 ^ l.length) ∧ -(256 ^ l.length : Int) ≤ 2 * i ∧ 2 * i < 256 ^ l.length

/-- Length octets in the definite form (8.1.3.3): the short form, or the long form with any number of octets up to 127. -/
inductive LengthIn : Bytes → Nat → Prop where
  | short (n : Nat) : n < 128 → LengthIn [UInt8.ofNat n] n
  | long (l : Bytes) : l ≠ [] → l.length ≤ 127 → LengthIn (UInt8.ofNat (128 + l.length) :: l) (octetsValue l)

/-- The encoding of a value, in which values of indefinite length are nested to a depth of less than `d` (8.1.1.3, 8.1.3.6): identifier
octets, length octets and contents; or identifier octets of a constructed value, the octet 0x80, values, and end-of-contents octets, of
which none of the values consists. -/
def Encoding : Nat → Bytes → Prop
  | 0, _ => False
  | d + 1, data =>
    (∃ cls constructed tag l contents, cls < 4 ∧ LengthIn l contents.length ∧
      data = identifierOctets cls constructed tag ++ l ++ contents) ∨
    (∃ cls tag, ∃ values : List Bytes, cls < 4 ∧ (∀ v ∈ values, Encoding d v ∧ v ≠ [0, 0]) ∧
      data = identifierOctets cls true tag ++ [0x80] ++ values.flatten ++ [0, 0])

end Signify.Spec
