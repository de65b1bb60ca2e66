/-
Specification vocabulary for files that others use during a call (C97).
-/
import Verif.Model.Shared
import Verif.Spec.Handle

set_option autoImplicit false

namespace Signify.Spec

/-- Sections that may be left out of an authentihash: the 4 bytes of a checksum; behind it, perhaps, the 8 bytes of an entry of the
table of directories; and behind that, perhaps, a table of certificates. -/
inductive LeftOut : List RelRange → Prop where
  | checksum (c : Nat) : LeftOut [⟨c, 4⟩]
  | entry (c d : Nat) : c + 4 ≤ d → LeftOut [⟨c, 4⟩, ⟨d, 8⟩]
  | table (c d t n : Nat) : c + 4 ≤ d → d + 8 ≤ t → LeftOut [⟨c, 4⟩, ⟨d, 8⟩, ⟨t, n⟩]

/-- The offsets of a file of length `len` that are in none of the sections, in order. -/
def offsetsOutside (len : Nat) (secs : List RelRange) : List Nat :=
  (List.range len).filter (fun i => secs.all (fun r => i < r.start || r.start + r.length ≤ i))

/-- At one of these moments, the byte of the file at this offset was `b`. -/
def ByteThen (moments : List Handle) (offset : Nat) (b : UInt8) : Prop := ∃ m ∈ moments, m.bytes[offset]? = some b

/-- `data` consists of pieces, each of which was somewhere in the file at one of these moments. -/
def PiecesThen (moments : List Handle) (data : Bytes) : Prop :=
  ∃ pieces : List Bytes, data = pieces.flatten ∧ ∀ x ∈ pieces, ∃ m ∈ moments, ∃ p, x = (m.bytes.drop p).take x.length

/-- At one of these moments, the signature was encoded in the file, by itself or nested in another one. -/
def SignatureThen (cd : Codec) (moments : List Handle) (x : ASD) : Prop := ∃ m ∈ moments, SignatureIn cd m.bytes x

/-- The others may change the content of the file, but not the position of this file object: they have opened the file themselves. -/
def ContentOnly (σ : Nat → Handle → Handle) : Prop := ∀ n h, (σ n h).pos = h.pos

/-- The others may move the position, but do not change the content: they share the file object, for reading. -/
def PositionOnly (σ : Nat → Handle → Handle) : Prop := ∀ n h, (σ n h).bytes = h.bytes

/-- The others leave the file alone. -/
def nobody : Nat → Handle → Handle := fun _ h => h

end Signify.Spec
