/-
Text in ASN.1 string types.
-/
import Verif.Spec.DerCms
set_option autoImplicit false

namespace Signify.Spec

/-- The contents octets of a text in the string type with the tag number: UTF8String (12), NumericString (18), PrintableString (19),
IA5String (22), TeletexString (20, read as Latin-1) and BMPString (30). -/
inductive TextOctets : Nat → Bytes → String → Prop where
  | utf8 (s : String) : TextOctets 12 s.toByteArray.data.toList s
  | ascii (tag : Nat) (s : String) : tag = 18 ∨ tag = 19 ∨ tag = 22 → IsAscii s → TextOctets tag (asciiOctets s) s
  | latin1 (s : String) : (∀ c ∈ s.toList, c.toNat < 256) → TextOctets 20 (s.toList.map (fun c => UInt8.ofNat c.toNat)) s
  | bmp (s : String) : TextOctets 30 (bmpOctets s) s

end Signify.Spec
