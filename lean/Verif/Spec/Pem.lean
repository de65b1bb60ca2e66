/-
Specification: certificates in the textual encoding (RFC 7468) with base64 (RFC 4648).
-/
import Verif.Spec.EndToEnd
import Verif.Spec.DerCms
import Verif.Model.Pem

set_option autoImplicit false

namespace Signify.Spec

open Signify Asn1

/-! ### Base64 -/

/-- The octets of an ASCII text. -/
def asciiText (s : String) : Bytes := s.toList.map (fun c => UInt8.ofNat c.toNat)

/-- The alphabet of RFC 4648, section 4. -/
def b64Alphabet : Bytes := asciiText "ABCDEFGHIJKLMNOPQRSTUVWXYZabcdefghijklmnopqrstuvwxyz0123456789+/"

/-- The letter for six bits. -/
def b64Letter (n : Nat) : UInt8 := b64Alphabet.getD n 0

/-- RFC 4648, section 4: three octets are four letters; one or two octets at the end are two or three letters with padding. -/
def base64 : Bytes → Bytes
  | [] => []
  | [a] => [b64Letter (a.toNat / 4), b64Letter (a.toNat % 4 * 16), 0x3D, 0x3D]
  | [a, b] => [b64Letter (a.toNat / 4), b64Letter (a.toNat % 4 * 16 + b.toNat / 16), b64Letter (b.toNat % 16 * 4), 0x3D]
  | a :: b :: c :: l =>
    b64Letter (a.toNat / 4) :: b64Letter (a.toNat % 4 * 16 + b.toNat / 16) :: b64Letter (b.toNat % 16 * 4 + c.toNat / 64) ::
      b64Letter (c.toNat % 64) :: base64 l

/-! ### Lines -/

/-- A line has no line break. -/
def OneLine (l : Bytes) : Prop := 0x0A ∉ l ∧ 0x0D ∉ l

/-- The lines of a text: each ends with LF, CR or CR LF (they may be mixed), except that the last one may have no end. -/
inductive LinesOf : Bytes → List Bytes → Prop where
  | none : LinesOf [] []
  | last {l : Bytes} : l ≠ [] → OneLine l → LinesOf l [l]
  | line {l nl rest : Bytes} {ls : List Bytes} : OneLine l → nl = [0x0A] ∨ nl = [0x0D, 0x0A] ∨ (nl = [0x0D] ∧ rest.head? ≠ some 0x0A) →
      LinesOf rest ls → LinesOf (l ++ nl ++ rest) (l :: ls)

/-! ### Blocks -/

/-- A label: upper-case letters, digits and spaces. -/
def IsLabel (l : Bytes) : Prop := l ≠ [] ∧ ∀ b ∈ l, b ∈ asciiText "ABCDEFGHIJKLMNOPQRSTUVWXYZ0123456789 "

/-- A line that starts a block.  The form with four hyphens and a space is tolerated as well. -/
def StartsBlock (line : Bytes) : Prop :=
  ∃ opening label closing rest, opening ∈ [asciiText "-----", asciiText "---- "] ∧ closing ∈ [asciiText "-----", asciiText " ----"] ∧
    IsLabel label ∧ line = opening ++ asciiText "BEGIN " ++ label ++ closing ++ rest

/-- One object in a PEM text: lines before it, label, headers, the lines of the body. -/
structure PemBlock where
  before : List Bytes
  label : Bytes
  headers : List Bytes
  body : List Bytes

/-- Its lines. -/
def PemBlock.lines (b : PemBlock) : List Bytes :=
  b.before ++ [asciiText "-----BEGIN " ++ b.label ++ asciiText "-----"] ++ b.headers ++ b.body ++
    [asciiText "-----END " ++ b.label ++ asciiText "-----"]

/-- The block holds these octets: its body is their base64 encoding, broken into lines anywhere; what is before it does not start a
block; headers are ASCII and have a colon. -/
structure PemBlock.Holds (b : PemBlock) (der : Bytes) : Prop where
  before : ∀ l ∈ b.before, ¬ StartsBlock l
  label : IsLabel b.label
  headers : ∀ l ∈ b.headers, 0x3A ∈ l ∧ ∀ x ∈ l, x.toNat < 128
  body : b.body.flatten = base64 der

/-- The text holds these objects, in this order, with other lines between them and at the end. -/
structure PemText (text : Bytes) (ders : List Bytes) : Prop where
  some : ders ≠ []
  blocks : ∃ (bs : List (PemBlock × Bytes)) (after : List Bytes), bs.map Prod.snd = ders ∧ (∀ x ∈ bs, x.1.Holds x.2) ∧
    (∀ l ∈ after, ¬ StartsBlock l) ∧ LinesOf text (bs.flatMap (fun x => x.1.lines) ++ after)

/-- A line that ends a block: it starts with hyphens. -/
def EndsBlock (line : Bytes) : Prop := asciiText "-----" <+: line ∨ asciiText "---- " <+: line

/-- The lines have a block whose body decodes to these octets: a line that starts a block, headers (and empty lines), the body, a line
that ends the block. -/
def InBlock (ls : List Bytes) (der : Bytes) : Prop :=
  ∃ before first headers body last after, ls = before ++ first :: (headers ++ body ++ last :: after) ∧ StartsBlock first ∧
    (∀ l ∈ headers, l = [] ∨ 0x3A ∈ l) ∧ (∀ l ∈ body, ¬ EndsBlock l) ∧ EndsBlock last ∧ Pem.b64decode body.flatten = .ok der

/-! ### Certificates -/

/-- The text holds these certificates (in DER), in this order. -/
def CertText (text : Bytes) (certs : List DCert) : Prop :=
  PemText text (certs.map DCert.encode) ∧ ∀ c ∈ certs, c.Valid ∧ c.encode.length < maxLen

/-- The files that are read at a location. -/
def filesAt : Pem.Location → List (Except Exc Bytes)
  | .directory l => l
  | .file c => [c]

/-- The files can all be read and hold these certificates, file by file. -/
inductive FilesHold : List (Except Exc Bytes) → List DCert → Prop where
  | none : FilesHold [] []
  | more {text : Bytes} {certs rest : List DCert} {files : List (Except Exc Bytes)} : CertText text certs → FilesHold files rest →
      FilesHold (.ok text :: files) (certs ++ rest)

end Signify.Spec
