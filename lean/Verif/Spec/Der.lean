/-
The Distinguished Encoding Rules (X.690) and the structures of Authenticode and of trust lists, written down as encoders: what a
program that signs files puts into them.
-/
import Verif.Model.CtlFile
import Verif.Spec.CtlFile

set_option autoImplicit false

namespace Signify.Spec

/-! ### X.690 -/

/-- A number in base 256, most significant octet first, without leading zeros (but at least one octet). -/
def base256 (n : Nat) : Bytes := if n < 256 then [UInt8.ofNat n] else base256 (n / 256) ++ [UInt8.ofNat (n % 256)]

/-- Length octets (8.1.3, 10.1): the short form below 128, otherwise the long form with as few octets as possible. -/
def lengthOctets (n : Nat) : Bytes := if n < 128 then [UInt8.ofNat n] else UInt8.ofNat (128 + (base256 n).length) :: base256 n

/-- Identifier octet, length octets, contents octets (8.1). -/
def tlv (id : UInt8) (contents : Bytes) : Bytes := id :: (lengthOctets contents.length ++ contents)

/-- The length field has at most 126 octets of its own (8.1.3.5), so only contents shorter than this can be encoded. -/
def maxLen : Nat := 256 ^ 126

/-- INTEGER (8.3): two's complement, as few octets as possible. -/
def intOctets (i : Int) : Bytes :=
  if -128 ≤ i ∧ i < 128 then [UInt8.ofNat (i % 256).toNat]
  else intOctets (i / 256) ++ [UInt8.ofNat (i % 256).toNat]
termination_by i.natAbs
decreasing_by omega

/-- The octets of a subidentifier before the last: base 128, high bit set. -/
def base128Hi (n : Nat) : Bytes := if n = 0 then [] else base128Hi (n / 128) ++ [UInt8.ofNat (128 + n % 128)]
termination_by n
decreasing_by omega

/-- A subidentifier (8.19.2): base 128, high bit set in all octets but the last. -/
def base128 (n : Nat) : Bytes := base128Hi (n / 128) ++ [UInt8.ofNat (n % 128)]

/-- OBJECT IDENTIFIER (8.19): the first two arcs share a subidentifier. -/
def oidOctets : List Nat → Bytes
  | a :: b :: l => base128 (40 * a + b) ++ l.flatMap base128
  | _ => []

/-- A possible object identifier: at least two arcs, the first of them 0, 1 or 2, the second below 40 unless the first is 2. -/
def ValidOid (o : List Nat) : Prop := ∃ a b l, o = a :: b :: l ∧ a ≤ 2 ∧ (a < 2 → b < 40)

/-- Eight bits, most significant first. -/
def octetOf (b : List Bool) : UInt8 := UInt8.ofNat ((b ++ List.replicate (8 - b.length) false).foldl (fun n x => 2 * n + x.toNat) 0)

/-- Bits in octets, the last one filled with zeros. -/
def packBits (b : List Bool) : Bytes :=
  match b with
  | [] => []
  | x :: l => octetOf (x :: l.take 7) :: packBits (l.drop 7)
termination_by b.length
decreasing_by simp; omega

/-- BIT STRING (8.6): number of unused bits, bits. -/
def bitOctets (b : List Bool) : Bytes := UInt8.ofNat ((8 - b.length % 8) % 8) :: packBits b

/-- A 16-bit unit, big endian. -/
def unitBE (u : Nat) : Bytes := [UInt8.ofNat (u / 256), UInt8.ofNat (u % 256)]

/-- BMPString: a character, with surrogates beyond the basic plane. -/
def bmpChar (c : Char) : Bytes :=
  if c.toNat < 0x10000 then unitBE c.toNat
  else unitBE (0xD800 + (c.toNat - 0x10000) / 0x400) ++ unitBE (0xDC00 + (c.toNat - 0x10000) % 0x400)

/-- BMPString -/
def bmpOctets (s : String) : Bytes := s.toList.flatMap bmpChar

/-- IA5String (and PrintableString) -/
def asciiOctets (s : String) : Bytes := s.toList.map (fun c => UInt8.ofNat c.toNat)

/-- ASCII text. -/
def IsAscii (s : String) : Prop := ∀ c ∈ s.toList, c.toNat < 128

/-- INTEGER -/
def derInt (i : Int) : Bytes := tlv 0x02 (intOctets i)
/-- BIT STRING -/
def derBits (b : List Bool) : Bytes := tlv 0x03 (bitOctets b)
/-- OCTET STRING -/
def derOctets (b : Bytes) : Bytes := tlv 0x04 b
/-- NULL -/
def derNull : Bytes := tlv 0x05 []
/-- OBJECT IDENTIFIER -/
def derOid (o : List Nat) : Bytes := tlv 0x06 (oidOctets o)
/-- SEQUENCE -/
def derSeq (l : List Bytes) : Bytes := tlv 0x30 l.flatten
/-- SET -/
def derSet (l : List Bytes) : Bytes := tlv 0x31 l.flatten
/-- An optional component. -/
def derOpt {α : Type} (enc : α → Bytes) : Option α → Bytes
  | none => []
  | some a => enc a

/-- AlgorithmIdentifier: algorithm, and parameters that are either absent or NULL. -/
structure DAlg where
  oid : List Nat
  null : Bool

/-- AlgorithmIdentifier ::= SEQUENCE { algorithm OBJECT IDENTIFIER, parameters ANY OPTIONAL } -/
def DAlg.encode (a : DAlg) : Bytes := derSeq [derOid a.oid, if a.null then derNull else []]

/-! ### Times -/

/-- A date and time (UTC). -/
structure DTime where
  year : Nat
  month : Nat
  day : Nat
  hour : Nat
  minute : Nat
  second : Nat
deriving DecidableEq, Repr

/-- The number of days of a year in the Gregorian calendar. -/
def yearLength (y : Nat) : Nat := if 4 ∣ y ∧ (100 ∣ y → 400 ∣ y) then 366 else 365

/-- The number of days of a month. -/
def monthLength (y m : Nat) : Nat := if m = 2 then yearLength y - 337 else if m ∈ [4, 6, 9, 11] then 30 else 31

/-- A possible date and time. -/
def DTime.Valid (t : DTime) : Prop :=
  1 ≤ t.year ∧ t.year ≤ 9999 ∧ 1 ≤ t.month ∧ t.month ≤ 12 ∧ 1 ≤ t.day ∧ t.day ≤ monthLength t.year t.month ∧
  t.hour ≤ 23 ∧ t.minute ≤ 59 ∧ t.second ≤ 59

/-- Days from 1 January of the year 1 to 1 January of the given year. -/
def daysToYear (y : Nat) : Nat := ((List.range' 1 (y - 1)).map yearLength).sum

/-- Days from 1 January of the year 1 to the given day. -/
def DTime.days (t : DTime) : Nat :=
  daysToYear t.year + ((List.range' 1 (t.month - 1)).map (monthLength t.year)).sum + (t.day - 1)

/-- Microseconds since 1 January 1601. -/
def DTime.micros (t : DTime) : Int :=
  ((((t.days : Int) - daysToYear 1601) * 24 + t.hour) * 60 + t.minute) * 60000000 + t.second * 1000000

/-- Two decimal digits. -/
def twoDigit (n : Nat) : Bytes := [UInt8.ofNat (48 + n / 10), UInt8.ofNat (48 + n % 10)]

/-- MMDDhhmmss -/
def DTime.rest (t : DTime) : Bytes :=
  twoDigit t.month ++ twoDigit t.day ++ twoDigit t.hour ++ twoDigit t.minute ++ twoDigit t.second

/-- YYYYMMDDhhmmss -/
def DTime.digits (t : DTime) : Bytes := twoDigit (t.year / 100) ++ twoDigit (t.year % 100) ++ t.rest

/-- Time ::= CHOICE { utcTime UTCTime, generalTime GeneralizedTime }: UTCTime (with a year of two digits) from 1950 to 2049
(RFC 5280, 4.1.2.5). -/
def DTime.encode (t : DTime) : Bytes :=
  if 1950 ≤ t.year ∧ t.year ≤ 2049 then tlv 0x17 (twoDigit (t.year % 100) ++ t.rest ++ [0x5A])
  else tlv 0x18 (t.digits ++ [0x5A])

/-- The difference between local time and UTC, +hhmm or -hhmm (allowed in BER). -/
def zoneOctets (ahead : Bool) (hh mm : Nat) : Bytes := (if ahead then 0x2B else 0x2D) :: (twoDigit hh ++ twoDigit mm)

/-- Microseconds by which local time is ahead of UTC. -/
def zoneMicros (ahead : Bool) (hh mm : Nat) : Int := (if ahead then 1 else -1) * ((hh * 60 + mm) * 60000000)

/-- The texts that give the difference from UTC, with the microseconds by which local time is ahead. -/
inductive ZoneText : Bytes → Int → Prop
  | utc : ZoneText [0x5A] 0
  | offset (ahead : Bool) (hh mm : Nat) : hh ≤ 23 → mm ≤ 59 → ZoneText (zoneOctets ahead hh mm) (zoneMicros ahead hh mm)

/-- The digits after the point as a number of units of which the first digit counts 10^k. -/
def fracVal : Nat → List Nat → Nat
  | _, [] => 0
  | k, d :: l => d * 10 ^ k + fracVal (k - 1) l

/-- GeneralizedTime, with digits of a fraction of a second, if any (X.690, 11.7). -/
def DTime.encodeGen (t : DTime) (frac : List Nat) : Bytes :=
  tlv 0x18 (t.digits ++ (if frac = [] then [] else 0x2E :: frac.map (fun d => UInt8.ofNat (48 + d))) ++ [0x5A])

/-- The texts after the seconds of a GeneralizedTime: nothing, or a point or a comma and digits, of which the first six count, as
microseconds. -/
inductive FracText : Bytes → Nat → Prop
  | none : FracText [] 0
  | some (sep : UInt8) (l : List Nat) : sep = 0x2E ∨ sep = 0x2C → l ≠ [] → (∀ d ∈ l, d ≤ 9) →
      FracText (sep :: l.map (fun d => UInt8.ofNat (48 + d))) (fracVal 5 (l.take 6))

/-! ### Authenticode -/

/-- SpcString -/
inductive DString where
  | unicode (s : String)
  | ascii (s : String)

/-- SpcString ::= CHOICE { unicode [0] IMPLICIT BMPSTRING, ascii [1] IMPLICIT IA5STRING } -/
def DString.encode : DString → Bytes
  | .unicode s => tlv 0x80 (bmpOctets s)
  | .ascii s => tlv 0x81 (asciiOctets s)

/-- The text. -/
def DString.text : DString → String
  | .unicode s => s
  | .ascii s => s

/-- The text can be encoded. -/
def DString.Valid : DString → Prop
  | .unicode _ => True
  | .ascii s => IsAscii s

/-- SpcLink -/
inductive DLink where
  | url (s : String)
  | moniker (classId serializedData : Bytes)
  | file (s : DString)

/-- SpcLink ::= CHOICE { url [0] IMPLICIT IA5STRING, moniker [1] IMPLICIT SpcSerializedObject, file [2] EXPLICIT SpcString },
SpcSerializedObject ::= SEQUENCE { classId OCTET STRING, serializedData OCTET STRING } -/
def DLink.encode : DLink → Bytes
  | .url s => tlv 0x80 (asciiOctets s)
  | .moniker c d => tlv 0xA1 (derOctets c ++ derOctets d)
  | .file s => tlv 0xA2 s.encode

/-- What a link says. -/
def DLink.value : DLink → LinkVal
  | .url s => .text s
  | .moniker c d => .moniker c d
  | .file s => .text s.text

/-- The link can be encoded. -/
def DLink.Valid : DLink → Prop
  | .url s => IsAscii s
  | .moniker _ _ => True
  | .file s => s.Valid

/-- SpcPeImageData -/
structure DImage where
  flags : Option (List Bool)
  file : Option DLink

/-- SpcPeImageData ::= SEQUENCE { flags BIT STRING DEFAULT { includeResources }, file [0] EXPLICIT SpcLink OPTIONAL } -/
def DImage.encode (i : DImage) : Bytes := derSeq [derOpt derBits i.flags, derOpt (fun l : DLink => tlv 0xA0 l.encode) i.file]

/-- The name of a flag: SpcPeImageFlags ::= BIT STRING { includeResources (0), includeDebugInfo (1),
includeImportAddressTable (2) } -/
def flagName (i : Nat) : Flag :=
  if i = 0 then .name "include_resources"
  else if i = 1 then .name "include_debug_info"
  else if i = 2 then .name "include_import_address_table"
  else .bit i

/-- The flags that are set. -/
def DImage.flagSet (i : DImage) : List Flag :=
  match i.flags with
  | none => [.name "include_resources"]
  | some b => ((List.range b.length).filter (fun k => b[k]? = some true)).map flagName

/-- The description can be encoded. -/
def DImage.Valid (i : DImage) : Prop := ∀ l, i.file = some l → l.Valid

/-- What is signed: the type of the file (with a description of an image, or not), and the digest of the file. -/
structure DIndirect where
  type : List Nat
  image : Option DImage
  digestAlg : DAlg
  digest : Bytes

/-- SpcIndirectDataContent ::= SEQUENCE { data SEQUENCE { type OBJECT IDENTIFIER, value ANY OPTIONAL }, messageDigest DigestInfo },
DigestInfo ::= SEQUENCE { digestAlgorithm AlgorithmIdentifier, digest OCTET STRING }: the components. -/
def DIndirect.contents (x : DIndirect) : Bytes :=
  derSeq [derOid x.type, derOpt DImage.encode x.image] ++ derSeq [x.digestAlg.encode, derOctets x.digest]

/-- SpcIndirectDataContent -/
def DIndirect.encode (x : DIndirect) : Bytes := tlv 0x30 x.contents

/-- SPC_PE_IMAGE_DATAOBJ -/
def oidPeImage : List Nat := [1, 3, 6, 1, 4, 1, 311, 2, 1, 15]

/-- The digest algorithms. -/
def algOids : List (String × List Nat) :=
  [("md5", [1, 2, 840, 113549, 2, 5]),
   ("sha1", [1, 3, 14, 3, 2, 26]),
   ("sha256", [2, 16, 840, 1, 101, 3, 4, 2, 1]),
   ("sha384", [2, 16, 840, 1, 101, 3, 4, 2, 2]),
   ("sha512", [2, 16, 840, 1, 101, 3, 4, 2, 3])]

/-- SpcSpOpusInfo -/
structure DOpus where
  programName : Option DString
  moreInfo : Option DLink
  publisherInfo : Option DLink

/-- SpcSpOpusInfo ::= SEQUENCE { programName [0] EXPLICIT SpcString OPTIONAL, moreInfo [1] EXPLICIT SpcLink OPTIONAL,
publisherInfo [2] EXPLICIT SpcLink OPTIONAL } -/
def DOpus.encode (o : DOpus) : Bytes :=
  derSeq [derOpt (fun s : DString => tlv 0xA0 s.encode) o.programName, derOpt (fun s : DLink => tlv 0xA1 s.encode) o.moreInfo,
    derOpt (fun s : DLink => tlv 0xA2 s.encode) o.publisherInfo]

/-- The texts can be encoded. -/
def DOpus.Valid (o : DOpus) : Prop :=
  (∀ s, o.programName = some s → s.Valid) ∧ (∀ l, o.moreInfo = some l → l.Valid) ∧ (∀ l, o.publisherInfo = some l → l.Valid)

/-- SpcStatementType ::= SEQUENCE OF OBJECT IDENTIFIER -/
def encodeOids (l : List (List Nat)) : Bytes := derSeq (l.map derOid)

end Signify.Spec
