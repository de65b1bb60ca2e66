/-
Model of the byte-level part of `signify/authenticode/signed_pe.py` (header parsing, certificate table) and of
`AuthenticodeFingerprinter` (`signify/fingerprinter.py:272-296`).
-/
import Verif.Model.Fingerprinter

set_option autoImplicit false

namespace Signify

/-- `RelRange(start, length)`; signed_pe.py:52. -/
structure RelRange where
  start : Nat
  length : Nat
deriving DecidableEq, Repr

/-- `file.seek(pos); file.read(n)` for non-negative `pos`, `n`. -/
def readN (file : Bytes) (pos n : Nat) : Bytes := (file.drop pos).take n

/-- Little-endian value of a byte string. -/
def leNat : Bytes → Nat
  | [] => 0
  | b :: bs => b.toNat + 256 * leNat bs

/-- `struct.unpack("<H"/"<I", data)[0]` for an `n`-byte format: `struct.error` unless exactly `n` bytes are given. -/
def unpackLE (n : Nat) (data : Bytes) : Except Exc Nat :=
  if data.length = n then .ok (leNat data) else .error ⟨.structError, "unpack requires a buffer"⟩

/-- `SignedPEParseError(msg)`. -/
def peErr {α : Type} (msg : String) : Except Exc α := .error ⟨.signedPEParseError, msg⟩

/-- The part of `_parse_pe_header_locations` from reading NumberOfRvaAndSizes on; signed_pe.py:162-214.
`oho`/`ohs` are the optional header offset and size. -/
def parseDirectories (file : Bytes) (oho ohs rvaBase certBase : Nat) : Except Exc (Dict String RelRange) :=
  let location : Dict String RelRange := [("checksum", ⟨oho + 64, 4⟩)]        -- 163
  if oho + ohs < rvaBase + 4 then .ok location                                -- 166-171
  else
    match unpackLE 4 (readN file rvaBase 4) with                              -- 172-173
    | .error e => .error e
    | .ok numberOfRva =>
      if numberOfRva < 5 then .ok location                                    -- 174-180
      else if oho + ohs < certBase + 8 then .ok location                      -- 181-186
      else
        let location := Dict.set location "datadir_certtable" ⟨certBase, 8⟩   -- 190
        let entry := readN file certBase 8                                    -- 193-194 ("<II")
        if entry.length ≠ 8 then .error ⟨.structError, "unpack requires a buffer"⟩
        else
          let address := leNat (entry.take 4)
          let size := leNat (entry.drop 4)
          if size = 0 then .ok location                                       -- 196-198
          else if address < ohs + oho ∨ address + size > file.length then .ok location  -- 200-211
          else .ok (Dict.set location "certtable" ⟨address, size⟩)            -- 213-214

/-- `SignedPEFile._parse_pe_header_locations`; signed_pe.py:99-214.  Log messages are not modelled. -/
def parsePEHeader (file : Bytes) : Except Exc (Dict String RelRange) :=
  if readN file 0 2 ≠ [0x4D, 0x5A] then peErr "MZ header not found"           -- 109-111
  else
    match unpackLE 4 (readN file 0x3C 4) with                                 -- 114-115
    | .error e => .error e
    | .ok peOffset =>
      if peOffset ≥ file.length then peErr "PE header location is beyond file boundaries"  -- 116-120
      else if readN file peOffset 4 ≠ [0x50, 0x45, 0, 0] then peErr "PE header not found"  -- 123-125
      else
        match unpackLE 2 (readN file (peOffset + 20) 2) with                  -- 128-129
        | .error e => .error e
        | .ok ohs =>
          let oho := peOffset + 24                                            -- 130
          if ohs + oho > file.length then peErr "The optional header exceeds the file length"  -- 131-137
          else if ohs < 68 then peErr "The optional header size is insufficient for authenticode"  -- 139-145
          else
            match unpackLE 2 (readN file oho 2) with                          -- 148-149
            | .error e => .error e
            | .ok signature =>
              if signature = 0x10B then parseDirectories file oho ohs (oho + 92) (oho + 128)        -- 150-152
              else if signature = 0x20B then parseDirectories file oho ohs (oho + 108) (oho + 144)  -- 153-155
              else peErr "The PE Optional Header signature is unknown"        -- 156-160

/-- `SignedPEFile.get_authenticode_omit_sections`; signed_pe.py:74-97.  `.ok none` is Python's `None`. -/
def getOmit (file : Bytes) : Except Exc (Option (Dict String RelRange)) :=
  match parsePEHeader file with
  | .error e =>
    if e.is .signedPEParseError || e.is .structError then .ok none            -- 91-92
    else .error e
  | .ok locations =>                                                          -- 93-97
    .ok (some (locations.filter (fun kv => kv.1 ∈ ["checksum", "datadir_certtable", "certtable"])))

/-- `ParsedCertTable`; signed_pe.py:55-58. -/
structure CertEntry where
  revision : Nat
  type : Nat
  certificate : Bytes
deriving DecidableEq, Repr

/-- What a generator does: the values it yields, then the exception that ends it, if any. -/
abbrev Gen (α : Type) := List α × Option Exc

/-- The `while` loop of `_parse_cert_table`; signed_pe.py:227-249.  At most `fuel` iterations; `none` = still running. -/
def certLoop (file : Bytes) (tableEnd : Nat) : Nat → Nat → Option (Gen CertEntry)
  | 0, _ => none
  | fuel + 1, position =>
    if position < tableEnd then                                               -- 227
      if position + 8 > file.length then                                      -- 229-232
        some ([], some ⟨.signedPEParseError, "Position of certificate table is beyond length of file"⟩)
      else
        match unpackLE 4 (readN file position 4) with                         -- 233-234
        | .error e => some ([], some e)
        | .ok length =>
          match unpackLE 2 (readN file (position + 4) 2) with                 -- 235
          | .error e => some ([], some e)
          | .ok revision =>
            match unpackLE 2 (readN file (position + 6) 2) with               -- 236
            | .error e => some ([], some e)
            | .ok type =>
              if length ≤ 8 ∨ position + length > tableEnd then               -- 240-241
                some ([], some ⟨.signedPEParseError, "Invalid length in certificate table header"⟩)
              else
                let certificate := readN file (position + 8) (length - 8)     -- 242
                match certLoop file tableEnd fuel (position + (length + (8 - length % 8) % 8)) with  -- 249
                | none => none
                | some (es, e) => some (⟨revision, type, certificate⟩ :: es, e)  -- 244-248
    else some ([], none)

/-- `SignedPEFile._parse_cert_table`; signed_pe.py:216-249, with an iteration bound for the loop. -/
def parseCertTableN (fuel : Nat) (file : Bytes) : Option (Gen CertEntry) :=
  match getOmit file with                                                     -- 219
  | .error e => some ([], some e)
  | .ok none => some ([], some ⟨.signedPEParseError, "The PE file does not contain a certificate table."⟩)
  | .ok (some locations) =>
    match locations.get? "certtable" with                                     -- 220-223
    | none => some ([], some ⟨.signedPEParseError, "The PE file does not contain a certificate table."⟩)
    | some t => certLoop file (t.start + t.length) fuel t.start               -- 225-226

/-- `list(self._parse_cert_table())` and its final exception.  The bound is never reached: `C14_terminates`. -/
def parseCertTable (file : Bytes) : Gen CertEntry := (parseCertTableN (file.length + 1) file).getD ([], none)

/-- `RelRange` tuple comparison `a <= b`. -/
def RelRange.le (a b : RelRange) : Bool := a.start < b.start || (a.start == b.start && a.length ≤ b.length)

/-- Insertion into a sorted list. -/
def insertSorted (x : RelRange) : List RelRange → List RelRange
  | [] => [x]
  | y :: l => if x.le y then x :: y :: l else y :: insertSorted x l

/-- `sorted(values)` for `RelRange` tuples. -/
def sortRel : List RelRange → List RelRange
  | [] => []
  | x :: l => insertSorted x (sortRel l)

/-- The loop building the ranges in `add_authenticode_hashers`; fingerprinter.py:288-293. -/
def complementRanges (flen : Nat) (start : Nat) : List RelRange → List Range
  | [] => [⟨start, flen⟩]                                                     -- 293
  | sl :: l => ⟨start, sl.start⟩ :: complementRanges flen (sl.start + sl.length) l  -- 290-292

/-- `AuthenticodeFingerprinter.add_authenticode_hashers`; fingerprinter.py:277-296.  The list `ranges` is a new list
object. -/
def FP.addAuthenticodeHashers (fp : FP) (hashers : List String) : Except Exc Bool × FP :=
  match getOmit fp.file with                                                  -- 282-283
  | .error e => (.error e, fp)
  | .ok none => (.ok false, fp)                                               -- 285-286
  | .ok (some om) =>
    let ranges := complementRanges fp.file.length 0 (sortRel (om.map Prod.snd))  -- 288-293
    let fp := { fp with heap := fp.heap.set fp.next ranges, next := fp.next + 1 }
    (.ok true, fp.addHashers hashers (some (fp.next - 1)) "authentihash")     -- 295-296

end Signify
