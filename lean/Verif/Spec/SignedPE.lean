/-
Specification vocabulary for PE files: header fields, the sections omitted from the Authenticode hash, deletion of
sections, and the WIN_CERTIFICATE serialisation.
-/
import Verif.Model.SignedPE
import Verif.Spec.Fingerprinter

set_option autoImplicit false

namespace Signify.Spec

/-- The `n`-byte little-endian value at offset `off` (bytes beyond the end of the file count as 0). -/
def leAt (file : Bytes) (off : Nat) : Nat → Nat
  | 0 => 0
  | n + 1 => leAt file off n + (file.getD (off + n) 0).toNat * 256 ^ n

/-- `file` is a PE image usable for Authenticode: optional header at `oho`, of size `ohs`, and the certificate table's
entry of the data directory (if the header is big enough) at `dir`. -/
structure Header (file : Bytes) (oho ohs dir : Nat) : Prop where
  mz : file.take 2 = [0x4D, 0x5A]
  lfanew : oho = leAt file 0x3C 4 + 24
  signature : (file.drop (oho - 24)).take 4 = [0x50, 0x45, 0, 0]
  size : ohs = leAt file (oho - 4) 2
  inside : oho + ohs ≤ file.length
  hasChecksum : 68 ≤ ohs
  magic : (leAt file oho 2 = 0x10B ∧ dir = oho + 128) ∨ (leAt file oho 2 = 0x20B ∧ dir = oho + 144)

instance (file : Bytes) (oho ohs dir : Nat) : Decidable (Header file oho ohs dir) :=
  decidable_of_iff (file.take 2 = [0x4D, 0x5A] ∧ oho = leAt file 0x3C 4 + 24 ∧
      (file.drop (oho - 24)).take 4 = [0x50, 0x45, 0, 0] ∧ ohs = leAt file (oho - 4) 2 ∧ oho + ohs ≤ file.length ∧ 68 ≤ ohs ∧
      ((leAt file oho 2 = 0x10B ∧ dir = oho + 128) ∨ (leAt file oho 2 = 0x20B ∧ dir = oho + 144)))
    ⟨fun ⟨a, b, c, d, e, f, g⟩ => ⟨a, b, c, d, e, f, g⟩, fun ⟨a, b, c, d, e, f, g⟩ => ⟨a, b, c, d, e, f, g⟩⟩

/-- The data directory has a certificate table entry: it lies in the optional header and NumberOfRvaAndSizes (36 bytes
before it) is at least 5. -/
def HasEntry (file : Bytes) (oho ohs dir : Nat) : Prop := dir + 8 ≤ oho + ohs ∧ 5 ≤ leAt file (dir - 36) 4

instance (file : Bytes) (oho ohs dir : Nat) : Decidable (HasEntry file oho ohs dir) := by
  unfold HasEntry; infer_instance

/-- The entry of the data directory designates the certificate table `[addr, addr+size)`: non-empty, after the headers and
inside the file. -/
def HasTable (file : Bytes) (oho ohs dir addr size : Nat) : Prop :=
  HasEntry file oho ohs dir ∧ addr = leAt file dir 4 ∧ size = leAt file (dir + 4) 4 ∧ size ≠ 0 ∧
    oho + ohs ≤ addr ∧ addr + size ≤ file.length

instance (file : Bytes) (oho ohs dir addr size : Nat) : Decidable (HasTable file oho ohs dir addr size) := by
  unfold HasTable; infer_instance

/-- The sections to omit, per the Authenticode specification: checksum, directory entry, certificate table. -/
def omitOf (file : Bytes) (oho ohs dir : Nat) : List (String × RelRange) :=
  [("checksum", ⟨oho + 64, 4⟩)] ++
  (if HasEntry file oho ohs dir then [("datadir_certtable", ⟨dir, 8⟩)] else []) ++
  (if HasTable file oho ohs dir (leAt file dir 4) (leAt file (dir + 4) 4)
    then [("certtable", ⟨leAt file dir 4, leAt file (dir + 4) 4⟩)] else [])

/-- Offset `i` lies in the section. -/
def RelHas (r : RelRange) (i : Nat) : Prop := r.start ≤ i ∧ i < r.start + r.length

instance (r : RelRange) (i : Nat) : Decidable (RelHas r i) := by unfold RelHas; infer_instance

/-- The file with exactly the bytes of the given sections deleted. -/
def deleteSections (file : Bytes) (secs : List RelRange) : Bytes :=
  ((file.zipIdx).filter (fun p => decide (∀ r ∈ secs, ¬ RelHas r p.2))).map Prod.fst

/-- `n`-byte little-endian encoding. -/
def leBytes : Nat → Nat → Bytes
  | 0, _ => []
  | n + 1, v => UInt8.ofNat (v % 256) :: leBytes n (v / 256)

/-- A WIN_CERTIFICATE record: dwLength, wRevision, wCertificateType, bCertificate, padded to a multiple of 8 bytes. -/
def winCertificate (e : CertEntry) : Bytes :=
  let len := 8 + e.certificate.length
  leBytes 4 len ++ leBytes 2 e.revision ++ leBytes 2 e.type ++ e.certificate ++ List.replicate ((8 - len % 8) % 8) 0

/-- A certificate table. -/
def certTable (es : List CertEntry) : Bytes := es.flatMap winCertificate

/-- The sections of a file in the sense of `omitOf`, without their names. -/
def omitted (file : Bytes) (oho ohs dir : Nat) : List RelRange := (omitOf file oho ohs dir).map Prod.snd

/-- The file with only its certificate table (if any) cut out. -/
def withoutTable (file : Bytes) (oho ohs dir : Nat) : Bytes :=
  if HasTable file oho ohs dir (leAt file dir 4) (leAt file (dir + 4) 4) then
    deleteSections file [⟨leAt file dir 4, leAt file (dir + 4) 4⟩]
  else file

/-- The two files are the same image: same header geometry and, with the certificate tables cut out, same length and same
bytes outside the checksum field and the certificate table's directory entry. -/
def SameImage (f g : Bytes) : Prop :=
  ∃ oho ohs dir, Header f oho ohs dir ∧ Header g oho ohs dir ∧
    (HasEntry f oho ohs dir ↔ HasEntry g oho ohs dir) ∧
    (withoutTable f oho ohs dir).length = (withoutTable g oho ohs dir).length ∧
    ∀ i, ¬ (oho + 64 ≤ i ∧ i < oho + 68) → ¬ (HasEntry f oho ohs dir ∧ dir ≤ i ∧ i < dir + 8) →
      (withoutTable f oho ohs dir)[i]? = (withoutTable g oho ohs dir)[i]?

/-- `pe.get_fingerprinter()` with the given block size, `add_authenticode_hashers(hash)`, `hashes()["authentihash"][hash]`
evaluates to `dig`. -/
def Authentihash (H : String → Bytes → Bytes) (name : String) (blockSize : Int) (file dig : Bytes) : Prop :=
  ∃ fp res fp', (FP.new file blockSize).addAuthenticodeHashers [name] = (.ok true, fp) ∧ Ends H fp (.ok res) fp' ∧
    (res.get? "authentihash").bind (·.get? name) = some dig

/-- Overwrite bytes at an offset. -/
def patch (file : Bytes) (off : Nat) (bs : Bytes) : Bytes := file.take off ++ bs ++ file.drop (off + bs.length)

/-- The payloads are non-empty, lie inside `[lo, hi)` of the file, in this order and without overlap. -/
def SlicesIn (file : Bytes) : Nat → Nat → List Bytes → Prop
  | _, _, [] => True
  | lo, hi, c :: cs => ∃ p, lo ≤ p ∧ c ≠ [] ∧ p + c.length ≤ hi ∧ (file.drop p).take c.length = c ∧
      SlicesIn file (p + c.length) hi cs

/-- Entry that fits the fields of a WIN_CERTIFICATE record. -/
def Fits (e : CertEntry) : Prop :=
  e.certificate ≠ [] ∧ e.certificate.length + 8 < 2 ^ 32 ∧ e.revision < 2 ^ 16 ∧ e.type < 2 ^ 16

end Signify.Spec
