/-
Extensions of certificates.  C91, C92.
-/
import Verif.Proofs.Extensions
import Verif.Props.Der

set_option autoImplicit false

namespace Signify.Props

open Signify Spec Asn1

/-! ### C91 -/

/-- Information about the issuing agency, in DER and whatever follows it, is read as what it says: links, texts and images. -/
theorem C91_agency_read_back (a : DAgency) (h : a.Valid) (hl : a.encode.length < maxLen) (rest : Bytes) :
    derAgency (a.encode ++ rest) = .ok a.value := derAgency_ok h hl rest

/-- An agency with a file as policy, a text and an image. -/
def exAgency : DAgency where
  policy := .file (.unicode "Richtlinie für 𝔸")
  text := some (.ascii "policy")
  image := some ⟨some (.url "http://x/"), none, some [1, 2], none, some [0x47, 0x49, 0x46]⟩
  link := some (.moniker [7] [])

theorem exAgency_valid : exAgency.Valid :=
  ⟨trivial, (fun s hs => by cases hs; unfold DString.Valid IsAscii; decide +kernel),
    (fun i l hi hl => by cases hi; cases hl; unfold DLink.Valid IsAscii; decide +kernel), (fun l hl => by cases hl; trivial)⟩

theorem exLen {n : Nat} (h : n < 256) : n < maxLen :=
  Nat.lt_of_lt_of_le h (Nat.le_trans (by decide : 256 ≤ 256 ^ 1) (Nat.pow_le_pow_right (by decide) (by decide)))

example : exAgency.Valid ∧ exAgency.encode.length < maxLen ∧
    exAgency.value = ⟨.text "Richtlinie für 𝔸", some "policy",
      some ⟨some (.text "http://x/"), none, some [1, 2], none, some [0x47, 0x49, 0x46]⟩, some (.moniker [7] [])⟩ :=
  ⟨exAgency_valid, exLen (by decide +kernel), rfl⟩

/-- **C91**.  `version` and `extensions` of a certificate in DER, whatever follows it, are what it says: an extension is found under a
name iff the certificate has one of that name, and its value is that of the last one.  The other attributes are those of C66. -/
theorem C91_certificate {α : Type} (lib : ExtLib α) (c : DCert) (h : c.Valid) (hl : c.encode.length < maxLen)
    (hs : ∀ l, c.extensions = some l → ∀ e ∈ l, ∃ n x, Says lib e n x) (rest : Bytes) :
    ∃ d, certObject lib (c.encode ++ rest) = .ok (c.cert certIdent, ⟨versionName c.version, d⟩) ∧
      ∀ n x, d.get? n = some x ↔ ∃ pre e post, c.extensions.getD [] = pre ++ e :: post ∧ Says lib e n x ∧
        ∀ e' ∈ post, ∀ x', ¬ Says lib e' n x' := by
  have hg := good_cert h
  have hok := T.ok_of hg (by rw [c.enc_tree]; exact hl)
  obtain ⟨d, h1, h2⟩ := readCertAttrs_ok h hl hs
  refine ⟨d, ?_, fun n x => by rw [h2, lastSays_iff]⟩
  unfold certObject
  rw [C66_certificate_read_back c h hl rest]
  rw [← c.enc_tree, parse_tree _ _ hg hok.2]
  simp only [bind, Except.bind, h1]

/-- A certificate with two extended key usages, information about the agency, and extensions that are known or not. -/
def exExtCert : DCert :=
  { exDCert with extensions := some [.eku true [[1, 2, 3]], .other [2, 5, 29, 15] true [3, 2, 7, 128],
      .other oidAgency false exAgency.encode, .other [1, 2, 3, 4] false [5, 0],
      .other oidFinancial false (DFinancial.encode ⟨some true, some false⟩), .eku false [[1, 3, 6, 1, 5, 5, 7, 3, 3]]] }

/-- A library that knows key usages, and gives their octets without the first two. -/
def exExtLib : ExtLib Bytes := fun n => if n = "key_usage" then some (fun b => .ok (b.drop 2)) else none

theorem exExtCert_says : ∀ l, exExtCert.extensions = some l → ∀ e ∈ l, ∃ n x, Says exExtLib e n x := by
  intro l hl e he
  cases hl
  simp only [List.mem_cons, List.not_mem_nil, or_false] at he
  rcases he with rfl | rfl | rfl | rfl | rfl | rfl
  · exact ⟨_, _, .usages _ _⟩
  · exact ⟨_, _, .known _ _ _ _ _ (by decide) (by decide) (if_pos (by decide +kernel)) rfl⟩
  · exact ⟨_, _, .agency _ _ exAgency_valid⟩
  · exact ⟨_, _, .unknown _ _ _ (by decide) (by decide) (if_neg (by decide +kernel))⟩
  · exact ⟨_, _, .financial _ _ _⟩
  · exact ⟨_, _, .usages _ _⟩

theorem exExtCert_valid : exExtCert.Valid := by
  obtain ⟨h1, h2, h3, h4, h5, h6, h7, _⟩ := exDCert_valid
  refine ⟨h1, h2, h3, h4, h5, h6, h7, ?_⟩
  intro l hl e he
  cases hl
  simp only [List.mem_cons, List.not_mem_nil, or_false] at he
  rcases he with rfl | rfl | rfl | rfl | rfl | rfl
  · intro o ho
    simp only [List.mem_cons, List.not_mem_nil, or_false] at ho
    subst ho; exact ⟨_, _, _, rfl, by omega, by omega⟩
  · exact ⟨⟨_, _, _, rfl, by omega, by omega⟩, by decide⟩
  · exact ⟨⟨_, _, _, rfl, by omega, by omega⟩, by decide⟩
  · exact ⟨⟨_, _, _, rfl, by omega, by omega⟩, by decide⟩
  · exact ⟨⟨_, _, _, rfl, by omega, by omega⟩, by decide⟩
  · intro o ho
    simp only [List.mem_cons, List.not_mem_nil, or_false] at ho
    subst ho; exact ⟨_, _, _, rfl, by omega, by omega⟩

/-- What is read from the bytes of this certificate. -/
example : exExtCert.Valid ∧ exExtCert.encode.length < maxLen ∧
    (certObject exExtLib exExtCert.encode).map (fun x => (x.2.version, x.2.extensions)) = .ok (.name "v3",
      [("extended_key_usage", .usages ["code_signing"]), ("key_usage", .lib [7, 128]),
       ("microsoft_spc_sp_agency_info", .agency exAgency.value), ("1.2.3.4", .octets [5, 0]),
       ("microsoft_spc_financial_criteria", .financial ⟨true, false⟩)]) :=
  ⟨exExtCert_valid, by decide +kernel, by decide +kernel⟩

/-- An extension of a type that the ASN.1 library knows and cannot decode makes the whole certificate unreadable, with the exception
of the library, although nothing else depends on the extension. -/
theorem C91_unreadable {α : Type} (lib : ExtLib α) (c : DCert) (h : c.Valid) (hl : c.encode.length < maxLen) (pre post : List DExt)
    (o : List Nat) (critical : Bool) (v : Bytes) (hx : c.extensions = some (pre ++ .other o critical v :: post))
    (hp : ∀ e ∈ pre, ∃ n x, Says lib e n x) (ho : o ≠ oidAgency ∧ o ≠ oidFinancial) (f : Bytes → Except Exc α)
    (hf : lib (nameIn extensionNames o) = some f) (x : Exc) (hv : f v = .error x) (rest : Bytes) :
    certObject lib (c.encode ++ rest) = .error x := by
  have hg := good_cert h
  have hok := T.ok_of hg (by rw [c.enc_tree]; exact hl)
  have hval := h.2.2.2.2.2.2.2 _ hx
  have he := readExtension_fails (lib := lib) (hval (.other o critical v) (by simp)) ho.1 ho.2 hf hv
  have h1 := readCertAttrs_fails (lib := lib) h hl hx (fun d => readExtensions_fails he pre
    (fun e hm => ⟨hval e (List.mem_append_left _ hm), ext_length h hl hx (List.mem_append_left _ hm), hp e hm⟩) d)
  unfold certObject
  rw [C66_certificate_read_back c h hl rest]
  rw [← c.enc_tree, parse_tree _ _ hg hok.2]
  simp only [bind, Except.bind, h1]

/-- The certificate above, with a library that cannot decode its key usage. -/
example : exExtCert.extensions = some ([DExt.eku true [[1, 2, 3]]] ++ .other [2, 5, 29, 15] true [3, 2, 7, 128] ::
      [.other oidAgency false exAgency.encode, .other [1, 2, 3, 4] false [5, 0],
        .other oidFinancial false (DFinancial.encode ⟨some true, some false⟩), .eku false [[1, 3, 6, 1, 5, 5, 7, 3, 3]]]) ∧
    certObject (α := Bytes) (fun n => if n = "key_usage" then some (fun _ => .error ⟨.valueError, ""⟩) else none) exExtCert.encode
      = .error ⟨.valueError, ""⟩ := by
  refine ⟨rfl, ?_⟩
  have := C91_unreadable (α := Bytes) (fun n => if n = "key_usage" then some (fun _ => .error ⟨.valueError, ""⟩) else none) exExtCert
    exExtCert_valid (by decide +kernel) [DExt.eku true [[1, 2, 3]]] _ [2, 5, 29, 15] true [3, 2, 7, 128] rfl
    (fun e he => by simp only [List.mem_singleton] at he; subst he; exact ⟨_, _, .usages _ _⟩) ⟨by decide, by decide⟩ _
    (if_pos (by decide +kernel)) _ rfl []
  rwa [List.append_nil] at this

/-- For all data: the usages by which a lifetime signing certificate is recognised are those that `extensions` reports. -/
theorem C91_usages {α : Type} (lib : ExtLib α) (data : Bytes) (c : Cert) (a : CertAttrs α) (h : certObject lib data = .ok (c, a)) :
    a.extensions.get? "extended_key_usage" = c.eku.map .usages := certObject_eku h

/-! ### C92 -/

/-- **C92 is false as stated**: criteria of which the second alone is written down are read as the first alone. -/
theorem C92_financial_false : ∃ f : DFinancial, derFinancial f.encode ≠ .ok f.value ∧
    f.value = ⟨false, true⟩ ∧ derFinancial f.encode = .ok ⟨true, false⟩ :=
  ⟨⟨none, some true⟩, by decide +kernel, rfl, by decide +kernel⟩

/-- **C92**, the part that holds, exactly: financial criteria are read as what they say unless the first is left out and the second
is written down as true; whatever follows.  In particular they are if both are written down, as WinTrust does. -/
theorem C92_financial_partial (f : DFinancial) (rest : Bytes) :
    derFinancial (f.encode ++ rest) = .ok f.value ↔ ¬ (f.available = none ∧ f.meets = some true) := by
  rw [derFinancial_exact]
  obtain ⟨a, b⟩ := f
  rcases a with _ | (_ | _) <;> rcases b with _ | (_ | _) <;> simp [DFinancial.value]

/-- What is read otherwise: the first criterion is reported as true, and the second as false. -/
theorem C92_confused (f : DFinancial) (h : f.available = none ∧ f.meets = some true) (rest : Bytes) :
    derFinancial (f.encode ++ rest) = .ok ⟨true, false⟩ := by
  rw [derFinancial_exact, h.1, h.2]
  rfl

/-- Criteria that are written down with another octet than 0xFF, as BER allows, are true, too. -/
theorem C92_any_octet (a b : UInt8) (rest : Bytes) :
    derFinancial (derSeq [tlv 0x01 [a], tlv 0x01 [b]] ++ rest) = .ok ⟨decide (a ≠ 0), decide (b ≠ 0)⟩ := by
  have ht : derSeq [tlv 0x01 [a], tlv 0x01 [b]] = (T.node 0x30 [.leaf 0x01 [a], .leaf 0x01 [b]]).enc := by
    simp [derSeq, T.enc, encAll]
  have hg : (T.node 0x30 [.leaf 0x01 [a], .leaf 0x01 [b]]).good = true := by simp [T.good, goodAll]
  have hl : (T.node 0x30 [.leaf 0x01 [a], .leaf 0x01 [b]]).cont.length < maxLen :=
    exLen (by simp [T.cont, encAll, T.enc, tlv, lengthOctets])
  unfold derFinancial
  rw [ht, load_tree _ _ _ ⟨hg, hl⟩]
  have hb : ∀ c : UInt8, boolNative [c] = decide (c ≠ 0) := by
    intro c
    by_cases h : c = 0 <;> simp [boolNative, bne, h]
  bt [tSpcFinancialCriteria, tBoolean]
  simp only [readFinancial, Val.get, List.lookup, bind, Except.bind, readFlag, Val.octets]
  simp [hb]

example : derFinancial (DFinancial.encode ⟨some false, some true⟩) = .ok ⟨false, true⟩ ∧
    (DFinancial.encode ⟨some false, some true⟩) = [0x30, 6, 1, 1, 0, 1, 1, 0xFF] := by decide +kernel

example := C91_agency_read_back exAgency exAgency_valid (exLen (by decide +kernel)) [1]
example := C92_confused ⟨none, some true⟩ ⟨rfl, rfl⟩ []

end Signify.Props
