/-
Decoding: what is written in DER is what is read.  C65, C66, C68.
-/
import Verif.Proofs.DerAuth
import Verif.Proofs.CtlFile
import Verif.Props.PEFile
import Verif.Props.SignedPE
import Std.Data.String.ToInt

set_option autoImplicit false

namespace Signify.Props

open Signify Spec Asn1

theorem digest_of_name {o : List Nat} {n : String} (h : nameIn digestNames o = n) (hn : n ∈ digestAlgorithms) : IsDigest o n := by
  unfold nameIn at h
  split at h
  · rename_i x hx
    obtain ⟨h1, h2⟩ : x ∈ digestNames ∧ x.1 = o := ⟨List.mem_of_find?_eq_some hx, by simpa using List.find?_some hx⟩
    subst h2 h
    have key : ∀ y ∈ digestNames, y.2 ∈ digestAlgorithms → (y.2, y.1) ∈ algOids := by decide
    exact key x h1 hn
  · have key : ∀ m ∈ digestAlgorithms, ∃ c ∈ m.toList, c ≠ '.' ∧ c.isDigit = false := by decide +kernel
    exact absurd h (dotted_ne o n (key n hn))

/-! ### C65 -/

theorem derSpc_raw (x : DIndirect) (hv : x.Valid) (ht : ValidOid x.type) (ha : ValidOid x.digestAlg.oid)
    (hl : x.contents.length < maxLen) : ∃ r, (∀ rest, derSpc true (x.encode ++ rest) = .ok r) ∧ derSpc false x.contents = .ok r ∧
      r.digestAlg = ⟨nameIn digestNames x.digestAlg.oid, false⟩ ∧ r.digest = x.digest ∧
      (x.type = oidPeImage → r.type = "microsoft_spc_pe_image_data" ∧ r.image = x.image.map (fun i => (i.flagSet, i.file.map DLink.value))) ∧
      (x.type ≠ oidPeImage → r.type ≠ "microsoft_spc_pe_image_data") := by
  obtain ⟨e1, e2⟩ := loadWrapped_indirect x hl
  have w1 : ∀ rest, derSpc true (x.encode ++ rest) = readSpc x.val := fun rest => by unfold derSpc; rw [e1]; rfl
  have w2 : derSpc false x.contents = readSpc x.val := by unfold derSpc; rw [e2]; rfl
  have hda : digestAlgorithmMap = digestNames := rfl
  have hd : dotted x.type ≠ "microsoft_spc_pe_image_data" := dotted_ne _ _ (by decide +kernel)
  by_cases h : x.type = oidPeImage
  · have hr := readSpc_val hl h hv ha
    rw [nameIn_lookup, hda] at hr
    exact ⟨_, fun rest => (w1 rest).trans hr, w2.trans hr, rfl, rfl, fun _ => ⟨rfl, rfl⟩, fun k => absurd h k⟩
  · have hr := readSpc_other h ht ha hd
    rw [nameIn_lookup, hda] at hr
    exact ⟨_, fun rest => (w1 rest).trans hr, w2.trans hr, rfl, rfl, fun k => absurd k h, fun _ => hd⟩

/-- **C65**.  What is read from an encoded SpcIndirectDataContent is what it says: it is read iff it describes an image with an
accepted digest algorithm, and then type, flags, publisher, algorithm and digest are those that were written.  This is so for the
structure in an OCTET STRING, whatever follows it, and for one that is the content itself. -/
theorem C65_content_exact (x : DIndirect) (hv : x.Valid) (ht : ValidOid x.type) (ha : ValidOid x.digestAlg.oid)
    (hl : x.contents.length < maxLen) (rest : Bytes) (s : SpcInfo) :
    ((derSpc true (x.encode ++ rest) >>= parseSpc) = .ok s ↔ SpcSays x s) ∧
    ((derSpc false x.contents >>= parseSpc) = .ok s ↔ SpcSays x s) := by
  obtain ⟨r, h1, h2, h3, h4, h5, h6⟩ := derSpc_raw x hv ht ha hl
  rw [h1 rest, h2]
  suffices parseSpc r = .ok s ↔ SpcSays x s from ⟨this, this⟩
  rw [parseSpc_ok]
  constructor
  · rintro ⟨⟨k1, k2⟩, k3, k4, k5, k6⟩
    have hx : x.type = oidPeImage := Classical.byContradiction fun h => h6 h k1
    have := (h5 hx).2
    rw [k3] at this
    cases hi : x.image with
    | none => rw [hi] at this; cases this
    | some i =>
      rw [hi] at this
      simp only [Option.map_some, Option.some.injEq, Prod.mk.injEq] at this
      rw [h3] at k4 k5
      exact ⟨hx, k2.trans k1, ⟨i, hi, this.1, this.2⟩, digest_of_name k5.symm (by rw [k5]; exact k4.1), k6.trans h4⟩
  · rintro ⟨k1, k2, ⟨i, k3, k4, k5⟩, k6, k7⟩
    obtain ⟨d1, d2, -⟩ := isDigest_name k6
    refine ⟨⟨(h5 k1).1, k2.trans (h5 k1).1.symm⟩, ?_, ?_, ?_, k7.trans h4.symm⟩
    · rw [(h5 k1).2, k3, k4, k5]; rfl
    · rw [h3]; exact ⟨by rw [d1]; exact d2, rfl⟩
    · rw [h3]; exact d1.symm

/-- In particular nothing can be read from it that it does not say. -/
theorem C65_read_back (x : DIndirect) (s : SpcInfo) (h : SpcSays x s) (hv : x.Valid) (hl : x.contents.length < maxLen)
    (rest : Bytes) : (derSpc true (x.encode ++ rest) >>= parseSpc) = .ok s ∧ (derSpc false x.contents >>= parseSpc) = .ok s := by
  have ht : ValidOid x.type := by rw [h.type]; exact ⟨_, _, _, rfl, by omega, by omega⟩
  have := C65_content_exact x hv ht (isDigest_name h.digestAlg).2.2 hl rest s
  exact ⟨this.1.2 h, this.2.2 h⟩

/-- The digest of an image of which a file is the publisher. -/
def exIndirect : DIndirect where
  type := oidPeImage
  image := some ⟨some [true, false, true], some (.file (.unicode "<<<Obsolete>>>"))⟩
  digestAlg := ⟨[2, 16, 840, 1, 101, 3, 4, 2, 1], true⟩
  digest := [1, 2, 3]

/-- What it says. -/
def exIndirectInfo : SpcInfo where
  contentType := "microsoft_spc_pe_image_data"
  flags := [.name "include_resources", .name "include_import_address_table"]
  publisher := some (.text "<<<Obsolete>>>")
  digestAlg := "sha256"
  digest := [1, 2, 3]

theorem exIndirect_valid : exIndirect.Valid := by
  intro i hi
  cases hi
  intro l hl
  cases hl
  trivial

theorem exIndirect_len : exIndirect.contents.length < maxLen := by decide +kernel

theorem exIndirect_says : SpcSays exIndirect exIndirectInfo where
  type := rfl
  typeName := rfl
  image := ⟨_, rfl, by decide +kernel, rfl⟩
  digestAlg := by unfold IsDigest; decide
  digest := rfl

example := C65_read_back exIndirect exIndirectInfo exIndirect_says exIndirect_valid exIndirect_len [0, 0]

example := C65_content_exact exIndirect exIndirect_valid ⟨_, _, _, rfl, by decide, by decide⟩ ⟨_, _, _, rfl, by decide, by decide⟩ exIndirect_len [0, 0]

example : SpcSays exIndirect exIndirectInfo ∧ exIndirect.Valid ∧ exIndirect.contents.length < maxLen ∧
    ValidOid exIndirect.type ∧ ValidOid exIndirect.digestAlg.oid :=
  ⟨exIndirect_says, exIndirect_valid, exIndirect_len, ⟨_, _, _, rfl, by omega, by omega⟩, ⟨_, _, _, rfl, by omega, by omega⟩⟩

/-! ### C51: parameters of digest algorithms -/

theorem intNative_zero (b : Bytes) : intNative b = 0 ↔ ∀ x ∈ b, x = 0 := by
  have gen : ∀ (l : Bytes) (n : Nat), l.foldl (fun n x => n * 256 + x.toNat) n = n * 256 ^ l.length + intFromBytes l := by
    intro l
    induction l with
    | nil => intro n; simp [intFromBytes]
    | cons x l ih =>
      intro n
      unfold intFromBytes
      simp only [List.foldl_cons, List.length_cons]
      rw [ih, ih (0 * 256 + x.toNat), Nat.pow_succ, Nat.zero_mul, Nat.zero_add, Nat.add_mul, Nat.mul_assoc,
        Nat.mul_comm 256, Nat.add_assoc]
  have cons : ∀ (x : UInt8) (l : Bytes), intFromBytes (x :: l) = x.toNat * 256 ^ l.length + intFromBytes l := by
    intro x l
    have := gen l x.toNat
    unfold intFromBytes at this ⊢
    simpa using this
  have hz : ∀ l : Bytes, (intFromBytes l = 0 ↔ ∀ x ∈ l, x = 0) ∧ intFromBytes l < 256 ^ l.length := by
    intro l
    induction l with
    | nil => exact ⟨by simp [intFromBytes], by simp [intFromBytes]⟩
    | cons x l ih =>
      rw [cons]
      have hp : 0 < 256 ^ l.length := Nat.pow_pos (by omega)
      refine ⟨?_, ?_⟩
      · rw [Nat.add_eq_zero_iff, Nat.mul_eq_zero, ih.1]
        simp only [List.mem_cons, forall_eq_or_imp]
        have : x.toNat = 0 ↔ x = 0 := by
          constructor
          · intro h; exact UInt8.toNat_inj.1 (by simpa using h)
          · rintro rfl; rfl
        rw [this]
        constructor
        · rintro ⟨h1 | h1, h2⟩
          · exact ⟨h1, h2⟩
          · omega
        · rintro ⟨h1, h2⟩; exact ⟨.inl h1, h2⟩
      · have := UInt8.toNat_lt x
        simp only [List.length_cons, Nat.pow_succ]
        have : x.toNat * 256 ^ l.length ≤ 255 * 256 ^ l.length := Nat.mul_le_mul_right _ (by omega)
        have := ih.2
        omega
  cases b with
  | nil => simp [intNative]
  | cons x l =>
    have h := hz (x :: l)
    unfold intNative
    simp only
    split
    · rw [← h.1]; omega
    · rename_i hx
      have h2 := h.2
      constructor
      · intro h0
        have : ((256 ^ (x :: l).length : Nat) : Int) = 256 ^ (x :: l).length := by rw [Int.natCast_pow]; rfl
        omega
      · intro h0
        have := h0 x (by simp)
        subst this
        simp at hx

theorem truthy_iff (a : DAny) : truthy a.tree.parts = false ↔ a.Falsy := by
  show truthy (tlvParts a.id a.contents) = false ↔ _
  unfold truthy DAny.Falsy tlvParts
  simp only
  have hi := intNative_zero a.contents
  by_cases h5 : a.id.toNat / 64 = 0 ∧ a.id.toNat % 32 = 5
  · simp [h5]
  · rw [if_neg h5]
    by_cases h1 : a.id.toNat / 64 = 0 ∧ a.id.toNat % 32 = 1
    · rw [if_pos h1]
      simp [h1]
    · rw [if_neg h1]
      by_cases h2 : a.id.toNat / 64 = 0 ∧ a.id.toNat % 32 = 2
      · rw [if_pos h2]
        simp only [bne_eq_false_iff_eq, hi, h5, false_or]
        constructor
        · intro h; exact .inr (.inl ⟨h2.1, h2.2, h⟩)
        · rintro (⟨_, h, _⟩ | ⟨_, _, h⟩ | ⟨_, h⟩)
          · omega
          · exact h
          · simp [h]
      · rw [if_neg h2]
        simp only [Bool.not_eq_false', List.isEmpty_iff, h5, false_or]
        constructor
        · intro h; exact .inr (.inr ⟨h1, h⟩)
        · rintro (⟨h3, h, _⟩ | ⟨h3, h, _⟩ | ⟨_, h⟩)
          · exact absurd ⟨h3, h⟩ h1
          · exact absurd ⟨h3, h⟩ h2
          · exact h

/-- **C51**.  An algorithm identifier with any parameters is accepted as a digest algorithm iff its OID is that of one of the five
algorithms and its parameters are absent or false in the sense of Python. -/
theorem C51_parameters (a : DSigAlg) (h : a.Valid) (hl : a.encode.length < maxLen) (rest : Bytes) (n : String) :
    (do
      let v ← tAlgorithm.load (a.encode ++ rest)
      let r ← readAlg digestAlgorithmMap v
      getDigestAlgorithm r.algorithm r.params acceptedDigests) = .ok n ↔
    IsDigest a.oid n ∧ ∀ p, a.params = some p → p.Falsy := by
  have hg := good_sigAlg h
  have hok := T.ok_of hg (by rw [a.enc_tree]; exact hl)
  obtain ⟨v, h1, h2⟩ := reads_sigAlg_exact digestAlgorithmMap h
  unfold Ty.load
  have e : (do
      let v ← (do let (p, _) ← parse (a.encode ++ rest); tAlgorithm.build none p : Except Exc Val)
      let r ← readAlg digestAlgorithmMap v
      getDigestAlgorithm r.algorithm r.params acceptedDigests) = getDigestAlgorithm (nameIn digestAlgorithmMap a.oid)
        ((a.params.map (fun p => truthy p.tree.parts)).getD false) acceptedDigests := by
    rw [← a.enc_tree, parse_tree _ _ hg hok.2]
    simp only [bind, Except.bind]
    rw [build_tree _ _ _ hok, h1]
    simp only [h2]
  rw [e, getDigestAlgorithm_ok (a := ⟨nameIn digestAlgorithmMap a.oid, (a.params.map (fun p => truthy p.tree.parts)).getD false⟩)]
  have hp : (a.params.map (fun p => truthy p.tree.parts)).getD false = false ↔ ∀ p, a.params = some p → p.Falsy := by
    cases a.params with
    | none => simp
    | some p =>
      simp only [Option.map_some, Option.getD_some, Option.some.injEq, forall_eq']
      exact truthy_iff p
  constructor
  · rintro ⟨⟨h3, h4⟩, rfl⟩
    exact ⟨digest_of_name rfl h3, hp.1 h4⟩
  · rintro ⟨h3, h4⟩
    have key : ∀ y ∈ algOids, y.1 ∈ digestAlgorithms ∧ nameIn digestNames y.2 = y.1 := by decide +kernel
    obtain ⟨k1, k2⟩ := key _ h3
    simp only at k1 k2
    have k2' : nameIn digestAlgorithmMap a.oid = n := k2
    refine ⟨⟨?_, hp.2 h4⟩, k2'.symm⟩
    simp only [k2']
    exact k1

example := C51_parameters ⟨[2, 16, 840, 1, 101, 3, 4, 2, 1], some ⟨5, []⟩⟩
  ⟨⟨_, _, _, rfl, by decide, by decide⟩, fun p h => by cases h; unfold DAny.Valid; decide⟩ (by decide +kernel) [1, 2] "sha256"

/-- SHA-256 with NULL, without parameters, with the INTEGER 0 and with the INTEGER 7. -/
example : (DSigAlg.mk [2, 16, 840, 1, 101, 3, 4, 2, 1] (some ⟨5, []⟩)).Valid ∧ IsDigest [2, 16, 840, 1, 101, 3, 4, 2, 1] "sha256" ∧
    (DAny.mk 5 []).Falsy ∧ (DAny.mk 2 [0]).Falsy ∧ ¬ (DAny.mk 2 [7]).Falsy := by
  refine ⟨⟨⟨_, _, _, rfl, by omega, by omega⟩, ?_⟩, by unfold IsDigest; decide, by unfold DAny.Falsy; decide,
    by unfold DAny.Falsy; decide, by unfold DAny.Falsy; decide⟩
  intro p hp
  cases hp
  unfold DAny.Valid
  decide

/-! ### C66 -/

/-- **C66**.  A certificate in DER, whatever follows it, is read as what it says: issuer, subject, serial number, public key, validity
and extended key usages are those that were written, and the DER of the object is the encoding. -/
theorem C66_certificate_read_back (c : DCert) (h : c.Valid) (hl : c.encode.length < maxLen) (rest : Bytes) :
    certFromDer (c.encode ++ rest) = .ok (c.cert certIdent) := by
  have hg := good_cert h
  have hok := T.ok_of hg (by rw [c.enc_tree]; exact hl)
  unfold certFromDer
  rw [← c.enc_tree, parse_tree _ _ hg hok.2]
  exact readCert_ok h hl

/-- Two certificates with the same encoding say the same. -/
theorem C66_encoding_determines (c d : DCert) (hc : c.Valid) (hd : d.Valid) (hl : c.encode.length < maxLen)
    (h : c.encode = d.encode) : c.cert certIdent = d.cert certIdent := by
  have h1 := C66_certificate_read_back c hc hl []
  rw [h, C66_certificate_read_back d hd (h ▸ hl)] at h1
  injection h1 with h1
  exact h1.symm

/-- Signed attributes in DER are read as what they say, in their order: types and all values. -/
theorem C66_attributes_read_back (l : List DAttr) (h : ∀ a ∈ l, a.Valid) (hl : (attrsContents l).length < maxLen) :
    derAttrs (attrsContents l) = .ok (l.map DAttr.raw) := derAttrs_ok h hl

/-- Times in certificates, attributes and trust lists that give the difference from UTC, in either form, stand for the local time less
the difference. -/
theorem C66_time_zone (t : DTime) (h : t.Valid) (ahead : Bool) (hh mm : Nat) (hz1 : hh ≤ 23) (hz2 : mm ≤ 59) (rest : Bytes) :
    (1950 ≤ t.year ∧ t.year ≤ 2049 →
      (tTime.load (tlv 0x17 (twoDigit (t.year % 100) ++ t.rest ++ zoneOctets ahead hh mm) ++ rest) >>= readTime) =
        .ok (t.micros - zoneMicros ahead hh mm)) ∧
    (tTime.load (tlv 0x18 (t.digits ++ zoneOctets ahead hh mm) ++ rest) >>= readTime) = .ok (t.micros - zoneMicros ahead hh mm) := by
  have hlen : ∀ n, (twoDigit n).length = 2 := fun _ => rfl
  constructor
  · intro hy
    unfold Ty.load
    rw [parse_tlv _ _ _ (by decide) (by simp [DTime.rest, zoneOctets, hlen, maxLen])]
    exact utcTime_zone h hy ahead hz1 hz2
  · unfold Ty.load
    rw [parse_tlv _ _ _ (by decide) (by simp [DTime.digits, DTime.rest, zoneOctets, hlen, maxLen])]
    exact generalizedTime_zone h ahead hz1 hz2

/-- The texts that are read as a UTCTime, with the instants they stand for: a possible date and time between 1950 and 2049, whose
seconds can be left out if they are zero, and the difference from UTC. -/
theorem C66_utc_time_exact (b : Bytes) (u : Int) :
    utcTime b = .ok u ↔
      ∃ (t : DTime) (zone : Bytes) (z : Int), t.Valid ∧ 1950 ≤ t.year ∧ t.year ≤ 2049 ∧ ZoneText zone z ∧ u = t.micros - z ∧
        (b = twoDigit (t.year % 100) ++ t.rest ++ zone ∨
         t.second = 0 ∧ b = twoDigit (t.year % 100) ++
           (twoDigit t.month ++ twoDigit t.day ++ twoDigit t.hour ++ twoDigit t.minute) ++ zone) := by
  constructor
  · exact utcTime_inv
  · rintro ⟨t, zone, z, hv, hy1, hy2, hz, hu, rfl | ⟨h0, rfl⟩⟩
    · rw [hu]; exact (utcTime_text hv ⟨hy1, hy2⟩ hz).1
    · rw [hu]; exact (utcTime_text hv ⟨hy1, hy2⟩ hz).2 h0

/-- The texts that are read as a GeneralizedTime, with the instants they stand for: a possible date and time, a fraction of a second, if
any, and the difference from UTC, or nothing for none. -/
theorem C66_general_time_exact (b : Bytes) (u : Int) :
    generalizedTime b = .ok u ↔
      ∃ (t : DTime) (frac : Bytes) (us : Nat) (zone : Bytes) (z : Int), t.Valid ∧ FracText frac us ∧
        (ZoneText zone z ∨ zone = [] ∧ z = 0) ∧ u = t.micros + us - z ∧ b = t.digits ++ frac ++ zone := by
  constructor
  · exact generalizedTime_inv
  · rintro ⟨t, frac, us, zone, z, hv, hf, hz, hu, rfl⟩
    rw [hu]
    exact generalizedTime_text hv hf hz

/-- The 29th of February 2023 and the hour 24 are not read. -/
example : utcTime (twoDigit 23 ++ (DTime.mk 2023 2 29 1 30 0).rest ++ [0x5A]) = .error ⟨.valueError, "out of range"⟩ ∧
    utcTime (twoDigit 23 ++ (DTime.mk 2023 3 1 24 0 0).rest ++ [0x5A]) = .error ⟨.valueError, "out of range"⟩ := by
  constructor <;> decide +kernel

/-- Half a second after midnight of 1 March 2024. -/
example : generalizedTime ((DTime.mk 2024 3 1 0 0 0).digits ++ [0x2C, 0x35] ++ []) =
    .ok ((DTime.mk 2024 3 1 0 0 0).micros + (500000 : Nat) - 0) :=
  (C66_general_time_exact _ _).2 ⟨⟨2024, 3, 1, 0, 0, 0⟩, [0x2C, 0x35], 500000, [], 0, by unfold DTime.Valid; decide,
    .some 0x2C [5] (Or.inr rfl) (by decide) (by decide), Or.inr ⟨rfl, rfl⟩, rfl, rfl⟩

/-- 1 March 2024, 01:30 at two hours ahead of UTC, is 29 February, 23:30 UTC. -/
example : (tTime.load (tlv 0x17 (twoDigit 24 ++ (DTime.mk 2024 3 1 1 30 0).rest ++ zoneOctets true 2 0)) >>= readTime) =
    .ok (DTime.mk 2024 2 29 23 30 0).micros := by
  have h := (C66_time_zone ⟨2024, 3, 1, 1, 30, 0⟩ (by unfold DTime.Valid; decide) true 2 0 (by decide) (by decide) []).1 (by decide)
  rw [List.append_nil] at h
  rw [show (DTime.mk 2024 2 29 23 30 0).micros = (DTime.mk 2024 3 1 1 30 0).micros - zoneMicros true 2 0 by decide +kernel]
  exact h

/-- A name. -/
def exDName (cn : String) : DName := 
  [(⟨[2, 5, 4, 6], .text (.printable "NL")⟩, []), (⟨[2, 5, 4, 3], .text (.utf8 cn)⟩, [⟨[2, 5, 4, 10], .text (.bmp "Örg")⟩])]

/-- A certificate for signing code, with all the optional parts. -/
def exDCert : DCert where
  version := some 2
  serial := 0xF00000001
  sigAlg := ⟨[1, 2, 840, 113549, 1, 1, 11], some ⟨5, []⟩⟩
  issuer := exDName "CA"
  notBefore := ⟨2019, 2, 28, 23, 59, 59⟩
  notAfter := ⟨2051, 12, 31, 0, 0, 0⟩
  subject := exDName "Signer"
  keyAlg := [1, 2, 840, 10045, 2, 1]
  keyParams := .curve [1, 2, 840, 10045, 3, 1, 7]
  key := [true, false, true]
  issuerUid := some [true]
  subjectUid := some []
  extensions := some [.other [2, 5, 29, 15] true [3, 2, 7, 128], .eku false [[1, 3, 6, 1, 5, 5, 7, 3, 3], [1, 2, 3]]]
  signature := [false, true]

theorem exDName_valid (s : String) : (exDName s).Valid := by
  intro r hr a ha
  simp only [exDName, List.mem_cons, List.not_mem_nil, or_false] at hr
  rcases hr with rfl | rfl <;> simp only [List.mem_cons, List.not_mem_nil, or_false] at ha
  · subst ha
    exact ⟨⟨_, _, _, rfl, by omega, by omega⟩, by unfold DText.Valid IsAscii; decide +kernel, by decide⟩
  · rcases ha with rfl | rfl
    · exact ⟨⟨_, _, _, rfl, by omega, by omega⟩, trivial, by simp⟩
    · exact ⟨⟨_, _, _, rfl, by omega, by omega⟩, trivial, by decide⟩

/-- A name with a unique identifier, and an integer in an attribute that is not known. -/
example : DName.Valid [(⟨[2, 5, 4, 45], .unique [7, 8]⟩, []), (⟨[1, 2, 3], .int (-5)⟩, [⟨[2, 5, 4, 3], .text (.utf8 "A")⟩])] := by
  intro r hr a ha
  simp only [List.mem_cons, List.not_mem_nil, or_false] at hr
  rcases hr with rfl | rfl <;> simp only [List.mem_cons, List.not_mem_nil, or_false] at ha
  · subst ha
    exact ⟨⟨_, _, _, rfl, by omega, by omega⟩, rfl⟩
  · rcases ha with rfl | rfl
    · exact ⟨⟨_, _, _, rfl, by omega, by omega⟩, by unfold DAttrValue.Valid; decide⟩
    · exact ⟨⟨_, _, _, rfl, by omega, by omega⟩, trivial, by simp⟩

theorem exDCert_valid : exDCert.Valid := by
  refine ⟨⟨⟨_, _, _, rfl, by omega, by omega⟩, ?_⟩, exDName_valid _, by unfold DTime.Valid; decide +kernel, by unfold DTime.Valid; decide +kernel,
    exDName_valid _, ⟨_, _, _, rfl, by omega, by omega⟩, ⟨_, _, _, rfl, by omega, by omega⟩, ?_⟩
  · intro p hp
    cases hp
    unfold DAny.Valid
    decide
  · intro l hl e he
    cases hl
    simp only [List.mem_cons, List.not_mem_nil, or_false] at he
    rcases he with rfl | rfl
    · exact ⟨⟨_, _, _, rfl, by omega, by omega⟩, by decide⟩
    · intro o ho
      simp only [List.mem_cons, List.not_mem_nil, or_false] at ho
      rcases ho with rfl | rfl <;> exact ⟨_, _, _, rfl, by omega, by omega⟩

theorem exDCert_len : exDCert.encode.length < maxLen := by decide +kernel

example := C66_encoding_determines exDCert exDCert exDCert_valid exDCert_valid exDCert_len rfl

/-- What is read from the bytes of this certificate. -/
example : exDCert.Valid ∧ exDCert.encode.length < maxLen ∧ (exDCert.cert certIdent).serial = 0xF00000001 ∧
    (exDCert.cert certIdent).eku = some ["code_signing", "1.2.3"] ∧ (exDCert.cert certIdent).spki.parameters = .str "secp256r1" :=
  ⟨exDCert_valid, exDCert_len, rfl, by decide +kernel, by decide +kernel⟩

/-- Signed attributes of a signature. -/
def exDAttrs (type : List Nat) (digest : Bytes) : List DAttr :=
  [.contentType [type], .messageDigest [digest], .signingTime [⟨2020, 2, 29, 12, 0, 0⟩],
   .statementType [[[1, 3, 6, 1, 4, 1, 311, 2, 1, 21]]],
   .opus [⟨some (.unicode "Prögram"), some (.url "http://example.com"), none⟩], .other [1, 2, 3, 4] [⟨2, [1]⟩, ⟨5, []⟩]]

theorem exDAttrs_valid (type : List Nat) (digest : Bytes) (ht : ValidOid type) : ∀ a ∈ exDAttrs type digest, a.Valid := by
  intro a ha
  simp only [exDAttrs, List.mem_cons, List.not_mem_nil, or_false] at ha
  rcases ha with rfl | rfl | rfl | rfl | rfl | rfl
  · intro o ho
    simp only [List.mem_cons, List.not_mem_nil, or_false] at ho
    rw [ho]; exact ht
  · trivial
  · intro t ht
    simp only [List.mem_cons, List.not_mem_nil, or_false] at ht
    subst ht
    unfold DTime.Valid
    decide +kernel
  · intro l hl o ho
    simp only [List.mem_cons, List.not_mem_nil, or_false] at hl
    subst hl
    simp only [List.mem_cons, List.not_mem_nil, or_false] at ho
    subst ho
    exact ⟨_, _, _, rfl, by omega, by omega⟩
  · intro o ho
    simp only [List.mem_cons, List.not_mem_nil, or_false] at ho
    subst ho
    refine ⟨fun s hs => by cases hs; trivial, fun l hl => ?_, fun l hl => by cases hl⟩
    cases hl
    unfold DLink.Valid IsAscii
    decide +kernel
  · refine ⟨⟨_, _, _, rfl, by omega, by omega⟩, by decide +kernel, ?_⟩
    intro v hv
    simp only [List.mem_cons, List.not_mem_nil, or_false] at hv
    rcases hv with rfl | rfl <;> (unfold DAny.Valid; decide)

example := C66_attributes_read_back (exDAttrs oidIndirectData [1, 2]) (exDAttrs_valid _ _ ⟨_, _, _, rfl, by decide, by decide⟩) (by decide +kernel)

example : (∀ a ∈ exDAttrs oidIndirectData [1, 2], a.Valid) ∧ (attrsContents (exDAttrs oidIndirectData [1, 2])).length < maxLen :=
  ⟨exDAttrs_valid _ _ ⟨_, _, _, rfl, by omega, by omega⟩, by decide +kernel⟩

/-! ### C68 -/

/-- **C68**.  An Authenticode signature in DER, whatever follows it, is read as what it says: certificates, content, signer with its
signed attributes, countersigner or time stamp, and the nested signatures are those that were written. -/
theorem C68_signature_read_back (sd : DSD) (a : ASD) (h : SignatureSays certIdent sd a) (hv : sd.Valid)
    (hl : (contentInfo sd.encode).length < maxLen) (rest : Bytes) :
    fromEnvelope derCodec (contentInfo sd.encode ++ rest) = .ok a := fromEnvelope_says h hv hl rest

/-- A signature says one thing. -/
theorem C68_says_one_thing (sd : DSD) (a b : ASD) (ha : SignatureSays certIdent sd a) (hb : SignatureSays certIdent sd b)
    (hv : sd.Valid) (hl : (contentInfo sd.encode).length < maxLen) : a = b := by
  have h1 := C68_signature_read_back sd a ha hv hl []
  rw [C68_signature_read_back sd b hb hv hl []] at h1
  injection h1 with h1
  exact h1.symm

/-- Two signatures that say different things are encoded differently, even up to what follows them. -/
theorem C68_encoding_determines (sd sd' : DSD) (a a' : ASD) (ha : SignatureSays certIdent sd a) (ha' : SignatureSays certIdent sd' a')
    (hv : sd.Valid) (hv' : sd'.Valid) (hl : (contentInfo sd.encode).length < maxLen) (hl' : (contentInfo sd'.encode).length < maxLen)
    (rest rest' : Bytes) (h : contentInfo sd.encode ++ rest = contentInfo sd'.encode ++ rest') : a = a' := by
  have h1 := C68_signature_read_back sd a ha hv hl rest
  rw [h, C68_signature_read_back sd' a' ha' hv' hl' rest'] at h1
  injection h1 with h1
  exact h1.symm

/-- What is read from an encoded time-stamp token is what it says: it is read iff its version is 1, its digest algorithm is an
accepted one and its accuracy is within what a `datetime.timedelta` holds. -/
theorem C68_timestamp_exact (d : DTst) (t : Tst) (hv : d.Valid) (hl : d.encode.length < maxLen) (rest : Bytes) :
    (derTst true (d.encode ++ rest) >>= parseTst) = .ok t ↔ TstSays d t := by
  rw [derTst_ok hv hl rest]
  refine Iff.trans (show _ ↔ _ from parseTst_ok) ?_
  constructor
  · rintro ⟨k1, k2, k3, k4, k5, k6, k7, k8, k9, k10⟩
    refine ⟨?_, k6, digest_of_name k3.symm (by rw [k3]; exact k2.1), k4, k7, k5, ?_, fits_raw.1 k10, ?_⟩
    · by_cases h1 : d.version = 1
      · exact h1
      · simp only [if_neg h1] at k1
        exact Int.repr_injective ((String.append_right_inj "v").1 k1)
    · rw [k9]
      cases d.accuracy <;> rfl
    · cases ha : d.tsa with
      | none =>
        rcases k8 with ⟨-, k8⟩ | ⟨g, k8, -⟩
        · exact k8
        · simp only [ha, Option.map_none] at k8; cases k8
      | some n =>
        rcases k8 with ⟨k8, -⟩ | ⟨g, k8, -, k9⟩ <;> simp only [ha, Option.map_some] at k8
        · cases k8
        · cases k8; exact k9
  · rintro ⟨t1, t2, t3, t4, t5, t6, t7, t9, t8⟩
    obtain ⟨d1, d2, d3⟩ := isDigest_name t3
    refine ⟨by simp [t1], by simp [AcceptedAlg, d1, d2], d1.symm, t4, t6, t2, t5, ?_, ?_, fits_raw.2 t9⟩
    · cases ha : d.tsa with
      | none => exact .inl ⟨rfl, by rw [t8, ha]; rfl⟩
      | some n => exact .inr ⟨_, rfl, rfl, by rw [t8, ha]; rfl⟩
    · rw [t7]
      cases ha : d.accuracy <;> rfl

/-- The entry of a certificate table for a signature: revision 2.0, type PKCS #7. -/
def signatureEntry (signature : Bytes) : CertEntry := ⟨0x200, 2, signature⟩

theorem fits_signature {f : Bytes} {l : List (DSD × ASD × Bytes)}
    (hsz : f.length + (certTable (l.map (fun x => signatureEntry (contentInfo x.1.encode ++ x.2.2)))).length < 2 ^ 32) {x : DSD × ASD × Bytes}
    (hx : x ∈ l) : (contentInfo x.1.encode ++ x.2.2).length + 8 < 2 ^ 32 := by
  have hlen : ∀ n v, (leBytes n v).length = n := by
    intro n
    induction n with
    | zero => intro v; rfl
    | succ n ih => intro v; simp [leBytes, ih]
  have : (winCertificate (signatureEntry (contentInfo x.1.encode ++ x.2.2))).length ≤
      (certTable (l.map (fun x => signatureEntry (contentInfo x.1.encode ++ x.2.2)))).length := by
    unfold certTable
    obtain ⟨p, q, rfl⟩ := List.append_of_mem hx
    simp only [List.map_append, List.map_cons, List.flatMap_append, List.flatMap_cons, List.length_append]
    omega
  have h2 : (winCertificate (signatureEntry (contentInfo x.1.encode ++ x.2.2))).length ≥ 8 + (contentInfo x.1.encode ++ x.2.2).length := by
    simp only [winCertificate, signatureEntry, List.length_append, List.length_replicate, hlen]
    omega
  omega

theorem fits_entry {b : Bytes} (h : b ≠ []) (hl : b.length + 8 < 2 ^ 32) : Fits (signatureEntry b) :=
  ⟨h, hl, by show 0x200 < 2 ^ 16; decide, by show 2 < 2 ^ 16; decide⟩

/-- The signatures of a file whose table consists of signatures. -/
theorem iter_of_table {cd : Codec} {file : Bytes} {l : List (Bytes × ASD)} (hne : l ≠ [])
    (htab : parseCertTable file = (l.map (fun x => signatureEntry x.1), none)) (hread : ∀ x ∈ l, fromEnvelope cd x.1 = .ok x.2)
    (nested ignore : Bool) (all : List ASD) (hall : PreOrderAll (l.map Prod.snd) all) :
    iterSignedDatas cd file nested ignore = (if nested then all else l.map Prod.snd, none) := by
  have htops : TopLevel cd file (l.map Prod.snd) none := by
    refine ⟨l.map (fun x => signatureEntry x.1), [], by rw [htab]; simp, ?_, ?_, ?_⟩
    · intro c hc
      obtain ⟨x, hx, rfl⟩ := List.mem_map.1 hc
      exact ⟨rfl, fun _ => ⟨_, hread x hx⟩⟩
    · rw [List.filterMap_map]
      clear htab hne hall
      induction l with
      | nil => rfl
      | cons x l ih =>
        rw [List.map_cons, List.filterMap_cons]
        have : ((signatureIn cd ∘ fun x : Bytes × ASD => signatureEntry x.1) x) = some x.2 := by
          simp [signatureIn, signatureEntry, hread x (by simp), Except.toOption]
        rw [this, ih (fun y hy => hread y (by simp [hy]))]
    · rw [htab]
      exact .complete rfl (by simpa using hne)
  obtain ⟨tops, sds, err, h1, h2, h3⟩ := C15_iteration cd file
  obtain ⟨e1, e2⟩ := C15_unique cd file _ _ _ _ h1 htops
  subst e1
  have e3 : err = none := by cases err with
    | none => rfl
    | some e => cases e2
  subst e3
  rw [h3, C15_preorder_unique _ _ _ h2 hall]
  simp

/-- The signatures of a file that is signed: the entries of the table attached to it hold encoded signatures (with padding, or
whatever, after them).  Reading the signatures of the file gives what these say, and nothing else. -/
theorem C68_signed_file (f : Bytes) (oho ohs dir : Nat) (hh : Header f oho ohs dir) (hE : HasEntry f oho ohs dir)
    (hn : ∀ a s, ¬ HasTable f oho ohs dir a s) (checksum : Bytes) (hck : checksum.length = 4)
    (l : List (DSD × ASD × Bytes)) (hne : l ≠ []) (hsays : ∀ x ∈ l, SignatureSays certIdent x.1 x.2.1 ∧ x.1.Valid)
    (hsz : f.length + (certTable (l.map (fun x => signatureEntry (contentInfo x.1.encode ++ x.2.2)))).length < 2 ^ 32)
    (nested ignore : Bool) (all : List ASD) (hall : PreOrderAll (l.map (fun x => x.2.1)) all) :
    iterSignedDatas derCodec
        (attach f oho dir checksum (certTable (l.map (fun x => signatureEntry (contentInfo x.1.encode ++ x.2.2))))) nested ignore =
      (if nested then all else l.map (fun x => x.2.1), none) := by
  have hfit : ∀ x ∈ l, (contentInfo x.1.encode ++ x.2.2).length + 8 < 2 ^ 32 := fun x hx => fits_signature hsz hx
  have hread : ∀ x ∈ l, fromEnvelope derCodec (contentInfo x.1.encode ++ x.2.2) = .ok x.2.1 := by
    intro x hx
    have h1 := hfit x hx
    have h2 : (2 : Nat) ^ 32 ≤ maxLen := by decide +kernel
    rw [List.length_append] at h1
    exact C68_signature_read_back _ _ (hsays x hx).1 (hsays x hx).2 (by omega) _
  have hfits : ∀ e ∈ l.map (fun x => signatureEntry (contentInfo x.1.encode ++ x.2.2)), Fits e := by
    intro e he
    obtain ⟨x, hx, rfl⟩ := List.mem_map.1 he
    refine fits_entry ?_ (hfit x hx)
    intro h
    have := congrArg List.length h
    simp [contentInfo, derSeq, tlv] at this
  have hne' : l.map (fun x => signatureEntry (contentInfo x.1.encode ++ x.2.2)) ≠ [] := by simpa using hne
  have htab := C13_attach_round_trip f oho ohs dir hh hE hn checksum hck _ hne' hfits hsz
  have := iter_of_table (cd := derCodec) (l := l.map (fun x => (contentInfo x.1.encode ++ x.2.2, x.2.1)))
    (by simpa using hne) (by rw [htab, List.map_map]; rfl) (by
      intro y hy
      obtain ⟨x, hx, rfl⟩ := List.mem_map.1 hy
      exact hread x hx) nested ignore all (by rw [List.map_map]; exact hall)
  rw [this, List.map_map]
  rfl

/-! ### A signature with a countersignature and a nested signature with a time stamp -/

/-- SHA-256 -/
def exDSha256 : DAlg := ⟨[2, 16, 840, 1, 101, 3, 4, 2, 1], true⟩

/-- A signer with the given signed attributes. -/
def exDSigner (attrs : List DAttr) : DSigner where
  version := 1
  sid := .issuerSerial (exDName "CA") 0xF00000001
  digestAlg := exDSha256
  attrs := some attrs
  sigAlg := ⟨[1, 2, 840, 113549, 1, 1, 1], some ⟨5, []⟩⟩
  signature := [9, 9, 9]

/-- What it says. -/
def exDSignerSays (type : List Nat) (digest : Bytes) : Signer where
  issuer := (exDName "CA").value
  serial := 0xF00000001
  auth := attrDict ((exDAttrs type digest).map DAttr.raw)
  encodedAuth := tlv 0x31 (attrsContents (exDAttrs type digest))
  digestEncAlg := nameIn signatureNames [1, 2, 840, 113549, 1, 1, 1]
  encryptedDigest := [9, 9, 9]
  digestAlg := "sha256"
  messageDigest := some digest
  contentType := some (nameIn contentNames type)
  signingTime := some (DTime.micros ⟨2020, 2, 29, 12, 0, 0⟩)

theorem exDAttrs_once (type : List Nat) (digest : Bytes) : ((exDAttrs type digest).map DAttr.type).Nodup := by
  show ([[1, 2, 840, 113549, 1, 9, 3], [1, 2, 840, 113549, 1, 9, 4], [1, 2, 840, 113549, 1, 9, 5],
    [1, 3, 6, 1, 4, 1, 311, 2, 1, 11], [1, 3, 6, 1, 4, 1, 311, 2, 1, 12], [1, 2, 3, 4]] : List (List Nat)).Nodup
  decide

theorem exDSigner_says (type : List Nat) (digest : Bytes) (t : Option (List Nat)) (ht : ∀ u, t = some u → type = u) :
    SignerSays t (exDSigner (exDAttrs type digest)) (exDAttrs type digest) (exDSignerSays type digest) where
  attrs := rfl
  once := exDAttrs_once type digest
  sid := ⟨_, rfl, rfl⟩
  digestAlg := by show IsDigest [2, 16, 840, 1, 101, 3, 4, 2, 1] "sha256"; unfold IsDigest; decide
  digestEncAlg := rfl
  signature := rfl
  encoded := rfl
  auth := rfl
  messageDigest := ⟨_, by simp [exDAttrs], rfl⟩
  contentType := ⟨type, by simp [exDAttrs], rfl, ht⟩
  signingTime := .inl ⟨_, by simp [exDAttrs], rfl⟩

theorem exDSigner_valid (type : List Nat) (digest : Bytes) (ht : ValidOid type) : (exDSigner (exDAttrs type digest)).Valid := by
  refine ⟨exDName_valid _, ⟨_, _, _, rfl, by omega, by omega⟩, ⟨⟨_, _, _, rfl, by omega, by omega⟩, ?_⟩, ?_⟩
  · intro p hp
    cases hp
    unfold DAny.Valid
    decide
  · intro l hl
    cases hl
    exact exDAttrs_valid _ _ ht

/-- A time-stamp token. -/
def exDTst : DTst where
  version := 1
  policy := [1, 2, 3]
  hashAlg := exDSha256
  hashed := [4, 5]
  serial := 77
  time := ⟨2021, 1, 2, 3, 4, 5⟩
  fraction := [2, 5]
  accuracy := some ⟨some 1, none, some 500⟩
  ordering := true
  nonce := some 12345
  tsa := some (exDName "TSA")
  extensions := none

/-- What it says. -/
def exDTstSays : Tst where
  policy := "1.2.3"
  hashAlg := "sha256"
  messageDigest := [4, 5]
  serial := 77
  signingTime := DTime.micros ⟨2021, 1, 2, 3, 4, 5⟩ + 250000
  accuracy := 1000500
  authority := some (exDName "TSA").value

theorem exDTst_valid : exDTst.Valid := by
  refine ⟨⟨_, _, _, rfl, by omega, by omega⟩, ⟨_, _, _, rfl, by omega, by omega⟩, by unfold DTime.Valid; decide +kernel, by decide, by decide,
    ?_, fun l hl => by cases hl⟩
  intro n hn
  cases hn
  exact exDName_valid _

theorem exDTst_says : TstSays exDTst exDTstSays where
  version := rfl
  policy := by decide +kernel
  hashAlg := by show IsDigest [2, 16, 840, 1, 101, 3, 4, 2, 1] "sha256"; unfold IsDigest; decide
  digest := rfl
  serial := rfl
  time := by decide +kernel
  accuracy := by decide +kernel
  fits := by
    intro a ha
    cases ha
    unfold AccuracyFits Duration
    decide
  authority := rfl

example : exDTst.Valid ∧ exDTst.encode.length < maxLen ∧ TstSays exDTst exDTstSays := ⟨exDTst_valid, by decide +kernel, exDTst_says⟩

/-- A SignedData with the certificate. -/
def exDData (version : Int) (type : List Nat) (content : Bytes) : DData where
  version := version
  digestAlgs := [exDSha256]
  contentType := type
  content := some content
  certs := some [.cert exDCert, .other ⟨0xA1, [5, 0]⟩]
  crls := none

theorem exDData_valid (version : Int) (type : List Nat) (content : Bytes) (ht : ValidOid type) : (exDData version type content).Valid := by
  refine ⟨?_, ht, ?_, fun l hl => by cases hl⟩
  · intro a ha
    simp only [exDData, List.mem_cons, List.not_mem_nil, or_false] at ha
    subst ha
    exact ⟨_, _, _, rfl, by omega, by omega⟩
  · intro l hl c hc
    cases hl
    simp only [List.mem_cons, List.not_mem_nil, or_false] at hc
    rcases hc with rfl | rfl
    · exact exDCert_valid
    · unfold DCertChoice.Valid
      decide

/-- What it says. -/
def exDCore (version : Int) (type : List Nat) (content : Bytes) : SDCore where
  digestAlg := "sha256"
  contentType := nameIn contentNames type
  content := content
  certificates := [exDCert.cert certIdent]
  octets := decide (version ≠ 1)

theorem exDCore_says (version : Int) (type : List Nat) (content : Bytes) :
    CoreSays certIdent type (exDData version type content) (exDCore version type content) where
  alg := ⟨_, rfl, by show IsDigest [2, 16, 840, 1, 101, 3, 4, 2, 1] "sha256"; unfold IsDigest; decide⟩
  isType := rfl
  typeName := rfl
  content := rfl
  certificates := rfl
  octets := rfl

/-- The time stamp. -/
def exDStamp : DSD := .mk (exDData 3 oidTstInfo exDTst.encode) [.mk (exDSigner (exDAttrs oidTstInfo [4])) none]

/-- What it says. -/
def exDStampSays : Rfc3161 := ⟨exDCore 3 oidTstInfo exDTst.encode, exDTstSays, exDSignerSays oidTstInfo [4]⟩

/-- The attributes of a signature that all signatures here have. -/
def exDSays (version : Int) (content : Bytes) (counter : Option CounterSigner) : AuthData where
  core := exDCore version oidIndirectData content
  spc := exIndirectInfo
  signer := exDSignerSays oidIndirectData [1, 2]
  statementTypes := some ["microsoft_spc_individual_sp_key_purpose"]
  programName := some "Prögram"
  moreInfo := some (.text "http://example.com")
  publisherInfo := none
  counter := counter

/-- The nested signature. -/
def exDInner : DSD := .mk (exDData 3 oidIndirectData exIndirect.encode)
  [.mk (exDSigner (exDAttrs oidIndirectData [1, 2])) (some [.timestamp [exDStamp]])]

/-- What it says. -/
def exDInnerSays : ASD := .mk (exDSays 3 exIndirect.encode (some (.rfc3161 exDStampSays))) []

/-- The signature. -/
def exDOuter : DSD := .mk (exDData 1 oidIndirectData exIndirect.contents)
  [.mk (exDSigner (exDAttrs oidIndirectData [1, 2])) (some [.other [1, 2, 3, 4] [⟨4, [1]⟩], .nested [exDInner],
    .counter [.mk (exDSigner (exDAttrs [1, 2, 840, 113549, 1, 7, 1] [3])) (some [.other [1, 2] []])]])]

/-- What it says. -/
def exDOuterSays : ASD :=
  .mk (exDSays 1 exIndirect.contents (some (.pkcs9 (.mk (exDSignerSays [1, 2, 840, 113549, 1, 7, 1] [3]) none)))) [exDInnerSays]

theorem exStatement : OptAttr (exDAttrs oidIndirectData [1, 2]) .statementType (fun l => l.map (nameIn statementNames))
    (some ["microsoft_spc_individual_sp_key_purpose"]) :=
  .inl ⟨[[1, 3, 6, 1, 4, 1, 311, 2, 1, 21]], by simp [exDAttrs], by decide +kernel⟩

theorem exDInner_says : SignatureSays certIdent exDInner exDInnerSays := by
  refine .mk (x := exIndirect) (l := exDAttrs oidIndirectData [1, 2]) (sds := []) (exDCore_says _ _ _) rfl exIndirect_valid rfl
    exIndirect_says (exDSigner_says _ _ _ (fun u hu => by cases hu; rfl)) exStatement ?_ ?_ ?_ (.inr ⟨?_, rfl⟩) rfl ?_
  · exact .inl ⟨_, by simp [exDAttrs]; rfl, rfl, rfl, rfl⟩
  · simp [OnceU, DSI.unsigned]
  · refine .rfc3161 (d := exDData 3 oidTstInfo exDTst.encode) (si := .mk (exDSigner (exDAttrs oidTstInfo [4])) none) (t := exDTst) ?_ ?_ ?_
    · simp [DSI.unsigned]
    · simp [DSI.unsigned, exDStamp]
    · exact ⟨exDCore_says _ _ _, by decide, rfl, exDTst_valid, exDTst_says, ⟨_, exDSigner_says _ _ _ (fun u hu => by cases hu; rfl)⟩, by simp [DSI.unsigned]⟩
  · simp [DSI.unsigned]
  · intro i x y h
    simp at h

theorem exDOuter_says : SignatureSays certIdent exDOuter exDOuterSays := by
  refine .mk (x := exIndirect) (l := exDAttrs oidIndirectData [1, 2]) (sds := [exDInner]) (exDCore_says _ _ _) rfl exIndirect_valid rfl
    exIndirect_says (exDSigner_says _ _ _ (fun u hu => by cases hu; rfl)) exStatement ?_ ?_ ?_ (.inl ?_) rfl ?_
  · exact .inl ⟨_, by simp [exDAttrs]; rfl, rfl, rfl, rfl⟩
  · simp [OnceU, DSI.unsigned, DUAttr.type]
  · refine .pkcs9 (si := .mk (exDSigner (exDAttrs [1, 2, 840, 113549, 1, 7, 1] [3])) (some [.other [1, 2] []])) ?_ ?_ ?_
    · simp [DSI.unsigned]
    · simp [DSI.unsigned]
    · refine .last (exDSigner_says _ _ _ (fun u hu => by cases hu)) ?_ ?_ ?_
      · simp [exDSignerSays]
      · simp [OnceU, DSI.unsigned]
      · simp [DSI.unsigned]
  · simp [DSI.unsigned]
  · intro i x y hx hy
    match i, hx, hy with
    | 0, hx, hy => cases hx; cases hy; exact exDInner_says

theorem exDOuter_valid : exDOuter.Valid := by
  simp only [exDOuter, exDInner, exDStamp, DSD.Valid, DSI.Valid, validSIs, validUAttrs, DUAttr.Valid, validSDs, and_true]
  refine ⟨exDData_valid _ _ _ ⟨_, _, _, rfl, by omega, by omega⟩, exDSigner_valid _ _ ⟨_, _, _, rfl, by omega, by omega⟩,
    ⟨⟨_, _, _, rfl, by omega, by omega⟩, by decide +kernel, ?_⟩,
    ⟨exDData_valid _ _ _ ⟨_, _, _, rfl, by omega, by omega⟩, exDSigner_valid _ _ ⟨_, _, _, rfl, by omega, by omega⟩,
      exDData_valid _ _ _ ⟨_, _, _, rfl, by omega, by omega⟩, exDSigner_valid _ _ ⟨_, _, _, rfl, by omega, by omega⟩⟩,
    exDSigner_valid _ _ ⟨_, _, _, rfl, by omega, by omega⟩, ⟨_, _, _, rfl, by omega, by omega⟩, by decide +kernel, by simp⟩
  intro v hv
  simp only [List.mem_cons, List.not_mem_nil, or_false] at hv
  subst hv
  unfold DAny.Valid
  decide

theorem exDOuter_len : (contentInfo exDOuter.encode).length < 2 ^ 31 := by decide +kernel

/-- The hypotheses of `C68_signature_read_back` are met by this signature. -/
example : SignatureSays certIdent exDOuter exDOuterSays ∧ exDOuter.Valid ∧ (contentInfo exDOuter.encode).length < maxLen :=
  ⟨exDOuter_says, exDOuter_valid, Nat.lt_of_lt_of_le exDOuter_len (by decide +kernel)⟩

/-- And those of `C68_signed_file` by a file with this signature and the nested one (padded) attached. -/
example : ∃ (l : List (DSD × ASD × Bytes)), l ≠ [] ∧ (∀ x ∈ l, SignatureSays certIdent x.1 x.2.1 ∧ x.1.Valid) ∧
    (exPE 16 [0, 0, 0, 0, 0, 0, 0, 0] [7, 7, 7]).length +
      (certTable (l.map (fun x => signatureEntry (contentInfo x.1.encode ++ x.2.2)))).length < 2 ^ 32 ∧
    Header (exPE 16 [0, 0, 0, 0, 0, 0, 0, 0] [7, 7, 7]) 88 136 216 ∧ HasEntry (exPE 16 [0, 0, 0, 0, 0, 0, 0, 0] [7, 7, 7]) 88 136 216 ∧
    ∀ a s, ¬ HasTable (exPE 16 [0, 0, 0, 0, 0, 0, 0, 0] [7, 7, 7]) 88 136 216 a s := by
  refine ⟨[(exDOuter, exDOuterSays, []), (exDInner, exDInnerSays, [0, 0, 0])], by simp, ?_, ?_, by decide +kernel, by decide +kernel, ?_⟩
  · intro x hx
    have := exDOuter_valid
    simp only [exDOuter, DSD.Valid, DSI.Valid, validSIs, validUAttrs, DUAttr.Valid, validSDs, and_true] at this
    simp only [List.mem_cons, List.not_mem_nil, or_false] at hx
    rcases hx with rfl | rfl
    · exact ⟨exDOuter_says, exDOuter_valid⟩
    · exact ⟨exDInner_says, this.2.2.2.1⟩
  · decide +kernel
  · rintro a s ⟨_, _, h, h', _⟩
    exact h' (h.trans (by decide +kernel))

example := C68_says_one_thing exDOuter exDOuterSays exDOuterSays exDOuter_says exDOuter_says exDOuter_valid
  (Nat.lt_trans exDOuter_len (by decide))

example := C68_encoding_determines exDOuter exDOuter exDOuterSays exDOuterSays exDOuter_says exDOuter_says exDOuter_valid exDOuter_valid
  (Nat.lt_trans exDOuter_len (by decide)) (Nat.lt_trans exDOuter_len (by decide)) [0] [0] rfl

example := C68_timestamp_exact exDTst exDTstSays exDTst_valid (by decide +kernel) []

end Signify.Props
