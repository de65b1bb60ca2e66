/-
Further instances: cases that meet the hypotheses of theorems whose own files have none, or state them only in words.
-/
import Verif.Props.FileTime
import Verif.Props.Names
import Verif.Props.Text
import Verif.Props.DerFrom
import Verif.Props.Pem
import Verif.Props.Indefinite
import Verif.Props.Value
import Verif.Props.Essence
import Verif.Props.Handle
import Verif.Props.Growing
import Verif.Props.Stale
import Verif.Props.Supplied
import Verif.Props.Resign
import Verif.Props.Extensions
import Verif.Props.OneShotFile
import Verif.Props.Moments
import Verif.Props.Strikes
import Verif.Props.Defects
import Verif.Props.Memory
import Verif.Props.Listing
import Verif.Props.Files
import Verif.Props.Info
import Verif.Props.Unnamed
import Verif.Props.Threads
import Verif.Props.Cli

set_option autoImplicit false

namespace Signify.Props

open Signify Spec Asn1 Pem

/-! ### C33, C34: calls before, with a context and without -/

example := C33_memory (exVEnv (fun _ _ => true)) [⟨none, exAuth exCerts none, exArgs⟩, ⟨none, exAuth exCerts none, { exArgs with context := some 0 }⟩] exWorld
  (fun c hc => by
    simp only [List.mem_cons, List.not_mem_nil, or_false] at hc
    rcases hc with rfl | rfl
    · exact exArgs_contexts _
    · exact ⟨fun i h => (by cases h; decide), fun i h => (by cases h)⟩)
example := C34_law (exVEnv (fun _ _ => true)) [⟨none, exAuth exCerts none, exArgs⟩] none (exAuth exCerts none) exArgs exWorld
  (fun c hc => by rw [List.mem_singleton.1 hc]; exact exArgs_contexts _) rfl rfl

/-! ### C45, C48, C58 -/

example := C45_single_valued_partial exName exName exName_wellTyped exName_wellTyped (by intro r hr; revert r; decide) (by intro r hr; revert r; decide)

/-- A day after the epoch. -/
example := C48_round_trip_false 86400 (by decide) (by decide)

/-- Names with all kinds of special characters, but no space at the beginning of a value. -/
def exEscaped : Name := ⟨[⟨⟨"2.5.4.10", "organization_name", "A, \"Inc\". "⟩, []⟩, ⟨⟨"2.5.4.11", "organizational_unit_name", "#1\\2;+<>"⟩, []⟩]⟩

example : ∃ s, exEscaped.dn = .ok s ∧
    s.toList = [',', ' '].intercalate ([("OU", "#1\\2;+<>"), ("O", "A, \"Inc\". ")].map (fun p => p.1.toList ++ '=' :: rfc2253 p.2)) := by
  obtain ⟨s, hs⟩ : ∃ s, exEscaped.dn = .ok s := ⟨_, rfl⟩
  refine ⟨s, hs, C58_escaping_partial exEscaped s _ hs (by unfold Reading; decide +kernel) ?_⟩
  intro p hp
  simp only [List.mem_cons, List.not_mem_nil, or_false] at hp
  rcases hp with rfl | rfl
  · rintro ⟨c, l, h⟩; exact absurd (show _ = some (Char.ofNat 32) from congrArg List.head? h) (by decide +kernel)
  · rintro ⟨c, l, h⟩; exact absurd (show _ = some (Char.ofNat 32) from congrArg List.head? h) (by decide +kernel)

/-! ### C66, C69, C70, C73, C77: octets -/

/-- An octet that is not UTF-8. -/
example := C66_text_error ⟨0, false, 12, [12, 1], [0xE9], []⟩ (fun s h => by
  have := (C66_text ⟨0, false, 12, [12, 1], [0xE9], []⟩ s).2 h
  cases this)
example := C66_text_unique 20 [0xE9] [0xE9] "é" (.latin1 "é" (by decide)) (.latin1 "é" (by decide))

/-- A value with something after it. -/
example := C70_first_value [0x30, 0, 9] [9] ⟨0, true, 16, [0x30, 0], [], []⟩ (by decide +kernel) [1]

/-- A certificate that is not in PEM. -/
example := C73_nothing exDCert.encode (by decide +kernel)

/-- Two lines without a block. -/
example := C73_no_block ([65, 66] ++ [0x0A] ++ [67]) [[65, 66], [67]]
  (.line (by unfold OneLine; decide) (.inl rfl) (.last (by decide) (by unfold OneLine; decide))) (by
    intro l hl
    rw [← isBegin_iff]
    revert l
    decide +kernel)

/-- Of indefinite length, and of definite length. -/
example := C77_forms [0x30, 0x80, 5, 0, 0, 0, 9] [9] ⟨0, true, 16, [0x30, 0x80], [5, 0], [0, 0]⟩ (by decide +kernel)
example := C77_read_back 3 201 true [7, 8] [9] (by decide) (by decide)
example := C77_truncated [0x30, 0x80, 5, 0, 0] [0] ⟨0, true, 16, [0x30, 0x80], [5, 0], [0, 0]⟩ (by decide +kernel) (by decide)

/-! ### C81, C91: structures -/

example := C81_other_certificate (exDData 1 oidIndirectData exIndirect.contents) [.mk (exDSigner (exDAttrs oidIndirectData [1, 2])) none]
  [.cert exDCert] [.other ⟨0xA1, [5, 0]⟩] ⟨0xA2, [5, 0]⟩ rfl
example := C81_version (exDData 5 oidIndirectData exIndirect.contents) (exDSigner (exDAttrs oidIndirectData [1, 2])) none 7 (by decide) 3 (by decide)

example : ∃ c a, certObject exExtLib exExtCert.encode = .ok (c, a) ∧ a.extensions.get? "extended_key_usage" = c.eku.map .usages := by
  obtain ⟨d, h, -⟩ := C91_certificate exExtLib exExtCert exExtCert_valid (by decide +kernel) exExtCert_says []
  rw [List.append_nil] at h
  exact ⟨_, _, h, C91_usages exExtLib _ _ _ h⟩

/-! ### C84 to C87: stores and files -/

example := C84_add_store_chains (env := exEnv) (cid := 0) (w := { exWorld with ctxs := fun _ => exCtx [.heap 0] }) (.heap 1) (by decide +kernel)
  (by
    intro r hr
    simp only [exCtx, List.mem_cons, List.not_mem_nil, or_false] at hr
    subst hr
    simp [LoadedStore, exWorld, exStoreT])
  (by simp [LoadedStore, exWorld, exStoreU]) 10 exInter

/-- The file object is somewhere in the file. -/
example := C85_hashes (fun _ x => x.take 2) 100 (FP.new [1, 2, 3, 4] 2) ⟨[1, 2, 3, 4], 3⟩ rfl
example := C85_add_authenticode_hashers (FP.new exSigned 10) ["sha1"] ⟨exSigned, 17⟩ rfl

/-- The file is written to while two iterations go on; its first bytes remain. -/
example := C86_iterations exPECodec ⟨exBrokenOff, 17⟩ exBrokenOff.length (Nat.le_refl _) (fun i => (true, i == 0))
  [.next 0, .write (exBrokenOff ++ [1]), .next 1] (fun b hb => by
    have : b = exBrokenOff ++ [1] := by simpa using hb
    subst this
    exact ⟨by simp, by simp⟩) 1

example := C87_signature exPEEnv none (some exSigned) (exAuth exCerts none) { exArgs with expectedHash := some [1] } (by decide)

/-! ### C24, C93, C95, C100, C101 -/

example := C93_state exPEEnv exPECodec [⟨exTwice 1 2 [7, 7, 7], exPEArgs "any"⟩, ⟨exTwice 3 2 [7, 7, 7], exPEArgs "all"⟩] exWorld
  (fun f hf => by
    simp only [List.mem_cons, List.not_mem_nil, or_false] at hf
    rcases hf with rfl | rfl <;> exact exPEArgs_contexts _ _)
example := C93_memory exPEEnv exPECodec [⟨exTwice 1 2 [7, 7, 7], exPEArgs "any"⟩, ⟨exTwice 3 2 [7, 7, 7], exPEArgs "all"⟩] exWorld
  (fun f hf => by
    simp only [List.mem_cons, List.not_mem_nil, or_false] at hf
    rcases hf with rfl | rfl <;> exact exPEArgs_contexts _ _)

example := C95_once_each exUsagePEEnv none (exAuth exCerts none) exArgs 0 ["digital_signature"]
  { exWorld with ctxs := fun _ => { exCtx [] with keyUsages := .gen ["digital_signature"] } } rfl

example := C100_still exPEEnv exPECodec (exTwice 1 2 [7, 7, 7]) (exPEArgs "any") exWorld (exPEArgs_contexts _ _)

example := C101_listed exPECodec exStrikes exStrikes_own (exTwice 1 2 [7, 7, 7]) true true
example := C101_explain exPEEnv exPECodec exStrikes exStrikes_own (exTwice 1 2 [7, 7, 7]) (exPEArgs "any") exWorld

/-- The structures concerned do not occur in the file, which verifies. -/
example : ∃ res w', peVerify exPEEnv exPECodec (exTwice 1 1 [7, 7, 7]) (exPEArgs "all") exWorld = (.ok res, w') := by
  have h : (exOutcome (peVerifyS exPEEnv exPECodec exStrikes (exTwice 1 1 [7, 7, 7]) (exPEArgs "all") exWorld).1).isOk = true := by decide +kernel
  cases hp : peVerifyS exPEEnv exPECodec exStrikes (exTwice 1 1 [7, 7, 7]) (exPEArgs "all") exWorld with
  | mk r w' =>
    rw [hp] at h
    cases r with
    | error e => cases h
    | ok res => exact ⟨res, w', C101_success exPEEnv exPECodec exStrikes exStrikes_own _ _ _ _ res hp⟩

/-! ### C76, C83, C96 -/

/-- What is printed for two files, and for one that does not exist: there is such a text, and no other. -/
example : ∃ out e, ∀ out' e', PrintedAll (fun _ x => x.take 2)
    [("a.txt", .ok [104, 105, 33]), ("b.exe", .ok exSigned), ("c", .error ⟨.exception, "No such file"⟩)] out' e' → out' = out ∧ e' = e := by
  obtain ⟨_, out, e, h, -⟩ := C76_printed (fun _ x => x.take 2)
    [("a.txt", .ok [104, 105, 33]), ("b.exe", .ok exSigned), ("c", .error ⟨.exception, "No such file"⟩)]
  exact ⟨out, e, fun out' e' h' => C76_unique _ _ _ _ _ _ h' h⟩

/-- Another algorithm is named by the signer. -/
example := C83_verified exPEEnv none (exAuth exCerts none)
  { exAuth exCerts none with signer := { (exAuth exCerts none).signer with digestEncAlg := "dsa" } } rfl exArgs

example := C96_twice_false ([exRoot, exInter], none) rfl true

/-- A file with a signature, and with one more: the hypotheses of C60 in each of the modes. -/
example : ∃ f g : Bytes, ∃ res, f ≠ g ∧
    peVerify exPEEnv exPECodec f (exPEArgs "first") exWorld = peVerify exPEEnv exPECodec g (exPEArgs "first") exWorld ∧
    peVerify exPEEnv exPECodec f (exPEArgs "best") exWorld = peVerify exPEEnv exPECodec g (exPEArgs "best") exWorld ∧
    ((∃ r, (peVerify exPEEnv exPECodec g (exPEArgs "all") exWorld).1 = .ok r) → ∃ r, (peVerify exPEEnv exPECodec f (exPEArgs "all") exWorld).1 = .ok r) ∧
    (peVerify exPEEnv exPECodec f (exPEArgs "any") exWorld).1 = .ok res ∧ (peVerify exPEEnv exPECodec g (exPEArgs "any") exWorld).1 = .ok res := by
  obtain ⟨sds, sds', hl, hl', hne, hne', hp, hi, hf, hg, hv⟩ := exResign
  have hr : ∃ res, (peVerify exPEEnv exPECodec (attach (exPE 16 [0, 0, 0, 0, 0, 0, 0, 0] [7, 7, 7]) 88 216 [1, 2, 3, 4]
      (certTable [⟨0x200, 2, List.replicate 8 1⟩])) (exPEArgs "any") exWorld).1 = .ok res := by
    revert hv
    cases (peVerify exPEEnv exPECodec (attach (exPE 16 [0, 0, 0, 0, 0, 0, 0, 0] [7, 7, 7]) 88 216 [1, 2, 3, 4]
      (certTable [⟨0x200, 2, List.replicate 8 1⟩])) (exPEArgs "any") exWorld).1 with
    | ok r => exact fun _ => ⟨r, rfl⟩
    | error e => intro h; cases h
  obtain ⟨res, hr⟩ := hr
  obtain ⟨dicts, h⟩ := C60_any exPEEnv exPECodec _ _ (exPEArgs "any") exWorld hi rfl sds sds' hne hf hg res hr
  refine ⟨_, _, res, ?_, ?_, ?_, ?_, hr, congrArg Prod.fst h⟩
  rotate_left
  · cases sds with
    | nil => exact absurd rfl hne
    | cons a l => exact C60_first exPEEnv exPECodec _ _ (exPEArgs "first") exWorld hi rfl a l (l ++ sds') hf hg
  · cases sds with
    | nil => exact absurd rfl hne
    | cons a l =>
      refine C60_best exPEEnv exPECodec _ _ (exPEArgs "best") exWorld hi rfl [] (a :: l) sds' a (by simp) (fun b hb => ?_) hf hg
      have h1 := List.mem_map_of_mem (f := exLabel) hb
      rw [List.nil_append, hl', List.mem_singleton] at h1
      have h1 : b.d.core.digestAlg = "sha1" := congrArg Prod.fst h1
      have h2 : a.d.core.digestAlg = "sha256" := congrArg Prod.fst (List.cons.inj hl).1
      rw [h1, h2]
      decide
  · rintro ⟨r, hr⟩
    obtain ⟨r₁, r₂, -, h, -⟩ := (C60_all exPEEnv exPECodec _ _ (exPEArgs "all") exWorld hi ⟨rfl, rfl, fun i certs e hi he => (by cases hi; cases he),
      exPEArgs_names _⟩ rfl sds sds' hne hf hg r).1 hr
    exact ⟨r₁, h⟩
  · decide +kernel

example : ∃ e, fromEnvelope derCodec (exLWitness .keyError) = .error e := by
  obtain ⟨sd, h1, h2⟩ := exDefect
  exact C24_defects_refused _ sd h1 h2

/-- Digests supplied by the caller: the two files differ in what is hashed. -/
example : peVerify exPEEnv exPECodec (exSuppliedFor [7, 7, 7]) { exPEArgs "all" with expectedHashes := some 0 } (exDicts [("sha256", [215, 203])]) =
    peVerify exPEEnv exPECodec (exSuppliedFor [8, 8, 8]) { exPEArgs "all" with expectedHashes := some 0 } (exDicts [("sha256", [215, 203])]) := by
  obtain ⟨sds, hne, hf, hg, hd, -⟩ := exSupplied
  refine C87_outcome exPEEnv exPECodec _ _ _ _ sds hf hg (fun a ha => ?_)
  obtain ⟨d, h⟩ := hd a ha
  exact ⟨d, .inl h, .inl h⟩

/-- The printed form says nothing about the dates. -/
example := C90_printed_form exSha1 (fun b => by simp [exSha1]) exInter { exInter with validTo := 7 } _ rfl rfl

example := C94_not_opened exPrinting exPEEnv exPECodec (.heap 0) [("a.exe", .ok (exTwice 3 2 [7, 7, 7]))] [] "b.exe" ⟨.foreign, "no such file"⟩
  exUnread exReport.1 (fun f hf => by rw [List.mem_singleton.1 hf]; exact ⟨_, rfl⟩)

/-- The file verifies, and so one of its two signatures does. -/
example : ∃ a b, Considered exPECodec (exTwice 3 2 [7, 7, 7]) true [a, b] ∧
    ∃ x ∈ [a, b], ∃ chains, (asdVerify exPEEnv (some (exTwice 3 2 [7, 7, 7])) x.d { trusted := .heap 0 } exUnread).1 = .ok chains := by
  obtain ⟨h, -, a, b, hc⟩ := exReport
  refine ⟨a, b, hc, (C94_consistent exPEEnv exPECodec (.heap 0) _ exUnread _ h hc).1.1 ?_⟩
  have hv : (peVerify exPEEnv exPECodec (exTwice 3 2 [7, 7, 7]) { kwargs := { trusted := .heap 0 } } exUnread).1.toOption.isSome = true := by
    decide +kernel
  revert hv
  cases (peVerify exPEEnv exPECodec (exTwice 3 2 [7, 7, 7]) { kwargs := { trusted := .heap 0 } } exUnread).1 with
  | ok r => exact fun _ => ⟨r, rfl⟩
  | error e => intro h; cases h

/-- The same from `C87_supplied`: the mode selects all signatures, and a digest is supplied for each. -/
example : peVerify exPEEnv exPECodec (exSuppliedFor [7, 7, 7]) { exPEArgs "all" with expectedHashes := some 0 } (exDicts [("sha256", [215, 203])]) =
    peVerify exPEEnv exPECodec (exSuppliedFor [8, 8, 8]) { exPEArgs "all" with expectedHashes := some 0 } (exDicts [("sha256", [215, 203])]) := by
  obtain ⟨sds, hne, hf, hg, hd, -⟩ := exSupplied
  exact C87_supplied exPEEnv exPECodec _ _ { exPEArgs "all" with expectedHashes := some 0 } _ sds sds hne hf hg
    (.all (by decide) (by decide)) hd

/-- Lists of certificates in one order. -/
example := C90_order_unique [exInter, exLeaf, exRoot] [exInter, exLeaf, exRoot] (by decide) (by decide) (fun _ => rfl)

example : (∃ r, (peVerify exPEEnv exPECodec (attach (exPE 16 [0, 0, 0, 0, 0, 0, 0, 0] [7, 7, 7]) 88 216 [5, 6, 7, 8]
      (certTable [⟨0x200, 2, List.replicate 8 1⟩, ⟨0x200, 2, List.replicate 8 2⟩])) (exPEArgs "all") exWorld).1 = .ok r) →
    ∃ r, (peVerify exPEEnv exPECodec (attach (exPE 16 [0, 0, 0, 0, 0, 0, 0, 0] [7, 7, 7]) 88 216 [1, 2, 3, 4]
      (certTable [⟨0x200, 2, List.replicate 8 1⟩])) (exPEArgs "all") exWorld).1 = .ok r := by
  obtain ⟨sds, sds', -, -, hne, -, -, hi, hf, hg, -⟩ := exResign
  rintro ⟨r, hr⟩
  have h := C60_all_present exPEEnv exPECodec _ _ (exPEArgs "all") exWorld hi rfl sds sds' hne hf hg
  cases hx : (peVerify exPEEnv exPECodec (attach (exPE 16 [0, 0, 0, 0, 0, 0, 0, 0] [7, 7, 7]) 88 216 [1, 2, 3, 4]
      (certTable [⟨0x200, 2, List.replicate 8 1⟩])) (exPEArgs "all") exWorld).1 with
  | ok r => exact ⟨r, rfl⟩
  | error e =>
    obtain ⟨dicts, k⟩ := h.1 e hx
    have k := (congrArg Prod.fst k).symm.trans hr
    cases k

end Signify.Props
