/-
C94: the report on files printed by `examples/authenticode_info.py`.
-/
import Verif.Proofs.Info
import Verif.Props.PEFile
import Verif.Props.Modes

set_option autoImplicit false

namespace Signify.Props

open Signify.Spec

/-- What is printed about files that can be opened: what there is to say about each of them, its verdicts being those of verifying it
and its signatures in the state at the beginning.  No exception is raised. -/
theorem C94_files (p : Printing) (env : Env) (cd : Codec) (trusted : StoreRef) (files : List (String × Except Exc Bytes)) (w : World)
    (hr : CanRead w trusted) (ho : ∀ f ∈ files, ∃ b, f.2 = .ok b) :
    ∃ lines, infoMain p env cd trusted files w = (lines, none) ∧ FilesText p env cd trusted w files lines := by
  have key : ∀ u, SameStore u w trusted →
      ∃ lines, infoMain p env cd trusted files u = (lines, none) ∧ FilesText p env cd trusted w files lines := by
    induction files with
    | nil => exact fun u _ => ⟨[], rfl, .nil⟩
    | cons f l ih =>
      intro u hu
      obtain ⟨name, b⟩ := f
      obtain ⟨b, rfl⟩ := ho (name, b) (by simp)
      obtain ⟨lines, u', h1, h2, h3⟩ := infoFile_text p env cd trusted b u w hu
      obtain ⟨rest, h4, h5⟩ := ih (fun f hf => ho f (by simp [hf])) u' h3
      refine ⟨_, ?_, .cons name b l lines rest h2 h5⟩
      simp only [infoMain, h1, h4]
  exact key w (fun i hi => ⟨rfl, fun certs e => hr i certs e hi, fun certs e => hr i certs e hi⟩)

/-- If a file cannot be opened, the files before it are reported on, its name is printed, and the exception is raised. -/
theorem C94_not_opened (p : Printing) (env : Env) (cd : Codec) (trusted : StoreRef) (files rest : List (String × Except Exc Bytes))
    (name : String) (e : Exc) (w : World) (hr : CanRead w trusted) (ho : ∀ f ∈ files, ∃ b, f.2 = .ok b) :
    ∃ lines, infoMain p env cd trusted (files ++ (name, .error e) :: rest) w = (lines ++ [name ++ ":"], some e) ∧
      FilesText p env cd trusted w files lines := by
  have key : ∀ u, SameStore u w trusted →
      ∃ lines, infoMain p env cd trusted (files ++ (name, .error e) :: rest) u = (lines ++ [name ++ ":"], some e) ∧
        FilesText p env cd trusted w files lines := by
    induction files with
    | nil => exact fun u _ => ⟨[], rfl, .nil⟩
    | cons f l ih =>
      intro u hu
      obtain ⟨n, b⟩ := f
      obtain ⟨b, rfl⟩ := ho (n, b) (by simp)
      obtain ⟨lines, u', h1, h2, h3⟩ := infoFile_text p env cd trusted b u w hu
      obtain ⟨more, h4, h5⟩ := ih (fun f hf => ho f (by simp [hf])) u' h3
      refine ⟨_, ?_, .cons n b l lines more h2 h5⟩
      simp only [List.cons_append, infoMain, h1, h4, List.append_assoc]
  exact key w (fun i hi => ⟨rfl, fun certs e => hr i certs e hi, fun certs e => hr i certs e hi⟩)

/-- How the verdicts of a report go together.  The file is OK iff one of its signatures is; else its verdict is that of the last
signature, or that it is not signed. -/
theorem C94_consistent (env : Env) (cd : Codec) (trusted : StoreRef) (file : Bytes) (w : World) (sds : List ASD)
    (hr : CanRead w trusted) (h : Considered cd file true sds) :
    ((∃ res, (peVerify env cd file { kwargs := { trusted := trusted } } w).1 = .ok res) ↔
      ∃ a ∈ sds, ∃ chains, (asdVerify env (some file) a.d { trusted := trusted } w).1 = .ok chains) ∧
    ∀ e, (peVerify env cd file { kwargs := { trusted := trusted } } w).1 = .error e →
      (sds = [] ∧ e.cls = .authenticodeNotSigned) ∨
      ∃ pre a, sds = pre ++ [a] ∧ (asdVerify env (some file) a.d { trusted := trusted } w).1 = .error e := by
  by_cases hne : sds = []
  · subst hne
    rw [peVerify_unsigned (args := { kwargs := { trusted := trusted } }) h]
    constructor
    · constructor
      · rintro ⟨_, h⟩; cases h
      · rintro ⟨a, ha, _⟩; cases ha
    · intro e he; cases he; exact .inl ⟨rfl, rfl⟩
  · obtain ⟨oho, ohs, dir, hh⟩ := header_of_considered h hne
    have hd : ∀ a r, Alone env file [] { trusted := trusted } w a r ↔ (asdVerify env (some file) a.d { trusted := trusted } w).1 = r := by
      intro a r
      have h0 := digestFor_of_header (env := env) (file := file) (provided := []) (alg := a.d.core.digestAlg) hh rfl
      have h1 : (asdVerify env (some file) a.d { trusted := trusted } w).1 = (asdVerify env (some file) a.d
          { trusted := trusted, expectedHash := some (env.hash a.d.core.digestAlg (deleteSections file (omitted file oho ohs dir))) } w).1 := by
        have hc : checkDigests env (some file) a.d none =
            checkDigests env (some file) a.d (some (env.hash a.d.core.digestAlg (deleteSections file (omitted file oho ohs dir)))) := by
          unfold checkDigests
          rw [computeExpected_header env file _ hh]
        unfold asdVerify
        simp only
        rw [hc]
        rfl
      rw [h1]
      constructor
      · intro h2; exact alone_unique ⟨_, h0, rfl⟩ h2
      · intro h2; exact ⟨_, h0, h2⟩
    have hf := C16_historyFree env file [] { trusted := trusted } w rfl rfl (fun i certs e => hr i certs e)
    obtain ⟨k1, k2⟩ := C16_any env cd file { kwargs := { trusted := trusted } } w sds rfl h hne (fun _ _ h => by cases h) hf
    constructor
    · constructor
      · rintro ⟨res, hres⟩
        obtain ⟨pre, a, post, c, e1, -, e2, -⟩ := (k1 res).1 hres
        exact ⟨a, by simp [e1], c, (hd a _).1 e2⟩
      · rintro ⟨a, ha, c, hc⟩
        cases hv : (peVerify env cd file { kwargs := { trusted := trusted } } w).1 with
        | ok res => exact ⟨res, rfl⟩
        | error e =>
          obtain ⟨pre, b, e1, e2, e3⟩ := (k2 e).1 hv
          subst e1
          have hcon : ∃ e', Alone env file [] { trusted := trusted } w a (.error e') := by
            rcases List.mem_append.1 ha with h | h
            · exact e2 a h
            · cases List.mem_singleton.1 h; exact ⟨e, e3⟩
          obtain ⟨e', he'⟩ := hcon
          rw [hd, hc] at he'
          cases he'
    · intro e he
      obtain ⟨pre, a, e1, -, e3⟩ := (k2 e).1 he
      exact .inr ⟨pre, a, e1, (hd a _).1 e3⟩

/-- Times, links and exceptions for the example. -/
def exPrinting : Printing := ⟨fun t => toString t, fun _ => "a link", Exc.msg⟩

/-- A file with a bad and a good signature, and one that cannot be opened. -/
def exFiles : List (String × Except Exc Bytes) := [("a.exe", .ok (exTwice 3 2 [7, 7, 7])), ("b.exe", .error ⟨.foreign, "no such file"⟩)]

/-- The hypotheses are met. -/
theorem exReport : CanRead exUnread (.heap 0) ∧ exFiles = [("a.exe", .ok (exTwice 3 2 [7, 7, 7]))] ++ ("b.exe", .error ⟨.foreign, "no such file"⟩) :: [] ∧
    ∃ a b, Considered exPECodec (exTwice 3 2 [7, 7, 7]) true [a, b] := by
  refine ⟨fun i certs e hi hp => ?_, rfl, exPair_considered exPECodec (exTwice 3 2 [7, 7, 7]) ("sha256", [3]) ("sha1", [2])
    (by decide +kernel) (by decide +kernel)⟩
  cases hi; cases hp; rfl

/-- The report: the first signature is bad, the second good, and so the file is good. -/
example : infoMain exPrinting exPEEnv exPECodec (.heap 0) exFiles exUnread =
    (["a.exe:",
      "    Included certificates:",
      "      - Subject: CN=Inter", "        Issuer: CN=Root", "        Serial: 2", "        Valid from: 100", "        Valid to: 1000",
      "      - Subject: CN=Leaf", "        Issuer: CN=Inter", "        Serial: 3", "        Valid from: 100", "        Valid to: 1000",
      "",
      "    Signer:",
      "        Issuer: CN=Inter", "        Serial: 3", "        Program name: None", "        More info: None",
      "",
      "    Digest algorithm: openssl_sha256",
      "    Digest: 0000",
      "",
      "    AuthenticodeVerificationResult.INVALID_DIGEST",
      "    The expected hash does not match the digest in SpcInfo",
      "--------",
      "    Included certificates:",
      "      - Subject: CN=Inter", "        Issuer: CN=Root", "        Serial: 2", "        Valid from: 100", "        Valid to: 1000",
      "      - Subject: CN=Leaf", "        Issuer: CN=Inter", "        Serial: 3", "        Valid from: 100", "        Valid to: 1000",
      "",
      "    Signer:",
      "        Issuer: CN=Inter", "        Serial: 3", "        Program name: None", "        More info: None",
      "",
      "    Digest algorithm: openssl_sha1",
      "    Digest: d7cb",
      "",
      "    AuthenticodeVerificationResult.OK",
      "--------",
      "AuthenticodeVerificationResult.OK",
      "b.exe:"], some ⟨.foreign, "no such file"⟩) := by decide +kernel

/-- A good signature followed by one that cannot be decoded. -/
def exGarbled : Bytes :=
  exPE 16 [224, 0, 0, 0, 32, 0, 0, 0]
    ([16, 0, 0, 0, 0, 2, 2, 0] ++ List.replicate 8 2 ++ [12, 0, 0, 0, 0, 2, 2, 0, 9, 9, 9, 9, 0, 0, 0, 0] ++ [7, 7, 7])

/-- The end of the report on it: the first signature is good, and the file cannot be read. -/
example : (infoMain exPrinting exPEEnv exPECodec (.heap 0) [("c.exe", .ok exGarbled)] exUnread).1.drop 20 =
    ["    Digest: d7cb", "", "    AuthenticodeVerificationResult.OK", "--------", "    Error while parsing: cannot decode"] := by
  decide +kernel

/-- A name that is not text. -/
def exUid : Name := ⟨[⟨⟨"2.5.4.45", "unique_identifier", .octets [7]⟩, []⟩]⟩

/-- The report on a signature whose signer names such an issuer ends there. -/
example : (infoSignatures exPrinting exPEEnv (.heap 0) (exTwice 3 2 [7, 7, 7])
      ((iterSignedDatas exPECodec (exTwice 3 2 [7, 7, 7]) true true).1.map
        (fun a => .mk { a.d with signer := { a.d.signer with issuer := exUid } } [])) exUnread).1 =
    .ok (["    Included certificates:",
      "      - Subject: CN=Inter", "        Issuer: CN=Root", "        Serial: 2", "        Valid from: 100", "        Valid to: 1000",
      "      - Subject: CN=Leaf", "        Issuer: CN=Inter", "        Serial: 3", "        Valid from: 100", "        Valid to: 1000",
      "",
      "    Signer:"], some ⟨.typeError, "cannot use a string pattern on a bytes-like object"⟩) := by decide +kernel

example := C94_files exPrinting exPEEnv exPECodec (.heap 0) [("a.exe", .ok (exTwice 3 2 [7, 7, 7]))] exUnread
  (fun i certs e hi hp => by cases hi; cases hp; rfl) (fun f hf => by rw [List.mem_singleton.1 hf]; exact ⟨_, rfl⟩)

end Signify.Props
