/-
C79: the exceptions that loading a signature raises.
-/
import Verif.Proofs.ClassesParse
import Verif.Props.Malformed

set_option autoImplicit false

namespace Signify.Props

open Signify Spec Asn1

/-- Whatever the octets, `AuthenticodeSignedData.from_envelope` raises, if anything, an exception of one of ten classes: ValueError, TypeError,
KeyError, IndexError; ParseError, AuthenticodeParseError, SignerInfoParseError; NotImplementedError, AssertionError, OverflowError. -/
theorem C79_classes (data : Bytes) : RaisesOnly (decodingClasses ++ interpretingClasses) (fromEnvelope derCodec data) :=
  fromEnvelope_only data

/-- SHA-256, without parameters. -/
def exLAlg : DAlg := ⟨[2, 16, 840, 1, 101, 3, 4, 2, 1], false⟩

/-- A SignedData without certificates. -/
def exLData (type : List Nat) (content : Bytes) : DData := ⟨3, [exLAlg], type, some content, none, none⟩

/-- What is signed: the hash of a PE image. -/
def exLContent : Bytes := DIndirect.encode ⟨oidPeImage, some ⟨none, none⟩, exLAlg, [1]⟩

/-- A signer, with an empty name. -/
def exLSigner (type : List Nat) : DSigner where
  version := 1
  sid := .issuerSerial [] 1
  digestAlg := exLAlg
  attrs := some [.contentType [type], .messageDigest [[1]]]
  sigAlg := ⟨[1, 2, 840, 113549, 1, 1, 1], none⟩
  signature := [9]

/-- A signature with the given attributes that are not signed. -/
def exLWith (us : List DUAttr) : DSD := .mk (exLData oidIndirectData exLContent) [.mk (exLSigner oidIndirectData) (some us)]

/-- A TSTInfo; `tsa` is the encoding of the name of the authority. -/
def exLTst (tsa : Bytes) : Bytes :=
  derSeq [derInt 1, derOid [1, 2, 3], derSeq [exLAlg.encode, derOctets [4]], derInt 7, DTime.encodeGen ⟨2021, 1, 2, 3, 4, 5⟩ [], tlv 0xA0 tsa]

/-- A TSTInfo with an accuracy of the given number of seconds. -/
def exLTstSeconds (s : Int) : Bytes :=
  derSeq [derInt 1, derOid [1, 2, 3], derSeq [exLAlg.encode, derOctets [4]], derInt 7, DTime.encodeGen ⟨2021, 1, 2, 3, 4, 5⟩ [], derSeq [derInt s]]

/-- A time stamp. -/
def exLStamp (tsa : Bytes) (us : Option (List DUAttr)) : DSD := .mk (exLData oidTstInfo (exLTst tsa)) [.mk (exLSigner oidTstInfo) us]

/-- A signer whose issuer has a component without a value. -/
def exLEmptyRdn : Bytes :=
  derSeq [derInt 1, derSeq [derSeq [derSet []], derInt 1], exLAlg.encode, DSigAlg.encode ⟨[1, 2, 840, 113549, 1, 1, 1], none⟩, derOctets [9]]

/-- Octets for each class. -/
def exLWitness : ExcClass → Bytes
  | .valueError => []
  | .typeError => derSeq [derOid oidSignedData]
  | .keyError => contentInfo (DSD.encode (.mk { exLData oidIndirectData exLContent with digestAlgs := [] } []))
  | .indexError => contentInfo (derSeq [derInt 3, derSet [], derSeq [derOid oidIndirectData], derSet [exLEmptyRdn]])
  | .parseError => derSeq [derOid [1, 2, 840, 113549, 1, 7, 1]]
  | .authenticodeParseError => contentInfo (DSD.encode (.mk (exLData oidIndirectData exLContent) []))
  | .signerInfoParseError => contentInfo (DSD.encode (.mk (exLData oidIndirectData exLContent)
      [.mk { exLSigner oidIndirectData with sid := .keyId [5] } none]))
  | .notImplementedError => contentInfo (DSD.encode (exLWith [.timestamp [exLStamp (tlv 0x82 [97]) none]]))
  | .assertionError => contentInfo (DSD.encode (exLWith [.timestamp [exLStamp (tlv 0xA4 (derSeq []))
      (some [.counter [.mk (exLSigner [1, 2, 840, 113549, 1, 7, 1]) none]])]]))
  | .overflowError => contentInfo (DSD.encode (exLWith [.timestamp [.mk (exLData oidTstInfo (exLTstSeconds 86400000000000))
      [.mk (exLSigner oidTstInfo) none]]]))
  | _ => []

/-- The class of the exception. -/
def classOf {α : Type} : Except Exc α → Option ExcClass
  | .ok _ => none
  | .error e => some e.cls

/-- All ten classes occur. -/
theorem C79_all_occur : ∀ c ∈ decodingClasses ++ interpretingClasses, ∃ data e, fromEnvelope derCodec data = .error e ∧ e.cls = c := by
  have key : ∀ c ∈ decodingClasses ++ interpretingClasses, classOf (fromEnvelope derCodec (exLWitness c)) = some c := by decide +kernel
  intro c hc
  have h := key c hc
  revert h
  cases h : fromEnvelope derCodec (exLWitness c) with
  | ok a => intro h; cases h
  | error e => intro he; exact ⟨_, e, h, Option.some.inj he⟩

/-- Other than ParseError and its subclasses, seven classes of exceptions reach the caller: of ten, three are documented. -/
theorem C79_documented (c : ExcClass) (hc : c ∈ decodingClasses ++ interpretingClasses) :
    Subclass c .parseError ↔ c ∈ [ExcClass.parseError, .authenticodeParseError, .signerInfoParseError] := by
  have key : ∀ c ∈ decodingClasses ++ interpretingClasses, (Exc.is ⟨c, ""⟩ .parseError = true ↔
    c ∈ [ExcClass.parseError, .authenticodeParseError, .signerInfoParseError]) := by decide +kernel
  rw [← key c hc, isinstance_iff]

example := C79_documented .assertionError (by decide)

/-- So no exception of `from_envelope` is taken for the end of the certificate table: whenever a PKCS #7 entry cannot be loaded, whatever
precedes and follows it and for whatever reason, `verify` raises that very exception. -/
theorem C79_entry (env : Env) (args : PEVerifyArgs) (w : World) (f : Bytes) (oho ohs dir : Nat) (hh : Header f oho ohs dir)
    (hE : HasEntry f oho ohs dir) (hn : ∀ a s, ¬ HasTable f oho ohs dir a s) (ck : Bytes) (hck : ck.length = 4)
    (good rest : List CertEntry) (bad : CertEntry) (e : Exc) (hgood : ∀ c ∈ good, GoodEntry derCodec c)
    (hfit : ∀ c ∈ good ++ bad :: rest, Fits c) (hsz : f.length + (certTable (good ++ bad :: rest)).length < 2 ^ 32)
    (hr : bad.revision = 0x200) (ht : bad.type = 2) (he : fromEnvelope derCodec bad.certificate = .error e) :
    peVerify env derCodec (attach f oho dir ck (certTable (good ++ bad :: rest))) args w = (.error e, w) :=
  C78_unreadable_partial env derCodec args w f oho ohs dir hh hE hn ck hck good rest bad e hgood hfit hsz hr ht he (by
    have := C79_classes _ e he
    revert this
    generalize e.cls = c
    intro hc hs
    have key : ∀ c ∈ decodingClasses ++ interpretingClasses, Exc.is ⟨c, ""⟩ .signedPEParseError = false := by decide +kernel
    have h1 := key c hc
    rw [(isinstance_iff ⟨c, ""⟩ _).2 hs] at h1
    cases h1)

/-- The hypotheses are met: a signature followed by an entry whose time stamp is countersigned (an AssertionError); the file verifies without the
entry (`exWithout_verifies`). -/
example : ∃ e, e.cls = .assertionError ∧ peVerify exDEnv derCodec (attach exDImage 88 216 [1, 2, 3, 4]
    (certTable ([signatureEntry (contentInfo exDOuter.encode)] ++ signatureEntry (exLWitness .assertionError) :: []))) (exDArgs "any") exDWorld =
      (.error e, exDWorld) := by
  have h : classOf (fromEnvelope derCodec (exLWitness .assertionError)) = some .assertionError := by decide +kernel
  revert h
  cases h : fromEnvelope derCodec (exLWitness .assertionError) with
  | ok a => intro h; cases h
  | error e =>
    intro he
    refine ⟨e, Option.some.inj he, C79_entry exDEnv (exDArgs "any") exDWorld exDImage 88 136 216 (by decide +kernel) (by decide +kernel)
      (by rintro a s ⟨_, _, h, h', _⟩; exact h' (h.trans (by decide +kernel))) [1, 2, 3, 4] rfl
      [signatureEntry (contentInfo exDOuter.encode)] [] (signatureEntry (exLWitness .assertionError)) e
      (fun c hc => by rw [List.mem_singleton.1 hc]; exact exOuter_good) ?_ (by decide +kernel) rfl rfl h⟩
    intro c hc
    simp only [List.cons_append, List.nil_append, List.mem_cons, List.not_mem_nil, or_false] at hc
    rcases hc with rfl | rfl
    · exact fits_entry (by intro h; have := congrArg List.length h; simp [contentInfo, derSeq, tlv] at this) (by decide +kernel)
    · exact fits_entry (by intro h; have := congrArg List.length h; simp [exLWitness, contentInfo, derSeq, tlv] at this) (by decide +kernel)

end Signify.Props
