/-
Specification of what stands behind a verified PE file: the complete chain of evidence from the bytes of the file to a trust anchor,
in terms of the raw ASN.1 structures in the file and the primitives (hash, signature check, path validator).
-/
import Verif.Spec.PEFile

set_option autoImplicit false

namespace Signify.Spec

open Signify

/-- The certificates of the trusted store, once it has been read. -/
def trustedCerts (w : World) (r : StoreRef) : List Cert := certsOf (loadedWorld w) r

/-- The certificates embedded in a SignedData. -/
def embeddedCerts (sd : RawSD) : List Cert := (sd.head.certs.filter (fun x => x.choice = "certificate")).map RawCert.cert

/-- The evidence for one signature of a file:

* `entry` is an entry of the file's certificate table, and holds (possibly nested) the SignedData `sd`;
* the content of `sd` is an SpcIndirectData with the digest `H alg (image)`, where `image` is the file without checksum,
  directory entry and certificate table;
* the signed attributes (the bytes `b`) have the message digest `H alg content`;
* all with the one digest algorithm `alg`. -/
structure Evidence (env : Env) (cd : Codec) (file : Bytes) (sd : RawSD) (alg : String) (si : RawSI) (b : Bytes) : Prop where
  inFile : ∃ entry ∈ (parseCertTable file).1, entry.revision = 0x200 ∧ entry.type = 2 ∧
    ∃ top, cd.envelope entry.certificate = .ok ("signed_data", top) ∧ Within top sd
  accepted : alg ∈ digestAlgorithms
  algorithm : ∃ p, sd.head.digestAlgs = [⟨alg, p⟩]
  image : ∃ content spc, sd.head.content = some content ∧ cd.spc sd.head.octets content = .ok spc ∧ spc.type = "microsoft_spc_pe_image_data" ∧
    spc.digestAlg.algorithm = alg ∧
    (∃ oho ohs dir, Header file oho ohs dir ∧ spc.digest = env.hash alg (deleteSections file (omitted file oho ohs dir))) ∧
    ∃ attrs a, cd.attrs b = .ok attrs ∧ lastAttr attrs "message_digest" = some a ∧ a.values = [.octets (env.hash alg content)]
  signer : sd.signers = [si] ∧ si.head.signedAttrs = some b ∧ si.head.digestAlg.algorithm = alg

/-- The evidence for one chain: its signing certificate `c` comes from the trusted store or from the signature, is the one named in
the SignerInfo, and its key made the signature over the DER encoding of the signed attributes; the validator, given the certificates
of the trusted store as its only trust anchors and code signing as the purpose, answered with the chain for the time `t`; and the chain
starts in the trusted store and is accepted by its CTL, if it has one. -/
structure ChainEvidence (env : Env) (w : World) (kwargs : VerifyArgs) (sd : RawSD) (alg : String) (si : RawSI) (b : Bytes)
    (c : Cert) (t : Option Int) (chain : List Cert) : Prop where
  known : c ∈ trustedCerts w kwargs.trusted ∨ c ∈ embeddedCerts sd
  named : c.issuer.components = si.head.issuer.components ∧ c.serial = si.head.serial
  signature : ∃ der, DerSet b der ∧ ValidSignature env c si.head.signature der alg kwargs.options.allowLegacy
  anchored : ∃ i root, kwargs.trusted = .heap i ∧ (w.stores i).trusted = true ∧ chain.head? = some root ∧
    (∃ d ∈ trustedCerts w kwargs.trusted, SameCert root d) ∧
    ∀ ctl, (w.stores i).ctl = some ctl → Accepts env ctl chain ["code_signing"] (t.getD env.now)
  members : ∀ d ∈ chain, d = c ∨ d ∈ trustedCerts w kwargs.trusted ∨ d ∈ embeddedCerts sd
  validated : env.validate
    { endEntity := c.obj
      trustRoots := (trustedCerts w kwargs.trusted).map Cert.obj
      intermediates := (embeddedCerts sd).map Cert.obj
      moment := t
      allowWeakHashes := kwargs.options.allowLegacy
      revocationMode := kwargs.options.revocationMode
      allowFetching := kwargs.options.allowFetching
      fetchTimeout := kwargs.options.fetchTimeout
      crls := kwargs.options.crls
      ocsps := kwargs.options.ocsps
      keyUsages := kwargs.options.keyUsages.getD []
      ekus := ["code_signing"]
      ekuOptional := kwargs.options.optionalEku } = .ok (chain.map Cert.obj)

end Signify.Spec
