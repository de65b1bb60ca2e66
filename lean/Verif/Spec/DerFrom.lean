/-
Specification: where the parts of a signature come from.  `l <:+: data` says that `l` is a contiguous part of `data`.
-/
import Verif.Spec.Pkcs7
import Verif.Spec.SignedPE
import Verif.Model.DerCms

set_option autoImplicit false

namespace Signify.Spec

open Signify Asn1

/-- The parts of a signer: what is checked against the signature is the DER encoding of a SET whose contents are part of the data;
the signature value is part of the data; the message digest is part of these contents. -/
structure SignerFrom (data : Bytes) (s : Signer) : Prop where
  attributes : ∃ b, b <:+: data ∧ DerSet b s.encodedAuth ∧ ∀ d, s.messageDigest = some d → d <:+: b
  signature : s.encryptedDigest <:+: data

/-- The content and the certificates of a SignedData: parts of the data; each certificate is what its encoding says. -/
structure CoreFrom (data : Bytes) (c : SDCore) : Prop where
  content : c.content <:+: data
  certificates : ∀ x ∈ c.certificates, x.der <:+: data ∧ certFromDer x.der = .ok x

/-- A PKCS#9 countersigner, with its own countersigner, and so on. -/
inductive CounterFrom (data : Bytes) : CounterInfo → Prop where
  | last {s : Signer} : SignerFrom data s → CounterFrom data (.mk s none)
  | more {s : Signer} {c : CounterInfo} : SignerFrom data s → CounterFrom data c → CounterFrom data (.mk s (some c))

/-- The bytes begin with the identifier of a SEQUENCE. -/
def StartsSequence (b : Bytes) : Prop := b.head? = some 0x30

/-- A countersigner.  The digest in a time stamp is part of its content, which is a complete SEQUENCE (wrapped in an OCTET STRING). -/
inductive CounterSignerFrom (data : Bytes) : CounterSigner → Prop where
  | pkcs9 {c : CounterInfo} : CounterFrom data c → CounterSignerFrom data (.pkcs9 c)
  | rfc3161 {r : Rfc3161} : CoreFrom data r.core → r.tst.messageDigest <:+: r.core.content → StartsSequence r.core.content →
      SignerFrom data r.signer →
      CounterSignerFrom data (.rfc3161 r)

/-- A signature, with its countersigner and its nested signatures.  The digest of the image is part of the content. -/
inductive SignatureFrom (data : Bytes) : ASD → Prop where
  | mk {d : AuthData} {nested : List ASD} : CoreFrom data d.core → d.spc.digest <:+: d.core.content → SignerFrom data d.signer →
      (∀ c, d.counter = some c → CounterSignerFrom data c) → (∀ a ∈ nested, SignatureFrom data a) → SignatureFrom data (.mk d nested)

/-- The two files have the same certificate table, possibly at different places. -/
def SameTable (f g : Bytes) : Prop :=
  ∃ oho ohs dir a oho' ohs' dir' a' s, Header f oho ohs dir ∧ HasTable f oho ohs dir a s ∧ Header g oho' ohs' dir' ∧
    HasTable g oho' ohs' dir' a' s ∧ (f.drop a).take s = (g.drop a').take s

end Signify.Spec
