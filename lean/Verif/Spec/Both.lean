/-
Specification vocabulary for verification while others use the same file, stores and contexts (C102).
-/
import Verif.Model.Both
import Verif.Spec.Shared
import Verif.Spec.TogetherPE

set_option autoImplicit false

namespace Signify.Spec

open Signify

/-- What others do to the file is anything; of the rest of the state they change the stores only. -/
def FileAndStores (σ : Nat → Both → Both) : Prop := ∀ n s, StoresOnly s.world (σ n s).world

/-- The others have opened the file themselves: they may change its content but do not move the position of this file object. -/
def KeepsPosition (σ : Nat → Both → Both) : Prop := ∀ n s, (σ n s).file.pos = s.file.pos

/-- Nobody else does anything. -/
def noOthers : Nat → Both → Both := fun _ s => s

/-- The signatures of `res` are those that the mode asks for: there are signatures `sds`, each of which was in the file at one of the
moments when it looked like `files`, of which the mode selects `sel`; in a strict mode `res` has all of them, otherwise exactly one. -/
def AskedFor (cd : Codec) (files : List Handle) (mode : String) (res : List (ASD × List (List Cert))) : Prop :=
  ∃ sds sel, sds ≠ [] ∧ (∀ x ∈ sds, SignatureThen cd files x) ∧ Selected mode sds sel ∧
    (Strict mode → res.map Prod.fst = sel) ∧ (¬ Strict mode → ∃ p, res = [p] ∧ p.1 ∈ sel)

/-- What a call of `SignedPEFile.verify` that makes its own contexts and returns `res` has found, when `files` are the states of the
file at its accesses and `At` says which states the stores were in: the signatures are those that the mode asks for, and each has been
found good for the digest of `data`. -/
def FoundWith (env : Env) (At : World → Prop) (cd : Codec) (files : List Handle) (w : World) (args : PEVerifyArgs) (data : Bytes)
    (res : List (ASD × List (List Cert))) : Prop :=
  AskedFor cd files args.multiVerifyMode res ∧
  ∀ p ∈ res, FoundGood env At w none p.1.d { args.kwargs with expectedHash := some (env.hash p.1.d.core.digestAlg data) } p.2

/-- The same for a call that may have been given contexts, which others may use and change: the digests agree, and every chain is one of
a certificate that the SignerInfo names and that has signed it, validated in the context given, as it was at some moments; in mode `strict`
the same holds for the countersignature, if there is one. -/
def FoundAmid (env : Env) (At : World → Prop) (cd : Codec) (files : List Handle) (args : PEVerifyArgs) (data : Bytes)
    (res : List (ASD × List (List Cert))) : Prop :=
  AskedFor cd files args.multiVerifyMode res ∧
  ∀ p ∈ res, DigestsAgree env none p.1.d (some (env.hash p.1.d.core.digestAlg data)) ∧
    (∀ k, p.1.d.counter = some k → args.kwargs.countersignatureMode = "strict" → ∃ i, (∀ j, args.kwargs.csContext = some j → i = j) ∧
      CounterOf env p.1.d.signer.encryptedDigest (fun s chain => ∃ c, ChainThen env At i s chain c) k) ∧
    p.2 ≠ [] ∧ ∃ cid, (∀ j, args.kwargs.context = some j → cid = j) ∧ ∀ chain ∈ p.2, ∃ c, ChainThen env At cid p.1.d.signer chain c

end Signify.Spec
