/-
Specification vocabulary for verification of files in threads that share their stores (C99).
-/
import Verif.Model.TogetherPE
import Verif.Spec.Together
import Verif.Spec.PEFile

set_option autoImplicit false

namespace Signify.Spec

open Signify

/-- What a call of `SignedPEFile.verify` that makes its own contexts and returns `res` has found: the signatures looked at are those that
the mode selects from those of the file; in a strict mode `res` has all of them, otherwise exactly one; and each of `res` has been
found good, for the digest that the caller has given for its algorithm or that of the file. -/
def FileFoundGood (env : Env) (At : World → Prop) (cd : Codec) (w : World) (file : Bytes) (args : PEVerifyArgs)
    (res : List (ASD × List (List Cert))) : Prop :=
  ∃ sds sel, Considered cd file args.ignoreParseErrors sds ∧ sds ≠ [] ∧ Selected args.multiVerifyMode sds sel ∧
    (Strict args.multiVerifyMode → res.map Prod.fst = sel) ∧
    (¬ Strict args.multiVerifyMode → ∃ p, res = [p] ∧ p.1 ∈ sel) ∧
    ∀ p ∈ res, ∃ d, DigestFor env file (providedBy w args) p.1.d.core.digestAlg d ∧
      FoundGood env At w (some file) p.1.d { args.kwargs with expectedHash := some d } p.2

end Signify.Spec
