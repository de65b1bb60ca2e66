/-
Specification of the exceptions that `SignedPEFile.verify` may raise.
-/
import Verif.Spec.Classes
import Verif.Spec.Errors

set_option autoImplicit false

namespace Signify.Spec

/-- The classes of exceptions that `verify` raises for a file: those of an embedded signature that cannot be loaded, the refusals, and that of a file
without a signature. -/
def verifyClasses (ignoreParseErrors : Bool) : List ExcClass :=
  decodingClasses ++ interpretingClasses ++ refusals ++ [if ignoreParseErrors then .authenticodeNotSigned else .signedPEParseError]

/-- The results of `explain_verify` for these. -/
def explained : List (ExcClass × VResult) :=
  [(.valueError, .unknownError), (.typeError, .unknownError), (.keyError, .unknownError), (.indexError, .unknownError),
   (.notImplementedError, .unknownError), (.assertionError, .unknownError), (.overflowError, .unknownError),
   (.parseError, .parseError), (.authenticodeParseError, .parseError), (.signerInfoParseError, .parseError),
   (.certificateVerificationError, .certificateError), (.ctlCertificateVerificationError, .certificateError),
   (.signerInfoVerificationError, .verifyError), (.authenticodeInconsistentDigest, .inconsistentDigestAlgorithm),
   (.authenticodeInvalidDigest, .invalidDigest), (.authenticodeCounterSigner, .counterSignerError),
   (.authenticodeNotSigned, .notSigned), (.signedPEParseError, .notSigned)]

end Signify.Spec
