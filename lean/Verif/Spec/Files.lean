/-
Specification for C93: several files verified one after the other in one process.
-/
import Verif.Spec.PEFile
import Verif.Spec.Memory

set_option autoImplicit false

namespace Signify.Spec

/-- A call of `SignedPEFile.verify`. -/
structure FileCall where
  file : Bytes
  args : PEVerifyArgs

/-- The state after some calls, whatever their outcomes. -/
def afterFiles (env : Env) (cd : Codec) : List FileCall → World → World
  | [], w => w
  | f :: fs, w => afterFiles env cd fs (peVerify env cd f.file f.args w).2

/-- A verification of one of the signatures of the file, with the arguments handed on and some digest. -/
def FileCall.Makes (cd : Codec) (f : FileCall) (c : Call) : Prop :=
  c.file = some f.file ∧ (∃ h, c.args = { f.args.kwargs with expectedHash := some h }) ∧
  ∃ sds a, Considered cd f.file f.args.ignoreParseErrors sds ∧ a ∈ sds ∧ c.a = a.d

end Signify.Spec
