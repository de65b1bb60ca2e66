/-
What the command line of the fingerprinter prints.
-/
import Verif.Model.Cli
import Verif.Spec.SignedPE

set_option autoImplicit false

namespace Signify.Spec

open Signify

/-- The digests of the file. -/
def genericLines (H : String → Bytes → Bytes) (content : Bytes) : List String :=
  ["  generic:",
   "    md5       : " ++ hexOf (H "md5" content),
   "    sha1      : " ++ hexOf (H "sha1" content),
   "    sha256    : " ++ hexOf (H "sha256" content),
   "    sha512    : " ++ hexOf (H "sha512" content)]

/-- The digests of the image. -/
def authentihashLines (H : String → Bytes → Bytes) (image : Bytes) : List String :=
  ["  authentihash:",
   "    md5       : " ++ hexOf (H "md5" image),
   "    sha1      : " ++ hexOf (H "sha1" image),
   "    sha256    : " ++ hexOf (H "sha256" image)]

/-- What is printed about a file. -/
inductive Printed (H : String → Bytes → Bytes) (content : Bytes) : List String → Prop where
  | other : (¬ ∃ oho ohs dir, Header content oho ohs dir) → Printed H content (genericLines H content)
  | image (oho ohs dir : Nat) : Header content oho ohs dir →
      Printed H content (authentihashLines H (deleteSections content (omitted content oho ohs dir)) ++ genericLines H content)

/-- What is printed about several files: one after the other, up to one that cannot be opened. -/
inductive PrintedAll (H : String → Bytes → Bytes) : List (String × Except Exc Bytes) → List String → Option Exc → Prop where
  | done : PrintedAll H [] [] none
  | stop (name : String) (e : Exc) (rest : List (String × Except Exc Bytes)) : PrintedAll H ((name, .error e) :: rest) [name ++ ":"] (some e)
  | file (name : String) (content : Bytes) (rest : List (String × Except Exc Bytes)) (lines more : List String) (e : Option Exc) :
      Printed H content lines → PrintedAll H rest more e →
      PrintedAll H ((name, .ok content) :: rest) ((name ++ ":") :: lines ++ more) e

end Signify.Spec
