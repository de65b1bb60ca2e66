/-
Model of the command line of `signify/fingerprinter.py` (`main`).
-/
import Verif.Model.SignedPE
import Verif.Model.X509

set_option autoImplicit false

namespace Signify

/-- Insertion into a list of items sorted by key. -/
def insertItem {α : Type} (x : String × α) : List (String × α) → List (String × α)
  | [] => [x]
  | y :: l => if x.1 < y.1 then x :: y :: l else y :: insertItem x l

/-- `sorted(d.items())`; fingerprinter.py:312, 315.  The keys of a dictionary are distinct, so that values are never compared. -/
def sortedItems {α : Type} : Dict String α → List (String × α)
  | [] => []
  | x :: l => insertItem x (sortedItems l)

/-- `f"{s:<n}"` -/
def ljust (n : Nat) (s : String) : String := s ++ String.ofList (List.replicate (n - s.length) ' ')

/-- The lines printed for one description; fingerprinter.py:313-318. -/
def descriptionLines (description : String) (result : Dict String Bytes) : List String :=
  ("  " ++ (if description = "" then "generic" else description) ++ ":") ::
  ((sortedItems result).filter (fun kv => kv.1 ≠ "_")).map (fun kv => "    " ++ ljust 10 kv.1 ++ ": " ++ hexOf kv.2)

/-- The lines printed for the contents of one file; fingerprinter.py:303-318. -/
def contentLines (H : String → Bytes → Bytes) (fuel : Nat) (content : Bytes) : Option (Except Exc (List String)) :=
  let fp := (FP.new content).addHashers ["md5", "sha1", "sha256", "sha512"] none "generic"   -- 303-306
  match fp.addAuthenticodeHashers ["md5", "sha1", "sha256"] with                             -- 307-309
  | (.error e, _) => some (.error e)
  | (.ok _, fp) =>
    match fp.hashes H fuel with                                                              -- 310
    | none => none
    | some (.error e, _) => some (.error e)
    | some (.ok results, _) => some (.ok ((sortedItems results).flatMap (fun kv => descriptionLines kv.1 kv.2)))  -- 312-318

/-- `main(*filenames)`; fingerprinter.py:299-318: the lines printed, and the exception that ends it.  A file is its name with its content
or with the exception raised on opening it. -/
def fingerprintMain (H : String → Bytes → Bytes) (fuel : Nat) : List (String × Except Exc Bytes) → Option (List String × Option Exc)
  | [] => some ([], none)
  | (name, .error e) :: _ => some ([name ++ ":"], some e)                                    -- 301-302
  | (name, .ok content) :: rest =>
    match contentLines H fuel content with
    | none => none
    | some (.error e) => some ([name ++ ":"], some e)
    | some (.ok lines) =>
      match fingerprintMain H fuel rest with
      | none => none
      | some (more, e) => some ((name ++ ":") :: lines ++ more, e)

end Signify
