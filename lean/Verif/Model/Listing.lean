/-
Model of the printed form of certificates, and of the listing printed by `python -m signify.authenticode.structures`.
-/
import Verif.Model.X509
import Verif.Model.Names

set_option autoImplicit false

namespace Signify

/-- `Certificate.sha1_fingerprint`; certificates.py:188-190: asn1crypto's fingerprint of the encoding, in lower case and without
blanks. -/
def Cert.sha1Fingerprint (H : String → Bytes → Bytes) (c : Cert) : String := hexOf (H "sha1" c.der)

/-- `Certificate.__str__`; certificates.py:134-138. -/
def Cert.str (H : String → Bytes → Bytes) (c : Cert) : Except Exc String := do
  let dn ← c.subject.dn
  .ok (dn ++ " (serial:" ++ toString c.serial ++ ", sha1:" ++ c.sha1Fingerprint H ++ ")")

/-- Lines printed one after the other, until the text of one cannot be had. -/
def printLines : List (Except Exc String) → List String × Option Exc
  | [] => ([], none)
  | .error e :: _ => ([], some e)
  | .ok s :: l => (s :: (printLines l).1, (printLines l).2)

/-- `sorted(store, key=lambda x: x.valid_to)`; structures.py:773.  Python's sort is stable. -/
def sortedByExpiry (l : List Cert) : List Cert := l.mergeSort (fun a b => decide (a.validTo ≤ b.validTo))

/-- `print(i, certificate.valid_to, certificate)`; structures.py:775.  How a time is printed is left open. -/
def listingLine (H : String → Bytes → Bytes) (showTime : Int → String) (c : Cert) (i : Nat) : Except Exc String := do
  let s ← c.str H
  .ok (toString i ++ " " ++ showTime c.validTo ++ " " ++ s)

/-- The listing; structures.py:767-775: the lines printed, and the exception that ends it. -/
def listingMain (H : String → Bytes → Bytes) (showTime : Int → String) (store : Except Exc (List Cert)) : List String × Option Exc :=
  let head := "This is a list of all certificates in the Authenticode trust store, ordered by expiration date"  -- 768-771
  match store with
  | .error e => ([head], some e)
  | .ok l =>                                                                                                    -- 772-775
    let r := printLines (((sortedByExpiry l).zipIdx 1).map (fun x => listingLine H showTime x.1 x.2))
    (head :: r.1, r.2)

end Signify
