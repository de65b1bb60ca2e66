/-
Model of the stores that `verify` uses if none is given: `TRUSTED_CERTIFICATE_STORE` and `TRUSTED_CERTIFICATE_STORE_NO_CTL`
in `signify/authenticode/structures.py`, made from files of the package mscerts.
-/
import Verif.Model.Pem
import Verif.Model.CtlFile

set_option autoImplicit false

namespace Signify

open Asn1 Pem

/-- `TRUSTED_CERTIFICATE_STORE_NO_CTL`, given what is found at `CERTIFICATE_LOCATION`; structures.py:69-71. -/
def trustedStoreNoCtl (location : Location) : Store := fileSystemStore location true none

/-- `TRUSTED_CERTIFICATE_STORE`, given also the bytes of the file `AUTHROOTSTL_PATH` (authroot.py:22); structures.py:72-76. -/
def trustedStore (location : Location) (stl : Bytes) : Except Exc Store := do
  let t ← fromStl derCodec derCtlCodec stl
  .ok (fileSystemStore location true (some t.ctl))

end Signify
