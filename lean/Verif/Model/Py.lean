/-
Python prelude: bytes, the exception hierarchy, insertion-ordered dictionaries.
-/
set_option autoImplicit false

namespace Signify

/-- A Python `bytes` object. -/
abbrev Bytes := List UInt8

/-- Exception classes: `signify/exceptions.py:1-62`, plus the built-in and third-party classes that the modelled
code can raise or meet.  `foreign` stands for any exception class of a third-party library which is a subclass of
`Exception` but unrelated to signify's own classes. -/
inductive ExcClass where
  -- signify/exceptions.py
  | signifyError                       -- 1-2
  | parseError                         -- 5-6
  | signedPEParseError                 -- 9-10
  | signerInfoParseError               -- 13-14
  | authenticodeParseError             -- 17-18
  | verificationError                  -- 21-22
  | certificateVerificationError       -- 25-26
  | certificateNotTrusted              -- 29-30 CertificateNotTrustedVerificationError
  | signerInfoVerificationError        -- 33-34
  | authenticodeVerificationError      -- 37-38
  | authenticodeNotSigned              -- 41-42
  | authenticodeInconsistentDigest     -- 45-46
  | authenticodeInvalidDigest          -- 49-50
  | authenticodeCounterSigner          -- 53-54
  | ctlParseError                      -- 57-58 CertificateTrustListParseError
  | ctlCertificateVerificationError    -- 61-62
  -- built-ins
  | exception
  | runtimeError
  | notImplementedError
  | valueError
  | lookupError
  | keyError
  | indexError
  | attributeError
  | typeError
  | assertionError
  | structError
  | overflowError
  | foreign
deriving DecidableEq, Repr

namespace ExcClass

/-- Direct base class (`signify/exceptions.py:1-62`; Python built-in hierarchy; `none` for `Exception`). -/
def parent : ExcClass → Option ExcClass
  | signifyError => some exception
  | parseError => some signifyError
  | signedPEParseError => some parseError
  | signerInfoParseError => some parseError
  | authenticodeParseError => some parseError
  | verificationError => some signifyError
  | certificateVerificationError => some verificationError
  | certificateNotTrusted => some certificateVerificationError
  | signerInfoVerificationError => some verificationError
  | authenticodeVerificationError => some verificationError
  | authenticodeNotSigned => some authenticodeVerificationError
  | authenticodeInconsistentDigest => some authenticodeVerificationError
  | authenticodeInvalidDigest => some authenticodeVerificationError
  | authenticodeCounterSigner => some authenticodeVerificationError
  | ctlParseError => some signifyError
  | ctlCertificateVerificationError => some certificateVerificationError
  | exception => none
  | runtimeError => some exception
  | notImplementedError => some runtimeError
  | valueError => some exception
  | lookupError => some exception
  | keyError => some lookupError
  | indexError => some lookupError
  | attributeError => some exception
  | typeError => some exception
  | assertionError => some exception
  | structError => some exception
  | overflowError => some exception
  | foreign => some exception

/-- Follow `parent` at most `n` times looking for `d`. -/
def isSubN : Nat → ExcClass → ExcClass → Bool
  | 0, c, d => c == d
  | n + 1, c, d => c == d || (match parent c with
      | some p => isSubN n p d
      | none => false)

/-- `issubclass(c, d)`; the hierarchy is less than 6 levels deep. -/
def isSub (c d : ExcClass) : Bool := isSubN 6 c d

end ExcClass

/-- A raised exception: its class and the static part of its message. -/
structure Exc where
  cls : ExcClass
  msg : String := ""
deriving DecidableEq, Repr

/-- `isinstance(e, c)`, i.e. whether `except c` catches `e`. -/
def Exc.is (e : Exc) (c : ExcClass) : Bool := e.cls.isSub c

deriving instance DecidableEq for Except

/-- Python `dict`: insertion-ordered association list. -/
abbrev Dict (κ ν : Type) := List (κ × ν)

namespace Dict
variable {κ ν : Type} [DecidableEq κ]

/-- `d[k] = v`: replaces in place, or appends. -/
def set (d : Dict κ ν) (k : κ) (v : ν) : Dict κ ν :=
  match d with
  | [] => [(k, v)]
  | (k', v') :: d => if k' = k then (k, v) :: d else (k', v') :: set d k v

/-- `d.get(k)`. -/
def get? (d : Dict κ ν) (k : κ) : Option ν :=
  match d with
  | [] => none
  | (k', v') :: d => if k' = k then some v' else get? d k

/-- `d.update(e)`. -/
def update (d e : Dict κ ν) : Dict κ ν := e.foldl (fun d kv => d.set kv.1 kv.2) d

/-- `dict(pairs)` / dict comprehension. -/
def ofPairs (l : List (κ × ν)) : Dict κ ν := update [] l

end Dict

end Signify
