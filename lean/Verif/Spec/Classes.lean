/-
Specification of the exceptions that loading a signature may raise.
-/
import Verif.Model.Py

set_option autoImplicit false

namespace Signify.Spec

/-- The classes of exceptions that are raised while the encoding is read: ValueError, TypeError, KeyError, IndexError. -/
def decodingClasses : List ExcClass := [.valueError, .typeError, .keyError, .indexError]

/-- The classes of exceptions that are raised while the structure is interpreted: the documented ParseError and two of its subclasses,
and NotImplementedError, AssertionError, OverflowError. -/
def interpretingClasses : List ExcClass :=
  [.parseError, .authenticodeParseError, .signerInfoParseError, .notImplementedError, .assertionError, .overflowError]

/-- The classes of exceptions that are raised while a certificate is read: ValueError, and IndexError. -/
def certificateClasses : List ExcClass := [.valueError, .indexError]

/-- The classes of exceptions that are raised while a trust list is read: beside those of the encoding, ParseError, CTLParseError (a
ParseError), struct.error and OverflowError. -/
def trustListClasses : List ExcClass := decodingClasses ++ [.parseError, .ctlParseError, .structError, .overflowError]

/-- A computation raises nothing but exceptions of these classes. -/
def RaisesOnly {α : Type} (classes : List ExcClass) (x : Except Exc α) : Prop := ∀ e, x = .error e → e.cls ∈ classes

end Signify.Spec
