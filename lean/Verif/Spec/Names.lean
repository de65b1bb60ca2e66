/-
Specification vocabulary for certificate names.
-/
import Verif.Model.Names

set_option autoImplicit false

namespace Signify.Spec

open Signify

/-- Everything a name says: for each RDN, all its (attribute type, value) pairs. -/
def attributesOf (n : Name) : List (List (String × NameVal)) :=
  n.rdnSeq.map (fun r => (r.first :: r.others).map (fun a => (a.oid, a.value)))

/-- The components `l` are text: the types and strings `t`. -/
def Reading (l : List (String × NameVal)) (t : List (String × String)) : Prop := l = t.map (fun p => (p.1, .text p.2))

/-- The first attribute of every RDN has text for its value. -/
def Textual (n : Name) : Prop := ∀ r ∈ n.rdnSeq, ∃ s, r.first.value = .text s

instance (v : NameVal) : Decidable (∃ s, v = .text s) :=
  match v with
  | .text s => isTrue ⟨s, rfl⟩
  | .octets _ => isFalse (fun ⟨_, h⟩ => nomatch h)
  | .int _ => isFalse (fun ⟨_, h⟩ => nomatch h)

instance (n : Name) : Decidable (Textual n) := inferInstanceAs (Decidable (∀ r ∈ n.rdnSeq, ∃ s, r.first.value = .text s))

/-- No RDN has more than one attribute. -/
def SingleValued (n : Name) : Prop := ∀ r ∈ n.rdnSeq, r.others = []

/-- An object identifier in dotted decimal notation: digits and dots, starting with a digit. -/
def dottedOid (s : String) : Prop := (∃ c l, s.toList = c :: l ∧ c.isDigit = true) ∧ ∀ c ∈ s.toList, c.isDigit = true ∨ c = '.'

/-- All attribute types of a name are object identifiers (which ASN.1 guarantees). -/
def WellTyped (n : Name) : Prop := ∀ r ∈ n.rdnSeq, dottedOid r.first.oid

/-- State of the reader below: reading an attribute type, or the value of the given type. -/
inductive DnState where
  | type (acc : List Char)
  | value (type acc : List Char)

/-- A reader for distinguished names, written from RFC 2253 only: `type=value` separated by `", "`, where in a value a
backslash quotes the next character and a bare comma ends the value.  It knows nothing of how `dn` escapes. -/
def readDn : DnState → List Char → Option (List (List Char × List Char))
  | .type [], [] => some []
  | .type _, [] => none
  | .type acc, '=' :: l => readDn (.value acc []) l
  | .type acc, c :: l => readDn (.type (acc ++ [c])) l
  | .value t acc, [] => some [(t, acc)]
  | .value _ _, ['\\'] => none
  | .value t acc, '\\' :: c :: l => readDn (.value t (acc ++ [c])) l
  | .value t acc, ',' :: ' ' :: l => (readDn (.type []) l).map ((t, acc) :: ·)
  | .value _ _, ',' :: _ => none
  | .value t acc, c :: l => readDn (.value t (acc ++ [c])) l

/-- Read a distinguished name string. -/
def parseDn (s : String) : Option (List (String × String)) :=
  (readDn (.type []) s.toList).map (fun l => l.map (fun p => (String.ofList p.1, String.ofList p.2)))

/-- RFC 2253, section 2.4: the characters of a value that must be escaped are a space or `#` at its beginning, a space at its end,
and any of `,` `+` `"` `\\` `<` `>` `;`.  (`i` is the position of the character `c` in a value of `n` characters.) -/
def MustEscape (n i : Nat) (c : Char) : Prop :=
  c = ',' ∨ c = '+' ∨ c = '"' ∨ c = '\\' ∨ c = '<' ∨ c = '>' ∨ c = ';' ∨ (i = 0 ∧ (c = ' ' ∨ c = '#')) ∨ (i + 1 = n ∧ c = ' ')

instance (n i : Nat) (c : Char) : Decidable (MustEscape n i c) := by unfold MustEscape; infer_instance

/-- The value with exactly the characters with `P` (given their position) prefixed by a backslash. -/
def escaped (P : Nat → Char → Prop) [∀ i c, Decidable (P i c)] (v : List Char) : List Char :=
  (v.zipIdx.map (fun p => if P p.2 p.1 then ['\\', p.1] else [p.1])).flatten

/-- The value as RFC 2253 has it. -/
def rfc2253 (v : String) : List Char := escaped (fun i c => MustEscape v.toList.length i c) v.toList

/-- The value begins with a space that is not all of it. -/
def LeadingSpace (v : String) : Prop := ∃ c l, v.toList = ' ' :: c :: l

end Signify.Spec
