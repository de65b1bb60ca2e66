/-
Model of `signify/x509/certificates.py`, class `CertificateName`.
-/
import Verif.Model.Py

set_option autoImplicit false

namespace Signify

/-- `["value"].native` of an AttributeTypeAndValue: a string, bytes (a unique identifier), or an integer.  Simplification: asn1crypto
yields still other types for attributes that it does not know. -/
inductive NameVal where
  | text (s : String)
  | octets (b : Bytes)
  | int (i : Int)
deriving DecidableEq, Repr

instance : Coe String NameVal := ⟨.text⟩

/-- An AttributeTypeAndValue: `["type"].dotted`, `["type"].native` and `["value"].native`. -/
structure ATV where
  oid : String
  native : String
  value : NameVal
deriving DecidableEq, Repr

/-- A RelativeDistinguishedName: a non-empty SET of ATVs in encoding order (first, others).  Simplification: the empty set,
forbidden by X.501, on which `n[0]` (certificates.py:334) would raise IndexError, is not represented. -/
structure RDN where
  first : ATV
  others : List ATV
deriving DecidableEq, Repr

/-- `CertificateName.data.chosen`: the RDNSequence in encoding order; certificates.py:273-280. -/
structure Name where
  rdnSeq : List RDN
deriving DecidableEq, Repr

/-- A `GeneralName`: its choice and, for a directory name, the name. -/
structure GeneralName where
  choice : String
  name : Name
deriving DecidableEq, Repr

/-- `CertificateName(general_name)`; certificates.py:273-280. -/
def Name.ofGeneral (g : GeneralName) : Except Exc Name :=
  if g.choice ≠ "directory_name" then .error ⟨.notImplementedError, "CertificateNames of this type not supported"⟩
  else .ok g.name

/-- `CertificateName.OID_TO_RDN`; certificates.py:261-271. -/
def oidToRdn : Dict String String :=
  [("2.5.4.3", "CN"), ("2.5.4.6", "C"), ("2.5.4.7", "L"), ("2.5.4.8", "ST"), ("2.5.4.9", "STREET"), ("2.5.4.10", "O"),
   ("2.5.4.11", "OU"), ("0.9.2342.19200300.100.1.25", "DC"), ("1.2.840.113549.1.9.1", "EMAIL")]

/-- `OID_TO_RDN.get(dotted, dotted)`; certificates.py:336-338. -/
def shortType (oid : String) : String := (oidToRdn.get? oid).getD oid

/-- `list(get_components())`; certificates.py:316-349 (`component_type is None`). -/
def Name.components (n : Name) : List (String × NameVal) :=
  n.rdnSeq.reverse.map (fun r => (shortType r.first.oid, r.first.value))

/-- `list(get_components(t))`; certificates.py:324-347. -/
def Name.componentsOf (n : Name) (t : String) : List NameVal :=
  n.rdnSeq.reverse.filterMap (fun r =>
    if t = r.first.oid ∨ t = r.first.native ∨ t = shortType r.first.oid then some r.first.value else none)

/-- `CertificateName.rdns`; certificates.py:311-314. -/
def Name.rdns (n : Name) : List (String × NameVal) := n.components

/-- `CertificateName.__eq__` between names; certificates.py:282-283. -/
def Name.pyEq (a b : Name) : Bool := a.rdns == b.rdns

/-- The characters escaped by the regular expression in `dn`; certificates.py:303. -/
def dnSpecial (c : Char) : Bool := c ∈ [',', '+', '"', '<', '>', ';', '\\']

/-- `re.sub('([,+"<>;\\\\])', r"\\\1", value)`; certificates.py:303. -/
def dnSub : List Char → List Char
  | [] => []
  | c :: cs => if dnSpecial c then '\\' :: c :: dnSub cs else c :: dnSub cs

/-- `if value.startswith("#"): value = "\\" + value`; certificates.py:304-305. -/
def dnHash (v : List Char) : List Char := if v.head? = some '#' then '\\' :: v else v

/-- `if value.endswith(" "): value = value[:-1] + "\\ "`; certificates.py:306-307. -/
def dnTrail (v : List Char) : List Char := if v.getLast? = some ' ' then v.dropLast ++ ['\\', ' '] else v

/-- The escaped value; certificates.py:303-307. -/
def dnEscape (v : List Char) : List Char := dnTrail (dnHash (dnSub v))

/-- The iteration of the loop for a component: `f"{type}={value}"`; certificates.py:303-308.  `re.sub` raises TypeError for a value
that is not a string. -/
def dnPart (p : String × NameVal) : Except Exc (List Char) :=
  match p.2 with
  | .text v => .ok (p.1.toList ++ '=' :: dnEscape v.toList)
  | .octets _ => .error ⟨.typeError, "cannot use a string pattern on a bytes-like object"⟩
  | .int _ => .error ⟨.typeError, "expected string or bytes-like object"⟩

/-- The loop; certificates.py:295-308. -/
def dnParts : List (String × NameVal) → Except Exc (List (List Char))
  | [] => .ok []
  | p :: l => do
    let x ← dnPart p
    let xs ← dnParts l
    .ok (x :: xs)

/-- `", ".join(result)`; certificates.py:309. -/
def dnJoin : List (List Char) → List Char
  | [] => []
  | [x] => x
  | x :: y :: l => x ++ ',' :: ' ' :: dnJoin (y :: l)

/-- `CertificateName.dn`, and `str(name)`; certificates.py:288-309. -/
def Name.dn (n : Name) : Except Exc String := do
  let parts ← dnParts n.components
  .ok (String.ofList (dnJoin parts))

end Signify
