/-
The part of asn1crypto (version 1.5) on which the schemas of `signify/asn1/spc.py` and `signify/asn1/ctl.py` rest:
`asn1crypto/parser.py` and the decoding in `asn1crypto/core.py`.

asn1crypto is not part of the repository (and not available for reading); this follows its published source from memory.
Simplifications: values are decoded when their parent is, not when they are first looked at; primitive types in the constructed
encoding of BER are rejected.
-/
import Verif.Model.CtlFile

set_option autoImplicit false

namespace Signify.Asn1

/-- A ValueError of asn1crypto. -/
def asn1Err {α : Type} (msg : String) : Except Exc α := .error ⟨.valueError, msg⟩

/-- `int_from_bytes(b, signed=False)` -/
def intFromBytes (b : Bytes) : Nat := b.foldl (fun n x => n * 256 + x.toNat) 0

/-- What `_parse` returns: class, method, tag, header, contents, trailer. -/
structure Parts where
  cls : Nat
  constructed : Bool
  tag : Nat
  header : Bytes
  contents : Bytes
  trailer : Bytes
deriving DecidableEq, Repr

/-- A length: definite, or indefinite (BER). -/
inductive Len where
  | definite (n : Nat)
  | indefinite
deriving DecidableEq, Repr

/-- The loop of `_parse` for tags of several octets. -/
def longTag (acc : Nat) : Bytes → Except Exc (Nat × Bytes)
  | [] => asn1Err "Insufficient data"
  | b :: rest =>
    if b = 0x80 ∧ acc = 0 then asn1Err "Non-minimal tag encoding"
    else if b.toNat < 128 then .ok (acc * 128 + b.toNat % 128, rest)
    else longTag (acc * 128 + b.toNat % 128) rest

/-- The tag; `b` is the first octet. -/
def readTag (b : UInt8) (rest : Bytes) : Except Exc (Nat × Bytes) :=
  if b.toNat % 32 = 31 then
    match longTag 0 rest with
    | .error e => .error e
    | .ok (t, rest) => if t < 31 then asn1Err "Non-minimal tag encoding" else .ok (t, rest)
  else .ok (b.toNat % 32, rest)

/-- The length. -/
def readLen : Bytes → Except Exc (Len × Bytes)
  | [] => asn1Err "Insufficient data"
  | b :: rest =>
    if b.toNat < 128 then .ok (.definite b.toNat, rest)
    else
      let k := b.toNat - 128
      if k = 0 then .ok (.indefinite, rest)
      else if rest.length < k then asn1Err "Insufficient data"
      else .ok (.definite (intFromBytes (rest.take k)), rest.drop k)

/-- First octet, tag, length. -/
def readHeader : Bytes → Except Exc (UInt8 × Nat × Len × Bytes)
  | [] => asn1Err "Insufficient data"
  | b :: rest => do
    let (t, rest) ← readTag b rest
    let (l, rest) ← readLen rest
    .ok (b, t, l, rest)

/-- The loop of `_parse` that looks for the end of a value of indefinite length.  The fuel suffices if it is greater than the
number of octets. -/
def eocLoop (skip : Bytes → Except Exc Bytes) : Nat → Bytes → Except Exc Bytes
  | 0, _ => asn1Err "Insufficient data"
  | n + 1, data =>
    if data.take 2 = [0, 0] then .ok (data.drop 2)
    else
      match skip data with
      | .error e => .error e
      | .ok rest => eocLoop skip n rest

/-- `_parse(..., lengths_only=True)`: what follows the first value. -/
def skipValue : Nat → Bytes → Except Exc Bytes
  | 0, _ => asn1Err "Indefinite-length recursion limit exceeded"
  | d + 1, data => do
    let (b, _, l, rest) ← readHeader data
    match l with
    | .definite n => if rest.length < n then asn1Err "Insufficient data" else .ok (rest.drop n)
    | .indefinite =>
      if b.toNat / 32 % 2 = 0 then asn1Err "Indefinite-length element must be constructed"
      else eocLoop (skipValue d) (rest.length + 1) rest

/-- `_parse`: the first value and what follows it. -/
def parse (data : Bytes) : Except Exc (Parts × Bytes) := do
  let (b, t, l, rest) ← readHeader data
  let p : Parts := { cls := b.toNat / 64, constructed := b.toNat / 32 % 2 = 1, tag := t
                     header := data.take (data.length - rest.length), contents := [], trailer := [] }
  match l with
  | .definite n =>
    if rest.length < n then asn1Err "Insufficient data"
    else .ok ({ p with contents := rest.take n }, rest.drop n)
  | .indefinite =>
    if b.toNat / 32 % 2 = 0 then asn1Err "Indefinite-length element must be constructed"
    else do
      let after ← eocLoop (skipValue 10) (rest.length + 1) rest
      .ok ({ p with contents := rest.take (rest.length - after.length - 2), trailer := [0, 0] }, after)

/-- The parameters `implicit` and `explicit` of a field or alternative. -/
inductive Tagging where
  | none
  | implicit (n : Nat)
  | explicit (n : Nat)
deriving DecidableEq, Repr

mutual
/-- A type: `Any`; a primitive type, by its universal tag; `Sequence`; `SequenceOf`; `SetOf`; `Choice`. -/
inductive Ty where
  | any
  | prim (tag : Nat)
  | seq (fields : List Field)
  | seqOf (t : Ty)
  | setOf (t : Ty)
  | choice (alts : List Field)
/-- A field of a sequence or an alternative of a choice.  `optional`: has the parameter `optional` or `default`. -/
inductive Field where
  | mk (name : String) (tagging : Tagging) (optional : Bool) (type : Ty)
end

/-- A decoded value.  `contents` is the attribute of that name. -/
inductive Val where
  | any (p : Parts)
  | prim (contents : Bytes)
  | seq (contents : Bytes) (fields : List (String × Option Val))
  | list (contents : Bytes) (elements : List Val)
  | choice (name : String) (v : Val)

mutual
/-- Whether a value with the given class and tag may be the field: `_field_ids` and `Choice.validate`. -/
def Ty.accepts : Ty → Nat → Nat → Bool
  | .any, _, _ => true
  | .prim t, c, n => c == 0 && n == t
  | .seq _, c, n => c == 0 && n == 16
  | .seqOf _, c, n => c == 0 && n == 16
  | .setOf _, c, n => c == 0 && n == 17
  | .choice alts, c, n => anyAccepts alts c n
/-- Likewise, with the tagging. -/
def Field.accepts : Field → Nat → Nat → Bool
  | .mk _ .none _ t, c, n => t.accepts c n
  | .mk _ (.implicit k) _ _, c, n => c == 2 && n == k
  | .mk _ (.explicit k) _ _, c, n => c == 2 && n == k
/-- Likewise, for some of the alternatives. -/
def anyAccepts : List Field → Nat → Nat → Bool
  | [], _, _ => false
  | f :: l, c, n => f.accepts c n || anyAccepts l c n
end

/-- The name of a field. -/
def Field.name : Field → String | .mk n _ _ _ => n
/-- Whether a field may be absent. -/
def Field.optional : Field → Bool | .mk _ _ o _ => o

/-- The checks of class, method and tag in `_build`; `implicit` overrides class and tag. -/
def checkId (tag : Nat) (constructed : Bool) (implicit : Option Nat) (p : Parts) : Except Exc Unit :=
  let (c, t) := match implicit with
    | none => (0, tag)
    | some n => (2, n)
  if p.cls ≠ c then asn1Err "class should have been"
  else if p.constructed ≠ constructed then asn1Err "method should have been"
  else if p.tag ≠ t then asn1Err "tag should have been"
  else .ok ()

/-- The part of `_build` on explicit tagging: whatever follows the value inside is ignored. -/
def untag (tagging : Tagging) (k : Option Nat → Parts → Except Exc Val) (p : Parts) : Except Exc Val :=
  match tagging with
  | .none => k none p
  | .implicit n => k (some n) p
  | .explicit n =>
    if p.cls ≠ 2 then asn1Err "explicitly-tagged class should have been"
    else if p.constructed ≠ true then asn1Err "explicitly-tagged method should have been"
    else if p.tag ≠ n then asn1Err "explicitly-tagged tag should have been"
    else
      match parse p.contents with
      | .error e => .error e
      | .ok (q, _) => k none q

/-- The elements of a SEQUENCE OF or SET OF.  The fuel suffices if it is greater than the number of octets. -/
def buildAll (build : Parts → Except Exc Val) : Nat → Bytes → Except Exc (List Val)
  | _, [] => .ok []
  | 0, _ => asn1Err "Insufficient data"
  | n + 1, data => do
    let (p, rest) ← parse data
    let v ← build p
    let vs ← buildAll build n rest
    .ok (v :: vs)

/-- What follows the last field of a sequence: it must be a sequence of values, which are ignored. -/
def leftOver : Nat → Bytes → Except Exc Unit
  | _, [] => .ok ()
  | 0, _ => asn1Err "Insufficient data"
  | n + 1, data => do
    let (_, rest) ← parse data
    leftOver n rest

mutual
/-- `_build`, for a value that is not explicitly tagged. -/
def Ty.build : Ty → Option Nat → Parts → Except Exc Val
  | .any, _, p => .ok (.any p)
  | .prim tag, i, p => do
    checkId tag false i p
    .ok (.prim p.contents)
  | .seq fields, i, p => do
    checkId 16 true i p
    let l ← buildFields fields p.contents
    .ok (.seq p.contents l)
  | .seqOf t, i, p => do
    checkId 16 true i p
    let l ← buildAll (t.build none) (p.contents.length + 1) p.contents
    .ok (.list p.contents l)
  | .setOf t, i, p => do
    checkId 17 true i p
    let l ← buildAll (t.build none) (p.contents.length + 1) p.contents
    .ok (.list p.contents l)
  | .choice alts, _, p => buildAlts alts p
/-- `Sequence._parse_children`.  Simplification: data that match none of several remaining optional fields are treated like
data after the last field, asn1crypto may reject them. -/
def buildFields : List Field → Bytes → Except Exc (List (String × Option Val))
  | [], data => do
    leftOver (data.length + 1) data
    .ok []
  | .mk name tagging optional t :: l, data =>
    match data with
    | [] =>
      if optional then do
        let vs ← buildFields l []
        .ok ((name, none) :: vs)
      else asn1Err "Field is missing from structure"
    | _ :: _ => do
      let (p, rest) ← parse data
      if optional && !(Field.mk name tagging optional t).accepts p.cls p.tag then
        let vs ← buildFields l data
        .ok ((name, none) :: vs)
      else
        let v ← untag tagging t.build p
        let vs ← buildFields l rest
        .ok ((name, some v) :: vs)
/-- `Choice`: the alternative with the class and tag of the value. -/
def buildAlts : List Field → Parts → Except Exc Val
  | [], _ => asn1Err "The data did not match any of the alternatives"
  | .mk name tagging optional t :: l, p =>
    if (Field.mk name tagging optional t).accepts p.cls p.tag then do
      let v ← untag tagging t.build p
      .ok (.choice name v)
    else buildAlts l p
end

/-- `spec.load(data)`: whatever follows the first value is ignored. -/
def Ty.load (t : Ty) (data : Bytes) : Except Exc Val := do
  let (p, _) ← parse data
  t.build none p

/-- `spec(contents=data)`, for a sequence -/
def Ty.ofContents (t : Ty) (tag : Nat) (data : Bytes) : Except Exc Val :=
  t.build none { cls := 0, constructed := true, tag := tag, header := [], contents := data, trailer := [] }

/-! ### `.native` -/

/-- `Integer.native`, without names: two's complement. -/
def intNative (b : Bytes) : Int :=
  match b with
  | [] => 0
  | x :: _ => if x.toNat < 128 then intFromBytes b else (intFromBytes b : Int) - 256 ^ b.length

/-- The loop of `ObjectIdentifier.dotted`. -/
def oidLoop : Nat → List Nat → Bytes → List Nat
  | _, out, [] => out
  | part, out, b :: l =>
    let part := part * 128 + b.toNat % 128
    if b.toNat < 128 then
      if out.isEmpty then
        if part ≥ 80 then oidLoop 0 [2, part - 80] l
        else if part ≥ 40 then oidLoop 0 [1, part - 40] l
        else oidLoop 0 [0, part] l
      else oidLoop 0 (out ++ [part]) l
    else oidLoop part out l

/-- The numbers of `ObjectIdentifier.dotted`. -/
def oidArcs (b : Bytes) : List Nat := oidLoop 0 [] b

/-- `ObjectIdentifier.native` with the given `_map` -/
def oidNative (map : List (List Nat × String)) (b : Bytes) : String := (map.lookup (oidArcs b)).getD (dotted (oidArcs b))

/-- The bits of an octet, most significant first. -/
def octetBits (b : UInt8) : List Bool := (List.range 8).map (fun i => b.toNat / 2 ^ (7 - i) % 2 == 1)

/-- The bits of a BIT STRING. -/
def bits (b : Bytes) : List Bool :=
  match b with
  | [] => []
  | unused :: l => (l.flatMap octetBits).take (8 * l.length - unused.toNat)

/-- `BitString.native` with `_map`: the set of the names (or numbers) of the bits that are set, here in order. -/
def bitNames (map : List (Nat × String)) (b : Bytes) : List Flag :=
  ((bits b).zipIdx.filter (fun x => x.1)).map (fun x => match map.lookup x.2 with
    | some s => .name s
    | none => .bit x.2)

/-- Bytes of big-endian UTF-16 as those of little-endian UTF-16. -/
def swapPairs : Bytes → Bytes
  | a :: b :: l => b :: a :: swapPairs l
  | l => l

/-- `BMPString.native`: `decode("utf-16-be")` -/
def bmpNative (b : Bytes) : Except Exc String :=
  match utf16le (swapPairs b) with
  | .error e => .error e
  | .ok cs => .ok (String.ofList cs)

/-- `IA5String.native`: `decode("ascii")` -/
def asciiNative (b : Bytes) : Except Exc String :=
  if b.all (fun x => x.toNat < 128) then .ok (String.ofList (b.map (fun x => Char.ofNat x.toNat)))
  else .error ⟨.valueError, "'ascii' codec can't decode byte"⟩

/-! ### Access -/

/-- Access to a value of the wrong type; excluded by the schemas. -/
def asn1Bad {α : Type} : Except Exc α := .error ⟨.typeError, "not subscriptable"⟩

/-- `value[name]`, for a sequence; `none` if it is absent. -/
def Val.get (v : Val) (name : String) : Except Exc (Option Val) :=
  match v with
  | .seq _ fields => match fields.lookup name with
    | some x => .ok x
    | none => .error ⟨.keyError, "No field named"⟩
  | _ => asn1Bad

/-- `value[name]`, for a field that is always present. -/
def Val.req (v : Val) (name : String) : Except Exc Val := do
  match ← v.get name with
  | some x => .ok x
  | none => asn1Bad

/-- The contents of a primitive value. -/
def Val.octets (v : Val) : Except Exc Bytes :=
  match v with
  | .prim b => .ok b
  | _ => asn1Bad

/-- The elements of a SEQUENCE OF or SET OF. -/
def Val.elems (v : Val) : Except Exc (List Val) :=
  match v with
  | .list _ l => .ok l
  | _ => asn1Bad

/-- The parts of a value of unknown type. -/
def Val.parts (v : Val) : Except Exc Parts :=
  match v with
  | .any p => .ok p
  | _ => asn1Bad

/-- Truth value of `.native` of a value of unknown type.  Simplification: exact for BOOLEAN, INTEGER, NULL, OCTET STRING, the
string types, SEQUENCE and SET. -/
def truthy (p : Parts) : Bool :=
  if p.cls = 0 ∧ p.tag = 5 then false
  else if p.cls = 0 ∧ p.tag = 1 then p.contents != [0]
  else if p.cls = 0 ∧ p.tag = 2 then intNative p.contents != 0
  else !p.contents.isEmpty

end Signify.Asn1
