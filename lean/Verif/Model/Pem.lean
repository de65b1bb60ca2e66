/-
Model of the loading of certificates from PEM: `Certificate.from_pems`, `Certificate.from_pem` (signify/x509/certificates.py) and
`FileSystemCertificateStore._load` (signify/x509/context.py), with `asn1crypto.pem.unarmor` and `base64.b64decode`.

asn1crypto is not part of the repository (and not available for reading); `unarmor` follows its published source from memory.
-/
import Verif.Model.DerCms

set_option autoImplicit false

namespace Signify.Pem

open Signify Asn1

/-- `bytes.splitlines()`: lines end with LF, CR or CR LF.  `cur` is the line so far, reversed. -/
def splitLines (cur : Bytes) : Bytes → List Bytes
  | [] => if cur = [] then [] else [cur.reverse]
  | 0x0D :: 0x0A :: l => cur.reverse :: splitLines [] l
  | 0x0D :: l => cur.reverse :: splitLines [] l
  | 0x0A :: l => cur.reverse :: splitLines [] l
  | b :: l => splitLines (b :: cur) l

/-- The value of a letter of base64; the table of `binascii.a2b_base64`. -/
def b64Value (b : UInt8) : Option Nat :=
  let n := b.toNat
  if 65 ≤ n ∧ n ≤ 90 then some (n - 65)
  else if 97 ≤ n ∧ n ≤ 122 then some (n - 71)
  else if 48 ≤ n ∧ n ≤ 57 then some (n + 4)
  else if n = 43 then some 62
  else if n = 47 then some 63
  else none

/-- The loop of `binascii.a2b_base64` (not strict): position in the group of four, bits left over, padding seen, output so far
(reversed). -/
def b64Loop (pos left pads : Nat) (out : Bytes) : Bytes → Except Exc Bytes
  | [] =>
    if pos = 0 then .ok out.reverse
    else if pos = 1 then .error ⟨.valueError, "number of data characters cannot be 1 more than a multiple of 4"⟩
    else .error ⟨.valueError, "Incorrect padding"⟩
  | b :: l =>
    if b = 0x3D then
      if 2 ≤ pos then
        if 4 ≤ pos + (pads + 1) then .ok out.reverse else b64Loop pos left (pads + 1) out l
      else b64Loop pos left pads out l
    else
      match b64Value b with
      | none => b64Loop pos left pads out l
      | some v =>
        if pos = 0 then b64Loop 1 v 0 out l
        else if pos = 1 then b64Loop 2 (v % 16) 0 (UInt8.ofNat (left * 4 + v / 16) :: out) l
        else if pos = 2 then b64Loop 3 (v % 4) 0 (UInt8.ofNat (left * 16 + v / 4) :: out) l
        else b64Loop 0 0 0 (UInt8.ofNat (left * 64 + v) :: out) l

/-- `base64.b64decode(b)` -/
def b64decode (b : Bytes) : Except Exc Bytes := b64Loop 0 0 0 [] b

/-- `[A-Z0-9 ]` -/
def labelChar (b : UInt8) : Bool := (65 ≤ b.toNat && b.toNat ≤ 90) || (48 ≤ b.toNat && b.toNat ≤ 57) || b.toNat == 32

/-- `----` -/
def dashes (n : Nat) : Bytes := List.replicate n 0x2D

/-- `BEGIN ` -/
def beginWord : Bytes := [0x42, 0x45, 0x47, 0x49, 0x4E, 0x20]

/-- `[A-Z0-9 ]+(?: ----|-----)`, at the start of the line. -/
def labelEnd (l : Bytes) : Bool :=
  let run := l.takeWhile labelChar
  let rest := l.dropWhile labelChar
  (run != [] && (dashes 5).isPrefixOf rest) ||
    (decide (2 ≤ run.length) && run.getLast? == some 0x20 && (dashes 4).isPrefixOf rest)

/-- `re.match(b'^(?:---- |-----)BEGIN ([A-Z0-9 ]+)(?: ----|-----)', line)`; the name that is matched is not used by signify. -/
def isBegin (line : Bytes) : Bool :=
  (((dashes 5) ++ beginWord).isPrefixOf line || ((dashes 4 ++ [0x20]) ++ beginWord).isPrefixOf line) && labelEnd (line.drop 11)

/-- `line[0:5] in (b'-----', b'---- ')` -/
def isEnd (line : Bytes) : Bool := line.take 5 == dashes 5 || line.take 5 == dashes 4 ++ [0x20]

/-- The states of `_unarmor`. -/
inductive State where
  | trash
  | headers
  | body (base64 : Bytes)
deriving DecidableEq, Repr

/-- A ValueError. -/
def pemErr (msg : String) : Exc := ⟨.valueError, msg⟩

/-- The loop of `asn1crypto.pem._unarmor` over the lines: the values it yields and the exception that ends it, if any.  `found` tells
that the end of a block has been seen.  The headers and the name of a block are not used by signify; a header in which there are octets
that are not ASCII is an error. -/
def unarmorLines (s : State) (found : Bool) : List Bytes → Gen Bytes
  | [] => if found then ([], none) else ([], some (pemErr "no BEGIN/END combination found"))
  | line :: l =>
    if line = [] then unarmorLines s found l
    else
      match s with
      | .trash => if isBegin line then unarmorLines .headers found l else unarmorLines .trash found l
      | .headers =>
        if line.contains 0x3A then
          if line.all (fun b => b.toNat < 128) then unarmorLines .headers found l
          else ([], some (pemErr "'ascii' codec can't decode byte"))
        else if isEnd line then
          let (ds, e) := unarmorLines .trash true l
          ([] :: ds, e)
        else unarmorLines (.body line) found l
      | .body b =>
        if isEnd line then
          match b64decode b with
          | .error e => ([], some e)
          | .ok der =>
            let (ds, e) := unarmorLines .trash true l
            (der :: ds, e)
        else unarmorLines (.body (b ++ line)) found l

/-- `asn1crypto.pem.unarmor(content, multiple=True)` -/
def unarmor (content : Bytes) : Gen Bytes := unarmorLines .trash false (splitLines [] content)

/-- A generator that calls a function on the values of another one. -/
def genMap {α β : Type} (f : α → Except Exc β) : List α → Option Exc → Gen β
  | [], e => ([], e)
  | a :: l, e =>
    match f a with
    | .error e' => ([], some e')
    | .ok b =>
      let (bs, e) := genMap f l e
      (b :: bs, e)

/-- `Certificate.from_pems(content)`; certificates.py:171-177. -/
def fromPems (content : Bytes) : Gen Cert :=
  let (ds, e) := unarmor content
  genMap certFromDer ds e

/-- `Certificate.from_pem(content)`; certificates.py:166-169.  `next` raises StopIteration if there is none, which cannot happen here
(`fromPem_stop`). -/
def fromPem (content : Bytes) : Except Exc Cert :=
  match fromPems content with
  | (c :: _, _) => .ok c
  | ([], some e) => .error e
  | ([], none) => .error ⟨.exception, "StopIteration"⟩

/-- The loop of `_load` over the files, in the order of `glob`: the certificates appended, and the exception that interrupts it.
`.error` stands for a file that cannot be opened or read (a directory, for instance); context.py:161-164. -/
def loadFiles : List (Except Exc Bytes) → List Cert × Option Exc
  | [] => ([], none)
  | .error e :: _ => ([], some e)
  | .ok content :: l =>
    match fromPems content with
    | (cs, some e) => (cs, some e)
    | (cs, none) =>
      let (ds, e) := loadFiles l
      (cs ++ ds, e)

/-- What `FileSystemCertificateStore._load` finds at its location: a directory, with its entries, or one file. -/
inductive Location where
  | directory (entries : List (Except Exc Bytes))
  | file (content : Except Exc Bytes)

/-- `_load`; context.py:156-167. -/
def Location.load : Location → List Cert × Option Exc
  | .directory l => loadFiles l
  | .file c => loadFiles [c]

/-- `FileSystemCertificateStore(location, trusted=..., ctl=...)`; context.py:137-146. -/
def fileSystemStore (location : Location) (trusted : Bool) (ctl : Option CTL) : Store where
  items := []
  trusted := trusted
  ctl := ctl
  pending := some location.load

end Signify.Pem
