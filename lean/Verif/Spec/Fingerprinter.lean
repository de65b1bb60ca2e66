/-
Specification vocabulary for fingerprinting: which bytes a list of ranges denotes, which ranges are legitimate, and the
expected result of `hashes()`.
-/
import Verif.Model.Fingerprinter

set_option autoImplicit false

namespace Signify.Spec

/-- The bytes `file[start:stop]` of a range (empty if it is reversed). -/
def rangeBytes (file : Bytes) (r : Range) : Bytes := (file.take r.stop.toNat).drop r.start.toNat

/-- The bytes denoted by a list of ranges: their concatenation, in the order of the list. -/
def bytesOf (file : Bytes) (rs : List Range) : Bytes := rs.flatMap (rangeBytes file)

/-- A legitimate range: non-negative, not reversed, and inside the file unless empty. -/
def WF (file : Bytes) (r : Range) : Prop :=
  0 ≤ r.start ∧ r.start ≤ r.stop ∧ (r.start = r.stop ∨ r.stop ≤ (file.length : Int))

/-- Ascending and disjoint. -/
def Ascending (rs : List Range) : Prop := rs.Pairwise (fun a b => a.stop ≤ b.start)

/-- What `ranges` means to `add_hashers`: `None` and an empty list stand for the whole file. -/
def requested (file : Bytes) (rs : List Range) : List Range :=
  if rs = [] then [⟨0, file.length⟩] else rs

/-- One `add_hashers` call by a client that builds the ranges list for this call only. -/
structure Reg where
  names : List String
  ranges : List Range
  description : String

/-- The client creates a list object with the given ranges and passes it to `add_hashers`. -/
def register (fp : FP) (g : Reg) : FP :=
  FP.addHashers { fp with heap := fp.heap.set fp.next g.ranges, next := fp.next + 1 } g.names (some fp.next) g.description

/-- Several registrations in a row. -/
def registerAll (fp : FP) (gs : List Reg) : FP := gs.foldl register fp

/-- `fp.hashes()` ends (after finitely many iterations) with outcome `out`, leaving the object in state `fp'`. -/
def Ends (H : String → Bytes → Bytes) (fp : FP) (out : Except Exc Hashes) (fp' : FP) : Prop :=
  ∃ fuel, fp.hashes H fuel = some (out, fp')

/-- The last registration using a description. -/
def lastFor (gs : List Reg) (d : String) : Option Reg := gs.reverse.find? (fun g => g.description = d)

/-- `res` reports, for every description, exactly the digests asked for by the last registration with it: every hash name
of the registration has the digest of the concatenation of the requested ranges, other names have no entry; other
descriptions have no entry; and no key occurs twice. -/
structure Reports (H : String → Bytes → Bytes) (file : Bytes) (gs : List Reg) (res : Hashes) : Prop where
  none : ∀ d, lastFor gs d = Option.none → res.get? d = Option.none
  some : ∀ d g, lastFor gs d = Option.some g → ∃ ds, res.get? d = Option.some ds ∧
    ∀ n, ds.get? n = if n ∈ g.names then Option.some (H n (bytesOf file (requested file g.ranges))) else Option.none
  nodup : (res.map Prod.fst).Nodup ∧ ∀ p ∈ res, (p.2.map Prod.fst).Nodup

/-- File offset `i` lies in the range. -/
def InRange (r : Range) (i : Int) : Prop := r.start ≤ i ∧ i < r.stop

end Signify.Spec
