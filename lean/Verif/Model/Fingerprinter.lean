/-
Model of `signify/fingerprinter.py` (classes `Finger`, `Fingerprinter`).
`AuthenticodeFingerprinter` is in `Model/SignedPE.lean`.
-/
import Verif.Model.Py

set_option autoImplicit false

namespace Signify

/-- `Range(start, end)`; fingerprinter.py:39.  Python ints, possibly negative. -/
structure Range where
  start : Int
  stop : Int
deriving DecidableEq, Repr

/-- A `hashlib` object: its `.name` and the concatenation of everything passed to `.update()`.
Trusted `hashlib` contract: `m.update(a); m.update(b)` is `m.update(a + b)`, and `.digest()` is a function of the
name and this concatenation. -/
structure Hasher where
  name : String
  seen : Bytes
deriving DecidableEq, Repr

/-- `Finger`; fingerprinter.py:43-65.  `_ranges` is a *reference* (`ref`) to a Python list: `add_hashers` stores the
list object given by the caller without copying (line 63, 154). -/
structure Finger where
  ref : Nat
  hashers : List Hasher
  description : String
deriving DecidableEq, Repr

/-- Heap of Python list objects holding `Range`s. -/
abbrev RangeHeap := Nat → List Range

/-- Assignment to one list object. -/
def RangeHeap.set (h : RangeHeap) (r : Nat) (l : List Range) : RangeHeap :=
  fun x => if x = r then l else h x

/-- `Fingerprinter`; fingerprinter.py:115-133.  `file` is the content of the file object, assumed not to change while
the fingerprinter is in use; `_filelength` (line 131) is its length.  `heap`/`next` hold the list objects reachable by
the caller and by the fingers. -/
structure FP where
  file : Bytes
  blockSize : Int
  fingers : List Finger
  heap : RangeHeap
  next : Nat

/-- `Fingerprinter(file_obj, block_size)`; fingerprinter.py:116-133.  The heap is the caller's. -/
def FP.new (file : Bytes) (blockSize : Int := 1000000) (heap : RangeHeap := fun _ => []) (next : Nat := 0) : FP :=
  { file, blockSize, fingers := [], heap, next }

/-- `self._filelength`; fingerprinter.py:130-131. -/
def FP.filelength (fp : FP) : Int := fp.file.length

/-- `Finger.current_range`; fingerprinter.py:67-72. -/
def Finger.currentRange (heap : RangeHeap) (f : Finger) : Option Range := (heap f.ref).head?

/-- `Finger.consume` acting on the content of the list `_ranges`; fingerprinter.py:74-106. -/
def consumeRanges (ranges : List Range) (start stop : Int) : Except Exc (List Range) :=
  match ranges with
  | [] => .ok []                                                              -- 91-93
  | old :: rest =>
    if old.start > start then                                                 -- 95
      if old.start < stop then .error ⟨.runtimeError, "Block end too high."⟩  -- 96-97
      else .ok (old :: rest)                                                  -- 98
    else if old.start < start then .error ⟨.runtimeError, "Block start too high."⟩  -- 99-100
    else if old.stop = stop then .ok rest                                     -- 101-102
    else if old.stop > stop then .ok (⟨stop, old.stop⟩ :: rest)               -- 103-104
    else .error ⟨.runtimeError, "Block length exceeds range."⟩                -- 105-106

/-- `Finger.update`; fingerprinter.py:108-112. -/
def Finger.update (f : Finger) (block : Bytes) : Finger :=
  { f with hashers := f.hashers.map (fun h => { h with seen := h.seen ++ block }) }

/-- `Fingerprinter.add_hashers`; fingerprinter.py:135-155.  `hashers` are hash functions identified by their name;
`ranges` is `None` or a list object.  `not ranges` (line 151) also holds for an empty list; a new list object is then
created. -/
def FP.addHashers (fp : FP) (hashers : List String) (ranges : Option Nat) (description : String) : FP :=
  let concrete := hashers.map (fun n => (⟨n, []⟩ : Hasher))                   -- 150
  let fresh : FP :=                                                           -- 151-152
    { fp with heap := fp.heap.set fp.next [⟨0, fp.filelength⟩],
              next := fp.next + 1,
              fingers := fp.fingers ++ [⟨fp.next, concrete, description⟩] }
  match ranges with
  | none => fresh
  | some r =>
    if fp.heap r = [] then fresh
    else { fp with fingers := fp.fingers ++ [⟨r, concrete, description⟩] }    -- 154-155

/-- `Fingerprinter._next_interval`; fingerprinter.py:157-180.  Python sets are lists here: only minima are taken. -/
def nextInterval (blockSize : Int) (fingers : List Finger) (heap : RangeHeap) : Option Range :=
  let cur := fingers.filterMap (Finger.currentRange heap)
  let starts := cur.map Range.start                                           -- 167
  let ends := cur.map Range.stop                                              -- 168
  match starts.min? with                                                      -- 170-173
  | none => none
  | some minStart =>
    let starts := starts.filter (fun x => x ≠ minStart)                       -- 174
    match (ends ++ starts).min? with                                          -- 175-177
    | none => none
    | some minEnd =>
      let minEnd := if minEnd - minStart > blockSize then minStart + blockSize else minEnd  -- 178-179
      some ⟨minStart, minEnd⟩

/-- `Fingerprinter._hash_block`; fingerprinter.py:182-208.  Returns the fingers (updates made before an exception
survive) and the exception, if any. -/
def hashBlock (heap : RangeHeap) (block : Bytes) (start stop : Int) : List Finger → List Finger × Option Exc
  | [] => ([], none)
  | f :: fs =>
    match f.currentRange heap with
    | none =>                                                                 -- 199-200
      let (fs', e) := hashBlock heap block start stop fs
      (f :: fs', e)
    | some r =>
      if start > r.start ∨ (start = r.start ∧ stop > r.stop) ∨ (start < r.start ∧ r.start < stop) then
        (f :: fs, some ⟨.runtimeError, "Cutting across fingers."⟩)            -- 201-206
      else
        let f' := if start = r.start then f.update block else f               -- 207-208
        let (fs', e) := hashBlock heap block start stop fs
        (f' :: fs', e)

/-- `Fingerprinter._consume`; fingerprinter.py:210-212. -/
def consumeAll (start stop : Int) : List Finger → RangeHeap → RangeHeap × Option Exc
  | [], heap => (heap, none)
  | f :: fs, heap =>
    match consumeRanges (heap f.ref) start stop with
    | .error e => (heap, some e)
    | .ok l => consumeAll start stop fs (heap.set f.ref l)

/-- `file.seek(start, SEEK_SET)` followed by `file.read(n)` on a binary file: a negative position is rejected, a negative
`n` reads everything up to the end of the file. -/
def readAt (file : Bytes) (start n : Int) : Except Exc Bytes :=
  if start < 0 then .error ⟨.valueError, "negative seek"⟩
  else
    let tail := file.drop start.toNat
    if n < 0 then .ok tail else .ok (tail.take n.toNat)

/-- Outcome of one iteration of the loop in `hashes()`. -/
inductive Step where
  /-- `_next_interval` is `None`: the loop ends. -/
  | done
  /-- an exception leaves the loop -/
  | raised (e : Exc) (fp : FP)
  /-- the interval has been read, hashed and consumed -/
  | next (iv : Range) (fp : FP)

/-- One iteration of the `while True` loop of `Fingerprinter.hashes`; fingerprinter.py:228-237. -/
def FP.step (fp : FP) : Step :=
  match nextInterval fp.blockSize fp.fingers fp.heap with                     -- 229-231
  | none => .done
  | some iv =>
    match readAt fp.file iv.start (iv.stop - iv.start) with                   -- 232-233
    | .error e => .raised e fp
    | .ok block =>
      if (block.length : Int) ≠ iv.stop - iv.start then                       -- 234-235
        .raised ⟨.runtimeError, "Short read on file."⟩ fp
      else
        match hashBlock fp.heap block iv.start iv.stop fp.fingers with        -- 236
        | (fingers, some e) => .raised e { fp with fingers }
        | (fingers, none) =>
          match consumeAll iv.start iv.stop fingers fp.heap with              -- 237
          | (heap, some e) => .raised e { fp with fingers, heap }
          | (heap, none) => .next iv { fp with fingers, heap }

/-- The `while True` loop, at most `fuel` iterations; `none` means it is still running. -/
def FP.loop : Nat → FP → Option (FP × Option Exc)
  | 0, _ => none
  | n + 1, fp =>
    match fp.step with
    | .done => some (fp, none)
    | .raised e fp' => some (fp', some e)
    | .next _ fp' => FP.loop n fp'

/-- The intervals read by the first `fuel` iterations of the loop, in order. -/
def FP.trace : Nat → FP → List Range
  | 0, _ => []
  | n + 1, fp =>
    match fp.step with
    | .next iv fp' => iv :: FP.trace n fp'
    | _ => []

/-- The type of the result of `hashes()`. -/
abbrev Hashes := Dict String (Dict String Bytes)

/-- The leftover test in `Fingerprinter.hashes`; fingerprinter.py:241-246. -/
def leftoverBad (flen : Int) (ranges : List Range) : Bool :=
  match ranges.head? with
  | none => false
  | some leftover => decide (ranges.length > 1) || decide (leftover.start ≠ flen) || decide (leftover.stop ≠ flen)

/-- The result part of `Fingerprinter.hashes`; fingerprinter.py:239-252. `H name data` is the digest of `data`. -/
def collect (H : String → Bytes → Bytes) (flen : Int) (heap : RangeHeap) : List Finger → Hashes → Except Exc Hashes
  | [], results => .ok results
  | f :: fs, results =>
    if leftoverBad flen (heap f.ref) then .error ⟨.runtimeError, "Non-empty range remains."⟩  -- 241-247
    else
      let res : Dict String Bytes := Dict.ofPairs (f.hashers.map (fun h => (h.name, H h.name h.seen)))  -- 249-251
      collect H flen heap fs (results.set f.description res)                  -- 252

/-- `Fingerprinter.hashes`; fingerprinter.py:214-256. -/
def FP.hashes (H : String → Bytes → Bytes) (fuel : Nat) (fp : FP) : Option (Except Exc Hashes × FP) :=
  match fp.loop fuel with
  | none => none
  | some (fp', some e) => some (.error e, fp')
  | some (fp', none) =>
    match collect H fp'.filelength fp'.heap fp'.fingers [] with
    | .error e => some (.error e, fp')
    | .ok res => some (.ok res, { fp' with fingers := [] })                   -- 255-256

/-- `Fingerprinter.hash`; fingerprinter.py:258-269. -/
def FP.hash (H : String → Bytes → Bytes) (fuel : Nat) (fp : FP) : Option (Except Exc (Dict String Bytes) × FP) :=
  match fp.hashes H fuel with
  | none => none
  | some (.error e, fp') => some (.error e, fp')
  | some (.ok res, fp') =>
    match res with
    | [(_, r)] => some (.ok r, fp')
    | _ => some (.error ⟨.runtimeError, "Can't return a single hash, use hashes() instead"⟩, fp')

end Signify
