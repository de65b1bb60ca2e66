/-
`SignedPEFile.verify` while others use the same file object, change the content of the file, and use the same stores and contexts, all at
the same time: `Model/Shared.lean` and `Model/TogetherPE.lean` in one.
-/
import Verif.Model.Shared
import Verif.Model.TogetherPE

set_option autoImplicit false

namespace Signify

/-- What a call shares with others: the file object, and stores, contexts and dictionaries. -/
structure Both where
  file : Handle
  world : World

/-- Code that uses the file, the stores and the contexts: it has ended, or makes an access, which changes the state by `f`, and goes on,
depending on what it has seen. -/
inductive BProg (α : Type) where
  | ret (r : Except Exc α)
  | step (f : Both → Both) (k : Both → BProg α)

namespace BProg
variable {α β : Type}

/-- code, and what follows its outcome (a value or an exception) -/
def onResult : BProg α → (Except Exc α → BProg β) → BProg β
  | .ret r, f => f r
  | .step g k, f => .step g (fun s => (k s).onResult f)

/-- sequencing; an exception ends the code -/
def bind (p : BProg α) (k : α → BProg β) : BProg β :=
  p.onResult (fun r => match r with | .ok a => k a | .error e => .ret (.error e))

instance : Monad BProg where
  pure a := .ret (.ok a)
  bind := BProg.bind

/-- Code that uses the file only (`Prog.turn`). -/
def onFile : Prog α → BProg α
  | .ret r => .ret r
  | .seek p k => .step (fun s => { s with file := { s.file with pos := p } }) (fun _ => onFile k)
  | .seekEnd k => .step (fun s => { s with file := { s.file with pos := s.file.bytes.length } }) (fun _ => onFile k)
  | .tell k => .step id (fun s => onFile (k s.file.pos))
  | .read n k => .step (fun s => { s with file := { s.file with pos := s.file.pos + (Prog.answer s.file n).length } })
      (fun s => onFile (k (Prog.answer s.file n)))

/-- Code that uses stores, contexts and dictionaries only (`WProg.turn`). -/
def onWorld : WProg α → BProg α
  | .ret r => .ret r
  | .step f k => .step (fun s => { s with world := f s.world }) (fun s => onWorld (k s.world))

/-- A run of the code while others do something: before its `k`-th access they turn the state `s` into `σ k s`.  The result is the
outcome, the state as it was at each access, and the state at the end. -/
def amid (σ : Nat → Both → Both) : BProg α → Nat → Both → Except Exc α × List Both × Both
  | .ret r, _, s => (r, [], s)
  | .step f k, n, s =>
    match (k (σ n s)).amid σ (n + 1) (f (σ n s)) with
    | (r, ms, s') => (r, σ n s :: ms, s')

/-- One access of the code; code that has ended does nothing. -/
def turn : BProg α → Both → BProg α × Both
  | .ret r, s => (.ret r, s)
  | .step f k, s => (k s, f s)

/-- Threads that share a file object and their stores; contexts and dictionaries are their own (`priv i` for thread `i`).  The scheduler
says whose turn it is.  `ps i` is what thread `i` has still to do. -/
def turns : List Nat → (Nat → BProg α) → Handle → (Nat → Store) → (Nat → World) → (Nat → BProg α) × Handle × (Nat → Store) × (Nat → World)
  | [], ps, file, stores, priv => (ps, file, stores, priv)
  | i :: l, ps, file, stores, priv =>
    match (ps i).turn ⟨file, { priv i with stores := stores }⟩ with
    | (p, s) => turns l (fun j => if j = i then p else ps j) s.file s.world.stores (fun j => if j = i then s.world else priv j)

end BProg

/-- `expected_hashes`, as it is at the time; signed_pe.py:346-350. -/
def givenHashes (args : PEVerifyArgs) (w : World) : Dict String Bytes :=
  match args.expectedHashes with
  | none => []
  | some i => w.dicts i

/-- `SignedPEFile.verify(...)`; signed_pe.py:362-464 (`peVerifyAmid` and `peVerifyW`).  Simplification: the dictionary of expected hashes is
read at the beginning and updated in one step, after the last use of the file (signed_pe.py:360), which matters only if others use it.
`flen` is the length of the file when it was opened; `fuel`, `hashFuel` and `storeFuel` limit the number of signatures, blocks and
certificates. -/
def peVerifyB (env : Env) (cd : Codec) (flen fuel hashFuel storeFuel : Nat) (args : PEVerifyArgs) : BProg (List (ASD × List (List Cert))) := do
  let given ← BProg.onWorld (WProg.act (fun w => (.ok (givenHashes args w), w)))  -- 346-350
  let (sel, more) ← BProg.onFile (verifyReadsP env cd flen fuel hashFuel args given)  -- 408-438
  BProg.onWorld (do
    WProg.act (match args.expectedHashes with                                 -- 360
      | none => pure ()
      | some i => M.setDict i (given.update more))
    verifyLoopW (verifyOneW env storeFuel [] (given.update more) args.kwargs) args.multiVerifyMode sel [] none)  -- 440-464

end Signify
