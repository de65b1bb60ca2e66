/-
Model of a `FileSystemCertificateStore` shared by several threads (signify/x509/context.py:24-167): the steps of the methods, in any
interleaving.  `TRUSTED_CERTIFICATE_STORE` (signify/authenticode/structures.py:72-76) is such a store, shared by all verifications
of a process.
-/
import Verif.Model.StoreOps

set_option autoImplicit false

namespace Signify.Threads

open Signify

/-- Where a thread is. -/
inductive Pc where
  /-- Not in a method of the store. -/
  | idle
  /-- At the start of the operation: `self._load()`, line `if self._loaded`; context.py:148-158. -/
  | called (o : StoreOp)
  /-- `_loaded` has been found False; context.py:159. -/
  | marking (o : StoreOp)
  /-- In `self.extend(Certificate.from_pems(...))`, with the certificates that are still to be appended; context.py:161-167. -/
  | reading (o : StoreOp) (rest : List Cert)
  /-- Past `_load`: in the method of `list`. -/
  | ready (o : StoreOp)
  /-- In a `for` loop over the iterator of `list`, which has returned the certificates `seen`. -/
  | scanning (seen : List Cert)
  /-- In `list.__contains__`, before the comparison with element `i`. -/
  | looking (o : StoreOp) (c : Cert) (i : Nat)
deriving DecidableEq, Repr

/-- The store, and the threads. -/
structure State where
  items : List Cert
  loaded : Bool
  trusted : Bool
  thr : Nat → Pc

/-- The thread `t` is now at `pc`. -/
def State.goto (s : State) (t : Nat) (pc : Pc) : State := { s with thr := fun u => if u = t then pc else s.thr u }

/-- What can be seen of an execution: operations are called, and they return. -/
inductive Event where
  | call (t : Nat) (o : StoreOp)
  | ret (t : Nat) (o : StoreOp) (r : Except Exc OpValue)
deriving DecidableEq

/-- The operation returns. -/
def State.back (s : State) (t : Nat) (o : StoreOp) (r : Except Exc OpValue) : State × Option Event :=
  (s.goto t .idle, some (.ret t o r))

/-- Whether the method begins with `self._load()`; context.py:148-154.  The others are those of `list` (or `is_trusted`, which uses
`in`). -/
def loads : StoreOp → Bool
  | .iter => true
  | .len => true
  | _ => false

/-- The next step of a thread; context.py:43-44, 64-76, 148-167.  `loc` is what the location gives: certificates, and the exception
that ends the reading, if any.  A step is what happens between two points at which Python may switch threads: the test of `_loaded`,
the assignment to it, each certificate appended by `extend` (its argument is a generator, which runs Python code for each of them),
each step of an iterator, each comparison of `in` (`Certificate.__eq__`).  Opening and reading the files changes nothing that others
see, and is part of the step that follows.  The iterator of a list looks at the list as it is when asked for the next element. -/
def advance (loc : List Cert × Option Exc) (s : State) (t : Nat) : State × Option Event :=
  match s.thr t with
  | .idle => (s, none)
  | .called o =>
    if loads o then
      if s.loaded then (s.goto t (.ready o), none) else (s.goto t (.marking o), none)
    else (s.goto t (.ready o), none)
  | .marking o => ({ s with loaded := true }.goto t (.reading o loc.1), none)
  | .reading o (c :: rest) => ({ s with items := s.items ++ [c] }.goto t (.reading o rest), none)
  | .reading o [] =>
    match loc.2 with
    | none => (s.goto t (.ready o), none)
    | some e => s.back t o (.error e)
  | .ready .iter => (s.goto t (.scanning []), none)
  | .ready .len => s.back t .len (.ok (.number s.items.length))
  | .ready (.contains c) => (s.goto t (.looking (.contains c) c 0), none)
  | .ready (.isTrusted c) =>
    if s.trusted then (s.goto t (.looking (.isTrusted c) c 0), none) else s.back t (.isTrusted c) (.ok (.truth false))
  | .ready (.item n) =>
    match listItem s.items n with
    | none => s.back t (.item n) (.error ⟨.indexError, "list index out of range"⟩)
    | some c => s.back t (.item n) (.ok (.cert c))
  | .ready (.append c) => { s with items := s.items ++ [c] }.back t (.append c) (.ok .none)
  | .ready .pop =>
    match s.items.getLast? with
    | none => s.back t .pop (.error ⟨.indexError, "pop from empty list"⟩)
    | some c => { s with items := s.items.dropLast }.back t .pop (.ok (.cert c))
  | .scanning seen =>
    match s.items[seen.length]? with
    | some c => (s.goto t (.scanning (seen ++ [c])), none)
    | none => s.back t .iter (.ok (.certs seen))
  | .looking o c i =>
    match s.items[i]? with
    | some d => if c.pyEq d then s.back t o (.ok (.truth true)) else (s.goto t (.looking o c (i + 1)), none)
    | none => s.back t o (.ok (.truth false))

/-- Executions: any thread may call an operation whenever it is in none, and any thread may make its next step; nothing else is
assumed about the scheduler.  The trace is what happened, in order. -/
inductive Run (loc : List Cert × Option Exc) (s0 : State) : List Event → State → Prop
  | start : Run loc s0 [] s0
  | call {tr : List Event} {s : State} (t : Nat) (o : StoreOp) : Run loc s0 tr s → s.thr t = .idle →
      Run loc s0 (tr ++ [.call t o]) (s.goto t (.called o))
  | step {tr : List Event} {s : State} (t : Nat) : Run loc s0 tr s → s.thr t ≠ .idle →
      Run loc s0 (tr ++ (advance loc s t).2.toList) (advance loc s t).1

/-- A store used by no thread at the moment, with these contents; `loaded` is its `_loaded`. -/
def State.quiet (items : List Cert) (loaded trusted : Bool) : State := ⟨items, loaded, trusted, fun _ => .idle⟩

end Signify.Threads
