/-
The code that works on the file object while others use it too: other threads that share the file object move its position, and
other programs change its content, between any two operations.  The functions of `Model/Handle.lean` are written here as
*programs*, one operation on the file after the other, so that something else can happen in between.
-/
import Verif.Model.Handle

set_option autoImplicit false

namespace Signify

/-- Code that uses the file object: it has ended, or performs one operation and goes on, depending on the answer. -/
inductive Prog (α : Type) where
  /-- the code has returned a value or raised an exception -/
  | ret (r : Except Exc α)
  /-- `file.seek(p, os.SEEK_SET)` -/
  | seek (p : Nat) (k : Prog α)
  /-- `file.seek(0, os.SEEK_END)` -/
  | seekEnd (k : Prog α)
  /-- `file.tell()` -/
  | tell (k : Nat → Prog α)
  /-- `file.read(n)` -/
  | read (n : Int) (k : Bytes → Prog α)

namespace Prog
variable {α β : Type}

/-- code, and what follows its outcome (a value or an exception) -/
def onResult : Prog α → (Except Exc α → Prog β) → Prog β
  | .ret r, f => f r
  | .seek p k, f => .seek p (k.onResult f)
  | .seekEnd k, f => .seekEnd (k.onResult f)
  | .tell k, f => .tell (fun n => (k n).onResult f)
  | .read n k, f => .read n (fun b => (k b).onResult f)

/-- sequencing; an exception ends the code -/
def bind (p : Prog α) (k : α → Prog β) : Prog β :=
  p.onResult (fun r => match r with | .ok a => k a | .error e => .ret (.error e))

instance : Monad Prog where
  pure a := .ret (.ok a)
  bind := Prog.bind

/-- `raise e` -/
def raise (e : Exc) : Prog α := .ret (.error e)

/-- `try: p except …: handler` -/
def tryCatch (p : Prog α) (handler : Exc → Prog α) : Prog α :=
  p.onResult (fun r => match r with | .ok a => .ret (.ok a) | .error e => handler e)

/-- `file.seek(p, os.SEEK_SET)`: a negative position is rejected. -/
def doSeek (p : Int) : Prog Unit := if p < 0 then raise ⟨.valueError, "negative seek"⟩ else .seek p.toNat (.ret (.ok ()))

/-- `file.read(n)` -/
def doRead (n : Int) : Prog Bytes := .read n (fun b => .ret (.ok b))

/-- `struct.unpack(..., file.read(n))[0]` for an `n`-byte integer. -/
def unpack (n : Nat) : Prog Nat := .read n (fun b => .ret (unpackLE n b))

/-- What `file.read(n)` gives for a file at a position (`HM.read`). -/
def answer (h : Handle) (n : Int) : Bytes := if n < 0 then h.bytes.drop h.pos else (h.bytes.drop h.pos).take n.toNat

/-- A run of the code while others use the file: before its `k`-th operation they turn the file `h` into `σ k h`.  The result is
the outcome, the file as it was at each operation, the number of operations performed so far and the file at the end. -/
def amid (σ : Nat → Handle → Handle) : Prog α → Nat → Handle → (Except Exc α × List Handle) × Nat × Handle
  | .ret r, n, h => ((r, []), n, h)
  | .seek p k, n, h =>
    match k.amid σ (n + 1) { σ n h with pos := p } with
    | ((r, ms), s) => ((r, σ n h :: ms), s)
  | .seekEnd k, n, h =>
    match k.amid σ (n + 1) { σ n h with pos := (σ n h).bytes.length } with
    | ((r, ms), s) => ((r, σ n h :: ms), s)
  | .tell k, n, h =>
    match (k (σ n h).pos).amid σ (n + 1) (σ n h) with
    | ((r, ms), s) => ((r, σ n h :: ms), s)
  | .read c k, n, h =>
    match (k (answer (σ n h) c)).amid σ (n + 1) { σ n h with pos := (σ n h).pos + (answer (σ n h) c).length } with
    | ((r, ms), s) => ((r, σ n h :: ms), s)

/-- One operation of the code on a file; code that has ended does nothing. -/
def turn : Prog α → Handle → Prog α × Handle
  | .ret r, h => (.ret r, h)
  | .seek p k, h => (k, { h with pos := p })
  | .seekEnd k, h => (k, { h with pos := h.bytes.length })
  | .tell k, h => (k h.pos, h)
  | .read n k, h => (k (answer h n), { h with pos := h.pos + (answer h n).length })

/-- Threads that share a file object: the scheduler says whose turn it is; an operation on the file is not interrupted.  `ps i` is
what thread `i` has still to do. -/
def turns : List Nat → (Nat → Prog α) → Handle → (Nat → Prog α) × Handle
  | [], ps, h => (ps, h)
  | i :: l, ps, h =>
    match (ps i).turn h with
    | (p, h') => turns l (fun j => if j = i then p else ps j) h'

end Prog

/-- `SignedPEFile(file_obj)`, `Fingerprinter(file_obj)`; signed_pe.py:62-72, fingerprinter.py:128-131. -/
def openLengthP : Prog Nat := .seekEnd (.tell (fun n => .ret (.ok n)))

/-- signed_pe.py:162-214 (`parseDirectoriesH`). -/
def parseDirectoriesP (flen oho ohs rvaBase certBase : Nat) : Prog (Dict String RelRange) :=
  let location : Dict String RelRange := [("checksum", ⟨oho + 64, 4⟩)]        -- 163
  if oho + ohs < rvaBase + 4 then pure location                               -- 166-171
  else do
    Prog.doSeek rvaBase                                                       -- 172
    let numberOfRva ← Prog.unpack 4                                           -- 173
    if numberOfRva < 5 then pure location                                     -- 174-180
    else if oho + ohs < certBase + 8 then pure location                       -- 181-186
    else do
      let location := Dict.set location "datadir_certtable" ⟨certBase, 8⟩     -- 190
      Prog.doSeek certBase                                                    -- 193
      let entry ← Prog.doRead 8                                               -- 194
      if entry.length ≠ 8 then Prog.raise ⟨.structError, "unpack requires a buffer"⟩
      else
        let address := leNat (entry.take 4)
        let size := leNat (entry.drop 4)
        if size = 0 then pure location                                        -- 196-198
        else if address < ohs + oho ∨ address + size > flen then pure location  -- 200-211
        else pure (Dict.set location "certtable" ⟨address, size⟩)             -- 213-214

/-- `_parse_pe_header_locations`; signed_pe.py:99-214 (`parsePEHeaderH`). -/
def parsePEHeaderP (flen : Nat) : Prog (Dict String RelRange) := do
  Prog.doSeek 0                                                               -- 109
  let mz ← Prog.doRead 2                                                      -- 110
  if mz ≠ [0x4D, 0x5A] then .ret (peErr "MZ header not found")
  else do
    Prog.doSeek 0x3C                                                          -- 114
    let peOffset ← Prog.unpack 4                                              -- 115
    if peOffset ≥ flen then .ret (peErr "PE header location is beyond file boundaries")  -- 116-120
    else do
      Prog.doSeek peOffset                                                    -- 123
      let magic ← Prog.doRead 4                                               -- 124
      if magic ≠ [0x50, 0x45, 0, 0] then .ret (peErr "PE header not found")
      else do
        Prog.doSeek (peOffset + 20 : Nat)                                     -- 128
        let ohs ← Prog.unpack 2                                               -- 129
        let oho := peOffset + 24                                              -- 130
        if ohs + oho > flen then .ret (peErr "The optional header exceeds the file length")  -- 131-137
        else if ohs < 68 then .ret (peErr "The optional header size is insufficient for authenticode")  -- 139-145
        else do
          Prog.doSeek oho                                                     -- 148
          let signature ← Prog.unpack 2                                       -- 149
          if signature = 0x10B then parseDirectoriesP flen oho ohs (oho + 92) (oho + 128)
          else if signature = 0x20B then parseDirectoriesP flen oho ohs (oho + 108) (oho + 144)
          else .ret (peErr "The PE Optional Header signature is unknown")

/-- `get_authenticode_omit_sections`; signed_pe.py:74-97 (`omitSectionsH`). -/
def omitSectionsP (flen : Nat) : Prog (Option (Dict String RelRange)) :=
  Prog.tryCatch
    (do
      let locations ← parsePEHeaderP flen
      pure (some (locations.filter (fun kv => kv.1 ∈ ["checksum", "datadir_certtable", "certtable"]))))
    (fun e => if e.is .signedPEParseError || e.is .structError then pure none else Prog.raise e)  -- 91-92

/-- signed_pe.py:227-248 (`certWhileH`). -/
def certWhileP (flen tableEnd position : Nat) : Prog (Option (CertEntry × CertGen)) :=
  if position < tableEnd then                                                 -- 227
    if position + 8 > flen then                                               -- 229-232
      Prog.raise ⟨.signedPEParseError, "Position of certificate table is beyond length of file"⟩
    else do
      Prog.doSeek position                                                    -- 233
      let length ← Prog.unpack 4                                              -- 234
      let revision ← Prog.unpack 2                                            -- 235
      let type ← Prog.unpack 2                                                -- 236
      if length ≤ 8 ∨ position + length > tableEnd then                       -- 240-241
        Prog.raise ⟨.signedPEParseError, "Invalid length in certificate table header"⟩
      else do
        let certificate ← Prog.doRead (length - 8 : Nat)                      -- 242
        pure (some (⟨revision, type, certificate⟩, .suspended position length tableEnd))  -- 244-248
  else pure none

/-- `next()` of the generator `_parse_cert_table()`; signed_pe.py:216-249 (`CertGen.run`). -/
def CertGen.runP (flen : Nat) : CertGen → Prog (Option (CertEntry × CertGen))
  | .start => do
    match ← omitSectionsP flen with                                           -- 219
    | none => Prog.raise ⟨.signedPEParseError, "The PE file does not contain a certificate table."⟩
    | some locations =>
      match locations.get? "certtable" with                                   -- 220-223
      | none => Prog.raise ⟨.signedPEParseError, "The PE file does not contain a certificate table."⟩
      | some t => certWhileP flen (t.start + t.length) t.start                -- 225-226
  | .suspended position length tableEnd =>
    certWhileP flen tableEnd (position + (length + (8 - length % 8) % 8))     -- 249
  | .finished => pure none

/-- signed_pe.py:307-324 (`sdPullH`). -/
def sdPullP (cd : Codec) (flen : Nat) (nested : Bool) : Nat → CertGen → Bool → Prog (Option (ASD × SdGen))
  | 0, _, _ => Prog.raise ⟨.runtimeError, "not terminated"⟩
  | fuel + 1, certs, found => do
    match ← certs.runP flen with                                              -- 307
    | none =>
      if !found then Prog.raise ⟨.signedPEParseError, "A SignedData structure was not found"⟩  -- 320-324
      else pure none
    | some (c, certs) =>
      if c.revision ≠ 0x200 then Prog.raise ⟨.signedPEParseError, "Unknown certificate revision"⟩  -- 308-311
      else if c.type = 2 then do                                              -- 313
        let a ← (.ret (fromEnvelope cd c.certificate) : Prog ASD)             -- 315-317
        match recursiveNested nested a with                                   -- 314
        | x :: queue => pure (some (x, .suspended certs queue))
        | [] => sdPullP cd flen nested fuel certs true                        -- 318
      else sdPullP cd flen nested fuel certs found

/-- The `except` clause of `iter_signed_datas`; signed_pe.py:323-325 (`sdCatch`). -/
def sdCatchP (ignore : Bool) (p : Prog (Option (ASD × SdGen))) : Prog (Option (ASD × SdGen)) :=
  Prog.tryCatch p (fun e => if e.is .signedPEParseError && ignore then pure none else Prog.raise e)

/-- signed_pe.py:266-325 (`SdGen.run`). -/
def SdGen.runP (cd : Codec) (flen : Nat) (nested ignore : Bool) : SdGen → Prog (Option (ASD × SdGen))
  | .start => sdCatchP ignore (sdPullP cd flen nested (flen + 2) .start false)
  | .suspended certs (x :: queue) => pure (some (x, .suspended certs queue))
  | .suspended certs [] => sdCatchP ignore (sdPullP cd flen nested (flen + 2) certs true)
  | .finished => pure none

/-- The values a generator gives until it stops, at most `fuel` of them, with the exception that ends it (`SdGen.drainH`). -/
def SdGen.drainP (cd : Codec) (flen : Nat) (nested ignore : Bool) : Nat → SdGen → Prog (Option (Gen ASD))
  | 0, _ => pure none
  | fuel + 1, g =>
    (g.runP cd flen nested ignore).onResult (fun r =>
      match r with
      | .error e => pure (some ([], some e))
      | .ok none => pure (some ([], none))
      | .ok (some (a, g)) => do
        match ← SdGen.drainP cd flen nested ignore fuel g with
        | none => pure none
        | some (l, e) => pure (some (a :: l, e)))

/-- One iteration of the loop of `Fingerprinter.hashes`; fingerprinter.py:228-237 (`FP.stepH`). -/
def FP.stepP (fp : FP) : Prog Step :=
  match nextInterval fp.blockSize fp.fingers fp.heap with                     -- 229-231
  | none => pure .done
  | some iv =>
    (do Prog.doSeek iv.start; Prog.doRead (iv.stop - iv.start) : Prog Bytes).onResult (fun r =>  -- 232-233
      match r with
      | .error e => pure (.raised e fp)
      | .ok block =>
        if (block.length : Int) ≠ iv.stop - iv.start then                     -- 234-235
          pure (.raised ⟨.runtimeError, "Short read on file."⟩ fp)
        else
          match hashBlock fp.heap block iv.start iv.stop fp.fingers with      -- 236
          | (fingers, some e) => pure (.raised e { fp with fingers })
          | (fingers, none) =>
            match consumeAll iv.start iv.stop fingers fp.heap with            -- 237
            | (heap, some e) => pure (.raised e { fp with fingers, heap })
            | (heap, none) => pure (.next iv { fp with fingers, heap }))

/-- The `while True` loop of `Fingerprinter.hashes`; `none` means it is still running (`FP.loopH`). -/
def FP.loopP : Nat → FP → Prog (Option (FP × Option Exc))
  | 0, _ => pure none
  | n + 1, fp => do
    match ← fp.stepP with
    | .done => pure (some (fp, none))
    | .raised e fp' => pure (some (fp', some e))
    | .next _ fp' => FP.loopP n fp'

/-- `AuthenticodeFingerprinter(file)`, `add_authenticode_hashers(*algs)`, `hashes()`; signed_pe.py:357-359, fingerprinter.py:116-133,
214-256, 277-296 (`authentihashesH`).  At most `fuel` blocks are read.  Of the file of the fingerprinter only the length is
kept, so that zeros stand for it. -/
def authentihashesP (env : Env) (fuel : Nat) (algs : List String) : Prog Hashes := do
  let flen ← openLengthP                                                      -- 130-131
  let fp := FP.new (List.replicate flen 0)
  let flen' ← openLengthP                                                     -- 282
  match ← omitSectionsP flen' with                                            -- 283
  | none => finish fp                                                         -- 285-286
  | some om =>
    let ranges := complementRanges flen 0 (sortRel (om.map Prod.snd))         -- 288-293
    let fp := { fp with heap := fp.heap.set fp.next ranges, next := fp.next + 1 }
    finish (fp.addHashers algs (some (fp.next - 1)) "authentihash")           -- 295-296
where
  /-- `hashes()`; fingerprinter.py:214-256 (`FP.hashesH`). -/
  finish (fp : FP) : Prog Hashes := do
    match ← fp.loopP fuel with
    | none => Prog.raise ⟨.runtimeError, "not terminated"⟩
    | some (_, some e) => Prog.raise e
    | some (fp', none) => .ret (collect env.hash fp'.filelength fp'.heap fp'.fingers [])

/-- The hashes computed by `_calculate_expected_hashes`; signed_pe.py:346-360 (`neededHashesH`). -/
def neededHashesP (env : Env) (fuel : Nat) (algs : List String) (provided : Dict String Bytes) : Prog (Dict String Bytes) :=
  if !(provided.all (fun kv => hashlibNames.contains kv.1)) then              -- 352
    Prog.raise ⟨.attributeError, "module 'hashlib' has no attribute"⟩
  else
    let needed := (dedupNames algs).filter (fun a => (provided.get? a).isNone)  -- 353
    if needed.isEmpty then pure []                                            -- 356
    else do
      let res ← authentihashesP env fuel needed                               -- 357-359
      match res.get? "authentihash" with
      | none => Prog.raise ⟨.keyError, "authentihash"⟩
      | some ds => pure ds

/-- The part of `SignedPEFile.verify(...)` that uses the file: `list(iter_signed_datas(...))`, the choice of the signatures to
verify, and the hashes that are needed; signed_pe.py:408-438.  The result is the signatures and the hashes.  `given` is the content of
`expected_hashes`. -/
def verifyReadsP (env : Env) (cd : Codec) (flen fuel hashFuel : Nat) (args : PEVerifyArgs) (given : Dict String Bytes) :
    Prog (List ASD × Dict String Bytes) := do
  match ← SdGen.drainP cd flen true args.ignoreParseErrors fuel .start with   -- 408-411
  | none => Prog.raise ⟨.runtimeError, "not terminated"⟩
  | some listed =>
    let sds ← (.ret listed.toList : Prog (List ASD))
    if sds.isEmpty then                                                       -- 414-415
      Prog.raise ⟨.authenticodeNotSigned, "No valid SignedData structure was found."⟩
    else do
      let sel := selectSignatures args.multiVerifyMode sds                    -- 421-436
      let more ← neededHashesP env hashFuel (sel.map (fun a => a.d.core.digestAlg)) given  -- 438
      pure (sel, more)

/-- The part of `SignedPEFile.verify(...)` after the last use of the file; signed_pe.py:360, 440-464.  Every signature is given its
expected hash, so that the content of the file, for which the empty content stands here, is not used. -/
def verifyRead (env : Env) (args : PEVerifyArgs) (given : Dict String Bytes) (r : Except Exc (List ASD × Dict String Bytes)) (w : World) :
    Except Exc (List (ASD × List (List Cert))) × World :=
  match r with
  | .error e => (.error e, w)
  | .ok (sel, more) =>
    let w := match args.expectedHashes with                                   -- 360
      | none => w
      | some i => (M.setDict i (given.update more) w).2
    verifyLoop (verifyOne env [] (given.update more) args.kwargs) args.multiVerifyMode sel [] none w  -- 440-464

/-- `SignedPEFile.verify(...)` while others use the file; signed_pe.py:362-464.  Simplifications: contexts, stores and the caller's
dictionary are not used by the others (for stores see `Model/Threads.lean`), and the dictionary is read at the beginning.  The second
component is the file as it was at each operation on it. -/
def peVerifyAmid (env : Env) (cd : Codec) (flen fuel hashFuel : Nat) (args : PEVerifyArgs) (σ : Nat → Handle → Handle) (h : Handle) (w : World) :
    (Except Exc (List (ASD × List (List Cert))) × World) × List Handle :=
  let given : Dict String Bytes := match args.expectedHashes with             -- 346-350
    | none => []
    | some i => w.dicts i
  match (verifyReadsP env cd flen fuel hashFuel args given).amid σ 0 h with
  | ((r, ms), _) => (verifyRead env args given r w, ms)

end Signify
