/-
The code that works on the *file object*: a refinement of `Model/SignedPE.lean`, `Model/Fingerprinter.lean` and
`Model/PEFile.lean` in which the current position of the file is part of the state, every `seek`, `tell` and `read` of the
source is a step, and generators are resumed one value at a time.
-/
import Verif.Model.PEFile

set_option autoImplicit false

namespace Signify

/-- An open binary file: its content and the current position. -/
structure Handle where
  bytes : Bytes
  pos : Nat
deriving DecidableEq, Repr

/-- Code that uses the file object `self.file`. -/
def HM (α : Type) := Handle → Except Exc α × Handle

namespace HM
variable {α β : Type}

/-- `return a` -/
def pure (a : α) : HM α := fun h => (.ok a, h)

/-- sequencing; an exception ends the code and leaves the file where it is -/
def bind (p : HM α) (k : α → HM β) : HM β := fun h =>
  match p h with
  | (.ok a, h') => k a h'
  | (.error e, h') => (.error e, h')

instance : Monad HM where
  pure := HM.pure
  bind := HM.bind

/-- `raise e` -/
def raise (e : Exc) : HM α := fun h => (.error e, h)

/-- code that does not use the file -/
def lift (r : Except Exc α) : HM α := fun h => (r, h)

/-- `try: p except …: handler` -/
def tryCatch (p : HM α) (handler : Exc → HM α) : HM α := fun h =>
  match p h with
  | (.ok a, h') => (.ok a, h')
  | (.error e, h') => handler e h'

/-- `file.seek(p, os.SEEK_SET)`.  Trusted contract of binary files: a position behind the end is allowed, a negative one is
rejected. -/
def seek (p : Int) : HM Unit := fun h =>
  if p < 0 then (.error ⟨.valueError, "negative seek"⟩, h) else (.ok (), { h with pos := p.toNat })

/-- `file.seek(0, os.SEEK_END)` -/
def seekEnd : HM Unit := fun h => (.ok (), { h with pos := h.bytes.length })

/-- `file.tell()` -/
def tell : HM Nat := fun h => (.ok h.pos, h)

/-- `file.read(n)`: at most `n` bytes from the current position, all up to the end of the file for a negative `n`; the position
moves behind them. -/
def read (n : Int) : HM Bytes := fun h =>
  let data := if n < 0 then h.bytes.drop h.pos else (h.bytes.drop h.pos).take n.toNat
  (.ok data, { h with pos := h.pos + data.length })

/-- `struct.unpack(..., file.read(n))[0]` for an `n`-byte integer. -/
def unpack (n : Nat) : HM Nat := do
  let data ← HM.read n
  HM.lift (unpackLE n data)

end HM

/-- `SignedPEFile(file_obj)`, `Fingerprinter(file_obj)`: the length kept in `_filelength`; signed_pe.py:62-72,
fingerprinter.py:128-131. -/
def openLength : HM Nat := do
  HM.seekEnd
  HM.tell

/-- signed_pe.py:162-214, on the file object. -/
def parseDirectoriesH (flen oho ohs rvaBase certBase : Nat) : HM (Dict String RelRange) :=
  let location : Dict String RelRange := [("checksum", ⟨oho + 64, 4⟩)]        -- 163
  if oho + ohs < rvaBase + 4 then pure location                               -- 166-171
  else do
    HM.seek rvaBase                                                           -- 172
    let numberOfRva ← HM.unpack 4                                             -- 173
    if numberOfRva < 5 then pure location                                     -- 174-180
    else if oho + ohs < certBase + 8 then pure location                       -- 181-186
    else do
      let location := Dict.set location "datadir_certtable" ⟨certBase, 8⟩     -- 190
      HM.seek certBase                                                        -- 193
      let entry ← HM.read 8                                                   -- 194
      if entry.length ≠ 8 then HM.raise ⟨.structError, "unpack requires a buffer"⟩
      else
        let address := leNat (entry.take 4)
        let size := leNat (entry.drop 4)
        if size = 0 then pure location                                        -- 196-198
        else if address < ohs + oho ∨ address + size > flen then pure location  -- 200-211
        else pure (Dict.set location "certtable" ⟨address, size⟩)             -- 213-214

/-- `_parse_pe_header_locations`; signed_pe.py:99-214, on the file object.  `flen` is `self._filelength`. -/
def parsePEHeaderH (flen : Nat) : HM (Dict String RelRange) := do
  HM.seek 0                                                                   -- 109
  let mz ← HM.read 2                                                          -- 110
  if mz ≠ [0x4D, 0x5A] then HM.lift (peErr "MZ header not found")
  else do
    HM.seek 0x3C                                                              -- 114
    let peOffset ← HM.unpack 4                                                -- 115
    if peOffset ≥ flen then HM.lift (peErr "PE header location is beyond file boundaries")  -- 116-120
    else do
      HM.seek peOffset                                                        -- 123
      let magic ← HM.read 4                                                   -- 124
      if magic ≠ [0x50, 0x45, 0, 0] then HM.lift (peErr "PE header not found")
      else do
        HM.seek (peOffset + 20 : Nat)                                         -- 128
        let ohs ← HM.unpack 2                                                 -- 129
        let oho := peOffset + 24                                              -- 130
        if ohs + oho > flen then HM.lift (peErr "The optional header exceeds the file length")  -- 131-137
        else if ohs < 68 then HM.lift (peErr "The optional header size is insufficient for authenticode")  -- 139-145
        else do
          HM.seek oho                                                         -- 148
          let signature ← HM.unpack 2                                         -- 149
          if signature = 0x10B then parseDirectoriesH flen oho ohs (oho + 92) (oho + 128)
          else if signature = 0x20B then parseDirectoriesH flen oho ohs (oho + 108) (oho + 144)
          else HM.lift (peErr "The PE Optional Header signature is unknown")

/-- `get_authenticode_omit_sections`; signed_pe.py:74-97, on the file object. -/
def omitSectionsH (flen : Nat) : HM (Option (Dict String RelRange)) :=
  HM.tryCatch
    (do
      let locations ← parsePEHeaderH flen
      pure (some (locations.filter (fun kv => kv.1 ∈ ["checksum", "datadir_certtable", "certtable"]))))
    (fun e => if e.is .signedPEParseError || e.is .structError then pure none else HM.raise e)  -- 91-92

/-- The state of the generator `_parse_cert_table()`: not started, suspended at the `yield` of line 244 (with its local
variables `position`, `length` and `certtable_end`), or finished. -/
inductive CertGen where
  | start
  | suspended (position length tableEnd : Nat)
  | finished
deriving DecidableEq, Repr

/-- From the test of the `while` loop of `_parse_cert_table` to the next `yield`, or to the end of the generator;
signed_pe.py:227-248. -/
def certWhileH (flen tableEnd position : Nat) : HM (Option (CertEntry × CertGen)) :=
  if position < tableEnd then                                                 -- 227
    if position + 8 > flen then                                               -- 229-232
      HM.raise ⟨.signedPEParseError, "Position of certificate table is beyond length of file"⟩
    else do
      HM.seek position                                                        -- 233
      let length ← HM.unpack 4                                                -- 234
      let revision ← HM.unpack 2                                              -- 235
      let type ← HM.unpack 2                                                  -- 236
      if length ≤ 8 ∨ position + length > tableEnd then                       -- 240-241
        HM.raise ⟨.signedPEParseError, "Invalid length in certificate table header"⟩
      else do
        let certificate ← HM.read (length - 8 : Nat)                          -- 242
        pure (some (⟨revision, type, certificate⟩, .suspended position length tableEnd))  -- 244-248
  else pure none

/-- `next()` of the generator `_parse_cert_table()`; signed_pe.py:216-249.  `none` is `StopIteration`. -/
def CertGen.run (flen : Nat) : CertGen → HM (Option (CertEntry × CertGen))
  | .start => do
    match ← omitSectionsH flen with                                           -- 219
    | none => HM.raise ⟨.signedPEParseError, "The PE file does not contain a certificate table."⟩
    | some locations =>
      match locations.get? "certtable" with                                   -- 220-223
      | none => HM.raise ⟨.signedPEParseError, "The PE file does not contain a certificate table."⟩
      | some t => certWhileH flen (t.start + t.length) t.start                -- 225-226
  | .suspended position length tableEnd =>
    certWhileH flen tableEnd (position + (length + (8 - length % 8) % 8))     -- 249
  | .finished => pure none

/-- The state of the generator `iter_signed_datas(...)`: not started, suspended inside `yield from recursive_nested(...)` (line
314) with the values still to come from there, or finished.  The signatures nested in a signature have been parsed with
it, so that `recursive_nested` does not use the file. -/
inductive SdGen where
  | start
  | suspended (certs : CertGen) (queue : List ASD)
  | finished

/-- From the head of the `for` loop of `iter_signed_datas` to the next `yield`, or to the end of the `try` block;
signed_pe.py:307-324.  At most `fuel` entries of the table are taken. -/
def sdPullH (cd : Codec) (flen : Nat) (nested : Bool) : Nat → CertGen → Bool → HM (Option (ASD × SdGen))
  | 0, _, _ => HM.raise ⟨.runtimeError, "not terminated"⟩
  | fuel + 1, certs, found => do
    match ← certs.run flen with                                               -- 307
    | none =>
      if !found then HM.raise ⟨.signedPEParseError, "A SignedData structure was not found"⟩  -- 320-324
      else pure none
    | some (c, certs) =>
      if c.revision ≠ 0x200 then HM.raise ⟨.signedPEParseError, "Unknown certificate revision"⟩  -- 308-311
      else if c.type = 2 then do                                              -- 313
        let a ← HM.lift (fromEnvelope cd c.certificate)                       -- 315-317
        match recursiveNested nested a with                                   -- 314
        | x :: queue => pure (some (x, .suspended certs queue))
        | [] => sdPullH cd flen nested fuel certs true                        -- 318
      else sdPullH cd flen nested fuel certs found

/-- The `except` clause of `iter_signed_datas`; signed_pe.py:323-325. -/
def sdCatch (ignore : Bool) (p : HM (Option (ASD × SdGen))) : HM (Option (ASD × SdGen)) :=
  HM.tryCatch p (fun e => if e.is .signedPEParseError && ignore then pure none else HM.raise e)

/-- What a generator does when its next value is asked for; signed_pe.py:266-325.  `signed_datas` (258-264) is
`iter_signed_datas()` with the default options, both true. -/
def SdGen.run (cd : Codec) (flen : Nat) (nested ignore : Bool) : SdGen → HM (Option (ASD × SdGen))
  | .start => sdCatch ignore (sdPullH cd flen nested (flen + 2) .start false)
  | .suspended certs (x :: queue) => pure (some (x, .suspended certs queue))
  | .suspended certs [] => sdCatch ignore (sdPullH cd flen nested (flen + 2) certs true)  -- 318: `found = True`
  | .finished => pure none

/-- `next(generator)`: the value (`none` is `StopIteration`) or the exception, the state of the generator afterwards, and the
file.  A generator that has returned or raised is finished. -/
def SdGen.next (cd : Codec) (flen : Nat) (nested ignore : Bool) (g : SdGen) (h : Handle) :
    Except Exc (Option ASD) × SdGen × Handle :=
  match g.run cd flen nested ignore h with
  | (.ok (some (a, g')), h') => (.ok (some a), g', h')
  | (.ok none, h') => (.ok none, .finished, h')
  | (.error e, h') => (.error e, .finished, h')

/-- One iteration of the loop of `Fingerprinter.hashes`, on the file object; fingerprinter.py:228-237.  Of `fp.file` only the
length is used (in `fp.filelength`). -/
def FP.stepH (fp : FP) (h : Handle) : Step × Handle :=
  match nextInterval fp.blockSize fp.fingers fp.heap with                     -- 229-231
  | none => (.done, h)
  | some iv =>
    match (do HM.seek iv.start; HM.read (iv.stop - iv.start) : HM Bytes) h with  -- 232-233
    | (.error e, h) => (.raised e fp, h)
    | (.ok block, h) =>
      if (block.length : Int) ≠ iv.stop - iv.start then                       -- 234-235
        (.raised ⟨.runtimeError, "Short read on file."⟩ fp, h)
      else
        match hashBlock fp.heap block iv.start iv.stop fp.fingers with        -- 236
        | (fingers, some e) => (.raised e { fp with fingers }, h)
        | (fingers, none) =>
          match consumeAll iv.start iv.stop fingers fp.heap with              -- 237
          | (heap, some e) => (.raised e { fp with fingers, heap }, h)
          | (heap, none) => (.next iv { fp with fingers, heap }, h)

/-- The `while True` loop of `Fingerprinter.hashes`, on the file object; `none` means it is still running. -/
def FP.loopH : Nat → FP → Handle → Option (FP × Option Exc) × Handle
  | 0, _, h => (none, h)
  | n + 1, fp, h =>
    match fp.stepH h with
    | (.done, h) => (some (fp, none), h)
    | (.raised e fp', h) => (some (fp', some e), h)
    | (.next _ fp', h) => FP.loopH n fp' h

/-- `Fingerprinter.hashes`; fingerprinter.py:214-256, on the file object. -/
def FP.hashesH (H : String → Bytes → Bytes) (fuel : Nat) (fp : FP) (h : Handle) : Option (Except Exc Hashes × FP) × Handle :=
  match fp.loopH fuel h with
  | (none, h) => (none, h)
  | (some (fp', some e), h) => (some (.error e, fp'), h)
  | (some (fp', none), h) =>
    match collect H fp'.filelength fp'.heap fp'.fingers [] with
    | .error e => (some (.error e, fp'), h)
    | .ok res => (some (.ok res, { fp' with fingers := [] }), h)

/-- `add_authenticode_hashers`; fingerprinter.py:277-296, on the file object: a new `SignedPEFile` is created on the same
file. -/
def FP.addAuthenticodeHashersH (fp : FP) (hashers : List String) (h : Handle) : Except Exc Bool × FP × Handle :=
  match (do let flen ← openLength; omitSectionsH flen : HM (Option (Dict String RelRange))) h with  -- 282-283
  | (.error e, h) => (.error e, fp, h)
  | (.ok none, h) => (.ok false, fp, h)                                       -- 285-286
  | (.ok (some om), h) =>
    let ranges := complementRanges fp.file.length 0 (sortRel (om.map Prod.snd))  -- 288-293
    let fp := { fp with heap := fp.heap.set fp.next ranges, next := fp.next + 1 }
    (.ok true, fp.addHashers hashers (some (fp.next - 1)) "authentihash", h)  -- 295-296

/-- `AuthenticodeFingerprinter(file)`, as made by `get_fingerprinter`; signed_pe.py:251-256, fingerprinter.py:116-133: `seek` to
the end and `tell`. -/
def newFingerprinterH (h : Handle) : FP × Handle :=
  match openLength h with
  | (_, h) => (FP.new h.bytes, h)

/-- `fp = pe.get_fingerprinter(); fp.add_authenticode_hashers(*algs); fp.hashes()`; signed_pe.py:357-359,
structures.py:533-535. -/
def authentihashesH (env : Env) (algs : List String) (h : Handle) : Except Exc Hashes × Handle :=
  match newFingerprinterH h with
  | (fp, h) =>
    match fp.addAuthenticodeHashersH algs h with
    | (.error e, _, h) => (.error e, h)
    | (.ok _, fp, h) =>
      match fp.hashesH env.hash (fp.file.length + 10) h with
      | (none, h) => (.error ⟨.runtimeError, "not terminated"⟩, h)
      | (some (r, _), h) => (r, h)

/-- The hashes computed by `_calculate_expected_hashes`, on the file object; signed_pe.py:346-360. -/
def neededHashesH (env : Env) (algs : List String) (provided : Dict String Bytes) : HM (Dict String Bytes) :=
  if !(provided.all (fun kv => hashlibNames.contains kv.1)) then              -- 352
    HM.raise ⟨.attributeError, "module 'hashlib' has no attribute"⟩
  else
    let needed := (dedupNames algs).filter (fun a => (provided.get? a).isNone)  -- 353
    if needed.isEmpty then pure []                                            -- 356
    else do
      let res ← authentihashesH env needed                                    -- 357-359
      match res.get? "authentihash" with
      | none => HM.raise ⟨.keyError, "authentihash"⟩
      | some ds => pure ds

/-- The expected hash computed by `AuthenticodeSignedData.verify()` of a signature of this file; structures.py:531-535. -/
def computeExpectedH (env : Env) (alg : String) : HM Bytes := do
  let res ← authentihashesH env [alg]                                         -- 533-535
  match res with
  | [(_, ds)] =>
    match ds.get? alg with
    | some d => pure d
    | none => HM.raise ⟨.keyError, alg⟩
  | _ => HM.raise ⟨.runtimeError, "Can't return a single hash, use hashes() instead"⟩

/-- The values a generator gives until it stops, at most `fuel` of them, with the exception that ends it, if any: what
`list(generator)` collects. -/
def SdGen.drainH (cd : Codec) (flen : Nat) (nested ignore : Bool) : Nat → SdGen → Handle → Option (Gen ASD) × Handle
  | 0, _, h => (none, h)
  | fuel + 1, g, h =>
    match g.next cd flen nested ignore h with
    | (.error e, _, h) => (some ([], some e), h)
    | (.ok none, _, h) => (some ([], none), h)
    | (.ok (some a), g, h) =>
      match SdGen.drainH cd flen nested ignore fuel g h with
      | (none, h) => (none, h)
      | (some (l, e), h) => (some (a :: l, e), h)

/-- The part of `SignedPEFile.verify(...)` after `list(iter_signed_datas(...))`, on the file object; signed_pe.py:411-464: the hashes
that are needed, then the verification of the signatures, which are given their expected hash and do not use the file. The
state is the file and the world of `Model/Context.lean`.  `listed` is what the iteration gave. -/
def verifyListed (env : Env) (args : PEVerifyArgs) (listed : Gen ASD) (h : Handle) (w : World) :
    (Except Exc (List (ASD × List (List Cert))) × World) × Handle :=
  match listed.toList with
  | .error e => ((.error e, w), h)
  | .ok sds =>
    if sds.isEmpty then                                                       -- 414-415
      ((.error ⟨.authenticodeNotSigned, "No valid SignedData structure was found."⟩, w), h)
    else
      let sel := selectSignatures args.multiVerifyMode sds                    -- 421-436
      let algs := sel.map (fun a => a.d.core.digestAlg)
      let given : Dict String Bytes :=                                        -- 438; 346-350
        match args.expectedHashes with
        | none => []
        | some i => w.dicts i
      match neededHashesH env algs given h with
      | (.error e, h) => ((.error e, w), h)
      | (.ok more, h) =>
        let w := match args.expectedHashes with                               -- 360: the caller's dictionary is updated in place
          | none => w
          | some i => (M.setDict i (given.update more) w).2
        (verifyLoop (verifyOne env h.bytes (given.update more) args.kwargs) args.multiVerifyMode sel [] none w, h)  -- 440-464

/-- `SignedPEFile.verify(...)`, on the file object; signed_pe.py:362-464.  At most `fuel` signatures are taken from the
iteration. -/
def peVerifyH (env : Env) (cd : Codec) (flen fuel : Nat) (args : PEVerifyArgs) (h : Handle) (w : World) :
    (Except Exc (List (ASD × List (List Cert))) × World) × Handle :=
  match SdGen.drainH cd flen true args.ignoreParseErrors fuel .start h with   -- 408-411
  | (none, h) => ((.error ⟨.runtimeError, "not terminated"⟩, w), h)
  | (some listed, h) => verifyListed env args listed h w

/-- Something that happens to an open file and several generators over it: the program asks generator `i` for its next value, or
moves the position of the file by some other means (computing hashes, reading, another library), or the content of the
file is changed (by the program or by another one). -/
inductive FileAct where
  | next (i : Nat)
  | move (pos : Nat)
  | write (content : Bytes)
deriving DecidableEq, Repr

/-- The answers of the generators to a program, in order.  `opts i` are `include_nested` and `ignore_parse_errors` of
generator `i`. -/
def play (cd : Codec) (flen : Nat) (opts : Nat → Bool × Bool) :
    List FileAct → (Nat → SdGen) → Handle → List (Nat × Except Exc (Option ASD))
  | [], _, _ => []
  | .move p :: acts, gens, h => play cd flen opts acts gens { h with pos := p }
  | .write b :: acts, gens, h => play cd flen opts acts gens { h with bytes := b }
  | .next i :: acts, gens, h =>
    match (gens i).next cd flen (opts i).1 (opts i).2 h with
    | (r, g, h) => (i, r) :: play cd flen opts acts (fun j => if j = i then g else gens j) h

end Signify
