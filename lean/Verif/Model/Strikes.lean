/-
Parsing when the interpreter gives up: a RecursionError (Python's limit on nested calls) or a MemoryError may be raised at any step.  The
rest of the model has neither (`parseCounterInfo`, `parseASD` in `Verif/Model/Pkcs7.lean`).
-/
import Verif.Model.PEFile

set_option autoImplicit false

namespace Signify

/-- Where the interpreter gives up, and with what exception: in a step of the parsing of a SignedData or SignerInfo that is nested so many
levels deep, when an envelope is opened, and when the generator `recursive_nested` is resumed at a signature.  Simplification: equal
structures on the same level are treated alike. -/
structure Strikes where
  sd : Nat → String → RawSD → Option Exc
  si : Nat → String → RawSI → Option Exc
  envelope : Bytes → Option Exc
  iter : Nat → ASD → Option Exc

/-- A step that raises the exception, if there is one, and else gives its normal result or error.  What happens within a step is not
visible from outside. -/
def struck {α : Type} (o : Option Exc) (r : Except Exc α) : Except Exc α :=
  match o with
  | some e => .error e
  | none => r

/-- `CounterSignerInfo(data)` (`parseCounterInfo`) on the given level, with the depth of the structure as recursion depth;
signerinfo.py:129-228. -/
def parseCounterInfoS (cd : Codec) (x : Strikes) : Nat → Nat → RawSI → Except Exc CounterInfo
  | 0, _, _ => .error ⟨.runtimeError, "recursion depth"⟩
  | n + 1, level, si => do
    let s ← struck (x.si level "signer" si) (parseSigner cd requiredCounter none si.head)
    let c ← struck (x.si level "counter" si) (parseCounter (parseCounterInfoS cd x n (level + 1)) si.unsigned)
    struck (x.si level "done" si) (.ok (.mk s c))

/-- `AuthenticodeSignerInfo._parse` (`authSignerStep`); structures.py:200-276. -/
def authSignerStepS (cd : Codec) (x : Strikes) (level : Nat) (rec : RawSD → Except Exc ASD) (si : RawSI) : Except Exc AuthSigner := do
  let s ← struck (x.si level "signer" si) (parseSigner cd requiredPlain (some "microsoft_spc_indirect_data_content") si.head)
  let c ← struck (x.si level "counter" si) (parseCounter (fun c => parseCounterInfoS cd x c.depth (level + 1) c) si.unsigned)
  let st ← struck (x.si level "statement" si) (statementTypesOf s.auth)
  let op ← struck (x.si level "opus" si) (opusOf s.auth)
  let nested ← struck (x.si level "nested" si) (parseNested rec si.unsigned)
  let cs ← struck (x.si level "timestamp" si) (parseTimestamp cd si.unsigned c)
  struck (x.si level "done" si) (.ok { signer := s, statementTypes := st, opus := op, nested := nested, counter := cs })

/-- `AuthenticodeSignedData(data)` (`asdStep`); structures.py:396-425. -/
def asdStepS (cd : Codec) (x : Strikes) (level : Nat) (rec : RawSD → Except Exc ASD) (sd : RawSD) : Except Exc ASD := do
  let core ← struck (x.sd level "core" sd) (parseSDCore "microsoft_spc_indirect_data_content" sd.head)
  let signers ← struck (x.sd level "signers" sd) (parseAll (authSignerStepS cd x level rec) sd.signers)
  let raw ← struck (x.sd level "content" sd) (decodeContent cd.spc sd.head)
  let spc ← struck (x.sd level "spc" sd) (parseSpc raw)                       -- 410
  struck (x.sd level "done" sd) (match signers with
  | [s] =>
    if sd.head.crls ≠ 0 then apErr "SignedData.crls is present, but that is unexpected."  -- 421-425
    else .ok (.mk {
      core := core, spc := spc, signer := s.signer, statementTypes := s.statementTypes, programName := s.opus.1
      moreInfo := s.opus.2.1, publisherInfo := s.opus.2.2, counter := s.counter } s.nested)
  | _ => apErr "SignedData.signerInfos must contain exactly 1 signer")        -- 413-417

/-- `AuthenticodeSignedData(data)` (`parseASD`) on the given level, with the depth of the structure as recursion depth. -/
def parseASDS (cd : Codec) (x : Strikes) : Nat → Nat → RawSD → Except Exc ASD
  | 0, _, _ => .error ⟨.runtimeError, "recursion depth"⟩
  | n + 1, level, sd => asdStepS cd x level (parseASDS cd x n (level + 1)) sd

/-- `AuthenticodeSignedData.from_envelope(data)` (`fromEnvelope`); signeddata.py:83-97. -/
def fromEnvelopeS (cd : Codec) (x : Strikes) (data : Bytes) : Except Exc ASD := do
  let (t, sd) ← struck (x.envelope data) (cd.envelope data)
  if t ≠ "signed_data" then .error ⟨.parseError, "ContentInfo does not contain SignedData"⟩
  else parseASDS cd x sd.depth 0 sd

mutual
/-- `recursive_nested(signed_data)` with `include_nested` (`ASD.preorder`), on the given level; signed_pe.py:297-303. -/
def preorderS (x : Strikes) (level : Nat) : ASD → Gen ASD
  | .mk d nested =>
    match x.iter level (.mk d nested) with
    | some e => ([], some e)
    | none =>
      let (l, e) := preorderAllS x (level + 1) nested
      (.mk d nested :: l, e)
/-- The loop over `nested_signed_datas` (`preorderAll`); signed_pe.py:301-303. -/
def preorderAllS (x : Strikes) (level : Nat) : List ASD → Gen ASD
  | [] => ([], none)
  | a :: l =>
    match preorderS x level a with
    | (m, some e) => (m, some e)
    | (m, none) =>
      let (r, e) := preorderAllS x level l
      (m ++ r, e)
end

/-- `recursive_nested(signed_data)` (`recursiveNested`); signed_pe.py:297-303. -/
def recursiveNestedS (x : Strikes) (includeNested : Bool) (a : ASD) : Gen ASD :=
  if includeNested then preorderS x 0 a
  else
    match x.iter 0 a with
    | some e => ([], some e)
    | none => ([a], none)

/-- The loop over the certificate table in `iter_signed_datas` (`signedDatasLoop`); signed_pe.py:306-325. -/
def signedDatasLoopS (cd : Codec) (x : Strikes) (includeNested : Bool) (last : Option Exc) : List CertEntry → Bool → Gen ASD
  | [], found =>
    match last with
    | some e => ([], some e)
    | none =>
      if !found then ([], some ⟨.signedPEParseError, "A SignedData structure was not found"⟩)  -- 320-324
      else ([], none)
  | c :: l, found =>
    if c.revision ≠ 0x200 then ([], some ⟨.signedPEParseError, "Unknown certificate revision"⟩)  -- 308-311
    else if c.type = 2 then                                                   -- 313
      match fromEnvelopeS cd x c.certificate with                             -- 314-318
      | .error e => ([], some e)
      | .ok a =>
        match recursiveNestedS x includeNested a with
        | (m, some e) => (m, some e)
        | (m, none) =>
          let (rest, e) := signedDatasLoopS cd x includeNested last l true
          (m ++ rest, e)
    else signedDatasLoopS cd x includeNested last l found

/-- `iter_signed_datas(include_nested, ignore_parse_errors)` (`iterSignedDatas`); signed_pe.py:266-325. -/
def iterSignedDatasS (cd : Codec) (x : Strikes) (file : Bytes) (includeNested ignoreParseErrors : Bool) : Gen ASD :=
  let (entries, last) := parseCertTable file
  let (sds, e) := signedDatasLoopS cd x includeNested last entries false
  match e with
  | some e => if e.is .signedPEParseError && ignoreParseErrors then (sds, none) else (sds, some e)  -- 323-325
  | none => (sds, none)

/-- `SignedPEFile.verify(...)` (`peVerify`), the interpreter giving up only while signatures are parsed and listed; signed_pe.py:362-464. -/
def peVerifyS (env : Env) (cd : Codec) (x : Strikes) (file : Bytes) (args : PEVerifyArgs) : M (List (ASD × List (List Cert))) := do
  let sds ← M.lift (iterSignedDatasS cd x file true args.ignoreParseErrors).toList  -- 408-411
  if sds.isEmpty then M.raise ⟨.authenticodeNotSigned, "No valid SignedData structure was found."⟩  -- 414-415
  else
    let sel := selectSignatures args.multiVerifyMode sds
    let hashes ← calculateExpectedHashes env file (sel.map (fun a => a.d.core.digestAlg)) args.expectedHashes  -- 438
    verifyLoop (verifyOne env file hashes args.kwargs) args.multiVerifyMode sel [] none

/-- `SignedPEFile.explain_verify(...)`, likewise; signed_pe.py:466-480. -/
def peExplainVerifyS (env : Env) (cd : Codec) (x : Strikes) (file : Bytes) (args : PEVerifyArgs) : M (VResult × Option Exc) :=
  explain (peVerifyS env cd x file args)

end Signify
