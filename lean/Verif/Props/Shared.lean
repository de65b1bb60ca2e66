/-
`verify` of a file that others use at the same time (C97).
-/
import Verif.Proofs.SharedAlone
import Verif.Props.Handle

set_option autoImplicit false

namespace Signify.Props

open Signify Spec

/-! ### C97

`peVerifyAmid … σ f w` is `SignedPEFile(f).verify(...)` while others use the file: before the `k`-th operation of the call on the file
object they turn the file `h` into `σ k h`, so they can change its content and move its position at will.  Its second component is
the file as it was at each operation. -/

/-- **C97**, nobody else: this is `verify`, as everywhere else. -/
theorem C97_alone (env : Env) (cd : Codec) (fuel : Nat) (args : PEVerifyArgs) (f : Handle) (w : World)
    (hf : (iterSignedDatas cd f.bytes true args.ignoreParseErrors).1.length < fuel) :
    (peVerifyAmid env cd f.bytes.length fuel (f.bytes.length + 10) args nobody f w).1 = peVerify env cd f.bytes args w :=
  peVerifyAmid_nobody env cd fuel args f w hf

/-- A file with two signatures, alone. -/
example : exOutcome (peVerifyAmid exPEEnv exPECodec (exTwice 1 2 [7, 7, 7]).length 5 ((exTwice 1 2 [7, 7, 7]).length + 10) (exPEArgs "all") nobody
    ⟨exTwice 1 2 [7, 7, 7], 3⟩ exWorld).1.1 = .ok [(("sha256", [1]), [[1, 2, 3]]), (("sha1", [2]), [[1, 2, 3]])] := by
  rw [C97_alone exPEEnv exPECodec 5 (exPEArgs "all") ⟨exTwice 1 2 [7, 7, 7], 3⟩ exWorld (by decide +kernel)]
  exact exTwice_all

/-- **C97**, whatever the others do: either the call raises before it verifies a signature, or there is one sequence of bytes `data`
with which it does all that it does: `data` is made of pieces that were in the file at some moments of the call, and is as long as
what remains of some length after leaving out a checksum and perhaps an entry and a table; the call verifies some signatures, each of
which was in the file at some moment of the call, against the digest of `data`, and makes of the outcomes what `verify` always
makes of them. -/
theorem C97_outcome (env : Env) (cd : Codec) (flen fuel hashFuel : Nat) (args : PEVerifyArgs) (σ : Nat → Handle → Handle) (f : Handle) (w : World)
    (hn : args.expectedHashes = none) :
    (∃ e, (peVerifyAmid env cd flen fuel hashFuel args σ f w).1 = (.error e, w)) ∨
    ∃ len secs data digests tried rest, LeftOut secs ∧ data.length = (offsetsOutside len secs).length ∧
      PiecesThen (peVerifyAmid env cd flen fuel hashFuel args σ f w).2 data ∧ tried ≠ [] ∧
      (∀ p ∈ tried, SignatureThen cd (peVerifyAmid env cd flen fuel hashFuel args σ f w).2 p.1 ∧
        Dict.get? digests p.1.d.core.digestAlg = some (env.hash p.1.d.core.digestAlg data)) ∧
      Attempts env [] digests args.kwargs w tried (peVerifyAmid env cd flen fuel hashFuel args σ f w).1.2 ∧
      Overall args.multiVerifyMode tried rest (peVerifyAmid env cd flen fuel hashFuel args σ f w).1.1 := by
  rcases peVerifyAmid_outcome (S := fun _ => True) (L := fun _ => True)
    (B := fun _ x => ∃ m ∈ (peVerifyAmid env cd flen fuel hashFuel args σ f w).2, ∃ p, x = (m.bytes.drop p).take x.length)
    env cd flen fuel hashFuel args σ trivial f w
    (fun M iv σ' hs n h hm x hx hl hM => hM ▸ block_any (S := fun _ => True) iv σ' hs n h hm x hx hl)
    (fun M σ' hs n h hm x hx hM => trivial) hn with h | ⟨len, secs, data, dg, tr, rest, -, h2, h3, h4, h5, h6, h7⟩
  · exact .inl h
  · exact .inr ⟨len, secs, data, dg, tr, rest, h2, by rw [h3.length, h3.offsets h2], h3.pieces fun iv x hx => hx, h4, h5, h6, h7⟩

/-- **C97**, success, whatever the others do: a result is not empty, every signature in it was in the file at some moment of the call,
and all of them were made for one sequence of bytes, each piece of which was in the file at some moment of the call. -/
theorem C97_returned (env : Env) (cd : Codec) (flen fuel hashFuel : Nat) (args : PEVerifyArgs) (σ : Nat → Handle → Handle) (f : Handle) (w : World)
    (he : ContextsExist w args.kwargs) (hn : args.expectedHashes = none) (res : List (ASD × List (List Cert)))
    (h : (peVerifyAmid env cd flen fuel hashFuel args σ f w).1.1 = .ok res) :
    res ≠ [] ∧ (∀ p ∈ res, SignatureThen cd (peVerifyAmid env cd flen fuel hashFuel args σ f w).2 p.1) ∧
    ∃ len secs data, LeftOut secs ∧ data.length = (offsetsOutside len secs).length ∧
      PiecesThen (peVerifyAmid env cd flen fuel hashFuel args σ f w).2 data ∧
      ∀ p ∈ res, p.1.d.spc.digest = env.hash p.1.d.core.digestAlg data := by
  rcases C97_outcome env cd flen fuel hashFuel args σ f w hn with ⟨e, hx⟩ | ⟨len, secs, data, dg, tr, rest, h1, h2, h3, h4, h5, h6, h7⟩
  · rw [hx] at h
    cases h
  · rw [h] at h7
    obtain ⟨q1, q2⟩ := attempts_digest h4 (fun p hp => (h5 p hp).2) h6 h7 he
    refine ⟨q1, fun p hp => ?_, len, secs, data, h1, h2, h3, fun p hp => (q2 p hp).2⟩
    obtain ⟨x, hx, he⟩ := List.mem_map.1 (q2 p hp).1
    rw [← he]
    exact (h5 x hx).1

/-- **C97**, the others have opened the file themselves: they can change its content but not the position of this file object.  Then
the sequence of bytes has a place in the file: it is as long as the file, at some moment, without the bytes left out, and each of its
bytes was, at some moment, at the corresponding offset. -/
theorem C97_changing (env : Env) (cd : Codec) (flen fuel hashFuel : Nat) (args : PEVerifyArgs) (σ : Nat → Handle → Handle) (hσ : ContentOnly σ)
    (f : Handle) (w : World) (he : ContextsExist w args.kwargs) (hn : args.expectedHashes = none) (res : List (ASD × List (List Cert)))
    (h : (peVerifyAmid env cd flen fuel hashFuel args σ f w).1.1 = .ok res) :
    res ≠ [] ∧ (∀ p ∈ res, SignatureThen cd (peVerifyAmid env cd flen fuel hashFuel args σ f w).2 p.1) ∧
    ∃ m ∈ (peVerifyAmid env cd flen fuel hashFuel args σ f w).2, ∃ secs data, LeftOut secs ∧
      data.length = (offsetsOutside m.bytes.length secs).length ∧
      (∀ (k offset : Nat) (b : UInt8), (offsetsOutside m.bytes.length secs)[k]? = some offset → data[k]? = some b →
        ByteThen (peVerifyAmid env cd flen fuel hashFuel args σ f w).2 offset b) ∧
      ∀ p ∈ res, p.1.d.spc.digest = env.hash p.1.d.core.digestAlg data := by
  rcases peVerifyAmid_outcome (S := ContentOnly)
    (L := fun n => ∃ m ∈ (peVerifyAmid env cd flen fuel hashFuel args σ f w).2, m.bytes.length = n)
    (B := AtPlace (peVerifyAmid env cd flen fuel hashFuel args σ f w).2)
    env cd flen fuel hashFuel args σ hσ f w
    (fun M iv σ' hs n h hm x hx hl hM => hM ▸ block_at iv σ' hs n h hm x hx hl)
    (fun M σ' hs n h hm x hx hM => hM ▸ openLengthP_at σ' hs n h hm x hx) hn with ⟨e, hx⟩ | ⟨len, secs, data, dg, tr, rest, h1, h2, h3, h4, h5, h6, h7⟩
  · rw [hx] at h
    cases h
  · rw [h] at h7
    obtain ⟨m, hm, hlen⟩ := h1
    subst hlen
    obtain ⟨q1, q2⟩ := attempts_digest h4 (fun p hp => (h5 p hp).2) h6 h7 he
    refine ⟨q1, fun p hp => ?_, m, hm, secs, data, h2, by rw [h3.length, h3.offsets h2], ?_, fun p hp => (q2 p hp).2⟩
    · obtain ⟨x, hx, he⟩ := List.mem_map.1 (q2 p hp).1
      rw [← he]
      exact (h5 x hx).1
    · have := h3.matches.2
      rwa [h3.offsets h2] at this

/-- The two contents of an example: one with the right headers and a changed byte at the end, the other with a changed byte in the
headers and the right end. -/
def exWrongEnd : Bytes := exTwice 1 2 [7, 8, 7]
def exWrongStart : Bytes := (exTwice 1 2 [7, 7, 7]).set 10 99

/-- Somebody replaces the content before the end of the file is hashed. -/
def exReplace (k : Nat) (h : Handle) : Handle := if k < 48 then { h with bytes := exWrongEnd } else { h with bytes := exWrongStart }

theorem exReplace_content : ContentOnly exReplace := by
  intro n h
  unfold exReplace
  split <;> rfl

theorem exReplace_ok : exOutcome (peVerifyAmid exPEEnv exPECodec exWrongEnd.length 5 (exWrongEnd.length + 10) (exPEArgs "all") exReplace
    ⟨exWrongEnd, 0⟩ exWorld).1.1 = .ok [(("sha256", [1]), [[1, 2, 3]]), (("sha1", [2]), [[1, 2, 3]])] := by decide +kernel

/-- `C97_returned` and `C97_changing` apply to it. -/
example : ∃ res, (peVerifyAmid exPEEnv exPECodec exWrongEnd.length 5 (exWrongEnd.length + 10) (exPEArgs "all") exReplace
      ⟨exWrongEnd, 0⟩ exWorld).1.1 = .ok res ∧ res ≠ [] := by
  obtain ⟨l, hl⟩ := exOutcome_ok exReplace_ok
  exact ⟨l, hl, (C97_changing _ _ _ _ _ _ _ exReplace_content _ _ (exPEArgs_contexts _ _) rfl l hl).1⟩

theorem exReplace_moments : ∀ m ∈ (peVerifyAmid exPEEnv exPECodec exWrongEnd.length 5 (exWrongEnd.length + 10) (exPEArgs "all") exReplace
    ⟨exWrongEnd, 0⟩ exWorld).2, m.bytes = exWrongEnd ∨ m.bytes = exWrongStart := by decide +kernel

/-- **C97**, the naive claim is false: `verify` can succeed for a file that changes although the file would not have been verified at
any moment of the call. -/
theorem C97_moment_false : ¬ ∀ (env : Env) (cd : Codec) (flen fuel hashFuel : Nat) (args : PEVerifyArgs) (σ : Nat → Handle → Handle) (f : Handle)
    (w : World) (res : List (ASD × List (List Cert))), ContentOnly σ → ContextsExist w args.kwargs → args.expectedHashes = none →
    (peVerifyAmid env cd flen fuel hashFuel args σ f w).1.1 = .ok res →
    ∃ m ∈ (peVerifyAmid env cd flen fuel hashFuel args σ f w).2, ∃ res', (peVerify env cd m.bytes args w).1 = .ok res' := by
  intro hall
  obtain ⟨l, hl⟩ := exOutcome_ok exReplace_ok
  obtain ⟨m, hm, res', hr⟩ := hall _ _ _ _ _ _ _ _ _ l exReplace_content (exPEArgs_contexts _ _) rfl hl
  have h1 : exOutcome (peVerify exPEEnv exPECodec exWrongEnd (exPEArgs "all") exWorld).1 = .error .authenticodeInvalidDigest := by decide +kernel
  have h2 : exOutcome (peVerify exPEEnv exPECodec exWrongStart (exPEArgs "all") exWorld).1 = .error .authenticodeInvalidDigest := by decide +kernel
  rcases exReplace_moments m hm with h | h <;> rw [h] at hr
  · rw [hr] at h1
    cases h1
  · rw [hr] at h2
    cases h2

/-! #### Threads that share the file object -/

/-- **C97**, threads: thread `i` verifies a file, and the others, in any number, do anything with the same file object except
writing.  If the scheduler `l` lets thread `i` come to its end, then the call of `verify` behaves as in `C97_outcome`; so the result, if
there is one, is not empty, its signatures are in the file, and they were made for a sequence of bytes made of pieces of the file
— which need not be at their places. -/
theorem C97_threads (env : Env) (cd : Codec) (flen fuel hashFuel : Nat) (args : PEVerifyArgs) (f : Handle) (w : World)
    (l : List Nat) (i : Nat) (ps : Nat → Prog (List ASD × Dict String Bytes)) (r : Except Exc (List ASD × Dict String Bytes))
    (hi : ps i = verifyReadsP env cd flen fuel hashFuel args []) (hr : (Prog.turns l ps f).1 i = .ret r)
    (he : ContextsExist w args.kwargs) (hn : args.expectedHashes = none) (res : List (ASD × List (List Cert)))
    (h : (verifyRead env args [] r w).1 = .ok res) :
    res ≠ [] ∧ (∀ p ∈ res, SignatureIn cd f.bytes p.1) ∧
    ∃ len secs data, LeftOut secs ∧ data.length = (offsetsOutside len secs).length ∧ PiecesThen [f] data ∧
      ∀ p ∈ res, p.1.d.spc.digest = env.hash p.1.d.core.digestAlg data := by
  obtain ⟨σ, -, h2, h3⟩ := Prog.turns_amid i l ps f 0 r hr f rfl
  rw [hi] at h2 h3
  have hp : (peVerifyAmid env cd flen fuel hashFuel args σ f w).1 = verifyRead env args [] r w := by
    rw [← h2]
    unfold peVerifyAmid
    simp only [hn]
  have hm : (peVerifyAmid env cd flen fuel hashFuel args σ f w).2 = ((verifyReadsP env cd flen fuel hashFuel args []).amid σ 0 f).1.2 := by
    unfold peVerifyAmid
    simp only [hn]
  rw [← hp] at h
  obtain ⟨q1, q2, len, secs, data, q3, q4, ⟨pieces, q5, q6⟩, q7⟩ := C97_returned env cd flen fuel hashFuel args σ f w he hn res h
  rw [hm] at q2 q6
  refine ⟨q1, fun p hp => ?_, len, secs, data, q3, q4, ⟨pieces, q5, fun x hx => ?_⟩, q7⟩
  · obtain ⟨m, hmm, hs⟩ := q2 p hp
    rwa [h3 m hmm] at hs
  · obtain ⟨m, hmm, p, hs⟩ := q6 x hx
    rw [h3 m hmm] at hs
    exact ⟨f, List.mem_singleton.2 rfl, p, hs⟩

/-- A decoder for which the payload of a signature may begin with anything. -/
def exEndCodec : Codec := { exPECodec with envelope := fun b => exPECodec.envelope b.reverse }

/-- A file whose signature, which is not hashed, contains the bytes with which the signed file ends. -/
def exHiding (rest : Bytes) : Bytes :=
  exPE 16 [224, 0, 0, 0, 16, 0, 0, 0] ([16, 0, 0, 0, 0, 2, 2, 0] ++ [7, 7, 7, 1, 1, 1, 1, 1] ++ rest)

/-- Two threads that verify this file. -/
def exThreads (file : Bytes) : Nat → Prog (List ASD × Dict String Bytes) :=
  fun _ => verifyReadsP exPEEnv exEndCodec file.length 5 (file.length + 10) (exPEArgs "all") []

/-- Thread 1 reads the headers, thread 0 does all but the last operation, thread 1 reads the header of the signature, and thread 0
does its last operation. -/
def exSchedule : List Nat := List.replicate 14 1 ++ List.replicate 44 0 ++ List.replicate 4 1 ++ [0]

/-- What a thread has read, if it has come to its end. -/
def exEnded {α : Type} : Prog α → Option (Except Exc α)
  | .ret r => some r
  | _ => none

theorem exEnded_some {α : Type} {p : Prog α} {r : Except Exc α} (h : exEnded p = some r) : p = .ret r := by
  cases p with
  | ret r' => cases h; rfl
  | _ => cases h

instance : DecidableEq (Except ExcClass (List ((String × Bytes) × List (List Nat)))) := fun _ _ => inferInstance

/-- What a thread comes to. -/
def exComesTo (l : List Nat) (file : Bytes) (i : Nat) : Option (Except ExcClass (List ((String × Bytes) × List (List Nat)))) :=
  (exEnded ((Prog.turns l (exThreads file) ⟨file, 0⟩).1 i)).map (fun r => exOutcome (verifyRead exPEEnv (exPEArgs "all") [] r exWorld).1)

/-- The schedule verifies a file with a changed end. -/
theorem exSchedule_ok : exComesTo exSchedule (exHiding [7, 8, 7]) 0 = some (.ok [(("sha256", [1]), [[1, 2, 3]])]) := by decide +kernel

/-- Without the other thread it is not verified. -/
theorem exHiding_bad : exOutcome (peVerify exPEEnv exEndCodec (exHiding [7, 8, 7]) (exPEArgs "all") exWorld).1 =
    .error .authenticodeInvalidDigest := by decide +kernel

theorem exSchedule_ended : ∃ r, (Prog.turns exSchedule (exThreads (exHiding [7, 8, 7])) ⟨exHiding [7, 8, 7], 0⟩).1 0 = .ret r ∧
    ∃ res, (verifyRead exPEEnv (exPEArgs "all") [] r exWorld).1 = .ok res := by
  have h := exSchedule_ok
  unfold exComesTo at h
  cases hr : exEnded ((Prog.turns exSchedule (exThreads (exHiding [7, 8, 7])) ⟨exHiding [7, 8, 7], 0⟩).1 0) with
  | none => rw [hr] at h; cases h
  | some r =>
    rw [hr] at h
    exact ⟨r, exEnded_some hr, exOutcome_ok (Option.some.inj h)⟩

/-- `C97_threads` applies to it. -/
example : ∃ res : List (ASD × List (List Cert)), res ≠ [] ∧ ∀ p ∈ res, SignatureIn exEndCodec (exHiding [7, 8, 7]) p.1 := by
  obtain ⟨r, h1, res, h2⟩ := exSchedule_ended
  obtain ⟨q1, q2, -⟩ := C97_threads _ _ _ _ _ _ _ exWorld exSchedule 0 (exThreads (exHiding [7, 8, 7])) r rfl h1 (exPEArgs_contexts _ _) rfl res h2
  exact ⟨res, q1, q2⟩

/-- **C97**, threads, the naive claim is false: two threads that verify one file through one file object can find it verified
although it is not. -/
theorem C97_threads_false : ¬ ∀ (env : Env) (cd : Codec) (fuel : Nat) (args : PEVerifyArgs) (f : Handle) (w : World) (l : List Nat)
    (r : Except Exc (List ASD × Dict String Bytes)) (res : List (ASD × List (List Cert))),
    ContextsExist w args.kwargs → args.expectedHashes = none →
    (Prog.turns l (fun _ => verifyReadsP env cd f.bytes.length fuel (f.bytes.length + 10) args []) f).1 0 = .ret r →
    (verifyRead env args [] r w).1 = .ok res → ∃ res', (peVerify env cd f.bytes args w).1 = .ok res' := by
  intro hall
  obtain ⟨r, h1, res, h2⟩ := exSchedule_ended
  have hb := exHiding_bad
  generalize exHiding [7, 8, 7] = file at h1 hb
  generalize exSchedule = l at h1
  unfold exThreads at h1
  obtain ⟨res', hr⟩ := hall exPEEnv exEndCodec 5 (exPEArgs "all") ⟨file, 0⟩ exWorld l r res (exPEArgs_contexts _ _) rfl h1 h2
  simp only at hr
  rw [hr] at hb
  cases hb

/-- **C97**, threads, the other way round: two threads that verify one good file through one file object can both fail. -/
theorem C97_threads_fail : ∃ l, exComesTo l (exHiding [7, 7, 7]) 0 = some (.error .authenticodeNotSigned) ∧
    exComesTo l (exHiding [7, 7, 7]) 1 = some (.error .authenticodeNotSigned) ∧
    exOutcome (peVerify exPEEnv exEndCodec (exHiding [7, 7, 7]) (exPEArgs "all") exWorld).1 = .ok [(("sha256", [1]), [[1, 2, 3]])] :=
  ⟨[0, 0, 0, 1, 0, 1], by decide +kernel⟩

end Signify.Props
