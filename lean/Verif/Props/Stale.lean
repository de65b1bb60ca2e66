/-
Files that are changed while they are open (C86).
-/
import Verif.Proofs.Stale
import Verif.Props.Handle

set_option autoImplicit false

namespace Signify.Props

open Signify Spec

/-! ### C86

A `SignedPEFile` measures the length of its file once, when it is created (`flen` below).  Afterwards the file may be changed, by
the program itself or by another one. -/

/-- **C86**, iterations.  As long as the changes leave alone the first `flen` bytes (for example, because they only append), each
iteration gives exactly the signatures of these first `flen` bytes, whatever happens between its steps. -/
theorem C86_iterations (cd : Codec) (f : Handle) (flen : Nat) (hf : flen ≤ f.bytes.length) (opts : Nat → Bool × Bool)
    (acts : List FileAct) (hw : ∀ b, .write b ∈ acts → flen ≤ b.length ∧ b.take flen = f.bytes.take flen) (i : Nat) :
    answersOf i (play cd flen opts acts (fun _ => .start) f) =
      (List.range (requests i acts)).map (answer (iterSignedDatas cd (f.bytes.take flen) (opts i).1 (opts i).2)) :=
  play_gives cd opts acts _ f _ ⟨hf, rfl⟩ (fun b hb => ⟨(hw b hb).1, (hw b hb).2.symm⟩) (fun _ => SdLeft.start _ _ _ _) i

/-- **C86**, `list(iter_signed_datas(...))` for a file that is longer than it was when it was opened: the signatures are those of the
first `flen` bytes. -/
theorem C86_list (cd : Codec) (f : Handle) (flen : Nat) (hl : flen ≤ f.bytes.length) (nested ignore : Bool) (fuel : Nat)
    (hf : (iterSignedDatas cd (f.bytes.take flen) nested ignore).1.length < fuel) :
    (SdGen.drainH cd flen nested ignore fuel .start f).1 = some (iterSignedDatas cd (f.bytes.take flen) nested ignore) ∧
    (SdGen.drainH cd flen nested ignore fuel .start f).2.bytes = f.bytes :=
  drainH_gives cd ⟨hl, rfl⟩ nested ignore fuel .start _ f rfl (SdLeft.start _ _ _ _) hf

/-- **C86**, `verify`.  The file is `f` when the signatures are read and has become `g` when it is hashed; the length `flen` may be
out of date.  If `verify` returns, then at least one signature is returned, each was read from `f`, and its digest is the authentihash of
`g`. -/
theorem C86_current (env : Env) (cd : Codec) (flen fuel : Nat) (args : PEVerifyArgs) (f g : Handle) (w : World)
    (he : ContextsExist w args.kwargs) (hn : args.expectedHashes = none) (listed : Gen ASD)
    (hl : (SdGen.drainH cd flen true args.ignoreParseErrors fuel .start f).1 = some listed) (res : List (ASD × List (List Cert)))
    (h : (verifyListed env args listed g w).1.1 = .ok res) :
    res ≠ [] ∧ ∀ p ∈ res, SignatureIn cd f.bytes p.1 ∧
      ∀ bs : Int, 1 ≤ bs → Authentihash env.hash p.1.d.core.digestAlg bs g.bytes p.1.d.spc.digest := by
  obtain ⟨sds, e⟩ := listed
  have hs := (drainH_post cd f.bytes flen true args.ignoreParseErrors fuel .start f rfl trivial).2 sds e hl
  obtain ⟨h1, h2⟩ := verifyListed_bound env args sds g w (fun x hx => signatureIn_alg (hs x hx)) he hn e res h
  exact ⟨h1, fun p hp => ⟨hs _ (h2 p hp).1, (h2 p hp).2⟩⟩

/-- **C86**, `verify` of a file that was changed in any way since it was opened, but not during the call: never a result for the old
content. -/
theorem C86_verify (env : Env) (cd : Codec) (flen fuel : Nat) (args : PEVerifyArgs) (f : Handle) (w : World)
    (he : ContextsExist w args.kwargs) (hn : args.expectedHashes = none) (res : List (ASD × List (List Cert)))
    (h : (peVerifyH env cd flen fuel args f w).1.1 = .ok res) :
    res ≠ [] ∧ ∀ p ∈ res, SignatureIn cd f.bytes p.1 ∧
      ∀ bs : Int, 1 ≤ bs → Authentihash env.hash p.1.d.core.digestAlg bs f.bytes p.1.d.spc.digest := by
  have hb := (drainH_post cd f.bytes flen true args.ignoreParseErrors fuel .start f rfl trivial).1
  unfold peVerifyH at h
  cases hd : SdGen.drainH cd flen true args.ignoreParseErrors fuel .start f with
  | mk r f' =>
    rw [hd] at h hb
    cases r with
    | none => cases h
    | some listed =>
      have := C86_current env cd flen fuel args f f' w he hn listed (by rw [hd]) res h
      rw [show f'.bytes = f.bytes from hb] at this
      exact this

/-- **C86**, content appended to a signed file that is open.  A signature that matched the file before the change is not reported any
more, unless the hash function has a collision. -/
theorem C86_appended (env : Env) (cd : Codec) (fuel : Nat) (args : PEVerifyArgs) (old x : Bytes) (hx : x ≠ []) (pos : Nat) (w : World)
    (he : ContextsExist w args.kwargs) (hn : args.expectedHashes = none) (res : List (ASD × List (List Cert)))
    (h : (peVerifyH env cd old.length fuel args ⟨old ++ x, pos⟩ w).1.1 = .ok res) (p : ASD × List (List Cert)) (hp : p ∈ res) (bs : Int)
    (hbs : 1 ≤ bs) (hold : Authentihash env.hash p.1.d.core.digestAlg bs old p.1.d.spc.digest)
    (hfuel : (iterSignedDatas cd old true args.ignoreParseErrors).1.length < fuel) :
    ∃ u v, u ≠ v ∧ env.hash p.1.d.core.digestAlg u = env.hash p.1.d.core.digestAlg v := by
  have hnew := ((C86_verify env cd old.length fuel args ⟨old ++ x, pos⟩ w he hn res h).2 p hp).2 bs hbs
  have ht : (old ++ x).take old.length = old := by simp
  -- the certificate table is inside the old content
  obtain ⟨d1, d2⟩ := C86_list cd ⟨old ++ x, pos⟩ old.length (by simp) true args.ignoreParseErrors fuel (by simp only; rw [ht]; exact hfuel)
  simp only at d1
  rw [ht] at d1
  have htab : ∃ oho ohs dir, Header old oho ohs dir ∧ HasTable old oho ohs dir (leAt old dir 4) (leAt old (dir + 4) 4) := by
    refine Classical.byContradiction fun hno => ?_
    obtain ⟨e, -, he'⟩ := parseCertTable_noTable (file := old) (fuel := old.length + 1) (by
      intro ⟨oho, ohs, dir, a, s, k1, k2⟩
      refine hno ⟨oho, ohs, dir, k1, ?_⟩
      have e1 := k2.2.1
      have e2 := k2.2.2.1
      subst e1 e2
      exact k2)
    have hz : (iterSignedDatas cd old true args.ignoreParseErrors).1 = [] := by
      unfold iterSignedDatas parseCertTable
      rw [he']
      simp only [Option.getD_some, signedDatasLoop]
      split <;> rfl
    unfold peVerifyH at h
    cases hd : SdGen.drainH cd old.length true args.ignoreParseErrors fuel .start ⟨old ++ x, pos⟩ with
    | mk r f' =>
      rw [hd] at h d1
      simp only at d1
      subst d1
      simp only at h
      generalize iterSignedDatas cd old true args.ignoreParseErrors = it at h hz
      obtain ⟨l, e'⟩ := it
      simp only at hz
      subst hz
      unfold verifyListed at h
      cases e' with
      | none => simp only [Gen.toList, List.isEmpty_nil, if_true] at h; cases h
      | some e' => simp only [Gen.toList] at h; cases h
  obtain ⟨oho, ohs, dir, hh, ht'⟩ := htab
  obtain ⟨a, b, c, k1, k2⟩ := (C09_authentihash_iff env.hash _ bs hbs old _).1 hold
  obtain ⟨a', b', c', l1, l2⟩ := (C09_authentihash_iff env.hash _ bs hbs _ _).1 hnew
  obtain ⟨rfl, rfl, rfl⟩ := header_unique k1 hh
  obtain ⟨rfl, rfl, rfl⟩ := header_unique l1 (header_append hh x)
  rw [stripped_append hh ht'] at l2
  refine ⟨_, _, ?_, k2.symm.trans l2⟩
  intro e
  have := congrArg List.length e
  rw [List.length_append] at this
  exact hx (List.length_eq_zero_iff.1 (by omega))

/-! Examples.  The file `exTwice 1 2 [7, 7, 7]` (see C55) has two signatures and verifies. -/

/-- Appending to it after it was opened: the signatures are still found, but do not match any more. -/
example : exOutcome (peVerifyH exPEEnv exPECodec (exTwice 1 2 [7, 7, 7]).length 3 (exPEArgs "all") ⟨exTwice 1 2 [7, 7, 7] ++ [9], 0⟩ exWorld).1.1 =
    .error .authenticodeInvalidDigest := by decide +kernel

/-- A change of the checksum after the file was opened does not matter: the call returns, and satisfies the hypotheses of
`C86_verify` and `C86_current`. -/
example : exOutcome (peVerifyH exPEEnv exPECodec (exTwice 1 2 [7, 7, 7]).length 3 (exPEArgs "all")
      ⟨patch (exTwice 1 2 [7, 7, 7]) 152 [5, 5, 5, 5], 0⟩ exWorld).1.1 =
    .ok [(("sha256", [1]), [[1, 2, 3]]), (("sha1", [2]), [[1, 2, 3]])] ∧
    patch (exTwice 1 2 [7, 7, 7]) 152 [5, 5, 5, 5] ≠ exTwice 1 2 [7, 7, 7] := ⟨by decide +kernel, by decide +kernel⟩

/-- The three last bytes were appended after the file was opened: the table was complete before, so that the file verifies. -/
example : exOutcome (peVerifyH exPEEnv exPECodec ((exTwice 1 2 [7, 7, 7]).length - 3) 3 (exPEArgs "all") ⟨exTwice 1 2 [7, 7, 7], 0⟩ exWorld).1.1 =
    .ok [(("sha256", [1]), [[1, 2, 3]]), (("sha1", [2]), [[1, 2, 3]])] := by decide +kernel

/-- A file opened before its signatures were appended counts as not signed. -/
example : exOutcome (peVerifyH exPEEnv exPECodec 224 3 (exPEArgs "all") ⟨exTwice 1 2 [7, 7, 7], 0⟩ exWorld).1.1 =
    .error .authenticodeNotSigned := by decide +kernel

/-- A file that was cut off in its certificate table after it was opened: even with parse errors ignored, the iteration ends with an
exception of the `struct` module, which is not one of the library's. -/
theorem C86_shrunk_struct_error :
    (SdGen.drainH exPECodec (exTwice 1 2 [7, 7, 7]).length true true 3 .start ⟨(exTwice 1 2 [7, 7, 7]).take 228, 0⟩).1.map
      (fun g => (g.1.map exLabel, g.2.map Exc.cls)) = some ([], some .structError) := by decide +kernel

/-- Two iterations over a file to which another program appends. -/
example : (play exPECodec exBrokenOff.length (fun i => (true, i == 0))
      [.next 0, .write (exBrokenOff ++ [1]), .next 1, .next 0, .write (exBrokenOff ++ [2, 3]), .next 1, .next 1, .next 0] (fun _ => .start)
      ⟨exBrokenOff, 17⟩).map (fun x => (x.1, exAnswer x.2)) =
    [(0, .ok (some ("sha256", [1]))), (1, .ok (some ("sha256", [1]))), (0, .ok (some ("sha1", [2]))),
     (1, .ok (some ("sha1", [2]))), (1, .error .signedPEParseError), (0, .ok none)] ∧
    (exBrokenOff ++ [2, 3]).take exBrokenOff.length = exBrokenOff.take exBrokenOff.length := ⟨by decide +kernel, by decide +kernel⟩

/-- All long texts have the same hash. -/
def exConstEnv : Env := { exPEEnv with hash := fun n b => if 100 < b.length then [215, 203] else exPEEnv.hash n b }

/-- With a hash function that is constant on long texts, what is appended is not noticed: the hypotheses of `C86_appended` and `C86_verify`
are met. -/
example : ∃ u v, u ≠ v ∧ exConstEnv.hash "sha256" u = exConstEnv.hash "sha256" v := by
  obtain ⟨l, p, h1, h2, h3⟩ := exReturned (r := (peVerifyH exConstEnv exPECodec (exTwice 1 2 [7, 7, 7]).length 3 (exPEArgs "all")
    ⟨exTwice 1 2 [7, 7, 7], 0⟩ exWorld).1.1) (x := ("sha256", [215, 203])) (xs := [("sha1", [215, 203])]) (by decide +kernel)
  obtain ⟨l', p', h1', h2', h3'⟩ := exReturned (r := (peVerifyH exConstEnv exPECodec (exTwice 1 2 [7, 7, 7]).length 3 (exPEArgs "all")
    ⟨exTwice 1 2 [7, 7, 7] ++ [0], 0⟩ exWorld).1.1) (x := ("sha256", [215, 203])) (xs := [("sha1", [215, 203])]) (by decide +kernel)
  have h := ((C86_verify exConstEnv exPECodec _ 3 (exPEArgs "all") ⟨exTwice 1 2 [7, 7, 7], 0⟩ exWorld (exPEArgs_contexts _ _) rfl l h1).2 p h2).2 1
    (by decide)
  clear h1 h2
  simp only [exDigest, Prod.mk.injEq] at h3 h3'
  obtain ⟨e1, e2⟩ := h3
  obtain ⟨e3, e4⟩ := h3'
  rw [e1, e2] at h
  have hfuel : (iterSignedDatas exPECodec (exTwice 1 2 [7, 7, 7]) true (exPEArgs "all").ignoreParseErrors).1.length < 3 := by decide +kernel
  generalize exTwice 1 2 [7, 7, 7] = old at h h1' hfuel
  have := C86_appended exConstEnv exPECodec 3 (exPEArgs "all") old [0] (by decide) 0 exWorld (exPEArgs_contexts _ _) rfl l' h1'
    p' h2' 1 (by decide) (by rw [e3, e4]; exact h) hfuel
  rw [e3] at this
  exact this

example := C86_list exPECodec ⟨exTwice 1 2 [7, 7, 7] ++ [9], 4⟩ (exTwice 1 2 [7, 7, 7]).length (by decide +kernel) true true 3 (by decide +kernel)

end Signify.Props
