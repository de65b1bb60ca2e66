/-
The file object: its position never matters (C85).
-/
import Verif.Proofs.Handle
import Verif.Props.PEFile

set_option autoImplicit false

namespace Signify.Props

open Signify Spec

/-! ### C85

The byte-level model (`getOmit`, `iterSignedDatas`, `FP.hashes`, `peVerify`, …) knows the content of a file only.  Here the
same functions are modelled on a file object, `seek` by `seek` and `read` by `read`; the theorems say that they compute the
same, wherever the file is positioned when they are called or resumed, and that they leave the content alone. -/

/-- **C85**, opening a file and finding its sections: `SignedPEFile(f).get_authenticode_omit_sections()` depends only on the
content of `f`, not on its position. -/
theorem C85_sections (f : Handle) :
    ((do let flen ← openLength; omitSectionsH flen : HM (Option (Dict String RelRange))) f).1 = getOmit f.bytes ∧
    ((do let flen ← openLength; omitSectionsH flen : HM (Option (Dict String RelRange))) f).2.bytes = f.bytes :=
  openOmit_gives f.bytes f rfl

/-- **C85**, iterations.  A program has any number of iterations over the signatures of one file, each with its own options. It asks
them for their next signatures in any order, and in between does other things that move the position of the file
anywhere (but nothing that changes its content; for that see C86).  Still each iteration gives exactly the signatures of the file, in order, and stops as it would without the
others. -/
theorem C85_iterations (cd : Codec) (f : Handle) (opts : Nat → Bool × Bool) (acts : List FileAct)
    (hw : ∀ b, .write b ∉ acts) (i : Nat) :
    answersOf i (play cd f.bytes.length opts acts (fun _ => .start) f) =
      (List.range (requests i acts)).map (answer (iterSignedDatas cd f.bytes (opts i).1 (opts i).2)) :=
  play_gives cd opts acts _ f _ (Seen.self f.bytes) (fun b hb => absurd hb (hw b)) (fun _ => SdLeft.start _ _ _ _) i

/-- **C85**, `list(iter_signed_datas(...))`. -/
theorem C85_list (cd : Codec) (f : Handle) (nested ignore : Bool) (fuel : Nat)
    (hf : (iterSignedDatas cd f.bytes nested ignore).1.length < fuel) :
    (SdGen.drainH cd f.bytes.length nested ignore fuel .start f).1 = some (iterSignedDatas cd f.bytes nested ignore) ∧
    (SdGen.drainH cd f.bytes.length nested ignore fuel .start f).2.bytes = f.bytes :=
  drainH_gives cd (Seen.self f.bytes) nested ignore fuel .start _ f rfl (SdLeft.start _ _ _ _) hf

/-- **C85**, `Fingerprinter.hashes()`: with any registrations, block size and position of the file. -/
theorem C85_hashes (H : String → Bytes → Bytes) (fuel : Nat) (fp : FP) (f : Handle) (hf : f.bytes = fp.file) :
    (fp.hashesH H fuel f).1 = fp.hashes H fuel ∧ (fp.hashesH H fuel f).2.bytes = f.bytes := by
  rw [hf]
  exact FP.hashesH_gives H fuel fp f hf

/-- **C85**, the registration of the authentihash. -/
theorem C85_add_authenticode_hashers (fp : FP) (algs : List String) (f : Handle) (hf : f.bytes = fp.file) :
    (fp.addAuthenticodeHashersH algs f).1 = (fp.addAuthenticodeHashers algs).1 ∧
    (fp.addAuthenticodeHashersH algs f).2.1 = (fp.addAuthenticodeHashers algs).2 ∧
    (fp.addAuthenticodeHashersH algs f).2.2.bytes = f.bytes := by
  obtain ⟨h', h1, h2⟩ := FP.addAuthenticodeHashersH_gives fp algs f hf
  rw [h1, hf]
  exact ⟨rfl, rfl, h2⟩

/-- **C85**, the hash that a signature computes when it is verified on its own. -/
theorem C85_expected_hash (env : Env) (f : Handle) (alg : String) :
    (computeExpectedH env alg f).1 = computeExpected env (some f.bytes) alg ∧
    (computeExpectedH env alg f).2.bytes = f.bytes :=
  computeExpectedH_gives env f.bytes alg f rfl

/-- **C85**, `SignedPEFile.verify(...)`: the result, the state of contexts, stores and dictionaries afterwards, and the content of
the file do not depend on the position at which the file was. -/
theorem C85_verify (env : Env) (cd : Codec) (f : Handle) (args : PEVerifyArgs) (w : World) (fuel : Nat)
    (hf : (iterSignedDatas cd f.bytes true args.ignoreParseErrors).1.length < fuel) :
    (peVerifyH env cd f.bytes.length fuel args f w).1 = peVerify env cd f.bytes args w ∧
    (peVerifyH env cd f.bytes.length fuel args f w).2.bytes = f.bytes :=
  peVerifyH_gives env cd f.bytes fuel args f w rfl hf

/-- Labels of answers, for comparison. -/
def exAnswer (r : Except Exc (Option ASD)) : Except ExcClass (Option (String × Bytes)) :=
  match r with
  | .ok a => .ok (a.map exLabel)
  | .error e => .error e.cls

/-- A file with two signatures and a broken end of the table; two iterations, one ignoring parse errors and one not, take
turns, and the file is moved in between. -/
example : (play exPECodec exBrokenOff.length (fun i => (true, i == 0))
      [.next 0, .move 3, .next 1, .next 0, .move 100000, .next 1, .next 1, .next 0, .next 1] (fun _ => .start)
      ⟨exBrokenOff, 17⟩).map (fun x => (x.1, exAnswer x.2)) =
    [(0, .ok (some ("sha256", [1]))), (1, .ok (some ("sha256", [1]))), (0, .ok (some ("sha1", [2]))),
     (1, .ok (some ("sha1", [2]))), (1, .error .signedPEParseError), (0, .ok none), (1, .ok none)] := by decide +kernel

/-- Verifying a file that is positioned in the middle; 2 signatures, so that 3 steps of the iteration are enough. -/
example : exOutcome (peVerifyH exPEEnv exPECodec (exTwice 1 2 [7, 7, 7]).length 3 (exPEArgs "all") ⟨exTwice 1 2 [7, 7, 7], 77⟩ exWorld).1.1 =
    exOutcome (peVerify exPEEnv exPECodec (exTwice 1 2 [7, 7, 7]) (exPEArgs "all") exWorld).1 ∧
    (iterSignedDatas exPECodec (exTwice 1 2 [7, 7, 7]) true true).1.length = 2 := by
  have h2 : (iterSignedDatas exPECodec (exTwice 1 2 [7, 7, 7]) true true).1.length = 2 := by decide +kernel
  refine ⟨?_, h2⟩
  rw [(C85_verify exPEEnv exPECodec ⟨exTwice 1 2 [7, 7, 7], 77⟩ (exPEArgs "all") exWorld 3 (by
    show (iterSignedDatas exPECodec (exTwice 1 2 [7, 7, 7]) true true).1.length < 3
    omega)).1]

example := C85_list exPECodec ⟨exTwice 1 2 [7, 7, 7], 77⟩ true true 3 (by decide +kernel)
example := C85_iterations exPECodec ⟨exBrokenOff, 17⟩ (fun i => (true, i == 0)) [.next 0, .move 3, .next 1] (fun b h => by simp at h) 1

end Signify.Props
