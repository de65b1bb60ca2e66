/-
C102: verification of a file while others use the same file and the same stores.
-/
import Verif.Proofs.Both
import Verif.Props.Shared
import Verif.Props.TogetherPE

set_option autoImplicit false

namespace Signify.Props

open Signify Spec

/-! ### C102

`(peVerifyB …).amid σ 0 ⟨f, w⟩` is `SignedPEFile(f).verify(...)` while others do something: before the `k`-th access of the call to the
file object or to a store or context they turn the state `s` into `σ k s`.  Its second component has the states at these accesses. -/

/-- **C102**, nobody else: this is `verify`, as everywhere else. -/
theorem C102_alone (env : Env) (cd : Codec) (fuel storeFuel : Nat) (args : PEVerifyArgs) (f : Handle) (w : World)
    (hf : (iterSignedDatas cd f.bytes true args.ignoreParseErrors).1.length < fuel)
    (hw : ∀ i, (Store.loaded (w.stores i)).items.length < storeFuel) :
    ((peVerifyB env cd f.bytes.length fuel (f.bytes.length + 10) storeFuel args).amid noOthers 0 ⟨f, w⟩).1 = (peVerify env cd f.bytes args w).1 ∧
    ((peVerifyB env cd f.bytes.length fuel (f.bytes.length + 10) storeFuel args).amid noOthers 0 ⟨f, w⟩).2.2.world =
      (peVerify env cd f.bytes args w).2 :=
  peVerifyB_alone env cd fuel storeFuel args f w hf hw

/-- A file with two signatures, alone. -/
example : exOutcome ((peVerifyB exPEEnv exPECodec (exTwice 1 2 [7, 7, 7]).length 5 ((exTwice 1 2 [7, 7, 7]).length + 10) 9 (exPEArgs "all")).amid noOthers 0
    ⟨⟨exTwice 1 2 [7, 7, 7], 3⟩, exWorld⟩).1 = .ok [(("sha256", [1]), [[1, 2, 3]]), (("sha1", [2]), [[1, 2, 3]])] := by
  rw [(C102_alone exPEEnv exPECodec 5 9 (exPEArgs "all") ⟨exTwice 1 2 [7, 7, 7], 3⟩ exWorld (by decide +kernel) exWorld_all_bounded).1]
  exact exTwice_all

/-- **C102**, whatever others do with the file object, with the content of the file and with the stores: if the call makes its own contexts
and returns, there is one sequence of bytes, made of pieces that were in the file at some moments of the call, as long as what remains of
some length after leaving out a checksum and perhaps an entry and a table, such that the signatures returned are those that the mode asks
for among signatures that were in the file at some moments of the call, and each has been found good, for the digest of these bytes and
with what was in the stores at some moments of the call. -/
theorem C102_returned (env : Env) (cd : Codec) (flen fuel hashFuel storeFuel : Nat) (args : PEVerifyArgs) (hn : args.expectedHashes = none)
    (h1 : args.kwargs.context = none) (h2 : args.kwargs.csContext = none) (σ : Nat → Both → Both) (hσ : FileAndStores σ) (s : Both)
    (moments : List Both) (hm : moments = ((peVerifyB env cd flen fuel hashFuel storeFuel args).amid σ 0 s).2.1)
    (res : List (ASD × List (List Cert))) (h : ((peVerifyB env cd flen fuel hashFuel storeFuel args).amid σ 0 s).1 = .ok res) :
    ∃ len secs data, LeftOut secs ∧ data.length = (offsetsOutside len secs).length ∧ PiecesThen (moments.map Both.file) data ∧
      FoundWith env (· ∈ moments.map Both.world) cd (moments.map Both.file) s.world args data res := by
  obtain ⟨len, secs, data, -, q2, q3, q4⟩ := peVerifyB_outcome (S := fun _ => True) (L := fun _ => True)
    (B := fun _ x => ∃ m ∈ moments.map Both.file, ∃ p, x = (m.bytes.drop p).take x.length) env cd flen fuel hashFuel storeFuel args hn
    (fun _ => ⟨rfl, rfl, rfl⟩) σ (allowed_stores hσ) (fun _ _ => trivial) s (moments.map Both.file) (· ∈ moments.map Both.world)
    (fun m hx => by rw [← hm] at hx; exact ⟨List.mem_map.2 ⟨m, hx, rfl⟩, List.mem_map.2 ⟨m, hx, rfl⟩⟩)
    (fun iv => block_any (S := fun _ => True) iv) (fun _ _ _ _ _ _ _ => trivial)
    (found_private env _ storeFuel args h1 h2 s.world) res h
  exact ⟨len, secs, data, q2, by rw [q3.length, q3.offsets q2], q3.pieces fun iv x hx => hx, q4⟩

/-- **C102**, others change the content of the file and the stores but have opened the file themselves: then the sequence of bytes has a
place in the file: it is as long as the file, at some moment, without the bytes left out, and each of its bytes was, at some moment, at
the corresponding offset. -/
theorem C102_changing (env : Env) (cd : Codec) (flen fuel hashFuel storeFuel : Nat) (args : PEVerifyArgs) (hn : args.expectedHashes = none)
    (h1 : args.kwargs.context = none) (h2 : args.kwargs.csContext = none) (σ : Nat → Both → Both) (hσ : FileAndStores σ) (hk : KeepsPosition σ)
    (s : Both) (moments : List Both) (hm : moments = ((peVerifyB env cd flen fuel hashFuel storeFuel args).amid σ 0 s).2.1)
    (res : List (ASD × List (List Cert))) (h : ((peVerifyB env cd flen fuel hashFuel storeFuel args).amid σ 0 s).1 = .ok res) :
    ∃ m ∈ moments, ∃ secs data, LeftOut secs ∧ data.length = (offsetsOutside m.file.bytes.length secs).length ∧
      (∀ (k offset : Nat) (b : UInt8), (offsetsOutside m.file.bytes.length secs)[k]? = some offset → data[k]? = some b →
        ByteThen (moments.map Both.file) offset b) ∧
      FoundWith env (· ∈ moments.map Both.world) cd (moments.map Both.file) s.world args data res := by
  obtain ⟨len, secs, data, ⟨f, hf, rfl⟩, q2, q3, q4⟩ := peVerifyB_outcome (S := ContentOnly)
    (L := fun n => ∃ m ∈ moments.map Both.file, m.bytes.length = n) (B := AtPlace (moments.map Both.file)) env cd flen fuel hashFuel storeFuel args hn
    (fun _ => ⟨rfl, rfl, rfl⟩) σ (allowed_stores hσ) (fun _ ht => ht hk) s (moments.map Both.file) (· ∈ moments.map Both.world)
    (fun m hx => by rw [← hm] at hx; exact ⟨List.mem_map.2 ⟨m, hx, rfl⟩, List.mem_map.2 ⟨m, hx, rfl⟩⟩)
    (fun iv => block_at iv) openLengthP_at (found_private env _ storeFuel args h1 h2 s.world) res h
  obtain ⟨m, hm', rfl⟩ := List.mem_map.1 hf
  refine ⟨m, hm', secs, data, q2, by rw [q3.length, q3.offsets q2], ?_, q4⟩
  have := q3.matches.2
  rwa [q3.offsets q2] at this

/-- Somebody replaces the content before the end of the file is hashed (`exReplace`), and somebody fills the stores when the call is about
to load one. -/
def exBusy (k : Nat) (s : Both) : Both := ⟨exReplace (k - 1) s.file, if k = 56 then { s.world with stores := exWorld.stores } else s.world⟩

theorem exBusy_stores : FileAndStores exBusy := by
  intro n s
  unfold exBusy
  simp only
  split <;> exact ⟨rfl, rfl, rfl⟩

theorem exBusy_position : KeepsPosition exBusy := fun n s => exReplace_content (n - 1) s.file

theorem exBusy_returns : exOutcome ((peVerifyB exPEEnv exPECodec exWrongEnd.length 5 (exWrongEnd.length + 10) 9 (exPEArgs "all")).amid exBusy 0
    ⟨⟨exWrongEnd, 0⟩, exUnloaded⟩).1 = .ok [(("sha256", [1]), [[1, 2, 3]]), (("sha1", [2]), [[1, 2, 3]])] := by decide +kernel

/-- `C102_returned` and `C102_changing` apply to it. -/
example : ∃ (moments : List Both) (res : List (ASD × List (List Cert))) (secs : List RelRange) (data : Bytes), LeftOut secs ∧
    FoundWith exPEEnv (· ∈ moments.map Both.world) exPECodec (moments.map Both.file) exUnloaded (exPEArgs "all") data res ∧
    res ≠ [] := by
  obtain ⟨res, hr⟩ := exOutcome_ok exBusy_returns
  obtain ⟨m, -, secs, data, h1, -, -, h2⟩ := C102_changing exPEEnv exPECodec _ _ _ _ (exPEArgs "all") rfl rfl rfl exBusy exBusy_stores exBusy_position
    ⟨⟨exWrongEnd, 0⟩, exUnloaded⟩ _ rfl res hr
  refine ⟨_, res, secs, data, h1, h2, ?_⟩
  rintro rfl
  have := exBusy_returns
  rw [hr] at this
  cases this

/-- **C102**, whatever others do with everything, the contexts given to the call included: if the call returns, there is one sequence of
bytes as in `C102_returned`, the signatures returned are those that the mode asks for, and every chain returned for one of them is one of
a certificate that the SignerInfo names and that has signed it, validated with what was in the context and its stores at some moments of
the call; in mode `strict` the same holds for the countersignature, if there is one. -/
theorem C102_any (env : Env) (cd : Codec) (flen fuel hashFuel storeFuel : Nat) (args : PEVerifyArgs) (hn : args.expectedHashes = none)
    (σ : Nat → Both → Both) (s : Both)
    (moments : List Both) (hm : moments = ((peVerifyB env cd flen fuel hashFuel storeFuel args).amid σ 0 s).2.1)
    (res : List (ASD × List (List Cert))) (h : ((peVerifyB env cd flen fuel hashFuel storeFuel args).amid σ 0 s).1 = .ok res) :
    ∃ len secs data, LeftOut secs ∧ data.length = (offsetsOutside len secs).length ∧ PiecesThen (moments.map Both.file) data ∧
      FoundAmid env (· ∈ moments.map Both.world) cd (moments.map Both.file) args data res := by
  obtain ⟨len, secs, data, -, q2, q3, q4⟩ := peVerifyB_outcome (S := fun _ => True) (L := fun _ => True)
    (B := fun _ x => ∃ m ∈ moments.map Both.file, ∃ p, x = (m.bytes.drop p).take x.length) env cd flen fuel hashFuel storeFuel args hn
    (fun _ => trivial) σ (allowed_any σ) (fun _ _ => trivial) s (moments.map Both.file) (· ∈ moments.map Both.world)
    (fun m hx => by rw [← hm] at hx; exact ⟨List.mem_map.2 ⟨m, hx, rfl⟩, List.mem_map.2 ⟨m, hx, rfl⟩⟩)
    (fun iv => block_any (S := fun _ => True) iv) (fun _ _ _ _ _ _ _ => trivial)
    (found_any env _ storeFuel args) res h
  exact ⟨len, secs, data, q2, by rw [q3.length, q3.offsets q2], q3.pieces fun iv x hx => hx, q4⟩

/-- The call is given a context for the signer, whose time others set while it is used; otherwise as in `exBusy`. -/
def exBusyContext (k : Nat) (s : Both) : Both :=
  if k = 60 then { exBusy k s with world := (setTimestamp 0 (some 300) (exBusy k s).world).2 } else exBusy k s
def exGivenArgs : PEVerifyArgs := { exPEArgs "all" with kwargs := { (exPEArgs "all").kwargs with context := some 0 } }
def exGivenWorld : World := { exUnloaded with ctxs := fun _ => exCtx [.heap 0, .embedded exCerts] }

theorem exBusyContext_returns : exOutcome ((peVerifyB exPEEnv exPECodec exWrongEnd.length 5 (exWrongEnd.length + 10) 9 exGivenArgs).amid exBusyContext 0
    ⟨⟨exWrongEnd, 0⟩, exGivenWorld⟩).1 = .ok [(("sha256", [1]), [[1, 2, 3]]), (("sha1", [2]), [[1, 2, 3]])] := by decide +kernel

/-- `C102_any` applies to it. -/
example : ∃ (moments : List Both) (res : List (ASD × List (List Cert))) (data : Bytes),
    FoundAmid exPEEnv (· ∈ moments.map Both.world) exPECodec (moments.map Both.file) exGivenArgs data res ∧ res ≠ [] := by
  obtain ⟨res, hr⟩ := exOutcome_ok exBusyContext_returns
  obtain ⟨-, secs, data, -, -, -, h2⟩ := C102_any exPEEnv exPECodec _ _ _ _ exGivenArgs rfl exBusyContext ⟨⟨exWrongEnd, 0⟩, exGivenWorld⟩ _ rfl res hr
  refine ⟨_, res, data, h2, ?_⟩
  rintro rfl
  have := exBusyContext_returns
  rw [hr] at this
  cases this

/-! #### Threads that share the file object and the stores -/

/-- **C102**, threads that verify the same file with one file object and with stores that they share, and contexts of their own: however
they interleave, and whether the stores have been loaded before or not, if thread `i` returns, the signatures returned are in the file,
they were made for a sequence of bytes made of pieces of the file — which need not be at their places — and they have been found good for
the stores as they are when loaded. -/
theorem C102_threads (env : Env) (cd : Codec) (flen fuel hashFuel storeFuel : Nat) (args : Nat → PEVerifyArgs) (schedule : List Nat) (f : Handle)
    (w : World) (priv : Nat → World) (i : Nat) (hn : (args i).expectedHashes = none) (h1 : (args i).kwargs.context = none)
    (h2 : (args i).kwargs.csContext = none) (res : List (ASD × List (List Cert)))
    (h : (BProg.turns schedule (fun j => peVerifyB env cd flen fuel hashFuel storeFuel (args j)) f w.stores priv).1 i = .ret (.ok res)) :
    (∀ p ∈ res, SignatureIn cd f.bytes p.1) ∧
    ∃ len secs data, LeftOut secs ∧ data.length = (offsetsOutside len secs).length ∧ PiecesThen [f] data ∧
      FoundWith env (fun m => m = loadedWorld w) cd [f] (priv i) (args i) data res := by
  obtain ⟨σ, hσ, hr, hm⟩ := BProg.turns_amid i (fun g => g.bytes = f.bytes) (fun s => PartlyLoaded w { w with stores := s }) schedule _ f w.stores priv 0 _ h
    rfl (partly_self w) (fun j => peVerifyB_keeps (keepInv_partly w) f.bytes env cd flen fuel hashFuel storeFuel (args j)) ⟨f, priv i⟩ ⟨rfl, rfl, rfl⟩
  obtain ⟨len, secs, data, q1, q2, ⟨pieces, q3, q4⟩, ⟨sds, sel, q5, q6, q7, q8, q9⟩, q10⟩ :=
    C102_returned env cd flen fuel hashFuel storeFuel (args i) hn h1 h2 σ hσ ⟨f, priv i⟩ _ rfl res hr
  have hf : ∀ g ∈ (((peVerifyB env cd flen fuel hashFuel storeFuel (args i)).amid σ 0 ⟨f, priv i⟩).2.1).map Both.file, g.bytes = f.bytes := by
    intro g hg
    obtain ⟨m, hx, rfl⟩ := List.mem_map.1 hg
    exact (hm m hx).1
  have hsig : ∀ x ∈ sds, SignatureThen cd [f] x := by
    intro x hx
    obtain ⟨m, hmm, hs⟩ := q6 x hx
    rw [hf m hmm] at hs
    exact ⟨f, List.mem_singleton.2 rfl, hs⟩
  have hsub : ∀ x ∈ sel, x ∈ sds := by
    intro x hx
    have halg : ∀ x ∈ sds, x.d.core.digestAlg ∈ digestAlgorithms := fun x hx => by
      obtain ⟨m, -, hs⟩ := hsig x hx
      exact signatureIn_alg hs
    rw [(selected_iff q5 halg).1 q7] at hx
    exact selected_subset x hx
  refine ⟨fun p hp => ?_, len, secs, data, q1, q2, ⟨pieces, q3, fun x hx => ?_⟩, ⟨sds, sel, q5, hsig, q7, q8, q9⟩, fun p hp => ?_⟩
  · have hin : p.1 ∈ sel := by
      by_cases hs : Strict (args i).multiVerifyMode
      · rw [← q8 hs]
        exact List.mem_map.2 ⟨p, hp, rfl⟩
      · obtain ⟨q, rfl, hq⟩ := q9 hs
        rw [List.mem_singleton.1 hp]
        exact hq
    obtain ⟨m, hmm, hs⟩ := hsig _ (hsub _ hin)
    rw [List.mem_singleton.1 hmm] at hs
    exact hs
  · obtain ⟨m, hmm, p, hs⟩ := q4 x hx
    rw [hf m hmm] at hs
    exact ⟨f, List.mem_singleton.2 rfl, p, hs⟩
  · refine FoundGood.loaded (A := (· ∈ (((peVerifyB env cd flen fuel hashFuel storeFuel (args i)).amid σ 0 ⟨f, priv i⟩).2.1).map Both.world)) (fun m hx => ?_) (q10 p hp)
    obtain ⟨b, hb, rfl⟩ := List.mem_map.1 hx
    exact (hm b hb).2

/-- Two threads verify the file of `exHiding`, whose end has been changed, with one file object and stores that have not been loaded, one
step after the other as in `exSchedule`, and then thread 0 goes on. -/
def exBothSchedule : List Nat := 0 :: 1 :: (exSchedule ++ List.replicate 300 0)

/-- What a thread has come to, for comparison. -/
def exBothFinal (p : BProg (List (ASD × List (List Cert)))) : Option (Except ExcClass (List ((String × Bytes) × List (List Nat)))) :=
  match p with
  | .ret r => some (exOutcome r)
  | .step _ _ => none

theorem exBothSchedule_returns : exSame (exBothFinal ((BProg.turns exBothSchedule (fun _ => peVerifyB exPEEnv exEndCodec (exHiding [7, 8, 7]).length 5
    ((exHiding [7, 8, 7]).length + 10) 9 (exPEArgs "all")) ⟨exHiding [7, 8, 7], 0⟩ exUnloaded.stores (fun _ => exUnloaded)).1 0))
    (.ok [(("sha256", [1]), [[1, 2, 3]])]) = true := by decide +kernel

/-- `C102_threads` applies to it. -/
example : ∃ res data, FoundWith exPEEnv (fun m => m = loadedWorld exUnloaded) exEndCodec [⟨exHiding [7, 8, 7], 0⟩] exUnloaded (exPEArgs "all") data res := by
  have h := exBothSchedule_returns
  cases hp : (BProg.turns exBothSchedule (fun _ => peVerifyB exPEEnv exEndCodec (exHiding [7, 8, 7]).length 5
      ((exHiding [7, 8, 7]).length + 10) 9 (exPEArgs "all")) ⟨exHiding [7, 8, 7], 0⟩ exUnloaded.stores (fun _ => exUnloaded)).1 0 with
  | step f k => rw [hp] at h; cases h
  | ret r =>
    rw [hp] at h
    obtain ⟨res, rfl⟩ := exOutcome_ok (of_decide_eq_true h)
    obtain ⟨-, len, secs, data, -, -, -, hd⟩ := C102_threads exPEEnv exEndCodec _ _ _ _ (fun _ => exPEArgs "all") exBothSchedule _ exUnloaded
      (fun _ => exUnloaded) 0 rfl rfl rfl res hp
    exact ⟨res, data, hd⟩

end Signify.Props
