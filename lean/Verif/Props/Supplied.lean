/-
C87: what verification uses of a file, and of the dictionary of expected hashes.
-/
import Verif.Props.Resign

set_option autoImplicit false

namespace Signify.Props

open Signify Spec

/-- Two files with the same signatures, for which the digests to compare with are the same, have the same outcome and the same effects:
nothing else of a file matters. -/
theorem C87_outcome (env : Env) (cd : Codec) (f g : Bytes) (args : PEVerifyArgs) (w : World) (sds : List ASD)
    (hf : Considered cd f args.ignoreParseErrors sds) (hg : Considered cd g args.ignoreParseErrors sds)
    (hd : ∀ a ∈ sds, ∃ d, DigestFor env f (providedBy w args) a.d.core.digestAlg d ∧ DigestFor env g (providedBy w args) a.d.core.digestAlg d) :
    peVerify env cd f args w = peVerify env cd g args w := by
  refine peVerify_congr env cd f g args w hf hg (fun a ha d h => ?_)
  obtain ⟨d', h1, h2⟩ := hd a ha
  rw [digestFor_unique h h1]
  exact h2

/-- If the caller supplies a digest for the algorithm of every signature that the mode selects, the image has no influence: files with
the same signatures have the same outcome, whatever else is in them. -/
theorem C87_supplied (env : Env) (cd : Codec) (f g : Bytes) (args : PEVerifyArgs) (w : World) (sds sel : List ASD) (hne : sds ≠ [])
    (hf : Considered cd f args.ignoreParseErrors sds) (hg : Considered cd g args.ignoreParseErrors sds)
    (hs : Selected args.multiVerifyMode sds sel)
    (hd : ∀ a ∈ sel, ∃ d, (providedBy w args).get? a.d.core.digestAlg = some d) :
    peVerify env cd f args w = peVerify env cd g args w := by
  refine peVerify_select_congr env cd f g args w hf hg hne hne rfl (fun a ha d h => ?_)
  rw [← (selected_iff hne (fun x hx => considered_alg hf hx)).1 hs] at ha
  obtain ⟨d', h1⟩ := hd a ha
  rcases h with h | ⟨h, -⟩
  · exact .inl h
  · rw [h1] at h; cases h

/-- Likewise for a single signature: with an expected hash, the file of the signature, if any, has no influence. -/
theorem C87_signature (env : Env) (file file' : Option Bytes) (a : AuthData) (args : VerifyArgs) (h : args.expectedHash ≠ none) :
    asdVerify env file a args = asdVerify env file' a args := by
  unfold asdVerify checkDigests
  cases hx : args.expectedHash with
  | none => exact absurd hx h
  | some d => rfl

/-- Of the dictionary, only the entries for the algorithms of the selected signatures matter: other entries, and other dictionaries,
have no influence on the outcome, nor on the effects on contexts and stores.  (All keys have to be names of hash functions.) -/
theorem C87_entries (env : Env) (cd : Codec) (f : Bytes) (args : PEVerifyArgs) (w : World) (D : Nat → Dict String Bytes)
    (sds sel : List ASD) (hne : sds ≠ []) (hf : Considered cd f args.ignoreParseErrors sds) (hs : Selected args.multiVerifyMode sds sel)
    (hp : HashNames (providedBy w args)) (hp' : HashNames (providedBy { w with dicts := D } args))
    (hd : ∀ a ∈ sel, (providedBy w args).get? a.d.core.digestAlg = (providedBy { w with dicts := D } args).get? a.d.core.digestAlg) :
    ∃ D', peVerify env cd f args { w with dicts := D } = ((peVerify env cd f args w).1, { (peVerify env cd f args w).2 with dicts := D' }) := by
  have hsel := (selected_iff hne (fun x hx => considered_alg hf hx)).1 hs
  rw [peVerify_run env cd f args w hf hne, peVerify_run env cd f args _ hf hne, ← hsel]
  obtain ⟨oho, ohs, dir, hh⟩ := header_of_considered hf hne
  obtain ⟨d, k1, k2⟩ := calculateExpectedHashes_ok env f (sel.map (fun a => a.d.core.digestAlg)) args w hp hh
  obtain ⟨d', k1', k2'⟩ := calculateExpectedHashes_ok env f (sel.map (fun a => a.d.core.digestAlg)) args _ hp' hh
  rw [M.bind_ok k1, M.bind_ok k1']
  have hw : withHashes { w with dicts := D } args.expectedHashes d' =
      { withHashes w args.expectedHashes d with dicts := (withHashes { w with dicts := D } args.expectedHashes d').dicts } := by
    cases args.expectedHashes <;> rfl
  have hc : ∀ a ∈ sel, verifyOne env f d' args.kwargs a = verifyOne env f d args.kwargs a := by
    intro a ha
    have : d'.get? a.d.core.digestAlg = d.get? a.d.core.digestAlg := by rw [k2, k2', hd a ha]
    unfold verifyOne
    rw [this]
  rw [hw]
  generalize withHashes w args.expectedHashes d = w1
  generalize (withHashes { w with dicts := D } args.expectedHashes d').dicts = D'
  refine ⟨D', ?_⟩
  clear k1 k1' k2 k2' hw hs hd hsel
  revert hc
  have key : ∀ (l : List ASD) (chains : List (ASD × List (List Cert))) (e : Option Exc) (w1 : World),
      (∀ a ∈ l, verifyOne env f d' args.kwargs a = verifyOne env f d args.kwargs a) →
      verifyLoop (verifyOne env f d' args.kwargs) args.multiVerifyMode l chains e { w1 with dicts := D' } =
        ((verifyLoop (verifyOne env f d args.kwargs) args.multiVerifyMode l chains e w1).1,
          { (verifyLoop (verifyOne env f d args.kwargs) args.multiVerifyMode l chains e w1).2 with dicts := D' }) := by
    intro l
    induction l with
    | nil => intro chains e w1 _; cases e <;> rfl
    | cons a l ih =>
      intro chains e w1 hc
      simp only [verifyLoop]
      rw [M.bind_run, M.bind_run, hc a (by simp), (NoDict.attempt (noDict_verifyOne env f d args.kwargs a)) w1 D']
      rcases M.attempt (verifyOne env f d args.kwargs a) w1 with ⟨r, w2⟩
      cases r with
      | error e' => rfl
      | ok r =>
        cases r with
        | error e' =>
          dsimp only
          split
          · rfl
          · exact ih _ _ w2 (fun b hb => hc b (by simp [hb]))
        | ok c =>
          dsimp only
          split
          · exact ih _ _ w2 (fun b hb => hc b (by simp [hb]))
          · rfl
  exact fun hc => key sel [] none w1 hc

/-- The signature attached to the image of the examples, and to a tampered one. -/
def exSuppliedFor (r : Bytes) : Bytes := attach (exPE 16 [0, 0, 0, 0, 0, 0, 0, 0] r) 88 216 [1, 2, 3, 4] (certTable [⟨0x200, 2, List.replicate 8 1⟩])

theorem exSuppliedFor_considered (r : Bytes) (hr : r = [7, 7, 7] ∨ r = [8, 8, 8]) : Considered exPECodec (exSuppliedFor r) true
    (preorderAll ([(⟨0x200, 2, List.replicate 8 1⟩ : CertEntry)].filterMap (signatureIn exPECodec))) := by
  have hsome : ∀ {x : Except Exc ASD}, x.toOption.isSome = true → ∃ a, x = .ok a := by
    intro x h
    cases x with
    | ok a => exact ⟨a, rfl⟩
    | error e => cases h
  have hlen : ∀ {l : List CertEntry}, (l.filterMap (signatureIn exPECodec)).isEmpty = false → l.filterMap (signatureIn exPECodec) ≠ [] := by
    intro l h e
    rw [e] at h
    cases h
  obtain ⟨h1, h2⟩ := C60_attach exPECodec (exPE 16 [0, 0, 0, 0, 0, 0, 0, 0] r) 88 136 216
    (by rcases hr with rfl | rfl <;> decide +kernel) (by rcases hr with rfl | rfl <;> decide +kernel)
    (by rintro a s ⟨_, _, h, h', _⟩; exact h' (h.trans (by rcases hr with rfl | rfl <;> decide +kernel))) [1, 2, 3, 4] [5, 6, 7, 8] rfl rfl
    [⟨0x200, 2, List.replicate 8 1⟩] [] (by simp)
    (by intro e he
        simp only [List.append_nil, List.mem_cons, List.not_mem_nil, or_false] at he
        subst he
        exact ⟨by decide, by decide, by decide, by decide⟩)
    (by rcases hr with rfl | rfl <;> decide +kernel)
  obtain ⟨sds, sds', k1, k2, k3, k4, k5⟩ := h2 _ _ (by
    intro e he
    simp only [List.append_nil, List.mem_cons, List.not_mem_nil, or_false] at he
    subst he
    exact ⟨rfl, fun _ => hsome (by decide +kernel)⟩) rfl (hlen (by decide +kernel)) rfl
  rw [← preOrderAll_eq k1]
  exact k4 true

/-- A tampered image is accepted, if the caller supplies the digest of the original: the caller has to compute it. -/
theorem exSupplied : ∃ sds, sds ≠ [] ∧ Considered exPECodec (exSuppliedFor [7, 7, 7]) true sds ∧ Considered exPECodec (exSuppliedFor [8, 8, 8]) true sds ∧
    (∀ a ∈ sds, ∃ d, (providedBy (exDicts [("sha256", [215, 203])])
      { exPEArgs "all" with expectedHashes := some 0 }).get? a.d.core.digestAlg = some d) ∧
    exOutcome (peVerify exPEEnv exPECodec (exSuppliedFor [8, 8, 8]) { exPEArgs "all" with expectedHashes := some 0 }
      (exDicts [("sha256", [215, 203])])).1 = .ok [(("sha256", [1]), [[1, 2, 3]])] ∧
    exOutcome (peVerify exPEEnv exPECodec (exSuppliedFor [8, 8, 8]) (exPEArgs "all") exWorld).1 = .error .authenticodeInvalidDigest := by
  have hn : (preorderAll ([(⟨0x200, 2, List.replicate 8 1⟩ : CertEntry)].filterMap (signatureIn exPECodec))).map exLabel = [("sha256", [1])] := by
    decide +kernel
  refine ⟨_, fun h => ?_, exSuppliedFor_considered _ (.inl rfl), exSuppliedFor_considered _ (.inr rfl), fun a ha => ?_, by decide +kernel, by decide +kernel⟩
  · rw [h] at hn; cases hn
  · have := List.mem_map_of_mem (f := exLabel) ha
    rw [hn, List.mem_singleton] at this
    have h1 : a.d.core.digestAlg = "sha256" := congrArg Prod.fst this
    exact ⟨[215, 203], by rw [h1]; decide +kernel⟩

/-- An entry for another algorithm, and another dictionary, make no difference (`C87_entries`). -/
example : HashNames (providedBy (exDicts [("sha256", [215, 203])]) { exPEArgs "all" with expectedHashes := some 0 }) ∧
    HashNames (providedBy { exDicts [("sha256", [215, 203])] with dicts := fun i => if i = 0 then [("md5", [0]), ("sha256", [215, 203])] else [] }
      { exPEArgs "all" with expectedHashes := some 0 }) ∧
    ∀ a ∈ preorderAll ([(⟨0x200, 2, List.replicate 8 1⟩ : CertEntry)].filterMap (signatureIn exPECodec)),
      (providedBy (exDicts [("sha256", [215, 203])]) { exPEArgs "all" with expectedHashes := some 0 }).get? a.d.core.digestAlg =
      (providedBy { exDicts [("sha256", [215, 203])] with dicts := fun i => if i = 0 then [("md5", [0]), ("sha256", [215, 203])] else [] }
        { exPEArgs "all" with expectedHashes := some 0 }).get? a.d.core.digestAlg := by
  refine ⟨fun k v h => ?_, fun k v h => ?_, fun a ha => ?_⟩
  · change (k, v) ∈ [("sha256", [215, 203])] at h
    simp only [List.mem_cons, List.not_mem_nil, or_false, Prod.mk.injEq] at h
    rw [h.1]; decide
  · change (k, v) ∈ [("md5", [0]), ("sha256", [215, 203])] at h
    simp only [List.mem_cons, List.not_mem_nil, or_false, Prod.mk.injEq] at h
    rcases h with h | h <;> rw [h.1] <;> decide
  · have hn : (preorderAll ([(⟨0x200, 2, List.replicate 8 1⟩ : CertEntry)].filterMap (signatureIn exPECodec))).map exLabel = [("sha256", [1])] := by
      decide +kernel
    have := List.mem_map_of_mem (f := exLabel) ha
    rw [hn, List.mem_singleton] at this
    have h1 : a.d.core.digestAlg = "sha256" := congrArg Prod.fst this
    rw [h1]; decide +kernel

end Signify.Props
