/-
`SignedPEFile.verify` for files to which signatures are added.
-/
import Verif.Proofs.PEFile
import Verif.Proofs.NoDict

set_option autoImplicit false

namespace Signify

open Spec

/-- The loop in the modes in which one good signature suffices: more signatures make no difference once one has been found. -/
theorem verifyLoop_append_lax {check check' : ASD → M (List (List Cert))} {mode : String} (hm : ¬ Strict mode) (more : List ASD)
    (D : Nat → Dict String Bytes) (l : List ASD) (hc : ∀ a ∈ l, check a = check' a) (hn : ∀ a, NoDict (check' a))
    (e : Option Exc) (hne : l ≠ [] ∨ e ≠ none) (w : World) (res : List (ASD × List (List Cert)))
    (h : (verifyLoop check mode l [] e w).1 = .ok res) :
    verifyLoop check' mode (l ++ more) [] e { w with dicts := D } = (.ok res, { (verifyLoop check mode l [] e w).2 with dicts := D }) := by
  have hm' : ¬ (mode = "all" ∨ mode = "first") := hm
  induction l generalizing e w with
  | nil =>
    rcases hne with hne | hne
    · exact absurd rfl hne
    · cases e with
      | none => exact absurd rfl hne
      | some e => cases h
  | cons a l ih =>
    rw [List.cons_append]
    simp only [verifyLoop] at h ⊢
    rw [M.bind_run] at h ⊢
    rw [M.bind_run]
    rw [(NoDict.attempt (hn a)) w D]
    rw [hc a (by simp)] at h ⊢
    rcases hx : M.attempt (check' a) w with ⟨r, w1⟩
    rw [hx] at h
    cases r with
    | error e' => cases h
    | ok r =>
      cases r with
      | error e' =>
        simp only [if_neg hm'] at h ⊢
        exact ih (fun b hb => hc b (by simp [hb])) (some e') (.inr (by simp)) w1 h
      | ok c =>
        simp only [if_neg hm'] at h ⊢
        cases h
        rfl

/-- The loop in the modes in which every signature must be good: the signatures before the added ones come first. -/
theorem verifyLoop_append_strict {check check' : ASD → M (List (List Cert))} {mode : String} (hm : Strict mode) (more : List ASD)
    (D : Nat → Dict String Bytes) (l : List ASD) (hc : ∀ a ∈ l, check a = check' a) (hn : ∀ a, NoDict (check' a))
    (chains : List (ASD × List (List Cert))) (w : World) :
    verifyLoop check' mode (l ++ more) chains none { w with dicts := D } =
      match verifyLoop check mode l chains none w with
      | (.error e, w') => (.error e, { w' with dicts := D })
      | (.ok res, w') => verifyLoop check' mode more res none { w' with dicts := D } := by
  have hm' : mode = "all" ∨ mode = "first" := hm
  induction l generalizing chains w with
  | nil => rfl
  | cons a l ih =>
    rw [List.cons_append]
    simp only [verifyLoop]
    rw [M.bind_run, M.bind_run, (NoDict.attempt (hn a)) w D, hc a (by simp)]
    rcases hx : M.attempt (check' a) w with ⟨r, w1⟩
    cases r with
    | error e' => rfl
    | ok r =>
      cases r with
      | error e' =>
        simp only [if_pos hm']
        rfl
      | ok c =>
        simp only [if_pos hm']
        exact ih (fun b hb => hc b (by simp [hb])) _ w1

theorem noDict_verifyOne (env : Env) (file : Bytes) (hashes : Dict String Bytes) (kwargs : VerifyArgs) (a : ASD) :
    NoDict (verifyOne env file hashes kwargs a) := by
  unfold verifyOne
  split
  · exact .raise _
  · exact .asdVerify _ _ _ _

/-- What the loop returns in the strict modes, for the signatures it has been given. -/
theorem verifyLoop_strict_fst {check : ASD → M (List (List Cert))} {mode : String} (hm : Strict mode) (l : List ASD)
    (chains : List (ASD × List (List Cert))) (w : World) (res : List (ASD × List (List Cert)))
    (h : (verifyLoop check mode l chains none w).1 = .ok res) : ∃ res₂, res = chains ++ res₂ ∧ res₂.map Prod.fst = l := by
  have hm' : mode = "all" ∨ mode = "first" := hm
  induction l generalizing chains w with
  | nil => cases h; exact ⟨[], by simp, rfl⟩
  | cons a l ih =>
    simp only [verifyLoop] at h
    rw [M.bind_run] at h
    rcases hx : M.attempt (check a) w with ⟨r, w1⟩
    rw [hx] at h
    cases r with
    | error e' => cases h
    | ok r =>
      cases r with
      | error e' => simp only [if_pos hm'] at h; cases h
      | ok c =>
        simp only [if_pos hm'] at h
        obtain ⟨r2, rfl, h2⟩ := ih _ w1 h
        exact ⟨(a, c) :: r2, by simp, by simp [h2]⟩

theorem peVerify_run (env : Env) (cd : Codec) (f : Bytes) (args : PEVerifyArgs) (w : World) {sds : List ASD}
    (hf : Considered cd f args.ignoreParseErrors sds) (hne : sds ≠ []) :
    peVerify env cd f args w = (calculateExpectedHashes env f ((selectSignatures args.multiVerifyMode sds).map (fun a => a.d.core.digestAlg))
        args.expectedHashes >>= fun hashes =>
          verifyLoop (verifyOne env f hashes args.kwargs) args.multiVerifyMode (selectSignatures args.multiVerifyMode sds) [] none) w := by
  unfold peVerify
  rw [M.bind_ok (show M.lift _ w = (.ok sds, w) from by unfold M.lift; rw [considered_iff.1 hf])]
  rw [if_neg (by rw [List.isEmpty_iff]; exact hne)]

/-- A dictionary with a key that is not the name of a hash function. -/
theorem calculateExpectedHashes_names (env : Env) (file : Bytes) (algs : List String) (args : PEVerifyArgs) (w : World)
    (hp : ¬ HashNames (providedBy w args)) : calculateExpectedHashes env file algs args.expectedHashes w =
      (.error ⟨.attributeError, "module 'hashlib' has no attribute"⟩, w) := by
  have h0 : (!((providedBy w args).all fun kv => hashlibNames.contains kv.1)) = true := by
    rw [Bool.not_eq_true', Bool.eq_false_iff]
    intro hc
    apply hp
    intro k v hkv
    have := List.all_eq_true.1 hc (k, v) hkv
    rwa [List.contains_iff_mem] at this
  have hh : neededHashes env file algs (providedBy w args) = .error ⟨.attributeError, "module 'hashlib' has no attribute"⟩ := by
    unfold neededHashes
    rw [if_pos h0]
  unfold providedBy at hh
  unfold calculateExpectedHashes
  cases he : args.expectedHashes with
  | none =>
    rw [he] at hh
    simp only at hh ⊢
    rw [hh]; rfl
  | some i =>
    rw [he] at hh
    simp only at hh ⊢
    show (M.lift (neededHashes env file algs (w.dicts i)) >>= _) w = _
    rw [hh]; rfl

/-- `verify` of a file and of one in which signatures have been added after those of the first: the digests, and what the loop does. -/
theorem peVerify_added (env : Env) (cd : Codec) (f g : Bytes) (args : PEVerifyArgs) (w : World) {sds more : List ASD}
    (hm : args.multiVerifyMode ≠ "first") (hm' : args.multiVerifyMode ≠ "best")
    (hf : Considered cd f args.ignoreParseErrors sds) (hg : Considered cd g args.ignoreParseErrors (sds ++ more)) (hne : sds ≠ [])
    (hd : ∀ a ∈ sds, ∀ d, DigestFor env f (providedBy w args) a.d.core.digestAlg d →
      DigestFor env g (providedBy w args) a.d.core.digestAlg d) :
    (∃ e, peVerify env cd f args w = (.error e, w) ∧ peVerify env cd g args w = (.error e, w)) ∨
    ∃ d d' : Dict String Bytes, ∃ w1 D,
      peVerify env cd f args w = verifyLoop (verifyOne env f d args.kwargs) args.multiVerifyMode sds [] none w1 ∧
      peVerify env cd g args w =
        verifyLoop (verifyOne env g d' args.kwargs) args.multiVerifyMode (sds ++ more) [] none { w1 with dicts := D } ∧
      ∀ a ∈ sds, verifyOne env f d args.kwargs a = verifyOne env g d' args.kwargs a := by
  have hsel : ∀ l : List ASD, selectSignatures args.multiVerifyMode l = l := by
    intro l; unfold selectSignatures; rw [if_neg hm, if_neg hm']
  have hne' : sds ++ more ≠ [] := by simp [hne]
  have hF := peVerify_run env cd f args w hf hne
  have hG := peVerify_run env cd g args w hg hne'
  rw [hsel] at hF hG
  obtain ⟨oho, ohs, dir, h1⟩ := header_of_considered hf hne
  obtain ⟨oho', ohs', dir', h2⟩ := header_of_considered hg hne'
  by_cases hp : HashNames (providedBy w args)
  · obtain ⟨d, k1, k2⟩ := calculateExpectedHashes_ok env f (sds.map (fun a => a.d.core.digestAlg)) args w hp h1
    obtain ⟨d', k1', k2'⟩ := calculateExpectedHashes_ok env g ((sds ++ more).map (fun a => a.d.core.digestAlg)) args w hp h2
    refine .inr ⟨d, d', withHashes w args.expectedHashes d, (withHashes w args.expectedHashes d').dicts, ?_, ?_, fun a ha => ?_⟩
    · rw [hF, M.bind_ok k1]
    · have hw : withHashes w args.expectedHashes d' =
          { withHashes w args.expectedHashes d with dicts := (withHashes w args.expectedHashes d').dicts } := by
        cases args.expectedHashes <;> rfl
      rw [hG, M.bind_ok k1', ← hw]
    · have e1 := k2 a.d.core.digestAlg
      have e2 := k2' a.d.core.digestAlg
      rw [if_pos (List.mem_map.2 ⟨a, ha, rfl⟩)] at e1
      rw [if_pos (List.mem_map.2 ⟨a, by simp [ha], rfl⟩)] at e2
      have : d.get? a.d.core.digestAlg = d'.get? a.d.core.digestAlg := by
        cases hpv : (providedBy w args).get? a.d.core.digestAlg with
        | some x => rw [e1, e2, hpv, Option.some_or, Option.some_or]
        | none =>
          have k := hd a ha _ (.inr ⟨hpv, fun bs hbs => (Props.C09_authentihash_iff env.hash _ bs hbs f _).2 ⟨oho, ohs, dir, h1, rfl⟩⟩)
          rcases k with k | ⟨-, k⟩
          · rw [hpv] at k; cases k
          · obtain ⟨a1, a2, a3, m1, m2⟩ := (Props.C09_authentihash_iff env.hash _ 1 (by omega) g _).1 (k 1 (by omega))
            obtain ⟨rfl, rfl, rfl⟩ := header_unique m1 h2
            rw [e1, e2, hpv, m2]
      unfold verifyOne
      rw [this]
      cases d'.get? a.d.core.digestAlg <;> rfl
  · refine .inl ⟨⟨.attributeError, "module 'hashlib' has no attribute"⟩, ?_, ?_⟩
    · rw [hF, M.bind_run, calculateExpectedHashes_names env f _ args w hp]
    · rw [hG, M.bind_run, calculateExpectedHashes_names env g _ args w hp]

end Signify
