/-
Which exceptions `AuthenticodeSignedData.verify` and `SignedPEFile.verify` raise.
-/
import Verif.Proofs.Throws
import Verif.Proofs.PEFile

set_option autoImplicit false

namespace Signify

open Spec

theorem refusals_of {P : Exc → Prop} (h : ∀ e, e.cls ∈ refusals → P e) : Throws.Refusals P := by
  intro e he
  refine h e ?_
  simp only [refusals, List.mem_cons, List.not_mem_nil, or_false] at he ⊢
  rcases he with he | he | he <;> simp [he]

theorem counterTime_throws {env : Env} {P : Exc → Prop} {S : List StoreRef} {C : Nat → Prop} (h : ∀ e, e.cls ∈ refusals → P e)
    (a : AuthData) (mode : String) (cs : Option Nat) (hcs : a.counter ≠ none → mode ≠ "ignore" → cs ≠ none) :
    Throws env P S C (counterTime env a mode cs) := by
  unfold counterTime
  cases hc : a.counter with
  | none => exact .pure _
  | some c =>
    simp only
    split
    · rename_i hm
      cases cs with
      | none => exact absurd rfl (hcs (by rw [hc]; simp) hm)
      | some i =>
        refine .bind (.attempt (.checkCounter env a c trivial trivial)) (fun r => ?_)
        split
        · exact .pure _
        · split
          · exact .pure _
          · exact .raise (h _ (by simp [refusals]))
    · exact .pure _

theorem checkDigests_raises {env : Env} {file : Option Bytes} {a : AuthData} {expected : Option Bytes} {e : Exc}
    (h : checkDigests env file a expected = .error e) :
    e.cls ∈ refusals ∨ (expected = none ∧ computeExpected env file a.core.digestAlg = .error e) := by
  unfold checkDigests at h
  split at h
  · cases h; left; simp [refusals]
  · split at h
    · cases h; left; simp [refusals]
    · have key : ∀ h', (if h' ≠ a.spc.digest then
          (.error ⟨.authenticodeInvalidDigest, "The expected hash does not match the digest in SpcInfo"⟩ : Except Exc Unit)
        else if some (a.core.contentDigest env) ≠ a.signer.messageDigest then
          .error ⟨.authenticodeInvalidDigest, "The expected hash of the SpcInfo does not match SignerInfo"⟩
        else .ok ()) = .error e → e.cls ∈ refusals := by
        intro h' hh
        split at hh
        · cases hh; simp [refusals]
        · split at hh
          · cases hh; simp [refusals]
          · cases hh
      cases expected with
      | some x => exact .inl (key x h)
      | none =>
        cases hc : computeExpected env file a.core.digestAlg with
        | error e' =>
          simp only [hc] at h
          cases h
          exact .inr ⟨rfl, rfl⟩
        | ok x =>
          simp only [hc] at h
          exact .inl (key x h)

theorem asdVerify_raises {env : Env} {file : Option Bytes} {a : AuthData} {args : VerifyArgs} {w : World} (he : ContextsExist w args)
    {e : Exc} (h : (asdVerify env file a args w).1 = .error e) :
    e.cls ∈ refusals ∨ (args.expectedHash = none ∧ computeExpected env file a.core.digestAlg = .error e) ∨
      Leak env w (signerStores w a args) e := by
  obtain ⟨cid, cs, v, hs⟩ := setup w a args he
  rw [hs.asdVerify] at h
  have hstep : ∀ i, StoreStep (w.stores i) (v.stores i) := fun i => by rw [hs.stores]; exact .inl rfl
  refine Throws.raises (env := env) (S := signerStores w a args) (C := fun j => j = cid)
    (P := fun e => e.cls ∈ refusals ∨ (args.expectedHash = none ∧ computeExpected env file a.core.digestAlg = .error e) ∨
      Leak env w (signerStores w a args) e) ?_ v ?_ e h
  · refine .bind (.lift (fun e he => (checkDigests_raises he).imp_right .inl)) (fun _ => ?_)
    refine .bind (counterTime_throws (fun e he => .inl he) a _ cs ?_) (fun t => ?_)
    · intro h1 h2
      obtain ⟨c, hc⟩ := Option.ne_none_iff_exists'.1 h1
      obtain ⟨i, hi, -⟩ := hs.counter c hc h2
      rw [hi]; simp
    · exact Throws.authSignerVerify (C := fun j => j = cid) (refusals_of (fun e he => Or.inl he)) (show cid = cid from rfl) a.signer t
  · refine ⟨fun e he => .inr (.inr (Leak.step hstep he)), ?_⟩
    rintro j rfl r hr
    rw [hs.signer] at hr
    exact hr

/-- The stores of the signer's context do not change while verifying. -/
theorem signerStores_grows {D T : Nat → Prop} {w w' : World} (g : Grows D T w w') (a : AuthData) {args : VerifyArgs}
    (he : ContextsExist w args) : signerStores w' a args = signerStores w a args := by
  unfold signerStores signerContext
  cases hc : args.context with
  | none => rfl
  | some c => exact (g.ctxs c (he.context c hc)).stores

theorem contextsExist_expected {w : World} {args : VerifyArgs} (h : ContextsExist w args) (x : Option Bytes) :
    ContextsExist w { args with expectedHash := x } := ⟨h.context, h.csContext⟩

theorem attempts_raise {env : Env} {file : Bytes} {provided : Dict String Bytes} {kwargs : VerifyArgs} {w w' : World}
    {l : List (ASD × Except Exc (List (List Cert)))} (h : Attempts env file provided kwargs w l w') (he : ContextsExist w kwargs) :
    ∀ a e, (a, Except.error e) ∈ l → e.cls ∈ refusals ∨ Leak env w (signerStores w a.d kwargs) e := by
  induction h with
  | nil w => intro a e h; cases h
  | cons a d w w' l hd _ ih =>
    intro b e hm
    have he' := contextsExist_expected he (some d)
    have hg := asdVerify_grows env (some file) a.d { kwargs with expectedHash := some d } w he'
    rcases List.mem_cons.1 hm with hm | hm
    · injection hm with h1 h2
      subst h1
      rcases asdVerify_raises he' h2.symm with h | ⟨h, -⟩ | h
      · exact .inl h
      · cases h
      · exact .inr h
    · rcases ih (he.grows hg) b e hm with h | h
      · exact .inl h
      · refine .inr ?_
        rw [signerStores_grows hg b.d he] at h
        exact Leak.step hg.stores h

theorem overall_error {mode : String} {tried : List (ASD × Except Exc (List (List Cert)))} {rest : List ASD}
    {r : Except Exc (List (ASD × List (List Cert)))} (h : Overall mode tried rest r) {e : Exc} (he : r = .error e) :
    ∃ a, (a, Except.error e) ∈ tried := by
  cases h with
  | allVerify l _ => cases he
  | firstFailure l a e' _ _ => cases he; exact ⟨a, by simp⟩
  | firstSuccess l a c rest _ => cases he
  | allFail l a e' _ => cases he; exact ⟨a, by simp⟩

theorem peVerify_error {env : Env} {cd : Codec} {file : Bytes} {args : PEVerifyArgs} {w : World} {e : Exc}
    (h : (iterSignedDatas cd file true args.ignoreParseErrors).toList = .error e) : peVerify env cd file args w = (.error e, w) := by
  unfold peVerify
  rw [M.bind_error (show M.lift _ w = (.error e, w) from by unfold M.lift; rw [h])]

theorem peVerify_unsigned {env : Env} {cd : Codec} {file : Bytes} {args : PEVerifyArgs} {w : World}
    (h : Considered cd file args.ignoreParseErrors []) :
    peVerify env cd file args w = (.error ⟨.authenticodeNotSigned, "No valid SignedData structure was found."⟩, w) := by
  unfold peVerify
  rw [M.bind_ok (show M.lift _ w = (.ok [], w) from by unfold M.lift; rw [considered_iff.1 h])]
  rfl

theorem withHashes_exist {w : World} {args : VerifyArgs} (h : ContextsExist w args) (e : Option Nat) (d : Dict String Bytes) :
    ContextsExist (withHashes w e d) args := by
  cases e <;> exact ⟨h.context, h.csContext⟩

theorem withHashes_stores (w : World) (e : Option Nat) (d : Dict String Bytes) : (withHashes w e d).stores = w.stores := by
  cases e <;> rfl

theorem withHashes_ctxs (w : World) (e : Option Nat) (d : Dict String Bytes) : (withHashes w e d).ctxs = w.ctxs := by
  cases e <;> rfl

/-- A key of the caller's dictionary that is not the name of a hash constructor gives AttributeError. -/
theorem peVerify_badName {env : Env} {cd : Codec} {file : Bytes} {args : PEVerifyArgs} {w : World} {sds : List ASD}
    (h : Considered cd file args.ignoreParseErrors sds) (hne : sds ≠ []) (hp : ¬ HashNames (providedBy w args)) :
    peVerify env cd file args w = (.error ⟨.attributeError, "module 'hashlib' has no attribute"⟩, w) := by
  have hall : (providedBy w args).all (fun kv => hashlibNames.contains kv.1) = false := by
    rw [Bool.eq_false_iff]
    intro hc
    refine hp (fun k v hkv => ?_)
    have := List.all_eq_true.1 hc (k, v) hkv
    rw [show hashConstructors = hashlibNames from rfl]
    simpa using this
  unfold peVerify
  rw [M.bind_ok (show M.lift _ w = (.ok sds, w) from by unfold M.lift; rw [considered_iff.1 h])]
  rw [if_neg (by rw [List.isEmpty_iff]; exact hne)]
  unfold calculateExpectedHashes
  cases hx : args.expectedHashes with
  | none => exact absurd (by unfold providedBy; rw [hx]; intro k v h; cases h) hp
  | some i =>
    have hd : providedBy w args = w.dicts i := by unfold providedBy; rw [hx]
    rw [hd] at hall
    simp only
    have hn : neededHashes env file ((selectSignatures args.multiVerifyMode sds).map (fun a => a.d.core.digestAlg)) (w.dicts i) =
        .error ⟨.attributeError, "module 'hashlib' has no attribute"⟩ := by
      unfold neededHashes
      rw [hall]
      rfl
    rw [M.bind_error (w' := w) (e := ⟨.attributeError, "module 'hashlib' has no attribute"⟩)]
    rw [M.bind_ok (show M.getDict i w = (.ok (w.dicts i), w) from rfl)]
    rw [M.bind_error (show M.lift _ w = (.error _, w) from by unfold M.lift; rw [hn])]

theorem peVerify_raises {env : Env} {cd : Codec} {file : Bytes} {args : PEVerifyArgs} {w : World} {sds : List ASD}
    (h : Considered cd file args.ignoreParseErrors sds) (hne : sds ≠ []) (he : ContextsExist w args.kwargs) {e : Exc}
    (hr : (peVerify env cd file args w).1 = .error e) :
    e.cls ∈ refusals ∨ (¬ HashNames (providedBy w args) ∧ e.cls = .attributeError) ∨
      ∃ a ∈ sds, Leak env w (signerStores w a.d args.kwargs) e := by
  by_cases hp : HashNames (providedBy w args)
  · obtain ⟨oho, ohs, dir, hh⟩ := header_of_considered h hne
    obtain ⟨d, tried, rest, w', h1, h2, h3, h4, h5⟩ := peVerify_signed env cd file args w h hne hp hh
    obtain ⟨a, ha⟩ := overall_error h4 hr
    rcases attempts_raise h3 (withHashes_exist he _ _) a e ha with hx | hx
    · exact .inl hx
    · refine .inr (.inr ⟨a, selected_subset (mode := args.multiVerifyMode) a ?_, ?_⟩)
      · rw [h2]
        exact List.mem_append_left _ (List.mem_map.2 ⟨_, ha, rfl⟩)
      · have hs : signerStores (withHashes w args.expectedHashes d) a.d args.kwargs = signerStores w a.d args.kwargs := by
          unfold signerStores signerContext
          rw [withHashes_ctxs]
        rw [hs] at hx
        exact Leak.step (fun i => by rw [withHashes_stores]; exact .inl rfl) hx
  · rw [peVerify_badName h hne hp] at hr
    cases hr
    exact .inr (.inl ⟨hp, rfl⟩)

end Signify
