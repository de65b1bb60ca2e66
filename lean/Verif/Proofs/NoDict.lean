/-
The dictionaries of the caller have no influence on the verification of a signature, which does not change them either.
-/
import Verif.Model.Verify
import Verif.Proofs.Loading

set_option autoImplicit false

namespace Signify

/-- The action neither reads nor writes dictionaries. -/
def NoDict {α : Type} (x : M α) : Prop := ∀ w D, x { w with dicts := D } = ((x w).1, { (x w).2 with dicts := D })

namespace NoDict

variable {α β : Type}

theorem pure (a : α) : NoDict (Pure.pure a : M α) := fun _ _ => rfl
theorem raise (e : Exc) : NoDict (M.raise e : M α) := fun _ _ => rfl
theorem lift (x : Except Exc α) : NoDict (M.lift x) := fun _ _ => rfl
theorem getCtx (i : Nat) : NoDict (M.getCtx i) := fun _ _ => rfl
theorem getStore (i : Nat) : NoDict (M.getStore i) := fun _ _ => rfl
theorem setCtx (i : Nat) (c : Ctx) : NoDict (M.setCtx i c) := fun _ _ => rfl
theorem setStore (i : Nat) (s : Store) : NoDict (M.setStore i s) := fun _ _ => rfl
theorem newCtx (c : Ctx) : NoDict (M.newCtx c) := fun _ _ => rfl

theorem bind {x : M α} {f : α → M β} (hx : NoDict x) (hf : ∀ a, NoDict (f a)) : NoDict (x >>= f) := by
  intro w D
  rw [M.bind_run, M.bind_run, hx w D]
  rcases x w with ⟨r, w1⟩
  cases r with
  | error e => rfl
  | ok a => exact hf a w1 D

theorem attempt {x : M α} (hx : NoDict x) : NoDict (M.attempt x) := by
  intro w D
  unfold M.attempt
  rw [hx w D]

theorem iterStore (r : StoreRef) : NoDict (iterStore r) := by
  cases r with
  | embedded _ => exact pure _
  | heap i =>
    unfold Signify.iterStore
    refine bind (getStore i) (fun s => ?_)
    split
    · exact pure _
    · refine bind (setStore i _) (fun _ => ?_)
      split
      · exact pure _
      · exact raise _

theorem collectCerts (rs : List StoreRef) (roots inter : List Nat) (all : Dict Nat Cert) : NoDict (collectCerts rs roots inter all) := by
  induction rs generalizing roots inter all with
  | nil => exact pure _
  | cons r rs ih =>
    unfold Signify.collectCerts
    refine bind (iterStore r) (fun l w D => ?_)
    have ht : storeTrusted { w with dicts := D } r = storeTrusted w r := by cases r <;> rfl
    show (if storeTrusted { w with dicts := D } r = true then _ else _ : M _) _ =
      (((if storeTrusted w r = true then _ else _ : M _) w).1, { ((if storeTrusted w r = true then _ else _ : M _) w).2 with dicts := D })
    rw [ht]
    split
    · exact ih _ _ _ w D
    · exact ih _ _ _ w D

theorem takeEkus (cid : Nat) : NoDict (takeEkus cid) := by
  unfold Signify.takeEkus
  refine bind (getCtx _) (fun ctx => ?_)
  split
  · exact bind (setCtx _ _) (fun _ => pure _)
  · exact pure _

theorem takeKeyUsages (cid : Nat) : NoDict (takeKeyUsages cid) := by
  unfold Signify.takeKeyUsages
  refine bind (getCtx _) (fun ctx => ?_)
  split
  · exact bind (setCtx _ _) (fun _ => pure _)
  · exact pure _

theorem ctlVerifyTrust (env : Env) (cid : Nat) (ctl : CTL) (chain : List Cert) : NoDict (ctlVerifyTrust env cid ctl chain) := by
  unfold Signify.ctlVerifyTrust
  split
  · exact raise _
  · refine bind (lift _) (fun subj => ?_)
    split
    · exact lift _
    · exact bind (getCtx _) (fun _ => bind (takeEkus cid) (fun _ => lift _))

theorem storeVerifyTrust (env : Env) (cid : Nat) (r : StoreRef) (chain : List Cert) : NoDict (storeVerifyTrust env cid r chain) := by
  intro w D
  have ht : ∀ c, storeIsTrusted { w with dicts := D } r c = storeIsTrusted w r c := by intro c; cases r <;> rfl
  unfold Signify.storeVerifyTrust
  cases chain.head? with
  | none => rfl
  | some root =>
    simp only [ht]
    by_cases hc : (!storeIsTrusted w r root) = true
    · rw [if_pos hc, if_pos hc]
    · rw [if_neg hc, if_neg hc]
      cases r with
      | embedded _ => rfl
      | heap i =>
        dsimp only
        cases (w.stores i).ctl with
        | none => rfl
        | some ctl => exact ctlVerifyTrust env cid ctl chain w D

theorem verifyTrustLoop (env : Env) (cid : Nat) (chain : List Cert) (rs : List StoreRef) (exc : Option Exc) :
    NoDict (verifyTrustLoop env cid chain rs exc) := by
  induction rs generalizing exc with
  | nil => cases exc <;> exact raise _
  | cons r rs ih =>
    intro w D
    unfold Signify.verifyTrustLoop
    have hk := storeVerifyTrust env cid r chain w D
    rcases hx : Signify.storeVerifyTrust env cid r chain w with ⟨x, w1⟩
    rw [hx] at hk
    rw [hk]
    cases x with
    | ok u => rfl
    | error e =>
      dsimp only
      split
      · exact ih _ w1 D
      · split
        · exact ih _ w1 D
        · rfl

theorem ctxVerifyTrust (env : Env) (cid : Nat) (chain : List Cert) : NoDict (ctxVerifyTrust env cid chain) :=
  bind (getCtx _) (fun _ => verifyTrustLoop env cid _ _ _)

theorem ctxVerify (env : Env) (cid : Nat) (c : Cert) : NoDict (ctxVerify env cid c) := by
  unfold Signify.ctxVerify
  refine bind (getCtx _) (fun ctx => bind (collectCerts _ _ _ _) (fun x => ?_))
  obtain ⟨roots, inter, all⟩ := x
  refine bind (lift _) (fun _ => bind (takeKeyUsages cid) (fun _ => bind (takeEkus cid) (fun _ => ?_)))
  split
  · exact lift _
  · exact bind (lift _) (fun _ => bind (ctxVerifyTrust env cid _) (fun _ => pure _))

theorem setTimestamp (cid : Nat) (t : Option Int) : NoDict (setTimestamp cid t) := fun _ _ => rfl

theorem applySigningTime (cid : Nat) (t : Option Int) : NoDict (applySigningTime cid t) := by
  cases t with
  | none => exact pure _
  | some t => exact setTimestamp cid _

theorem verifyIssuerSignature (env : Env) (cid : Nat) (s : Signer) (issuer : Cert) : NoDict (verifyIssuerSignature env cid s issuer) := by
  unfold Signify.verifyIssuerSignature
  refine bind (getCtx _) (fun ctx => ?_)
  split
  · exact pure _
  · split
    · exact lift _
    · exact raise _

theorem verifyIssuer (env : Env) (cid : Nat) (s : Signer) (t : Option Int) (issuer : Cert) : NoDict (verifyIssuer env cid s t issuer) :=
  bind (verifyIssuerSignature env cid s issuer) (fun _ => bind (applySigningTime cid t) (fun _ => ctxVerify env cid issuer))

theorem verifyIssuerAuth (env : Env) (cid : Nat) (s : Signer) (t : Option Int) (issuer : Cert) :
    NoDict (verifyIssuerAuth env cid s t issuer) := verifyIssuer env cid s _ issuer

theorem buildChainBody {check : Cert → M (List Cert)} (hc : ∀ c, NoDict (check c)) (acc : List (List Cert) × FirstError)
    (issuer : Cert) : NoDict (buildChainBody check acc issuer) := by
  unfold Signify.buildChainBody
  refine bind (attempt (hc issuer)) (fun r => ?_)
  split
  · exact pure _
  · split
    · exact pure _
    · exact raise _

theorem forCerts {σ : Type} (env : Env) (q : Query) {body : σ → Cert → M σ} (hb : ∀ a c, NoDict (body a c)) (l seen : List Cert)
    (acc : σ) : NoDict (forCerts env q body l seen acc) := by
  induction l generalizing seen acc with
  | nil => exact pure _
  | cons c l ih =>
    unfold Signify.forCerts
    split
    · split
      · exact ih _ _
      · exact bind (hb _ _) (fun _ => ih _ _)
    · exact ih _ _

theorem forStores {σ : Type} (env : Env) (q : Query) {body : σ → Cert → M σ} (hb : ∀ a c, NoDict (body a c)) (rs : List StoreRef)
    (seen : List Cert) (acc : σ) : NoDict (forStores env q body rs seen acc) := by
  induction rs generalizing seen acc with
  | nil => exact pure _
  | cons r rs ih => exact bind (iterStore r) (fun l => bind (forCerts env q hb l seen acc) (fun x => ih _ _))

theorem signerVerifyWith (env : Env) (cid : Nat) (s : Signer) {check : Cert → M (List Cert)} (hc : ∀ c, NoDict (check c)) :
    NoDict (signerVerifyWith env cid s check) := by
  unfold Signify.signerVerifyWith Signify.buildChain
  refine bind (bind (bind (getCtx _) (fun _ => forStores env _ (buildChainBody hc) _ _ _)) (fun acc => ?_)) (fun chains => ?_)
  · split
    · exact raise _
    · exact pure _
  · split
    · exact raise _
    · exact pure _

theorem signerVerify (env : Env) (cid : Nat) (s : Signer) (t : Option Int) : NoDict (signerVerify env cid s t) :=
  signerVerifyWith env cid s (verifyIssuer env cid s t)

theorem counterVerify (env : Env) (c : CounterSigner) (cid : Nat) : NoDict (c.verify env cid) := by
  cases c with
  | pkcs9 c => exact signerVerify env cid _ _
  | rfc3161 r =>
    show NoDict (rfcVerify env r (some cid) (.embedded []))
    unfold Signify.rfcVerify
    split
    · exact raise _
    · exact signerVerify env cid r.signer none

theorem counterTime (env : Env) (a : AuthData) (mode : String) (csCid : Option Nat) : NoDict (counterTime env a mode csCid) := by
  unfold Signify.counterTime
  split
  · exact pure _
  · split
    · split
      · exact raise _
      · refine bind (attempt ?_) (fun r => ?_)
        · unfold Signify.checkCounter
          split
          · exact raise _
          · exact bind (setTimestamp _ _) (fun _ => bind (counterVerify env _ _) (fun _ => pure _))
        · split
          · exact pure _
          · split
            · exact pure _
            · exact raise _
    · exact pure _

theorem asdVerify (env : Env) (file : Option Bytes) (a : AuthData) (args : VerifyArgs) : NoDict (asdVerify env file a args) := by
  refine bind ?_ (fun cid => bind ?_ (fun cs => bind (lift _) (fun _ => bind (counterTime env a _ cs) (fun t => ?_))))
  · unfold chooseContext
    split
    · exact pure _
    · exact newCtx _
  · unfold chooseCsContext
    split
    · split
      · exact bind (newCtx _) (fun _ => pure _)
      · exact pure _
    · exact pure _
  · exact signerVerifyWith env cid a.signer (verifyIssuerAuth env cid a.signer t)

end NoDict

end Signify
