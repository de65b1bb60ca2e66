/-
Which exceptions verification raises.
-/
import Verif.Spec.Errors
import Verif.Proofs.Sim

set_option autoImplicit false

namespace Signify

open Spec

theorem iterStore_value {r : StoreRef} {w : World} {l : List Cert} (h : (iterStore r w).1 = .ok l) : l = certsOf (loadedWorld w) r := by
  cases r with
  | embedded _ => cases h; rfl
  | heap i =>
    have hrun : iterStore (.heap i) w = (match (w.stores i).pending with
      | none => Pure.pure (w.stores i).items
      | some (certs, exc) =>
        (M.setStore i { w.stores i with items := (w.stores i).items ++ certs, pending := none } >>= fun _ =>
          match exc with
          | none => Pure.pure ((w.stores i).items ++ certs)
          | some e => M.raise e) : M (List Cert)) w := rfl
    rw [hrun] at h
    simp only [Spec.certsOf, loadedWorld, Spec.Store.loaded]
    rcases hp : (w.stores i).pending with _ | ⟨certs, exc⟩
    · rw [hp] at h; cases h; rfl
    · rw [hp] at h
      cases exc with
      | none => cases h; rfl
      | some e => cases h

/-- every context -/
abbrev Any : Nat → Prop := fun _ => True

/-- Whatever leaks from the stores in `S` is in `P`, and the contexts in `C` use stores in `S`. -/
structure Contained (env : Env) (P : Exc → Prop) (S : List StoreRef) (C : Nat → Prop) (w : World) : Prop where
  leak : ∀ e, Leak env w S e → P e
  stores : ∀ j, C j → ∀ r ∈ (w.ctxs j).stores, r ∈ S

theorem Leak.step {env : Env} {S : List StoreRef} {w w' : World} (h : ∀ i, StoreStep (w.stores i) (w'.stores i)) {e : Exc}
    (hl : Leak env w' S e) : Leak env w S e := by
  cases hl with
  | store i certs e hm hp =>
    rcases h i with hs | hs
    · rw [hs] at hp; exact .store i certs e hm hp
    · rw [hs, loaded_pending] at hp; cases hp
  | trustList i ctl msg hm ht hc h1 h2 =>
    exact .trustList i ctl msg hm ((h i).trusted ▸ ht) ((h i).ctl ▸ hc) h1 h2
  | name r c msg hr hm ht =>
    refine .name r c msg hr ?_ ht
    cases r with
    | embedded _ => exact hm
    | heap i =>
      have hm : c ∈ (Spec.Store.loaded (w'.stores i)).items := hm
      show c ∈ (Spec.Store.loaded (w.stores i)).items
      rcases h i with hs | hs
      · rwa [hs] at hm
      · rwa [hs, loaded_loaded] at hm
  | key s e h => exact .key s e h
  | validator r e h => exact .validator r e h
  | stranger r chain x msg h1 h2 h3 h4 h5 => exact .stranger r chain x msg h1 h2 h3 h4 h5
  | emptyChain r msg h => exact .emptyChain r msg h

theorem Contained.frame {env : Env} {P : Exc → Prop} {S : List StoreRef} {C D T : Nat → Prop} {w w' : World}
    (hc : Contained env P S C w) (h : Frame D T w w') : Contained env P S C w' :=
  ⟨fun e he => hc.leak e (Leak.step h.stores he), fun j hj r hr => hc.stores j hj r (by rwa [h.ctxStores j] at hr)⟩

/-- The action changes the state as verification does, and raises only exceptions in `P`. -/
structure Throws {α : Type} (env : Env) (P : Exc → Prop) (S : List StoreRef) (C : Nat → Prop) (x : M α) : Prop where
  keeps : Keeps Any Any x
  raises : ∀ w, Contained env P S C w → ∀ e, (x w).1 = .error e → P e

namespace Throws

variable {α β : Type} {env : Env} {P : Exc → Prop} {S : List StoreRef} {C : Nat → Prop}

theorem pure (a : α) : Throws env P S C (Pure.pure a : M α) := ⟨.pure a, fun _ _ _ h => nomatch h⟩

theorem raise {e : Exc} (h : P e) : Throws env P S C (M.raise e : M α) := ⟨.raise e, fun _ _ _ he => by cases he; exact h⟩

theorem lift {x : Except Exc α} (h : ∀ e, x = .error e → P e) : Throws env P S C (M.lift x) := ⟨.lift x, fun _ _ e he => h e he⟩

theorem getCtx (i : Nat) : Throws env P S C (M.getCtx i) := ⟨.getCtx i, fun _ _ _ h => nomatch h⟩

theorem world : Throws env P S C M.world := ⟨.world, fun _ _ _ h => nomatch h⟩

theorem bind {x : M α} {f : α → M β} (hx : Throws env P S C x) (hf : ∀ a, Throws env P S C (f a)) : Throws env P S C (x >>= f) := by
  refine ⟨.bind hx.keeps (fun a => (hf a).keeps), fun w hw e he => ?_⟩
  rw [M.bind_run] at he
  have hx' := hx.raises w hw
  rcases h : x w with ⟨r, w1⟩
  rw [h] at he hx'
  cases r with
  | error e' => cases he; exact hx' e rfl
  | ok a => exact (hf a).raises w1 (hw.frame (hx.keeps.of_eq h)) e he

/-- For a read of the state the continuation may use the value. -/
theorem getCtx_bind {i : Nat} {f : Ctx → M β} (hk : Keeps Any Any (M.getCtx i >>= f))
    (hf : ∀ w, Contained env P S C w → Throws env P S C (f (w.ctxs i))) : Throws env P S C (M.getCtx i >>= f) :=
  ⟨hk, fun w hw e he => (hf w hw).raises w hw e he⟩

theorem attempt {x : M α} (hx : Keeps Any Any x) : Throws env P S C (M.attempt x) := by
  refine ⟨.attempt hx, fun w _ e he => ?_⟩
  unfold M.attempt at he
  split at he
  cases he

theorem attempt_bind {x : M α} {f : Except Exc α → M β} (hx : Throws env P S C x) (hok : ∀ a, Throws env P S C (f (.ok a)))
    (herr : ∀ e, P e → Throws env P S C (f (.error e))) (hk : ∀ r, Keeps Any Any (f r)) : Throws env P S C (M.attempt x >>= f) := by
  refine ⟨.bind (.attempt hx.keeps) hk, fun w hw e he => ?_⟩
  rw [M.bind_run] at he
  unfold M.attempt at he
  have hx' := hx.raises w hw
  rcases h : x w with ⟨r, w1⟩
  rw [h] at he hx'
  have hw1 := hw.frame (hx.keeps.of_eq h)
  cases r with
  | error e' => exact (herr e' (hx' e' rfl)).raises w1 hw1 e he
  | ok a => exact (hok a).raises w1 hw1 e he

theorem iterStore {r : StoreRef} (hr : r ∈ S) : Throws env P S C (iterStore r) := by
  refine ⟨.iterStore r, fun w hw e he => ?_⟩
  cases r with
  | embedded _ => cases he
  | heap i =>
    have hrun : Signify.iterStore (.heap i) w = (match (w.stores i).pending with
      | none => Pure.pure (w.stores i).items
      | some (certs, exc) =>
        (M.setStore i { w.stores i with items := (w.stores i).items ++ certs, pending := none } >>= fun _ =>
          match exc with
          | none => Pure.pure ((w.stores i).items ++ certs)
          | some e => M.raise e) : M (List Cert)) w := rfl
    rw [hrun] at he
    rcases hp : (w.stores i).pending with _ | ⟨certs, exc⟩
    · rw [hp] at he; cases he
    · rw [hp] at he
      cases exc with
      | none => cases he
      | some e' =>
        cases he
        exact hw.leak e (.store i certs e hr hp)

theorem takeEkus (cid : Nat) : Throws env P S C (takeEkus cid) :=
  ⟨.takeEkus trivial, fun w _ e he => by rw [takeEkus_run] at he; cases he⟩

theorem takeKeyUsages (cid : Nat) : Throws env P S C (takeKeyUsages cid) :=
  ⟨.takeKeyUsages trivial, fun w _ e he => by rw [takeKeyUsages_run] at he; cases he⟩

/-- What the code itself raises on refusal. -/
def Refusals (P : Exc → Prop) : Prop := ∀ e, e.cls ∈ [ExcClass.certificateVerificationError,
  .ctlCertificateVerificationError, .signerInfoVerificationError] → P e

/-- If the certificate cannot be named, trying to is in `P`. -/
def Nameable (P : Exc → Prop) (c : Cert) : Prop := ¬ Textual c.subject → ∀ msg, P ⟨.typeError, msg⟩

theorem raiseNaming {c : Cert} (hn : Nameable P c) {e : Exc} (he : P e) : ∀ e', (raiseNaming c e : Except Exc α) = .error e' → P e' := by
  rcases raiseNaming_cases (α := α) c e with ⟨-, h⟩ | ⟨ht, m, h⟩ <;> rw [h] <;> rintro e' h' <;> cases h'
  · exact he
  · exact hn ht m

theorem ctlVerifyTrust (hR : Refusals P) (cid : Nat) (ctl : CTL) {chain : List Cert}
    (hc : chain ≠ []) (hn : ∀ c ∈ chain, Nameable P c)
    (halg : ctl.algorithm ≠ "sha1" → ctl.algorithm ≠ "sha256" → ∀ msg, P ⟨.ctlParseError, msg⟩) :
    Throws env P S C (ctlVerifyTrust env cid ctl chain) := by
  cases chain with
  | nil => exact absurd rfl hc
  | cons root rest =>
    unfold Signify.ctlVerifyTrust
    rw [List.head?_cons]
    refine bind (lift ?_) (fun subj => ?_)
    · intro e he
      unfold CTL.findSubject at he
      split at he
      · cases he
      · split at he
        · cases he
        · cases he; exact halg ‹_› ‹_› _
    · cases subj with
      | none => exact lift (raiseNaming (hn root (by simp)) (hR _ (by simp)))
      | some s =>
        refine bind (getCtx _) (fun ctx => bind (takeEkus cid) (fun requested => lift ?_))
        intro e he
        unfold CtlSubject.verifyTrust at he
        split at he
        · cases he; exact hR _ (by simp)
        · split at he
          · rename_i hl; simp at hl
          · split at he
            · cases he; exact hR _ (by simp)
            · split at he
              · cases he; exact hR _ (by simp)
              · cases he

theorem storeVerifyTrust (hR : Refusals P) (cid : Nat) {r : StoreRef} (hr : r ∈ S) {chain : List Cert} (hc : chain ≠ [])
    (hn : ∀ c ∈ chain, Nameable P c) (w : World) (hw : Contained env P S C w) (e : Exc) (he : (storeVerifyTrust env cid r chain w).1 = .error e) : P e ∨ e.cls = .certificateNotTrusted := by
  cases chain with
  | nil => exact absurd rfl hc
  | cons root rest =>
    unfold Signify.storeVerifyTrust at he
    rw [List.head?_cons] at he
    simp only at he
    split at he
    · rcases raiseNaming_error he with ⟨-, h⟩ | ⟨ht, h⟩
      · exact .inr (by rw [h])
      · obtain ⟨cls, msg⟩ := e
        cases h
        exact .inl (hn root (by simp) ht msg)
    · left
      rename_i ht
      cases r with
      | embedded _ => cases he
      | heap i =>
        simp only at he
        cases hctl : (w.stores i).ctl with
        | none => rw [hctl] at he; cases he
        | some ctl =>
          rw [hctl] at he
          refine (ctlVerifyTrust (S := S) (C := C) hR cid ctl (by simp) hn ?_).raises w hw e he
          intro h1 h2 msg
          refine hw.leak _ (.trustList i ctl msg hr ?_ hctl h1 h2)
          simp only [storeIsTrusted, Bool.not_eq_eq_eq_not] at ht
          exact (by simpa using ht : (w.stores i).trusted = true ∧ _).1

theorem verifyTrustLoop (hR : Refusals P) (cid : Nat) {chain : List Cert} (hc : chain ≠ []) (hn : ∀ c ∈ chain, Nameable P c) (rs : List StoreRef) (hrs : ∀ r ∈ rs, r ∈ S)
    (exc : Option Exc) (hexc : ∀ e, exc = some e → P e) : Throws env P S C (verifyTrustLoop env cid chain rs exc) := by
  induction rs generalizing exc with
  | nil =>
    cases exc with
    | none => exact raise (hR _ (by simp))
    | some e => exact raise (hexc e rfl)
  | cons r rs ih =>
    refine ⟨.verifyTrustLoop env trivial chain _ exc, fun w hw e he => ?_⟩
    unfold Signify.verifyTrustLoop at he
    have hs' := storeVerifyTrust hR cid (hrs r (by simp)) hc hn w hw
    rcases hx : Signify.storeVerifyTrust env cid r chain w with ⟨x, w1⟩
    rw [hx] at he hs'
    have hw1 := hw.frame ((Keeps.storeVerifyTrust (D := Any) (T := Any) env trivial r chain).of_eq hx)
    have hrs' : ∀ r ∈ rs, r ∈ S := fun r hr => hrs r (List.mem_cons_of_mem _ hr)
    cases x with
    | ok u => cases he
    | error e1 =>
      have hp := hs' e1 rfl
      dsimp only at he
      split at he
      · exact (ih hrs' exc hexc).raises w1 hw1 e he
      · rename_i hn
        have hp : P e1 := hp.resolve_right (fun h => hn (by unfold Exc.is; rw [h]; decide))
        split at he
        · exact (ih hrs' (some e1) (fun e h => by cases h; exact hp)).raises w1 hw1 e he
        · cases he; exact hp

theorem ctxVerifyTrust (hR : Refusals P) {cid : Nat} (hC : C cid) {chain : List Cert} (hc : chain ≠ [])
    (hn : ∀ c ∈ chain, Nameable P c) :
    Throws env P S C (ctxVerifyTrust env cid chain) :=
  getCtx_bind (.ctxVerifyTrust env trivial chain) (fun w hw => verifyTrustLoop hR cid hc hn _ (hw.stores cid hC) none (fun _ h => nomatch h))

/-- With an empty chain the exception is IndexError, or that of a context without stores. -/
theorem verifyTrustLoop_nil (hR : Refusals P) (cid : Nat) (rs : List StoreRef) (exc : Option Exc) (hexc : ∀ e, exc = some e → P e)
    (hi : ∀ msg, P ⟨.indexError, msg⟩) : Throws env P S C (Signify.verifyTrustLoop env cid [] rs exc) := by
  cases rs with
  | nil =>
    cases exc with
    | none => exact raise (hR _ (by simp))
    | some e => exact raise (hexc e rfl)
  | cons r rs =>
    refine ⟨.verifyTrustLoop env trivial _ _ exc, fun w hw e he => ?_⟩
    cases he
    exact hi _

theorem ctxVerifyTrust_nil (hR : Refusals P) (cid : Nat) (hi : ∀ msg, P ⟨.indexError, msg⟩) :
    Throws env P S C (Signify.ctxVerifyTrust env cid []) :=
  getCtx_bind (.ctxVerifyTrust env trivial []) (fun w _ => verifyTrustLoop_nil hR cid _ none (fun _ h => nomatch h) hi)

theorem collectCerts (rs : List StoreRef) (hrs : ∀ r ∈ rs, r ∈ S) (roots inter : List Nat) (all : Dict Nat Cert) :
    Throws env P S C (collectCerts rs roots inter all) := by
  induction rs generalizing roots inter all with
  | nil => exact pure _
  | cons r rs ih =>
    have hrs' : ∀ r ∈ rs, r ∈ S := fun r hr => hrs r (List.mem_cons_of_mem _ hr)
    unfold Signify.collectCerts
    refine bind (iterStore (hrs r (by simp))) (fun l => bind world (fun w => ?_))
    dsimp only
    split
    · exact ih hrs' _ _ _
    · exact ih hrs' _ _ _

theorem foldl_set_some (l : List Cert) (all : Dict Nat Cert) {x : Nat} (h : (∃ d, all.get? x = some d) ∨ x ∈ l.map Cert.obj) :
    ∃ d, (l.foldl (fun d c => d.set c.obj c) all).get? x = some d := by
  induction l generalizing all with
  | nil => rcases h with h | h; exact h; cases h
  | cons c l ih =>
    rw [List.foldl_cons]
    refine ih _ ?_
    by_cases hx : x = c.obj
    · exact .inl ⟨c, by rw [Dict.get?_set, if_pos hx]⟩
    · rcases h with ⟨d, hd⟩ | h
      · exact .inl ⟨d, by rw [Dict.get?_set, if_neg hx]; exact hd⟩
      · rw [List.map_cons, List.mem_cons] at h
        rcases h with h | h
        · exact absurd h hx
        · exact .inr h

theorem collectCerts_known (rs : List StoreRef) (roots inter : List Nat) (all : Dict Nat Cert) (w w' : World)
    (roots' inter' : List Nat) (all' : Dict Nat Cert) (h : Signify.collectCerts rs roots inter all w = (.ok (roots', inter', all'), w'))
    (h0 : ∀ x, x ∈ roots ∨ x ∈ inter → ∃ d, all.get? x = some d) :
    (∀ x, (∃ d, all.get? x = some d) ∨ x ∈ roots' ∨ x ∈ inter' → ∃ d, all'.get? x = some d) := by
  induction rs generalizing roots inter all w with
  | nil =>
    cases h
    intro x hx
    rcases hx with hx | hx
    · exact hx
    · exact h0 x hx
  | cons r rs ih =>
    unfold Signify.collectCerts at h
    obtain ⟨l, w1, h1, h2⟩ := M.bind_eq_ok h
    obtain ⟨v, w2, h3, h4⟩ := M.bind_eq_ok h2
    dsimp only at h4
    have hx0 : ∀ x, (∃ d, all.get? x = some d) → ∃ d, (l.foldl (fun d c => d.set c.obj c) all).get? x = some d :=
      fun x hx => foldl_set_some l all (.inl hx)
    split at h4
    · have := ih _ _ _ _ h4 (fun x hx => by
        rw [List.mem_append] at hx
        rcases hx with (hx | hx) | hx
        · exact hx0 x (h0 x (.inl hx))
        · exact foldl_set_some l all (.inr hx)
        · exact hx0 x (h0 x (.inr hx)))
      intro x hx
      exact this x (hx.imp (hx0 x) id)
    · have := ih _ _ _ _ h4 (fun x hx => by
        rw [List.mem_append] at hx
        rcases hx with hx | hx | hx
        · exact hx0 x (h0 x (.inl hx))
        · exact hx0 x (h0 x (.inr hx))
        · exact foldl_set_some l all (.inr hx))
      intro x hx
      exact this x (hx.imp (hx0 x) id)

theorem lookupAll_nil {all : Dict Nat Cert} {ids : List Nat} (h : lookupAll all ids = .ok []) : ids = [] := by
  have := congrArg List.length (lookupAll_ok h)
  simpa using this

/-- Certificates of the stores may be named, as far as `P` knows. -/
theorem iterStore_nameable {r : StoreRef} (hr : r ∈ S) {w : World} (hw : Contained env P S C w) {l : List Cert}
    (h : (Signify.iterStore r w).1 = .ok l) : ∀ c ∈ l, Nameable P c := by
  intro c hc ht msg
  rw [iterStore_value h] at hc
  exact hw.leak _ (.name r c msg hr hc ht)

theorem foldl_set_mem {l : List Cert} {all : Dict Nat Cert} {Q : Cert → Prop} (h : ∀ x d, all.get? x = some d → Q d) (hl : ∀ c ∈ l, Q c)
    {x : Nat} {d : Cert} (hd : (l.foldl (fun d c => d.set c.obj c) all).get? x = some d) : Q d := by
  induction l generalizing all with
  | nil => exact h x d hd
  | cons c l ih =>
    rw [List.foldl_cons] at hd
    refine ih (fun y e he => ?_) (fun c hc => hl c (List.mem_cons_of_mem _ hc)) hd
    rw [Dict.get?_set] at he
    split at he
    · cases he; exact hl c (by simp)
    · exact h y e he

theorem collectCerts_nameable (rs : List StoreRef) (hrs : ∀ r ∈ rs, r ∈ S) (roots inter : List Nat) (all : Dict Nat Cert) (w w' : World)
    (hw : Contained env P S C w) (roots' inter' : List Nat) (all' : Dict Nat Cert)
    (h : Signify.collectCerts rs roots inter all w = (.ok (roots', inter', all'), w'))
    (h0 : ∀ x d, all.get? x = some d → Nameable P d) : ∀ x d, all'.get? x = some d → Nameable P d := by
  induction rs generalizing roots inter all w with
  | nil => cases h; exact h0
  | cons r rs ih =>
    unfold Signify.collectCerts at h
    obtain ⟨l, w1, h1, h2⟩ := M.bind_eq_ok h
    obtain ⟨v, w2, h3, h4⟩ := M.bind_eq_ok h2
    have hl := iterStore_nameable (hrs r (by simp)) hw (by rw [h1])
    have hw1 : Contained env P S C w1 := hw.frame ((Keeps.iterStore (D := Any) (T := Any) r).of_eq h1)
    have hw2 : w2 = w1 := by cases h3; rfl
    subst hw2
    have hrs' : ∀ r ∈ rs, r ∈ S := fun r hr => hrs r (List.mem_cons_of_mem _ hr)
    dsimp only at h4
    split at h4
    · exact ih hrs' _ _ _ _ hw1 h4 (fun x d hd => foldl_set_mem h0 hl hd)
    · exact ih hrs' _ _ _ _ hw1 h4 (fun x d hd => foldl_set_mem h0 hl hd)

theorem ctxVerify (hR : Refusals P) {cid : Nat} (hC : C cid) (c : Cert) (hn : Nameable P c) : Throws env P S C (ctxVerify env cid c) := by
  refine ⟨.ctxVerify env trivial c, fun w hw e he => ?_⟩
  unfold Signify.ctxVerify at he
  rw [M.getCtx_bind, M.bind_run] at he
  have hcoll := collectCerts (env := env) (P := P) (C := C) (w.ctxs cid).stores (hw.stores cid hC) [] [] [(c.obj, c)]
  have hcoll' := hcoll.raises w hw
  rcases hx : Signify.collectCerts (w.ctxs cid).stores [] [] [(c.obj, c)] w with ⟨x, w1⟩
  rw [hx] at he hcoll'
  have hw1 := hw.frame (hcoll.keeps.of_eq hx)
  cases x with
  | error e1 => cases he; exact hcoll' e rfl
  | ok y =>
    obtain ⟨roots, inter, all⟩ := y
    have hknown := collectCerts_known _ _ _ _ _ _ _ _ _ hx (fun x hx => by rcases hx with hx | hx <;> cases hx)
    have hnames := collectCerts_nameable (env := env) (P := P) (C := C) _ (hw.stores cid hC) _ _ _ _ _ hw _ _ _ hx (fun x d hd => by
      simp only [Dict.get?] at hd
      split at hd
      · cases hd; exact hn
      · cases hd)
    simp only at he
    refine Throws.raises (env := env) (P := P) (S := S) (C := C) ?_ w1 hw1 e he
    refine bind (lift (fun e he => hw.leak e (.validator _ e he))) (fun _ => ?_)
    refine bind (takeKeyUsages cid) (fun kus => bind (takeEkus cid) (fun ekus => ?_))
    split
    · exact lift (raiseNaming hn (hR _ (by simp)))
    · rename_i chain hv
      cases hl : lookupAll all chain with
      | error e1 =>
        show Throws env P S C (M.raise e1 : M (List Cert))
        obtain ⟨hk, x, hxm, hxn⟩ := lookupAll_error hl
        obtain ⟨cls, msg⟩ := e1
        simp only at hk
        subst hk
        refine raise (hw.leak _ (.stranger _ chain x msg hv hxm ?_ ?_ ?_))
        · rintro rfl
          obtain ⟨d, hd⟩ := hknown c.obj (.inl ⟨c, by simp [Dict.get?]⟩)
          rw [hd] at hxn; cases hxn
        · intro hm
          obtain ⟨d, hd⟩ := hknown x (.inr (.inl hm))
          rw [hd] at hxn; cases hxn
        · intro hm
          obtain ⟨d, hd⟩ := hknown x (.inr (.inr hm))
          rw [hd] at hxn; cases hxn
      | ok ch =>
        show Throws env P S C (Signify.ctxVerifyTrust env cid ch >>= fun _ => Pure.pure ch)
        refine bind ?_ (fun _ => pure _)
        cases ch with
        | cons a l =>
          refine ctxVerifyTrust hR hC (by simp) (fun d hd => ?_)
          have hm : some d ∈ (a :: l).map some := List.mem_map_of_mem hd
          rw [← lookupAll_ok hl] at hm
          obtain ⟨x, -, hx⟩ := List.mem_map.1 hm
          exact hnames x d hx
        | nil =>
          have := lookupAll_nil hl
          subst this
          exact ctxVerifyTrust_nil hR cid (fun msg => hw.leak _ (.emptyChain _ msg hv))

theorem setTimestamp (cid : Nat) (t : Option Int) : Throws env P S C (setTimestamp cid t) :=
  ⟨.setTimestamp trivial trivial t, fun _ _ _ h => nomatch h⟩

theorem applySigningTime (cid : Nat) (t : Option Int) : Throws env P S C (applySigningTime cid t) := by
  cases t with
  | none => exact pure _
  | some t => exact setTimestamp cid _

theorem verifyIssuerSignature (hR : Refusals P) (cid : Nat) (s : Signer) (issuer : Cert) (hi : Nameable P issuer) :
    Throws env P S C (verifyIssuerSignature env cid s issuer) := by
  refine ⟨.verifyIssuerSignature env cid s issuer, fun w hw e he => ?_⟩
  unfold Signify.verifyIssuerSignature at he
  rw [M.getCtx_bind] at he
  cases hv : issuer.verifySignature env s.encryptedDigest s.encodedAuth s.digestAlg (w.ctxs cid).allowLegacy with
  | ok u => rw [hv] at he; cases he
  | error e1 =>
    rw [hv] at he
    simp only at he
    split at he
    · exact raiseNaming hi (hR _ (by simp)) e he
    · rename_i hn
      cases he
      rcases verifySignature_error hv with ⟨-, h⟩ | ⟨ht, h⟩ | h
      · exact absurd (by unfold Exc.is; rw [h]; decide) hn
      · obtain ⟨cls, msg⟩ := e
        cases h
        exact hi ht msg
      · exact hw.leak _ (.key _ _ h)

theorem verifyIssuer (hR : Refusals P) {cid : Nat} (hC : C cid) (s : Signer) (t : Option Int) (issuer : Cert) (hi : Nameable P issuer) :
    Throws env P S C (verifyIssuer env cid s t issuer) :=
  bind (verifyIssuerSignature hR cid s issuer hi) (fun _ => bind (applySigningTime cid t) (fun _ => ctxVerify hR hC issuer hi))

theorem verifyIssuerAuth (hR : Refusals P) {cid : Nat} (hC : C cid) (s : Signer) (t : Option Int) (issuer : Cert) (hi : Nameable P issuer) :
    Throws env P S C (verifyIssuerAuth env cid s t issuer) := verifyIssuer hR hC s _ issuer hi

/-- The error kept by the loop over the candidates is in `P`. -/
def KeptIn (P : Exc → Prop) (acc : List (List Cert) × FirstError) : Prop := ∀ e, acc.2 = .error e → P e

theorem bind_of {x : M α} {f : α → M β} (Q : α → Prop) (hx : Throws env P S C x)
    (hq : ∀ w, Contained env P S C w → ∀ a, (x w).1 = .ok a → Q a)
    (hk : ∀ a, Keeps Any Any (f a)) (hf : ∀ a, Q a → Throws env P S C (f a)) : Throws env P S C (x >>= f) := by
  refine ⟨.bind hx.keeps hk, fun w hw e he => ?_⟩
  rw [M.bind_run] at he
  have hx' := hx.raises w hw
  have hq' := hq w hw
  rcases h : x w with ⟨r, w1⟩
  rw [h] at he hx' hq'
  cases r with
  | error e' => cases he; exact hx' e rfl
  | ok a => exact (hf a (hq' a rfl)).raises w1 (hw.frame (hx.keeps.of_eq h)) e he

/-- The action raises in `P` and returns in `Q`. -/
structure Gives {α : Type} (env : Env) (P : Exc → Prop) (S : List StoreRef) (C : Nat → Prop) (Q : α → Prop) (x : M α) : Prop
    extends Throws env P S C x where
  returns : ∀ w, Contained env P S C w → ∀ a, (x w).1 = .ok a → Q a

theorem Gives.bind {x : M α} {f : α → M β} {Q : α → Prop} {R : β → Prop} (hx : Gives env P S C Q x)
    (hk : ∀ a, Keeps Any Any (f a)) (hf : ∀ a, Q a → Gives env P S C R (f a)) : Gives env P S C R (x >>= f) := by
  refine ⟨bind_of Q hx.toThrows hx.returns hk (fun a ha => (hf a ha).toThrows), fun w hw b hb => ?_⟩
  rw [M.bind_run] at hb
  have hq' := hx.returns w hw
  rcases h : x w with ⟨r, w1⟩
  rw [h] at hb hq'
  cases r with
  | error e' => cases hb
  | ok a => exact (hf a (hq' a rfl)).returns w1 (hw.frame (hx.keeps.of_eq h)) b hb

theorem Gives.pure {Q : α → Prop} {a : α} (h : Q a) : Gives env P S C Q (Pure.pure a : M α) :=
  ⟨Throws.pure a, fun _ _ b hb => by cases hb; exact h⟩

theorem Gives.of {x : M α} (h : Throws env P S C x) : Gives env P S C (fun _ => True) x := ⟨h, fun _ _ _ _ => trivial⟩

theorem Gives.raise {Q : α → Prop} {e : Exc} (h : P e) : Gives env P S C Q (M.raise e : M α) :=
  ⟨Throws.raise h, fun _ _ b hb => by cases hb⟩

theorem Gives.forCerts {σ : Type} (q : Query) {body : σ → Cert → M σ} {Q : σ → Prop} (hk : ∀ a c, Keeps Any Any (body a c))
    (hb : ∀ a c, Nameable P c → Q a → Gives env P S C Q (body a c)) (l seen : List Cert) (hl : ∀ c ∈ l, Nameable P c) (acc : σ) (ha : Q acc) :
    Gives env P S C (fun x => Q x.2) (forCerts env q body l seen acc) := by
  induction l generalizing seen acc with
  | nil => exact .pure ha
  | cons c l ih =>
    have hl' : ∀ c ∈ l, Nameable P c := fun c hc => hl c (List.mem_cons_of_mem _ hc)
    unfold Signify.forCerts
    split
    · split
      · exact ih _ hl' _ ha
      · exact .bind (hb _ _ (hl c (by simp)) ha) (fun _ => .forCerts env q hk _ _ _) (fun _ h => ih _ hl' _ h)
    · exact ih _ hl' _ ha

theorem Gives.forStores {σ : Type} (q : Query) {body : σ → Cert → M σ} {Q : σ → Prop} (hk : ∀ a c, Keeps Any Any (body a c))
    (hb : ∀ a c, Nameable P c → Q a → Gives env P S C Q (body a c)) (rs : List StoreRef) (hrs : ∀ r ∈ rs, r ∈ S) (seen : List Cert) (acc : σ) (ha : Q acc) :
    Gives env P S C Q (forStores env q body rs seen acc) := by
  induction rs generalizing seen acc with
  | nil => exact .pure ha
  | cons r rs ih =>
    refine .bind (Q := fun l => ∀ c ∈ l, Nameable P c)
      ⟨iterStore (hrs r (by simp)), fun w hw l h => iterStore_nameable (hrs r (by simp)) hw h⟩
      (fun l => .bind (.forCerts env q hk _ _ _) (fun x => .forStores env q hk _ _ _)) (fun l hl => ?_)
    exact .bind (Gives.forCerts q hk hb l seen hl acc ha) (fun x => .forStores env q hk _ _ _)
      (fun x hx => ih (fun r hr => hrs r (List.mem_cons_of_mem _ hr)) _ _ hx)

theorem buildChainBody {check : Cert → M (List Cert)} (hkc : ∀ c, Keeps Any Any (check c)) (acc : List (List Cert) × FirstError)
    (issuer : Cert) (hc : Throws env P S C (check issuer)) (ha : KeptIn P acc) : Gives env P S C (KeptIn P) (buildChainBody check acc issuer) := by
  have hk := Keeps.buildChainBody hkc acc issuer
  have key : ∀ w, Contained env P S C w → (∀ e, ((Signify.buildChainBody check acc issuer) w).1 = .error e → P e) ∧
      ∀ a, ((Signify.buildChainBody check acc issuer) w).1 = .ok a → KeptIn P a := by
    intro w hw
    have hx' := hc.raises w hw
    rcases h : check issuer w with ⟨r, w1⟩
    rw [h] at hx'
    have hrun : Signify.buildChainBody check acc issuer w = (match r with
      | .ok chain => Pure.pure (acc.1 ++ [chain], .false)
      | .error e =>
        if e.is .verificationError then Pure.pure (acc.1, if acc.2 = .none then .error e else acc.2)
        else M.raise e : M (List (List Cert) × FirstError)) w1 := by
      unfold Signify.buildChainBody
      rw [M.bind_ok (show M.attempt (check issuer) w = (.ok r, w1) by unfold M.attempt; rw [h])]
      cases r <;> rfl
    rw [hrun]
    cases r with
    | ok chain => exact ⟨fun e he => (by cases he), fun a ha' => (by cases ha'; intro e he; cases he)⟩
    | error e1 =>
      have hp := hx' e1 rfl
      simp only
      split
      · refine ⟨fun e he => (by cases he), fun a ha' => ?_⟩
        cases ha'
        intro e he
        simp only at he
        split at he
        · cases he; exact hp
        · exact ha e he
      · exact ⟨fun e he => (by cases he; exact hp), fun a ha' => (by cases ha')⟩
  exact ⟨⟨hk, fun w hw => (key w hw).1⟩, fun w hw => (key w hw).2⟩

theorem buildChain {cid : Nat} (hC : C cid) (s : Signer) {check : Cert → M (List Cert)} (hkc : ∀ c, Keeps Any Any (check c))
    (hc : ∀ c, Nameable P c → Throws env P S C (check c)) : Throws env P S C (buildChain env cid s check) := by
  have hkb := fun a c => Keeps.buildChainBody (D := Any) (T := Any) hkc a c
  refine Gives.toThrows (Q := fun _ => True) ?_
  unfold Signify.buildChain
  refine .bind (Q := KeptIn P) ?_ (fun acc => ?_) (fun acc ha => ?_)
  · refine ⟨getCtx_bind (.forFind env cid _ _ hkb) (fun w hw => ?_), fun w hw => ?_⟩
    · exact (Gives.forStores (Q := KeptIn P) _ hkb (fun a c hn ha => buildChainBody hkc a c (hc c hn) ha) _ (hw.stores cid hC) [] ([], .none)
        (fun e he => (by cases he))).toThrows
    · exact (Gives.forStores (Q := KeptIn P) _ hkb (fun a c hn ha => buildChainBody hkc a c (hc c hn) ha) _ (hw.stores cid hC) [] ([], .none)
        (fun e he => (by cases he))).returns w hw
  · split
    · exact .raise _
    · exact .pure _
  · split
    · rename_i e h; exact .raise (ha e h)
    · exact .pure trivial

theorem signerVerifyWith (hR : Refusals P) {cid : Nat} (hC : C cid) (s : Signer) {check : Cert → M (List Cert)}
    (hkc : ∀ c, Keeps Any Any (check c)) (hc : ∀ c, Nameable P c → Throws env P S C (check c)) :
    Throws env P S C (signerVerifyWith env cid s check) := by
  unfold Signify.signerVerifyWith
  refine bind (buildChain hC s hkc hc) (fun chains => ?_)
  split
  · exact raise (hR _ (by simp))
  · exact pure _

theorem signerVerify (hR : Refusals P) {cid : Nat} (hC : C cid) (s : Signer) (t : Option Int) :
    Throws env P S C (signerVerify env cid s t) := signerVerifyWith hR hC s (fun c => .verifyIssuer env trivial trivial s t c) (verifyIssuer hR hC s t)

theorem authSignerVerify (hR : Refusals P) {cid : Nat} (hC : C cid) (s : Signer) (t : Option Int) :
    Throws env P S C (authSignerVerify env cid s t) := signerVerifyWith hR hC s (fun c => .verifyIssuerAuth env trivial trivial s t c) (verifyIssuerAuth hR hC s t)

end Throws

end Signify
