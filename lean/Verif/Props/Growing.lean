/-
C84: adding stores to a context and certificates to a store.
-/
import Verif.Props.CTL
import Verif.Proofs.Candidates

set_option autoImplicit false

namespace Signify.Props

open Signify Spec

variable (env : Env) (cid : Nat) (w : World)

theorem added_stores (r : StoreRef) : ((addStore cid r w).2.ctxs cid).stores = (w.ctxs cid).stores ++ [r] := by
  show ((if cid = cid then _ else _ : Ctx)).stores = _
  rw [if_pos rfl]

theorem added_known (r : StoreRef) :
    knownCerts (loadedWorld (addStore cid r w).2) cid = knownCerts (loadedWorld w) cid ++ certsOf (loadedWorld w) r := by
  show ((addStore cid r w).2.ctxs cid).stores.flatMap (certsOf (loadedWorld w)) = _
  rw [added_stores, List.flatMap_append]
  simp only [List.flatMap_cons, List.flatMap_nil, List.append_nil]
  rfl

/-- The new store does not matter for the others. -/
theorem added_storeVerifyTrust (r s : StoreRef) (chain : List Cert) :
    storeVerifyTrust env cid s chain (addStore cid r w).2 =
      ((storeVerifyTrust env cid s chain w).1, (addStore cid r (storeVerifyTrust env cid s chain w).2).2) := by
  unfold storeVerifyTrust
  cases chain with
  | nil => rfl
  | cons root rest =>
    simp only [List.head?_cons]
    rw [show storeIsTrusted (addStore cid r w).2 s root = storeIsTrusted w s root from by cases s <;> rfl]
    split
    · rfl
    · cases s with
      | embedded _ => rfl
      | heap i =>
        simp only
        rw [show (addStore cid r w).2.stores = w.stores from rfl]
        cases (w.stores i).ctl with
        | none => rfl
        | some ctl =>
          simp only
          unfold ctlVerifyTrust
          simp only [List.head?_cons]
          rw [M.bind_run, M.bind_run, M.lift_run, M.lift_run]
          cases ctl.findSubject env root with
          | error e => rfl
          | ok subj =>
            simp only
            cases subj with
            | none => rfl
            | some subj =>
              simp only
              rw [M.getCtx_bind, M.getCtx_bind]
              have hts : ((addStore cid r w).2.ctxs cid).timestamp = (w.ctxs cid).timestamp := by
                show ((if cid = cid then _ else _ : Ctx)).timestamp = _
                rw [if_pos rfl]
              have hek : ((addStore cid r w).2.ctxs cid).ekus = (w.ctxs cid).ekus := by
                show ((if cid = cid then _ else _ : Ctx)).ekus = _
                rw [if_pos rfl]
              have htake : takeEkus cid (addStore cid r w).2 = ((takeEkus cid w).1, (addStore cid r (takeEkus cid w).2).2) := by
                unfold takeEkus
                rw [M.getCtx_bind, M.getCtx_bind, hek]
                split
                · refine Prod.ext rfl ?_
                  show (World.mk _ _ _ _) = World.mk _ _ _ _
                  congr 1
                  funext j
                  by_cases hj : j = cid
                  · subst hj
                    simp [addStore, M.setCtx, M.bind_run, M.getCtx, M.pure_run]
                  · simp [addStore, M.setCtx, M.bind_run, M.getCtx, hj, M.pure_run]
                · rfl
              rw [M.bind_run, M.bind_run, htake, hts]
              rcases takeEkus cid w with ⟨x, w2⟩
              cases x <;> rfl

theorem added_loop (r : StoreRef) (chain : List Cert) : ∀ (rs more : List StoreRef) (exc : Option Exc) (w : World),
    (verifyTrustLoop env cid chain rs exc w).1 = .ok () → (verifyTrustLoop env cid chain (rs ++ more) exc (addStore cid r w).2).1 = .ok ()
  | [], _, exc, w, h => by cases exc <;> cases h
  | s :: rs, more, exc, w, h => by
    rw [List.cons_append]
    unfold verifyTrustLoop at h ⊢
    rw [added_storeVerifyTrust]
    rcases hs : storeVerifyTrust env cid s chain w with ⟨x, w2⟩
    rw [hs] at h
    cases x with
    | ok _ => rfl
    | error e =>
      simp only at h ⊢
      split at h
      · rename_i h1
        rw [if_pos h1]
        exact added_loop r chain rs more exc w2 h
      · rename_i h1
        rw [if_neg h1]
        split at h
        · rename_i h2
          rw [if_pos h2]
          exact added_loop r chain rs more (some e) w2 h
        · cases h

/-! ## add_store -/

/-- The certificates found before are found again, in the same order; then come those of the new store that are not among them. -/
theorem C84_add_store_found (r : StoreRef) (q : Query) (hf : LoadsFine w cid) (hf' : LoadsFine (addStore cid r w).2 cid) :
    ∃ l l', (ctxFind env cid q w).1 = .ok l ∧ (ctxFind env cid q (addStore cid r w).2).1 = .ok (l ++ l') ∧
      l'.Sublist (certsOf (loadedWorld w) r) ∧ (∀ c ∈ l', Meets env q c ∧ ∀ d ∈ l, ¬ SameCert d c) ∧
      ∀ c ∈ certsOf (loadedWorld w) r, Meets env q c → ∃ d ∈ l ++ l', SameCert c d := by
  have h := (ctxFind_loading env cid q w hf).1
  have h' := (ctxFind_loading env cid q _ hf').1
  rw [ctxFind_loaded env cid q (loadedWorld w) (fun r _ => loadedWorld_loadedStore w r)] at h
  rw [ctxFind_loaded env cid q (loadedWorld (addStore cid r w).2) (fun r _ => loadedWorld_loadedStore _ r), added_known, List.filter_append,
    newOnes_append] at h'
  refine ⟨_, _, h, h', (newOnes_sublist _ _).trans List.filter_sublist, fun c hc => ?_, fun c hc hm => ?_⟩
  · obtain ⟨h1, h2⟩ := mem_newOnes hc
    rw [List.nil_append] at h2
    exact ⟨matches_iff.1 (List.mem_filter.1 h1).2, fun d hd hs => certIn_false.1 h2 d hd hs.symm⟩
  · rcases newOnes_complete (seen := [] ++ newOnes [] ((knownCerts (loadedWorld w) cid).filter (q.matches env)))
      (List.mem_filter.2 ⟨hc, matches_iff.2 hm⟩) with h | ⟨d, hd, hs⟩
    · obtain ⟨d, hd, hs⟩ := h
      exact ⟨d, List.mem_append_left _ hd, hs⟩
    · exact ⟨d, List.mem_append_right _ hd, hs⟩

/-- The same certificates are trusted, and those of the new store if it is a trusted one. -/
theorem C84_add_store_trusted (r : StoreRef) (c : Cert) :
    ctxIsTrusted (addStore cid r w).2 cid c = (ctxIsTrusted w cid c || storeIsTrusted w r c) := by
  unfold ctxIsTrusted
  rw [added_stores, List.any_append]
  simp only [List.any_cons, List.any_nil, Bool.or_false]
  have he : ∀ s, storeIsTrusted (addStore cid r w).2 s c = storeIsTrusted w s c := by
    intro s
    cases s <;> rfl
  simp only [he]

/-- A chain that was trusted still is. -/
theorem C84_add_store_verify_trust (r : StoreRef) (chain : List Cert) (h : (ctxVerifyTrust env cid chain w).1 = .ok ()) :
    (ctxVerifyTrust env cid chain (addStore cid r w).2).1 = .ok () := by
  unfold ctxVerifyTrust at h ⊢
  rw [M.getCtx_bind] at h ⊢
  rw [added_stores]
  exact added_loop env cid r chain _ [r] none w h

theorem added_inTrusted (r : StoreRef) (hu : storeTrusted w r = false) (c : Cert) : InTrustedStore (addStore cid r w).2 cid c ↔ InTrustedStore w cid c := by
  rw [← ctxIsTrusted_iff, ← ctxIsTrusted_iff, C84_add_store_trusted]
  have : storeIsTrusted w r c = false := by
    cases r with
    | embedded _ => rfl
    | heap i => show (_ && _) = false; rw [show (w.stores i).trusted = false from hu]; rfl
  rw [this, Bool.or_false]

/-- If the new store is not a trusted one, the potential chains found before are found again. -/
theorem C84_add_store_chains (r : StoreRef) (hu : storeTrusted w r = false) (hl : Loaded w cid) (hr : LoadedStore w r) (depth : Nat) (c : Cert) :
    ∃ l l', (potentialChains env cid depth c w).1 = .ok l ∧ (potentialChains env cid depth c (addStore cid r w).2).1 = .ok l' ∧
      ∀ chain ∈ l, chain ∈ l' := by
  obtain ⟨l, h1, h2⟩ := C42_potential_chains env cid w hl depth c
  have hl' : Loaded (addStore cid r w).2 cid := by
    intro s hs
    rw [added_stores] at hs
    rcases List.mem_append.1 hs with hs | hs
    · exact loadedStore_congr (w := w) rfl (hl s hs)
    · rw [List.mem_singleton.1 hs]
      exact loadedStore_congr (w := w) rfl hr
  obtain ⟨l', h1', h2'⟩ := C42_potential_chains env cid _ hl' depth c
  refine ⟨l, l', by rw [h1], by rw [h1'], fun chain hc => ?_⟩
  obtain ⟨p1, ⟨root, rest, p2, p3, p4⟩, p5, p6, p7, p8⟩ := (h2 chain).1 hc
  refine (h2' chain).2 ⟨p1, ⟨root, rest, p2, (added_inTrusted cid w r hu root).2 p3, fun d hd => fun h => p4 d hd ((added_inTrusted cid w r hu d).1 h)⟩,
    p5, p6, fun d hd => ?_, p8⟩
  obtain ⟨pre, post, e, hp⟩ := p7 d hd
  refine ⟨pre, post ++ certsOf w r, ?_, hp⟩
  have : knownCerts (addStore cid r w).2 cid = knownCerts w cid ++ certsOf w r := by
    show ((addStore cid r w).2.ctxs cid).stores.flatMap (certsOf w) = _
    rw [added_stores, List.flatMap_append]
    simp only [List.flatMap_cons, List.flatMap_nil, List.append_nil]
    rfl
  rw [this, e, List.append_assoc, List.cons_append]

/-- If it is a trusted one, a chain may be replaced by a shorter one: a chain ends with the first trusted certificate. -/
theorem C84_trusted_store_chains_false :
    ¬ ∀ (env : Env) (cid : Nat) (w : World) (r : StoreRef) (depth : Nat) (c : Cert) (l l' : List (List Cert)), Loaded w cid → LoadedStore w r →
      (potentialChains env cid depth c w).1 = .ok l → (potentialChains env cid depth c (addStore cid r w).2).1 = .ok l' → ∀ chain ∈ l, chain ∈ l' := by
  intro h
  let w : World := { exWorld with stores := fun i => if i = 0 then exStoreT else if i = 1 then exStoreU else ⟨[exInter], true, none, none⟩ }
  have hl : Loaded w 0 := by
    intro r hr
    simp only [w, exWorld, exCtx, List.mem_cons, List.not_mem_nil, or_false] at hr
    rcases hr with rfl | rfl <;> simp [LoadedStore, w, exStoreT, exStoreU]
  have := h exEnv 0 w (.heap 2) 10 exLeaf [[exRoot, exInter, exLeaf], [exRoot, exInter, exCrossB, exCrossA, exLeaf]]
    [[exInter, exLeaf], [exInter, exCrossB, exCrossA, exLeaf]] hl (by simp [LoadedStore, w]) (by decide +kernel) (by decide +kernel)
    [exRoot, exInter, exLeaf] (by decide +kernel)
  revert this
  decide +kernel

/-- Verification with another context has the same outcome, before and after. -/
theorem C84_add_store_others (r : StoreRef) (j : Nat) (hj : j ≠ cid) (hr : Readable w (w.ctxs j)) (c : Cert) :
    (ctxVerify env j c (addStore cid r w).2).1 = (ctxVerify env j c w).1 := by
  refine inContext_run (Uniform.ctxVerify env c) hr ⟨j, w, rfl, rfl, rfl⟩ ?_ (fun _ => .inl rfl)
  show (if j = cid then _ else _) = _
  rw [if_neg hj]

/-! ## append -/

theorem appended_ctxs (i : Nat) (c : Cert) : (storeAppend i c w).2.ctxs = w.ctxs := rfl

theorem appended_store (i : Nat) (c : Cert) : (storeAppend i c w).2.stores i = { w.stores i with items := (w.stores i).items ++ [c] } := by
  show (if i = i then _ else _) = _
  rw [if_pos rfl]

theorem appended_other (i j : Nat) (c : Cert) (h : j ≠ i) : (storeAppend i c w).2.stores j = w.stores j := by
  show (if j = i then _ else _) = _
  rw [if_neg h]

/-- A certificate appended to a store comes last; if the store is one of files that have not been read yet, it comes before those in the files. -/
theorem C84_append_order (i : Nat) (c : Cert) :
    (∀ certs, (iterStore (.heap i) w).1 = .ok certs → (w.stores i).pending = none →
      (iterStore (.heap i) (storeAppend i c w).2).1 = .ok (certs ++ [c])) ∧
    (∀ files, (w.stores i).pending = some (files, none) →
      (iterStore (.heap i) (storeAppend i c w).2).1 = .ok ((w.stores i).items ++ c :: files)) := by
  constructor
  · intro certs h hp
    rw [iterStore_loaded (w := w) (r := .heap i) hp] at h
    cases h
    rw [iterStore_loaded (r := .heap i) (by show ((storeAppend i c w).2.stores i).pending = none; rw [appended_store]; exact hp)]
    show Except.ok ((storeAppend i c w).2.stores i).items = _
    rw [appended_store]
    rfl
  · intro files hp
    unfold iterStore
    simp only
    rw [M.bind_run, M.getStore_run]
    simp only [appended_store, hp]
    show Except.ok (((w.stores i).items ++ [c]) ++ files) = _
    rw [List.append_assoc]
    rfl

theorem appended_known (i : Nat) (c x : Cert) : x ∈ knownCerts (loadedWorld (storeAppend i c w).2) cid ↔
    x ∈ knownCerts (loadedWorld w) cid ∨ (.heap i ∈ (w.ctxs cid).stores ∧ x = c) := by
  unfold knownCerts
  rw [show (loadedWorld (storeAppend i c w).2).ctxs = w.ctxs from rfl, show (loadedWorld w).ctxs = w.ctxs from rfl]
  have key : ∀ r, x ∈ certsOf (loadedWorld (storeAppend i c w).2) r ↔ x ∈ certsOf (loadedWorld w) r ∨ (r = .heap i ∧ x = c) := by
    intro r
    cases r with
    | embedded l => exact ⟨.inl, fun h => h.elim id (fun h => by cases h.1)⟩
    | heap j =>
      by_cases hj : j = i
      · subst hj
        show x ∈ (Store.loaded ((storeAppend j c w).2.stores j)).items ↔ x ∈ (Store.loaded (w.stores j)).items ∨ _
        rw [appended_store]
        unfold Store.loaded
        cases (w.stores j).pending with
        | none => simp
        | some p => simp only [List.mem_append, List.mem_singleton, true_and]; constructor <;> (intro h; rcases h with (h | h) | h <;> simp [h])
      · show x ∈ (Store.loaded ((storeAppend i c w).2.stores j)).items ↔ x ∈ (Store.loaded (w.stores j)).items ∨ _
        rw [appended_other w i j c hj]
        exact ⟨.inl, fun h => h.elim id (fun h => absurd (StoreRef.heap.inj h.1) hj)⟩
  constructor
  · intro h
    obtain ⟨r, hr, hx⟩ := List.mem_flatMap.1 h
    rcases (key r).1 hx with hx | ⟨rfl, hxc⟩
    · exact .inl (List.mem_flatMap.2 ⟨r, hr, hx⟩)
    · exact .inr ⟨hr, hxc⟩
  · rintro (h | ⟨hr, hx⟩)
    · obtain ⟨r, hr, hx⟩ := List.mem_flatMap.1 h
      exact List.mem_flatMap.2 ⟨r, hr, (key r).2 (.inl hx)⟩
    · exact List.mem_flatMap.2 ⟨_, hr, (key _).2 (.inr ⟨rfl, hx⟩)⟩

/-- All contexts that use the store find it (unless they know the same certificate already), what they found before, and nothing else. -/
theorem C84_append_found (i : Nat) (c : Cert) (q : Query) (hf : LoadsFine w cid) :
    ∃ l l', (ctxFind env cid q w).1 = .ok l ∧ (ctxFind env cid q (storeAppend i c w).2).1 = .ok l' ∧
      (∀ d ∈ l, ∃ d' ∈ l', SameCert d d') ∧ (.heap i ∈ (w.ctxs cid).stores → Meets env q c → ∃ d' ∈ l', SameCert c d') ∧
      ∀ d' ∈ l', (d' = c ∧ .heap i ∈ (w.ctxs cid).stores ∧ Meets env q c) ∨ ∃ d ∈ l, SameCert d d' := by
  have hf' : LoadsFine (storeAppend i c w).2 cid := by
    intro r hr j hj certs e hp
    by_cases hji : j = i
    · subst hji
      rw [appended_store] at hp
      exact hf r hr j hj certs e hp
    · rw [appended_other w i j c hji] at hp
      exact hf r hr j hj certs e hp
  obtain ⟨l, hl, ho⟩ := C41_context env cid q w hf
  obtain ⟨l', hl', ho'⟩ := C41_context env cid q _ hf'
  refine ⟨l, l', hl, hl', fun d hd => ?_, fun hi hm => ?_, fun d hd => ?_⟩
  · exact ho'.complete d ((appended_known cid w i c d).2 (.inl (ho.ordered.subset hd))) (ho.sound d hd)
  · exact ho'.complete c ((appended_known cid w i c c).2 (.inr ⟨hi, rfl⟩)) hm
  · rcases (appended_known cid w i c d).1 (ho'.ordered.subset hd) with h | ⟨hi, rfl⟩
    · obtain ⟨x, hx, hs⟩ := ho.complete d h (ho'.sound d hd)
      exact .inr ⟨x, hx, hs.symm⟩
    · exact .inl ⟨rfl, hi, ho'.sound d hd⟩

/-- All contexts that use the store trust it, if the store is a trusted one; the trust in other certificates does not change. -/
theorem C84_append_trusted (i : Nat) (c x : Cert) : ctxIsTrusted (storeAppend i c w).2 cid x = true ↔
    ctxIsTrusted w cid x = true ∨ (.heap i ∈ (w.ctxs cid).stores ∧ (w.stores i).trusted = true ∧ SameCert x c) := by
  rw [ctxIsTrusted_iff, ctxIsTrusted_iff]
  unfold InTrustedStore
  rw [appended_ctxs]
  constructor
  · rintro ⟨j, h1, h2, d, h3, h4⟩
    by_cases hj : j = i
    · subst hj
      rw [appended_store] at h2 h3
      rcases List.mem_append.1 h3 with h3 | h3
      · exact .inl ⟨j, h1, h2, d, h3, h4⟩
      · rw [List.mem_singleton.1 h3] at h4
        exact .inr ⟨h1, h2, h4⟩
    · rw [appended_other w i j c hj] at h2 h3
      exact .inl ⟨j, h1, h2, d, h3, h4⟩
  · rintro (⟨j, h1, h2, d, h3, h4⟩ | ⟨h1, h2, h3⟩)
    · by_cases hj : j = i
      · subst hj
        exact ⟨j, h1, by rw [appended_store]; exact h2, d, by rw [appended_store]; exact List.mem_append_left _ h3, h4⟩
      · exact ⟨j, h1, by rw [appended_other w i j c hj]; exact h2, d, by rw [appended_other w i j c hj]; exact h3, h4⟩
    · exact ⟨i, h1, by rw [appended_store]; exact h2, c, by rw [appended_store]; exact List.mem_append_right _ (List.mem_singleton.2 rfl), h3⟩

/-- A chain that was trusted still is, provided that the store has no trust list, or one with a supported digest algorithm. -/
theorem C84_append_verify_trust (i : Nat) (c : Cert) (chain : List Cert) (hne : chain ≠ []) (hr : ∀ l, (w.ctxs cid).ekus ≠ .gen l)
    (hs : ∀ ctl, (w.stores i).ctl = some ctl → ctl.algorithm = "sha1" ∨ ctl.algorithm = "sha256")
    (h : (ctxVerifyTrust env cid chain w).1 = .ok ()) : (ctxVerifyTrust env cid chain (storeAppend i c w).2).1 = .ok () := by
  obtain ⟨pre, r, post, e, ha, hp⟩ := (C37_exact env cid chain hne w hr).1.1 h
  refine (C37_exact env cid chain hne (storeAppend i c w).2 hr).1.2 ⟨pre, r, post, e, ?_, fun q hq => ⟨fun hu => ?_, fun hu => ?_⟩⟩
  · obtain ⟨j, root, rfl, h1, h2, ⟨d, h3, h4⟩, h5⟩ := ha
    by_cases hj : j = i
    · subst hj
      exact ⟨j, root, rfl, by rw [appended_store]; exact h1, h2, ⟨d, by rw [appended_store]; exact List.mem_append_left _ h3, h4⟩,
        by rw [appended_store]; exact h5⟩
    · exact ⟨j, root, rfl, by rw [appended_other w i j c hj]; exact h1, h2, ⟨d, by rw [appended_other w i j c hj]; exact h3, h4⟩,
        by rw [appended_other w i j c hj]; exact h5⟩
  · obtain ⟨h1, j, ctl, rfl, h2, h3⟩ := hu
    by_cases hj : j = i
    · subst hj
      rw [appended_store] at h2
      exact h3 (hs ctl h2)
    · refine (hp _ hq).1 ⟨?_, j, ctl, rfl, by rw [appended_other w i j c hj] at h2; exact h2, h3⟩
      obtain ⟨k, root, hk, a1, a2, a3⟩ := h1
      obtain rfl := StoreRef.heap.inj hk
      rw [appended_other w i j c hj] at a1 a3
      exact ⟨j, root, rfl, a1, a2, a3⟩
  · -- a store that has to name the root had to before
    obtain ⟨root, h1, h2, h3⟩ := hu
    refine (hp _ hq).2 ⟨root, h1, h2, ?_⟩
    by_cases hb : StoreHasRoot w q chain
    · right
      obtain ⟨j, root', rfl, b1, b2, d, b3, b4⟩ := id hb
      have hst : (((storeAppend i c w).2).stores j).ctl = (w.stores j).ctl ∧ (((storeAppend i c w).2).stores j).trusted = (w.stores j).trusted ∧
          ∀ x ∈ (w.stores j).items, x ∈ (((storeAppend i c w).2).stores j).items := by
        by_cases hj : j = i
        · subst hj
          rw [appended_store]
          exact ⟨rfl, rfl, fun x hx => List.mem_append_left _ hx⟩
        · rw [appended_other w i j c hj]
          exact ⟨rfl, rfl, fun _ hx => hx⟩
      rcases h3 with h3 | ⟨k, ctl, hk, -, h4, h5, h6⟩
      · exact absurd ⟨j, root', rfl, by rw [hst.2.1]; exact b1, b2, d, hst.2.2 d b3, b4⟩ h3
      · obtain rfl := StoreRef.heap.inj hk
        exact ⟨j, ctl, rfl, hb, by rw [← hst.1]; exact h4, h5, h6⟩
    · exact .inl hb

/-! ## Examples -/

/-- Two contexts that know the untrusted store only; store 0, with the anchor, has not been read yet. -/
def exGrow : World := { exLazy with ctxs := fun _ => exCtx [.heap 1] }

theorem exGrow_fine : LoadsFine exGrow 0 ∧ LoadsFine (addStore 0 (.heap 0) exGrow).2 0 ∧ Readable exGrow (exGrow.ctxs 1) := by
  refine ⟨?_, ?_, ?_⟩
  · intro r hr i hi certs e he
    simp only [exGrow, exLazy, exCtx, List.mem_cons, List.not_mem_nil, or_false] at hr
    subst hr
    obtain rfl := StoreRef.heap.inj hi
    simp [exGrow, exLazy, exStoreU] at he
  · intro r hr i hi certs e he
    simp only [added_stores, exGrow, exLazy, exCtx, List.cons_append, List.nil_append, List.mem_cons, List.not_mem_nil, or_false] at hr
    rcases hr with rfl | rfl
    · obtain rfl := StoreRef.heap.inj hi
      simp [addStore, M.bind_run, M.getCtx, M.setCtx, exGrow, exLazy, exStoreU] at he
    · obtain rfl := StoreRef.heap.inj hi
      simp [addStore, M.bind_run, M.getCtx, M.setCtx, exGrow, exLazy] at he
      exact he.2.symm
  · intro i hi certs e he
    simp only [exGrow, exLazy, exCtx, List.mem_cons, List.not_mem_nil, or_false] at hi
    obtain rfl := StoreRef.heap.inj hi
    simp [exGrow, exLazy, exStoreU] at he

/-- The store of the anchor is added to one of them: that one finds the anchor after what it found before, and verifies the leaf; the other one
still does not. -/
example : (ctxFind exEnv 0 { } exGrow).1 = .ok [exInter, exLeaf, exCrossA, exCrossB] ∧
    (ctxFind exEnv 0 { } (addStore 0 (.heap 0) exGrow).2).1 = .ok [exInter, exLeaf, exCrossA, exCrossB, exRoot] ∧
    (ctxVerify exEnv 0 exLeaf exGrow).1.toOption = none ∧
    (ctxVerify exEnv 0 exLeaf (addStore 0 (.heap 0) exGrow).2).1 = .ok [exRoot, exInter, exLeaf] ∧
    (ctxVerify exEnv 1 exLeaf (addStore 0 (.heap 0) exGrow).2).1.toOption = none := by decide +kernel

/-- An untrusted store added to a context that has the anchor only. -/
example : let w : World := { exWorld with ctxs := fun _ => exCtx [.heap 0] }
    Loaded w 0 ∧ LoadedStore w (.heap 1) ∧ storeTrusted w (.heap 1) = false ∧ (ctxVerifyTrust exEnv 0 [exRoot, exInter, exLeaf] w).1 = .ok () ∧
    (potentialChains exEnv 0 10 exInter w).1 = .ok [[exRoot, exInter]] ∧
    (potentialChains exEnv 0 10 exInter (addStore 0 (.heap 1) w).2).1.toOption.map (·.length) = some 1 ∧
    (potentialChains exEnv 0 10 exLeaf w).1 = .ok [] ∧
    (potentialChains exEnv 0 10 exLeaf (addStore 0 (.heap 1) w).2).1.toOption.map (·.length) = some 2 := by
  refine ⟨?_, by simp [LoadedStore, exWorld, exStoreU], by decide +kernel, by decide +kernel, by decide +kernel, by decide +kernel, by decide +kernel,
    by decide +kernel⟩
  intro r hr
  simp only [exWorld, exCtx, List.mem_cons, List.not_mem_nil, or_false] at hr
  subst hr
  simp [LoadedStore, exWorld, exStoreT]

/-- A certificate appended to the trusted store, before and after its files have been read. -/
example : LoadsFine exLazy 0 ∧ (∀ l, (exLazy.ctxs 0).ekus ≠ .gen l) ∧ (exLazy.stores 0).ctl = none ∧
    (iterStore (.heap 0) (storeAppend 0 exCrossA exLazy).2).1 = .ok [exCrossA, exRoot] ∧
    (iterStore (.heap 0) (storeAppend 0 exCrossA exWorld).2).1 = .ok [exRoot, exCrossA] ∧
    ctxIsTrusted exWorld 0 exCrossA = false ∧ ctxIsTrusted (storeAppend 0 exCrossA exWorld).2 0 exCrossA = true ∧
    (ctxVerifyTrust exEnv 0 [exRoot, exInter, exLeaf] exWorld).1 = .ok () :=
  ⟨exLazy_fine, fun l h => (by cases h), rfl, by decide +kernel, by decide +kernel, by decide +kernel, by decide +kernel, by decide +kernel⟩

example := C84_add_store_found (env := exEnv) (w := exGrow) (cid := 0) (.heap 0) { } exGrow_fine.1 exGrow_fine.2.1
example := C84_add_store_others (env := exEnv) (w := exGrow) (cid := 0) (.heap 0) 1 (by decide) exGrow_fine.2.2 exLeaf
example := C84_add_store_verify_trust (env := exEnv) (w := exWorld) (cid := 0) (.heap 1) [exRoot, exInter, exLeaf] (by decide +kernel)
example := C84_append_found (env := exEnv) (w := exLazy) (cid := 0) 0 exCrossA { } exLazy_fine
example := C84_append_verify_trust (env := exEnv) (w := exWorld) (cid := 0) 0 exCrossA [exRoot, exInter, exLeaf] (by decide) (fun l h => by cases h)
  (fun _ h => by cases h) (by decide +kernel)

end Signify.Props
