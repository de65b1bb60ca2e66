/-
C59: the chain of evidence behind a verified PE file.
-/
import Verif.Spec.Custody
import Verif.Props.PEFile

set_option autoImplicit false

namespace Signify.Props

open Signify Spec

/-- The calls behind the signatures returned. -/
theorem attempts_call {env : Env} {file : Bytes} {provided : Dict String Bytes} {kwargs : VerifyArgs} {w w' : World}
    {l : List (ASD × Except Exc (List (List Cert)))} (h : Attempts env file provided kwargs w l w') (he : ContextsExist w kwargs) :
    ∀ a c, (a, Except.ok c) ∈ l → ∃ d w1 w2, DigestFor env file provided a.d.core.digestAlg d ∧ ContextsExist w1 kwargs ∧
      (∀ i, StoreStep (w.stores i) (w1.stores i)) ∧ (∀ i, StoreStep (w.stores i) (w2.stores i)) ∧
      asdVerify env (some file) a.d { kwargs with expectedHash := some d } w1 = (.ok c, w2) := by
  induction h with
  | nil w => intro a c h; cases h
  | cons a d w w' l hd _ ih =>
    intro b c hm
    have he' := contextsExist_expected he (some d)
    have hg := asdVerify_grows env (some file) a.d { kwargs with expectedHash := some d } w he'
    rcases List.mem_cons.1 hm with hm | hm
    · injection hm with h1 h2
      subst h1
      obtain ⟨w1, h3⟩ := exists_ok h2.symm
      refine ⟨d, w, w1, hd, he, fun i => .inl rfl, fun i => ?_, h3⟩
      have := hg.stores i
      rw [h3] at this
      exact this
    · obtain ⟨d', w1, w2, h1, h2, h3, h4, h5⟩ := ih (he.grows hg) b c hm
      exact ⟨d', w1, w2, h1, h2, fun i => (hg.stores i).trans (h3 i), fun i => (hg.stores i).trans (h4 i), h5⟩

theorem certsOf_step {w w' : World} {r : StoreRef} (hs : ∀ i, StoreStep (w.stores i) (w'.stores i)) (hl : LoadedStore w' r) :
    certsOf w' r = trustedCerts w r := by
  cases r with
  | embedded _ => rfl
  | heap i =>
    show (w'.stores i).items = (Spec.Store.loaded (w.stores i)).items
    rw [← (hs i).loaded_eq, loaded_of_none hl]

/-- C59: if `verify` (with the trusted store given and without expected hashes) returns, there is complete evidence for every signature
and every chain returned. -/
theorem C59_evidence (env : Env) (cd : Codec) (file : Bytes) (args : PEVerifyArgs) (w : World)
    (hc : args.kwargs.context = none) (hcs : ∀ c, args.kwargs.csContext = some c → c < w.nextCtx)
    (hn : args.expectedHashes = none) (res : List (ASD × List (List Cert))) (h : (peVerify env cd file args w).1 = .ok res) :
    res ≠ [] ∧ ∀ p ∈ res, ∃ sd si alg b, ReadsASD cd sd p.1 ∧ Evidence env cd file sd alg si b ∧ p.2 ≠ [] ∧
      ∀ chain ∈ p.2, ∃ c t, ChainEvidence env w args.kwargs sd alg si b c t chain ∧
        (t = args.kwargs.options.timestamp ∨ ∃ cs, p.1.d.counter = some cs ∧ t = cs.signingTime) := by
  have he : ContextsExist w args.kwargs := ⟨fun c h => (by rw [hc] at h; cases h), hcs⟩
  refine ⟨(C55_authentic env cd file args w he hn res h).1, ?_⟩
  rintro ⟨⟨d, nested⟩, chains⟩ hpr
  obtain ⟨sds, hcon, hne, hp⟩ := peVerify_ok h
  obtain ⟨sel, tried, rest, w0, h1, h2, h3, h4, h5⟩ := C16_outcome env cd file args w sds hcon hne hp
  have he0 : ContextsExist w0 args.kwargs := ⟨fun c hc => (by rw [h3.2.2]; exact he.context c hc), fun c hc => (by rw [h3.2.2]; exact he.csContext c hc)⟩
  obtain ⟨dig, w1, w2, k1, k2, k3, k4, k5⟩ := attempts_call h4 he0 _ _ (overall_returned h5 h _ hpr)
  rw [h3.1] at k3 k4
  have hk := contextsExist_expected k2 (some dig)
  obtain ⟨⟨s, hsig, herr⟩, -⟩ : (∃ err, Signatures cd file sds err ∧ _) ∧ True := ⟨hcon, trivial⟩
  have hmem : (ASD.mk d nested) ∈ sds := by
    obtain ⟨⟨sds', hcon', hm⟩, -⟩ := (C55_authentic env cd file args w he hn res h).2 _ hpr
    obtain ⟨err', hs', he'⟩ := hcon'
    obtain ⟨t1, a1, b1⟩ := hs'
    obtain ⟨t2, a2, b2⟩ := hsig
    obtain ⟨rfl, -⟩ := C15_unique cd file t1 t2 err' s a1 a2
    rwa [C15_preorder_unique _ _ _ b1 b2] at hm
  obtain ⟨entry, hent, hrev, htyp, top, sd, henv, hwi, hread⟩ := signature_read hsig hmem
  have hdig := ((C55_authentic env cd file args w he hn res h).2 _ hpr).2 1 (by omega)
  obtain ⟨ga, gg, -, gm, gne, -⟩ := C28_binding _ _ _ _ _ _ _ hk k5
  have gt := C31_time_partial _ _ _ _ _ _ _ hk (.inl hc) k5
  have hwas := hread
  cases hread with
  | @mk _ _ _ si attrs spc sds' core noCrls content rspc oneSigner signer statement opus counter nestedIn all rec =>
    obtain ⟨ra, ha1, ha2, ha3⟩ := core.alg
    simp only [ASD.d] at hdig ga gm gt k5 gne
    have hb : ∃ b, si.head.signedAttrs = some b ∧ cd.attrs b = .ok attrs := by
      rcases signer.decoded with ⟨-, rfl⟩ | hb
      · obtain ⟨_, hx, -⟩ := signer.complete "message_digest" (by simp)
        cases hx
      · exact hb
    obtain ⟨b, hb1, hb2⟩ := hb
    obtain ⟨am, hm1, hm2⟩ : ∃ a, lastAttr attrs "message_digest" = some a ∧ a.values = [.octets (env.hash d.core.digestAlg d.core.content)] := by
      have := signer.messageDigest
      unfold ReadsAttr at this
      rw [gm] at this
      revert this
      cases hl : lastAttr attrs "message_digest" with
      | none => intro this; cases this
      | some a => rintro ⟨y, h1, h2⟩; cases h2; exact ⟨a, rfl, h1⟩
    have hcerts : embeddedCerts sd = d.core.certificates := core.certificates.symm
    refine ⟨sd, si, d.core.digestAlg, b, hwas, ?_, gne, ?_⟩
    · refine { inFile := ⟨entry, hent, hrev, htyp, top, henv, hwi⟩, accepted := ?_, algorithm := ⟨ra.params, ?_⟩, image := ?_, signer := ?_ }
      · rw [ha3]; exact ha2.1
      · rw [ha1, ha3]
      · refine ⟨d.core.content, spc, core.content, by rw [← core.octets]; exact content, rspc.type.1, ?_, ?_, attrs, am, hb2, hm1, hm2⟩
        · rw [← rspc.digestAlg, ← ga.1]
        · rw [← rspc.digest]
          exact (C09_authentihash_iff _ _ _ (by decide) _ _).1 hdig
      · exact ⟨oneSigner, hb1, by rw [← signer.digestAlg, ← ga.2]⟩
    · intro chain hch
      obtain ⟨c, t, hs, hv, ht⟩ := gt chain hch
      refine ⟨c, t, ?_, ?_⟩
      · have hctx : signerContext w1 d { args.kwargs with expectedHash := some dig } =
            contextOf [args.kwargs.trusted, .embedded d.core.certificates] ["code_signing"] args.kwargs.options := by
          unfold signerContext
          simp only [hc]
        rw [hctx] at hs hv
        have hl : LoadedStore w2 args.kwargs.trusted := hv.loaded _ (by simp [contextOf])
        have hcert := certsOf_step k4 hl
        obtain ⟨r, hr, ekus, hg, i, root, rfl, m1, m2, m3, m4⟩ := hv.anchored
        have hri : args.kwargs.trusted = .heap i := by
          simp only [contextOf, List.mem_cons, List.not_mem_nil, or_false] at hr
          rcases hr with hr | hr
          · exact hr.symm
          · cases hr
        have hek : ∀ l, Given (contextOf [args.kwargs.trusted, .embedded d.core.certificates] ["code_signing"] args.kwargs.options).ekus l →
            l = ["code_signing"] := by
          rintro l (h | ⟨-, g, hg⟩)
          · exact h
          · cases hg
        obtain rfl := hek _ hg
        refine { known := ?_, named := ?_, signature := ?_, anchored := ?_, members := ?_, validated := ?_ }
        · obtain ⟨r, hr, hk⟩ := hs.named.known
          simp only [contextOf, List.mem_cons, List.not_mem_nil, or_false] at hr
          rcases hr with rfl | rfl
          · rw [hcert] at hk; exact .inl hk
          · rw [hcerts]; exact .inr hk
        · rw [← signer.issuer, ← signer.serial]; exact ⟨hs.named.issuer, hs.named.serial⟩
        · refine ⟨d.signer.encodedAuth, ?_, ?_⟩
          · have := signer.encoded
            rwa [hb1] at this
          · have := hs.signature
            rw [← ga.2, signer.signature] at this
            exact this
        · refine ⟨i, root, hri, ?_, m2, ?_, ?_⟩
          · rw [← (k4 i).trusted]; exact m1
          · rw [← hcert, hri]; exact m3
          · intro ctl hctl
            exact m4 ctl (by rw [(k4 i).ctl]; exact hctl)
        · intro x hx
          rcases hv.members x hx with h | ⟨r, hr, hk⟩
          · exact .inl h
          · simp only [contextOf, List.mem_cons, List.not_mem_nil, or_false] at hr
            rcases hr with rfl | rfl
            · rw [hcert] at hk; exact .inr (.inl hk)
            · rw [hcerts]; exact .inr (.inr hk)
        · obtain ⟨kus, ekus, n1, n2, n3⟩ := hv.answer
          obtain rfl := hek _ n2
          have hku : kus = args.kwargs.options.keyUsages.getD [] := by
            rcases n1 with h | ⟨-, g, hg⟩
            · rw [h]
              unfold contextOf
              cases args.kwargs.options.keyUsages <;> rfl
            · unfold contextOf at hg
              cases hx : args.kwargs.options.keyUsages <;> rw [hx] at hg <;> cases hg
          rw [← n3, hku, hcerts, ← hcert, hri]
          have ht : storeTrusted w2 (.heap i) = true := m1
          have hte : storeTrusted w2 (.embedded d.core.certificates) = false := rfl
          congr 1
          unfold requestFor contextOf
          simp only [List.filter_cons, ht, hte, if_true, Bool.not_true, Bool.not_false, Bool.false_eq_true, if_false, List.filter_nil,
            List.flatMap_cons, List.flatMap_nil, List.append_nil]
          rfl
      · rcases ht with ht | ⟨cs, h1, -, h2, -⟩
        · left
          rw [ht]
          unfold signerContext
          simp only [hc]
          rfl
        · exact .inr ⟨cs, h1, h2⟩

theorem exOutcome_length {r : Except Exc (List (ASD × List (List Cert)))} {x : List ((String × Bytes) × List (List Nat))}
    {res : List (ASD × List (List Cert))} (h : r = .ok res) (h' : exOutcome r = .ok x) : res.length = x.length := by
  subst h
  injection h' with h'
  rw [← h', List.length_map]

/-- A file with two signatures, for which this is so. -/
example : ∃ res, (peVerify exPEEnv exPECodec (exTwice 1 2 [7, 7, 7]) (exPEArgs "all") exWorld).1 = .ok res ∧ res.length = 2 ∧
    ∀ p ∈ res, ∃ sd si alg b, ReadsASD exPECodec sd p.1 ∧ Evidence exPEEnv exPECodec (exTwice 1 2 [7, 7, 7]) sd alg si b ∧
      ∀ chain ∈ p.2, ∃ c t, ChainEvidence exPEEnv exWorld (exPEArgs "all").kwargs sd alg si b c t chain := by
  obtain ⟨res, h⟩ := exOutcome_ok exTwice_all
  have hl : res.length = 2 := exOutcome_length h exTwice_all
  refine ⟨res, h, hl, fun p hp => ?_⟩
  obtain ⟨sd, si, alg, b, h1, h2, -, h3⟩ := (C59_evidence exPEEnv exPECodec _ (exPEArgs "all") exWorld rfl (fun _ h => (by cases h)) rfl res h).2 p hp
  refine ⟨sd, si, alg, b, h1, h2, fun chain hc => ?_⟩
  obtain ⟨c, t, h4, -⟩ := h3 chain hc
  exact ⟨c, t, h4⟩

end Signify.Props
