/-
Time that passes while a file is verified (C100).
-/
import Verif.Proofs.MomentsFile
import Verif.Props.Moments
import Verif.Props.Custody

set_option autoImplicit false

namespace Signify.Props

open Signify Spec

/-- The verification of a file while time passes: as in C16, the signatures selected are verified one after the other, each at its own
moments, and the outcome depends on the mode. -/
theorem C100_outcome (env : Env) (m : Nat → SignatureMoments) (cd : Codec) (file : Bytes) (args : PEVerifyArgs) (w : World) (sds : List ASD)
    (h : Considered cd file args.ignoreParseErrors sds) (hne : sds ≠ []) (hp : HashNames (providedBy w args)) :
    ∃ sel tried rest w0, Selected args.multiVerifyMode sds sel ∧ sel = tried.map Prod.fst ++ rest ∧ ExceptDicts w w0 ∧
      AttemptsAt env m file (providedBy w args) args.kwargs rest.length w0 tried (peVerifyT env m cd file args w).2 ∧
      Overall args.multiVerifyMode tried rest (peVerifyT env m cd file args w).1 := by
  obtain ⟨oho, ohs, dir, hh⟩ := header_of_considered h hne
  obtain ⟨d, tried, rest, w', -, h2, h3, h4, h5⟩ := peVerifyT_signed env m cd file args w h hne hp hh
  refine ⟨_, tried, rest, withHashes w args.expectedHashes d, (selected_iff hne (fun x hx => considered_alg h hx)).2 rfl, h2,
    withHashes_except w _ d, ?_, h4⟩
  rw [h5]; exact h3

theorem validSignature_same {env env' : Env} (h : SameButClock env env') {c : Cert} {sig der : Bytes} {alg : String} {legacy : Bool}
    (hv : ValidSignature env c sig der alg legacy) : ValidSignature env' c sig der alg legacy := by
  obtain ⟨kind, h1, h2, h3⟩ := hv
  refine ⟨kind, by rw [h.loadKey]; exact h1, h2, ?_⟩
  rw [h.pkVerify, h.rawVerify, h.hash]
  exact h3

theorem chains_moving {env : Env} {m : SignatureMoments} (hfc : ∀ c, Forward (m.counter c)) (hfs : ∀ c, Forward (m.signer c))
    {file : Option Bytes} {a : AuthData} {args : VerifyArgs} {w w' : World} {chains : List (List Cert)} (he : ContextsExist w args)
    (hsep : SeparateContexts args) (h : asdVerifyT env m file a args w = (.ok chains, w')) :
    DigestsMatch env file a args.expectedHash ∧ chains ≠ [] ∧ ∀ chain ∈ chains, ∃ c t, SignedBy env w' (signerContext w a args) a.signer c ∧
      Validated (m.signer c).start w' (signerContext w a args) t c chain ∧
      (t = (signerContext w a args).timestamp ∨ ∃ cs, a.counter = some cs ∧ t = cs.signingTime) := by
  obtain ⟨hd, hne, t, ts, h1, h2, h3, h4⟩ := C100_sound env m hfc hfs file a args w w' chains he h
  refine ⟨hd, hne, fun chain hch => ?_⟩
  obtain ⟨c, t', k1, k2, k3, k4⟩ := h4 chain hch
  refine ⟨c, t', k1, k2, ?_⟩
  have hts := h1 hsep
  have ht : t = none ∨ ∃ cs, a.counter = some cs ∧ t = cs.signingTime := by
    cases hcn : a.counter with
    | none => exact .inl (h2 (.inl hcn)).1
    | some cs =>
      by_cases hm : args.countersignatureMode = "ignore"
      · exact .inl (h2 (.inr hm)).1
      · rcases h3 cs hcn hm with ⟨h, -⟩ | ⟨h, -⟩
        · exact .inr ⟨cs, rfl, h⟩
        · exact .inl h
  by_cases hl : LifetimeSigning c
  · rcases k4 hl with h | ⟨-, -, -, hs, h⟩
    · exact .inl (h.trans hts)
    · rcases ht with ht | ht
      · rw [ht] at hs; cases hs
      · rw [h]; exact .inr ht
  · rw [k3 hl, hts]
    rcases ht with ht | ⟨cs, hc, ht⟩
    · rw [ht]; exact .inl rfl
    · cases ht' : t with
      | none => exact .inl rfl
      | some x => exact .inr ⟨cs, hc, by rw [← ht, ht']; rfl⟩

theorem digest_moving {env : Env} {m : Nat → SignatureMoments} {file : Bytes} {provided : Dict String Bytes} {kwargs : VerifyArgs} {k : Nat}
    {w w' : World} {l : List (ASD × Except Exc (List (List Cert)))} (h : AttemptsAt env m file provided kwargs k w l w')
    (he : ContextsExist w kwargs) : ∀ a c, (a, Except.ok c) ∈ l → DigestFor env file provided a.d.core.digestAlg a.d.spc.digest := by
  intro a c hm
  obtain ⟨n, d, w1, w2, h1, h2, -, -, h5⟩ := attemptsAt_call h he a c hm
  obtain ⟨cid, cs, v, hs⟩ := setup w1 a.d { kwargs with expectedHash := some d } (contextsExist_expected h2 (some d))
  have := (digestsMatch_iff.1 (asdVerifyT_steps hs h5).1).given d rfl
  rw [this]
  exact h1

theorem authentic_moving {env : Env} {m : Nat → SignatureMoments} {cd : Codec} {file : Bytes} {args : PEVerifyArgs} {w : World} (he : ContextsExist w args.kwargs)
    (hn : args.expectedHashes = none) {res : List (ASD × List (List Cert))} (h : (peVerifyT env m cd file args w).1 = .ok res) :
    res ≠ [] ∧ ∀ p ∈ res, (∃ sds, Considered cd file args.ignoreParseErrors sds ∧ p.1 ∈ sds) ∧
      ∀ bs : Int, 1 ≤ bs → Authentihash env.hash p.1.d.core.digestAlg bs file p.1.d.spc.digest := by
  obtain ⟨sds, hc, hne, hp⟩ := peVerifyT_ok h
  obtain ⟨sel, tried, rest, w0, h1, h2, h3, h4, h5⟩ := C100_outcome env m cd file args w sds hc hne hp
  have halg := fun x hx => considered_alg hc (x := x) hx
  have he' := (selected_iff hne halg).1 h1
  have hne' := selected_ne_nil (mode := args.multiVerifyMode) hne halg
  rw [← he'] at hne'
  constructor
  · rintro rfl
    generalize (peVerifyT env m cd file args w).1 = r at h h5
    cases h5 with
    | allVerify l _ => cases h; exact hne' h2
    | firstFailure => cases h
    | firstSuccess => cases h
    | allFail => cases h
  · intro p hpr
    refine ⟨⟨sds, hc, ?_⟩, ?_⟩
    · refine selected_subset (mode := args.multiVerifyMode) p.1 ?_
      rw [← he', h2]
      exact List.mem_append_left _ (List.mem_map.2 ⟨_, overall_returned h5 h p hpr, rfl⟩)
    · have he0 : ContextsExist w0 args.kwargs := ⟨fun c hc => (by rw [h3.2.2]; exact he.context c hc), fun c hc => (by rw [h3.2.2]; exact he.csContext c hc)⟩
      rcases digest_moving h4 he0 p.1 p.2 (overall_returned h5 h p hpr) with hd | ⟨-, hd⟩
      · unfold providedBy at hd
        rw [hn] at hd
        cases hd
      · exact hd

/-- What a successful verification of a file shows although time passes: for every signature and every chain returned there is the
complete evidence of C59, where the path validator and the trust list have been asked at the moment at which the verification of the
certificate began (unless there is a time in the options or from the countersignature). -/
theorem C100_evidence (env : Env) (m : Nat → SignatureMoments) (hfc : ∀ n c, Forward ((m n).counter c)) (hfs : ∀ n c, Forward ((m n).signer c))
    (hsame : ∀ n c, SameButClock env ((m n).signer c).start) (cd : Codec) (file : Bytes) (args : PEVerifyArgs) (w : World)
    (hc : args.kwargs.context = none) (hcs : ∀ c, args.kwargs.csContext = some c → c < w.nextCtx)
    (hn : args.expectedHashes = none) (res : List (ASD × List (List Cert))) (h : (peVerifyT env m cd file args w).1 = .ok res) :
    res ≠ [] ∧ ∀ p ∈ res, ∃ n sd si alg b, ReadsASD cd sd p.1 ∧ Evidence env cd file sd alg si b ∧ p.2 ≠ [] ∧
      ∀ chain ∈ p.2, ∃ c t, ChainEvidence ((m n).signer c).start w args.kwargs sd alg si b c t chain ∧
        (t = args.kwargs.options.timestamp ∨ ∃ cs, p.1.d.counter = some cs ∧ t = cs.signingTime) := by
  have he : ContextsExist w args.kwargs := ⟨fun c h => (by rw [hc] at h; cases h), hcs⟩
  obtain ⟨hres, hauth⟩ := authentic_moving he hn h
  refine ⟨hres, ?_⟩
  rintro ⟨⟨d, nested⟩, chains⟩ hpr
  obtain ⟨sds, hcon, hne, hp⟩ := peVerifyT_ok h
  obtain ⟨sel, tried, rest, w0, h1, h2, h3, h4, h5⟩ := C100_outcome env m cd file args w sds hcon hne hp
  have he0 : ContextsExist w0 args.kwargs := ⟨fun c hc => (by rw [h3.2.2]; exact he.context c hc), fun c hc => (by rw [h3.2.2]; exact he.csContext c hc)⟩
  obtain ⟨n, dig, w1, w2, k1, k2, k3, k4, k5⟩ := attemptsAt_call h4 he0 _ _ (overall_returned h5 h _ hpr)
  rw [h3.1] at k3 k4
  have hk := contextsExist_expected k2 (some dig)
  obtain ⟨⟨s, hsig, herr⟩, -⟩ : (∃ err, Signatures cd file sds err ∧ _) ∧ True := ⟨hcon, trivial⟩
  have hmem : (ASD.mk d nested) ∈ sds := by
    obtain ⟨⟨sds', hcon', hm⟩, -⟩ := hauth _ hpr
    obtain ⟨err', hs', he'⟩ := hcon'
    obtain ⟨t1, a1, b1⟩ := hs'
    obtain ⟨t2, a2, b2⟩ := hsig
    obtain ⟨rfl, -⟩ := C15_unique cd file t1 t2 err' s a1 a2
    rwa [C15_preorder_unique _ _ _ b1 b2] at hm
  obtain ⟨entry, hent, hrev, htyp, top, sd, henv, hwi, hread⟩ := signature_read hsig hmem
  have hdig := (hauth _ hpr).2 1 (by omega)
  obtain ⟨hdm, gne, gt⟩ := chains_moving (hfc n) (hfs n) hk (.inl hc) k5
  have hd' := digestsMatch_iff.1 hdm
  have ga := hd'.algorithms
  have gm := hd'.content
  have hwas := hread
  cases hread with
  | @mk _ _ _ si attrs spc sds' core noCrls content rspc oneSigner signer statement opus counter nestedIn all rec =>
    obtain ⟨ra, ha1, ha2, ha3⟩ := core.alg
    simp only [ASD.d] at hdig ga gm gt k5 gne
    have hb : ∃ b, si.head.signedAttrs = some b ∧ cd.attrs b = .ok attrs := by
      rcases signer.decoded with ⟨-, rfl⟩ | hb
      · obtain ⟨_, hx, -⟩ := signer.complete "message_digest" (by simp)
        cases hx
      · exact hb
    obtain ⟨b, hb1, hb2⟩ := hb
    obtain ⟨am, hm1, hm2⟩ : ∃ a, lastAttr attrs "message_digest" = some a ∧ a.values = [.octets (env.hash d.core.digestAlg d.core.content)] := by
      have := signer.messageDigest
      unfold ReadsAttr at this
      rw [gm] at this
      revert this
      cases hl : lastAttr attrs "message_digest" with
      | none => intro this; cases this
      | some a => rintro ⟨y, h1, h2⟩; cases h2; exact ⟨a, rfl, h1⟩
    have hcerts : embeddedCerts sd = d.core.certificates := core.certificates.symm
    refine ⟨n, sd, si, d.core.digestAlg, b, hwas, ?_, gne, ?_⟩
    · refine { inFile := ⟨entry, hent, hrev, htyp, top, henv, hwi⟩, accepted := ?_, algorithm := ⟨ra.params, ?_⟩, image := ?_, signer := ?_ }
      · rw [ha3]; exact ha2.1
      · rw [ha1, ha3]
      · refine ⟨d.core.content, spc, core.content, by rw [← core.octets]; exact content, rspc.type.1, ?_, ?_, attrs, am, hb2, hm1, hm2⟩
        · rw [← rspc.digestAlg, ← ga.1]
        · rw [← rspc.digest]
          exact (C09_authentihash_iff _ _ _ (by decide) _ _).1 hdig
      · exact ⟨oneSigner, hb1, by rw [← signer.digestAlg, ← ga.2]⟩
    · intro chain hch
      obtain ⟨c, t, hs, hv, ht⟩ := gt chain hch
      refine ⟨c, t, ?_, ?_⟩
      · have hctx : signerContext w1 d { args.kwargs with expectedHash := some dig } =
            contextOf [args.kwargs.trusted, .embedded d.core.certificates] ["code_signing"] args.kwargs.options := by
          unfold signerContext
          simp only [hc]
        rw [hctx] at hs hv
        have hl : LoadedStore w2 args.kwargs.trusted := hv.loaded _ (by simp [contextOf])
        have hcert := certsOf_step k4 hl
        obtain ⟨r, hr, ekus, hg, i, root, rfl, m1, m2, m3, m4⟩ := hv.anchored
        have hri : args.kwargs.trusted = .heap i := by
          simp only [contextOf, List.mem_cons, List.not_mem_nil, or_false] at hr
          rcases hr with hr | hr
          · exact hr.symm
          · cases hr
        have hek : ∀ l, Given (contextOf [args.kwargs.trusted, .embedded d.core.certificates] ["code_signing"] args.kwargs.options).ekus l →
            l = ["code_signing"] := by
          rintro l (h | ⟨-, g, hg⟩)
          · exact h
          · cases hg
        obtain rfl := hek _ hg
        refine { known := ?_, named := ?_, signature := ?_, anchored := ?_, members := ?_, validated := ?_ }
        · obtain ⟨r, hr, hk⟩ := hs.named.known
          simp only [contextOf, List.mem_cons, List.not_mem_nil, or_false] at hr
          rcases hr with rfl | rfl
          · rw [hcert] at hk; exact .inl hk
          · rw [hcerts]; exact .inr hk
        · rw [← signer.issuer, ← signer.serial]; exact ⟨hs.named.issuer, hs.named.serial⟩
        · refine ⟨d.signer.encodedAuth, ?_, ?_⟩
          · have := signer.encoded
            rwa [hb1] at this
          · have := hs.signature
            rw [← ga.2, signer.signature] at this
            exact validSignature_same (hsame n c) this
        · refine ⟨i, root, hri, ?_, m2, ?_, ?_⟩
          · rw [← (k4 i).trusted]; exact m1
          · rw [← hcert, hri]; exact m3
          · intro ctl hctl
            exact m4 ctl (by rw [(k4 i).ctl]; exact hctl)
        · intro x hx
          rcases hv.members x hx with h | ⟨r, hr, hk⟩
          · exact .inl h
          · simp only [contextOf, List.mem_cons, List.not_mem_nil, or_false] at hr
            rcases hr with rfl | rfl
            · rw [hcert] at hk; exact .inr (.inl hk)
            · rw [hcerts]; exact .inr (.inr hk)
        · obtain ⟨kus, ekus, n1, n2, n3⟩ := hv.answer
          obtain rfl := hek _ n2
          have hku : kus = args.kwargs.options.keyUsages.getD [] := by
            rcases n1 with h | ⟨-, g, hg⟩
            · rw [h]
              unfold contextOf
              cases args.kwargs.options.keyUsages <;> rfl
            · unfold contextOf at hg
              cases hx : args.kwargs.options.keyUsages <;> rw [hx] at hg <;> cases hg
          rw [← n3, hku, hcerts, ← hcert, hri]
          have ht : storeTrusted w2 (.heap i) = true := m1
          have hte : storeTrusted w2 (.embedded d.core.certificates) = false := rfl
          congr 1
          unfold requestFor contextOf
          simp only [List.filter_cons, ht, hte, if_true, Bool.not_true, Bool.not_false, Bool.false_eq_true, if_false, List.filter_nil,
            List.flatMap_cons, List.flatMap_nil, List.append_nil]
          rfl
      · rcases ht with ht | ⟨cs, h1, h2⟩
        · left
          rw [ht]
          unfold signerContext
          simp only [hc]
          rfl
        · exact .inr ⟨cs, h1, h2⟩

/-! Examples: two signatures, the first verified from time 500 to 700, the second from time 750 to `t`.  The trust list disallows the root
from time 800 on. -/

def exTwoMoments (t : Int) : Nat → SignatureMoments
  | 0 => ⟨fun _ => ⟨{ exPEEnv with now := 750 }, fun _ => t⟩, fun _ => ⟨{ exPEEnv with now := 750 }, fun _ => t⟩⟩
  | _ => ⟨fun _ => ⟨exPEEnv, fun _ => 700⟩, fun _ => ⟨exPEEnv, fun _ => 700⟩⟩

theorem exTwoMoments_forward (t : Int) (h : 750 ≤ t) (n : Nat) (c : Cert) : Forward ((exTwoMoments t n).counter c) ∧ Forward ((exTwoMoments t n).signer c) := by
  cases n with
  | zero => exact ⟨fun _ => h, fun _ => h⟩
  | succ n => exact ⟨fun _ => (by decide : (500 : Int) ≤ 700), fun _ => (by decide : (500 : Int) ≤ 700)⟩

theorem exTwoMoments_same (t : Int) (n : Nat) (c : Cert) : SameButClock exPEEnv ((exTwoMoments t n).signer c).start := by
  cases n with
  | zero => exact ⟨rfl, rfl, rfl, rfl, fun _ _ => rfl, fun _ _ => rfl⟩
  | succ n => exact ⟨rfl, rfl, rfl, rfl, fun _ _ => rfl, fun _ _ => rfl⟩

theorem exTwoMoments_all : exOutcome (peVerifyT exPEEnv (exTwoMoments 799) exPECodec (exTwice 1 2 [7, 7, 7]) (exPEArgs "all") exDisallowing).1 =
    exOutcome (peVerify exPEEnv exPECodec (exTwice 1 2 [7, 7, 7]) (exPEArgs "all") exWorld).1 := by decide +kernel

example : ∃ res, (peVerifyT exPEEnv (exTwoMoments 799) exPECodec (exTwice 1 2 [7, 7, 7]) (exPEArgs "all") exDisallowing).1 = .ok res ∧ res.length = 2 ∧
    ∀ p ∈ res, ∃ n sd si alg b, ReadsASD exPECodec sd p.1 ∧ Evidence exPEEnv exPECodec (exTwice 1 2 [7, 7, 7]) sd alg si b ∧
      ∀ chain ∈ p.2, ∃ c t, ChainEvidence ((exTwoMoments 799 n).signer c).start exDisallowing (exPEArgs "all").kwargs sd alg si b c t chain := by
  have hall := exTwoMoments_all.trans exTwice_all
  obtain ⟨res, h⟩ := exOutcome_ok hall
  refine ⟨res, h, exOutcome_length h hall, fun p hp => ?_⟩
  obtain ⟨n, sd, si, alg, b, h1, h2, -, h3⟩ := (C100_evidence exPEEnv (exTwoMoments 799) (fun n c => (exTwoMoments_forward 799 (by decide) n c).1)
    (fun n c => (exTwoMoments_forward 799 (by decide) n c).2) (exTwoMoments_same 799) exPECodec _ (exPEArgs "all") exDisallowing rfl
    (fun _ h => (by cases h)) rfl res h).2 p hp
  refine ⟨n, sd, si, alg, b, h1, h2, fun chain hc => ?_⟩
  obtain ⟨c, t, h4, -⟩ := h3 chain hc
  exact ⟨c, t, h4⟩

/-- If the date passes while the second signature is verified, the mode decides: 'all' fails, 'any' has finished. -/
example : exOutcome (peVerifyT exPEEnv (exTwoMoments 800) exPECodec (exTwice 1 2 [7, 7, 7]) (exPEArgs "all") exDisallowing).1 =
      .error .ctlCertificateVerificationError ∧
    (exOutcome (peVerifyT exPEEnv (exTwoMoments 800) exPECodec (exTwice 1 2 [7, 7, 7]) (exPEArgs "any") exDisallowing).1).isOk = true := by
  decide +kernel

end Signify.Props
