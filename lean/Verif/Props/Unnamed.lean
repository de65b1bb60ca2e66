/-
C83: the signature algorithm that a signature names for itself.
-/
import Verif.Proofs.Unnamed
import Verif.Props.Essence

set_option autoImplicit false

namespace Signify.Props

open Signify Spec Asn1

/-- Two signatures that differ in the signature algorithms named (and in the fields of C81) are loaded as objects that differ only in
`digest_encryption_algorithm`, or with the same exception. -/
theorem C83_loaded (s s' : DSD) (he : s.essence.unnamed = s'.essence.unnamed) (h : s.Valid) (h' : s'.Valid)
    (hl : (contentInfo s.encode).length < maxLen) (hl' : (contentInfo s'.encode).length < maxLen) (rest rest' : Bytes) :
    (fromEnvelope derCodec (contentInfo s.encode ++ rest)).map ASD.unnamed =
      (fromEnvelope derCodec (contentInfo s'.encode ++ rest')).map ASD.unnamed :=
  fromEnvelope_unnamed he h h' hl hl' rest rest'

/-- Objects that differ only there are verified alike, whatever the arguments: with the same result or exception, and the same effect on the
contexts. -/
theorem C83_verified (env : Env) (file : Option Bytes) (a b : AuthData) (h : a.unnamed = b.unnamed) (args : VerifyArgs) :
    asdVerify env file a args = asdVerify env file b args := by
  rw [← asdVerify_unnamed env file a, h, asdVerify_unnamed]

/-- C83 for files: `verify` has the same outcome and the same effects for two files that are signed with signatures which differ only in the algorithms named. -/
theorem C83_file (env : Env) (args : PEVerifyArgs) (w : World) (f : Bytes) (oho ohs dir : Nat)
    (hh : Header f oho ohs dir) (hE : HasEntry f oho ohs dir) (hn : ∀ a s, ¬ HasTable f oho ohs dir a s)
    (ck ck' : Bytes) (hck : ck.length = 4) (hck' : ck'.length = 4) (l : List (DSD × DSD)) (hne : l ≠ [])
    (hsame : ∀ x ∈ l, x.1.essence.unnamed = x.2.essence.unnamed ∧ x.1.Valid ∧ x.2.Valid)
    (hread : ∀ x ∈ l, ∃ a, fromEnvelope derCodec (contentInfo x.1.encode) = .ok a)
    (hsz : f.length + (certTable (l.map (fun x => signatureEntry (contentInfo x.1.encode)))).length < 2 ^ 32)
    (hsz' : f.length + (certTable (l.map (fun x => signatureEntry (contentInfo x.2.encode)))).length < 2 ^ 32) :
    unnamedOutcome (peVerify env derCodec (attach f oho dir ck (certTable (l.map (fun x => signatureEntry (contentInfo x.1.encode))))) args w).1 =
      unnamedOutcome (peVerify env derCodec (attach f oho dir ck' (certTable (l.map (fun x => signatureEntry (contentInfo x.2.encode))))) args w).1 ∧
    (peVerify env derCodec (attach f oho dir ck (certTable (l.map (fun x => signatureEntry (contentInfo x.1.encode))))) args w).2 =
      (peVerify env derCodec (attach f oho dir ck' (certTable (l.map (fun x => signatureEntry (contentInfo x.2.encode))))) args w).2 := by
  have hbig : (2 : Nat) ^ 32 ≤ maxLen := by decide +kernel
  have hlen : ∀ x ∈ l, (contentInfo x.1.encode).length < maxLen ∧ (contentInfo x.2.encode).length < maxLen := by
    intro x hx
    have h1 := fits_signature (l := l.map (fun x => (x.1, exDOuterSays, ([] : Bytes)))) (f := f) (by simpa [List.map_map, Function.comp_def] using hsz)
      (List.mem_map.2 ⟨x, hx, rfl⟩)
    have h2 := fits_signature (l := l.map (fun x => (x.2, exDOuterSays, ([] : Bytes)))) (f := f) (by simpa [List.map_map, Function.comp_def] using hsz')
      (List.mem_map.2 ⟨x, hx, rfl⟩)
    simp only [List.append_nil] at h1 h2
    omega
  have hch : ∃ l' : List ((DSD × DSD) × ASD), l'.map Prod.fst = l ∧
      ∀ x ∈ l', fromEnvelope derCodec.anon (contentInfo x.1.1.encode) = .ok x.2 ∧ fromEnvelope derCodec.anon (contentInfo x.1.2.encode) = .ok x.2 := by
    clear hne hsz hsz'
    induction l with
    | nil => exact ⟨[], rfl, fun _ h => by cases h⟩
    | cons x l ih =>
      obtain ⟨a, ha⟩ := hread x (by simp)
      obtain ⟨k1, k2, k3⟩ := hsame x (by simp)
      have := C83_loaded x.1 x.2 k1 k2 k3 (hlen x (by simp)).1 (hlen x (by simp)).2 [] []
      rw [List.append_nil, List.append_nil, ha] at this
      obtain ⟨l', rfl, h2⟩ := ih (fun y hy => hsame y (by simp [hy])) (fun y hy => hread y (by simp [hy])) (fun y hy => hlen y (by simp [hy]))
      refine ⟨(x, a.unnamed) :: l', rfl, fun y hy => ?_⟩
      rcases List.mem_cons.1 hy with rfl | hy
      · exact ⟨by rw [anon_envelope, ha]; rfl, by rw [anon_envelope, ← this]; rfl⟩
      · exact h2 y hy
  obtain ⟨l', rfl, hl'⟩ := hch
  have hne' : l' ≠ [] := by simpa using hne
  obtain ⟨a1, b1, c1⟩ := attached_considered (cd := derCodec.anon) hh hE hn hck (l := l'.map (fun x => (contentInfo x.1.1.encode, x.2)))
    (by simpa using hne')
    (by intro y hy
        obtain ⟨x, hx, rfl⟩ := List.mem_map.1 hy
        exact ⟨by intro h; have := congrArg List.length h; simp [contentInfo, derSeq, tlv] at this, (hl' x hx).1⟩)
    (by simpa only [List.map_map, Function.comp_def] using hsz) args.ignoreParseErrors
  obtain ⟨a2, b2, c2⟩ := attached_considered (cd := derCodec.anon) hh hE hn hck' (l := l'.map (fun x => (contentInfo x.1.2.encode, x.2)))
    (by simpa using hne')
    (by intro y hy
        obtain ⟨x, hx, rfl⟩ := List.mem_map.1 hy
        exact ⟨by intro h; have := congrArg List.length h; simp [contentInfo, derSeq, tlv] at this, (hl' x hx).2⟩)
    (by simpa only [List.map_map, Function.comp_def] using hsz') args.ignoreParseErrors
  simp only [List.map_map, Function.comp_def] at a1 a2 b1 b2 c1 c2 ⊢
  have key := C60_same_signatures env derCodec.anon _ _ args w
    ((strip_iff_sameImage b1 b2).1 (((strip_iff_sameImage hh b1).2 a1).symm.trans ((strip_iff_sameImage hh b2).2 a2))) _ c1 c2
  rw [peVerify_anon, peVerify_anon] at key
  exact Prod.mk.inj key

/-- In particular: any algorithm can be named for the signer, with any parameters. -/
theorem C83_any_algorithm (d : DData) (s : DSigner) (us : Option (List DUAttr)) (oid : List Nat) (params : Option DAny) :
    (DSD.mk d [.mk { s with sigAlg := ⟨oid, params⟩ } us]).essence.unnamed = (DSD.mk d [.mk s us]).essence.unnamed := by
  cases us <;> simp only [DSD.essence, essenceSIs, DSI.essence, DSigner.essence, DSD.unnamed, unnamedSIs, DSI.unnamed, DSigner.unnamed]

/-- The signature of the example, which says now that it is one by DSA, and that its countersignature is one by an unknown algorithm. -/
def exUOuter : DSD := .mk (exDData 1 oidIndirectData exIndirect.contents)
  [.mk { exDSigner (exDAttrs oidIndirectData [1, 2]) with sigAlg := ⟨[1, 2, 840, 10040, 4, 1], none⟩ }
    (some [.other [1, 2, 3, 4] [⟨4, []⟩], .nested [.mk (exDData 5 oidIndirectData exIndirect.encode)
    [.mk (exDSigner (exDAttrs oidIndirectData [1, 2])) (some [.timestamp [exDStamp]])]],
    .counter [.mk { exDSigner (exDAttrs [1, 2, 840, 113549, 1, 7, 1] [3]) with sigAlg := ⟨[1, 2, 3], some ⟨4, [1, 2, 3]⟩⟩ } none]])]

theorem exU_same : exDOuter.essence.unnamed = exUOuter.essence.unnamed := by rfl

theorem exUOuter_valid : exUOuter.Valid := by
  simp only [exUOuter, exDStamp, DSD.Valid, DSI.Valid, validSIs, validUAttrs, DUAttr.Valid, validSDs, and_true]
  have ho : ∀ v ∈ [DAny.mk 4 []], v.Valid := by
    intro v hv
    simp only [List.mem_cons, List.not_mem_nil, or_false] at hv
    subst hv
    show (4 : UInt8).toNat % 32 ≠ 31
    decide
  have hs : ∀ (type : List Nat) (digest : Bytes) (alg : DSigAlg), ValidOid type → alg.Valid →
      ({ exDSigner (exDAttrs type digest) with sigAlg := alg } : DSigner).Valid := fun type digest alg ht ha =>
    ⟨(exDSigner_valid type digest ht).1, (exDSigner_valid type digest ht).2.1, ha, (exDSigner_valid type digest ht).2.2.2⟩
  exact ⟨exDData_valid _ _ _ ⟨_, _, _, rfl, by omega, by omega⟩,
    hs _ _ _ ⟨_, _, _, rfl, by omega, by omega⟩ ⟨⟨_, _, _, rfl, by omega, by omega⟩, fun p hp => by cases hp⟩,
    ⟨⟨_, _, _, rfl, by omega, by omega⟩, by decide +kernel, ho⟩,
    ⟨exDData_valid _ _ _ ⟨_, _, _, rfl, by omega, by omega⟩, exDSigner_valid _ _ ⟨_, _, _, rfl, by omega, by omega⟩,
      exDData_valid _ _ _ ⟨_, _, _, rfl, by omega, by omega⟩, exDSigner_valid _ _ ⟨_, _, _, rfl, by omega, by omega⟩⟩,
    hs _ _ _ ⟨_, _, _, rfl, by omega, by omega⟩ ⟨⟨_, _, _, rfl, by omega, by omega⟩, fun p hp => by cases hp; unfold DAny.Valid; decide⟩⟩

/-- They are different signatures. -/
example : contentInfo exDOuter.encode ≠ contentInfo exUOuter.encode := by decide +kernel

/-- The hypotheses are met, and the conclusion says something: the file of the example verifies, so the one that claims other algorithms does. -/
example : ∃ res, (peVerify exDEnv derCodec (attach exDImage 88 216 [1, 2, 3, 4] (certTable [signatureEntry (contentInfo exUOuter.encode)]))
      (exDArgs "any") exDWorld).1 = .ok res := by
  obtain ⟨res, hr⟩ := exWithout_verifies
  obtain ⟨this, -⟩ := C83_file exDEnv (exDArgs "any") exDWorld exDImage 88 136 216 (by decide +kernel) (by decide +kernel)
    (by rintro a s ⟨_, _, h, h', _⟩; exact h' (h.trans (by decide +kernel))) [1, 2, 3, 4] [1, 2, 3, 4] rfl rfl [(exDOuter, exUOuter)] (by simp)
    (by intro x hx; rw [List.mem_singleton.1 hx]; exact ⟨exU_same, exDOuter_valid, exUOuter_valid⟩)
    (by intro x hx; rw [List.mem_singleton.1 hx]
        have := C68_signature_read_back _ _ exDOuter_says exDOuter_valid (Nat.lt_of_lt_of_le exDOuter_len (by decide +kernel)) []
        rw [List.append_nil] at this
        exact ⟨_, this⟩)
    (by simp only [List.map_cons, List.map_nil]; decide +kernel)
    (by simp only [List.map_cons, List.map_nil]; decide +kernel)
  replace this : unnamedOutcome (.ok res) = unnamedOutcome (peVerify exDEnv derCodec (attach exDImage 88 216 [1, 2, 3, 4]
      (certTable [signatureEntry (contentInfo exUOuter.encode)])) (exDArgs "any") exDWorld).1 := by
    rw [← hr]
    exact this
  generalize (peVerify exDEnv derCodec (attach exDImage 88 216 [1, 2, 3, 4] (certTable [signatureEntry (contentInfo exUOuter.encode)]))
      (exDArgs "any") exDWorld).1 = r at this ⊢
  cases r with
  | ok res' => exact ⟨res', rfl⟩
  | error e => cases this

example (h : (contentInfo exUOuter.encode).length < maxLen) := C83_loaded exDOuter exUOuter exU_same exDOuter_valid exUOuter_valid
  (Nat.lt_of_lt_of_le exDOuter_len (by decide +kernel)) h [] [0]

end Signify.Props
