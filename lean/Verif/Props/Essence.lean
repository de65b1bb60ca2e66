/-
C81: the parts of a signature that nobody looks at.
-/
import Verif.Proofs.Essence
import Verif.Props.Malformed
import Verif.Props.DerFrom

set_option autoImplicit false

namespace Signify.Props

open Signify Spec Asn1

/-- Two signatures that differ only in fields that `essence` leaves out are loaded alike: as the same object, or with the same exception. -/
theorem C81_loaded_alike (s s' : DSD) (he : s.essence = s'.essence) (h : s.Valid) (h' : s'.Valid)
    (hl : (contentInfo s.encode).length < maxLen) (hl' : (contentInfo s'.encode).length < maxLen) (rest rest' : Bytes) :
    fromEnvelope derCodec (contentInfo s.encode ++ rest) = fromEnvelope derCodec (contentInfo s'.encode ++ rest') :=
  fromEnvelope_essence he h h' hl hl' rest rest'

theorem essenceUAttrs_append : ∀ (a b : List DUAttr), essenceUAttrs (a ++ b) = essenceUAttrs a ++ essenceUAttrs b
  | [], _ => rfl
  | x :: a, b => by rw [List.cons_append, essenceUAttrs, essenceUAttrs, essenceUAttrs_append a b, List.append_assoc]

/-- In particular: an attribute of another type may be added, with any values, to those that are not signed. -/
theorem C81_attribute (d : DData) (s : DSigner) (pre post : List DUAttr) (type : List Nat) (values : List DAny) :
    (DSD.mk d [.mk s (some (pre ++ .other type values :: post))]).essence = (DSD.mk d [.mk s (some (pre ++ post))]).essence := by
  simp only [DSD.essence, essenceSIs, DSI.essence, essenceUAttrs_append, essenceUAttrs, DUAttr.essence, List.nil_append]

/-- An attribute certificate may be added to the certificates. -/
theorem C81_other_certificate (d : DData) (ss : List DSI) (pre post : List DCertChoice) (x : DAny) (hc : d.certs = some (pre ++ post)) :
    (DSD.mk { d with certs := some (pre ++ .other x :: post) } ss).essence = (DSD.mk d ss).essence := by
  simp only [DSD.essence, DData.essence, hc, Option.getD_some, List.filter_append]
  rw [List.filter_cons_of_neg (by simp [DCertChoice.isCert])]

/-- The version of a signer may be any other. -/
theorem C81_version (d : DData) (s : DSigner) (us : Option (List DUAttr)) (v : Int) (hd : d.version ≠ 1) (w : Int) (hw : w ≠ 1) :
    (DSD.mk { d with version := w } [.mk { s with version := v } us]).essence = (DSD.mk d [.mk s us]).essence := by
  cases us <;> simp only [DSD.essence, essenceSIs, DSI.essence, DSigner.essence, DData.essence, if_neg hd, if_neg hw]

/-- C81 for files: in every mode `verify` has the same outcome for two files that are signed with signatures of the same essence, one for
one.  So these parts of a signed file can be changed without invalidating it. -/
theorem C81_file (env : Env) (args : PEVerifyArgs) (w : World) (f : Bytes) (oho ohs dir : Nat)
    (hh : Header f oho ohs dir) (hE : HasEntry f oho ohs dir) (hn : ∀ a s, ¬ HasTable f oho ohs dir a s)
    (ck ck' : Bytes) (hck : ck.length = 4) (hck' : ck'.length = 4) (l : List (DSD × DSD)) (hne : l ≠ [])
    (hsame : ∀ x ∈ l, x.1.essence = x.2.essence ∧ x.1.Valid ∧ x.2.Valid)
    (hread : ∀ x ∈ l, ∃ a, fromEnvelope derCodec (contentInfo x.1.encode) = .ok a)
    (hsz : f.length + (certTable (l.map (fun x => signatureEntry (contentInfo x.1.encode)))).length < 2 ^ 32)
    (hsz' : f.length + (certTable (l.map (fun x => signatureEntry (contentInfo x.2.encode)))).length < 2 ^ 32) :
    peVerify env derCodec (attach f oho dir ck (certTable (l.map (fun x => signatureEntry (contentInfo x.1.encode))))) args w =
      peVerify env derCodec (attach f oho dir ck' (certTable (l.map (fun x => signatureEntry (contentInfo x.2.encode))))) args w := by
  have hbig : (2 : Nat) ^ 32 ≤ maxLen := by decide +kernel
  have hlen : ∀ x ∈ l, (contentInfo x.1.encode).length < maxLen ∧ (contentInfo x.2.encode).length < maxLen := by
    intro x hx
    have h1 := fits_signature (l := l.map (fun x => (x.1, exDOuterSays, ([] : Bytes)))) (f := f) (by simpa [List.map_map, Function.comp_def] using hsz)
      (List.mem_map.2 ⟨x, hx, rfl⟩)
    have h2 := fits_signature (l := l.map (fun x => (x.2, exDOuterSays, ([] : Bytes)))) (f := f) (by simpa [List.map_map, Function.comp_def] using hsz')
      (List.mem_map.2 ⟨x, hx, rfl⟩)
    simp only [List.append_nil] at h1 h2
    omega
  have hch : ∃ l' : List ((DSD × DSD) × ASD), l'.map Prod.fst = l ∧
      ∀ x ∈ l', fromEnvelope derCodec (contentInfo x.1.1.encode) = .ok x.2 ∧ fromEnvelope derCodec (contentInfo x.1.2.encode) = .ok x.2 := by
    clear hne hsz hsz'
    induction l with
    | nil => exact ⟨[], rfl, fun _ h => by cases h⟩
    | cons x l ih =>
      obtain ⟨a, ha⟩ := hread x (by simp)
      obtain ⟨k1, k2, k3⟩ := hsame x (by simp)
      have := C81_loaded_alike x.1 x.2 k1 k2 k3 (hlen x (by simp)).1 (hlen x (by simp)).2 [] []
      rw [List.append_nil, List.append_nil, ha] at this
      obtain ⟨l', rfl, h2⟩ := ih (fun y hy => hsame y (by simp [hy])) (fun y hy => hread y (by simp [hy])) (fun y hy => hlen y (by simp [hy]))
      refine ⟨(x, a) :: l', rfl, fun y hy => ?_⟩
      rcases List.mem_cons.1 hy with rfl | hy
      · exact ⟨ha, this.symm⟩
      · exact h2 y hy
  obtain ⟨l', rfl, hl'⟩ := hch
  have hne' : l' ≠ [] := by simpa using hne
  obtain ⟨a1, b1, c1⟩ := attached_considered (cd := derCodec) hh hE hn hck (l := l'.map (fun x => (contentInfo x.1.1.encode, x.2))) (by simpa using hne')
    (by intro y hy
        obtain ⟨x, hx, rfl⟩ := List.mem_map.1 hy
        exact ⟨by intro h; have := congrArg List.length h; simp [contentInfo, derSeq, tlv] at this, (hl' x hx).1⟩)
    (by simpa only [List.map_map, Function.comp_def] using hsz) args.ignoreParseErrors
  obtain ⟨a2, b2, c2⟩ := attached_considered (cd := derCodec) hh hE hn hck' (l := l'.map (fun x => (contentInfo x.1.2.encode, x.2))) (by simpa using hne')
    (by intro y hy
        obtain ⟨x, hx, rfl⟩ := List.mem_map.1 hy
        exact ⟨by intro h; have := congrArg List.length h; simp [contentInfo, derSeq, tlv] at this, (hl' x hx).2⟩)
    (by simpa only [List.map_map, Function.comp_def] using hsz') args.ignoreParseErrors
  simp only [List.map_map, Function.comp_def] at a1 a2 b1 b2 c1 c2 ⊢
  exact C60_same_signatures env derCodec _ _ args w
    ((strip_iff_sameImage b1 b2).1 (((strip_iff_sameImage hh b1).2 a1).symm.trans ((strip_iff_sameImage hh b2).2 a2))) _ c1 c2

/-- The signature of the example, with another payload in the attribute that is not signed, another one in the nested signature, and the versions of
the signers changed. -/
def exEOuter (payload : Bytes) : DSD := .mk (exDData 1 oidIndirectData exIndirect.contents)
  [.mk { exDSigner (exDAttrs oidIndirectData [1, 2]) with version := 9 } (some [.other [1, 2, 3, 4] [⟨4, payload⟩], .nested [.mk (exDData 5 oidIndirectData exIndirect.encode)
    [.mk (exDSigner (exDAttrs oidIndirectData [1, 2])) (some [.other [1, 2, 3, 4] [⟨4, payload⟩], .timestamp [exDStamp]])]],
    .counter [.mk (exDSigner (exDAttrs [1, 2, 840, 113549, 1, 7, 1] [3])) none]])]

theorem exE_essence (payload : Bytes) : exDOuter.essence = (exEOuter payload).essence := by rfl

theorem exEOuter_valid (payload : Bytes) : (exEOuter payload).Valid := by
  simp only [exEOuter, exDStamp, DSD.Valid, DSI.Valid, validSIs, validUAttrs, DUAttr.Valid, validSDs, and_true]
  have ho : ∀ v ∈ [DAny.mk 4 payload], v.Valid := by
    intro v hv
    simp only [List.mem_cons, List.not_mem_nil, or_false] at hv
    subst hv
    show (4 : UInt8).toNat % 32 ≠ 31
    decide
  exact ⟨exDData_valid _ _ _ ⟨_, _, _, rfl, by omega, by omega⟩, exDSigner_valid _ _ ⟨_, _, _, rfl, by omega, by omega⟩,
    ⟨⟨_, _, _, rfl, by omega, by omega⟩, by decide +kernel, ho⟩,
    ⟨exDData_valid _ _ _ ⟨_, _, _, rfl, by omega, by omega⟩, exDSigner_valid _ _ ⟨_, _, _, rfl, by omega, by omega⟩,
      ⟨⟨_, _, _, rfl, by omega, by omega⟩, by decide +kernel, ho⟩,
      exDData_valid _ _ _ ⟨_, _, _, rfl, by omega, by omega⟩, exDSigner_valid _ _ ⟨_, _, _, rfl, by omega, by omega⟩⟩,
    exDSigner_valid _ _ ⟨_, _, _, rfl, by omega, by omega⟩⟩

/-- The hypotheses are met, and the conclusion says something: the file of the example verifies, so the one with the payloads does. -/
example (payload : Bytes) (h : (certTable [signatureEntry (contentInfo (exEOuter payload).encode)]).length < 2 ^ 31) :
    ∃ res, (peVerify exDEnv derCodec (attach exDImage 88 216 [1, 2, 3, 4] (certTable [signatureEntry (contentInfo (exEOuter payload).encode)]))
      (exDArgs "any") exDWorld).1 = .ok res := by
  obtain ⟨res, hr⟩ := exWithout_verifies
  have := C81_file exDEnv (exDArgs "any") exDWorld exDImage 88 136 216 (by decide +kernel) (by decide +kernel)
    (by rintro a s ⟨_, _, h, h', _⟩; exact h' (h.trans (by decide +kernel))) [1, 2, 3, 4] [1, 2, 3, 4] rfl rfl [(exDOuter, exEOuter payload)] (by simp)
    (by intro x hx; rw [List.mem_singleton.1 hx]; exact ⟨exE_essence payload, exDOuter_valid, exEOuter_valid payload⟩)
    (by intro x hx; rw [List.mem_singleton.1 hx]
        have := C68_signature_read_back _ _ exDOuter_says exDOuter_valid (Nat.lt_of_lt_of_le exDOuter_len (by decide +kernel)) []
        rw [List.append_nil] at this
        exact ⟨_, this⟩)
    (by simp only [List.map_cons, List.map_nil]; decide +kernel)
    (by have : exDImage.length < 2 ^ 31 := by decide +kernel
        simp only [List.map_cons, List.map_nil]
        omega)
  refine ⟨res, ?_⟩
  rw [← hr]
  exact (congrArg Prod.fst this).symm

/-- A payload for which the size is small enough. -/
example : (certTable [signatureEntry (contentInfo (exEOuter (List.replicate 1000 0xCC)).encode)]).length < 2 ^ 31 := by decide +kernel

example (payload : Bytes) (h : (contentInfo (exEOuter payload).encode).length < maxLen) := C81_loaded_alike exDOuter (exEOuter payload)
  (exE_essence payload) exDOuter_valid (exEOuter_valid payload) (Nat.lt_of_lt_of_le exDOuter_len (by decide +kernel)) h [] [0]

end Signify.Props
