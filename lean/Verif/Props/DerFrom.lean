/-
C69: what is read from a signature is part of it, and of the certificate table.  C70: what follows a signature does not matter.  C71: the
signatures are determined by the certificate table, the outcome by it and the hashed part.
-/
import Verif.Proofs.DerFrom
import Verif.Props.Der
import Verif.Props.Resign

set_option autoImplicit false

namespace Signify.Props

open Signify Spec Asn1

/-! ### C69 -/

/-- **C69**.  Whatever the bytes are: if a signature is read from them, then its content, its certificates, its signed attributes, its
signature value, its countersigner and its nested signatures are contiguous parts of these bytes, the digest of the image is a contiguous
part of the content, and each certificate is the one read from its own DER. -/
theorem C69_signature (data : Bytes) (a : ASD) (h : fromEnvelope derCodec data = .ok a) : SignatureFrom data a := fromEnvelope_from h

theorem slice_infix (l : Bytes) (a p n s : Nat) (h1 : a ≤ p) (h2 : p + n ≤ a + s) :
    (l.drop p).take n <:+: (l.drop a).take s := by
  refine ⟨(l.drop a).take (p - a), ((l.drop a).take s).drop (p - a + n), ?_⟩
  have e : (l.drop p).take n = (((l.drop a).take s).drop (p - a)).take n := by
    rw [List.drop_take, List.drop_drop, List.take_take]
    congr 1
    · omega
    · congr 1; omega
  have e2 : (l.drop a).take (p - a) = ((l.drop a).take s).take (p - a) := by
    rw [List.take_take]; congr 1; omega
  rw [e, e2, List.append_assoc, ← List.drop_drop, List.take_append_drop, List.take_append_drop]

theorem slicesIn_infix {file : Bytes} : ∀ (l : List Bytes) (a lo hi : Nat), a ≤ lo → SlicesIn file lo hi l →
    ∀ c ∈ l, c <:+: (file.drop a).take (hi - a)
  | [], _, _, _, _, _, c, hc => by cases hc
  | x :: l, a, lo, hi, ha, ⟨p, h1, _, h3, h4, h5⟩, c, hc => by
    rcases List.mem_cons.1 hc with rfl | hc
    · rw [← h4]
      have : ((file.drop p).take c.length).length ≤ c.length := by simp; omega
      exact slice_infix file a p c.length (hi - a) (by omega) (by omega)
    · exact slicesIn_infix l a (p + x.length) hi (by omega) h5 c hc

/-- The signatures found in a file are read from the entries of its certificate table. -/
theorem iter_from {file : Bytes} {nested ignore : Bool} {b : ASD} (hb : b ∈ (iterSignedDatas derCodec file nested ignore).1) :
    ∃ c ∈ (parseCertTable file).1, SignatureFrom c.certificate b := by
  obtain ⟨tops, sds, err, ⟨pre, rest, h1, h2, h3, h4⟩, hp, h5⟩ := C15_iteration derCodec file
  rw [h5] at hb
  have hpre : ∀ (l : List ASD) (x : ASD), x ∈ preorderAll l → ∀ data, (∀ y ∈ l, SignatureFrom data y) → SignatureFrom data x := by
    intro l x hx data hl
    rw [preorderAll_flatMap] at hx
    obtain ⟨y, hy, hx⟩ := List.mem_flatMap.1 hx
    have hd := hl y hy
    clear hl hy
    induction hd with
    | @mk d ns k1 k2 k3 k4 k5 ih =>
      rw [ASD.preorder] at hx
      rcases List.mem_cons.1 hx with rfl | hx
      · exact .mk k1 k2 k3 k4 k5
      · rw [preorderAll_flatMap] at hx
        obtain ⟨z, hz, hx⟩ := List.mem_flatMap.1 hx
        exact ih z hz hx
  have htop : ∀ t ∈ tops, ∃ c ∈ (parseCertTable file).1, SignatureFrom c.certificate t := by
    intro t ht
    rw [h3] at ht
    obtain ⟨c, hc, hs⟩ := List.mem_filterMap.1 ht
    refine ⟨c, by rw [h1]; exact List.mem_append_left _ hc, ?_⟩
    unfold signatureIn at hs
    split at hs
    · cases hf : fromEnvelope derCodec c.certificate with
      | error e => rw [hf] at hs; cases hs
      | ok a => rw [hf] at hs; cases hs; exact fromEnvelope_from hf
    · cases hs
  cases nested with
  | false => exact htop b (by simpa using hb)
  | true =>
    have hb : b ∈ sds := by simpa using hb
    rw [preOrderAll_eq hp, preorderAll_flatMap] at hb
    obtain ⟨t, ht, hx⟩ := List.mem_flatMap.1 hb
    obtain ⟨c, hc, hs⟩ := htop t ht
    exact ⟨c, hc, hpre [t] b (by rw [preorderAll_flatMap]; simpa using hx) _ (by simpa using hs)⟩

/-- C69 for files.  The signatures found in a file, nested ones included, are read from its certificate table: all their parts are
contiguous parts of the table, so no byte of the image (or of anything else in the file) becomes part of a signature. -/
theorem C69_file (file : Bytes) (nested ignore : Bool) (b : ASD) (hb : b ∈ (iterSignedDatas derCodec file nested ignore).1) :
    ∃ oho ohs dir a s, Header file oho ohs dir ∧ HasTable file oho ohs dir a s ∧ SignatureFrom ((file.drop a).take s) b := by
  obtain ⟨c, hc, hs⟩ := iter_from hb
  obtain ⟨-, -, h3, h4⟩ := C14_iteration_safe file
  by_cases h : ∃ oho ohs dir a s, Header file oho ohs dir ∧ HasTable file oho ohs dir a s
  · obtain ⟨oho, ohs, dir, a, s, hh, hT⟩ := h
    refine ⟨oho, ohs, dir, a, s, hh, hT, SignatureFrom.mono hs ?_⟩
    have := slicesIn_infix _ a a (a + s) (Nat.le_refl _) (h4 oho ohs dir a s hh hT).1 c.certificate (List.mem_map.2 ⟨c, hc, rfl⟩)
    rwa [Nat.add_sub_cancel_left] at this
  · rw [(h3 h).1] at hc
    cases hc

/-- The signature of the example, with its countersigner and its nested signature, is read. -/
example : ∃ a, fromEnvelope derCodec (contentInfo exDOuter.encode ++ [0, 0, 0]) = .ok a ∧ a.d.core.certificates ≠ [] ∧
    a.d.counter.isSome = true ∧ a.nested ≠ [] :=
  ⟨exDOuterSays, C68_signature_read_back _ _ exDOuter_says exDOuter_valid (Nat.lt_of_lt_of_le exDOuter_len (by decide +kernel)) _,
    List.isEmpty_eq_false_iff.1 (by decide +kernel), by decide +kernel, List.isEmpty_eq_false_iff.1 (by decide +kernel)⟩

/-! ### C70 -/

/-- **C70**.  Bytes after a signature do not matter: what is read from the bytes is what is read from their first ASN.1 value, result or
error. -/
theorem C70_first_value (data rest : Bytes) (p : Parts) (h : parse data = .ok (p, rest)) (junk : Bytes) :
    data = p.dump ++ rest ∧ fromEnvelope derCodec (p.dump ++ junk) = fromEnvelope derCodec data := by
  refine ⟨(parse_spec h).1, ?_⟩
  unfold fromEnvelope
  have : derCodec.envelope (p.dump ++ junk) = derCodec.envelope data := derEnvelope_first h junk
  rw [this]

/-- In particular a signature that is read goes on being read, as the same, if anything is put after it. -/
theorem C70_trailing (data : Bytes) (a : ASD) (h : fromEnvelope derCodec data = .ok a) (junk : Bytes) :
    fromEnvelope derCodec (data ++ junk) = .ok a := by
  unfold fromEnvelope at h ⊢
  obtain ⟨x, h1, h2⟩ := eok_bind h
  have h1' : derEnvelope data = .ok x := h1
  have : derCodec.envelope (data ++ junk) = .ok x := derEnvelope_ok_append h1' junk
  rw [this]
  exact h2

theorem winCertificate_length (e : CertEntry) :
    (winCertificate e).length = 8 + e.certificate.length + (8 - (8 + e.certificate.length) % 8) % 8 := by
  have hlen : ∀ n v, (leBytes n v).length = n := by
    intro n
    induction n with
    | zero => intro v; rfl
    | succ n ih => intro v; simp [leBytes, ih]
  simp only [winCertificate, List.length_append, List.length_replicate, hlen]

theorem fits_of_size {n : Nat} {es : List CertEntry} (hsz : n + (certTable es).length < 2 ^ 32) {e : CertEntry} (he : e ∈ es) :
    e.certificate.length + 8 < 2 ^ 32 := by
  have h1 := winCertificate_length e
  have h2 : (winCertificate e).length ≤ (certTable es).length := by
    unfold certTable
    obtain ⟨p, q, rfl⟩ := List.append_of_mem he
    simp only [List.flatMap_append, List.flatMap_cons, List.length_append]
    omega
  omega

theorem certTable_shorter (l : List (Bytes × Bytes)) :
    (certTable (l.map (fun x => signatureEntry x.1))).length ≤ (certTable (l.map (fun x => signatureEntry (x.1 ++ x.2)))).length := by
  induction l with
  | nil => exact Nat.le_refl _
  | cons x l ih =>
    unfold certTable at ih ⊢
    simp only [List.map_cons, List.flatMap_cons, List.length_append]
    have h1 := winCertificate_length (signatureEntry x.1)
    have h2 := winCertificate_length (signatureEntry (x.1 ++ x.2))
    simp only [signatureEntry, List.length_append] at h1 h2 ih ⊢
    omega

/-- What is considered in a file to which signatures are attached. -/
theorem attached_considered {cd : Codec} {f : Bytes} {oho ohs dir : Nat} (hh : Header f oho ohs dir) (hE : HasEntry f oho ohs dir)
    (hn : ∀ a s, ¬ HasTable f oho ohs dir a s) {ck : Bytes} (hck : ck.length = 4) {l : List (Bytes × ASD)} (hne : l ≠ [])
    (hread : ∀ x ∈ l, x.1 ≠ [] ∧ fromEnvelope cd x.1 = .ok x.2)
    (hsz : f.length + (certTable (l.map (fun x => signatureEntry x.1))).length < 2 ^ 32) (ignore : Bool) :
    SameImage f (attach f oho dir ck (certTable (l.map (fun x => signatureEntry x.1)))) ∧
    Header (attach f oho dir ck (certTable (l.map (fun x => signatureEntry x.1)))) oho ohs dir ∧
    Considered cd (attach f oho dir ck (certTable (l.map (fun x => signatureEntry x.1)))) ignore (preorderAll (l.map Prod.snd)) := by
  have hne' : l.map (fun x => signatureEntry x.1) ≠ [] := by simpa using hne
  have hT : certTable (l.map (fun x => signatureEntry x.1)) ≠ [] := by
    have := certTable_count (l.map (fun x => signatureEntry x.1))
    have := List.length_pos_iff.2 hne'
    exact List.length_pos_iff.1 (by omega)
  obtain ⟨i1, g1, _, _⟩ := attach_sameImage hh hE hn ck _ hck hT hsz
  refine ⟨i1, g1, ?_⟩
  have htab := C13_attach_round_trip f oho ohs dir hh hE hn ck hck _ hne' (by
    intro e he
    have h1 := fits_of_size hsz he
    obtain ⟨x, hx, rfl⟩ := List.mem_map.1 he
    exact fits_entry (hread x hx).1 h1) hsz
  have := iter_of_table hne htab (fun x hx => (hread x hx).2) true ignore _ (preOrder_preorderAll _)
  rw [considered_iff, this]
  rfl

/-- C70 for files.  Entries with signatures are attached to an image; to another copy the same entries are attached with further bytes
after each signature.  In every mode `verify` has the same outcome for both: the bytes after a signature are covered by no hash and are
read by nobody. -/
theorem C70_file (env : Env) (args : PEVerifyArgs) (w : World) (f : Bytes) (oho ohs dir : Nat)
    (hh : Header f oho ohs dir) (hE : HasEntry f oho ohs dir) (hn : ∀ a s, ¬ HasTable f oho ohs dir a s)
    (ck ck' : Bytes) (hck : ck.length = 4) (hck' : ck'.length = 4) (l : List (Bytes × Bytes)) (hne : l ≠ [])
    (hread : ∀ x ∈ l, ∃ a, fromEnvelope derCodec x.1 = .ok a)
    (hsz : f.length + (certTable (l.map (fun x => signatureEntry (x.1 ++ x.2)))).length < 2 ^ 32) :
    peVerify env derCodec (attach f oho dir ck (certTable (l.map (fun x => signatureEntry x.1)))) args w =
      peVerify env derCodec (attach f oho dir ck' (certTable (l.map (fun x => signatureEntry (x.1 ++ x.2))))) args w := by
  have hch : ∃ l' : List ((Bytes × Bytes) × ASD), l'.map Prod.fst = l ∧ ∀ x ∈ l', fromEnvelope derCodec x.1.1 = .ok x.2 := by
    clear hne hsz
    induction l with
    | nil => exact ⟨[], rfl, fun _ h => by cases h⟩
    | cons x l ih =>
      obtain ⟨a, ha⟩ := hread x (by simp)
      obtain ⟨l', rfl, h2⟩ := ih (fun y hy => hread y (by simp [hy]))
      refine ⟨(x, a) :: l', rfl, fun y hy => ?_⟩
      rcases List.mem_cons.1 hy with rfl | hy
      · exact ha
      · exact h2 y hy
  obtain ⟨l', rfl, hl'⟩ := hch
  have hne' : l' ≠ [] := by simpa using hne
  have hnil : ∀ x ∈ l', x.1.1 ≠ [] := by
    intro x hx h
    have := hl' x hx
    rw [h] at this
    cases this
  have hs1 := certTable_shorter (l'.map Prod.fst)
  obtain ⟨a1, b1, c1⟩ := attached_considered (cd := derCodec) hh hE hn hck (l := l'.map (fun x => (x.1.1, x.2))) (by simpa using hne')
    (by intro y hy
        obtain ⟨x, hx, rfl⟩ := List.mem_map.1 hy
        exact ⟨hnil x hx, hl' x hx⟩)
    (by simp only [List.map_map, Function.comp_def] at hs1 hsz ⊢; omega) args.ignoreParseErrors
  obtain ⟨a2, b2, c2⟩ := attached_considered (cd := derCodec) hh hE hn hck' (l := l'.map (fun x => (x.1.1 ++ x.1.2, x.2))) (by simpa using hne')
    (by intro y hy
        obtain ⟨x, hx, rfl⟩ := List.mem_map.1 hy
        exact ⟨by simp [hnil x hx], C70_trailing _ _ (hl' x hx) _⟩)
    (by simpa only [List.map_map, Function.comp_def] using hsz) args.ignoreParseErrors
  simp only [List.map_map, Function.comp_def] at a1 a2 b1 b2 c1 c2 ⊢
  exact C60_same_signatures env derCodec _ _ args w
    ((strip_iff_sameImage b1 b2).1 (((strip_iff_sameImage hh b1).2 a1).symm.trans ((strip_iff_sameImage hh b2).2 a2))) _ c1 c2

/-- The hypotheses of `C70_file`: the signature of the example and its nested signature, with other bytes after them. -/
example : ∃ (l : List (Bytes × Bytes)), l.length = 2 ∧ (∀ x ∈ l, x.2 ≠ [] ∧ ∃ a, fromEnvelope derCodec x.1 = .ok a) ∧
    (exPE 16 [0, 0, 0, 0, 0, 0, 0, 0] [7, 7, 7]).length + (certTable (l.map (fun x => signatureEntry (x.1 ++ x.2)))).length < 2 ^ 32 ∧
    Header (exPE 16 [0, 0, 0, 0, 0, 0, 0, 0] [7, 7, 7]) 88 136 216 ∧ HasEntry (exPE 16 [0, 0, 0, 0, 0, 0, 0, 0] [7, 7, 7]) 88 136 216 ∧
    ∀ a s, ¬ HasTable (exPE 16 [0, 0, 0, 0, 0, 0, 0, 0] [7, 7, 7]) 88 136 216 a s := by
  refine ⟨[(contentInfo exDOuter.encode, [1, 2, 3]), (contentInfo exDInner.encode, [0])], rfl, ?_, by decide +kernel,
    by decide +kernel, by decide +kernel, ?_⟩
  · intro x hx
    have := exDOuter_valid
    simp only [exDOuter, DSD.Valid, DSI.Valid, validSIs, validUAttrs, DUAttr.Valid, validSDs, and_true] at this
    simp only [List.mem_cons, List.not_mem_nil, or_false] at hx
    rcases hx with rfl | rfl
    · refine ⟨by simp, exDOuterSays, ?_⟩
      have := C68_signature_read_back _ _ exDOuter_says exDOuter_valid (Nat.lt_of_lt_of_le exDOuter_len (by decide +kernel)) []
      rwa [List.append_nil] at this
    · refine ⟨by simp, exDInnerSays, ?_⟩
      have := C68_signature_read_back _ _ exDInner_says this.2.2.2.1 (Nat.lt_of_lt_of_le (by decide +kernel : _ < 2 ^ 31) (by decide +kernel)) []
      rwa [List.append_nil] at this
  · rintro a s ⟨_, _, h, h', _⟩
    exact h' (h.trans (by decide +kernel))

/-! ### C71 -/

theorem getD_slice {f g : Bytes} {a a' s : Nat} (h : (f.drop a).take s = (g.drop a').take s) {k : Nat} (hk : k < s) :
    f.getD (a + k) 0 = g.getD (a' + k) 0 := by
  have e := congrArg (fun l => l[k]?) h
  simp only [List.getElem?_take, if_pos hk, List.getElem?_drop] at e
  rw [List.getD_eq_getElem?_getD, List.getD_eq_getElem?_getD, e]

theorem leAt_slice {f g : Bytes} {a a' s : Nat} (h : (f.drop a).take s = (g.drop a').take s) {k : Nat} :
    ∀ n, k + n ≤ s → leAt f (a + k) n = leAt g (a' + k) n
  | 0, _ => rfl
  | n + 1, hk => by
    rw [leAt, leAt, leAt_slice h n (by omega), Nat.add_assoc a k n, Nat.add_assoc a' k n, getD_slice h (k := k + n) (by omega)]

theorem readN_slice {f g : Bytes} {a a' s : Nat} (h : (f.drop a).take s = (g.drop a').take s) {k n : Nat} (hk : k + n ≤ s) :
    readN f (a + k) n = readN g (a' + k) n := by
  have e : ∀ (l : Bytes) (b : Nat), readN l (b + k) n = (((l.drop b).take s).drop k).take n := by
    intro l b
    unfold readN
    rw [List.drop_take, List.drop_drop, List.take_take]
    congr 1
    omega
  rw [e, e, h]

theorem certLoop_slice {f g : Bytes} {a a' s : Nat} (h : (f.drop a).take s = (g.drop a').take s) (hf : a + s ≤ f.length)
    (hg : a' + s ≤ g.length) : ∀ (n m k : Nat) (es es' : List CertEntry) (e e' : Option Exc),
      certLoop f (a + s) n (a + k) = some (es, e) → certLoop g (a' + s) m (a' + k) = some (es', e') →
      es = es' ∧ e.map Exc.cls = e'.map Exc.cls
  | 0, _, _, _, _, _, _, h1, _ => by cases h1
  | n + 1, 0, _, _, _, _, _, _, h2 => by cases h2
  | n + 1, m + 1, k, es, es', e, e', h1, h2 => by
    have hl : k + 8 ≤ s → leAt f (a + k) 4 = leAt g (a' + k) 4 := fun hk => leAt_slice h 4 (by omega)
    rcases certLoop_step f (a + s) n (a + k) with ⟨p1, p2⟩ | ⟨p1, x, p2, p3, p4⟩ | ⟨p1, p2, p3, p4, p5⟩
    · rcases certLoop_step g (a' + s) m (a' + k) with ⟨q1, q2⟩ | ⟨q1, y, q2, q3, q4⟩ | ⟨q1, q2, q3, q4, q5⟩
      · rw [p2] at h1; rw [q2] at h2; cases h1; cases h2; exact ⟨rfl, rfl⟩
      · omega
      · omega
    · rcases certLoop_step g (a' + s) m (a' + k) with ⟨q1, q2⟩ | ⟨q1, y, q2, q3, q4⟩ | ⟨q1, q2, q3, q4, q5⟩
      · omega
      · rw [p3] at h1; rw [q3] at h2; cases h1; cases h2
        exact ⟨rfl, by simp [p2, q2]⟩
      · have := hl (by omega)
        omega
    · rcases certLoop_step g (a' + s) m (a' + k) with ⟨q1, q2⟩ | ⟨q1, y, q2, q3, q4⟩ | ⟨q1, q2, q3, q4, q5⟩
      · omega
      · have := hl (by omega)
        omega
      · have e0 := hl (by omega)
        rw [p5] at h1
        rw [q5] at h2
        rw [← e0] at h2 q4
        cases c1 : certLoop f (a + s) n (a + k + (leAt f (a + k) 4 + (8 - leAt f (a + k) 4 % 8) % 8)) with
        | none => rw [c1] at h1; cases h1
        | some r =>
          cases c2 : certLoop g (a' + s) m (a' + k + (leAt f (a + k) 4 + (8 - leAt f (a + k) 4 % 8) % 8)) with
          | none => rw [c2] at h2; cases h2
          | some r' =>
            obtain ⟨fs, x⟩ := r
            obtain ⟨fs', x'⟩ := r'
            rw [c1] at h1
            rw [c2] at h2
            cases h1
            cases h2
            rw [Nat.add_assoc] at c1 c2
            obtain ⟨r1, r2⟩ := certLoop_slice h hf hg n m _ _ _ _ _ c1 c2
            refine ⟨?_, r2⟩
            have u1 := leAt_slice h (k := k + 4) 2 (by omega)
            have u2 := leAt_slice h (k := k + 6) 2 (by omega)
            have u3 := readN_slice h (k := k + 8) (n := leAt f (a + k) 4 - 8) (by omega)
            simp only [← Nat.add_assoc] at u1 u2 u3
            rw [r1, u1, u2, u3]

/-- The entries of the certificate table are determined by the table, and so is whether an error follows them. -/
theorem C71_entries (f g : Bytes) (h : SameTable f g) : (parseCertTable f).1 = (parseCertTable g).1 ∧
    (parseCertTable f).2.map Exc.cls = (parseCertTable g).2.map Exc.cls := by
  obtain ⟨oho, ohs, dir, a, oho', ohs', dir', a', s, h1, h2, h3, h4, h5⟩ := h
  have k1 := h2.2.2.2.2.2
  have k2 := h4.2.2.2.2.2
  obtain ⟨es, e, i1, -⟩ := certLoop_facts f (a + s) k1 (f.length + 1) a (by omega) (by omega)
  obtain ⟨es', e', i2, -⟩ := certLoop_facts g (a' + s) k2 (g.length + 1) a' (by omega) (by omega)
  have p1 : parseCertTable f = (es, e) := by unfold parseCertTable; rw [parseCertTable_table h1 h2, i1]; rfl
  have p2 : parseCertTable g = (es', e') := by unfold parseCertTable; rw [parseCertTable_table h3 h4, i2]; rfl
  rw [p1, p2]
  exact certLoop_slice h5 k1 k2 _ _ 0 _ _ _ _ i1 i2

theorem signedDatasLoop_last (cd : Codec) (n : Bool) {last last' : Option Exc} (h : last.map Exc.cls = last'.map Exc.cls) :
    ∀ (l : List CertEntry) (found : Bool), (signedDatasLoop cd n last l found).1 = (signedDatasLoop cd n last' l found).1 ∧
      (signedDatasLoop cd n last l found).2.map Exc.cls = (signedDatasLoop cd n last' l found).2.map Exc.cls
  | [], found => by
    unfold signedDatasLoop
    cases last with
    | none =>
      cases last' with
      | none => exact ⟨rfl, rfl⟩
      | some _ => cases h
    | some x =>
      cases last' with
      | none => cases h
      | some y => exact ⟨rfl, h⟩
  | c :: l, found => by
    unfold signedDatasLoop
    split
    · exact ⟨rfl, rfl⟩
    · split
      · split
        · exact ⟨rfl, rfl⟩
        · obtain ⟨h1, h2⟩ := signedDatasLoop_last cd n h l true
          exact ⟨by simp only [h1], h2⟩
      · exact signedDatasLoop_last cd n h l found

/-- **C71**.  The signatures found in a file are determined by its certificate table: two files with the same table (wherever it is) have
the same signatures, and both or none end in an error, of the same class. -/
theorem C71_signatures (cd : Codec) (f g : Bytes) (h : SameTable f g) (nested ignore : Bool) :
    (iterSignedDatas cd f nested ignore).1 = (iterSignedDatas cd g nested ignore).1 ∧
    (iterSignedDatas cd f nested ignore).2.map Exc.cls = (iterSignedDatas cd g nested ignore).2.map Exc.cls := by
  obtain ⟨h1, h2⟩ := C71_entries f g h
  obtain ⟨k1, k2⟩ := signedDatasLoop_last cd nested h2 (parseCertTable f).1 false
  rw [h1] at k1 k2
  unfold iterSignedDatas
  simp only
  rw [h1]
  generalize signedDatasLoop cd nested (parseCertTable f).2 (parseCertTable g).1 false = x at k1 k2 ⊢
  generalize signedDatasLoop cd nested (parseCertTable g).2 (parseCertTable g).1 false = y at k1 k2 ⊢
  obtain ⟨l, e⟩ := x
  obtain ⟨l', e'⟩ := y
  simp only at k1 k2
  subst k1
  cases e with
  | none =>
    cases e' with
    | none => exact ⟨rfl, rfl⟩
    | some _ => cases k2
  | some x =>
    cases e' with
    | none => cases k2
    | some y =>
      injection k2 with k2
      simp only
      rw [is_of_cls_eq k2]
      split
      · exact ⟨rfl, rfl⟩
      · exact ⟨rfl, congrArg some k2⟩

/-- The outcome of `verify`, and its effects, are determined by the certificate table and the part of the file that is hashed. -/
theorem C71_outcome (env : Env) (cd : Codec) (f g : Bytes) (args : PEVerifyArgs) (w : World) (hi : SameImage f g) (h : SameTable f g)
    (sds : List ASD) (hc : Considered cd f args.ignoreParseErrors sds) :
    peVerify env cd f args w = peVerify env cd g args w := by
  refine C60_same_signatures env cd f g args w hi sds hc ?_
  obtain ⟨e1, e2⟩ := C71_signatures cd f g h true args.ignoreParseErrors
  rw [considered_iff] at hc ⊢
  cases hf : iterSignedDatas cd f true args.ignoreParseErrors with
  | mk l e =>
    cases hg : iterSignedDatas cd g true args.ignoreParseErrors with
    | mk l' e' =>
      rw [hf, hg] at e1 e2
      rw [hf] at hc
      simp only at e1 e2
      cases e with
      | some x => cases hc
      | none =>
        cases e' with
        | some y => cases e2
        | none => rw [← e1]; exact hc

/-- Two files with the same signatures and the same hashed part, but the table at different places and another checksum: the hypotheses
of `C71_outcome` are met, and verification succeeds. -/
example :
    let f := exTwice 1 2 [7, 7, 7]
    let g := attach (exPE 16 [0, 0, 0, 0, 0, 0, 0, 0] [7, 7, 7]) 88 216 [9, 9, 9, 9]
      (certTable [⟨0x200, 2, List.replicate 8 1⟩, ⟨0x200, 2, List.replicate 8 2⟩])
    SameTable f g ∧ SameImage f g ∧ f ≠ g ∧
    (∃ a b, Considered exPECodec f true [a, b]) ∧ exOutcome (peVerify exPEEnv exPECodec f (exPEArgs "all") exWorld).1 =
      .ok [(("sha256", [1]), [[1, 2, 3]]), (("sha1", [2]), [[1, 2, 3]])] := by
  refine ⟨⟨88, 136, 216, 224, 88, 136, 216, 227, 32, by decide +kernel, by decide +kernel, by decide +kernel, by decide +kernel,
    by decide +kernel⟩, (strip_iff_sameImage (oho := 88) (ohs := 136) (dir := 216) (oho' := 88) (ohs' := 136) (dir' := 216) (by decide +kernel) (by decide +kernel)).1
    (by decide +kernel), by decide +kernel,
    exPair_considered _ _ ("sha256", [1]) ("sha1", [2]) (by decide +kernel) (by decide +kernel), exTwice_all⟩

example := C70_trailing (contentInfo exDOuter.encode ++ [0, 0, 0]) exDOuterSays
  (C68_signature_read_back _ _ exDOuter_says exDOuter_valid (Nat.lt_of_lt_of_le exDOuter_len (by decide +kernel)) _) [1, 2]

end Signify.Props
