/-
C08–C14: byte-level properties of `SignedPEFile` and `AuthenticodeFingerprinter`.
-/
import Verif.Proofs.CertTable
import Verif.Props.Fingerprinter

set_option autoImplicit false

namespace Signify.Props
open Spec

/-! ### Concrete PE files used by the examples -/

/-- A PE32 image: e_lfanew = 64, optional header at 88 of size 136, NumberOfRvaAndSizes = `rva`, the given certificate
table directory entry at 216, then `body` from offset 224 on. -/
def exPE (rva : UInt8) (entry : Bytes) (body : Bytes) : Bytes :=
  [0x4D, 0x5A] ++ List.replicate 58 0 ++ [64, 0, 0, 0] ++ [0x50, 0x45, 0, 0] ++ List.replicate 16 0 ++ [136, 0] ++
  [0, 0] ++ [0x0B, 0x01] ++ List.replicate 90 1 ++ [rva, 0, 0, 0] ++ List.replicate 32 2 ++ entry ++ body

/-- The same image signed: a certificate table of 16 bytes (one 8-byte payload) right after the headers. -/
def exSigned : Bytes :=
  exPE 16 [224, 0, 0, 0, 16, 0, 0, 0] ([16, 0, 0, 0, 0, 2, 2, 0] ++ [9, 9, 9, 9, 9, 9, 9, 9] ++ [7, 7, 7])

theorem exSigned_header : Header exSigned 88 136 216 := by decide +kernel

/-! ### C08 -/

/-- **C08** (exact form).  `get_authenticode_omit_sections()` never raises; it returns `None` exactly when the file has no
usable PE header, and otherwise exactly the sections of the Authenticode specification, with the values of the header
fields. -/
theorem C08_exact (file : Bytes) :
    (getOmit file = .ok none ∧ ¬ ∃ oho ohs dir, Header file oho ohs dir) ∨
    (∃ oho ohs dir, Header file oho ohs dir ∧ getOmit file = .ok (some (omitOf file oho ohs dir))) :=
  getOmit_cases file

/-- **C08**.  Whatever the file, the result is `None` or a mapping with `checksum` (4 bytes), optionally
`datadir_certtable` (8 bytes) and optionally a non-empty `certtable`, in ascending order, disjoint and inside the file. -/
theorem C08_omit_sections_sane (file : Bytes) :
    getOmit file = .ok none ∨ ∃ ck,
      getOmit file = .ok (some [("checksum", ⟨ck, 4⟩)]) ∧ ck + 4 ≤ file.length ∨
      (∃ dd, getOmit file = .ok (some [("checksum", ⟨ck, 4⟩), ("datadir_certtable", ⟨dd, 8⟩)]) ∧ ck + 4 ≤ dd ∧
        dd + 8 ≤ file.length) ∨
      (∃ dd a s, getOmit file = .ok (some [("checksum", ⟨ck, 4⟩), ("datadir_certtable", ⟨dd, 8⟩), ("certtable", ⟨a, s⟩)]) ∧
        ck + 4 ≤ dd ∧ dd + 8 ≤ a ∧ 0 < s ∧ a + s ≤ file.length) := by
  rcases getOmit_cases file with ⟨h, _⟩ | ⟨oho, ohs, dir, hh, h⟩
  · exact Or.inl h
  · right
    have hd : oho + 128 ≤ dir := by rcases hh.magic with ⟨_, rfl⟩ | ⟨_, rfl⟩ <;> omega
    have h1 := hh.inside
    have h2 := hh.hasChecksum
    refine ⟨oho + 64, ?_⟩
    rw [h]
    unfold omitOf
    by_cases hE : HasEntry file oho ohs dir
    · have hE1 := hE.1
      rw [if_pos hE]
      by_cases hT : HasTable file oho ohs dir (leAt file dir 4) (leAt file (dir + 4) 4)
      · rw [if_pos hT]
        obtain ⟨_, _, _, t0, t1, t2⟩ := hT
        generalize leAt file dir 4 = a at *
        generalize leAt file (dir + 4) 4 = s at *
        exact Or.inr (Or.inr ⟨dir, a, s, rfl, by omega, by omega, by omega, t2⟩)
      · rw [if_neg hT]
        exact Or.inr (Or.inl ⟨dir, rfl, by omega, by omega⟩)
    · have hT : ¬ HasTable file oho ohs dir (leAt file dir 4) (leAt file (dir + 4) 4) := fun h => hE h.1
      rw [if_neg hE, if_neg hT]
      exact Or.inl ⟨rfl, by omega⟩

example : getOmit exSigned = .ok (some [("checksum", ⟨152, 4⟩), ("datadir_certtable", ⟨216, 8⟩), ("certtable", ⟨224, 16⟩)]) := by
  decide +kernel
example : getOmit (exPE 4 [224, 0, 0, 0, 16, 0, 0, 0] [1, 2]) = .ok (some [("checksum", ⟨152, 4⟩)]) := by decide +kernel
example : getOmit [0x4D, 0x5A] = .ok none := by decide +kernel

/-! ### C09 -/

/-- `add_authenticode_hashers` is `add_hashers` with the complement of the omitted sections. -/
theorem addAuthenticode_eq (fp : FP) (names : List String) {oho ohs dir : Nat} (h : Header fp.file oho ohs dir) :
    fp.addAuthenticodeHashers names =
      (.ok true, register fp ⟨names, complementRanges fp.file.length 0 (omitted fp.file oho ohs dir), "authentihash"⟩) := by
  unfold FP.addAuthenticodeHashers
  rw [getOmit_of h]
  simp only
  rw [(omitOf_chain h).2]
  rfl

theorem lastFor_append (gs : List Reg) (g : Reg) (d : String) :
    lastFor (gs ++ [g]) d = if g.description = d then some g else lastFor gs d := by
  unfold lastFor
  rw [List.reverse_append]
  simp only [List.reverse_cons, List.reverse_nil, List.nil_append, List.cons_append, List.find?_cons]
  by_cases h : g.description = d <;> simp [h]

/-- **C09**, usable PE file.  Whatever was registered before (`gs`), `add_authenticode_hashers` returns True, `hashes()`
then succeeds and reports under "authentihash", for exactly the given hash names, the digest of the file with exactly the
omitted sections deleted; the other registrations are reported as usual. -/
theorem C09_authentihash_exact (H : String → Bytes → Bytes) (fp : FP) (hempty : fp.fingers = []) (hbs : 1 ≤ fp.blockSize)
    (gs : List Reg) (hwf : ∀ g ∈ gs, ∀ r ∈ g.ranges, WF fp.file r) (names : List String) (oho ohs dir : Nat)
    (h : Header fp.file oho ohs dir) :
    ∃ fp₁ res fp₂ ds, (registerAll fp gs).addAuthenticodeHashers names = (.ok true, fp₁) ∧ Ends H fp₁ (.ok res) fp₂ ∧
      res.get? "authentihash" = some ds ∧
      (∀ n, ds.get? n = if n ∈ names then some (H n (deleteSections fp.file (omitted fp.file oho ohs dir))) else none) ∧
      Reports H fp.file (gs ++ [⟨names, complementRanges fp.file.length 0 (omitted fp.file oho ohs dir), "authentihash"⟩]) res := by
  have hfile : (registerAll fp gs).file = fp.file := (registerAll_empty hempty gs).2.2.1
  have he := addAuthenticode_eq (registerAll fp gs) names (by rw [hfile]; exact h)
  rw [hfile] at he
  have hch := (omitOf_chain h).1
  have hr : registerAll fp (gs ++ [⟨names, complementRanges fp.file.length 0 (omitted fp.file oho ohs dir), "authentihash"⟩]) =
      register (registerAll fp gs) ⟨names, complementRanges fp.file.length 0 (omitted fp.file oho ohs dir), "authentihash"⟩ := by
    unfold registerAll; rw [List.foldl_append]; rfl
  obtain ⟨res, fp₂, e, rep⟩ := C01_digests_exact H fp hempty hbs
    (gs ++ [⟨names, complementRanges fp.file.length 0 (omitted fp.file oho ohs dir), "authentihash"⟩]) (by
      intro g hg r hr
      rcases List.mem_append.1 hg with hg | hg
      · exact hwf g hg r hr
      · rw [List.mem_singleton] at hg
        subst hg
        exact complement_wf fp.file _ 0 hch r hr)
  rw [hr] at e
  obtain ⟨ds, d1, d2⟩ := rep.some "authentihash" _ (by rw [lastFor_append, if_pos rfl])
  refine ⟨_, res, fp₂, ds, he, e, d1, ?_, rep⟩
  intro n
  rw [d2 n]
  simp only [requested]
  rw [if_neg (complement_ne_nil _ _ _), omitted, ← deleteSections_eq hch]

/-- A signed file, with an earlier registration over its first 100 octets. -/
example (H : String → Bytes → Bytes) :=
  C09_authentihash_exact H (FP.new exSigned 7) rfl (by decide) [⟨["md5"], [⟨0, 100⟩], "head"⟩]
    (by simp [WF]; decide +kernel) ["sha1", "sha256"] 88 136 216 exSigned_header

/-- **C09**, not a usable PE file: returns False and registers nothing. -/
theorem C09_not_pe (fp : FP) (names : List String) (h : ¬ ∃ oho ohs dir, Header fp.file oho ohs dir) :
    fp.addAuthenticodeHashers names = (.ok false, fp) := by
  unfold FP.addAuthenticodeHashers
  rw [getOmit_none h]

example := C09_not_pe (FP.new [1, 2, 3] 7) ["sha1"] (by
  rintro ⟨o, s, d, h⟩
  rcases C08_exact [1, 2, 3] with ⟨_, hn⟩ | ⟨_, _, _, _, hk⟩
  · exact hn ⟨o, s, d, h⟩
  · have h0 : getOmit [1, 2, 3] = .ok none := by decide +kernel
    rw [h0] at hk
    cases hk)

/-- The authentihash as a function: a usable header gives exactly one digest, the digest of the stripped file, whatever
the block size; without a usable header there is none. -/
theorem C09_authentihash_iff (H : String → Bytes → Bytes) (n : String) (bs : Int) (hbs : 1 ≤ bs) (file dig : Bytes) :
    Authentihash H n bs file dig ↔
      ∃ oho ohs dir, Header file oho ohs dir ∧ dig = H n (deleteSections file (omitted file oho ohs dir)) := by
  constructor
  · rintro ⟨fp, res, fp', h1, h2, h3⟩
    by_cases hh : ∃ oho ohs dir, Header file oho ohs dir
    · obtain ⟨oho, ohs, dir, hh⟩ := hh
      refine ⟨oho, ohs, dir, hh, ?_⟩
      obtain ⟨fp₁, res', fp₂, ds, e1, e2, e3, e4, _⟩ := C09_authentihash_exact H (FP.new file bs) rfl hbs []
        (by simp) [n] oho ohs dir hh
      change (FP.new file bs).addAuthenticodeHashers [n] = _ at e1
      rw [h1] at e1
      injection e1 with _ e1
      subst e1
      have := (ends_unique h2 e2).1
      injection this with this
      subst this
      rw [e3, Option.bind_some, e4 n] at h3
      simp only [List.mem_singleton, if_true] at h3
      injection h3 with h3
      exact h3.symm
    · rw [C09_not_pe (FP.new file bs) [n] hh] at h1
      injection h1 with h1
      injection h1 with h1
      cases h1
  · rintro ⟨oho, ohs, dir, hh, rfl⟩
    obtain ⟨fp₁, res', fp₂, ds, e1, e2, e3, e4, _⟩ := C09_authentihash_exact H (FP.new file bs) rfl hbs []
        (by simp) [n] oho ohs dir hh
    refine ⟨fp₁, res', fp₂, e1, e2, ?_⟩
    rw [e3, Option.bind_some, e4 n]
    simp [FP.new]

/-- Non-trivial case: the stripped bytes of a signed file (checksum, entry and table removed). -/
example : Header exSigned 88 136 216 ∧ (deleteSections exSigned (omitted exSigned 88 136 216)) =
    exSigned.take 152 ++ (exSigned.take 216).drop 156 ++ [7, 7, 7] ∧
    (deleteSections exSigned (omitted exSigned 88 136 216)).length = 152 + 60 + 3 :=
  ⟨exSigned_header, by decide +kernel, by decide +kernel⟩

/-- The signed file with another checksum. -/
def exSummed : Bytes := patch exSigned 152 [1, 2, 3, 4]

theorem exSigned_hash (H : String → Bytes → Bytes) (n : String) (bs : Int) (h : 1 ≤ bs) : Authentihash H n bs exSigned
    (H n (deleteSections exSigned (omitted exSigned 88 136 216))) :=
  (C09_authentihash_iff H n bs h _ _).2 ⟨88, 136, 216, exSigned_header, rfl⟩

theorem exSummed_hash (H : String → Bytes → Bytes) (n : String) (bs : Int) (h : 1 ≤ bs) : Authentihash H n bs exSummed
    (H n (deleteSections exSigned (omitted exSigned 88 136 216))) :=
  (C09_authentihash_iff H n bs h _ _).2 ⟨88, 136, 216, by decide +kernel, congrArg (H n) (by decide +kernel)⟩

/-- A file without certificate table. -/
def exBare : Bytes := exPE 16 [0, 0, 0, 0, 0, 0, 0, 0] [7, 7, 7]

theorem exBare_header : Header exBare 88 136 216 := by decide +kernel

theorem exBare_bare : ∀ a s, ¬ HasTable exBare 88 136 216 a s := by
  rintro a s ⟨_, _, h, h', _⟩
  exact h' (h.trans (by decide +kernel))

/-- The same file with a table that does not lie in the file. -/
def exBeyond : Bytes := exPE 16 [224, 0, 0, 0, 99, 0, 0, 0] [7, 7, 7]

theorem exBeyond_bare : ∀ a s, ¬ HasTable exBeyond 88 136 216 a s := by
  rintro a s ⟨_, h, h', _, _, h2⟩
  rw [h, h'] at h2
  exact absurd h2 (by decide +kernel)

/-! ### C10 -/

/-- **C10**.  If two files have the same authentihash (with any block sizes), then either two different byte strings with
the same digest are exhibited, or both files are the same image: same header geometry, and with the certificate tables
cut out they agree in every byte outside the checksum field and the certificate table's directory entry. -/
theorem C10_tamper_detection (H : String → Bytes → Bytes) (n : String) (bs₁ bs₂ : Int) (h₁ : 1 ≤ bs₁) (h₂ : 1 ≤ bs₂)
    (f g dig : Bytes) (hf : Authentihash H n bs₁ f dig) (hg : Authentihash H n bs₂ g dig) :
    (∃ x y, x ≠ y ∧ H n x = H n y) ∨ SameImage f g := by
  obtain ⟨a, b, c, hf, e1⟩ := (C09_authentihash_iff H n bs₁ h₁ f dig).1 hf
  obtain ⟨a', b', c', hg, e2⟩ := (C09_authentihash_iff H n bs₂ h₂ g dig).1 hg
  by_cases he : deleteSections f (omitted f a b c) = deleteSections g (omitted g a' b' c')
  · exact Or.inr ((strip_iff_sameImage hf hg).1 he)
  · exact Or.inl ⟨_, _, he, e1.symm.trans e2⟩

example (H : String → Bytes → Bytes) :=
  C10_tamper_detection H "sha1" 7 1000 (by decide) (by decide) exSigned exSummed _
    (exSigned_hash H "sha1" 7 (by decide)) (exSummed_hash H "sha1" 1000 (by decide))

/-- **C10**, converse: files that are the same image have the same authentihash, whatever the hash function. -/
theorem C10_same_image_same_hash (H : String → Bytes → Bytes) (n : String) (bs₁ bs₂ : Int) (h₁ : 1 ≤ bs₁) (h₂ : 1 ≤ bs₂)
    (f g dig : Bytes) (h : SameImage f g) (hf : Authentihash H n bs₁ f dig) : Authentihash H n bs₂ g dig := by
  obtain ⟨a, b, c, hf', rfl⟩ := (C09_authentihash_iff H n bs₁ h₁ f dig).1 hf
  have h' := h
  obtain ⟨a', b', c', _, hg, _⟩ := h'
  refine (C09_authentihash_iff H n bs₂ h₂ g _).2 ⟨a', b', c', hg, ?_⟩
  rw [(strip_iff_sameImage hf' hg).2 h]

example (H : String → Bytes → Bytes) :=
  C10_same_image_same_hash H "sha1" 7 1000 (by decide) (by decide) exSigned exSummed _
    ((C10_tamper_detection (fun _ x => x) "" 7 7 (by decide) (by decide) exSigned exSummed _
      (exSigned_hash _ _ 7 (by decide)) (exSummed_hash _ _ 7 (by decide))).resolve_left (fun ⟨_, _, h, h'⟩ => h h'))
    (exSigned_hash H "sha1" 7 (by decide))

/-- **C10** for a file without certificate table on both sides: only the checksum field and the directory entry may
differ. -/
theorem C10_unsigned_files (H : String → Bytes → Bytes) (n : String) (bs₁ bs₂ : Int) (h₁ : 1 ≤ bs₁) (h₂ : 1 ≤ bs₂)
    (f g dig : Bytes) (oho ohs dir : Nat) (hh : Header f oho ohs dir)
    (hnf : ∀ a s, ¬ HasTable f oho ohs dir a s) (hng : ∀ a s, ¬ HasTable g oho ohs dir a s)
    (hf : Authentihash H n bs₁ f dig) (hg : Authentihash H n bs₂ g dig) :
    (∃ x y, x ≠ y ∧ H n x = H n y) ∨ (f.length = g.length ∧
      ∀ i, ¬ (oho + 64 ≤ i ∧ i < oho + 68) → ¬ (dir ≤ i ∧ i < dir + 8) → f[i]? = g[i]?) := by
  rcases C10_tamper_detection H n bs₁ bs₂ h₁ h₂ f g dig hf hg with h | ⟨a, b, c, k1, k2, _, k3, k4⟩
  · exact Or.inl h
  · right
    obtain ⟨rfl, rfl, rfl⟩ := header_unique hh k1
    rw [withoutTable_eq, withoutTable_eq, if_neg (hnf _ _), if_neg (hng _ _)] at k3
    refine ⟨k3, fun i i1 i2 => ?_⟩
    have := k4 i i1 (fun hc => i2 hc.2)
    rwa [withoutTable_eq, withoutTable_eq, if_neg (hnf _ _), if_neg (hng _ _)] at this

example (H : String → Bytes → Bytes) :=
  C10_unsigned_files H "sha1" 7 1000 (by decide) (by decide) exBare exBeyond
    (H "sha1" (deleteSections exBare (omitted exBare 88 136 216))) 88 136 216 exBare_header exBare_bare exBeyond_bare
    ((C09_authentihash_iff H _ _ (by decide) _ _).2 ⟨88, 136, 216, exBare_header, rfl⟩)
    ((C09_authentihash_iff H _ _ (by decide) _ _).2 ⟨88, 136, 216, by decide +kernel, congrArg (H "sha1") (by decide +kernel)⟩)

example : Authentihash (fun _ x => x) "id" 7 exSigned (exSigned.take 152 ++ (exSigned.take 216).drop 156 ++ [7, 7, 7]) :=
  (C09_authentihash_iff _ _ 7 (by decide) _ _).2 ⟨88, 136, 216, exSigned_header, by decide +kernel⟩

/-! ### C11 -/

/-- The image of `exSigned` with the certificate table relocated behind the first body byte. -/
def exMoved : Bytes :=
  exPE 16 [225, 0, 0, 0, 16, 0, 0, 0] ([7] ++ [16, 0, 0, 0, 0, 2, 2, 0] ++ [9, 9, 9, 9, 9, 9, 9, 9] ++ [7, 7])

/-- **C11** is false of the code: for every hash function, moving the certificate table within the file leaves the
authentihash unchanged, although the files differ at offset 224, which lies outside the omitted sections of `exMoved`. -/
theorem C11_position_not_pinned_false (H : String → Bytes → Bytes) (n : String) :
    (∃ dig, Authentihash H n 1000000 exSigned dig ∧ Authentihash H n 1000000 exMoved dig) ∧
    exSigned[224]? = some 16 ∧ exMoved[224]? = some 7 ∧
    (∀ r ∈ omitted exMoved 88 136 216, ¬ RelHas r 224) := by
  refine ⟨⟨_, (C09_authentihash_iff _ _ _ (by decide) _ _).2 ⟨88, 136, 216, exSigned_header, rfl⟩,
    (C09_authentihash_iff _ _ _ (by decide) _ _).2 ⟨88, 136, 216, by decide +kernel, ?_⟩⟩, by decide +kernel,
    by decide +kernel, ?_⟩
  · have : deleteSections exSigned (omitted exSigned 88 136 216) = deleteSections exMoved (omitted exMoved 88 136 216) := by
      decide +kernel
    rw [this]
  · have : omitted exMoved 88 136 216 = [⟨152, 4⟩, ⟨216, 8⟩, ⟨225, 16⟩] := by decide +kernel
    rw [this]
    intro r hr
    simp only [List.mem_cons, List.not_mem_nil, or_false] at hr
    rcases hr with rfl | rfl | rfl <;> decide

/-- **C11**, what holds (missing: files whose tables are at different places).  If the certificate tables of both files
start at the same offset (for files without one see `C10_unsigned_files`), equal authentihashes force equal bytes at equal offsets everywhere
before the tables, outside the checksum field and the directory entry, and equal bytes after them. -/
theorem C11_same_position_partial (H : String → Bytes → Bytes) (n : String) (bs₁ bs₂ : Int) (h₁ : 1 ≤ bs₁) (h₂ : 1 ≤ bs₂)
    (f g dig : Bytes) (oho ohs dir a s s' : Nat) (hh : Header f oho ohs dir)
    (htf : HasTable f oho ohs dir a s) (htg : HasTable g oho ohs dir a s')
    (hf : Authentihash H n bs₁ f dig) (hg : Authentihash H n bs₂ g dig) :
    (∃ x y, x ≠ y ∧ H n x = H n y) ∨
      ((∀ i < a, ¬ (oho + 64 ≤ i ∧ i < oho + 68) → ¬ (dir ≤ i ∧ i < dir + 8) → f[i]? = g[i]?) ∧
       f.drop (a + s) = g.drop (a + s')) := by
  rcases C10_tamper_detection H n bs₁ bs₂ h₁ h₂ f g dig hf hg with h | ⟨x, y, z, k1, k2, _, k3, k4⟩
  · exact Or.inl h
  · right
    obtain ⟨rfl, rfl, rfl⟩ := header_unique hh k1
    have htf' := htf
    have htg' := htg
    obtain ⟨q0, q1, q2, q3, q4, q5⟩ := htf
    obtain ⟨r0, r1, r2, r3, r4, r5⟩ := htg
    have wf : withoutTable f oho ohs dir = cut f a (a + s) := by
      rw [withoutTable_eq, ← q1, ← q2, if_pos htf']
    have wg : withoutTable g oho ohs dir = cut g a (a + s') := by
      rw [withoutTable_eq, ← r1, ← r2, if_pos htg']
    rw [wf, wg] at k3 k4
    refine ⟨fun i i0 i1 i2 => ?_, ?_⟩
    · have := k4 i i1 (fun hc => i2 hc.2)
      rwa [cut_getElem?_low i0 (by omega), cut_getElem?_low i0 (by omega)] at this
    · apply List.ext_getElem?
      intro i
      rw [List.getElem?_drop, List.getElem?_drop]
      have hd := q0.1
      have hm : oho + 128 ≤ dir := by rcases hh.magic with ⟨_, rfl⟩ | ⟨_, rfl⟩ <;> omega
      have := k4 (a + i) (by omega) (by omega)
      rw [cut_getElem?_high (by omega) (by omega), cut_getElem?_high (by omega) (by omega)] at this
      have e1 : a + i - a + (a + s) = a + s + i := by omega
      have e2 : a + i - a + (a + s') = a + s' + i := by omega
      rwa [e1, e2] at this

example (H : String → Bytes → Bytes) :=
  C11_same_position_partial H "sha1" 7 1000 (by decide) (by decide) exSigned
    (exPE 16 [224, 0, 0, 0, 8, 0, 0, 0] (List.replicate 8 1 ++ [7, 7, 7]))
    (H "sha1" (deleteSections exSigned (omitted exSigned 88 136 216))) 88 136 216 224 16 8 exSigned_header
    (by decide +kernel) (by decide +kernel) (exSigned_hash H "sha1" 7 (by decide))
    ((C09_authentihash_iff H _ _ (by decide) _ _).2 ⟨88, 136, 216, by decide +kernel, congrArg (H "sha1") (by decide +kernel)⟩)

/-- Two different files meeting the hypotheses: tables of different sizes at the same offset. -/
example : HasTable exSigned 88 136 216 224 16 ∧
    HasTable (exPE 16 [224, 0, 0, 0, 8, 0, 0, 0] (List.replicate 8 1 ++ [7, 7, 7])) 88 136 216 224 8 := by
  constructor <;> decide +kernel

/-! ### C12 -/

/-- Attaching a signature: overwrite the checksum and the directory entry, append the table. -/
def attach (f : Bytes) (oho dir : Nat) (checksum table : Bytes) : Bytes :=
  patch (patch f (oho + 64) checksum) dir (leBytes 4 f.length ++ leBytes 4 table.length) ++ table

/-- Attaching a signature to a file without certificate table yields a file whose table is the attached one, and the
same image. -/
theorem attach_sameImage {f : Bytes} {oho ohs dir : Nat} (hh : Header f oho ohs dir) (hE : HasEntry f oho ohs dir)
    (hn : ∀ a s, ¬ HasTable f oho ohs dir a s) (checksum table : Bytes) (hck : checksum.length = 4) (ht : table ≠ [])
    (hsz : f.length + table.length < 2 ^ 32) :
    SameImage f (attach f oho dir checksum table) ∧
    Header (attach f oho dir checksum table) oho ohs dir ∧
    HasTable (attach f oho dir checksum table) oho ohs dir f.length table.length ∧
    (attach f oho dir checksum table).drop f.length = table := by
  have hd : oho + 128 ≤ dir := by rcases hh.magic with ⟨_, rfl⟩ | ⟨_, rfl⟩ <;> omega
  have h1 := hh.inside
  have h2 := hh.hasChecksum
  have hE1 := hE.1
  have htl : 0 < table.length := List.length_pos_iff.2 ht
  have el : (leBytes 4 f.length ++ leBytes 4 table.length).length = 8 := by
    rw [List.length_append, leBytes_length, leBytes_length]
  have l1 : (patch f (oho + 64) checksum).length = f.length := patch_length (by omega)
  have l2 : (patch (patch f (oho + 64) checksum) dir (leBytes 4 f.length ++ leBytes 4 table.length)).length = f.length := by
    rw [patch_length (by omega), l1]
  have hlow : ∀ i < f.length, ¬ (oho + 64 ≤ i ∧ i < oho + 68) → ¬ (dir ≤ i ∧ i < dir + 8) →
      (attach f oho dir checksum table)[i]? = f[i]? := by
    intro i hi i1 i2
    unfold attach
    rw [List.getElem?_append_left (by omega), patch_getElem? (by omega) (by omega), patch_getElem? (by omega) (by omega)]
  have hgl : (attach f oho dir checksum table).length = f.length + table.length := by
    unfold attach; rw [List.length_append, l2]
  have ⟨hg, hgE⟩ := header_congr (g := attach f oho dir checksum table) hh (by omega)
    (fun i i0 i1 i2 => (hlow i (by omega) i1 i2).symm)
  have hwin : ((attach f oho dir checksum table).drop dir).take 8 = leBytes 4 f.length ++ leBytes 4 table.length := by
    unfold attach
    rw [List.drop_append_of_le_length (by omega), List.take_append_of_le_length (by rw [List.length_drop]; omega)]
    have := patch_window (f := patch f (oho + 64) checksum) (off := dir)
      (bs := leBytes 4 f.length ++ leBytes 4 table.length) (by omega)
    rwa [el] at this
  have w1 : ((attach f oho dir checksum table).drop dir).take 4 = leBytes 4 f.length := by
    have := congrArg (List.take 4) hwin
    rw [List.take_take, List.take_append_of_le_length (by rw [leBytes_length]; omega)] at this
    rw [show min 4 8 = 4 from rfl] at this
    rw [this, List.take_of_length_le (by rw [leBytes_length]; omega)]
  have w2 : ((attach f oho dir checksum table).drop (dir + 4)).take 4 = leBytes 4 table.length := by
    have := congrArg (List.drop 4) hwin
    rw [List.drop_take, List.drop_drop] at this
    rw [show (8 - 4 : Nat) = 4 from rfl] at this
    rw [this, List.drop_append_of_le_length (by rw [leBytes_length]; omega), List.drop_of_length_le (by rw [leBytes_length]; omega),
      List.nil_append]
  have v1 := leAt_of_window w1 (by omega)
  have v2 := leAt_of_window w2 (by omega)
  have hT : HasTable (attach f oho dir checksum table) oho ohs dir f.length table.length :=
    ⟨hgE.1 hE, v1.symm, v2.symm, by omega, by omega, by omega⟩
  have wf : withoutTable f oho ohs dir = f := by rw [withoutTable_eq, if_neg (hn _ _)]
  have wg : withoutTable (attach f oho dir checksum table) oho ohs dir =
      cut (attach f oho dir checksum table) f.length (f.length + table.length) := by
    rw [withoutTable_eq, v1, v2, if_pos hT]
  refine ⟨⟨oho, ohs, dir, hh, hg, hgE, ?_, ?_⟩, hg, hT, ?_⟩
  · rw [wf, wg, cut_length (by omega) (by omega), hgl]; omega
  · intro i i1 i2
    have i2 : ¬ (dir ≤ i ∧ i < dir + 8) := fun hc => i2 ⟨hE, hc⟩
    rw [wf, wg]
    by_cases hi : i < f.length
    · rw [cut_getElem?_low hi (by omega), hlow i hi i1 i2]
    · rw [cut_getElem?_high (by omega) (by omega), List.getElem?_eq_none (by omega), List.getElem?_eq_none (by omega)]
  · unfold attach
    rw [List.drop_append_of_le_length (by omega), List.drop_of_length_le (by omega), List.nil_append]

/-- **C12**.  Attaching a signature to an unsigned PE file that has a directory entry for it, with any checksum and any
(non-empty) table such that the file stays below 4 GiB, leaves the authentihash unchanged; and the attached table is the
certificate table of the new file. -/
theorem C12_signing_keeps_hash (H : String → Bytes → Bytes) (n : String) (bs₁ bs₂ : Int) (h₁ : 1 ≤ bs₁) (h₂ : 1 ≤ bs₂)
    (f : Bytes) (oho ohs dir : Nat) (hh : Header f oho ohs dir) (hE : HasEntry f oho ohs dir)
    (hn : ∀ a s, ¬ HasTable f oho ohs dir a s) (checksum table : Bytes) (hck : checksum.length = 4) (ht : table ≠ [])
    (hsz : f.length + table.length < 2 ^ 32) (dig : Bytes) :
    (Authentihash H n bs₁ f dig ↔ Authentihash H n bs₂ (attach f oho dir checksum table) dig) ∧
    HasTable (attach f oho dir checksum table) oho ohs dir f.length table.length ∧
    (attach f oho dir checksum table).drop f.length = table := by
  have ⟨hs, hg, hT, hd⟩ := attach_sameImage hh hE hn checksum table hck ht hsz
  refine ⟨⟨fun h => C10_same_image_same_hash H n bs₁ bs₂ h₁ h₂ _ _ _ hs h, fun h => ?_⟩, hT, hd⟩
  obtain ⟨a, b, c, e1, e2⟩ := (C09_authentihash_iff H n bs₂ h₂ _ dig).1 h
  refine (C09_authentihash_iff H n bs₁ h₁ f dig).2 ⟨oho, ohs, dir, hh, ?_⟩
  rw [e2, (strip_iff_sameImage hh e1).2 hs]

example (H : String → Bytes → Bytes) :=
  C12_signing_keeps_hash H "sha1" 7 1000 (by decide) (by decide) exBare 88 136 216 exBare_header (by decide +kernel) exBare_bare
    [5, 6, 7, 8] (certTable [⟨0x200, 2, [9]⟩]) rfl (by decide +kernel) (by decide +kernel)

/-- **C12**, last sentence: overwriting bytes of an existing certificate table leaves the authentihash unchanged. -/
theorem C12_table_content_irrelevant (H : String → Bytes → Bytes) (n : String) (bs₁ bs₂ : Int) (h₁ : 1 ≤ bs₁) (h₂ : 1 ≤ bs₂)
    (f : Bytes) (oho ohs dir a s : Nat) (hh : Header f oho ohs dir) (hT : HasTable f oho ohs dir a s)
    (off : Nat) (bs : Bytes) (hlo : a ≤ off) (hhi : off + bs.length ≤ a + s) (dig : Bytes)
    (hf : Authentihash H n bs₁ f dig) : Authentihash H n bs₂ (patch f off bs) dig := by
  have hd : oho + 128 ≤ dir := by rcases hh.magic with ⟨_, rfl⟩ | ⟨_, rfl⟩ <;> omega
  have hT' := hT
  obtain ⟨q0, q1, q2, q3, q4, q5⟩ := hT
  have h1 := hh.inside
  have q01 := q0.1
  have hl : (patch f off bs).length = f.length := patch_length (by omega)
  have hlow : ∀ i, ¬ (a ≤ i ∧ i < a + s) → (patch f off bs)[i]? = f[i]? := fun i hi => patch_getElem? (by omega) (by omega)
  have ⟨hg, hgE⟩ := header_congr (g := patch f off bs) hh (by omega) (fun i i0 _ _ => (hlow i (by omega)).symm)
  have v1 : leAt (patch f off bs) dir 4 = a := by
    rw [q1]; apply leAt_congr; intro j hj
    rw [getD_eq_getElem?, getD_eq_getElem?, hlow _ (by omega)]
  have v2 : leAt (patch f off bs) (dir + 4) 4 = s := by
    rw [q2]; apply leAt_congr; intro j hj
    rw [getD_eq_getElem?, getD_eq_getElem?, hlow _ (by omega)]
  have hTg : HasTable (patch f off bs) oho ohs dir a s := ⟨hgE.1 q0, v1.symm, v2.symm, q3, q4, by omega⟩
  have wf : withoutTable f oho ohs dir = cut f a (a + s) := by rw [withoutTable_eq, ← q1, ← q2, if_pos hT']
  have wg : withoutTable (patch f off bs) oho ohs dir = cut (patch f off bs) a (a + s) := by
    rw [withoutTable_eq, v1, v2, if_pos hTg]
  refine C10_same_image_same_hash H n bs₁ bs₂ h₁ h₂ _ _ _ ⟨oho, ohs, dir, hh, hg, hgE, ?_, ?_⟩ hf
  · rw [wf, wg, cut_length (by omega) (by omega), cut_length (by omega) (by omega), hl]
  · intro i _ _
    rw [wf, wg]
    have := (cut_inj (x := f) (y := patch f off bs) (a := a) (b := a + s) (by omega) (by omega) (by omega)).2
      ⟨hl.symm, fun i hi => (hlow i hi).symm⟩
    rw [this]

example (H : String → Bytes → Bytes) :=
  C12_table_content_irrelevant H "sha1" 7 1000 (by decide) (by decide) exSigned 88 136 216 224 16 exSigned_header (by decide +kernel)
    230 [1, 2, 3] (by decide) (by decide) _ (exSigned_hash H "sha1" 7 (by decide))

/-- An unsigned file meeting the hypotheses of `C12_signing_keeps_hash`. -/
example : Header (exPE 16 [0, 0, 0, 0, 0, 0, 0, 0] [7, 7, 7]) 88 136 216 ∧
    HasEntry (exPE 16 [0, 0, 0, 0, 0, 0, 0, 0] [7, 7, 7]) 88 136 216 ∧
    (∀ a s, ¬ HasTable (exPE 16 [0, 0, 0, 0, 0, 0, 0, 0] [7, 7, 7]) 88 136 216 a s) ∧
    attach (exPE 16 [0, 0, 0, 0, 0, 0, 0, 0] [7, 7, 7]) 88 216 [5, 6, 7, 8] (certTable [⟨0x200, 2, [9]⟩]) =
      patch (exPE 16 [227, 0, 0, 0, 16, 0, 0, 0] ([7, 7, 7] ++ [9, 0, 0, 0, 0, 2, 2, 0, 9, 0, 0, 0, 0, 0, 0, 0])) 152
        [5, 6, 7, 8] := by
  refine ⟨by decide +kernel, by decide +kernel, ?_, by decide +kernel⟩
  rintro a s ⟨_, _, h, h', _⟩
  exact h' (h.trans (by decide +kernel))

/-! ### C13 -/

/-- **C13**.  If the certificate table of a file (wherever it is) holds the serialisation of the entries `es`, iterating
the certificate table yields exactly `es`, in order and without error. -/
theorem C13_round_trip (file : Bytes) (oho ohs dir a : Nat) (es : List CertEntry) (hh : Header file oho ohs dir)
    (hT : HasTable file oho ohs dir a (certTable es).length)
    (hc : (file.drop a).take (certTable es).length = certTable es) (hfit : ∀ e ∈ es, Fits e) :
    parseCertTable file = (es, none) := by
  unfold parseCertTable
  rw [parseCertTable_table hh hT, certLoop_roundtrip file es _ a hc hfit ?_]
  · rfl
  · have h1 := hT.2.2.2.2.2
    have h2 := certTable_count es
    omega

example := C13_round_trip exSigned 88 136 216 224 [⟨0x200, 2, [9, 9, 9, 9, 9, 9, 9, 9]⟩] exSigned_header (by decide +kernel)
  (by decide +kernel) (by
    intro e he
    simp only [List.mem_cons, List.not_mem_nil, or_false] at he
    subst he
    exact ⟨by decide, by decide, by decide, by decide⟩)

/-- **C13** for a file signed with `attach`: signing and iterating the certificate table gives back the entries. -/
theorem C13_attach_round_trip (f : Bytes) (oho ohs dir : Nat) (hh : Header f oho ohs dir) (hE : HasEntry f oho ohs dir)
    (hn : ∀ a s, ¬ HasTable f oho ohs dir a s) (checksum : Bytes) (hck : checksum.length = 4) (es : List CertEntry)
    (hne : es ≠ []) (hfit : ∀ e ∈ es, Fits e) (hsz : f.length + (certTable es).length < 2 ^ 32) :
    parseCertTable (attach f oho dir checksum (certTable es)) = (es, none) := by
  have ht : certTable es ≠ [] := by
    have := certTable_count es
    have := List.length_pos_iff.2 hne
    exact List.length_pos_iff.1 (by omega)
  have ⟨_, hg, hT, hd⟩ := attach_sameImage hh hE hn checksum (certTable es) hck ht hsz
  exact C13_round_trip _ oho ohs dir f.length es hg hT (by rw [hd, List.take_length]) hfit

example := C13_attach_round_trip exBare 88 136 216 exBare_header (by decide +kernel) exBare_bare [5, 6, 7, 8] rfl
  [⟨0x200, 2, [1, 2, 3]⟩, ⟨0x100, 1, List.replicate 8 5⟩] (by decide) (by
    intro e he
    simp only [List.mem_cons, List.not_mem_nil, or_false] at he
    rcases he with rfl | rfl <;> exact ⟨by decide, by decide, by decide, by decide⟩) (by decide +kernel)

example : ∀ e ∈ [(⟨0x200, 2, [1, 2, 3]⟩ : CertEntry), ⟨0x100, 1, List.replicate 8 5⟩], Fits e := by
  intro e he
  simp only [List.mem_cons, List.not_mem_nil, or_false] at he
  rcases he with rfl | rfl <;> exact ⟨by decide, by decide, by decide, by decide⟩

example : parseCertTable (attach (exPE 16 [0, 0, 0, 0, 0, 0, 0, 0] []) 88 216 [0, 0, 0, 0]
    (certTable [⟨0x200, 2, [1, 2, 3]⟩, ⟨0x100, 1, List.replicate 8 5⟩])) =
    ([⟨0x200, 2, [1, 2, 3]⟩, ⟨0x100, 1, List.replicate 8 5⟩], none) := by decide +kernel

/-! ### C14 -/

/-- **C14**.  Iterating the certificate table of any byte string ends (within `len + 1` iterations; more fuel changes
nothing); only a `SignedPEParseError` can end it early; if the file has no certificate table nothing is yielded and
it does; otherwise the yielded payloads are non-empty slices of the file inside the table, ascending and disjoint, with
16-bit revision and type, and `n` of them need a table of at least `16 (n - 1) + 9` bytes. -/
theorem C14_iteration_safe (file : Bytes) :
    (∃ g, ∀ fuel, file.length < fuel → parseCertTableN fuel file = some g) ∧
    (∀ e, (parseCertTable file).2 = some e → e.cls = .signedPEParseError) ∧
    ((¬ ∃ oho ohs dir a s, Header file oho ohs dir ∧ HasTable file oho ohs dir a s) →
      (parseCertTable file).1 = [] ∧ (parseCertTable file).2 ≠ none) ∧
    (∀ oho ohs dir a s, Header file oho ohs dir → HasTable file oho ohs dir a s →
      SlicesIn file a (a + s) ((parseCertTable file).1.map CertEntry.certificate) ∧
      (∀ x ∈ (parseCertTable file).1, x.revision < 2 ^ 16 ∧ x.type < 2 ^ 16) ∧
      ((parseCertTable file).1 ≠ [] → 16 * ((parseCertTable file).1.length - 1) + 9 ≤ s)) := by
  by_cases h : ∃ oho ohs dir a s, Header file oho ohs dir ∧ HasTable file oho ohs dir a s
  · obtain ⟨oho, ohs, dir, a, s, hh, hT⟩ := h
    have hin := hT.2.2.2.2.2
    obtain ⟨es, e, i1, i2, i3, i4, i5⟩ := certLoop_facts file (a + s) hin (file.length + 1) a (by omega) (by omega)
    have hp : parseCertTable file = (es, e) := by
      unfold parseCertTable; rw [parseCertTable_table hh hT, i1]; rfl
    have mono : ∀ fuel, file.length < fuel → parseCertTableN fuel file = some (es, e) := by
      intro fuel hf
      rw [parseCertTable_table hh hT]
      have gen : ∀ (n m pos : Nat) (g : Gen CertEntry), n ≤ m → certLoop file (a + s) n pos = some g →
          certLoop file (a + s) m pos = some g := by
        intro n
        induction n with
        | zero => intro m pos g _ h; cases h
        | succ n ih =>
          intro m pos g hle h
          obtain ⟨m, rfl⟩ : ∃ k, m = k + 1 := ⟨m - 1, by omega⟩
          rcases certLoop_step file (a + s) n pos with ⟨h1, h2⟩ | ⟨h1, e, he, h2, hb⟩ | ⟨h1, h2, h3, h4, h5⟩
          · rcases certLoop_step file (a + s) m pos with ⟨h1', h2'⟩ | ⟨h1', _⟩ | ⟨h1', _⟩
            · rw [h2', ← h2, h]
            · exact absurd h1' h1
            · exact absurd h1' h1
          · have : certLoop file (a + s) (m + 1) pos = certLoop file (a + s) (n + 1) pos := by
              unfold certLoop
              rw [if_pos h1]
              by_cases hl : pos + 8 > file.length
              · rw [if_pos hl, if_pos h1, if_pos hl]
              · rw [if_neg hl, if_pos h1, if_neg hl]
                rw [unpackLE_ok (by omega), unpackLE_ok (by omega), unpackLE_ok (by omega)]
                simp only
                rw [if_pos (by omega), if_pos (by omega)]
            rw [this, h]
          · rcases certLoop_step file (a + s) m pos with ⟨h1', h2'⟩ | ⟨h1', _, _, _, hb⟩ | ⟨h1', _, _, _, h5'⟩
            · exact absurd h1 h1'
            · omega
            · rw [h5] at h
              rw [h5']
              cases hr : certLoop file (a + s) n (pos + (leAt file pos 4 + (8 - leAt file pos 4 % 8) % 8)) with
              | none => rw [hr] at h; cases h
              | some x => rw [hr] at h; rw [ih m _ _ (by omega) hr]; exact h
      exact gen _ _ _ _ hf i1
    refine ⟨⟨_, mono⟩, ?_, fun hno => absurd ⟨_, _, _, _, _, hh, hT⟩ hno, ?_⟩
    · rw [hp]; exact fun x hx => i5 x hx
    · intro oho' ohs' dir' a' s' hh' hT'
      obtain ⟨rfl, rfl, rfl⟩ := header_unique hh hh'
      have e1 : a = a' := by rw [hT.2.1, hT'.2.1]
      have e2 : s = s' := by rw [hT.2.2.1, hT'.2.2.1]
      subst e1; subst e2
      rw [hp]
      exact ⟨i2, i3, fun hne => by have := i4 hne; simp only at *; omega⟩
  · have key : ∃ e : Exc, e.cls = .signedPEParseError ∧ ∀ fuel, parseCertTableN fuel file = some ([], some e) := by
      obtain ⟨e, e1, e2⟩ := parseCertTable_noTable h 0
      refine ⟨e, e1, fun fuel => ?_⟩
      rw [← e2]
      unfold parseCertTableN
      rcases getOmit_cases file with ⟨h1, _⟩ | ⟨oho, ohs, dir, hh, h1⟩
      · rw [h1]
      · have hT : ¬ HasTable file oho ohs dir (leAt file dir 4) (leAt file (dir + 4) 4) :=
          fun hT => h ⟨_, _, _, _, _, hh, hT⟩
        rw [h1]; unfold omitOf; rw [if_neg hT]
        by_cases hE : HasEntry file oho ohs dir
        · rw [if_pos hE]; rfl
        · rw [if_neg hE]; rfl
    obtain ⟨e, e1, e2⟩ := key
    have hp : parseCertTable file = ([], some e) := by unfold parseCertTable; rw [e2]; rfl
    refine ⟨⟨_, fun fuel _ => e2 fuel⟩, ?_, ?_, ?_⟩
    · rw [hp]; rintro x ⟨⟩; exact e1
    · intro _; rw [hp]; simp
    · intro oho ohs dir a s hh hT
      exact absurd ⟨_, _, _, _, _, hh, hT⟩ h

/-- A truncated second record: the first entry is yielded, then the error. -/
example : ((parseCertTable (exPE 16 [224, 0, 0, 0, 24, 0, 0, 0]
    ([12, 0, 0, 0, 0, 2, 2, 0, 1, 2, 3, 4, 0, 0, 0, 0] ++ [99, 0, 0, 0, 0, 2, 2, 0]))).1,
    (parseCertTable (exPE 16 [224, 0, 0, 0, 24, 0, 0, 0]
    ([12, 0, 0, 0, 0, 2, 2, 0, 1, 2, 3, 4, 0, 0, 0, 0] ++ [99, 0, 0, 0, 0, 2, 2, 0]))).2.map Exc.cls) =
    ([⟨0x200, 2, [1, 2, 3, 4]⟩], some .signedPEParseError) := by decide +kernel

end Signify.Props
