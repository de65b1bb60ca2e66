/-
Helper lemmas about PE header parsing.
-/
import Verif.Spec.SignedPE
import Verif.Spec.Fingerprinter

set_option autoImplicit false

namespace Signify
open Spec

theorem leNat_append (a b : Bytes) : leNat (a ++ b) = leNat a + 256 ^ a.length * leNat b := by
  induction a with
  | nil => simp [leNat]
  | cons x a ih =>
    simp only [List.cons_append, leNat, ih, List.length_cons, Nat.pow_succ]
    rw [Nat.mul_add, Nat.add_assoc]
    congr 2
    rw [Nat.mul_comm (256 ^ a.length) 256, Nat.mul_assoc]

theorem readN_length {file : Bytes} {pos n : Nat} : (readN file pos n).length = min n (file.length - pos) := by
  simp [readN]

theorem readN_succ {file : Bytes} {pos n : Nat} (h : pos + n < file.length) :
    readN file pos (n + 1) = readN file pos n ++ [file[pos + n]] := by
  unfold readN
  rw [List.take_succ]
  congr 1
  simp [List.getElem?_eq_getElem h]

theorem leNat_readN {file : Bytes} {pos : Nat} : ∀ {n : Nat}, pos + n ≤ file.length →
    leNat (readN file pos n) = leAt file pos n
  | 0, _ => by simp [readN, leNat, leAt]
  | n + 1, h => by
    rw [readN_succ (by omega), leNat_append, leNat_readN (by omega), readN_length]
    simp only [leAt, leNat, Nat.mul_zero, Nat.add_zero]
    rw [Nat.min_eq_left (by omega), Nat.mul_comm]
    congr 2
    rw [List.getD_eq_getElem?_getD, List.getElem?_eq_getElem (by omega)]
    rfl

theorem unpackLE_ok {file : Bytes} {pos n : Nat} (h : pos + n ≤ file.length) :
    unpackLE n (readN file pos n) = .ok (leAt file pos n) := by
  unfold unpackLE
  rw [if_pos (by rw [readN_length]; omega), leNat_readN h]

theorem unpackLE_eq_ok {file : Bytes} {pos n v : Nat} (hn : 0 < n) (h : unpackLE n (readN file pos n) = .ok v) :
    pos + n ≤ file.length ∧ v = leAt file pos n := by
  unfold unpackLE at h
  split at h
  · rename_i hl
    rw [readN_length] at hl
    have : pos + n ≤ file.length := by omega
    injection h with h
    rw [leNat_readN this] at h
    exact ⟨this, h.symm⟩
  · cases h

theorem unpackLE_err {data : Bytes} {n : Nat} {e : Exc} (h : unpackLE n data = .error e) : e.cls = .structError := by
  unfold unpackLE at h
  split at h
  · cases h
  · injection h with h; subst h; rfl

theorem parseDirectories_eq {file : Bytes} {oho ohs rvaBase dir : Nat} (hin : oho + ohs ≤ file.length)
    (hdir : dir = rvaBase + 36) :
    parseDirectories file oho ohs rvaBase dir = .ok (omitOf file oho ohs dir) := by
  subst hdir
  have hsub : rvaBase + 36 - 36 = rvaBase := by omega
  unfold parseDirectories omitOf
  simp only
  by_cases h1 : oho + ohs < rvaBase + 4
  · have hE : ¬ HasEntry file oho ohs (rvaBase + 36) := by unfold HasEntry; omega
    have hT : ¬ HasTable file oho ohs (rvaBase + 36) (leAt file (rvaBase + 36) 4) (leAt file (rvaBase + 36 + 4) 4) := by
      unfold HasTable; exact fun h => hE h.1
    rw [if_pos h1, if_neg hE, if_neg hT]; rfl
  · rw [if_neg h1, unpackLE_ok (by omega)]
    simp only
    by_cases h2 : leAt file rvaBase 4 < 5
    · have hE : ¬ HasEntry file oho ohs (rvaBase + 36) := by unfold HasEntry; rw [hsub]; omega
      have hT : ¬ HasTable file oho ohs (rvaBase + 36) (leAt file (rvaBase + 36) 4) (leAt file (rvaBase + 36 + 4) 4) := by
        unfold HasTable; exact fun h => hE h.1
      rw [if_pos h2, if_neg hE, if_neg hT]; rfl
    · rw [if_neg h2]
      by_cases h3 : oho + ohs < rvaBase + 36 + 8
      · have hE : ¬ HasEntry file oho ohs (rvaBase + 36) := by unfold HasEntry; omega
        have hT : ¬ HasTable file oho ohs (rvaBase + 36) (leAt file (rvaBase + 36) 4) (leAt file (rvaBase + 36 + 4) 4) := by
          unfold HasTable; exact fun h => hE h.1
        rw [if_pos h3, if_neg hE, if_neg hT]; rfl
      · have hE : HasEntry file oho ohs (rvaBase + 36) := by unfold HasEntry; rw [hsub]; omega
        have hl : (readN file (rvaBase + 36) 8).length = 8 := by rw [readN_length]; omega
        have ha : (readN file (rvaBase + 36) 8).take 4 = readN file (rvaBase + 36) 4 := by
          unfold readN; rw [List.take_take]
          simp
        have hs : (readN file (rvaBase + 36) 8).drop 4 = readN file (rvaBase + 36 + 4) 4 := by
          unfold readN; rw [List.drop_take, List.drop_drop]
        rw [if_neg h3, if_pos hE, if_neg (by rw [hl]; simp), ha, hs, leNat_readN (by omega), leNat_readN (by omega)]
        generalize haddr : leAt file (rvaBase + 36) 4 = addr
        generalize hsize : leAt file (rvaBase + 36 + 4) 4 = size
        by_cases h4 : size = 0
        · have hT : ¬ HasTable file oho ohs (rvaBase + 36) addr size := fun h => h.2.2.2.1 h4
          rw [if_pos h4, if_neg hT]; rfl
        · rw [if_neg h4]
          by_cases h5 : addr < ohs + oho ∨ addr + size > file.length
          · have hT : ¬ HasTable file oho ohs (rvaBase + 36) addr size := by
              rintro ⟨_, _, _, _, h, h'⟩; omega
            rw [if_pos h5, if_neg hT]; rfl
          · have hT : HasTable file oho ohs (rvaBase + 36) addr size :=
              ⟨hE, haddr.symm, hsize.symm, h4, by omega, by omega⟩
            rw [if_neg h5, if_pos hT]
            rfl

theorem readN_zero (file : Bytes) (n : Nat) : readN file 0 n = file.take n := by simp [readN]

theorem parsePEHeader_of {file : Bytes} {oho ohs dir : Nat} (h : Header file oho ohs dir) :
    parsePEHeader file = .ok (omitOf file oho ohs dir) := by
  obtain ⟨mz, lf, sig, size, inside, hck, magic⟩ := h
  have hlen : 64 ≤ file.length := by omega
  have u1 := unpackLE_ok (file := file) (pos := 0x3C) (n := 4) (by omega)
  have u2 := unpackLE_ok (file := file) (pos := oho - 4) (n := 2) (by omega)
  have u3 := unpackLE_ok (file := file) (pos := oho) (n := 2) (by omega)
  rw [← size] at u2
  rw [show leAt file 0x3C 4 = oho - 24 from by omega] at u1
  generalize leAt file oho 2 = mg at u3 magic
  have e2 : oho - 24 + 20 = oho - 4 := by omega
  have e3 : oho - 24 + 24 = oho := by omega
  unfold parsePEHeader
  rw [readN_zero, if_neg (by rw [mz]; simp), u1]
  simp only
  rw [if_neg (by omega), if_neg (by unfold readN; rw [sig]; simp), e2, e3, u2]
  simp only
  rw [if_neg (by omega), if_neg (by omega), u3]
  simp only
  rcases magic with ⟨m, rfl⟩ | ⟨m, rfl⟩
  · rw [if_pos m]; exact parseDirectories_eq inside (by omega)
  · rw [if_neg (by omega), if_pos m]; exact parseDirectories_eq inside (by omega)

theorem header_of_parse {file : Bytes} {d} (h : parsePEHeader file = .ok d) :
    ∃ oho ohs dir, Header file oho ohs dir := by
  unfold parsePEHeader at h
  split at h
  · cases h
  · rename_i h1
    split at h
    · cases h
    · rename_i pe hpe
      have ⟨p1, p2⟩ := unpackLE_eq_ok (by omega) hpe
      split at h
      · cases h
      · split at h
        · cases h
        · rename_i h3
          split at h
          · cases h
          · rename_i ohs hohs
            have ⟨q1, q2⟩ := unpackLE_eq_ok (by omega) hohs
            simp only at h
            split at h
            · cases h
            · split at h
              · cases h
              · split at h
                · cases h
                · rename_i sg hsg
                  have ⟨r1, r2⟩ := unpackLE_eq_ok (by omega) hsg
                  have hmz : file.take 2 = [0x4D, 0x5A] := by
                    rw [← readN_zero]; exact Classical.not_not.1 h1
                  have hsig : (file.drop (pe + 24 - 24)).take 4 = [0x50, 0x45, 0, 0] := by
                    rw [Nat.add_sub_cancel]; exact Classical.not_not.1 h3
                  have hsz : ohs = leAt file (pe + 24 - 4) 2 := by
                    rw [show pe + 24 - 4 = pe + 20 from by omega]; exact q2
                  split at h
                  · rename_i hm
                    exact ⟨pe + 24, ohs, pe + 24 + 128, hmz, by omega, hsig, hsz, by omega, by omega,
                      Or.inl ⟨r2 ▸ hm, rfl⟩⟩
                  · split at h
                    · rename_i hm
                      exact ⟨pe + 24, ohs, pe + 24 + 144, hmz, by omega, hsig, hsz, by omega, by omega,
                        Or.inr ⟨r2 ▸ hm, rfl⟩⟩
                    · cases h

theorem parseDirectories_err {file : Bytes} {a b c d : Nat} {e : Exc} (h : parseDirectories file a b c d = .error e) :
    e.cls = .structError := by
  unfold parseDirectories at h
  simp only at h
  split at h
  · cases h
  · split at h
    · rename_i hu; injection h with h; subst h; exact unpackLE_err hu
    · split at h
      · cases h
      · split at h
        · cases h
        · split at h
          · injection h with h; subst h; rfl
          · split at h
            · cases h
            · split at h <;> cases h

theorem parsePEHeader_err {file : Bytes} {e : Exc} (h : parsePEHeader file = .error e) :
    e.cls = .structError ∨ e.cls = .signedPEParseError := by
  unfold parsePEHeader peErr at h
  split at h
  · injection h with h; subst h; exact Or.inr rfl
  · split at h
    · rename_i hu; injection h with h; subst h; exact Or.inl (unpackLE_err hu)
    · split at h
      · injection h with h; subst h; exact Or.inr rfl
      · split at h
        · injection h with h; subst h; exact Or.inr rfl
        · split at h
          · rename_i hu; injection h with h; subst h; exact Or.inl (unpackLE_err hu)
          · simp only at h
            split at h
            · injection h with h; subst h; exact Or.inr rfl
            · split at h
              · injection h with h; subst h; exact Or.inr rfl
              · split at h
                · rename_i hu; injection h with h; subst h; exact Or.inl (unpackLE_err hu)
                · split at h
                  · exact Or.inl (parseDirectories_err h)
                  · split at h
                    · exact Or.inl (parseDirectories_err h)
                    · injection h with h; subst h; exact Or.inr rfl

theorem header_unique {file : Bytes} {a b c a' b' c' : Nat} (h : Header file a b c) (h' : Header file a' b' c') :
    a = a' ∧ b = b' ∧ c = c' := by
  have e1 : a = a' := by rw [h.lfanew, h'.lfanew]
  subst e1
  have e2 : b = b' := by rw [h.size, h'.size]
  subst e2
  refine ⟨rfl, rfl, ?_⟩
  rcases h.magic with ⟨m, rfl⟩ | ⟨m, rfl⟩ <;> rcases h'.magic with ⟨m', rfl⟩ | ⟨m', rfl⟩
  · rfl
  · omega
  · omega
  · rfl

theorem omitOf_filter (file : Bytes) (a b c : Nat) :
    (omitOf file a b c).filter (fun kv => kv.1 ∈ ["checksum", "datadir_certtable", "certtable"]) = omitOf file a b c := by
  unfold omitOf
  split <;> split <;> simp

theorem getOmit_of {file : Bytes} {oho ohs dir : Nat} (h : Header file oho ohs dir) :
    getOmit file = .ok (some (omitOf file oho ohs dir)) := by
  unfold getOmit
  rw [parsePEHeader_of h]
  simp only
  rw [omitOf_filter]

theorem getOmit_none {file : Bytes} (h : ¬ ∃ oho ohs dir, Header file oho ohs dir) : getOmit file = .ok none := by
  unfold getOmit
  cases hp : parsePEHeader file with
  | ok d => exact absurd (header_of_parse hp) h
  | error e =>
    simp only
    rcases parsePEHeader_err hp with he | he
    · have : e.is .structError = true := by unfold Exc.is; rw [he]; decide
      rw [this]; simp
    · have : e.is .signedPEParseError = true := by unfold Exc.is; rw [he]; decide
      rw [this]; simp

theorem getOmit_cases (file : Bytes) :
    (getOmit file = .ok none ∧ ¬ ∃ oho ohs dir, Header file oho ohs dir) ∨
    ∃ oho ohs dir, Header file oho ohs dir ∧ getOmit file = .ok (some (omitOf file oho ohs dir)) := by
  by_cases h : ∃ oho ohs dir, Header file oho ohs dir
  · obtain ⟨a, b, c, h⟩ := h
    exact Or.inr ⟨a, b, c, h, getOmit_of h⟩
  · exact Or.inl ⟨getOmit_none h, h⟩

/-- Sections in order and inside the file. -/
def Chain (flen : Nat) : Nat → List RelRange → Prop
  | start, [] => start ≤ flen
  | start, r :: l => start ≤ r.start ∧ Chain flen (r.start + r.length) l

theorem le_of_start_lt {a b : RelRange} (h : a.start < b.start) : a.le b = true := by
  unfold RelRange.le; simp [h]

theorem omitOf_chain {file : Bytes} {oho ohs dir : Nat} (h : Header file oho ohs dir) :
    Chain file.length 0 ((omitOf file oho ohs dir).map Prod.snd) ∧
    sortRel ((omitOf file oho ohs dir).map Prod.snd) = (omitOf file oho ohs dir).map Prod.snd := by
  have hd : oho + 68 ≤ dir := by rcases h.magic with ⟨_, rfl⟩ | ⟨_, rfl⟩ <;> omega
  have hi := h.inside
  have hc := h.hasChecksum
  unfold omitOf
  by_cases hE : HasEntry file oho ohs dir
  · rw [if_pos hE]
    by_cases hT : HasTable file oho ohs dir (leAt file dir 4) (leAt file (dir + 4) 4)
    · rw [if_pos hT]
      obtain ⟨_, _, _, _, t1, t2⟩ := hT
      generalize leAt file dir 4 = addr at *
      generalize leAt file (dir + 4) 4 = size at *
      have hE1 := hE.1
      simp only [List.map_append, List.map_cons, List.map_nil, List.cons_append, List.nil_append]
      refine ⟨⟨by simp only; omega, by simp only; omega, by simp only; omega, by simp only [Chain]; omega⟩, ?_⟩
      simp only [sortRel, insertSorted]
      rw [if_pos (le_of_start_lt (by simp only; omega)), insertSorted, if_pos (le_of_start_lt (by simp only; omega))]
    · rw [if_neg hT]
      have hE1 := hE.1
      simp only [List.map_append, List.map_cons, List.map_nil, List.cons_append, List.nil_append, List.append_nil]
      refine ⟨⟨by simp only; omega, by simp only; omega, by simp only [Chain]; omega⟩, ?_⟩
      simp only [sortRel, insertSorted]
      rw [if_pos (le_of_start_lt (by simp only; omega))]
  · rw [if_neg hE]
    have hT : ¬ HasTable file oho ohs dir (leAt file dir 4) (leAt file (dir + 4) 4) := fun h => hE h.1
    rw [if_neg hT]
    simp only [List.map_cons, List.map_nil, List.append_nil]
    refine ⟨⟨by simp only; omega, by simp only [Chain]; omega⟩, rfl⟩

/-! ### deletion = complement -/

theorem deleteSections_chain (file : Bytes) : ∀ (secs : List RelRange) (start : Nat), Chain file.length start secs →
    (((file.drop start).zipIdx start).filter (fun p => decide (∀ r ∈ secs, ¬ RelHas r p.2))).map Prod.fst =
      bytesOf file (complementRanges file.length start secs)
  | [], start, h => by
    simp only [Chain] at h
    simp only [complementRanges, bytesOf, List.flatMap_cons, List.flatMap_nil, List.append_nil, rangeBytes,
      List.not_mem_nil, false_implies, implies_true, decide_true]
    rw [List.filter_eq_self.2 (by simp), List.zipIdx_map_fst]
    simp
  | r :: l, start, h => by
    obtain ⟨h1, h2⟩ := h
    have hend : r.start + r.length ≤ file.length := by
      have : ∀ (l : List RelRange) (s : Nat), Chain file.length s l → s ≤ file.length := by
        intro l
        induction l with
        | nil => intro s h; exact h
        | cons a l ih => intro s h; have := ih _ h.2; have := h.1; omega
      exact this l _ h2
    have hlow : ∀ x ∈ l, r.start + r.length ≤ x.start := by
      have : ∀ (l : List RelRange) (s : Nat), Chain file.length s l → ∀ x ∈ l, s ≤ x.start := by
        intro l
        induction l with
        | nil => intro s h x hx; cases hx
        | cons a l ih =>
          intro s h x hx
          rcases List.mem_cons.1 hx with rfl | hx
          · exact h.1
          · have := ih _ h.2 x hx; have := h.1; omega
      exact this l _ h2
    have ih := deleteSections_chain file l (r.start + r.length) h2
    -- split the tail in three parts
    have hsplit : file.drop start = (file.drop start).take (r.start - start) ++
        ((file.drop r.start).take r.length ++ file.drop (r.start + r.length)) := by
      have e1 : file.drop start = (file.drop start).take (r.start - start) ++ (file.drop start).drop (r.start - start) :=
        (List.take_append_drop _ _).symm
      have e2 : (file.drop start).drop (r.start - start) = file.drop r.start := by
        rw [List.drop_drop]; congr 1; omega
      have e3 : file.drop r.start = (file.drop r.start).take r.length ++ (file.drop r.start).drop r.length :=
        (List.take_append_drop _ _).symm
      rw [e2] at e1
      rw [List.drop_drop] at e3
      rw [← e3]; exact e1
    have hl1 : ((file.drop start).take (r.start - start)).length = r.start - start := by
      simp only [List.length_take, List.length_drop]; omega
    have hl2 : ((file.drop r.start).take r.length).length = r.length := by
      simp only [List.length_take, List.length_drop]; omega
    rw [hsplit, List.zipIdx_append, List.zipIdx_append, List.filter_append, List.filter_append, List.map_append,
      List.map_append]
    rw [hl1, hl2, show start + (r.start - start) = r.start from by omega]
    have p1 : (((file.drop start).take (r.start - start)).zipIdx start).filter
        (fun p => decide (∀ x ∈ r :: l, ¬ RelHas x p.2)) = ((file.drop start).take (r.start - start)).zipIdx start := by
      rw [List.filter_eq_self]
      rintro ⟨b, i⟩ hp
      have hm := List.mem_zipIdx hp
      rw [hl1] at hm
      simp only [decide_eq_true_eq]
      intro x hx hh
      unfold RelHas at hh
      rcases List.mem_cons.1 hx with rfl | hx
      · omega
      · have := hlow x hx; omega
    have p2 : (((file.drop r.start).take r.length).zipIdx r.start).filter
        (fun p => decide (∀ x ∈ r :: l, ¬ RelHas x p.2)) = [] := by
      rw [List.filter_eq_nil_iff]
      rintro ⟨b, i⟩ hp
      have hm := List.mem_zipIdx hp
      rw [hl2] at hm
      simp only [decide_eq_true_eq]
      intro hh
      exact hh r List.mem_cons_self ⟨by omega, by omega⟩
    have p3 : ((file.drop (r.start + r.length)).zipIdx (r.start + r.length)).filter
        (fun p => decide (∀ x ∈ r :: l, ¬ RelHas x p.2)) =
        ((file.drop (r.start + r.length)).zipIdx (r.start + r.length)).filter
        (fun p => decide (∀ x ∈ l, ¬ RelHas x p.2)) := by
      apply List.filter_congr
      rintro ⟨b, i⟩ hp
      have hm := List.mem_zipIdx hp
      apply decide_eq_decide.2
      constructor
      · intro hh x hx; exact hh x (List.mem_cons_of_mem _ hx)
      · intro hh x hx
        rcases List.mem_cons.1 hx with rfl | hx
        · unfold RelHas; omega
        · exact hh x hx
    rw [p1, p2, p3, ih]
    simp only [List.map_nil, List.nil_append, complementRanges, bytesOf, List.flatMap_cons]
    congr 1
    rw [List.zipIdx_map_fst]
    unfold rangeBytes
    simp only [Int.toNat_natCast]
    rw [List.drop_take]

theorem deleteSections_eq {file : Bytes} {secs : List RelRange} (h : Chain file.length 0 secs) :
    deleteSections file secs = bytesOf file (complementRanges file.length 0 secs) := by
  have := deleteSections_chain file secs 0 h
  simpa [deleteSections] using this

theorem complement_wf (file : Bytes) : ∀ (secs : List RelRange) (start : Nat), Chain file.length start secs →
    ∀ r ∈ complementRanges file.length start secs, WF file r
  | [], start, h, r, hr => by
    simp only [complementRanges, List.mem_singleton] at hr
    subst hr
    simp only [Chain] at h
    exact ⟨by simp only; omega, by simp only; omega, Or.inr (by simp only; omega)⟩
  | s :: l, start, h, r, hr => by
    have hle : ∀ (l : List RelRange) (s : Nat), Chain file.length s l → s ≤ file.length := by
      intro l
      induction l with
      | nil => intro s h; exact h
      | cons a l ih => intro s h; have := ih _ h.2; have := h.1; omega
    simp only [complementRanges, List.mem_cons] at hr
    rcases hr with rfl | hr
    · have := hle l _ h.2
      have := h.1
      exact ⟨by simp only; omega, by simp only; omega, Or.inr (by simp only; omega)⟩
    · exact complement_wf file l _ h.2 r hr

theorem complement_ne_nil (flen start : Nat) (secs : List RelRange) : complementRanges flen start secs ≠ [] := by
  cases secs <;> simp [complementRanges]

end Signify
