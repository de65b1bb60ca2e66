/-
Helper lemmas: what the bytes left after deleting the omitted sections determine.
-/
import Verif.Proofs.SignedPE

set_option autoImplicit false

namespace Signify
open Spec

theorem leAt_congr {f g : Bytes} {off : Nat} : ∀ {n : Nat}, (∀ j < n, f.getD (off + j) 0 = g.getD (off + j) 0) →
    leAt f off n = leAt g off n
  | 0, _ => rfl
  | n + 1, h => by
    simp only [leAt]
    rw [leAt_congr (n := n) (fun j hj => h j (by omega)), h n (by omega)]

theorem getD_eq_getElem? (f : Bytes) (i : Nat) : f.getD i 0 = (f[i]?).getD 0 := List.getD_eq_getElem?_getD

theorem window_congr {f g : Bytes} {off n : Nat} (hf : off + n ≤ f.length) (hg : off + n ≤ g.length)
    (h : ∀ j < n, f.getD (off + j) 0 = g.getD (off + j) 0) : (f.drop off).take n = (g.drop off).take n := by
  apply List.ext_getElem
  · simp only [List.length_take, List.length_drop]; omega
  · intro i h1 h2
    simp only [List.length_take, List.length_drop] at h1 h2
    have := h i (by omega)
    rw [getD_eq_getElem?, getD_eq_getElem?, List.getElem?_eq_getElem (by omega), List.getElem?_eq_getElem (by omega)] at this
    simpa using this

/-- Cutting `[a, b)` out. -/
def cut (x : Bytes) (a b : Nat) : Bytes := x.take a ++ x.drop b

theorem cut_getElem?_low {x : Bytes} {a b i : Nat} (h : i < a) (ha : a ≤ x.length) : (cut x a b)[i]? = x[i]? := by
  unfold cut
  rw [List.getElem?_append_left (by rw [List.length_take]; omega), List.getElem?_take, if_pos h]

theorem cut_getElem?_high {x : Bytes} {a b i : Nat} (h : a ≤ i) (ha : a ≤ x.length) : (cut x a b)[i]? = x[i - a + b]? := by
  unfold cut
  rw [List.getElem?_append_right (by rw [List.length_take]; omega), List.length_take, List.getElem?_drop,
    Nat.min_eq_left ha]
  congr 1; omega

theorem cut_length {x : Bytes} {a b : Nat} (hab : a ≤ b) (hb : b ≤ x.length) : (cut x a b).length = x.length - (b - a) := by
  unfold cut; simp only [List.length_append, List.length_take, List.length_drop]; omega

theorem withoutTable_eq (f : Bytes) (oho ohs dir : Nat) : withoutTable f oho ohs dir =
    if HasTable f oho ohs dir (leAt f dir 4) (leAt f (dir + 4) 4) then
      cut f (leAt f dir 4) (leAt f dir 4 + leAt f (dir + 4) 4) else f := by
  unfold withoutTable
  split
  · rename_i h
    obtain ⟨_, _, _, _, t1, t2⟩ := h
    generalize leAt f dir 4 = a at *
    generalize leAt f (dir + 4) 4 = s at *
    rw [deleteSections_eq (secs := [⟨a, s⟩]) (show Chain f.length 0 [⟨a, s⟩] from ⟨Nat.zero_le _, t2⟩)]
    simp only [complementRanges, bytesOf, List.flatMap_cons, List.flatMap_nil, rangeBytes, cut]
    simp only [Int.toNat_natCast]
    simp
  · rfl

/-- Remaining bytes: with an entry, cut the checksum and the entry out of `withoutTable`; otherwise only the checksum. -/
theorem strip_eq {f : Bytes} {oho ohs dir : Nat} (h : Header f oho ohs dir) :
    deleteSections f (omitted f oho ohs dir) =
      if HasEntry f oho ohs dir then
        cut (cut (withoutTable f oho ohs dir) dir (dir + 8)) (oho + 64) (oho + 68)
      else cut f (oho + 64) (oho + 68) := by
  have hd : oho + 128 ≤ dir := by rcases h.magic with ⟨_, rfl⟩ | ⟨_, rfl⟩ <;> omega
  have hi := h.inside
  have hc := h.hasChecksum
  rw [omitted, deleteSections_eq (omitOf_chain h).1]
  by_cases hE : HasEntry f oho ohs dir
  · have hE1 := hE.1
    rw [if_pos hE, withoutTable_eq]
    unfold omitOf
    rw [if_pos hE]
    by_cases hT : HasTable f oho ohs dir (leAt f dir 4) (leAt f (dir + 4) 4)
    · rw [if_pos hT, if_pos hT]
      obtain ⟨_, _, _, _, t1, t2⟩ := hT
      generalize leAt f dir 4 = a at *
      generalize leAt f (dir + 4) 4 = s at *
      simp only [List.map_cons, List.map_nil, List.cons_append, List.nil_append, complementRanges, bytesOf,
        List.flatMap_cons, List.flatMap_nil, rangeBytes, List.append_nil, Int.toNat_natCast, List.take_length,
        List.drop_zero]
      unfold cut
      have e1 : ((f.take a ++ f.drop (a + s)).take dir) = f.take dir := by
        rw [List.take_append_of_le_length (by rw [List.length_take]; omega), List.take_take, Nat.min_eq_left (by omega)]
      have e2 : ((f.take a ++ f.drop (a + s)).drop (dir + 8)) = (f.take a).drop (dir + 8) ++ f.drop (a + s) := by
        rw [List.drop_append_of_le_length (by rw [List.length_take]; omega)]
      rw [e1, e2]
      have e3 : (f.take dir ++ ((f.take a).drop (dir + 8) ++ f.drop (a + s))).take (oho + 64) = f.take (oho + 64) := by
        rw [List.take_append_of_le_length (by rw [List.length_take]; omega), List.take_take, Nat.min_eq_left (by omega)]
      have e4 : (f.take dir ++ ((f.take a).drop (dir + 8) ++ f.drop (a + s))).drop (oho + 68) =
          (f.take dir).drop (oho + 68) ++ ((f.take a).drop (dir + 8) ++ f.drop (a + s)) := by
        rw [List.drop_append_of_le_length (by rw [List.length_take]; omega)]
      rw [e3, e4]
    · rw [if_neg hT, if_neg hT]
      simp only [List.map_cons, List.map_nil, List.cons_append, List.nil_append, complementRanges, bytesOf,
        List.flatMap_cons, List.flatMap_nil, rangeBytes, List.append_nil, Int.toNat_natCast, List.take_length,
        List.drop_zero]
      unfold cut
      have e3 : (f.take dir ++ f.drop (dir + 8)).take (oho + 64) = f.take (oho + 64) := by
        rw [List.take_append_of_le_length (by rw [List.length_take]; omega), List.take_take, Nat.min_eq_left (by omega)]
      have e4 : (f.take dir ++ f.drop (dir + 8)).drop (oho + 68) = (f.take dir).drop (oho + 68) ++ f.drop (dir + 8) := by
        rw [List.drop_append_of_le_length (by rw [List.length_take]; omega)]
      rw [e3, e4]
  · have hT : ¬ HasTable f oho ohs dir (leAt f dir 4) (leAt f (dir + 4) 4) := fun h => hE h.1
    rw [if_neg hE]
    unfold omitOf
    rw [if_neg hE, if_neg hT]
    simp only [List.map_cons, List.map_nil, List.cons_append, List.nil_append, complementRanges, bytesOf,
      List.flatMap_cons, List.flatMap_nil, rangeBytes, List.append_nil, Int.toNat_natCast, List.take_length,
      List.drop_zero]
    unfold cut
    simp only [Nat.add_assoc]

/-- Facts about `withoutTable`: it keeps the headers. -/
theorem withoutTable_low {f : Bytes} {oho ohs dir : Nat} (h : Header f oho ohs dir) :
    (∀ i < oho + ohs, (withoutTable f oho ohs dir)[i]? = f[i]?) ∧ oho + ohs ≤ (withoutTable f oho ohs dir).length := by
  have hi := h.inside
  rw [withoutTable_eq]
  split
  · rename_i hT
    obtain ⟨_, _, _, _, t1, t2⟩ := hT
    refine ⟨fun i hi' => cut_getElem?_low (by omega) (by omega), ?_⟩
    rw [cut_length (by omega) t2]; omega
  · exact ⟨fun _ _ => rfl, hi⟩

theorem withoutTable_noEntry {f : Bytes} {oho ohs dir : Nat} (h : ¬ HasEntry f oho ohs dir) :
    withoutTable f oho ohs dir = f := by
  rw [withoutTable_eq, if_neg (fun hT => h hT.1)]

/-- The stripped bytes before the checksum are the file's. -/
theorem strip_low {f : Bytes} {oho ohs dir : Nat} (h : Header f oho ohs dir) {i : Nat} (hi : i < oho + 64) :
    (deleteSections f (omitted f oho ohs dir))[i]? = f[i]? := by
  have hd : oho + 128 ≤ dir := by rcases h.magic with ⟨_, rfl⟩ | ⟨_, rfl⟩ <;> omega
  have h1 := h.inside
  have h2 := h.hasChecksum
  rw [strip_eq h]
  split
  · rename_i hE
    have ⟨w1, w2⟩ := withoutTable_low h
    have hE1 := hE.1
    rw [cut_getElem?_low hi (by rw [cut_length (by omega) (by omega)]; omega), cut_getElem?_low (by omega) (by omega),
      w1 i (by omega)]
  · rw [cut_getElem?_low hi (by omega)]

/-- The stripped bytes between the checksum and the directory entry are the file's, shifted by 4. -/
theorem strip_mid {f : Bytes} {oho ohs dir : Nat} (h : Header f oho ohs dir) {i : Nat} (hi : oho + 64 ≤ i)
    (hi2 : i + 4 < dir) : (deleteSections f (omitted f oho ohs dir))[i]? = f[i + 4]? := by
  have hd : oho + 128 ≤ dir := by rcases h.magic with ⟨_, rfl⟩ | ⟨_, rfl⟩ <;> omega
  have h1 := h.inside
  have h2 := h.hasChecksum
  rw [strip_eq h]
  split
  · rename_i hE
    have ⟨w1, w2⟩ := withoutTable_low h
    have hE1 := hE.1
    rw [cut_getElem?_high hi (by rw [cut_length (by omega) (by omega)]; omega), cut_getElem?_low (by omega) (by omega),
      w1 _ (by omega)]
    congr 1; omega
  · rw [cut_getElem?_high hi (by omega)]
    congr 1; omega

/-- Equal stripped bytes force the same geometry. -/
theorem strip_geometry {f g : Bytes} {oho ohs dir oho' ohs' dir' : Nat} (hf : Header f oho ohs dir)
    (hg : Header g oho' ohs' dir')
    (h : deleteSections f (omitted f oho ohs dir) = deleteSections g (omitted g oho' ohs' dir')) :
    oho = oho' ∧ ohs = ohs' ∧ dir = dir' ∧ (HasEntry f oho ohs dir ↔ HasEntry g oho ohs dir) := by
  have hof : 24 ≤ oho := by have := hf.lfanew; omega
  have hog : 24 ≤ oho' := by have := hg.lfanew; omega
  have e1 : oho = oho' := by
    rw [hf.lfanew, hg.lfanew]
    congr 1
    apply leAt_congr
    intro j hj
    rw [getD_eq_getElem?, getD_eq_getElem?, ← strip_low hf (by omega), ← strip_low hg (by omega), h]
  subst e1
  have hlow : ∀ i < oho + 64, f.getD i 0 = g.getD i 0 := by
    intro i hi
    rw [getD_eq_getElem?, getD_eq_getElem?, ← strip_low hf hi, ← strip_low hg hi, h]
  have e2 : ohs = ohs' := by
    rw [hf.size, hg.size]
    exact leAt_congr (fun j hj => hlow _ (by omega))
  subst e2
  have e3 : dir = dir' := by
    have : leAt f oho 2 = leAt g oho 2 := leAt_congr (fun j hj => hlow _ (by omega))
    rcases hf.magic with ⟨m, rfl⟩ | ⟨m, rfl⟩ <;> rcases hg.magic with ⟨m', rfl⟩ | ⟨m', rfl⟩
    · rfl
    · omega
    · omega
    · rfl
  subst e3
  refine ⟨rfl, rfl, rfl, ?_⟩
  have hd : oho + 128 ≤ dir := by rcases hf.magic with ⟨_, rfl⟩ | ⟨_, rfl⟩ <;> omega
  have : leAt f (dir - 36) 4 = leAt g (dir - 36) 4 := by
    apply leAt_congr
    intro j hj
    have e : dir - 36 + j = (dir - 36 + j - 4) + 4 := by omega
    rw [getD_eq_getElem?, getD_eq_getElem?, e, ← strip_mid hf (by omega) (by omega), ← strip_mid hg (by omega) (by omega), h]
  unfold HasEntry
  rw [this]

theorem cut_inj {x y : Bytes} {a b : Nat} (hab : a ≤ b) (hx : b ≤ x.length) (hy : b ≤ y.length) :
    cut x a b = cut y a b ↔ x.length = y.length ∧ ∀ i, ¬ (a ≤ i ∧ i < b) → x[i]? = y[i]? := by
  constructor
  · intro h
    have hl := congrArg List.length h
    rw [cut_length hab hx, cut_length hab hy] at hl
    refine ⟨by omega, fun i hi => ?_⟩
    by_cases hlt : i < a
    · rw [← cut_getElem?_low (b := b) hlt (by omega), ← cut_getElem?_low (x := y) (b := b) hlt (by omega), h]
    · have e : i = (i - (b - a)) - a + b := by omega
      rw [e, ← cut_getElem?_high (x := x) (a := a) (b := b) (i := i - (b - a)) (by omega) (by omega),
        ← cut_getElem?_high (x := y) (a := a) (b := b) (i := i - (b - a)) (by omega) (by omega), h]
  · rintro ⟨hl, h⟩
    apply List.ext_getElem?
    intro i
    by_cases hlt : i < a
    · rw [cut_getElem?_low hlt (by omega), cut_getElem?_low hlt (by omega)]
      exact h i (by omega)
    · rw [cut_getElem?_high (by omega) (by omega), cut_getElem?_high (by omega) (by omega)]
      exact h _ (by omega)

/-- The stripped bytes agree iff the files are the same image. -/
theorem strip_iff_sameImage {f g : Bytes} {oho ohs dir oho' ohs' dir' : Nat} (hf : Header f oho ohs dir)
    (hg : Header g oho' ohs' dir') :
    deleteSections f (omitted f oho ohs dir) = deleteSections g (omitted g oho' ohs' dir') ↔ SameImage f g := by
  have key : ∀ {oho ohs dir}, Header f oho ohs dir → Header g oho ohs dir →
      (HasEntry f oho ohs dir ↔ HasEntry g oho ohs dir) →
      (deleteSections f (omitted f oho ohs dir) = deleteSections g (omitted g oho ohs dir) ↔
      ((withoutTable f oho ohs dir).length = (withoutTable g oho ohs dir).length ∧
      ∀ i, ¬ (oho + 64 ≤ i ∧ i < oho + 68) → ¬ (HasEntry f oho ohs dir ∧ dir ≤ i ∧ i < dir + 8) →
        (withoutTable f oho ohs dir)[i]? = (withoutTable g oho ohs dir)[i]?)) := by
    intro oho ohs dir hf hg hE
    have hd : oho + 128 ≤ dir := by rcases hf.magic with ⟨_, rfl⟩ | ⟨_, rfl⟩ <;> omega
    have h1 := hf.inside
    have h1' := hg.inside
    have h2 := hf.hasChecksum
    rw [strip_eq hf, strip_eq hg]
    by_cases hEf : HasEntry f oho ohs dir
    · rw [if_pos hEf, if_pos (hE.1 hEf)]
      have hE1 := hEf.1
      have wf := (withoutTable_low hf).2
      have wg := (withoutTable_low hg).2
      generalize withoutTable f oho ohs dir = x at *
      generalize withoutTable g oho ohs dir = y at *
      have lx : (cut x dir (dir + 8)).length = x.length - 8 := by rw [cut_length (by omega) (by omega)]; omega
      have ly : (cut y dir (dir + 8)).length = y.length - 8 := by rw [cut_length (by omega) (by omega)]; omega
      rw [cut_inj (by omega) (by omega) (by omega)]
      constructor
      · rintro ⟨hl, h⟩
        refine ⟨by omega, fun i hi1 hi2 => ?_⟩
        have hi2 : ¬ (dir ≤ i ∧ i < dir + 8) := fun hh => hi2 ⟨hEf, hh⟩
        by_cases hlt : i < dir
        · have := h i hi1
          rw [cut_getElem?_low hlt (by omega), cut_getElem?_low hlt (by omega)] at this
          exact this
        · have := h (i - 8) (by omega)
          rw [cut_getElem?_high (by omega) (by omega), cut_getElem?_high (by omega) (by omega)] at this
          have e : i - 8 - dir + (dir + 8) = i := by omega
          rwa [e] at this
      · rintro ⟨hl, h⟩
        refine ⟨by omega, fun i hi => ?_⟩
        by_cases hlt : i < dir
        · rw [cut_getElem?_low hlt (by omega), cut_getElem?_low hlt (by omega)]
          exact h i hi (by omega)
        · rw [cut_getElem?_high (by omega) (by omega), cut_getElem?_high (by omega) (by omega)]
          exact h _ (by omega) (by omega)
    · have hEg : ¬ HasEntry g oho ohs dir := fun h => hEf (hE.2 h)
      rw [if_neg hEf, if_neg hEg, withoutTable_noEntry hEf, withoutTable_noEntry hEg, cut_inj (by omega) (by omega) (by omega)]
      constructor
      · rintro ⟨hl, h⟩
        exact ⟨hl, fun i hi _ => h i hi⟩
      · rintro ⟨hl, h⟩
        exact ⟨hl, fun i hi => h i hi (fun hh => hEf hh.1)⟩
  constructor
  · intro h
    obtain ⟨rfl, rfl, rfl, hE⟩ := strip_geometry hf hg h
    have := (key hf hg hE).1 h
    exact ⟨oho, ohs, dir, hf, hg, hE, this.1, this.2⟩
  · rintro ⟨a, b, c, kf, kg, hE, hl, h⟩
    obtain ⟨rfl, rfl, rfl⟩ := header_unique hf kf
    obtain ⟨rfl, rfl, rfl⟩ := header_unique hg kg
    exact (key hf hg hE).2 ⟨hl, h⟩

/-- The header is determined by the bytes of the headers outside the checksum and the directory entry. -/
theorem header_congr {f g : Bytes} {oho ohs dir : Nat} (hf : Header f oho ohs dir) (hin : oho + ohs ≤ g.length)
    (h : ∀ i < oho + ohs, ¬ (oho + 64 ≤ i ∧ i < oho + 68) → ¬ (dir ≤ i ∧ i < dir + 8) → f[i]? = g[i]?) :
    Header g oho ohs dir ∧ (HasEntry f oho ohs dir ↔ HasEntry g oho ohs dir) := by
  have hd : oho + 128 ≤ dir := by rcases hf.magic with ⟨_, rfl⟩ | ⟨_, rfl⟩ <;> omega
  have h1 := hf.inside
  have h2 := hf.hasChecksum
  have h3 : 24 ≤ oho := by have := hf.lfanew; omega
  have hlow : ∀ i < oho + 64, f.getD i 0 = g.getD i 0 := by
    intro i hi
    rw [getD_eq_getElem?, getD_eq_getElem?, h i (by omega) (by omega) (by omega)]
  have hmag : leAt f oho 2 = leAt g oho 2 := leAt_congr (fun j hj => hlow _ (by omega))
  refine ⟨⟨?_, ?_, ?_, ?_, hin, h2, ?_⟩, ?_⟩
  · rw [← hf.mz]
    have := window_congr (f := g) (g := f) (off := 0) (n := 2) (by omega) (by omega) (fun j hj => (hlow _ (by omega)).symm)
    simpa using this
  · rw [hf.lfanew]
    congr 1
    exact leAt_congr (fun j hj => hlow _ (by omega))
  · rw [← hf.signature]
    exact window_congr (by omega) (by omega) (fun j hj => (hlow _ (by omega)).symm)
  · exact hf.size.trans <| leAt_congr (fun j hj => hlow _ (by omega))
  · rw [← hmag]; exact hf.magic
  · unfold HasEntry
    constructor
    · rintro ⟨a, b⟩
      refine ⟨a, ?_⟩
      rw [← leAt_congr (f := f) (fun j hj => by
        rw [getD_eq_getElem?, getD_eq_getElem?, h _ (by omega) (by omega) (by omega)])]
      exact b
    · rintro ⟨a, b⟩
      refine ⟨a, ?_⟩
      rw [leAt_congr (g := g) (fun j hj => by
        rw [getD_eq_getElem?, getD_eq_getElem?, h _ (by omega) (by omega) (by omega)])]
      exact b

theorem leBytes_length : ∀ (n v : Nat), (leBytes n v).length = n
  | 0, _ => rfl
  | n + 1, v => by simp [leBytes, leBytes_length n]

theorem leNat_leBytes : ∀ (n v : Nat), v < 256 ^ n → leNat (leBytes n v) = v
  | 0, v, h => by simp at h; subst h; rfl
  | n + 1, v, h => by
    simp only [leBytes, leNat]
    rw [leNat_leBytes n (v / 256) (by rw [Nat.pow_succ] at h; omega)]
    have : (UInt8.ofNat (v % 256)).toNat = v % 256 := by
      rw [UInt8.toNat_ofNat']
      simp
    rw [this]; omega

theorem leAt_of_window {f : Bytes} {off n v : Nat} (h : (f.drop off).take n = leBytes n v) (hv : v < 256 ^ n) :
    leAt f off n = v := by
  by_cases hn : n = 0
  · subst hn; simp at hv; subst hv; rfl
  have hl : off + n ≤ f.length := by
    have := congrArg List.length h
    rw [leBytes_length, List.length_take, List.length_drop] at this
    omega
  rw [← leNat_readN hl, readN, h, leNat_leBytes n v hv]

theorem patch_length {f : Bytes} {off : Nat} {bs : Bytes} (h : off + bs.length ≤ f.length) :
    (patch f off bs).length = f.length := by
  unfold patch; simp only [List.length_append, List.length_take, List.length_drop]; omega

theorem patch_getElem? {f : Bytes} {off : Nat} {bs : Bytes} (h : off + bs.length ≤ f.length) {i : Nat}
    (hi : ¬ (off ≤ i ∧ i < off + bs.length)) : (patch f off bs)[i]? = f[i]? := by
  unfold patch
  by_cases h1 : i < off
  · rw [List.append_assoc, List.getElem?_append_left (by rw [List.length_take]; omega), List.getElem?_take, if_pos h1]
  · rw [List.getElem?_append_right (by simp only [List.length_append, List.length_take]; omega), List.getElem?_drop]
    congr 1
    simp only [List.length_append, List.length_take]; omega

theorem patch_window {f : Bytes} {off : Nat} {bs : Bytes} (h : off ≤ f.length) :
    ((patch f off bs).drop off).take bs.length = bs := by
  unfold patch
  have e : (f.take off).length = off := by rw [List.length_take]; omega
  rw [List.append_assoc]
  conv => lhs; rw [← e]
  simp

end Signify
