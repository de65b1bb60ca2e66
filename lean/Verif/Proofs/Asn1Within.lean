/-
Everything that is decoded is part of what was given; whatever follows the first value has no influence.
-/
import Verif.Model.DerCms
import Verif.Proofs.Asn1

set_option autoImplicit false

namespace Signify.Asn1

open Signify

theorem eok_bind {α β : Type} {x : Except Exc α} {f : α → Except Exc β} {b : β} (h : (x >>= f) = .ok b) :
    ∃ a, x = .ok a ∧ f a = .ok b := by
  cases x with
  | error e => cases h
  | ok a => exact ⟨a, rfl, h⟩

theorem longTag_spec {data rest : Bytes} {acc t : Nat} (h : longTag acc data = .ok (t, rest)) :
    ∃ c, data = c ++ rest ∧ ∀ j, longTag acc (c ++ j) = .ok (t, j) := by
  induction data generalizing acc with
  | nil => cases h
  | cons b l ih =>
    rw [longTag] at h
    split at h
    · cases h
    · rename_i h1
      split at h
      · rename_i h2
        cases h
        exact ⟨[b], rfl, fun j => by rw [List.cons_append, longTag, if_neg h1, if_pos h2]; rfl⟩
      · rename_i h2
        obtain ⟨c, hc, hj⟩ := ih h
        exact ⟨b :: c, by rw [hc]; rfl, fun j => by rw [List.cons_append, longTag, if_neg h1, if_neg h2, hj]⟩

theorem readTag_spec {b : UInt8} {data rest : Bytes} {t : Nat} (h : readTag b data = .ok (t, rest)) :
    ∃ c, data = c ++ rest ∧ ∀ j, readTag b (c ++ j) = .ok (t, j) := by
  unfold readTag at h ⊢
  split at h
  · rename_i h1
    split at h
    · cases h
    · rename_i t' r hl
      obtain ⟨c, hc, hj⟩ := longTag_spec hl
      split at h
      · cases h
      · rename_i h2
        cases h
        exact ⟨c, hc, fun j => by rw [if_pos h1, hj]; simp [h2]⟩
  · rename_i h1
    cases h
    exact ⟨[], rfl, fun j => by rw [if_neg h1]; rfl⟩

theorem readLen_spec {data rest : Bytes} {n : Len} (h : readLen data = .ok (n, rest)) :
    ∃ c, data = c ++ rest ∧ c ≠ [] ∧ ∀ j, readLen (c ++ j) = .ok (n, j) := by
  cases data with
  | nil => cases h
  | cons b l =>
    simp only [readLen] at h
    split at h
    · rename_i h1
      cases h
      exact ⟨[b], rfl, by simp, fun j => by simp [readLen, h1]⟩
    · rename_i h1
      split at h
      · rename_i h2
        cases h
        exact ⟨[b], rfl, by simp, fun j => by simp [readLen, h1, h2]⟩
      · rename_i h2
        split at h
        · cases h
        · rename_i h3
          cases h
          refine ⟨b :: l.take (b.toNat - 128), by simp, by simp, fun j => ?_⟩
          have h4 : (l.take (b.toNat - 128)).length = b.toNat - 128 := by rw [List.length_take]; omega
          have h5 : ¬ ((l.take (b.toNat - 128) ++ j).length < b.toNat - 128) := by rw [List.length_append]; omega
          simp only [List.cons_append, readLen]
          rw [if_neg h1, if_neg h2, if_neg h5, List.take_append_of_le_length (by omega), List.drop_append_of_le_length (by omega),
            List.take_of_length_le (by omega), List.drop_of_length_le (by omega)]
          rfl

theorem readHeader_spec {data rest : Bytes} {b : UInt8} {t : Nat} {n : Len} (h : readHeader data = .ok (b, t, n, rest)) :
    ∃ c, data = c ++ rest ∧ 2 ≤ c.length ∧ ∀ j, readHeader (c ++ j) = .ok (b, t, n, j) := by
  cases data with
  | nil => cases h
  | cons x l =>
    rw [readHeader] at h
    obtain ⟨⟨t', l1⟩, h1, h⟩ := eok_bind h
    obtain ⟨⟨n', l2⟩, h2, h⟩ := eok_bind h
    cases h
    obtain ⟨c1, rfl, j1⟩ := readTag_spec h1
    obtain ⟨c2, rfl, hc, j2⟩ := readLen_spec h2
    refine ⟨b :: (c1 ++ c2), by simp, ?_, fun j => ?_⟩
    · have := List.length_pos_iff.2 hc
      simp; omega
    · rw [List.cons_append, readHeader, List.append_assoc, j1]
      simp only [bind, Except.bind]
      rw [j2]

/-- What is known of a function that skips a value. -/
def Skips (skip : Bytes → Except Exc Bytes) : Prop :=
  ∀ data rest, skip data = .ok rest → ∃ c, data = c ++ rest ∧ 2 ≤ c.length ∧ ∀ j, skip (c ++ j) = .ok j

theorem eocLoop_spec {skip : Bytes → Except Exc Bytes} (hs : Skips skip) {n : Nat} {data rest : Bytes}
    (h : eocLoop skip n data = .ok rest) :
    ∃ c, data = c ++ [0, 0] ++ rest ∧ ∀ j m, c.length < m → eocLoop skip m (c ++ [0, 0] ++ j) = .ok j := by
  induction n generalizing data with
  | zero => cases h
  | succ n ih =>
    rw [eocLoop] at h
    split at h
    · rename_i h1
      cases h
      refine ⟨[], by rw [← h1]; simp, fun j m hm => ?_⟩
      obtain ⟨k, rfl⟩ : ∃ k, m = k + 1 := ⟨m - 1, by simp at hm; omega⟩
      rfl
    · rename_i h1
      split at h
      · cases h
      · rename_i r hr
        obtain ⟨c, hc, hl, hj⟩ := hs _ _ hr
        obtain ⟨c', hc', hj'⟩ := ih h
        refine ⟨c ++ c', by rw [hc, hc']; simp, fun j m hm => ?_⟩
        rw [List.length_append] at hm
        obtain ⟨k, rfl⟩ : ∃ k, m = k + 1 := ⟨m - 1, by omega⟩
        have h2 : (c ++ c' ++ [0, 0] ++ j).take 2 = data.take 2 := by
          rw [hc, List.take_append_of_le_length hl, List.append_assoc, List.append_assoc, List.take_append_of_le_length hl]
        rw [eocLoop, h2, if_neg h1, List.append_assoc, List.append_assoc, hj]
        simp only
        rw [← List.append_assoc]
        exact hj' j k (by omega)

theorem skipValue_skips (d : Nat) : Skips (skipValue d) := by
  induction d with
  | zero => intro _ _ h; cases h
  | succ d ih =>
    intro data rest h
    rw [skipValue] at h
    obtain ⟨⟨b, t, n, r⟩, h1, h⟩ := eok_bind h
    obtain ⟨c, hc, hl, hj⟩ := readHeader_spec h1
    cases n with
    | definite k =>
      simp only at h
      split at h
      · cases h
      · rename_i hk
        cases h
        refine ⟨c ++ r.take k, by rw [hc]; simp, by rw [List.length_append]; omega, fun j => ?_⟩
        rw [skipValue, List.append_assoc, hj]
        have h4 : (r.take k).length = k := by rw [List.length_take]; omega
        have h5 : ¬ ((r.take k ++ j).length < k) := by rw [List.length_append]; omega
        simp only [bind, Except.bind]
        rw [if_neg h5, List.drop_append_of_le_length (by omega), List.drop_of_length_le (by omega)]
        rfl
    | indefinite =>
      simp only at h
      split at h
      · cases h
      · rename_i hb
        obtain ⟨c', hc', hj'⟩ := eocLoop_spec ih h
        refine ⟨c ++ (c' ++ [0, 0]), by rw [hc, hc']; simp, by simp; omega, fun j => ?_⟩
        rw [skipValue, List.append_assoc, hj]
        simp only [bind, Except.bind]
        rw [if_neg hb]
        exact hj' j _ (by simp only [List.length_append]; omega)

/-- What `parse` returns is the beginning of the data; what follows has no influence. -/
theorem parse_spec {data rest : Bytes} {p : Parts} (h : parse data = .ok (p, rest)) :
    data = p.dump ++ rest ∧ 2 ≤ p.header.length ∧ ∀ j, parse (p.dump ++ j) = .ok (p, j) := by
  unfold parse at h
  obtain ⟨⟨b, t, n, r⟩, h1, h⟩ := eok_bind h
  obtain ⟨c, hc, hl, hj⟩ := readHeader_spec h1
  have hhead : data.take (data.length - r.length) = c := by
    rw [hc, List.length_append, Nat.add_sub_cancel, List.take_left]
  have hheadj : ∀ j : Bytes, (c ++ j).take ((c ++ j).length - j.length) = c := by
    intro j
    rw [List.length_append, Nat.add_sub_cancel, List.take_left]
  cases n with
  | definite k =>
    simp only at h
    split at h
    · cases h
    · rename_i hk
      cases h
      simp only [Parts.dump]
      rw [hhead, List.append_nil]
      refine ⟨?_, hl, fun j => ?_⟩
      · conv => lhs; rw [hc]
        simp
      · unfold parse
        have h4 : (r.take k).length = k := by rw [List.length_take]; omega
        have h5 : ¬ ((r.take k ++ j).length < k) := by rw [List.length_append]; omega
        rw [List.append_assoc, hj]
        simp only [bind, Except.bind]
        rw [if_neg h5, hheadj, List.drop_append_of_le_length (by omega), List.take_append_of_le_length (by omega),
          List.take_of_length_le (by omega), List.drop_of_length_le (by omega)]
        rfl
  | indefinite =>
    simp only at h
    split at h
    · cases h
    · rename_i hb
      obtain ⟨after, ha, h⟩ := eok_bind h
      cases h
      obtain ⟨c', hc', hj'⟩ := eocLoop_spec (skipValue_skips 10) ha
      have hcont : r.take (r.length - rest.length - 2) = c' := by
        have : r.length - rest.length - 2 = c'.length := by rw [hc']; simp; omega
        rw [this, hc', List.append_assoc, List.take_left]
      have hcontj : ∀ j : Bytes, (c' ++ [0, 0] ++ j).take ((c' ++ [0, 0] ++ j).length - j.length - 2) = c' := by
        intro j
        have : (c' ++ [0, 0] ++ j).length - j.length - 2 = c'.length := by simp; omega
        rw [this, List.append_assoc, List.take_left]
      simp only [Parts.dump]
      rw [hhead, hcont]
      refine ⟨?_, hl, fun j => ?_⟩
      · conv => lhs; rw [hc, hc']
        simp
      · unfold parse
        rw [List.append_assoc, List.append_assoc, hj]
        simp only [bind, Except.bind]
        rw [← List.append_assoc, if_neg hb, hj' j _ (by simp only [List.length_append]; omega)]
        simp only
        rw [hheadj, hcontj]

/-! ### Decoded values -/

/-- The value is a part of the data. -/
def Parts.In (data : Bytes) (p : Parts) : Prop := p.dump <:+: data ∧ 2 ≤ p.header.length ∧ parse p.dump = .ok (p, [])

/-- All of the decoded value is part of the data. -/
inductive Val.In (data : Bytes) : Val → Prop
  | any {p : Parts} : p.In data → Val.In data (.any p)
  | prim {b : Bytes} : b <:+: data → Val.In data (.prim b)
  | seq {c : Bytes} {fs : List (String × Option Val)} : c <:+: data → (∀ x ∈ fs, ∀ v, x.2 = some v → Val.In data v) →
      Val.In data (.seq c fs)
  | list {c : Bytes} {vs : List Val} : c <:+: data → (∀ v ∈ vs, Val.In data v) → Val.In data (.list c vs)
  | choice {n : String} {v : Val} : Val.In data v → Val.In data (.choice n v)

theorem Parts.contents_dump (p : Parts) : p.contents <:+: p.dump := ⟨p.header, p.trailer, rfl⟩

theorem Parts.In.contents {data : Bytes} {p : Parts} (h : p.In data) : p.contents <:+: data :=
  p.contents_dump.trans h.1

theorem Parts.In.mono {data data' : Bytes} {p : Parts} (h : p.In data) (hd : data <:+: data') : p.In data' :=
  ⟨h.1.trans hd, h.2⟩

theorem Parts.In.shorter {data : Bytes} {p : Parts} (h : p.In data) : p.contents.length < data.length := by
  have h1 := h.1.length_le
  have h2 := h.2.1
  simp only [Parts.dump, List.length_append] at h1
  omega

theorem Val.In.mono {data data' : Bytes} {v : Val} (h : v.In data) (hd : data <:+: data') : v.In data' := by
  induction h with
  | any h => exact .any (h.mono hd)
  | prim h => exact .prim (h.trans hd)
  | seq h _ ih => exact .seq (h.trans hd) ih
  | list h _ ih => exact .list (h.trans hd) ih
  | choice _ ih => exact .choice ih

theorem parse_in {data rest : Bytes} {p : Parts} (h : parse data = .ok (p, rest)) : p.In data ∧ rest <:+: data := by
  obtain ⟨h1, h2, h3⟩ := parse_spec h
  have h4 := h3 []
  rw [List.append_nil] at h4
  exact ⟨⟨⟨[], rest, by rw [List.nil_append, ← h1]⟩, h2, h4⟩, ⟨p.dump, [], by rw [List.append_nil, ← h1]⟩⟩

theorem buildAll_in {build : Parts → Except Exc Val} (hb : ∀ p v data, build p = .ok v → p.In data → v.In data) {n : Nat}
    {c data : Bytes} {vs : List Val} (h : buildAll build n c = .ok vs) (hc : c <:+: data) : ∀ v ∈ vs, v.In data := by
  induction n generalizing c vs with
  | zero =>
    cases c with
    | nil => cases h; simp
    | cons => cases h
  | succ n ih =>
    cases c with
    | nil => cases h; simp
    | cons b l =>
      rw [buildAll] at h
      obtain ⟨⟨p, rest⟩, h1, h⟩ := eok_bind h
      obtain ⟨v, h2, h⟩ := eok_bind h
      obtain ⟨vs', h3, h⟩ := eok_bind h
      cases h
      obtain ⟨hp, hr⟩ := parse_in h1
      intro x hx
      cases hx with
      | head => exact hb _ _ _ h2 (hp.mono hc)
      | tail _ hx => exact ih h3 (hr.trans hc) x hx
      · simp

theorem untag_in {tagging : Tagging} {k : Option Nat → Parts → Except Exc Val}
    (hk : ∀ i p v data, k i p = .ok v → p.In data → v.In data) {p : Parts} {v : Val} {data : Bytes}
    (h : untag tagging k p = .ok v) (hp : p.In data) : v.In data := by
  unfold untag at h
  split at h
  · exact hk _ _ _ _ h hp
  · exact hk _ _ _ _ h hp
  · split at h
    · cases h
    · split at h
      · cases h
      · split at h
        · cases h
        · split at h
          · cases h
          · rename_i q _ hq
            exact hk _ _ _ _ h ((parse_in hq).1.mono hp.contents)

mutual
theorem build_in : ∀ (t : Ty) (i : Option Nat) (p : Parts) (v : Val) (data : Bytes), t.build i p = .ok v → p.In data → v.In data
  | .any, i, p, v, data, h, hp => by
    rw [Ty.build] at h
    cases h
    exact .any hp
  | .prim tag, i, p, v, data, h, hp => by
    rw [Ty.build] at h
    obtain ⟨_, _, h⟩ := eok_bind h
    cases h
    exact .prim hp.contents
  | .seq fs, i, p, v, data, h, hp => by
    rw [Ty.build] at h
    obtain ⟨_, _, h⟩ := eok_bind h
    obtain ⟨l, h1, h⟩ := eok_bind h
    cases h
    exact .seq hp.contents (buildFields_in fs _ _ _ h1 hp.contents)
  | .seqOf t, i, p, v, data, h, hp => by
    rw [Ty.build] at h
    obtain ⟨_, _, h⟩ := eok_bind h
    obtain ⟨l, h1, h⟩ := eok_bind h
    cases h
    exact .list hp.contents (buildAll_in (fun q w d => build_in t none q w d) h1 hp.contents)
  | .setOf t, i, p, v, data, h, hp => by
    rw [Ty.build] at h
    obtain ⟨_, _, h⟩ := eok_bind h
    obtain ⟨l, h1, h⟩ := eok_bind h
    cases h
    exact .list hp.contents (buildAll_in (fun q w d => build_in t none q w d) h1 hp.contents)
  | .choice alts, i, p, v, data, h, hp => by
    rw [Ty.build] at h
    exact buildAlts_in alts p v data h hp
theorem buildFields_in : ∀ (fs : List Field) (c : Bytes) (l : List (String × Option Val)) (data : Bytes),
    buildFields fs c = .ok l → c <:+: data → ∀ x ∈ l, ∀ v, x.2 = some v → v.In data
  | [], c, l, data, h, hc => by
    rw [buildFields] at h
    obtain ⟨_, _, h⟩ := eok_bind h
    cases h
    simp
  | .mk name tagging optional t :: fs, c, l, data, h, hc => by
    cases c with
    | nil =>
      rw [buildFields] at h
      split at h
      · obtain ⟨vs, h1, h⟩ := eok_bind h
        cases h
        intro x hx v hv
        cases hx with
        | head => cases hv
        | tail _ hx => exact buildFields_in fs _ _ data h1 List.nil_infix x hx v hv
      · cases h
    | cons b c =>
      rw [buildFields] at h
      obtain ⟨⟨p, rest⟩, h1, h⟩ := eok_bind h
      obtain ⟨hp, hr⟩ := parse_in h1
      simp only at h
      split at h
      · obtain ⟨vs, h2, h⟩ := eok_bind h
        cases h
        intro x hx v hv
        cases hx with
        | head => cases hv
        | tail _ hx => exact buildFields_in fs _ _ data h2 hc x hx v hv
      · obtain ⟨w, h2, h⟩ := eok_bind h
        obtain ⟨vs, h3, h⟩ := eok_bind h
        cases h
        intro x hx v hv
        cases hx with
        | head =>
          cases hv
          exact untag_in (fun i q w d => build_in t i q w d) h2 (hp.mono hc)
        | tail _ hx => exact buildFields_in fs _ _ data h3 (hr.trans hc) x hx v hv
theorem buildAlts_in : ∀ (alts : List Field) (p : Parts) (v : Val) (data : Bytes), buildAlts alts p = .ok v → p.In data → v.In data
  | [], p, v, data, h, hp => by
    rw [buildAlts] at h
    cases h
  | .mk name tagging optional t :: l, p, v, data, h, hp => by
    rw [buildAlts] at h
    split at h
    · obtain ⟨w, h1, h⟩ := eok_bind h
      cases h
      exact .choice (untag_in (fun i q w d => build_in t i q w d) h1 hp)
    · exact buildAlts_in l p v data h hp
end

/-- The components of a sequence are within its contents. -/
theorem build_seq_in {fs : List Field} {i : Option Nat} {p : Parts} {v : Val} (h : (Ty.seq fs).build i p = .ok v) :
    v.In p.contents := by
  rw [Ty.build] at h
  obtain ⟨_, _, h⟩ := eok_bind h
  obtain ⟨l, h1, h⟩ := eok_bind h
  cases h
  exact .seq List.infix_rfl (buildFields_in fs _ _ _ h1 List.infix_rfl)

/-- Likewise for the elements of a set. -/
theorem build_setOf_in {t : Ty} {i : Option Nat} {p : Parts} {v : Val} (h : (Ty.setOf t).build i p = .ok v) :
    v.In p.contents := by
  rw [Ty.build] at h
  obtain ⟨_, _, h⟩ := eok_bind h
  obtain ⟨l, h1, h⟩ := eok_bind h
  cases h
  exact .list List.infix_rfl (buildAll_in (fun q w d => build_in t none q w d) h1 List.infix_rfl)

theorem load_in {t : Ty} {data : Bytes} {v : Val} (h : t.load data = .ok v) : v.In data := by
  obtain ⟨⟨p, r⟩, h1, h⟩ := eok_bind h
  exact build_in t none p v data h (parse_in h1).1

/-! ### Access -/

theorem get_in {data : Bytes} {v x : Val} {n : String} (hv : v.In data) (h : v.get n = .ok (some x)) : x.In data := by
  cases hv with
  | @seq c fs _ hf =>
    unfold Val.get at h
    simp only at h
    split at h
    · rename_i y hy
      cases h
      have : (n, some x) ∈ fs := by
        clear hf
        induction fs with
        | nil => cases hy
        | cons a l ih =>
          obtain ⟨k, w⟩ := a
          rw [List.lookup] at hy
          split at hy
          · rename_i hk
            cases hy
            rw [beq_iff_eq] at hk
            rw [hk]; exact List.mem_cons_self
          · exact List.mem_cons_of_mem _ (ih hy)
      exact hf _ this x rfl
    · cases h
  | any => cases h
  | prim => cases h
  | list => cases h
  | choice => cases h

theorem req_in {data : Bytes} {v x : Val} {n : String} (hv : v.In data) (h : v.req n = .ok x) : x.In data := by
  unfold Val.req at h
  obtain ⟨o, h1, h⟩ := eok_bind h
  cases o with
  | none => cases h
  | some y => cases h; exact get_in hv h1

theorem octets_in {data b : Bytes} {v : Val} (hv : v.In data) (h : v.octets = .ok b) : b <:+: data := by
  cases hv <;> cases h
  assumption

theorem elems_in {data : Bytes} {v : Val} {l : List Val} (hv : v.In data) (h : v.elems = .ok l) : ∀ x ∈ l, x.In data := by
  cases hv <;> cases h
  assumption

theorem parts_in {data : Bytes} {v : Val} {p : Parts} (hv : v.In data) (h : v.parts = .ok p) : p.In data := by
  cases hv <;> cases h
  assumption

end Signify.Asn1
