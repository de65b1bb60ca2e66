/-
Lemmas about insertion-ordered dictionaries.
-/
import Verif.Model.Py

set_option autoImplicit false

namespace Signify.Dict
variable {κ ν : Type} [DecidableEq κ]

/-- The keys, in insertion order. -/
def keys (d : Dict κ ν) : List κ := d.map Prod.fst

theorem get?_set (d : Dict κ ν) (k k' : κ) (v : ν) :
    (d.set k v).get? k' = if k' = k then some v else d.get? k' := by
  induction d with
  | nil =>
    simp only [set, get?]
    by_cases h : k = k'
    · simp [h]
    · simp [h, show ¬ k' = k from fun h' => h h'.symm]
  | cons p d ih =>
    obtain ⟨a, b⟩ := p
    simp only [set]
    by_cases h : a = k
    · subst h
      simp only [if_true, get?]
      by_cases h2 : a = k'
      · simp [h2]
      · simp [h2, show ¬ k' = a from fun h' => h2 h'.symm]
    · simp only [if_neg h, get?]
      by_cases h2 : a = k'
      · subst h2; simp [h]
      · simp only [if_neg h2, ih]

theorem mem_keys_set (d : Dict κ ν) (k k' : κ) (v : ν) : k' ∈ (d.set k v).keys ↔ k' = k ∨ k' ∈ d.keys := by
  induction d with
  | nil => simp [set, keys]
  | cons p d ih =>
    obtain ⟨a, b⟩ := p
    simp only [set]
    by_cases h : a = k
    · subst h; simp [keys]
    · simp only [if_neg h]
      simp only [keys, List.map_cons, List.mem_cons] at ih ⊢
      rw [ih]
      constructor
      · rintro (h | h | h) <;> simp [h]
      · rintro (h | h | h) <;> simp [h]

theorem nodup_set (d : Dict κ ν) (k : κ) (v : ν) (h : d.keys.Nodup) : (d.set k v).keys.Nodup := by
  induction d with
  | nil => simp [set, keys]
  | cons p d ih =>
    obtain ⟨a, b⟩ := p
    simp only [keys, List.map_cons, List.nodup_cons] at h
    simp only [set]
    by_cases ha : a = k
    · subst ha; simp only [if_true]; simpa [keys] using h
    · simp only [if_neg ha]
      have := ih h.2
      have hm := mem_keys_set d k a v
      simp only [keys, List.map_cons, List.nodup_cons] at this hm ⊢
      exact ⟨fun hc => by rcases hm.1 hc with h' | h'
                          · exact ha h'
                          · exact h.1 h', this⟩

theorem nodup_update (e : List (κ × ν)) : ∀ (d : Dict κ ν), d.keys.Nodup → (d.update e).keys.Nodup := by
  induction e with
  | nil => intro d h; exact h
  | cons p e ih => intro d h; exact ih _ (nodup_set d _ _ h)

theorem nodup_ofPairs (l : List (κ × ν)) : (ofPairs l).keys.Nodup := nodup_update l [] (by simp [keys])

theorem get?_update (e : List (κ × ν)) : ∀ (d : Dict κ ν) (k : κ), (d.update e).get? k =
    match e.reverse.find? (fun p => p.1 = k) with
    | some p => some p.2
    | none => d.get? k := by
  induction e with
  | nil => intro d k; rfl
  | cons p e ih =>
    intro d k
    have : (d.update (p :: e)) = (d.set p.1 p.2).update e := rfl
    rw [this, ih]
    simp only [List.reverse_cons, List.find?_append]
    cases h : e.reverse.find? (fun p => p.1 = k) with
    | some q => simp
    | none =>
      simp only [Option.none_or, List.find?_cons, List.find?_nil, get?_set]
      by_cases hk : p.1 = k
      · simp [hk]
      · simp [hk, show ¬ k = p.1 from fun h' => hk h'.symm]

theorem get?_ofPairs (l : List (κ × ν)) (k : κ) :
    (ofPairs l).get? k = (l.reverse.find? (fun p => p.1 = k)).map Prod.snd := by
  unfold ofPairs
  rw [get?_update]
  cases l.reverse.find? (fun p => p.1 = k) <;> rfl

theorem get?_eq_none_iff (d : Dict κ ν) (k : κ) : d.get? k = none ↔ k ∉ d.keys := by
  induction d with
  | nil => simp [get?, keys]
  | cons p d ih =>
    obtain ⟨a, b⟩ := p
    simp only [get?, keys, List.map_cons, List.mem_cons] at ih ⊢
    by_cases h : a = k
    · simp [h]
    · simp [h, show ¬ k = a from fun h' => h h'.symm, ih]

theorem mem_of_get? {d : Dict κ ν} {k : κ} {v : ν} (h : d.get? k = some v) : (k, v) ∈ d := by
  induction d with
  | nil => cases h
  | cons p d ih =>
    obtain ⟨a, b⟩ := p
    simp only [get?] at h
    by_cases hk : a = k
    · subst hk; simp at h; subst h; exact List.mem_cons_self
    · rw [if_neg hk] at h; exact List.mem_cons_of_mem _ (ih h)

theorem get?_of_mem {d : Dict κ ν} (hn : d.keys.Nodup) {k : κ} {v : ν} (h : (k, v) ∈ d) : d.get? k = some v := by
  induction d with
  | nil => cases h
  | cons p d ih =>
    obtain ⟨a, b⟩ := p
    simp only [keys, List.map_cons, List.nodup_cons] at hn
    simp only [get?]
    rcases List.mem_cons.1 h with h | h
    · injection h with h1 h2; subst h1; subst h2; simp
    · have : k ∈ d.map Prod.fst := List.mem_map_of_mem (f := Prod.fst) h
      rw [if_neg (fun hh : a = k => hn.1 (hh ▸ this))]
      exact ih hn.2 h

theorem mem_keys_update (e : List (κ × ν)) : ∀ (d : Dict κ ν) (k : κ),
    k ∈ (d.update e).keys ↔ k ∈ d.keys ∨ k ∈ e.map Prod.fst := by
  induction e with
  | nil => intro d k; simp [update]
  | cons p e ih =>
    intro d k
    have : (d.update (p :: e)) = (d.set p.1 p.2).update e := rfl
    rw [this, ih, mem_keys_set]
    simp only [List.map_cons, List.mem_cons]
    constructor
    · rintro ((h | h) | h) <;> simp [h]
    · rintro (h | h | h) <;> simp [h]

end Signify.Dict
