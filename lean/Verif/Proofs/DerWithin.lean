/-
The nesting depth given to the decoding of signatures suffices; what follows a signature has no influence.
-/
import Verif.Proofs.Asn1Within

set_option autoImplicit false

namespace Signify.Asn1

open Signify

theorem ebind_congr {α β : Type} {x : Except Exc α} {f g : α → Except Exc β} (h : ∀ a, x = .ok a → f a = g a) :
    (x >>= f) = (x >>= g) := by
  cases x with
  | error e => rfl
  | ok a => exact h a rfl

theorem parseAll_congr {α β : Type} {f g : α → Except Exc β} {l : List α} (h : ∀ x ∈ l, f x = g x) : parseAll f l = parseAll g l := by
  induction l with
  | nil => rfl
  | cons a l ih =>
    simp only [parseAll]
    rw [h a List.mem_cons_self, ih (fun x hx => h x (List.mem_cons_of_mem _ hx))]

theorem readContentInfo_congr {sd sd' : Parts → Except Exc RawSD} {p : Parts} (h : ∀ q, q.In p.contents → sd q = sd' q) :
    readContentInfo sd p = readContentInfo sd' p := by
  unfold readContentInfo
  refine ebind_congr (fun v hv => ?_)
  have hin := build_seq_in hv
  refine ebind_congr (fun t ht => ?_)
  refine ebind_congr (fun o ho => ?_)
  simp only
  split
  · refine ebind_congr (fun c hc => ?_)
    cases c with
    | none => rfl
    | some x =>
      refine ebind_congr (fun q hq => ?_)
      rw [h q (parts_in (get_in hin hc) hq)]
  · rfl

theorem readUVal_congr {si si' : Parts → Except Exc RawSI} {sd sd' : Parts → Except Exc RawSD} {c : Bytes}
    (h1 : ∀ q, q.In c → si q = si' q) (h2 : ∀ q, q.In c → sd q = sd' q) (type : String) {p : Parts} (hp : p.In c) :
    readUVal si sd type p = readUVal si' sd' type p := by
  unfold readUVal
  rw [h1 p hp, readContentInfo_congr (fun q hq => h2 q (hq.mono hp.contents))]

theorem readUAttr_congr {si si' : Parts → Except Exc RawSI} {sd sd' : Parts → Except Exc RawSD} {c : Bytes}
    (h1 : ∀ q, q.In c → si q = si' q) (h2 : ∀ q, q.In c → sd q = sd' q) {v : Val} (hv : v.In c) :
    readUAttr si sd v = readUAttr si' sd' v := by
  unfold readUAttr
  refine ebind_congr (fun t ht => ?_)
  refine ebind_congr (fun o ho => ?_)
  refine ebind_congr (fun w hw => ?_)
  refine ebind_congr (fun l hl => ?_)
  rw [parseAll_congr (fun x hx => ?_)]
  have hx' := elems_in (req_in hv hw) hl x hx
  exact ebind_congr (fun p hp => readUVal_congr h1 h2 _ (parts_in hx' hp))

theorem readSI_congr {si si' : Parts → Except Exc RawSI} {sd sd' : Parts → Except Exc RawSD} {c : Bytes}
    (h1 : ∀ q, q.In c → si q = si' q) (h2 : ∀ q, q.In c → sd q = sd' q) {v : Val} (hv : v.In c) :
    readSI si sd v = readSI si' sd' v := by
  unfold readSI
  refine ebind_congr (fun h _ => ?_)
  refine ebind_congr (fun o ho => ?_)
  cases o with
  | none => rfl
  | some x =>
    have : (do parseAll (readUAttr si sd) (← x.elems)) = (do parseAll (readUAttr si' sd') (← x.elems)) :=
      ebind_congr (fun l hl => parseAll_congr (fun y hy => readUAttr_congr h1 h2 (elems_in (get_in hv ho) hl y hy)))
    simp only
    rw [this]

/-- The depth does not matter, as long as it is greater than the number of octets. -/
theorem derSD_depth (k : Nat) : ∀ n m : Nat, ∀ p : Parts, p.contents.length < k → p.contents.length < n → p.contents.length < m →
    derSI n p = derSI m p ∧ derSD n p = derSD m p := by
  induction k with
  | zero => intro _ _ _ h; omega
  | succ k ih =>
    intro n m p hk hn hm
    obtain ⟨n, rfl⟩ : ∃ i, n = i + 1 := ⟨n - 1, by omega⟩
    obtain ⟨m, rfl⟩ : ∃ i, m = i + 1 := ⟨m - 1, by omega⟩
    have h1 : ∀ q : Parts, q.In p.contents → derSI n q = derSI m q := fun q hq =>
      (ih n m q (by have := hq.shorter; omega) (by have := hq.shorter; omega) (by have := hq.shorter; omega)).1
    have h2 : ∀ q : Parts, q.In p.contents → derSD n q = derSD m q := fun q hq =>
      (ih n m q (by have := hq.shorter; omega) (by have := hq.shorter; omega) (by have := hq.shorter; omega)).2
    constructor
    · rw [derSI, derSI]
      exact ebind_congr (fun v hv => readSI_congr h1 h2 (build_seq_in hv))
    · rw [derSD, derSD]
      refine ebind_congr (fun v hv => ?_)
      have hin := build_seq_in hv
      refine ebind_congr (fun h _ => ?_)
      refine ebind_congr (fun w hw => ?_)
      refine ebind_congr (fun l hl => ?_)
      rw [parseAll_congr (fun y hy => readSI_congr h1 h2 (elems_in (req_in hin hw) hl y hy))]

/-- Nothing but the first value of the data has an influence. -/
theorem derEnvelope_first {data rest : Bytes} {p : Parts} (h : parse data = .ok (p, rest)) (junk : Bytes) :
    derEnvelope (p.dump ++ junk) = derEnvelope data := by
  obtain ⟨h1, h2, h3⟩ := parse_spec h
  unfold derEnvelope
  rw [h3 junk, h]
  simp only [bind, Except.bind]
  have hl : p.contents.length < p.dump.length := ((parse_in (h3 [])).1.mono (by rw [List.append_nil]; exact List.infix_rfl)).shorter
  refine readContentInfo_congr (fun q hq => ?_)
  have hq' := hq.shorter
  exact (derSD_depth (q.contents.length + 1) _ _ q (by omega) (by rw [List.length_append]; omega) (by rw [h1, List.length_append]; omega)).2

/-- What follows the first value of the data has no influence. -/
theorem derEnvelope_append {data rest : Bytes} {p : Parts} (h : parse data = .ok (p, rest)) (junk : Bytes) :
    derEnvelope (data ++ junk) = derEnvelope data := by
  rw [← derEnvelope_first h (rest ++ junk), ← List.append_assoc, ← (parse_spec h).1]

/-- If anything was read, what follows has no influence. -/
theorem derEnvelope_ok_append {data : Bytes} {x : String × RawSD} (h : derEnvelope data = .ok x) (junk : Bytes) :
    derEnvelope (data ++ junk) = .ok x := by
  obtain ⟨⟨p, rest⟩, hp, _⟩ := eok_bind h
  rw [derEnvelope_append hp, h]

end Signify.Asn1
