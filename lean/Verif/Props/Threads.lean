/-
C96: a store of certificates in files, shared by threads.
-/
import Verif.Spec.Threads
import Verif.Props.X509

set_option autoImplicit false

namespace Signify.Props

open Signify Spec Threads

theorem goto_items (s : State) (t : Nat) (pc : Pc) : (s.goto t pc).items = s.items := rfl
theorem goto_loaded (s : State) (t : Nat) (pc : Pc) : (s.goto t pc).loaded = s.loaded := rfl
theorem goto_trusted (s : State) (t : Nat) (pc : Pc) : (s.goto t pc).trusted = s.trusted := rfl
theorem goto_self (s : State) (t : Nat) (pc : Pc) : (s.goto t pc).thr t = pc := by simp [State.goto]
theorem goto_other (s : State) {t u : Nat} (pc : Pc) (h : u ≠ t) : (s.goto t pc).thr u = s.thr u := by simp [State.goto, h]

/-- Only the thread that steps moves. -/
theorem advance_other (loc : List Cert × Option Exc) (s : State) {t u : Nat} (h : u ≠ t) : (advance loc s t).1.thr u = s.thr u := by
  unfold advance
  repeat' split
  all_goals first | rfl | (simp only [State.back, State.goto, if_neg h])

/-! ### Where certificates come from -/

/-- What holds of a thread at `pc`: everything it has in hand has an origin. -/
def PcFrom (loc : List Cert × Option Exc) (s0 : State) (tr : List Event) : Pc → Prop
  | .idle => True
  | .called o => ∀ c, o = .append c → Origin loc s0 tr c
  | .marking o => loads o = true
  | .reading o rest => loads o = true ∧ ∀ c ∈ rest, c ∈ loc.1
  | .ready o => ∀ c, o = .append c → Origin loc s0 tr c
  | .scanning seen => ∀ c ∈ seen, Origin loc s0 tr c
  | .looking o c _ => o = .contains c ∨ o = .isTrusted c ∧ s0.trusted = true

/-- What holds of an operation that returns. -/
def EventFrom (loc : List Cert × Option Exc) (s0 : State) (tr : List Event) (e : Event) : Prop :=
  ∀ t o r, e = .ret t o r →
    (∀ l, r = .ok (.certs l) → ∀ c ∈ l, Origin loc s0 tr c) ∧
    (∀ c, r = .ok (.cert c) → Origin loc s0 tr c) ∧
    (∀ c, o = .contains c → r = .ok (.truth true) → ∃ d, Origin loc s0 tr d ∧ c.pyEq d = true) ∧
    (∀ c, o = .isTrusted c → r = .ok (.truth true) → s0.trusted = true ∧ ∃ d, Origin loc s0 tr d ∧ c.pyEq d = true)

theorem Origin.mono {loc : List Cert × Option Exc} {s0 : State} {tr : List Event} (tr' : List Event) {c : Cert}
    (h : Origin loc s0 tr c) : Origin loc s0 (tr ++ tr') c := by
  rcases h with h | h | ⟨t, h⟩
  · exact .inl h
  · exact .inr (.inl h)
  · exact .inr (.inr ⟨t, List.mem_append_left _ h⟩)

theorem PcFrom.mono {loc : List Cert × Option Exc} {s0 : State} {tr : List Event} (tr' : List Event) {pc : Pc}
    (h : PcFrom loc s0 tr pc) : PcFrom loc s0 (tr ++ tr') pc := by
  cases pc with
  | idle => trivial
  | called o => exact fun c hc => Origin.mono tr' (h c hc)
  | marking o => exact h
  | reading o rest => exact h
  | ready o => exact fun c hc => Origin.mono tr' (h c hc)
  | scanning seen => exact fun c hc => Origin.mono tr' (h c hc)
  | looking o c i => exact h

theorem EventFrom.mono {loc : List Cert × Option Exc} {s0 : State} {tr : List Event} (tr' : List Event) {e : Event}
    (h : EventFrom loc s0 tr e) : EventFrom loc s0 (tr ++ tr') e := by
  intro t o r he
  obtain ⟨h1, h2, h3, h4⟩ := h t o r he
  refine ⟨fun l hl c hc => Origin.mono tr' (h1 l hl c hc), fun c hc => Origin.mono tr' (h2 c hc), fun c ho hr => ?_, fun c ho hr => ?_⟩
  · obtain ⟨d, h5, h6⟩ := h3 c ho hr
    exact ⟨d, Origin.mono tr' h5, h6⟩
  · obtain ⟨h7, d, h5, h6⟩ := h4 c ho hr
    exact ⟨h7, d, Origin.mono tr' h5, h6⟩

/-- The invariant. -/
structure AllFrom (loc : List Cert × Option Exc) (s0 : State) (tr : List Event) (s : State) : Prop where
  items : ∀ c ∈ s.items, Origin loc s0 tr c
  trusted : s.trusted = s0.trusted
  pcs : ∀ t, PcFrom loc s0 tr (s.thr t)
  events : ∀ e ∈ tr, EventFrom loc s0 tr e

/-- One step keeps it. -/
theorem advance_from {loc : List Cert × Option Exc} {s0 : State} {tr : List Event} {s : State} (h : AllFrom loc s0 tr s) (t : Nat) :
    (∀ c ∈ (advance loc s t).1.items, Origin loc s0 tr c) ∧ (advance loc s t).1.trusted = s0.trusted ∧
    PcFrom loc s0 tr ((advance loc s t).1.thr t) ∧ ∀ e, (advance loc s t).2 = some e → EventFrom loc s0 tr e := by
  have hp := h.pcs t
  have hi := h.items
  have ht := h.trusted
  unfold advance
  split
  next hpc => exact ⟨hi, ht, by rw [hpc]; trivial, fun e he => by cases he⟩
  next o hpc =>
    rw [hpc] at hp
    split
    next hl =>
      split
      · exact ⟨hi, ht, by rw [goto_self]; exact hp, fun e he => by cases he⟩
      · exact ⟨hi, ht, by rw [goto_self]; exact hl, fun e he => by cases he⟩
    · exact ⟨hi, ht, by rw [goto_self]; exact hp, fun e he => by cases he⟩
  next o hpc =>
    rw [hpc] at hp
    exact ⟨hi, ht, by rw [goto_self]; exact ⟨hp, fun c hc => hc⟩, fun e he => by cases he⟩
  next o c rest hpc =>
    rw [hpc] at hp
    refine ⟨fun d hd => ?_, ht, by rw [goto_self]; exact ⟨hp.1, fun d hd => hp.2 d (List.mem_cons_of_mem _ hd)⟩, fun e he => by cases he⟩
    rcases List.mem_append.1 hd with hd | hd
    · exact hi d hd
    · rw [List.mem_singleton.1 hd]; exact .inr (.inl (hp.2 c (List.mem_cons_self ..)))
  next o hpc =>
    rw [hpc] at hp
    split
    · refine ⟨hi, ht, ?_, fun e he => by cases he⟩
      rw [goto_self]
      intro c hc
      have := hp.1
      rw [hc] at this
      cases this
    · refine ⟨hi, ht, by simp only [State.back]; rw [goto_self]; trivial, fun e he => ?_⟩
      cases he
      intro t' o' r' h'
      cases h'
      exact ⟨fun _ h => by (cases h), fun _ h => by (cases h), fun _ _ h => by (cases h), fun _ _ h => by (cases h)⟩
  next hpc => exact ⟨hi, ht, by rw [goto_self]; exact fun c hc => by (cases hc), fun e he => by cases he⟩
  next hpc =>
    refine ⟨hi, ht, by simp only [State.back]; rw [goto_self]; trivial, fun e he => ?_⟩
    cases he
    intro t' o' r' h'
    cases h'
    exact ⟨fun _ h => by (cases h), fun _ h => by (cases h), fun _ _ h => by (cases h), fun _ _ h => by (cases h)⟩
  next c hpc => exact ⟨hi, ht, by rw [goto_self]; exact .inl rfl, fun e he => by cases he⟩
  next c hpc =>
    split
    next htr => exact ⟨hi, ht, by rw [goto_self]; exact .inr ⟨rfl, by rw [← ht]; exact htr⟩, fun e he => by cases he⟩
    · refine ⟨hi, ht, by simp only [State.back]; rw [goto_self]; trivial, fun e he => ?_⟩
      cases he
      intro t' o' r' h'
      cases h'
      exact ⟨fun _ h => by (cases h), fun _ h => by (cases h), fun _ h => by (cases h), fun _ _ h => by (cases h)⟩
  next n hpc =>
    split
    · refine ⟨hi, ht, by simp only [State.back]; rw [goto_self]; trivial, fun e he => ?_⟩
      cases he
      intro t' o' r' h'
      cases h'
      exact ⟨fun _ h => by (cases h), fun _ h => by (cases h), fun _ _ h => by (cases h), fun _ _ h => by (cases h)⟩
    next c hc =>
      refine ⟨hi, ht, by simp only [State.back]; rw [goto_self]; trivial, fun e he => ?_⟩
      cases he
      intro t' o' r' h'
      cases h'
      refine ⟨fun _ h => by (cases h), fun _ h => ?_, fun _ _ h => by (cases h), fun _ _ h => by (cases h)⟩
      cases h
      refine hi _ ?_
      unfold listItem at hc
      split at hc
      · exact List.mem_of_getElem? hc
      · split at hc
        · exact List.mem_of_getElem? hc
        · cases hc
  next c hpc =>
    rw [hpc] at hp
    refine ⟨fun d hd => ?_, ht, by simp only [State.back]; rw [goto_self]; trivial, fun e he => ?_⟩
    · rcases List.mem_append.1 hd with hd | hd
      · exact hi d hd
      · rw [List.mem_singleton.1 hd]; exact hp c rfl
    · cases he
      intro t' o' r' h'
      cases h'
      exact ⟨fun _ h => by (cases h), fun _ h => by (cases h), fun _ h => by (cases h), fun _ h => by (cases h)⟩
  next hpc =>
    split
    · refine ⟨hi, ht, by simp only [State.back]; rw [goto_self]; trivial, fun e he => ?_⟩
      cases he
      intro t' o' r' h'
      cases h'
      exact ⟨fun _ h => by (cases h), fun _ h => by (cases h), fun _ _ h => by (cases h), fun _ _ h => by (cases h)⟩
    next c hc =>
      refine ⟨fun d hd => hi d (List.dropLast_subset _ hd), ht, by simp only [State.back]; rw [goto_self]; trivial, fun e he => ?_⟩
      cases he
      intro t' o' r' h'
      cases h'
      refine ⟨fun _ h => by (cases h), fun _ h => ?_, fun _ _ h => by (cases h), fun _ _ h => by (cases h)⟩
      cases h
      exact hi _ (List.mem_of_getLast? hc)
  next seen hpc =>
    rw [hpc] at hp
    split
    next c hc =>
      refine ⟨hi, ht, ?_, fun e he => by cases he⟩
      rw [goto_self]
      intro d hd
      rcases List.mem_append.1 hd with hd | hd
      · exact hp d hd
      · rw [List.mem_singleton.1 hd]; exact hi _ (List.mem_of_getElem? hc)
    · refine ⟨hi, ht, by simp only [State.back]; rw [goto_self]; trivial, fun e he => ?_⟩
      cases he
      intro t' o' r' h'
      cases h'
      refine ⟨fun _ h => ?_, fun _ h => by (cases h), fun _ _ h => by (cases h), fun _ _ h => by (cases h)⟩
      cases h
      exact hp
  next o c i hpc =>
    rw [hpc] at hp
    split
    next d hd =>
      split
      next heq =>
        refine ⟨hi, ht, by simp only [State.back]; rw [goto_self]; trivial, fun e he => ?_⟩
        cases he
        intro t' o' r' h'
        cases h'
        refine ⟨fun _ h => by (cases h), fun _ h => by (cases h), fun c' ho _ => ?_, fun c' ho _ => ?_⟩
        · rcases hp with hp | ⟨hp, -⟩
          · rw [hp] at ho; cases ho; exact ⟨d, hi _ (List.mem_of_getElem? hd), heq⟩
          · rw [hp] at ho; cases ho
        · rcases hp with hp | ⟨hp, htr⟩
          · rw [hp] at ho; cases ho
          · rw [hp] at ho; cases ho; exact ⟨htr, d, hi _ (List.mem_of_getElem? hd), heq⟩
      · exact ⟨hi, ht, by rw [goto_self]; exact hp, fun e he => by cases he⟩
    · refine ⟨hi, ht, by simp only [State.back]; rw [goto_self]; trivial, fun e he => ?_⟩
      cases he
      intro t' o' r' h'
      cases h'
      exact ⟨fun _ h => by (cases h), fun _ h => by (cases h), fun _ _ h => by (cases h), fun _ _ h => by (cases h)⟩

theorem run_from {loc : List Cert × Option Exc} {s0 : State} (h0 : NobodyBusy s0) {tr : List Event} {s : State} (h : Run loc s0 tr s) :
    AllFrom loc s0 tr s := by
  induction h with
  | start => exact ⟨fun c hc => .inl hc, rfl, fun t => by rw [h0 t]; trivial, fun _ h => by cases h⟩
  | @call tr s t o hr hidle ih =>
    refine ⟨fun c hc => Origin.mono _ (ih.items c hc), ih.trusted, fun u => ?_, fun e he => ?_⟩
    · by_cases hu : u = t
      · subst hu
        rw [goto_self]
        exact fun c hc => .inr (.inr ⟨u, by rw [hc]; simp⟩)
      · rw [goto_other _ _ hu]; exact PcFrom.mono _ (ih.pcs u)
    · rcases List.mem_append.1 he with he | he
      · exact EventFrom.mono _ (ih.events e he)
      · rw [List.mem_singleton.1 he]; intro _ _ _ h'; cases h'
  | @step tr s t hr hbusy ih =>
    obtain ⟨h1, h2, h3, h4⟩ := advance_from ih t
    refine ⟨fun c hc => Origin.mono _ (h1 c hc), h2, fun u => ?_, fun e he => ?_⟩
    · by_cases hu : u = t
      · subst hu; exact PcFrom.mono _ h3
      · rw [advance_other _ _ hu]; exact PcFrom.mono _ (ih.pcs u)
    · rcases List.mem_append.1 he with he | he
      · exact EventFrom.mono _ (ih.events e he)
      · exact EventFrom.mono _ (h4 e (Option.mem_toList.1 he))

/-- **C96**.  However the threads interleave, and whatever they do with the store: what comes out of it (an iteration, an index, the
last element) has been put there or is in a file of the location; and `in` and `is_trusted` say yes only for a certificate equal to
one of these. -/
theorem C96_nothing_else (loc : List Cert × Option Exc) (s0 : State) (h0 : NobodyBusy s0) (tr : List Event) (s : State)
    (h : Run loc s0 tr s) (t : Nat) :
    (∀ o l, .ret t o (.ok (.certs l)) ∈ tr → ∀ c ∈ l, Origin loc s0 tr c) ∧
    (∀ o c, .ret t o (.ok (.cert c)) ∈ tr → Origin loc s0 tr c) ∧
    (∀ c, .ret t (.contains c) (.ok (.truth true)) ∈ tr → ∃ d, Origin loc s0 tr d ∧ c.pyEq d = true) ∧
    (∀ c, .ret t (.isTrusted c) (.ok (.truth true)) ∈ tr →
      s0.trusted = true ∧ ∃ d, Origin loc s0 tr d ∧ c.pyEq d = true) := by
  have hf := (run_from h0 h).events
  exact ⟨fun o l hl => (hf _ hl _ _ _ rfl).1 l rfl, fun o c hc => (hf _ hc _ _ _ rfl).2.1 c rfl,
    fun c hc => (hf _ hc _ _ _ rfl).2.2.1 c rfl rfl, fun c hc => (hf _ hc _ _ _ rfl).2.2.2 c rfl rfl⟩

/-! ### A store that has been loaded -/

/-- The operation does not modify the list. -/
def Harmless : StoreOp → Prop
  | .append _ => False
  | .pop => False
  | _ => True

/-- What an operation says of a list. -/
def answer (items : List Cert) (trusted : Bool) : StoreOp → Except Exc OpValue
  | .len => .ok (.number items.length)
  | .iter => .ok (.certs items)
  | .contains c => .ok (.truth (certIn c items))
  | .isTrusted c => .ok (.truth (trusted && certIn c items))
  | .item n =>
    match listItem items n with
    | none => .error ⟨.indexError, "list index out of range"⟩
    | some c => .ok (.cert c)
  | .append _ => .ok .none
  | .pop =>
    match items.getLast? with
    | none => .error ⟨.indexError, "pop from empty list"⟩
    | some c => .ok (.cert c)

def PcWarm (items : List Cert) (trusted : Bool) : Pc → Prop
  | .idle => True
  | .called o => Harmless o
  | .marking _ => False
  | .reading _ _ => False
  | .ready o => Harmless o
  | .scanning seen => seen <+: items
  | .looking o c i => (o = .contains c ∨ o = .isTrusted c ∧ trusted = true) ∧ ∀ d ∈ items.take i, c.pyEq d = false

/-- The list is as it was, and nobody is about to modify it. -/
structure Warm (l : List Cert) (tr : Bool) (s : State) : Prop where
  items : s.items = l
  loaded : s.loaded = true
  trusted : s.trusted = tr
  pcs : ∀ t, PcWarm l tr (s.thr t)

theorem certIn_true {c d : Cert} {l : List Cert} (h : d ∈ l) (he : c.pyEq d = true) : certIn c l = true :=
  List.any_eq_true.2 ⟨d, h, he⟩

theorem certIn_false {c : Cert} {l : List Cert} (h : ∀ d ∈ l, c.pyEq d = false) : certIn c l = false := by
  rw [certIn, List.any_eq_false]
  exact fun d hd => by rw [h d hd]; decide

theorem prefix_snoc {l m : List Cert} (h : l <+: m) {c : Cert} (hc : m[l.length]? = some c) : l ++ [c] <+: m := by
  obtain ⟨k, rfl⟩ := h
  rw [List.getElem?_append_right (Nat.le_refl _), Nat.sub_self] at hc
  cases k with
  | nil => cases hc
  | cons d k => cases hc; exact ⟨k, by simp⟩

theorem prefix_whole {l m : List Cert} (h : l <+: m) (hc : m[l.length]? = none) : l = m := by
  obtain ⟨k, rfl⟩ := h
  rw [List.getElem?_append_right (Nat.le_refl _), Nat.sub_self] at hc
  cases k with
  | nil => simp
  | cons d k => cases hc

theorem take_snoc {l : List Cert} {i : Nat} {d : Cert} (h : l[i]? = some d) : l.take (i + 1) = l.take i ++ [d] := by
  rw [List.take_add_one, h]; rfl

/-- One step keeps the list, and an operation that returns has given its answer. -/
theorem advance_warm {loc : List Cert × Option Exc} {items : List Cert} {trusted : Bool} {s : State} (h : Warm items trusted s) (t : Nat) :
    Warm items trusted (advance loc s t).1 ∧ ∀ e, (advance loc s t).2 = some e → ∃ o, e = .ret t o (answer items trusted o) := by
  have hp := h.pcs t
  have hi := h.items
  have ht := h.trusted
  have hl := h.loaded
  have move : ∀ pc, PcWarm items trusted pc → Warm items trusted (s.goto t pc) := fun pc hpc =>
    ⟨hi, hl, ht, fun u => by
      by_cases hu : u = t
      · subst hu; rw [goto_self]; exact hpc
      · rw [goto_other _ _ hu]; exact h.pcs u⟩
  have none : ∀ e : Event, (Option.none : Option Event) = some e → ∃ o, e = .ret t o (answer items trusted o) := fun e he => by cases he
  have back : ∀ o r, r = answer items trusted o → Warm items trusted (s.back t o r).1 ∧
      ∀ e, (s.back t o r).2 = some e → ∃ o, e = .ret t o (answer items trusted o) := fun o r hr =>
    ⟨move .idle trivial, fun e he => by cases he; exact ⟨o, by rw [hr]⟩⟩
  unfold advance
  split
  next hpc => exact ⟨h, none⟩
  next o hpc =>
    rw [hpc] at hp
    rw [hl]
    simp only [if_true]
    split
    · exact ⟨move _ hp, none⟩
    · exact ⟨move _ hp, none⟩
  next o hpc => rw [hpc] at hp; exact hp.elim
  next o c rest hpc => rw [hpc] at hp; exact hp.elim
  next o hpc => rw [hpc] at hp; exact hp.elim
  next hpc => exact ⟨move _ (List.nil_prefix), none⟩
  next hpc => exact back _ _ (by rw [hi]; rfl)
  next c hpc => exact ⟨move _ ⟨.inl rfl, fun d hd => by rw [List.take_zero] at hd; cases hd⟩, none⟩
  next c hpc =>
    split
    next htr => exact ⟨move _ ⟨.inr ⟨rfl, by rw [← ht]; exact htr⟩, fun d hd => by rw [List.take_zero] at hd; cases hd⟩, none⟩
    next htr =>
      refine back _ _ ?_
      rw [Bool.not_eq_true, ht] at htr
      rw [htr]; rfl
  next n hpc =>
    rw [hi]
    split
    next hn => exact back _ _ (by simp only [answer, hn])
    next c hn => exact back _ _ (by simp only [answer, hn])
  next c hpc => rw [hpc] at hp; exact hp.elim
  next hpc => rw [hpc] at hp; exact hp.elim
  next seen hpc =>
    rw [hpc] at hp
    rw [hi]
    split
    next c hc => exact ⟨move _ (prefix_snoc hp hc), none⟩
    next hc => exact back _ _ (by rw [prefix_whole hp hc]; rfl)
  next o c i hpc =>
    rw [hpc] at hp
    rw [hi]
    obtain ⟨ho, hn⟩ := hp
    split
    next d hd =>
      split
      next heq =>
        refine back _ _ ?_
        have := certIn_true (List.mem_of_getElem? hd) heq
        rcases ho with rfl | ⟨rfl, htr⟩
        · simp only [answer, this]
        · simp only [answer, this, htr, Bool.and_self]
      next heq =>
        refine ⟨move _ ⟨ho, fun e he => ?_⟩, none⟩
        rw [take_snoc hd] at he
        rcases List.mem_append.1 he with he | he
        · exact hn e he
        · rw [List.mem_singleton.1 he]; exact Bool.not_eq_true _ ▸ heq
    next hd =>
      refine back _ _ ?_
      have : certIn c items = false := certIn_false (fun d hd' => hn d (by rw [List.take_of_length_le (List.getElem?_eq_none_iff.1 hd)]; exact hd'))
      rcases ho with rfl | ⟨rfl, htr⟩
      · simp only [answer, this]
      · simp only [answer, this, Bool.and_false]

theorem NoChange.left {tr tr' : List Event} (h : NoChange (tr ++ tr')) : NoChange tr :=
  fun t => ⟨fun h' => (h t).1 (List.mem_append_left _ h'), fun c h' => (h t).2 c (List.mem_append_left _ h')⟩

theorem run_warm {loc : List Cert × Option Exc} {items : List Cert} {trusted : Bool} {tr : List Event} {s : State}
    (h : Run loc (.quiet items true trusted) tr s) : NoChange tr → Warm items trusted s ∧
      ∀ t o r, .ret t o r ∈ tr → r = answer items trusted o := by
  induction h with
  | start => exact fun _ => ⟨⟨rfl, rfl, rfl, fun _ => trivial⟩, fun _ _ _ h => by cases h⟩
  | @call tr s t o hr hidle ih =>
    intro hn
    obtain ⟨h1, h2⟩ := ih (NoChange.left hn)
    have ho : Harmless o := by
      cases o with
      | append c => exact ((hn t).2 c (by simp)).elim
      | pop => exact ((hn t).1 (by simp)).elim
      | _ => trivial
    refine ⟨⟨h1.items, h1.loaded, h1.trusted, fun u => ?_⟩, fun u o' r h' => ?_⟩
    · by_cases hu : u = t
      · subst hu; rw [goto_self]; exact ho
      · rw [goto_other _ _ hu]; exact h1.pcs u
    · rcases List.mem_append.1 h' with h' | h'
      · exact h2 u o' r h'
      · cases List.mem_singleton.1 h'
  | @step tr s t hr hbusy ih =>
    intro hn
    obtain ⟨h1, h2⟩ := ih (NoChange.left hn)
    obtain ⟨h3, h4⟩ := advance_warm (loc := loc) h1 t
    refine ⟨h3, fun u o' r h' => ?_⟩
    rcases List.mem_append.1 h' with h' | h'
    · exact h2 u o' r h'
    · obtain ⟨o, ho⟩ := h4 _ (Option.mem_toList.1 h')
      cases ho; rfl

/-- What an operation says of the store, in the rest of the model, once it has been loaded. -/
theorem run_answer {w : World} {i : Nat} {items : List Cert} {trusted : Bool} (hi : (w.stores i).items = items)
    (ht : (w.stores i).trusted = trusted) (hp : (w.stores i).pending = none) (o : StoreOp) : (o.run i w).1 = answer items trusted o := by
  subst hi ht
  cases o with
  | pop =>
    simp only [StoreOp.run, answer, bind, M.bnd, M.getStore]
    cases (w.stores i).items.getLast? <;> rfl
  | item n =>
    simp only [StoreOp.run, answer]
    cases listItem (w.stores i).items n <;> rfl
  | len => simp only [StoreOp.run, answer, bind, M.bnd, storeLen, iterStore, M.getStore, hp]; rfl
  | iter => simp only [StoreOp.run, answer, bind, M.bnd, iterStore, M.getStore, hp]; rfl
  | contains c => rfl
  | isTrusted c => rfl
  | append c => rfl

/-- **C96**.  Once the store has been loaded, and while nobody modifies it, threads do not disturb each other: every operation of every
thread gives what it gives alone. -/
theorem C96_after_loading (loc : List Cert × Option Exc) (s0 : State) (h0 : NobodyBusy s0) (hl : s0.loaded = true) (tr : List Event)
    (s : State) (h : Run loc s0 tr s) (hn : NoChange tr) (t : Nat) (o : StoreOp) (r : Except Exc OpValue) (hr : .ret t o r ∈ tr)
    (w : World) (i : Nat) (hw : AsStore loc s0 (w.stores i)) : r = (o.run i w).1 := by
  obtain ⟨items, loaded, trusted, thr⟩ := s0
  have hl : loaded = true := hl
  have ht : thr = fun _ => .idle := funext h0
  subst hl ht
  rw [run_answer hw.1 hw.2.1 hw.2.2]
  exact (run_warm (loc := loc) h hn).2 t o r hr

/-! ### A store that is being loaded -/

/-- The list only grows, and a thread that is loading has appended what it has read so far, in order. -/
structure Growing (loc : List Cert × Option Exc) (s0 : State) (tr : List Event) (s : State) : Prop where
  kept : s0.items <+: s.items
  loading : ∀ t o rest, s.thr t = .reading o rest → ∃ done, done ++ rest = loc.1 ∧ (s0.items ++ done).Sublist s.items
  whole : s.loaded = true → (s0.items ++ loc.1).Sublist s.items ∨ ∃ t o rest, s.thr t = .reading o rest
  begun : LoadCalled tr → s.loaded = true ∨ ∃ t o, loads o = true ∧ (s.thr t = .called o ∨ s.thr t = .marking o)
  nopop : ∀ t, s.thr t ≠ .called .pop ∧ s.thr t ≠ .ready .pop
  kind : ∀ t, (∀ o, s.thr t = .marking o → loads o = true) ∧ ∀ o rest, s.thr t = .reading o rest → loads o = true

theorem sublist_snoc {l m : List Cert} (h : l.Sublist m) (c : Cert) : l.Sublist (m ++ [c]) := h.trans (List.sublist_append_left m [c])

/-- A step that modifies nothing that matters. -/
theorem Growing.move {loc : List Cert × Option Exc} {s0 : State} {tr tr' : List Event} {s : State} (h : Growing loc s0 tr s) {t : Nat} {pc : Pc}
    (hr : ∀ o rest, s.thr t = .reading o rest → rest = []) (hm : s.loaded = false → ∀ o, s.thr t = .called o ∨ s.thr t = .marking o → loads o = true →
      pc = .marking o)
    (hp : ∀ o rest, pc ≠ .reading o rest) (h1 : pc ≠ .called .pop) (h2 : pc ≠ .ready .pop) (h3 : ∀ o, pc = .marking o → loads o = true)
    (he : LoadCalled tr' → LoadCalled tr) : Growing loc s0 tr' (s.goto t pc) := by
  refine ⟨h.kept, fun u o rest hu => ?_, fun hl => ?_, fun hc => ?_, fun u => ?_, fun u => ?_⟩
  · by_cases hut : u = t
    · subst hut; rw [goto_self] at hu; exact (hp o rest hu).elim
    · rw [goto_other _ _ hut] at hu; exact h.loading u o rest hu
  · rcases h.whole hl with h' | ⟨u, o, rest, h'⟩
    · exact .inl h'
    · by_cases hut : u = t
      · subst hut
        obtain ⟨done, hd, hs⟩ := h.loading u o rest h'
        rw [hr o rest h', List.append_nil] at hd
        rw [hd] at hs
        exact .inl hs
      · exact .inr ⟨u, o, rest, by rw [goto_other _ _ hut]; exact h'⟩
  · rcases h.begun (he hc) with h' | ⟨u, o, ho, h'⟩
    · exact .inl h'
    · by_cases hut : u = t
      · subst hut
        by_cases hl : s.loaded = true
        · exact .inl hl
        · exact .inr ⟨u, o, ho, .inr (by rw [goto_self]; exact hm (Bool.not_eq_true _ ▸ hl) o h' ho)⟩
      · exact .inr ⟨u, o, ho, by rw [goto_other _ _ hut]; exact h'⟩
  · by_cases hut : u = t
    · subst hut; rw [goto_self]; exact ⟨h1, h2⟩
    · rw [goto_other _ _ hut]; exact h.nopop u
  · by_cases hut : u = t
    · subst hut; rw [goto_self]; exact ⟨h3, fun o rest h' => (hp o rest h').elim⟩
    · rw [goto_other _ _ hut]; exact h.kind u

/-- A certificate is appended. -/
theorem Growing.append {loc : List Cert × Option Exc} {s0 : State} {tr : List Event} {s : State} (h : Growing loc s0 tr s) (c : Cert) :
    Growing loc s0 tr { s with items := s.items ++ [c] } := by
  refine ⟨h.kept.trans (List.prefix_append _ _), fun u o rest hu => ?_, fun hl => ?_, h.begun, h.nopop, h.kind⟩
  · obtain ⟨done, hd, hs⟩ := h.loading u o rest hu
    exact ⟨done, hd, sublist_snoc hs c⟩
  · rcases h.whole hl with h' | h'
    · exact .inl (sublist_snoc h' c)
    · exact .inr h'

theorem advance_event {loc : List Cert × Option Exc} {s : State} {t : Nat} {e : Event} (h : (advance loc s t).2 = some e) :
    ∃ o r, e = .ret t o r := by
  unfold advance at h
  repeat' split at h
  all_goals first | (cases h; exact ⟨_, _, rfl⟩) | cases h

theorem advance_growing {loc : List Cert × Option Exc} {s0 : State} {tr : List Event} {s : State} (h : Growing loc s0 tr s) (t : Nat)
    (hb : s.thr t ≠ .idle) (tr' : List Event) (he : LoadCalled tr' → LoadCalled tr) : Growing loc s0 tr' (advance loc s t).1 := by
  have hk := h.kind t
  have hn := h.nopop t
  unfold advance
  split
  next hpc => exact (hb hpc).elim
  next o hpc =>
    have hr : ∀ o rest, s.thr t = .reading o rest → rest = [] := fun o rest h' => by rw [hpc] at h'; cases h'
    split
    next hlo =>
      split
      next hl =>
        exact h.move hr (fun h' => by rw [hl] at h'; cases h') (fun _ _ h' => by cases h') (fun h' => by cases h')
          (fun h' => by cases h'; cases hlo) (fun _ h' => by cases h') he
      next hl =>
        refine h.move hr (fun _ o' h' _ => ?_) (fun _ _ h' => by cases h') (fun h' => by cases h')
          (fun h' => by cases h') (fun _ h' => by cases h'; exact hlo) he
        rw [hpc] at h'
        rcases h' with h' | h' <;> cases h'
        rfl
    next hlo =>
      refine h.move hr (fun _ o' h' hlo' => ?_) (fun _ _ h' => by cases h') (fun h' => by cases h')
          (fun h' => by cases h'; exact hn.1 hpc) (fun _ h' => by cases h') he
      rw [hpc] at h'
      rcases h' with h' | h' <;> cases h'
      exact (hlo hlo').elim
  next o hpc =>
    have ho := hk.1 o hpc
    refine ⟨h.kept, fun u o' rest hu => ?_, fun _ => ?_, fun _ => .inl rfl, fun u => ?_, fun u => ?_⟩
    · by_cases hut : u = t
      · subst hut
        rw [goto_self] at hu
        cases hu
        exact ⟨[], rfl, by rw [List.append_nil]; exact h.kept.sublist⟩
      · rw [goto_other _ _ hut] at hu; exact h.loading u o' rest hu
    · exact .inr ⟨t, o, loc.1, goto_self ..⟩
    · by_cases hut : u = t
      · subst hut; rw [goto_self]; exact ⟨fun h' => by (cases h'), fun h' => by cases h'⟩
      · rw [goto_other _ _ hut]; exact h.nopop u
    · by_cases hut : u = t
      · subst hut; rw [goto_self]; exact ⟨fun o h' => by (cases h'), fun o' rest h' => by cases h'; exact ho⟩
      · rw [goto_other _ _ hut]; exact h.kind u
  next o c rest hpc =>
    have ho := hk.2 o _ hpc
    obtain ⟨done, hd, hs⟩ := h.loading t o _ hpc
    have ha := h.append c
    refine ⟨ha.kept, fun u o' rest' hu => ?_, fun hl => ?_, fun hc => ?_, fun u => ?_, fun u => ?_⟩
    · by_cases hut : u = t
      · subst hut
        rw [goto_self] at hu
        cases hu
        refine ⟨done ++ [c], by rw [List.append_assoc]; exact hd, ?_⟩
        rw [← List.append_assoc]
        exact hs.append (List.Sublist.refl [c])
      · rw [goto_other _ _ hut] at hu; exact ha.loading u o' rest' hu
    · exact .inr ⟨t, o, rest, goto_self ..⟩
    · rcases ha.begun (he hc) with h' | ⟨u, o', ho', h'⟩
      · exact .inl h'
      · by_cases hut : u = t
        · subst hut
          have h' : s.thr u = .called o' ∨ s.thr u = .marking o' := h'
          rw [hpc] at h'
          rcases h' with h' | h' <;> cases h'
        · exact .inr ⟨u, o', ho', by rw [goto_other _ _ hut]; exact h'⟩
    · by_cases hut : u = t
      · subst hut; rw [goto_self]; exact ⟨fun h' => by (cases h'), fun h' => by cases h'⟩
      · rw [goto_other _ _ hut]; exact ha.nopop u
    · by_cases hut : u = t
      · subst hut; rw [goto_self]; exact ⟨fun o h' => by (cases h'), fun o' rest h' => by cases h'; exact ho⟩
      · rw [goto_other _ _ hut]; exact ha.kind u
  next o hpc =>
    have ho := hk.2 o _ hpc
    have hr : ∀ o rest, s.thr t = .reading o rest → rest = [] := fun o rest h' => by rw [hpc] at h'; cases h'; rfl
    have hm : ∀ pc : Pc, s.loaded = false → ∀ o, s.thr t = .called o ∨ s.thr t = .marking o → loads o = true → pc = .marking o :=
      fun pc _ o' h' => by rw [hpc] at h'; rcases h' with h' | h' <;> cases h'
    split
    · exact h.move hr (hm _) (fun _ _ h' => by cases h') (fun h' => by cases h') (fun h' => by cases h'; cases ho) (fun _ h' => by cases h') he
    · exact h.move hr (hm _) (fun _ _ h' => by cases h') (fun h' => by cases h') (fun h' => by cases h') (fun _ h' => by cases h') he
  all_goals
    rename_i hpc
    have hr : ∀ o rest, s.thr t = .reading o rest → rest = [] := fun o rest h' => by rw [hpc] at h'; cases h'
    have hm : ∀ pc : Pc, s.loaded = false → ∀ o, s.thr t = .called o ∨ s.thr t = .marking o → loads o = true → pc = .marking o :=
      fun pc _ o' h' => by rw [hpc] at h'; rcases h' with h' | h' <;> cases h'
    have go : ∀ pc : Pc, (∀ o rest, pc ≠ .reading o rest) → pc ≠ .called .pop → pc ≠ .ready .pop → (∀ o, pc = .marking o → loads o = true) →
        Growing loc s0 tr' (s.goto t pc) := fun pc h1 h2 h3 h4 => h.move hr (hm pc) h1 h2 h3 h4 he
    first
    | exact (hn.2 hpc).elim
    | exact go _ (fun _ _ h' => by cases h') (fun h' => by cases h') (fun h' => by cases h') (fun _ h' => by cases h')
    | (split <;> exact go _ (fun _ _ h' => by cases h') (fun h' => by cases h') (fun h' => by cases h') (fun _ h' => by cases h'))
    | (split
       · split <;> exact go _ (fun _ _ h' => by cases h') (fun h' => by cases h') (fun h' => by cases h') (fun _ h' => by cases h')
       · exact go _ (fun _ _ h' => by cases h') (fun h' => by cases h') (fun h' => by cases h') (fun _ h' => by cases h'))
    | exact (h.append _).move hr (hm _) (fun _ _ h' => by cases h') (fun h' => by cases h') (fun h' => by cases h') (fun _ h' => by cases h') he

theorem run_growing {loc : List Cert × Option Exc} {s0 : State} (h0 : NobodyBusy s0) (hl : s0.loaded = false) {tr : List Event} {s : State}
    (h : Run loc s0 tr s) : NoPop tr → Growing loc s0 tr s := by
  induction h with
  | start =>
    refine fun _ => ⟨List.prefix_refl _, fun t o rest h => ?_, fun h => ?_, fun ⟨_, _, h, _⟩ => ?_, fun t => ?_, fun t => ?_⟩
    · rw [h0 t] at h; cases h
    · rw [hl] at h; cases h
    · cases h
    · rw [h0 t]; exact ⟨fun h' => by (cases h'), fun h' => by cases h'⟩
    · rw [h0 t]; exact ⟨fun _ h' => by (cases h'), fun _ _ h' => by cases h'⟩
  | @call tr s t o hr hidle ih =>
    intro hn
    have h := ih (fun u hu => hn u (List.mem_append_left _ hu))
    refine ⟨h.kept, fun u o' rest hu => ?_, fun hl => ?_, fun hc => ?_, fun u => ?_, fun u => ?_⟩
    · by_cases hut : u = t
      · subst hut; rw [goto_self] at hu; cases hu
      · rw [goto_other _ _ hut] at hu; exact h.loading u o' rest hu
    · rcases h.whole hl with h' | ⟨u, o', rest, h'⟩
      · exact .inl h'
      · by_cases hut : u = t
        · subst hut; rw [hidle] at h'; cases h'
        · exact .inr ⟨u, o', rest, by rw [goto_other _ _ hut]; exact h'⟩
    · obtain ⟨u, o', hu, ho'⟩ := hc
      rcases List.mem_append.1 hu with hu | hu
      · rcases h.begun ⟨u, o', hu, ho'⟩ with h' | ⟨v, o'', ho'', h'⟩
        · exact .inl h'
        · by_cases hut : v = t
          · subst hut; rw [hidle] at h'; rcases h' with h' | h' <;> cases h'
          · exact .inr ⟨v, o'', ho'', by rw [goto_other _ _ hut]; exact h'⟩
      · cases List.mem_singleton.1 hu
        exact .inr ⟨t, o, by rcases ho' with rfl | rfl <;> rfl, .inl (goto_self ..)⟩
    · by_cases hut : u = t
      · subst hut
        rw [goto_self]
        exact ⟨fun h' => by (cases h'; exact hn u (by simp)), fun h' => by cases h'⟩
      · rw [goto_other _ _ hut]; exact h.nopop u
    · by_cases hut : u = t
      · subst hut; rw [goto_self]; exact ⟨fun o h' => by (cases h'), fun o' rest h' => by cases h'⟩
      · rw [goto_other _ _ hut]; exact h.kind u
  | @step tr s t hr hbusy ih =>
    intro hn
    refine advance_growing (ih (fun u hu => hn u (List.mem_append_left _ hu))) t hbusy _ ?_
    rintro ⟨u, o, hu, ho⟩
    rcases List.mem_append.1 hu with hu | hu
    · exact ⟨u, o, hu, ho⟩
    · obtain ⟨o', r, he⟩ := advance_event (Option.mem_toList.1 hu)
      cases he

/-- **C96**.  When all operations that overlap the loading have returned, the store is loaded: it holds all the certificates of the
location (those before the failure, if the reading fails), in their order, and those that it held. -/
theorem C96_settled (loc : List Cert × Option Exc) (s0 : State) (h0 : NobodyBusy s0) (hl : s0.loaded = false) (tr : List Event) (s : State)
    (h : Run loc s0 tr s) (hn : NoPop tr) (hc : LoadCalled tr) (hq : NobodyBusy s) :
    s.loaded = true ∧ s0.items <+: s.items ∧ (s0.items ++ loc.1).Sublist s.items := by
  have hg := run_growing h0 hl h hn
  have hld : s.loaded = true := by
    rcases hg.begun hc with h' | ⟨t, o, -, h'⟩
    · exact h'
    · rw [hq t] at h'; rcases h' with h' | h' <;> cases h'
  refine ⟨hld, hg.kept, ?_⟩
  rcases hg.whole hld with h' | ⟨t, o, rest, h'⟩
  · exact h'
  · rw [hq t] at h'; cases h'

/-! ### One operation at a time -/

/-- Past `_load`, called for `o` when the store was as in `s0`. -/
def Loaded (loc : List Cert × Option Exc) (s0 s : State) (o : StoreOp) : Prop :=
  if loads o = true ∧ s0.loaded = false then s.loaded = true ∧ s.items = s0.items ++ loc.1 ∧ loc.2 = none
  else s.loaded = s0.loaded ∧ s.items = s0.items

def PcDoing (loc : List Cert × Option Exc) (s0 s : State) (o : StoreOp) : Pc → Prop
  | .idle => False
  | .called o' => o' = o ∧ s.items = s0.items ∧ s.loaded = s0.loaded
  | .marking o' => o' = o ∧ loads o = true ∧ s0.loaded = false ∧ s.items = s0.items
  | .reading o' rest => o' = o ∧ loads o = true ∧ s0.loaded = false ∧ s.loaded = true ∧
      ∃ done, done ++ rest = loc.1 ∧ s.items = s0.items ++ done
  | .ready o' => o' = o ∧ Loaded loc s0 s o
  | .scanning seen => o = .iter ∧ Loaded loc s0 s o ∧ seen <+: s.items
  | .looking o' c i => o' = o ∧ (o = .contains c ∨ o = .isTrusted c ∧ s0.trusted = true) ∧ s.items = s0.items ∧ s.loaded = s0.loaded ∧
      ∀ d ∈ s.items.take i, c.pyEq d = false

/-- The thread `t` is in the operation `o`, which it called when the store was as in `s0`, and the others are in none. -/
structure Doing (loc : List Cert × Option Exc) (s0 : State) (t : Nat) (o : StoreOp) (s : State) : Prop where
  trusted : s.trusted = s0.trusted
  pc : PcDoing loc s0 s o (s.thr t)
  others : ∀ u, u ≠ t → s.thr u = .idle

/-- The operation `o` has returned `r`, as in the rest of the model. -/
def DoneAs (loc : List Cert × Option Exc) (s0 : State) (o : StoreOp) (r : Except Exc OpValue) (s : State) : Prop :=
  NobodyBusy s ∧ ∀ (w : World) (i : Nat), AsStore loc s0 (w.stores i) → (o.run i w).1 = r ∧ AsStore loc s ((o.run i w).2.stores i)

theorem setStore_same (i : Nat) (st : Store) (w : World) : ((M.setStore i st w).2.stores i) = st := by
  simp [M.setStore]

theorem Loaded.other {loc : List Cert × Option Exc} {s0 s : State} {o : StoreOp} (h : Loaded loc s0 s o) (ho : loads o = false) :
    s.loaded = s0.loaded ∧ s.items = s0.items := by
  rw [Loaded, if_neg (by rw [ho]; exact fun h => by cases h.1)] at h
  exact h

/-- The list of the store once loaded, in the rest of the model. -/
theorem iterStore_as {loc : List Cert × Option Exc} {s0 s : State} {o : StoreOp} (ho : loads o = true) (h : Loaded loc s0 s o)
    (ht : s.trusted = s0.trusted) (w : World) (i : Nat) (hw : AsStore loc s0 (w.stores i)) :
    (iterStore (.heap i) w).1 = .ok s.items ∧ AsStore loc s ((iterStore (.heap i) w).2.stores i) := by
  obtain ⟨h1, h2, h3⟩ := hw
  by_cases hl : s0.loaded = true
  · rw [Loaded, if_neg (by rw [hl]; exact fun h => by cases h.2)] at h
    rw [hl, if_pos rfl] at h3
    simp only [iterStore, bind, M.bnd, M.getStore, h3]
    refine ⟨by rw [h.2, ← h1]; rfl, h1.trans h.2.symm, h2.trans ht.symm, ?_⟩
    rw [h.1, hl, if_pos rfl]; exact h3
  · have hl : s0.loaded = false := Bool.not_eq_true _ ▸ hl
    rw [Loaded, if_pos ⟨ho, hl⟩] at h
    rw [hl] at h3
    obtain ⟨certs, exc⟩ := loc
    have h3 : (w.stores i).pending = some (certs, exc) := h3
    obtain ⟨h4, h5, h6⟩ := h
    have h6 : exc = none := h6
    subst h6
    simp only [iterStore, bind, M.bnd, M.getStore, h3]
    refine ⟨by rw [h5, ← h1]; rfl, ?_⟩
    show AsStore _ s ((M.setStore i _ w).2.stores i)
    rw [setStore_same]
    exact ⟨by rw [h5, ← h1], h2.trans ht.symm, by rw [h4]; rfl⟩

/-- One step. -/
theorem advance_doing {loc : List Cert × Option Exc} {s0 : State} {t : Nat} {o : StoreOp} {s : State} (h : Doing loc s0 t o s) :
    ((advance loc s t).2 = none → Doing loc s0 t o (advance loc s t).1) ∧
    ∀ e, (advance loc s t).2 = some e → ∃ r, e = .ret t o r ∧ DoneAs loc s0 o r (advance loc s t).1 := by
  have hp := h.pc
  have ht := h.trusted
  have hoth := h.others
  have move : ∀ (s' : State) pc, s'.trusted = s.trusted → s'.thr = s.thr → PcDoing loc s0 s' o pc →
      ((s'.goto t pc, (none : Option Event)).2 = none → Doing loc s0 t o (s'.goto t pc, (none : Option Event)).1) ∧
      ∀ e, (s'.goto t pc, (none : Option Event)).2 = some e → ∃ r, e = .ret t o r ∧ DoneAs loc s0 o r (s'.goto t pc, (none : Option Event)).1 := by
    intro s' pc h1 h2 h3
    refine ⟨fun _ => ⟨h1.trans ht, ?_, fun u hu => ?_⟩, fun e he => by cases he⟩
    · show PcDoing loc s0 (s'.goto t pc) o ((s'.goto t pc).thr t)
      rw [goto_self]
      cases pc <;> exact h3
    · rw [goto_other _ _ hu, h2]; exact hoth u hu
  have back : ∀ (s' : State) o' r, s'.trusted = s.trusted → s'.thr = s.thr → o' = o →
      (∀ (w : World) (i : Nat), AsStore loc s0 (w.stores i) → (o.run i w).1 = r ∧ AsStore loc s' ((o.run i w).2.stores i)) →
      ((s'.back t o' r).2 = none → Doing loc s0 t o (s'.back t o' r).1) ∧
      ∀ e, (s'.back t o' r).2 = some e → ∃ r, e = .ret t o r ∧ DoneAs loc s0 o r (s'.back t o' r).1 := by
    intro s' o' r h1 h2 ho h3
    subst ho
    refine ⟨fun h' => (by cases h'), fun e he => ?_⟩
    cases he
    refine ⟨r, rfl, fun u => ?_, h3⟩
    show (s'.goto t .idle).thr u = .idle
    by_cases hu : u = t
    · subst hu; exact goto_self ..
    · rw [goto_other _ _ hu, h2]; exact hoth u hu
  have same : ∀ o' : StoreOp, loads o' = false → Loaded loc s0 s o' → ∀ (w : World) (i : Nat), AsStore loc s0 (w.stores i) →
      AsStore loc s (w.stores i) := by
    intro o' ho hl w i hw
    obtain ⟨h1, h2⟩ := hl.other ho
    exact ⟨hw.1.trans h2.symm, hw.2.1.trans ht.symm, by rw [h1]; exact hw.2.2⟩
  unfold advance
  split
  next hpc => rw [hpc] at hp; exact hp.elim
  next o' hpc =>
    rw [hpc] at hp
    obtain ⟨rfl, h1, h2⟩ := hp
    split
    next hlo =>
      split
      next hl =>
        refine move s _ rfl rfl ⟨rfl, ?_⟩
        rw [Loaded, if_neg (by rw [← h2, hl]; exact fun h => by cases h.2)]
        exact ⟨h2, h1⟩
      next hl => exact move s _ rfl rfl ⟨rfl, hlo, by rw [← h2]; exact Bool.not_eq_true _ ▸ hl, h1⟩
    next hlo =>
      refine move s _ rfl rfl ⟨rfl, ?_⟩
      rw [Loaded, if_neg (fun h => hlo h.1)]
      exact ⟨h2, h1⟩
  next o' hpc =>
    rw [hpc] at hp
    obtain ⟨rfl, h1, h2, h3⟩ := hp
    exact move { s with loaded := true } _ rfl rfl ⟨rfl, h1, h2, rfl, [], rfl, by rw [List.append_nil]; exact h3⟩
  next o' c rest hpc =>
    rw [hpc] at hp
    obtain ⟨rfl, h1, h2, h3, done, h4, h5⟩ := hp
    exact move { s with items := s.items ++ [c] } _ rfl rfl ⟨rfl, h1, h2, h3, done ++ [c], by rw [List.append_assoc]; exact h4,
      by rw [← List.append_assoc, ← h5]⟩
  next o' hpc =>
    rw [hpc] at hp
    obtain ⟨rfl, h1, h2, h3, done, h4, h5⟩ := hp
    rw [List.append_nil] at h4
    subst h4
    split
    next hn =>
      refine move s _ rfl rfl ⟨rfl, ?_⟩
      rw [Loaded, if_pos ⟨h1, h2⟩]
      exact ⟨h3, h5, hn⟩
    next e he =>
      refine back s o' _ rfl rfl rfl (fun w i hw => ?_)
      have key : (iterStore (.heap i) w).1 = .error e ∧ AsStore loc s ((iterStore (.heap i) w).2.stores i) := by
        obtain ⟨h6, h7, h8⟩ := hw
        rw [h2] at h8
        obtain ⟨certs, exc⟩ := loc
        have h8 : (w.stores i).pending = some (certs, exc) := h8
        have he : exc = some e := he
        subst he
        simp only [iterStore, bind, M.bnd, M.getStore, h8]
        refine ⟨rfl, ?_⟩
        show AsStore _ s ((M.setStore i _ w).2.stores i)
        rw [setStore_same]
        exact ⟨by rw [h5, ← h6], h7.trans ht.symm, by rw [h3]; rfl⟩
      cases o' <;> first | cases h1 | skip
      · simp only [StoreOp.run, storeLen, bind, M.bnd]
        rcases hx : iterStore (.heap i) w with ⟨x, w'⟩
        rw [hx] at key
        obtain ⟨rfl, hk⟩ := key
        exact ⟨rfl, hk⟩
      · simp only [StoreOp.run, bind, M.bnd]
        rcases hx : iterStore (.heap i) w with ⟨x, w'⟩
        rw [hx] at key
        obtain ⟨rfl, hk⟩ := key
        exact ⟨rfl, hk⟩
  next hpc =>
    rw [hpc] at hp
    obtain ⟨rfl, h1⟩ := hp
    exact move s _ rfl rfl ⟨rfl, h1, List.nil_prefix⟩
  next hpc =>
    rw [hpc] at hp
    obtain ⟨rfl, h1⟩ := hp
    refine back s _ _ rfl rfl rfl (fun w i hw => ?_)
    have key := iterStore_as rfl h1 ht w i hw
    simp only [StoreOp.run, storeLen, bind, M.bnd]
    rcases hx : iterStore (.heap i) w with ⟨x, w'⟩
    rw [hx] at key
    obtain ⟨rfl, hk⟩ := key
    exact ⟨rfl, hk⟩
  next c hpc =>
    rw [hpc] at hp
    obtain ⟨rfl, h1⟩ := hp
    obtain ⟨h2, h3⟩ := h1.other rfl
    exact move s _ rfl rfl ⟨rfl, .inl rfl, h3, h2, fun d hd => by rw [List.take_zero] at hd; cases hd⟩
  next c hpc =>
    rw [hpc] at hp
    obtain ⟨rfl, h1⟩ := hp
    obtain ⟨h2, h3⟩ := h1.other rfl
    split
    next htr => exact move s _ rfl rfl ⟨rfl, .inr ⟨rfl, by rw [← ht]; exact htr⟩, h3, h2, fun d hd => by rw [List.take_zero] at hd; cases hd⟩
    next htr =>
      refine back s _ _ rfl rfl rfl (fun w i hw => ⟨?_, same _ rfl h1 w i hw⟩)
      rw [Bool.not_eq_true] at htr
      simp only [StoreOp.run, storeIsTrusted, hw.2.1, ← ht, htr, Bool.false_and]
  next n hpc =>
    rw [hpc] at hp
    obtain ⟨rfl, h1⟩ := hp
    obtain ⟨h2, h3⟩ := h1.other rfl
    split
    next hn =>
      refine back s _ _ rfl rfl rfl (fun w i hw => ?_)
      rw [h3, ← hw.1] at hn
      simp only [StoreOp.run, hn]
      exact ⟨trivial, same _ rfl h1 w i hw⟩
    next c hn =>
      refine back s _ _ rfl rfl rfl (fun w i hw => ?_)
      rw [h3, ← hw.1] at hn
      simp only [StoreOp.run, hn]
      exact ⟨trivial, same _ rfl h1 w i hw⟩
  next c hpc =>
    rw [hpc] at hp
    obtain ⟨rfl, h1⟩ := hp
    obtain ⟨h2, h3⟩ := h1.other rfl
    refine back { s with items := s.items ++ [c] } _ _ rfl rfl rfl (fun w i hw => ⟨rfl, ?_⟩)
    show AsStore loc _ ((M.setStore i _ w).2.stores i)
    rw [setStore_same]
    have := same _ rfl h1 w i hw
    exact ⟨by rw [this.1], this.2.1, this.2.2⟩
  next hpc =>
    rw [hpc] at hp
    obtain ⟨rfl, h1⟩ := hp
    obtain ⟨h2, h3⟩ := h1.other rfl
    split
    next hn =>
      refine back s _ _ rfl rfl rfl (fun w i hw => ?_)
      have hs := same _ rfl h1 w i hw
      rw [← hs.1] at hn
      simp only [StoreOp.run, bind, M.bnd, M.getStore, hn]
      exact ⟨rfl, hs⟩
    next c hn =>
      refine back { s with items := s.items.dropLast } _ _ rfl rfl rfl (fun w i hw => ?_)
      have hs := same _ rfl h1 w i hw
      rw [← hs.1] at hn
      simp only [StoreOp.run, bind, M.bnd, M.getStore, hn]
      refine ⟨rfl, ?_⟩
      show AsStore loc _ ((M.setStore i _ w).2.stores i)
      rw [setStore_same]
      exact ⟨by rw [hs.1], hs.2.1, hs.2.2⟩
  next seen hpc =>
    rw [hpc] at hp
    obtain ⟨rfl, h1, h2⟩ := hp
    split
    next c hc => exact move s _ rfl rfl ⟨rfl, h1, prefix_snoc h2 hc⟩
    next hc =>
      refine back s _ _ rfl rfl rfl (fun w i hw => ?_)
      have key := iterStore_as rfl h1 ht w i hw
      rw [prefix_whole h2 hc]
      simp only [StoreOp.run, bind, M.bnd]
      rcases hx : iterStore (.heap i) w with ⟨x, w'⟩
      rw [hx] at key
      obtain ⟨rfl, hk⟩ := key
      exact ⟨rfl, hk⟩
  next o' c i hpc =>
    rw [hpc] at hp
    obtain ⟨rfl, ho, h1, h2, h3⟩ := hp
    have hs : ∀ (w : World) (i : Nat), AsStore loc s0 (w.stores i) → AsStore loc s (w.stores i) := fun w i hw =>
      ⟨hw.1.trans h1.symm, hw.2.1.trans ht.symm, by rw [h2]; exact hw.2.2⟩
    have say : ∀ b, certIn c s.items = b → ∀ (w : World) (i : Nat), AsStore loc s0 (w.stores i) →
        (o'.run i w).1 = .ok (.truth b) ∧ AsStore loc s ((o'.run i w).2.stores i) := by
      intro b hb w i hw
      have hs := hs w i hw
      rcases ho with rfl | ⟨rfl, htr⟩
      · simp only [StoreOp.run, hs.1, hb]; exact ⟨trivial, hs⟩
      · simp only [StoreOp.run, storeIsTrusted, hs.1, hb, hw.2.1, htr, Bool.true_and]; exact ⟨trivial, hs⟩
    split
    next d hd =>
      split
      next heq => exact back s _ _ rfl rfl rfl (say true (certIn_true (List.mem_of_getElem? hd) heq))
      next heq =>
        refine move s _ rfl rfl ⟨rfl, ho, h1, h2, fun e he => ?_⟩
        rw [take_snoc hd] at he
        rcases List.mem_append.1 he with he | he
        · exact h3 e he
        · rw [List.mem_singleton.1 he]; exact Bool.not_eq_true _ ▸ heq
    next hd =>
      refine back s _ _ rfl rfl rfl (say false (certIn_false (fun d hd' => h3 d ?_)))
      rw [List.take_of_length_le (List.getElem?_eq_none_iff.1 hd)]
      exact hd'

theorem oneAtATime_snoc (calls : List (Nat × StoreOp × Except Exc OpValue)) (x : Nat × StoreOp × Except Exc OpValue) :
    oneAtATime (calls ++ [x]) = (oneAtATime calls ++ [.call x.1 x.2.1]) ++ [.ret x.1 x.2.1 x.2.2] := by
  simp [oneAtATime]

theorem runStoreOps_snoc (i : Nat) (ops : List StoreOp) (o : StoreOp) (w : World) :
    runStoreOps i (ops ++ [o]) w =
      ((runStoreOps i ops w).1 ++ [(o.run i (runStoreOps i ops w).2).1], (o.run i (runStoreOps i ops w).2).2) := by
  induction ops generalizing w with
  | nil => rfl
  | cons p ops ih => simp only [List.cons_append, runStoreOps, ih]

/-- The calls gave what the rest of the model says. -/
def Agrees (loc : List Cert × Option Exc) (s0 : State) (calls : List (Nat × StoreOp × Except Exc OpValue)) (s : State) : Prop :=
  ∀ (w : World) (i : Nat), AsStore loc s0 (w.stores i) →
    (runStoreOps i (calls.map fun x => x.2.1) w).1 = (calls.map fun x => x.2.2) ∧
    AsStore loc s ((runStoreOps i (calls.map fun x => x.2.1) w).2.stores i)

theorem run_sequential {loc : List Cert × Option Exc} {s0 : State} (h0 : NobodyBusy s0) {tr : List Event} {s : State}
    (h : Run loc s0 tr s) : ∀ calls, (tr = oneAtATime calls → NobodyBusy s ∧ Agrees loc s0 calls s) ∧
      ∀ t o, tr = oneAtATime calls ++ [.call t o] → ∃ s1, Agrees loc s0 calls s1 ∧ Doing loc s1 t o s := by
  induction h with
  | start =>
    refine fun calls => ⟨fun h => ⟨h0, ?_⟩, fun t o h => by simp at h⟩
    cases calls with
    | nil => exact fun w i hw => ⟨rfl, hw⟩
    | cons x calls => cases h
  | @call tr s t o hr hidle ih =>
    refine fun calls => ⟨fun h => ?_, fun t' o' h => ?_⟩
    · rcases List.eq_nil_or_concat calls with rfl | ⟨calls, x, rfl⟩
      · simp [oneAtATime] at h
      · rw [List.concat_eq_append, oneAtATime_snoc] at h
        cases List.singleton_inj.1 (List.append_inj' h rfl).2
    · obtain ⟨h1, h2⟩ := List.append_inj' h rfl
      cases List.singleton_inj.1 h2
      obtain ⟨h3, h4⟩ := (ih calls).1 h1
      refine ⟨s, h4, rfl, ?_, fun u hu => ?_⟩
      · rw [goto_self]; exact ⟨rfl, rfl, rfl⟩
      · rw [goto_other _ _ hu]; exact h3 u
  | @step tr s t hr hbusy ih =>
    refine fun calls => ⟨fun h => ?_, fun t' o' h => ?_⟩
    · rcases he : (advance loc s t).2 with _ | e
      · rw [he] at h
        exact (hbusy (((ih calls).1 (by simpa using h)).1 t)).elim
      · rw [he] at h
        rcases List.eq_nil_or_concat calls with rfl | ⟨calls, x, rfl⟩
        · simp [oneAtATime] at h
        · rw [List.concat_eq_append, oneAtATime_snoc] at h
          obtain ⟨h1, h2⟩ := List.append_inj' h rfl
          obtain ⟨s1, h3, h4⟩ := (ih calls).2 _ _ h1
          have htx : x.1 = t := by
            by_cases hx : t = x.1
            · exact hx.symm
            · exact (hbusy (h4.others t hx)).elim
          obtain ⟨x1, x2, x3⟩ := x
          have htx : x1 = t := htx
          subst htx
          obtain ⟨r, h5, h6, h7⟩ := (advance_doing h4).2 e he
          cases List.singleton_inj.1 h2
          cases h5
          refine ⟨h6, fun w i hw => ?_⟩
          obtain ⟨h8, h9⟩ := h3 w i hw
          obtain ⟨h10, h11⟩ := h7 _ i h9
          rw [List.concat_eq_append, List.map_append, List.map_append, List.map_singleton, List.map_singleton, runStoreOps_snoc]
          exact ⟨by rw [h8, h10], h11⟩
    · rcases he : (advance loc s t).2 with _ | e
      · rw [he] at h
        obtain ⟨s1, h3, h4⟩ := (ih calls).2 t' o' (by simpa using h)
        have htx : t' = t := by
          by_cases hx : t = t'
          · exact hx.symm
          · exact (hbusy (h4.others t hx)).elim
        subst htx
        exact ⟨s1, h3, (advance_doing h4).1 he⟩
      · rw [he] at h
        obtain ⟨o, r, rfl⟩ := advance_event he
        cases List.singleton_inj.1 (List.append_inj' h rfl).2

/-- **C96**.  Operations that do not overlap, by whichever threads, give what the rest of the model says of them (C74, C88): the steps
refine it. -/
theorem C96_one_at_a_time (loc : List Cert × Option Exc) (s0 : State) (h0 : NobodyBusy s0)
    (calls : List (Nat × StoreOp × Except Exc OpValue)) (s : State) (h : Run loc s0 (oneAtATime calls) s)
    (w : World) (i : Nat) (hw : AsStore loc s0 (w.stores i)) :
    NobodyBusy s ∧ (runStoreOps i (calls.map fun x => x.2.1) w).1 = (calls.map fun x => x.2.2) ∧
    AsStore loc s ((runStoreOps i (calls.map fun x => x.2.1) w).2.stores i) := by
  obtain ⟨h1, h2⟩ := (run_sequential h0 h calls).1 rfl
  exact ⟨h1, h2 w i hw⟩

/-! ### Loading the store first -/

theorem run_split {loc : List Cert × Option Exc} {s0 : State} {tr : List Event} {s : State} (h : Run loc s0 tr s) :
    ∀ tr1 tr2, tr = tr1 ++ tr2 → ∃ s1, Run loc s0 tr1 s1 ∧ Run loc s1 tr2 s := by
  induction h with
  | start =>
    intro tr1 tr2 h
    obtain ⟨rfl, rfl⟩ := List.append_eq_nil_iff.1 h.symm
    exact ⟨s0, .start, .start⟩
  | @call tr s t o hr hidle ih =>
    intro tr1 tr2 h
    rcases List.eq_nil_or_concat tr2 with rfl | ⟨tr3, e, rfl⟩
    · rw [List.append_nil] at h
      subst h
      exact ⟨_, hr.call t o hidle, .start⟩
    · rw [List.concat_eq_append, ← List.append_assoc] at h
      obtain ⟨h1, h2⟩ := List.append_inj' h rfl
      cases List.singleton_inj.1 h2
      obtain ⟨s1, h3, h4⟩ := ih tr1 tr3 h1
      exact ⟨s1, h3, by rw [List.concat_eq_append]; exact h4.call t o hidle⟩
  | @step tr s t hr hbusy ih =>
    intro tr1 tr2 h
    rcases List.eq_nil_or_concat tr2 with rfl | ⟨tr3, e, rfl⟩
    · rw [List.append_nil] at h
      subst h
      exact ⟨_, hr.step t hbusy, .start⟩
    · rcases he : (advance loc s t).2 with _ | e'
      · rw [he, Option.toList_none, List.append_nil] at h
        obtain ⟨s1, h3, h4⟩ := ih tr1 _ h
        have := h4.step t hbusy
        rw [he, Option.toList_none, List.append_nil] at this
        exact ⟨s1, h3, this⟩
      · rw [List.concat_eq_append, ← List.append_assoc, he] at h
        obtain ⟨h1, h2⟩ := List.append_inj' h rfl
        cases List.singleton_inj.1 h2
        obtain ⟨s1, h3, h4⟩ := ih tr1 tr3 h1
        have := h4.step t hbusy
        rw [he] at this
        exact ⟨s1, h3, by rw [List.concat_eq_append]; exact this⟩

/-- **C96**.  What to do: iterate over the store once, before threads use it.  From then on every operation of every thread, in any
interleaving, gives what it gives after this one iteration and nothing else, as long as nobody modifies the store. -/
theorem C96_iterated_first (loc : List Cert × Option Exc) (s0 : State) (h0 : NobodyBusy s0) (t : Nat) (r : Except Exc OpValue)
    (tr : List Event) (s : State) (h : Run loc s0 (.call t .iter :: .ret t .iter r :: tr) s) (hn : NoChange tr)
    (w : World) (i : Nat) (hw : AsStore loc s0 (w.stores i)) :
    r = (StoreOp.iter.run i w).1 ∧
    ∀ u o r', .ret u o r' ∈ tr → r' = (o.run i (StoreOp.iter.run i w).2).1 := by
  obtain ⟨s1, h1, h2⟩ := run_split h [.call t .iter, .ret t .iter r] tr rfl
  obtain ⟨h3, h4, h5⟩ := C96_one_at_a_time loc s0 h0 [(t, .iter, r)] s1 h1 w i hw
  have h4 : [(StoreOp.iter.run i w).1] = [r] := h4
  refine ⟨(List.singleton_inj.1 h4).symm, fun u o r' h' => ?_⟩
  have hld : s1.loaded = true := by
    have hp : ((StoreOp.iter.run i w).2.stores i).pending = none := by
      simp only [StoreOp.run, iterStore, bind, M.bnd, M.getStore]
      cases hp : (w.stores i).pending with
      | none => exact hp
      | some x =>
        obtain ⟨certs, exc⟩ := x
        cases exc
        · show ((M.setStore i _ w).2.stores i).pending = none
          rw [setStore_same]
        · show ((M.setStore i _ w).2.stores i).pending = none
          rw [setStore_same]
    cases hl : s1.loaded with
    | true => rfl
    | false =>
      have h6 := h5.2.2
      rw [hl] at h6
      have h6 : ((StoreOp.iter.run i w).2.stores i).pending = some loc := h6
      rw [hp] at h6
      cases h6
  exact C96_after_loading loc s1 h3 hld tr s h2 hn u o r' h' _ i h5

/-! ### Loading the store from several threads -/

theorem run_quietly {loc : List Cert × Option Exc} {s0 : State} {tr : List Event} {s s' : State} (h : Run loc s0 tr s) (t : Nat)
    (hb : s.thr t ≠ .idle) (he : advance loc s t = (s', none)) : Run loc s0 tr s' := by
  have := h.step t hb
  rw [he] at this
  simpa using this

theorem run_back {loc : List Cert × Option Exc} {s0 : State} {tr : List Event} {s s' : State} {e : Event} (h : Run loc s0 tr s) (t : Nat)
    (hb : s.thr t ≠ .idle) (he : advance loc s t = (s', some e)) : Run loc s0 (tr ++ [e]) s' := by
  have := h.step t hb
  rw [he] at this
  exact this

theorem goto_goto (s : State) (t : Nat) (p q : Pc) : (s.goto t p).goto t q = s.goto t q := by
  simp only [State.goto]
  congr 1
  funext u
  split <;> rfl

/-- A thread reads all the files while the others wait. -/
theorem run_reading {loc : List Cert × Option Exc} {s0 : State} {tr : List Event} (t : Nat) (o : StoreOp) (rest : List Cert) :
    ∀ {s : State}, Run loc s0 tr s → s.thr t = .reading o rest →
      Run loc s0 tr ({ s with items := s.items ++ rest }.goto t (.reading o [])) := by
  induction rest with
  | nil =>
    intro s h hp
    have : { s with items := s.items ++ [] }.goto t (.reading o []) = s := by
      obtain ⟨items, loaded, trusted, thr⟩ := s
      simp only [State.goto, List.append_nil]
      congr 1
      funext u
      split
      next hu => rw [hu]; exact hp.symm
      · rfl
    rw [this]
    exact h
  | cons c rest ih =>
    intro s h hp
    have h1 := run_quietly (s' := { s with items := s.items ++ [c] }.goto t (.reading o rest)) h t (by rw [hp]; exact fun h => by cases h)
      (by simp only [advance, hp])
    have h2 := ih h1 (goto_self ..)
    have : { ({ s with items := s.items ++ [c] }.goto t (.reading o rest)) with
        items := ({ s with items := s.items ++ [c] }.goto t (.reading o rest)).items ++ rest }.goto t (.reading o []) =
        { s with items := s.items ++ c :: rest }.goto t (.reading o []) := by
      simp only [State.goto, List.append_assoc, List.singleton_append]
      congr 1
      funext u
      split <;> rfl
    rw [this] at h2
    exact h2

/-- **C96** fails: whatever the location holds, a thread may find the store empty, and a certificate of the location not trusted, because
another thread has begun to load it.  (`s0` is a store just created.) -/
theorem C96_missing_false (loc : List Cert × Option Exc) (trusted : Bool) (c : Cert) :
    ∃ tr s, Run loc (.quiet [] false trusted) tr s ∧ NoChange tr ∧
      tr = [.call 0 .iter, .call 1 .iter, .ret 1 .iter (.ok (.certs [])), .call 1 (.isTrusted c),
        .ret 1 (.isTrusted c) (.ok (.truth false))] := by
  have h0 : Run loc (.quiet [] false trusted) [] (.quiet [] false trusted) := .start
  have h1 := h0.call 0 .iter rfl
  have h2 := run_quietly h1 0 (fun h => by cases h) rfl
  have h3 := run_quietly h2 0 (fun h => by cases h) rfl
  have h4 := h3.call 1 .iter rfl
  have h5 := run_quietly h4 1 (fun h => by cases h) rfl
  have h6 := run_quietly h5 1 (fun h => by cases h) rfl
  have h7 := run_back h6 1 (fun h => by cases h) rfl
  have h8 := h7.call 1 (.isTrusted c) rfl
  have h9 := run_quietly h8 1 (fun h => by cases h) rfl
  have hn : NoChange [.call 0 .iter, .call 1 .iter, .ret 1 .iter (.ok (.certs [])), .call 1 (.isTrusted c),
        .ret 1 (.isTrusted c) (.ok (.truth false))] := by
    intro t
    simp
  cases trusted with
  | false => exact ⟨_, _, run_back h9 1 (fun h => by cases h) rfl, hn, rfl⟩
  | true =>
    have h10 := run_quietly h9 1 (fun h => by cases h) rfl
    exact ⟨_, _, run_back h10 1 (fun h => by cases h) rfl, hn, rfl⟩

/-- **C96** fails: two threads may both load the store, which then has every certificate of the location twice, for good. -/
theorem C96_twice_false (loc : List Cert × Option Exc) (hloc : loc.2 = none) (trusted : Bool) :
    ∃ tr s, Run loc (.quiet [] false trusted) tr s ∧ NoChange tr ∧ NobodyBusy s ∧ s.loaded = true ∧ s.items = loc.1 ++ loc.1 := by
  have h0 : Run loc (.quiet [] false trusted) [] (.quiet [] false trusted) := .start
  have h1 := h0.call 0 .len rfl
  have h2 := run_quietly h1 0 (fun h => by cases h) rfl
  have h3 := h2.call 1 .len rfl
  have h4 := run_quietly h3 1 (fun h => by cases h) rfl
  have h5 := run_quietly h4 0 (fun h => by cases h) rfl
  have h6 := run_quietly h5 1 (fun h => by cases h) rfl
  have h7 := run_reading 0 .len loc.1 h6 rfl
  have h8 := run_reading 1 .len loc.1 h7 rfl
  have h9 := run_quietly h8 0 (fun h => by cases h) (by simp only [advance, State.goto, hloc]; rfl)
  have h10 := run_quietly h9 1 (fun h => by cases h) (by simp only [advance, State.goto, hloc]; rfl)
  have h11 := run_back h10 0 (fun h => by cases h) rfl
  have h12 := run_back h11 1 (fun h => by cases h) rfl
  refine ⟨_, _, h12, fun t => by simp, fun t => ?_, rfl, rfl⟩
  simp only [State.goto, State.quiet]
  split
  · rfl
  · split
    · rfl
    · simp_all

/-! ### Instances -/

/-- Follows a schedule: `(t, some o)` is a call, `(t, none)` a step. -/
def follow (loc : List Cert × Option Exc) : List (Nat × Option StoreOp) → List Event × State → List Event × State
  | [], x => x
  | (t, some o) :: l, (tr, s) => if s.thr t = .idle then follow loc l (tr ++ [.call t o], s.goto t (.called o)) else (tr, s)
  | (t, none) :: l, (tr, s) =>
    if s.thr t = .idle then (tr, s) else follow loc l (tr ++ (advance loc s t).2.toList, (advance loc s t).1)

theorem run_follow {loc : List Cert × Option Exc} {s0 : State} (l : List (Nat × Option StoreOp)) :
    ∀ {tr : List Event} {s : State}, Run loc s0 tr s → Run loc s0 (follow loc l (tr, s)).1 (follow loc l (tr, s)).2 := by
  induction l with
  | nil => exact fun h => h
  | cons x l ih =>
    intro tr s h
    obtain ⟨t, _ | o⟩ := x
    · simp only [follow]
      split
      · exact h
      next hb => exact ih (h.step t hb)
    · simp only [follow]
      split
      next hi => exact ih (h.call t o hi)
      · exact h

/-- Two roots in the files. -/
def exTwoRoots : List Cert × Option Exc := ([exRoot, exInter], none)

/-- Thread 0 iterates; then threads 1 and 2 iterate and look for a certificate, step by step in turn. -/
def exTurns : List (Nat × Option StoreOp) :=
  [(0, some .iter), (0, none), (0, none), (0, none), (0, none), (0, none), (0, none), (0, none), (0, none), (0, none),
    (1, some .iter), (2, some (.isTrusted exInter)), (1, none), (2, none), (1, none), (2, none), (1, none), (2, none), (1, none),
    (2, none), (1, none)]

/-- What is seen of it. -/
def exTurnsSeen : List Event :=
  [.call 0 .iter, .ret 0 .iter (.ok (.certs [exRoot, exInter])), .call 1 .iter, .call 2 (.isTrusted exInter),
    .ret 2 (.isTrusted exInter) (.ok (.truth true)), .ret 1 .iter (.ok (.certs [exRoot, exInter]))]

theorem exTurns_trace : (follow exTwoRoots exTurns ([], .quiet [] false true)).1 = exTurnsSeen := by decide +kernel

theorem exTurns_run : ∃ s, Run exTwoRoots (.quiet [] false true) exTurnsSeen s :=
  ⟨_, exTurns_trace ▸ run_follow (loc := exTwoRoots) exTurns .start⟩

/-- Instance of `C96_nothing_else`: the roots seen are those of the location. -/
theorem exTurns_origin : exInter ∈ exTwoRoots.1 ∧ Origin exTwoRoots (.quiet [] false true) exTurnsSeen exInter := by
  obtain ⟨s, h⟩ := exTurns_run
  exact ⟨by decide +kernel, (C96_nothing_else _ _ (fun _ => rfl) _ _ h 1).1 .iter [exRoot, exInter] (by decide +kernel) _ (by decide +kernel)⟩

/-- Instance of `C96_iterated_first`, with two threads in turns. -/
theorem exTurns_first (w : World) (i : Nat) (hw : AsStore exTwoRoots (.quiet [] false true) (w.stores i)) :
    .ok (.certs [exRoot, exInter]) = (StoreOp.iter.run i (StoreOp.iter.run i w).2).1 := by
  obtain ⟨s, h⟩ := exTurns_run
  exact (C96_iterated_first exTwoRoots _ (fun _ => rfl) 0 _ _ s h (fun t => by simp) w i hw).2 1 .iter _ (by decide +kernel)

/-- Such a world. -/
theorem exTurns_world : ∃ w : World, AsStore exTwoRoots (.quiet [] false true) (w.stores 0) :=
  ⟨{ exWorld with stores := fun _ => ⟨[], true, none, some exTwoRoots⟩ }, rfl, rfl, rfl⟩

/-- Instance of `C96_settled`: after both threads have loaded the store. -/
theorem exTwice_settled : ∃ tr s, Run exTwoRoots (.quiet [] false true) tr s ∧ NoPop tr ∧ LoadCalled tr ∧ NobodyBusy s ∧
    s.items = [exRoot, exInter, exRoot, exInter] := by
  refine ⟨_, _, run_follow (loc := exTwoRoots) [(0, some .len), (0, none), (1, some .len), (1, none), (0, none), (1, none), (0, none), (0, none),
    (1, none), (1, none), (0, none), (0, none), (1, none), (1, none)] .start, ?_, ⟨0, .len, ?_, .inr rfl⟩, ?_, ?_⟩
  · have : (follow exTwoRoots [(0, some .len), (0, none), (1, some .len), (1, none), (0, none), (1, none), (0, none), (0, none),
      (1, none), (1, none), (0, none), (0, none), (1, none), (1, none)] ([], .quiet [] false true)).1 =
      [.call 0 .len, .call 1 .len, .ret 0 .len (.ok (.number 4)), .ret 1 .len (.ok (.number 4))] := by decide +kernel
    rw [this]
    exact fun t => by simp
  · decide +kernel
  · intro t
    simp [follow, advance, State.goto, State.quiet, loads, exTwoRoots, State.back]
    split <;> simp_all
  · decide +kernel

/-- Instance of `C96_after_loading`: a loaded store, an iteration by thread 0 around a whole `in` by thread 1. -/
theorem exAround : ∃ s, Run exTwoRoots (.quiet [exRoot] true true)
    [.call 0 .iter, .call 1 (.contains exLeaf), .ret 1 (.contains exLeaf) (.ok (.truth false)), .ret 0 .iter (.ok (.certs [exRoot]))] s := by
  have : (follow exTwoRoots [(0, some .iter), (0, none), (0, none), (1, some (.contains exLeaf)), (1, none), (1, none), (0, none), (1, none),
      (1, none), (0, none)] ([], .quiet [exRoot] true true)).1 = [.call 0 .iter, .call 1 (.contains exLeaf),
      .ret 1 (.contains exLeaf) (.ok (.truth false)), .ret 0 .iter (.ok (.certs [exRoot]))] := by decide +kernel
  exact ⟨_, this ▸ run_follow (loc := exTwoRoots) _ .start⟩

/-- Instance of `C96_one_at_a_time`: a thread iterates, another appends, the first asks again. -/
theorem exInTurn : ∃ s, Run exTwoRoots (.quiet [] false true) (oneAtATime [(0, .iter, .ok (.certs [exRoot, exInter])),
    (1, .append exLeaf, .ok .none), (0, .len, .ok (.number 3))]) s := by
  have : (follow exTwoRoots [(0, some .iter), (0, none), (0, none), (0, none), (0, none), (0, none), (0, none), (0, none), (0, none), (0, none),
      (1, some (.append exLeaf)), (1, none), (1, none), (0, some .len), (0, none), (0, none)] ([], .quiet [] false true)).1 =
      oneAtATime [(0, .iter, .ok (.certs [exRoot, exInter])), (1, .append exLeaf, .ok .none), (0, .len, .ok (.number 3))] := by decide +kernel
  exact ⟨_, this ▸ run_follow (loc := exTwoRoots) _ .start⟩

end Signify.Props
