/-
What is decoded by a schema has the shape of the schema, so that access to fields that are not optional never fails.
-/
import Verif.Proofs.Classes

set_option autoImplicit false

namespace Signify

open Spec Asn1

mutual
/-- The value has the shape of the type. -/
def Shaped : Ty → Val → Prop
  | .any, v => ∃ p, v = .any p
  | .prim _, v => ∃ b, v = .prim b
  | .seq fs, v => ∃ c l, v = .seq c l ∧ ShapedFields fs l
  | .seqOf t, v => ∃ c l, v = .list c l ∧ ∀ x ∈ l, Shaped t x
  | .setOf t, v => ∃ c l, v = .list c l ∧ ∀ x ∈ l, Shaped t x
  | .choice alts, v => ShapedAlts alts v
/-- Likewise, the fields. -/
def ShapedFields : List Field → List (String × Option Val) → Prop
  | [], l => l = []
  | .mk n _ o t :: fs, l => ∃ x rest, l = (n, x) :: rest ∧ (x = none → o = true) ∧ (∀ v, x = some v → Shaped t v) ∧ ShapedFields fs rest
/-- Likewise, one of the alternatives. -/
def ShapedAlts : List Field → Val → Prop
  | [], _ => False
  | .mk n _ _ t :: l, v => (∃ w, v = .choice n w ∧ Shaped t w) ∨ ShapedAlts l v
end

theorem untag_shaped {tg : Tagging} {k : Option Nat → Parts → Except Exc Val} {P : Val → Prop} (h : ∀ i p v, k i p = .ok v → P v)
    {p : Parts} {v : Val} (hv : untag tg k p = .ok v) : P v := by
  unfold untag at hv
  cases tg with
  | none => exact h _ _ _ hv
  | implicit n => exact h _ _ _ hv
  | explicit n =>
    simp only at hv
    split at hv
    · cases hv
    split at hv
    · cases hv
    split at hv
    · cases hv
    split at hv
    · cases hv
    · exact h _ _ _ hv

theorem buildAll_shaped {build : Parts → Except Exc Val} {P : Val → Prop} (h : ∀ p v, build p = .ok v → P v) :
    ∀ {n : Nat} {b : Bytes} {l : List Val}, buildAll build n b = .ok l → ∀ v ∈ l, P v
  | n, [], l, hl => by
    have : buildAll build n [] = .ok [] := by cases n <;> rfl
    rw [this] at hl
    cases hl
    simp
  | 0, _ :: _, l, hl => by cases hl
  | n + 1, x :: b, l, hl => by
    rw [buildAll] at hl
    · obtain ⟨⟨p, r⟩, _, hl⟩ := Except.bind_eq_ok.1 hl
      obtain ⟨v, h1, hl⟩ := Except.bind_eq_ok.1 hl
      obtain ⟨vs, h2, hl⟩ := Except.bind_eq_ok.1 hl
      cases hl
      intro w hw
      rcases List.mem_cons.1 hw with rfl | hw
      · exact h _ _ h1
      · exact buildAll_shaped h h2 w hw
    · simp

mutual
theorem build_shaped : ∀ (t : Ty) (i : Option Nat) (p : Parts) (v : Val), t.build i p = .ok v → Shaped t v
  | .any, _, p, v, h => by unfold Ty.build at h; cases h; exact ⟨_, rfl⟩
  | .prim _, _, p, v, h => by
    unfold Ty.build at h
    obtain ⟨_, _, h⟩ := Except.bind_eq_ok.1 h
    cases h; exact ⟨_, rfl⟩
  | .seq fs, _, p, v, h => by
    unfold Ty.build at h
    obtain ⟨_, _, h⟩ := Except.bind_eq_ok.1 h
    obtain ⟨l, h1, h⟩ := Except.bind_eq_ok.1 h
    cases h
    exact ⟨_, _, rfl, buildFields_shaped fs _ _ h1⟩
  | .seqOf t, _, p, v, h => by
    unfold Ty.build at h
    obtain ⟨_, _, h⟩ := Except.bind_eq_ok.1 h
    obtain ⟨l, h1, h⟩ := Except.bind_eq_ok.1 h
    cases h
    exact ⟨_, _, rfl, buildAll_shaped (fun p v hv => build_shaped t none p v hv) h1⟩
  | .setOf t, _, p, v, h => by
    unfold Ty.build at h
    obtain ⟨_, _, h⟩ := Except.bind_eq_ok.1 h
    obtain ⟨l, h1, h⟩ := Except.bind_eq_ok.1 h
    cases h
    exact ⟨_, _, rfl, buildAll_shaped (fun p v hv => build_shaped t none p v hv) h1⟩
  | .choice alts, _, p, v, h => by
    unfold Ty.build at h
    exact buildAlts_shaped alts p v h
theorem buildFields_shaped : ∀ (fs : List Field) (b : Bytes) (l : List (String × Option Val)), buildFields fs b = .ok l → ShapedFields fs l
  | [], b, l, h => by
    unfold buildFields at h
    obtain ⟨_, _, h⟩ := Except.bind_eq_ok.1 h
    cases h
    rfl
  | .mk n tg o t :: fs, b, l, h => by
    unfold buildFields at h
    cases b with
    | nil =>
      simp only at h
      split at h
      · rename_i ho
        obtain ⟨vs, h1, h⟩ := Except.bind_eq_ok.1 h
        cases h
        exact ⟨_, _, rfl, fun _ => ho, fun _ hv => (by cases hv), buildFields_shaped fs _ _ h1⟩
      · cases h
    | cons x b =>
      simp only at h
      obtain ⟨⟨p, r⟩, _, h⟩ := Except.bind_eq_ok.1 h
      simp only at h
      split at h
      · rename_i ho
        obtain ⟨vs, h1, h⟩ := Except.bind_eq_ok.1 h
        cases h
        exact ⟨_, _, rfl, fun _ => (Bool.and_eq_true_iff.1 ho).1, fun _ hv => (by cases hv), buildFields_shaped fs _ _ h1⟩
      · obtain ⟨v, h2, h⟩ := Except.bind_eq_ok.1 h
        obtain ⟨vs, h1, h⟩ := Except.bind_eq_ok.1 h
        cases h
        exact ⟨_, _, rfl, fun hn => (by cases hn), fun w hw => (by cases hw; exact untag_shaped (build_shaped t) h2),
          buildFields_shaped fs _ _ h1⟩
theorem buildAlts_shaped : ∀ (fs : List Field) (p : Parts) (v : Val), buildAlts fs p = .ok v → ShapedAlts fs v
  | [], p, v, h => by cases h
  | .mk n tg o t :: fs, p, v, h => by
    unfold buildAlts at h
    split at h
    · obtain ⟨w, h1, h⟩ := Except.bind_eq_ok.1 h
      cases h
      exact .inl ⟨_, rfl, untag_shaped (build_shaped t) h1⟩
    · exact .inr (buildAlts_shaped fs p v h)
end

/-- The field of that name: whether it is optional, its type. -/
def fieldOf : List Field → String → Option (Bool × Ty)
  | [], _ => none
  | .mk n _ o t :: l, name => if name = n then some (o, t) else fieldOf l name

theorem shapedFields_lookup : ∀ {fs : List Field} {l : List (String × Option Val)}, ShapedFields fs l → ∀ {n : String} {o : Bool} {t : Ty},
    fieldOf fs n = some (o, t) → ∃ x, l.lookup n = some x ∧ (x = none → o = true) ∧ ∀ v, x = some v → Shaped t v
  | [], _, _, _, _, _, h => by cases h
  | .mk m _ o' t' :: fs, l, hl, n, o, t, h => by
    obtain ⟨x, rest, rfl, h1, h2, h3⟩ := hl
    rw [fieldOf] at h
    split at h
    · rename_i hn
      subst hn
      cases h
      exact ⟨x, by rw [List.lookup_cons, beq_self_eq_true], h1, h2⟩
    · rename_i hn
      obtain ⟨y, h4, h5⟩ := shapedFields_lookup h3 h
      exact ⟨y, by rw [List.lookup_cons, beq_false_of_ne hn]; exact h4, h5⟩

section
variable {S : List ExcClass} {β : Type} {v : Val}

theorem only_req {fs : List Field} (hv : Shaped (.seq fs) v) {n : String} {t : Ty} (hf : fieldOf fs n = some (false, t))
    {f : Val → Except Exc β} (k : ∀ a, Shaped t a → RaisesOnly S (f a)) : RaisesOnly S (v.req n >>= f) := by
  obtain ⟨c, l, rfl, hl⟩ := hv
  obtain ⟨x, h1, h2, h3⟩ := shapedFields_lookup hl hf
  cases x with
  | none => cases h2 rfl
  | some a =>
    have : (Val.seq c l).req n = .ok a := by unfold Val.req Val.get; simp only [h1]; rfl
    rw [this]
    exact k a (h3 a rfl)

theorem only_get {fs : List Field} (hv : Shaped (.seq fs) v) {n : String} {o : Bool} {t : Ty} (hf : fieldOf fs n = some (o, t))
    {f : Option Val → Except Exc β} (k : ∀ x : Option Val, (∀ a, x = some a → Shaped t a) → RaisesOnly S (f x)) :
    RaisesOnly S (v.get n >>= f) := by
  obtain ⟨c, l, rfl, hl⟩ := hv
  obtain ⟨x, h1, _, h3⟩ := shapedFields_lookup hl hf
  have : (Val.seq c l).get n = .ok x := by unfold Val.get; simp only [h1]
  rw [this]
  exact k x h3

theorem only_octets {n : Nat} (hv : Shaped (.prim n) v) {f : Bytes → Except Exc β} (k : ∀ b, RaisesOnly S (f b)) :
    RaisesOnly S (v.octets >>= f) := by
  obtain ⟨b, rfl⟩ := hv
  exact k b

theorem only_parts (hv : Shaped .any v) {f : Parts → Except Exc β} (k : ∀ b, RaisesOnly S (f b)) : RaisesOnly S (v.parts >>= f) := by
  obtain ⟨b, rfl⟩ := hv
  exact k b

theorem only_seqElems {t : Ty} (hv : Shaped (.seqOf t) v) {f : List Val → Except Exc β}
    (k : ∀ l, (∀ x ∈ l, Shaped t x) → RaisesOnly S (f l)) : RaisesOnly S (v.elems >>= f) := by
  obtain ⟨c, l, rfl, h⟩ := hv
  exact k l h

theorem only_setElems {t : Ty} (hv : Shaped (.setOf t) v) {f : List Val → Except Exc β}
    (k : ∀ l, (∀ x ∈ l, Shaped t x) → RaisesOnly S (f l)) : RaisesOnly S (v.elems >>= f) := by
  obtain ⟨c, l, rfl, h⟩ := hv
  exact k l h

theorem only_build (hS : ExcClass.valueError ∈ S) (t : Ty) (i : Option Nat) (p : Parts) {f : Val → Except Exc β}
    (k : ∀ v, Shaped t v → RaisesOnly S (f v)) : RaisesOnly S (t.build i p >>= f) :=
  only_bind (only_mono (fun c hc => by rw [List.mem_singleton.1 hc]; exact hS) (build_only t i p)) fun v hv => k v (build_shaped t i p v hv)

theorem only_valueIn (hS : ExcClass.valueError ∈ S) {x : Except Exc β} (h : RaisesOnly [.valueError] x) : RaisesOnly S x :=
  only_mono (fun c hc => by rw [List.mem_singleton.1 hc]; exact hS) h
end

/-! ### Certificates -/

theorem textNative_value (p : Parts) : RaisesOnly [.valueError] (textNative p) := by unfold textNative utf8Native; only

theorem readNameVal_value (o : List Nat) (p : Parts) : RaisesOnly [.valueError] (readNameVal o p) := by
  unfold readNameVal
  split
  · split
    · split
      · exact only_ok
      · exact only_mk (by decide)
    · exact only_mk (by decide)
  · split
    · exact only_ok
    · split
      · exact only_ok
      · exact only_bind (textNative_value p) fun _ _ => only_ok

theorem readTime_value {v : Val} (h : Shaped tTime v) : RaisesOnly [.valueError] (readTime v) := by
  rcases h with ⟨w, rfl, h⟩ | ⟨w, rfl, h⟩ | h
  · exact only_octets h fun b => utcTime_only b
  · exact only_octets h fun b => generalizedTime_only b
  · cases h

theorem readName_cert {v : Val} (h : Shaped tName v) : RaisesOnly certificateClasses (readName v) := by
  refine only_seqElems h fun l hl => only_bind (only_parseAll fun x hx => ?_) fun _ _ => only_ok
  refine only_setElems (hl x hx) fun l' hl' => only_bind (only_parseAll fun y hy => ?_) fun l'' _ => ?_
  · refine only_req (hl' y hy) rfl fun _ h1 => only_octets h1 fun _ => only_req (hl' y hy) rfl fun _ h2 => only_parts h2 fun p => ?_
    exact only_bind (only_valueIn (by decide) (readNameVal_value _ p)) fun _ _ => only_ok
  · cases l'' with
    | nil => exact only_mk (by decide)
    | cons => exact only_ok

theorem readOids_value {m : List (List Nat × String)} {v : Val} (h : Shaped (.seqOf tOid) v) : RaisesOnly [.valueError] (readOids m v) := by
  refine only_seqElems h fun l hl => only_parseAll fun x hx => ?_
  exact only_octets (hl x hx) fun _ => only_ok

theorem derEkus_value (b : Bytes) : RaisesOnly [.valueError] (derEkus b) := by
  unfold derEkus Ty.load
  rw [bind_assoc]
  refine only_bind (parse_only _) fun _ _ => ?_
  exact only_build (by decide) _ _ _ fun v hv => readOids_value hv

theorem readKeyParams_value (a : String) {x : Option Val} (h : ∀ v, x = some v → Shaped .any v) :
    RaisesOnly [.valueError] (readKeyParams a x) := by
  cases x with
  | none => exact only_ok
  | some v =>
    refine only_parts (h v rfl) fun p => ?_
    split
    · exact only_ok
    split
    · exact only_ok
    split
    · refine only_build (by decide) _ _ _ fun d hd => ?_
      exact only_req hd rfl fun _ h1 => only_octets h1 fun _ => only_req hd rfl fun _ h2 => only_octets h2 fun _ =>
        only_req hd rfl fun _ h3 => only_octets h3 fun _ => only_ok
    · exact only_ok

theorem readEku_value : ∀ {l : List Val}, (∀ x ∈ l, Shaped tExtension x) → RaisesOnly [.valueError] (readEku l)
  | [], _ => by unfold readEku; exact only_ok
  | e :: l, h => by
    unfold readEku
    have he := h e List.mem_cons_self
    refine only_req he rfl fun _ h1 => only_octets h1 fun o => only_req he rfl fun _ h2 => only_octets h2 fun b => ?_
    refine only_bind ?_ fun _ _ => only_bind (readEku_value fun x hx => h x (List.mem_cons_of_mem _ hx)) fun _ _ => ?_
    · split
      · exact only_bind (derEkus_value b) fun _ _ => only_ok
      · exact only_ok
    · split <;> exact only_ok

theorem readCert_cert (p : Parts) : RaisesOnly certificateClasses (readCert p) := by
  unfold readCert
  refine only_build (by decide) _ _ _ fun v hv => only_req hv rfl fun tbs ht => only_req ht rfl fun _ h1 => only_octets h1 fun _ => ?_
  refine only_req ht rfl fun _ h2 => only_bind (readName_cert h2) fun _ _ => only_req ht rfl fun val hval => ?_
  refine only_req hval rfl fun _ h3 => only_bind (only_valueIn (by decide) (readTime_value h3)) fun _ _ => ?_
  refine only_req hval rfl fun _ h4 => only_bind (only_valueIn (by decide) (readTime_value h4)) fun _ _ => ?_
  refine only_req ht rfl fun _ h5 => only_bind (readName_cert h5) fun _ _ => only_req ht rfl fun spki hs => ?_
  refine only_req hs rfl fun alg ha => only_req ha rfl fun _ h6 => only_octets h6 fun o => only_get ha rfl fun x hx => ?_
  refine only_bind (only_valueIn (by decide) (readKeyParams_value _ hx)) fun _ _ => only_req hs rfl fun _ h7 => only_parts h7 fun _ => ?_
  refine only_get ht rfl fun y hy => only_bind ?_ fun _ _ => only_ok
  cases y with
  | none => exact only_ok
  | some y => exact only_seqElems (hy y rfl) fun l hl => only_valueIn (by decide) (readEku_value hl)

theorem certFromDer_cert (b : Bytes) : RaisesOnly certificateClasses (certFromDer b) := by
  unfold certFromDer
  exact only_bind (only_valueIn (by decide) (parse_only _)) fun _ _ => readCert_cert _

end Signify
