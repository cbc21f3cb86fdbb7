import Verif.Model.Xml
import Mathlib.Tactic.Common
import Mathlib.Data.List.Nodup
/-! # Lemmas on the XML adaptor -/

set_option linter.unusedSimpArgs false

namespace Patro.Dict

variable {κ : Type _} {β : Type _} [DecidableEq κ]

/-- The value of a key after `update`: the last one in `d2`, otherwise the one of `d`. -/
theorem get?_update (d d2 : Dict κ β) (k : κ) :
    get? (update d d2) k = (get? d2.reverse k).or (get? d k) := by
  unfold update
  induction d2 generalizing d with
  | nil => simp
  | cons hd tl ih =>
    obtain ⟨k₀, v₀⟩ := hd
    simp only [List.foldl_cons, ih, List.reverse_cons]
    have happ : ∀ (l : Dict κ β), get? (l ++ [(k₀, v₀)]) k = (get? l k).or (if k₀ = k then some v₀ else none) := by
      intro l
      induction l with
      | nil => simp [get?]
      | cons a l ihl =>
        obtain ⟨k1, v1⟩ := a
        by_cases h : k1 = k
        · simp [get?, h]
        · simp [get?, h, ihl]
    rw [happ, get?_set]
    by_cases h : k₀ = k
    · simp only [h, if_true]
      cases get? tl.reverse k <;> simp
    · simp [h]

end Patro.Dict

namespace Patro.Xml

open Patro

variable {V : Type _}

/-- What an attribute reads from an element. -/
def readValue (xml : Dict String Text) (a : Attr V) : Except PyErr (Option V) :=
  match xml.get? a.xml with
  | some t => a.fromXml t
  | none => .ok a.default

theorem readAttr_eq (xml : Dict String Text) (o : Obj V) (a : Attr V) :
    readAttr xml o a = match readValue xml a with
      | .ok v => .ok (o.set a.py v)
      | .error e => .error e := by
  unfold readAttr readValue
  cases xml.get? a.xml with
  | none => rfl
  | some t => simp only [bind, Except.bind]; cases a.fromXml t <;> rfl

theorem foldlM_read_ok (xml : Dict String Text) (attrs : List (Attr V)) (o : Obj V)
    (h : ∀ a ∈ attrs, ∃ v, readValue xml a = .ok v) :
    ∃ o', attrs.foldlM (readAttr xml) o = .ok o' := by
  induction attrs generalizing o with
  | nil => exact ⟨o, rfl⟩
  | cons a l ih =>
    obtain ⟨v, hv⟩ := h a List.mem_cons_self
    obtain ⟨o', ho'⟩ := ih (o.set a.py v) (fun b hb => h b (List.mem_cons_of_mem _ hb))
    refine ⟨o', ?_⟩
    rw [List.foldlM_cons, readAttr_eq, hv]
    exact ho'

/-- Attributes not named by the rest of the loop keep their value. -/
theorem foldlM_read_keep (xml : Dict String Text) (attrs : List (Attr V)) (o o' : Obj V) (p : String)
    (hp : p ∉ attrs.map Attr.py) (h : attrs.foldlM (readAttr xml) o = .ok o') : o'.get? p = o.get? p := by
  induction attrs generalizing o with
  | nil => simp only [List.foldlM_nil] at h; cases h; rfl
  | cons a l ih =>
    simp only [List.map_cons, List.mem_cons, not_or] at hp
    rw [List.foldlM_cons, readAttr_eq] at h
    cases hv : readValue xml a with
    | error e => rw [hv] at h; cases h
    | ok v =>
      rw [hv] at h
      have := ih (o.set a.py v) hp.2 h
      rw [this, Dict.get?_set_ne _ _ (fun e => hp.1 e.symm)]

theorem foldlM_read_get (xml : Dict String Text) (l1 : List (Attr V)) (a : Attr V) (l2 : List (Attr V))
    (o o' : Obj V) (hp : a.py ∉ l2.map Attr.py)
    (h : (l1 ++ a :: l2).foldlM (readAttr xml) o = .ok o') :
    ∃ v, readValue xml a = .ok v ∧ o'.get? a.py = some v := by
  rw [List.foldlM_append] at h
  cases h1 : l1.foldlM (readAttr xml) o with
  | error e => rw [h1] at h; cases h
  | ok o1 =>
    rw [h1] at h
    change (a :: l2).foldlM (readAttr xml) o1 = .ok o' at h
    rw [List.foldlM_cons, readAttr_eq] at h
    cases hv : readValue xml a with
    | error e => rw [hv] at h; cases h
    | ok v =>
      rw [hv] at h
      refine ⟨v, rfl, ?_⟩
      rw [foldlM_read_keep xml l2 _ o' a.py hp h, Dict.get?_set_self]

theorem foldlM_read_error (xml : Dict String Text) (attrs : List (Attr V)) (o : Obj V) (e : PyErr)
    (h : attrs.foldlM (readAttr xml) o = .error e) :
    ∃ l1 a l2, attrs = l1 ++ a :: l2 ∧ readValue xml a = .error e ∧
      ∀ b ∈ l1, ∃ v, readValue xml b = .ok v := by
  induction attrs generalizing o with
  | nil => cases h
  | cons a l ih =>
    rw [List.foldlM_cons, readAttr_eq] at h
    cases hv : readValue xml a with
    | error e' =>
      rw [hv] at h
      cases h
      exact ⟨[], a, l, rfl, hv, by simp⟩
    | ok v =>
      rw [hv] at h
      obtain ⟨l1, b, l2, rfl, hb, hl1⟩ := ih (o.set a.py v) h
      refine ⟨a :: l1, b, l2, rfl, hb, ?_⟩
      intro c hc
      rcases List.mem_cons.1 hc with rfl | hc
      · exact ⟨v, hv⟩
      · exact hl1 c hc

/-- What an attribute writes. -/
def written (o : Obj V) (a : Attr V) : Option Text :=
  match o.get? a.py with
  | some (some v) => some (a.toXml v)
  | _ => none

theorem foldlM_write (o : Obj V) (attrs : List (Attr V)) (x : Dict String Text)
    (h : ∀ a ∈ attrs, ∃ v, o.get? a.py = some v) :
    ∃ x', attrs.foldlM (writeAttr o) x = .ok x' ∧
      ∀ k, x'.get? k = ((attrs.reverse.findSome? fun a => if a.xml = k then written o a else none)).or (x.get? k) := by
  induction attrs generalizing x with
  | nil => exact ⟨x, rfl, by simp⟩
  | cons a l ih =>
    obtain ⟨v, hv⟩ := h a List.mem_cons_self
    have hl : ∀ b ∈ l, ∃ v, o.get? b.py = some v := fun b hb => h b (List.mem_cons_of_mem _ hb)
    cases v with
    | none =>
      obtain ⟨x', h1, h2⟩ := ih x hl
      refine ⟨x', ?_, ?_⟩
      · rw [List.foldlM_cons]; simp only [writeAttr, hv]; exact h1
      · intro k
        rw [h2 k, List.reverse_cons, List.findSome?_append]
        simp [written, hv]
    | some v =>
      obtain ⟨x', h1, h2⟩ := ih (x.set a.xml (a.toXml v)) hl
      refine ⟨x', ?_, ?_⟩
      · rw [List.foldlM_cons]; simp only [writeAttr, hv]; exact h1
      · intro k
        rw [h2 k, List.reverse_cons, List.findSome?_append, Dict.get?_set]
        by_cases hk : a.xml = k
        · simp only [hk, if_true, List.findSome?_cons, written, hv]
          rw [Option.or_assoc]; rfl
        · simp only [hk, if_false, List.findSome?_cons, List.findSome?_nil, Option.or_none]

theorem findSome?_unique (attrs : List (Attr V)) (a : Attr V) (f : Attr V → Option Text) (ha : a ∈ attrs)
    (hd : (attrs.map Attr.xml).Nodup) :
    (attrs.reverse.findSome? fun b => if b.xml = a.xml then f b else none) = f a := by
  induction attrs with
  | nil => cases ha
  | cons b l ih =>
    simp only [List.map_cons, List.nodup_cons] at hd
    rw [List.reverse_cons, List.findSome?_append]
    rcases List.mem_cons.1 ha with rfl | ha
    · have hnone : (l.reverse.findSome? fun b => if b.xml = a.xml then f b else none) = none := by
        rw [List.findSome?_eq_none_iff]
        intro c hc
        have : c.xml ≠ a.xml := by
          intro e
          apply hd.1
          rw [← e]
          exact List.mem_map_of_mem (List.mem_reverse.1 hc)
        simp [this]
      rw [hnone]
      simp
    · rw [ih ha hd.2]
      have : b.xml ≠ a.xml := by
        intro e
        apply hd.1
        rw [e]
        exact List.mem_map_of_mem ha
      simp [this]

/-! ## Decimal codec -/

theorem digit?_ofNat (d : Nat) (h : d < 10) : digit? (Char.ofNat (48 + d)) = some d := by
  have : ∀ d : Fin 10, digit? (Char.ofNat (48 + d.1)) = some d.1 := by decide
  exact this ⟨d, h⟩

theorem isSpace_ofNat (d : Nat) (h : d < 10) : isSpace (Char.ofNat (48 + d)) = false := by
  have : ∀ d : Fin 10, isSpace (Char.ofNat (48 + d.1)) = false := by decide
  exact this ⟨d, h⟩

theorem ne_sign_ofNat (d : Nat) (h : d < 10) : Char.ofNat (48 + d) ≠ '-' ∧ Char.ofNat (48 + d) ≠ '+' := by
  have : ∀ d : Fin 10, Char.ofNat (48 + d.1) ≠ '-' ∧ Char.ofNat (48 + d.1) ≠ '+' := by decide
  exact this ⟨d, h⟩

theorem parseDigits_append (acc : Nat) (prev : Bool) (t : Text) (d v : Nat) (hd : d < 10)
    (h : parseDigits acc prev t = .ok v) :
    parseDigits acc prev (t ++ [Char.ofNat (48 + d)]) = .ok (10 * v + d) := by
  induction t generalizing acc prev with
  | nil =>
    simp only [parseDigits] at h
    split at h
    · cases h
      simp [parseDigits, digit?_ofNat d hd]
    · cases h
  | cons c t ih =>
    rw [List.cons_append]
    rw [parseDigits] at h ⊢
    cases hc : digit? c with
    | some d' =>
      rw [hc] at h
      exact ih _ _ h
    | none =>
      rw [hc] at h
      simp only at h ⊢
      by_cases hu : c = '_' ∧ prev = true
      · rw [if_pos hu] at h ⊢
        exact ih _ _ h
      · rw [if_neg hu] at h
        cases h

theorem parseDigits_natToText (n : Nat) : parseDigits 0 false (natToText n) = .ok n := by
  induction n using Nat.strongRecOn with
  | _ n ih =>
    rw [natToText]
    split
    · rename_i h
      simp [parseDigits, digit?_ofNat n h]
    · rename_i h
      have hlt : n / 10 < n := Nat.div_lt_self (by omega) (by omega)
      rw [parseDigits_append 0 false _ (n % 10) (n / 10) (Nat.mod_lt _ (by omega)) (ih _ hlt)]
      congr 1
      omega

theorem natToText_digits (n : Nat) : ∀ c ∈ natToText n, ∃ d, d < 10 ∧ c = Char.ofNat (48 + d) := by
  induction n using Nat.strongRecOn with
  | _ n ih =>
    rw [natToText]
    split
    · rename_i h
      intro c hc
      exact ⟨n, h, by simpa using hc⟩
    · rename_i h
      intro c hc
      rcases List.mem_append.1 hc with hc | hc
      · exact ih _ (Nat.div_lt_self (by omega) (by omega)) c hc
      · exact ⟨n % 10, Nat.mod_lt _ (by omega), by simpa using hc⟩

theorem natToText_ne_nil (n : Nat) : natToText n ≠ [] := by
  rw [natToText]; split <;> simp

theorem strip_of_noSpace (t : Text) (h : ∀ c ∈ t, isSpace c = false) : strip t = t := by
  have aux : ∀ t : Text, (∀ c ∈ t, isSpace c = false) → t.dropWhile isSpace = t := by
    intro t h
    cases t with
    | nil => rfl
    | cons c t => rw [List.dropWhile_cons_of_neg]; simp [h c List.mem_cons_self]
  unfold strip
  rw [aux t h, aux t.reverse (fun c hc => h c (List.mem_reverse.1 hc)), List.reverse_reverse]

/-! ## split and join -/

theorem split_ne_nil (c : Char) (t : Text) : split c t ≠ [] := by
  induction t with
  | nil => simp [split]
  | cons x t ih =>
    unfold split
    split
    · simp
    · split <;> simp

theorem split_of_not_mem (c : Char) (t : Text) (h : c ∉ t) : split c t = [t] := by
  induction t with
  | nil => rfl
  | cons x t ih =>
    simp only [List.mem_cons, not_or] at h
    have hx : ¬ x = c := fun e => h.1 e.symm
    simp [split, hx, ih h.2]

theorem split_append (c : Char) (w t : Text) (h : c ∉ w) : split c (w ++ c :: t) = w :: split c t := by
  induction w with
  | nil => simp [split]
  | cons x w ih =>
    simp only [List.mem_cons, not_or] at h
    have hx : ¬ x = c := fun e => h.1 e.symm
    simp [split, hx, ih h.2]

theorem split_join (c : Char) (ws : List Text) (hne : ws ≠ []) (h : ∀ w ∈ ws, c ∉ w) :
    split c (join c ws) = ws := by
  induction ws with
  | nil => exact absurd rfl hne
  | cons w ws ih =>
    cases ws with
    | nil => exact split_of_not_mem c w (h w List.mem_cons_self)
    | cons w2 ws =>
      simp only [join]
      rw [split_append c w _ (h w List.mem_cons_self),
        ih (by simp) (fun v hv => h v (List.mem_cons_of_mem _ hv))]

theorem join_no_char (c d : Char) (ws : List Text) (hcd : c ≠ d) (h : ∀ w ∈ ws, d ∉ w) : d ∉ join c ws := by
  induction ws with
  | nil => simp [join]
  | cons w ws ih =>
    cases ws with
    | nil => exact h w List.mem_cons_self
    | cons w2 ws =>
      simp only [join, List.mem_append, List.mem_cons, not_or]
      exact ⟨h w List.mem_cons_self, fun e => hcd e.symm, ih (fun v hv => h v (List.mem_cons_of_mem _ hv))⟩

theorem mapM_parse {F : Type _} (parse : Text → Except PyErr F) (print : F → Text) (l : List F)
    (h : ∀ x ∈ l, parse (print x) = .ok x) : (l.map print).mapM parse = .ok l := by
  induction l with
  | nil => rfl
  | cons x l ih =>
    rw [List.map_cons, List.mapM_cons, h x List.mem_cons_self,
      ih (fun y hy => h y (List.mem_cons_of_mem _ hy))]
    rfl

/-! ## Class hierarchies -/

variable {A : Type _}

theorem registerFromSuperClass_append (l1 l2 : List (Cls A)) :
    registerFromSuperClass (l1 ++ l2) = registerFromSuperClass l1 ++ registerFromSuperClass l2 := by
  induction l1 with
  | nil => simp [registerFromSuperClass]
  | cons c l ih =>
    obtain ⟨own, bases, mro⟩ := c
    simp [registerFromSuperClass, ih]

theorem mem_register_of_mem (l : List (Cls A)) (c : Cls A) (hc : c ∈ l) (a : A) (ha : a ∈ c.attributes) :
    a ∈ registerFromSuperClass l := by
  induction l with
  | nil => cases hc
  | cons d l ih =>
    obtain ⟨own, bases, mro⟩ := d
    simp only [registerFromSuperClass, List.mem_append]
    rcases List.mem_cons.1 hc with rfl | hc
    · exact Or.inl (Or.inr ha)
    · exact Or.inr (ih hc)

theorem mem_register (l : List (Cls A)) (a : A) (ha : a ∈ registerFromSuperClass l) :
    ∃ own bases mro, Cls.mk own bases mro ∈ l ∧
      (a ∈ registerFromSuperClass mro ∨ a ∈ (Cls.mk own bases mro).attributes) := by
  induction l with
  | nil => simp [registerFromSuperClass] at ha
  | cons d l ih =>
    obtain ⟨own, bases, mro⟩ := d
    simp only [registerFromSuperClass, List.mem_append] at ha
    rcases ha with (ha | ha) | ha
    · exact ⟨own, bases, mro, List.mem_cons_self, Or.inl ha⟩
    · exact ⟨own, bases, mro, List.mem_cons_self, Or.inr ha⟩
    · obtain ⟨o, b, m, h1, h2⟩ := ih ha
      exact ⟨o, b, m, List.mem_cons_of_mem _ h1, h2⟩

end Patro.Xml
