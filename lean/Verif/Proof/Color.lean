import Mathlib.Data.Fin.VecNotation
import Mathlib.Data.List.OfFn
import Mathlib.Tactic.Linarith
import Mathlib.Tactic.FieldSimp
import Mathlib.Tactic.Ring
import Mathlib.Tactic.NormNum
import Mathlib.Tactic.IntervalCases
import Verif.Spec.Color
/-!
# Lemmas about colours
-/

namespace Patro.Colour

open Xml (Text)

theorem toInt_toFloat (i : Int) : toInt (toFloat i) = i := by
  unfold toInt toFloat trunc
  rw [show (i : ℚ) / 255 * 255 = i by field_simp]
  split
  · exact Int.floor_intCast i
  · exact Int.ceil_intCast i

theorem toInt_range {q : ℚ} (h0 : 0 ≤ q) (h1 : q ≤ 1) : 0 ≤ toInt q ∧ toInt q ≤ 255 := by
  unfold toInt trunc
  rw [if_pos (by linarith)]
  constructor
  · exact Int.floor_nonneg.2 (by linarith)
  · have : ((⌊q * 255⌋ : ℤ) : ℚ) ≤ 255 := (Int.floor_le _).trans (by linarith)
    exact_mod_cast this

theorem hexDigits_lt (n : Nat) (h : n < 16) : hexDigits n = [hexDigit n] := by
  rw [hexDigits, if_pos h]

/-- The text of a component. -/
theorem format02x_digits (a b : Fin 16) : format02x (16 * (a : ℤ) + b) = [lowerDigits.getD a '0', lowerDigits.getD b '0'] := by
  have hd : ∀ x : Fin 16, hexDigit x = lowerDigits.getD x '0' := by decide
  have ha := a.2
  have hb := b.2
  unfold format02x
  rw [if_neg (by omega)]
  have e : (16 * (a : ℤ) + b).natAbs = 16 * a + b := by omega
  by_cases h : (a : Nat) = 0
  · rw [if_pos (by omega), e, h, Nat.mul_zero, Nat.zero_add, hexDigits_lt _ hb, hd]
    have : a = 0 := Fin.ext h
    subst this
    rfl
  · rw [if_neg (by omega), e, hexDigits, if_neg (by omega), show (16 * (a : Nat) + b) / 16 = a by omega,
      show (16 * (a : Nat) + b) % 16 = b by omega, hexDigits_lt _ ha, hd, hd]
    rfl

theorem exists_digits (i : ℤ) (h0 : 0 ≤ i) (h1 : i ≤ 255) : ∃ a b : Fin 16, i = 16 * (a : ℤ) + b := by
  refine ⟨⟨(i / 16).toNat, by omega⟩, ⟨(i % 16).toNat, by omega⟩, ?_⟩
  show i = 16 * ((i / 16).toNat : ℤ) + (i % 16).toNat
  omega

theorem isHex_facts {c : Char} {d : Fin 16} (h : IsHex c d) :
    hexValue c = some d ∧ Xml.isSpace c = false ∧ c ≠ '-' ∧ c ≠ '+' := by
  have h' : c ∈ [lowerDigits.getD d '0', upperDigits.getD d '0'] := by
    rcases h with h | h
    · have : lowerDigits.getD d '0' = c := by
        rw [List.getD_eq_getElem?_getD]
        exact (congrArg (fun o : Option Char => o.getD '0') h)
      rw [this]; simp
    · have : upperDigits.getD d '0' = c := by
        rw [List.getD_eq_getElem?_getD]
        exact (congrArg (fun o : Option Char => o.getD '0') h)
      rw [this]; simp
  have key : ∀ d : Fin 16, ∀ c ∈ [lowerDigits.getD d '0', upperDigits.getD d '0'],
      hexValue c = some d ∧ Xml.isSpace c = false ∧ c ≠ '-' ∧ c ≠ '+' := by decide +kernel
  exact key d c h'

theorem strip_two {a b : Char} (ha : Xml.isSpace a = false) (hb : Xml.isSpace b = false) : Xml.strip [a, b] = [a, b] := by
  simp [Xml.strip, List.dropWhile, ha, hb]

theorem intBase16_two {a b : Char} {x y : Fin 16} (ha : IsHex a x) (hb : IsHex b y) :
    intBase16 [a, b] = .ok (16 * (x : ℤ) + y) := by
  obtain ⟨va, sa, ma, pa⟩ := isHex_facts ha
  obtain ⟨vb, sb, _, _⟩ := isHex_facts hb
  have hp : parseHexNat [a, b] = .ok (16 * (x : ℤ) + y) := by
    simp [parseHexNat, parseHexDigits, va, vb]
  unfold intBase16
  rw [strip_two sa sb]
  split
  · rename_i h; injection h with h _; exact absurd h ma
  · rename_i h; injection h with h _; exact absurd h pa
  · exact hp

theorem hexValue_isHex {c : Char} {n : Nat} (h : hexValue c = some n) : ∃ d : Fin 16, IsHex c d ∧ (d : Nat) = n := by
  have hc : Char.ofNat c.toNat = c := Char.ofNat_toNat c
  have le : ∀ a b : Char, a ≤ b ↔ a.toNat ≤ b.toNat := fun a b => Iff.rfl
  have key : ∀ m < 128, ∀ d : Fin 16, hexValue (Char.ofNat m) = some (d : Nat) →
      lowerDigits[d]? = some (Char.ofNat m) ∨ upperDigits[d]? = some (Char.ofNat m) := by decide +kernel
  have h' := h
  unfold hexValue at h
  simp only [le] at h
  have e0 : '0'.toNat = 48 := rfl
  have e9 : '9'.toNat = 57 := rfl
  have ea : 'a'.toNat = 97 := rfl
  have ef : 'f'.toNat = 102 := rfl
  have eA : 'A'.toNat = 65 := rfl
  have eF : 'F'.toNat = 70 := rfl
  rw [e0, e9, ea, ef, eA, eF] at h
  have hb : c.toNat < 128 ∧ n < 16 := by
    split_ifs at h with h1 h2 h3
    all_goals (injection h with h; omega)
  have := key c.toNat hb.1 ⟨n, hb.2⟩
  rw [hc] at this
  exact ⟨⟨n, hb.2⟩, this h', rfl⟩

theorem parseHexNat_one (a : Char) (v : ℤ) : parseHexNat [a] = .ok v ↔ ∃ x : Fin 16, IsHex a x ∧ v = x := by
  constructor
  · intro h
    cases hv : hexValue a with
    | none => simp [parseHexNat, parseHexDigits, hv] at h
    | some n =>
      obtain ⟨d, hd, hn⟩ := hexValue_isHex hv
      simp [parseHexNat, parseHexDigits, hv] at h
      exact ⟨d, hd, by omega⟩
  · rintro ⟨x, hx, rfl⟩
    simp [parseHexNat, parseHexDigits, (isHex_facts hx).1]

theorem parseHexNat_two (a b : Char) (v : ℤ) :
    parseHexNat [a, b] = .ok v ↔ ∃ x y : Fin 16, IsHex a x ∧ IsHex b y ∧ v = 16 * (x : ℤ) + y := by
  constructor
  · intro h
    cases hv : hexValue a with
    | none => simp [parseHexNat, parseHexDigits, hv] at h
    | some n =>
      cases hw : hexValue b with
      | none => simp [parseHexNat, parseHexDigits, hv, hw] at h
      | some m =>
        obtain ⟨d, hd, hn⟩ := hexValue_isHex hv
        obtain ⟨e, he, hm⟩ := hexValue_isHex hw
        simp [parseHexNat, parseHexDigits, hv, hw] at h
        exact ⟨d, e, hd, he, by omega⟩
  · rintro ⟨x, y, hx, hy, rfl⟩
    simp [parseHexNat, parseHexDigits, (isHex_facts hx).1, (isHex_facts hy).1]

theorem parseHexNat_error (t : Text) (e : PyErr) (h : parseHexNat t = .error e) : e = .valueError := by
  unfold parseHexNat at h
  split at h
  · injection h with h; exact h.symm
  · split at h
    · cases h
    · injection h with h; exact h.symm

theorem intBase16_error (t : Text) (e : PyErr) (h : intBase16 t = .error e) : e = .valueError := by
  unfold intBase16 at h
  split at h
  · rename_i t _
    cases hp : parseHexNat t with
    | error e' =>
      rw [hp] at h
      simp only [bind, Except.bind] at h
      injection h with h
      rw [← h]; exact parseHexNat_error _ _ hp
    | ok v => rw [hp] at h; cases h
  · exact parseHexNat_error _ _ h
  · exact parseHexNat_error _ _ h

theorem isHex_ne_sign {x : Fin 16} : ¬ IsHex '-' x ∧ ¬ IsHex '+' x := ⟨fun h => (isHex_facts h).2.2.1 rfl, fun h => (isHex_facts h).2.2.2 rfl⟩

theorem intBase16_iff (t : Text) (ht : t.length ≤ 2) (v : ℤ) : intBase16 t = .ok v ↔ StandsFor t v := by
  have sp : ∀ {s : Char}, Xml.isSpace s = true → ∀ {x : Fin 16}, ¬ IsHex s x := fun hs x h => by
    rw [(isHex_facts h).2.1] at hs; cases hs
  have one : ∀ a : Char, Xml.isSpace a = false → ((match [a] with
      | '-' :: t => do return - (← parseHexNat t)
      | '+' :: t => parseHexNat t
      | t => parseHexNat t : Except PyErr ℤ) = .ok v ↔ ∃ x : Fin 16, IsHex a x ∧ v = x) := by
    intro a ha
    split
    · rename_i h; injection h with h h'; subst h h'
      refine ⟨fun h => (by cases h), ?_⟩
      rintro ⟨x, hx, -⟩; exact absurd hx isHex_ne_sign.1
    · rename_i h; injection h with h h'; subst h h'
      refine ⟨fun h => (by cases h), ?_⟩
      rintro ⟨x, hx, -⟩; exact absurd hx isHex_ne_sign.2
    · exact parseHexNat_one a v
  match t, ht with
  | [], _ =>
    refine ⟨fun h => (by cases h), fun h => by cases h⟩
  | [a], _ =>
    cases ha : Xml.isSpace a with
    | true =>
      have e : Xml.strip [a] = [] := by simp [Xml.strip, List.dropWhile, ha]
      constructor
      · intro h; unfold intBase16 at h; rw [e] at h; cases h
      · intro h; cases h with | one hx => exact absurd hx (sp ha)
    | false =>
      have e : Xml.strip [a] = [a] := by simp [Xml.strip, List.dropWhile, ha]
      have : intBase16 [a] = .ok v ↔ ∃ x : Fin 16, IsHex a x ∧ v = x := by unfold intBase16; rw [e]; exact one a ha
      rw [this]
      constructor
      · rintro ⟨x, hx, rfl⟩; exact .one hx
      · intro h; cases h with | one hx => exact ⟨_, hx, rfl⟩
  | [a, b], _ =>
    cases ha : Xml.isSpace a with
    | true =>
      cases hb : Xml.isSpace b with
      | true =>
        have e : Xml.strip [a, b] = [] := by simp [Xml.strip, List.dropWhile, ha, hb]
        constructor
        · intro h; unfold intBase16 at h; rw [e] at h; cases h
        · intro h
          cases h with
          | two hx => exact absurd hx (sp ha)
          | before _ hx => exact absurd hx (sp hb)
          | after _ hx => exact absurd hx (sp ha)
          | plus hx => exact absurd hx (sp hb)
          | minus hx => exact absurd hx (sp hb)
      | false =>
        have e : Xml.strip [a, b] = [b] := by simp [Xml.strip, List.dropWhile, ha, hb]
        have : intBase16 [a, b] = .ok v ↔ ∃ x : Fin 16, IsHex b x ∧ v = x := by unfold intBase16; rw [e]; exact one b hb
        rw [this]
        constructor
        · rintro ⟨x, hx, rfl⟩; exact .before ha hx
        · intro h
          cases h with
          | two hx => exact absurd hx (sp ha)
          | before _ hx => exact ⟨_, hx, rfl⟩
          | after _ hx => exact absurd hx (sp ha)
          | plus hx => cases ha
          | minus hx => cases ha
    | false =>
      cases hb : Xml.isSpace b with
      | true =>
        have e : Xml.strip [a, b] = [a] := by simp [Xml.strip, List.dropWhile, ha, hb]
        have : intBase16 [a, b] = .ok v ↔ ∃ x : Fin 16, IsHex a x ∧ v = x := by unfold intBase16; rw [e]; exact one a ha
        rw [this]
        constructor
        · rintro ⟨x, hx, rfl⟩; exact .after hb hx
        · intro h
          cases h with
          | two _ hx => exact absurd hx (sp hb)
          | before hs _ => rw [ha] at hs; cases hs
          | after _ hx => exact ⟨_, hx, rfl⟩
          | plus hx => exact absurd hx (sp hb)
          | minus hx => exact absurd hx (sp hb)
      | false =>
        unfold intBase16
        rw [strip_two ha hb]
        split
        · rename_i h; injection h with h h'; subst h h'
          constructor
          · intro h
            cases hp : parseHexNat [b] with
            | error e => rw [hp] at h; cases h
            | ok w =>
              rw [hp] at h
              obtain ⟨x, hx, rfl⟩ := (parseHexNat_one b w).1 hp
              injection h with h
              rw [← h]; exact .minus hx
          · intro h
            cases h with
            | two hx => exact absurd hx isHex_ne_sign.1
            | before hs => cases hs
            | after hs _ => rw [hb] at hs; cases hs
            | minus hx => rw [(parseHexNat_one b _).2 ⟨_, hx, rfl⟩]; rfl
        · rename_i h; injection h with h h'; subst h h'
          rw [parseHexNat_one]
          constructor
          · rintro ⟨x, hx, rfl⟩; exact .plus hx
          · intro h
            cases h with
            | two hx => exact absurd hx isHex_ne_sign.2
            | before hs => cases hs
            | after hs _ => rw [hb] at hs; cases hs
            | plus hx => exact ⟨_, hx, rfl⟩
        · rename_i h1 h2
          rw [parseHexNat_two]
          constructor
          · rintro ⟨x, y, hx, hy, rfl⟩; exact .two hx hy
          · intro h
            cases h with
            | two hx hy => exact ⟨_, _, hx, hy, rfl⟩
            | before hs => rw [ha] at hs; cases hs
            | after hs _ => rw [hb] at hs; cases hs
            | plus hx => exact absurd rfl (h2 _)
            | minus hx => exact absurd rfl (h1 _)

theorem readComponents_digits {c : Fin 6 → Char} {d : Fin 6 → Fin 16} (h : ∀ i, IsHex (c i) (d i)) :
    readComponents (List.ofFn c) = .ok (toFloat (16 * (d 0 : ℤ) + d 1), toFloat (16 * (d 2 : ℤ) + d 3),
      toFloat (16 * (d 4 : ℤ) + d 5)) := by
  have e : List.ofFn c = [c 0, c 1, c 2, c 3, c 4, c 5] := by simp [List.ofFn_succ]
  rw [e]
  unfold readComponents
  simp only [List.take_succ_cons, List.take_zero, List.drop_succ_cons, List.drop_zero, List.length_cons, List.length_nil,
    Nat.reduceAdd, Nat.reduceSub]
  rw [intBase16_two (h 0) (h 1), intBase16_two (h 2) (h 3), intBase16_two (h 4) (h 5)]
  rfl

theorem new_text {t : Text} {d : Fin 6 → Fin 16} (h : IsColorText t d) (name : Option Text) :
    new [.text t] { name := name } = .ok ⟨toFloat (16 * (d 0 : ℤ) + d 1), toFloat (16 * (d 2 : ℤ) + d 3),
      toFloat (16 * (d 4 : ℤ) + d 5), name⟩ := by
  obtain ⟨c, rfl, h⟩ := h
  have : positional [.text ('#' :: List.ofFn c)] = readComponents (List.ofFn c) := by
    simp [positional, Arg.hashText]
  unfold new
  rw [this, readComponents_digits h]
  rfl

theorem str_digits {c : Color} {d : Fin 6 → Fin 16} (h : HasDigits c d) : c.str = hexText d := by
  obtain ⟨h1, h2, h3⟩ := h
  unfold Color.str hexText
  rw [h1, h2, h3, format02x_digits, format02x_digits, format02x_digits]
  simp [List.ofFn_succ]

theorem hexText_isColorText (d : Fin 6 → Fin 16) : IsColorText (hexText d) d := by
  refine ⟨fun i => lowerDigits.getD (d i) '0', ?_, fun i => Or.inl ?_⟩
  · unfold hexText
    rw [List.map_ofFn]
    rfl
  · have : ∀ x : Fin 16, lowerDigits[x]? = some (lowerDigits.getD x '0') := by decide
    exact this _

theorem inRange_digits {c : Color} (h : InRange c) : ∃ d, HasDigits c d := by
  obtain ⟨⟨r0, r1⟩, ⟨g0, g1⟩, b0, b1⟩ := h
  obtain ⟨a, b, h1⟩ := exists_digits c.redInt (toInt_range r0 r1).1 (toInt_range r0 r1).2
  obtain ⟨e, f, h2⟩ := exists_digits c.greenInt (toInt_range g0 g1).1 (toInt_range g0 g1).2
  obtain ⟨g, h, h3⟩ := exists_digits c.blueInt (toInt_range b0 b1).1 (toInt_range b0 b1).2
  exact ⟨![a, b, e, f, g, h], h1, h2, h3⟩

theorem hexText_injective {d e : Fin 6 → Fin 16} (h : hexText d = hexText e) : d = e := by
  have inj : ∀ x y : Fin 16, lowerDigits.getD x '0' = lowerDigits.getD y '0' → x = y := by decide
  unfold hexText at h
  injection h with _ h
  have h1 := List.map_injective_iff.2 (fun x y h => inj x y h) h
  exact List.ofFn_injective h1

theorem replaceGo_char (a b : Char) (t : Text) :
    Patro.Text.replace [a] [b] t = t.map fun c => if c = a then b else c := by
  have go : ∀ t : Text, Patro.Text.replaceGo [a] [b] 0 t = t.map fun c => if c = a then b else c := by
    intro t
    induction t with
    | nil => rfl
    | cons c t ih =>
      unfold Patro.Text.replaceGo
      by_cases h : c = a
      · subst h; simp [List.isPrefixOf, ih]
      · have : ¬ (a = c) := fun e => h e.symm
        simp [List.isPrefixOf, h, this, ih]
  exact go t

theorem checkValue_iff (a : Arg) (q : ℚ) : checkValue a = .ok q ↔ IsComponent a q := by
  unfold IsComponent
  rcases a with (i | x) | t | c | _
  · simp only [checkValue, checkNum, toFloat]
    constructor
    · intro h
      split at h
      · rename_i hi
        injection h with h
        exact Or.inl ⟨i, rfl, hi.1, hi.2, h.symm⟩
      · cases h
    · rintro (⟨j, h, h0, h1, rfl⟩ | ⟨h, _⟩)
      · injection h with h; injection h with h; subst h
        rw [if_pos ⟨h0, h1⟩]
      · cases h
  · simp only [checkValue, checkNum]
    constructor
    · intro h
      split at h
      · rename_i hi
        injection h with h
        subst h
        exact Or.inr ⟨rfl, hi.1, hi.2⟩
      · cases h
    · rintro (⟨j, h, _⟩ | ⟨h, h0, h1⟩)
      · cases h
      · injection h with h; injection h with h; subst h
        rw [if_pos ⟨h0, h1⟩]
  all_goals
    constructor
    · intro h; cases h
    · rintro (⟨_, h, _⟩ | ⟨h, _⟩) <;> cases h

theorem checkValue_error (a : Arg) (e : PyErr) (h : checkValue a = .error e) : e = .valueError := by
  rcases a with (i | x) | t | c | _
  · simp only [checkValue, checkNum] at h
    split at h
    · cases h
    · injection h with h; exact h.symm
  · simp only [checkValue, checkNum] at h
    split at h
    · cases h
    · injection h with h; exact h.symm
  all_goals injection h with h; exact h.symm

theorem isComponent_range {a : Arg} {q : ℚ} (h : IsComponent a q) : 0 ≤ q ∧ q ≤ 1 := by
  rcases h with ⟨i, _, h0, h1, rfl⟩ | ⟨_, h⟩
  · have h0' : (0 : ℚ) ≤ i := by exact_mod_cast h0
    have h1' : (i : ℚ) ≤ 255 := by exact_mod_cast h1
    constructor
    · positivity
    · rw [div_le_one (by norm_num)]; exact h1'
  · exact h

end Patro.Colour
