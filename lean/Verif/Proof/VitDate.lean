import Verif.Spec.Vit
import Mathlib.Tactic.IntervalCases
import Mathlib.Tactic.Ring
import Mathlib.Data.List.Induction
/-! # Dates read from texts -/

set_option linter.unusedSimpArgs false
set_option linter.unusedVariables false

namespace Patro.Vit

open Patro.Text (Text)

/-- The digit `d`. -/
def chr (d : Nat) : Char := Char.ofNat (48 + d)

theorem digit?_chr {d : Nat} (h : d ≤ 9) : Xml.digit? (chr d) = some d := by
  interval_cases d <;> rfl

theorem digit?_some {c : Char} {d : Nat} (h : Xml.digit? c = some d) : d ≤ 9 ∧ c = chr d := by
  unfold Xml.digit? at h
  split at h
  · rename_i hc
    have h0 : '0'.toNat = 48 := rfl
    have h9 : '9'.toNat = 57 := rfl
    rw [h0, h9] at hc
    rw [h0] at h
    cases h
    refine ⟨by omega, ?_⟩
    unfold chr
    rw [show 48 + (c.toNat - 48) = c.toNat by omega]
    exact (Char.ofNat_toNat c).symm
  · cases h

theorem rxDigit_chr {lo hi d : Nat} (h : d ≤ 9) (t : Text) :
    rxDigit lo hi (chr d :: t) = if lo ≤ d ∧ d ≤ hi then [(d, t)] else [] := by
  simp only [rxDigit, digit?_chr h]

theorem mem_rxDigit {lo hi n : Nat} {t r : Text} : (n, r) ∈ rxDigit lo hi t ↔ lo ≤ n ∧ n ≤ hi ∧ n ≤ 9 ∧ t = chr n :: r := by
  constructor
  · intro h
    cases t with
    | nil => cases h
    | cons c t =>
      simp only [rxDigit] at h
      split at h
      · rename_i d hd
        split at h
        · rename_i hr
          simp only [List.mem_singleton, Prod.mk.injEq] at h
          obtain ⟨rfl, rfl⟩ := h
          obtain ⟨h9, rfl⟩ := digit?_some hd
          exact ⟨hr.1, hr.2, h9, rfl⟩
        · cases h
      · cases h
  · rintro ⟨h1, h2, h3, rfl⟩
    rw [rxDigit_chr h3, if_pos ⟨h1, h2⟩]
    simp

theorem mem_rxThen {α β γ : Type} {f : α → β → γ} {r : Rx α} {r' : Rx β} {c : γ} {t rest : Text} :
    (c, rest) ∈ rxThen f r r' t ↔ ∃ a t' b, (a, t') ∈ r t ∧ (b, rest) ∈ r' t' ∧ c = f a b := by
  simp only [rxThen, List.mem_flatMap, List.mem_map, Prod.exists, Prod.mk.injEq]
  constructor
  · rintro ⟨a, t', h1, b, t'', h2, rfl, rfl⟩; exact ⟨a, t', b, h1, h2, rfl⟩
  · rintro ⟨a, t', b, h1, h2, rfl⟩; exact ⟨a, t', h1, b, rest, h2, rfl, rfl⟩

theorem mem_rxTwo {lo hi lo' hi' n : Nat} {t r : Text} : (n, r) ∈ rxTwo lo hi lo' hi' t ↔
    ∃ a b, lo ≤ a ∧ a ≤ hi ∧ a ≤ 9 ∧ lo' ≤ b ∧ b ≤ hi' ∧ b ≤ 9 ∧ n = 10 * a + b ∧ t = chr a :: chr b :: r := by
  rw [rxTwo, mem_rxThen]
  constructor
  · rintro ⟨a, t', b, h1, h2, rfl⟩
    obtain ⟨g1, g2, g3, rfl⟩ := mem_rxDigit.1 h1
    obtain ⟨h4, h5, h6, rfl⟩ := mem_rxDigit.1 h2
    exact ⟨a, b, g1, g2, g3, h4, h5, h6, rfl, rfl⟩
  · rintro ⟨a, b, h1, h2, h3, h4, h5, h6, rfl, rfl⟩
    exact ⟨a, _, b, mem_rxDigit.2 ⟨h1, h2, h3, rfl⟩, mem_rxDigit.2 ⟨h4, h5, h6, rfl⟩, rfl⟩

theorem mem_rxChar {c : Char} {u : Unit} {t r : Text} : (u, r) ∈ rxChar c t ↔ t = c :: r ∨ t = c.toLower :: r := by
  cases t with
  | nil => simp [rxChar]
  | cons x t =>
    simp only [rxChar]
    split
    · rename_i h
      simp only [List.mem_singleton, Prod.mk.injEq, true_and, List.cons.injEq]
      constructor
      · rintro rfl; rcases h with rfl | rfl <;> simp
      · rintro (⟨_, h⟩ | ⟨_, h⟩) <;> exact h.symm
    · rename_i h
      simp only [List.not_mem_nil, List.cons.injEq, false_iff]
      rintro (⟨h', _⟩ | ⟨h', _⟩)
      · exact h (.inl h')
      · exact h (.inr h')

theorem mem_rxSep {α β : Type} {c : Char} {r : Rx α} {r' : Rx β} {a : α} {b : β} {t rest : Text} :
    ((a, b), rest) ∈ rxSep c r r' t ↔ ∃ x t', (x = c ∨ x = c.toLower) ∧ (a, x :: t') ∈ r t ∧ (b, rest) ∈ r' t' := by
  rw [rxSep, mem_rxThen]
  constructor
  · rintro ⟨a', t1, b', h1, h2, h3⟩
    obtain ⟨rfl, rfl⟩ := Prod.mk.inj h3
    obtain ⟨_, t2, b'', h4, h5, rfl⟩ := mem_rxThen.1 h2
    rcases mem_rxChar.1 h4 with rfl | rfl
    · exact ⟨c, t2, .inl rfl, h1, h5⟩
    · exact ⟨c.toLower, t2, .inr rfl, h1, h5⟩
  · rintro ⟨x, t', hx, h1, h2⟩
    refine ⟨a, x :: t', b, h1, mem_rxThen.2 ⟨(), t', b, mem_rxChar.2 ?_, h2, rfl⟩, rfl⟩
    rcases hx with rfl | rfl <;> simp

theorem mem_rxOr {α : Type} {r r' : Rx α} {x : α × Text} {t : Text} : x ∈ rxOr r r' t ↔ x ∈ r t ∨ x ∈ r' t := List.mem_append

theorem decimal_one {n : Nat} (h : n ≤ 9) : decimal 1 n = [chr n] := by
  simp only [decimal, List.nil_append, chr, Nat.mod_eq_of_lt (show n < 10 by omega)]

theorem decimal_two {n : Nat} : decimal 2 n = [chr (n / 10 % 10), chr (n % 10)] := by
  simp only [decimal, List.nil_append, chr, List.cons_append]

theorem decimal_four {n : Nat} : decimal 4 n = [chr (n / 10 / 10 / 10 % 10), chr (n / 10 / 10 % 10), chr (n / 10 % 10), chr (n % 10)] := by
  simp only [decimal, List.nil_append, chr, List.cons_append]

theorem decimal_two' {a b : Nat} (ha : a ≤ 9) (hb : b ≤ 9) : decimal 2 (10 * a + b) = [chr a, chr b] := by
  rw [decimal_two, show (10 * a + b) / 10 % 10 = a by omega, show (10 * a + b) % 10 = b by omega]

theorem mem_rxYear {n : Nat} {t r : Text} : (n, r) ∈ rxYear t ↔ n ≤ 9999 ∧ t = decimal 4 n ++ r := by
  rw [rxYear, mem_rxThen]
  constructor
  · rintro ⟨a, t', b, h1, h2, rfl⟩
    obtain ⟨a, a', _, _, g1, _, _, g2, rfl, rfl⟩ := mem_rxTwo.1 h1
    obtain ⟨b, b', _, _, h3, _, _, h4, rfl, rfl⟩ := mem_rxTwo.1 h2
    refine ⟨by omega, ?_⟩
    rw [decimal_four]
    generalize hn : 100 * (10 * a + a') + (10 * b + b') = n
    rw [show n / 10 / 10 / 10 % 10 = a by omega, show n / 10 / 10 % 10 = a' by omega, show n / 10 % 10 = b by omega,
      show n % 10 = b' by omega]
    rfl
  · rintro ⟨h, rfl⟩
    rw [decimal_four]
    exact ⟨n / 100, _, n % 100, mem_rxTwo.2 ⟨n / 10 / 10 / 10 % 10, n / 10 / 10 % 10, by omega, by omega, by omega, by omega, by omega,
      by omega, by omega, rfl⟩, mem_rxTwo.2 ⟨n / 10 % 10, n % 10, by omega, by omega, by omega, by omega, by omega, by omega, by omega,
      rfl⟩, by omega⟩

theorem rxTwo_text {lo hi lo' hi' n : Nat} {t r : Text} (h : (n, r) ∈ rxTwo lo hi lo' hi' t) : t = decimal 2 n ++ r := by
  obtain ⟨a, b, _, _, h1, _, _, h2, rfl, rfl⟩ := mem_rxTwo.1 h
  rw [decimal_two' h1 h2]; rfl

theorem rxTwo_range {lo hi lo' hi' n : Nat} {t r : Text} (h : (n, r) ∈ rxTwo lo hi lo' hi' t) :
    10 * lo + lo' ≤ n ∧ n ≤ 10 * hi + hi' := by
  obtain ⟨a, b, _, _, h1, _, _, h2, rfl, rfl⟩ := mem_rxTwo.1 h
  omega

theorem rxDigit_text {lo hi n : Nat} {t r : Text} (h : (n, r) ∈ rxDigit lo hi t) : lo ≤ n ∧ n ≤ hi ∧ n < 10 ∧ t = decimal 1 n ++ r := by
  obtain ⟨h1, h2, h3, rfl⟩ := mem_rxDigit.1 h
  rw [decimal_one h3]
  exact ⟨h1, h2, by omega, rfl⟩

theorem rxMonth_text {n : Nat} {t r : Text} (h : (n, r) ∈ rxMonth t) : 1 ≤ n ∧ n ≤ 12 ∧ ∃ w, OneOrTwo w n ∧ t = w ++ r := by
  rcases mem_rxOr.1 h with h | h
  · exact ⟨by have := rxTwo_range h; omega, by have := rxTwo_range h; omega, _, .inl rfl, rxTwo_text h⟩
  rcases mem_rxOr.1 h with h | h
  · exact ⟨by have := rxTwo_range h; omega, by have := rxTwo_range h; omega, _, .inl rfl, rxTwo_text h⟩
  · obtain ⟨h1, h2, h3, h4⟩ := rxDigit_text h
    exact ⟨h1, by omega, _, .inr ⟨h3, rfl⟩, h4⟩

theorem rxDay_text {n : Nat} {t r : Text} (h : (n, r) ∈ rxDay t) : 1 ≤ n ∧ n ≤ 31 ∧ ∃ w, DayText w n ∧ t = w ++ r := by
  rcases mem_rxOr.1 h with h | h
  · exact ⟨by have := rxTwo_range h; omega, by have := rxTwo_range h; omega, _, .inl (.inl rfl), rxTwo_text h⟩
  rcases mem_rxOr.1 h with h | h
  · exact ⟨by have := rxTwo_range h; omega, by have := rxTwo_range h; omega, _, .inl (.inl rfl), rxTwo_text h⟩
  rcases mem_rxOr.1 h with h | h
  · exact ⟨by have := rxTwo_range h; omega, by have := rxTwo_range h; omega, _, .inl (.inl rfl), rxTwo_text h⟩
  rcases mem_rxOr.1 h with h | h
  · obtain ⟨h1, h2, h3, h4⟩ := rxDigit_text h
    exact ⟨h1, by omega, _, .inl (.inr ⟨h3, rfl⟩), h4⟩
  · obtain ⟨_, t', b, h1, h2, rfl⟩ := mem_rxThen.1 h
    obtain ⟨h3, h4, h5, h6⟩ := rxDigit_text h2
    refine ⟨h3, by omega, _, .inr ⟨h5, rfl⟩, ?_⟩
    rcases mem_rxChar.1 h1 with h | h
    · rw [h, h6]; rfl
    · rw [h, h6]; rfl

theorem rxHour_text {n : Nat} {t r : Text} (h : (n, r) ∈ rxHour t) : n < 24 ∧ ∃ w, OneOrTwo w n ∧ t = w ++ r := by
  rcases mem_rxOr.1 h with h | h
  · exact ⟨by have := rxTwo_range h; omega, _, .inl rfl, rxTwo_text h⟩
  rcases mem_rxOr.1 h with h | h
  · exact ⟨by have := rxTwo_range h; omega, _, .inl rfl, rxTwo_text h⟩
  · obtain ⟨h1, h2, h3, h4⟩ := rxDigit_text h
    exact ⟨by omega, _, .inr ⟨h3, rfl⟩, h4⟩

theorem rxMinute_text {n : Nat} {t r : Text} (h : (n, r) ∈ rxMinute t) : n < 60 ∧ ∃ w, OneOrTwo w n ∧ t = w ++ r := by
  rcases mem_rxOr.1 h with h | h
  · exact ⟨by have := rxTwo_range h; omega, _, .inl rfl, rxTwo_text h⟩
  · obtain ⟨h1, h2, h3, h4⟩ := rxDigit_text h
    exact ⟨by omega, _, .inr ⟨h3, rfl⟩, h4⟩

theorem rxSecond_text {n : Nat} {t r : Text} (h : (n, r) ∈ rxSecond t) : ∃ w, OneOrTwo w n ∧ t = w ++ r := by
  rcases mem_rxOr.1 h with h | h
  · exact ⟨_, .inl rfl, rxTwo_text h⟩
  rcases mem_rxOr.1 h with h | h
  · exact ⟨_, .inl rfl, rxTwo_text h⟩
  · obtain ⟨h1, h2, h3, h4⟩ := rxDigit_text h
    exact ⟨_, .inr ⟨h3, rfl⟩, h4⟩

/-! ## The first match -/

/-- Before a separator that is not a digit, there is one match. -/
theorem rxSep_one {α β : Type} {c x : Char} {r : Rx α} (r' : Rx β) {w : Text} {a : α} (t : Text)
    (h : (r (w ++ x :: t)).filter (fun m => m.2.head? = some c ∨ m.2.head? = some c.toLower) = [(a, x :: t)]) :
    rxSep c r r' (w ++ x :: t) = (r' t).map fun m => ((a, m.1), m.2) := by
  have hx : x = c ∨ x = c.toLower := by
    have := List.mem_filter.1 (h ▸ List.mem_singleton.2 rfl : (a, x :: t) ∈ _)
    simpa using this.2
  have hgen : ∀ l : List (α × Text), l.flatMap (fun m => (rxThen (fun _ b => b) (rxChar c) r' m.2).map fun n => ((m.1, n.1), n.2)) =
      (l.filter fun m => m.2.head? = some c ∨ m.2.head? = some c.toLower).flatMap
        (fun m => (rxThen (fun _ b => b) (rxChar c) r' m.2).map fun n => ((m.1, n.1), n.2)) := by
    intro l
    induction l with
    | nil => rfl
    | cons m l ih =>
      rw [List.flatMap_cons, ih, List.filter_cons]
      split
      · rw [List.flatMap_cons]
      · rename_i hm
        have : rxChar c m.2 = [] := by
          rcases hm2 : m.2 with _ | ⟨y, t'⟩
          · rfl
          · rw [hm2] at hm
            simp only [List.head?_cons, Option.some.injEq, decide_eq_true_eq] at hm
            simp only [rxChar, if_neg hm]
        simp [rxThen, this]
  have := hgen (r (w ++ x :: t))
  rw [h] at this
  unfold rxSep
  rw [show rxThen (fun a b => (a, b)) r (rxThen (fun _ b => b) (rxChar c) r') (w ++ x :: t) =
    (r (w ++ x :: t)).flatMap (fun m => (rxThen (fun _ b => b) (rxChar c) r' m.2).map fun n => ((m.1, n.1), n.2)) from rfl, this]
  have hc : rxChar c (x :: t) = [((), t)] := by simp only [rxChar, if_pos hx]
  simp [rxThen, hc, Function.comp_def]

theorem rxYear_one {n : Nat} (hn : n ≤ 9999) (t : Text) : rxYear (decimal 4 n ++ '-' :: t) = [(n, '-' :: t)] := by
  rw [decimal_four]
  simp only [rxYear, rxThen, rxTwo, List.cons_append, List.nil_append]
  rw [rxDigit_chr (by omega), if_pos (by omega)]
  simp only [List.flatMap_cons, List.flatMap_nil, List.append_nil]
  rw [rxDigit_chr (by omega), if_pos (by omega)]
  simp only [List.flatMap_cons, List.flatMap_nil, List.append_nil, List.map_cons, List.map_nil]
  rw [rxDigit_chr (by omega), if_pos (by omega)]
  simp only [List.flatMap_cons, List.flatMap_nil, List.append_nil, List.map_cons, List.map_nil]
  rw [rxDigit_chr (by omega), if_pos (by omega)]
  simp only [List.flatMap_cons, List.flatMap_nil, List.append_nil, List.map_cons, List.map_nil, List.cons.injEq, Prod.mk.injEq, and_true]
  omega

theorem rxMonth_one {n : Nat} {w : Text} (h1 : 1 ≤ n) (h2 : n ≤ 12) (hw : OneOrTwo w n) (t : Text) :
    (rxMonth (w ++ '-' :: t)).filter (fun m => m.2.head? = some '-' ∨ m.2.head? = some '-'.toLower) = [(n, '-' :: t)] := by
  rcases hw with rfl | ⟨h3, rfl⟩ <;> interval_cases n <;> rfl

theorem rxDay_one {n : Nat} {w : Text} (h1 : 1 ≤ n) (h2 : n ≤ 31) (hw : DayText w n) (x : Char) (hx : x = 'T' ∨ x = 't') (t : Text) :
    (rxDay (w ++ x :: t)).filter (fun m => m.2.head? = some 'T' ∨ m.2.head? = some 'T'.toLower) = [(n, x :: t)] := by
  rcases hx with rfl | rfl <;> rcases hw with (rfl | ⟨h3, rfl⟩) | ⟨h3, rfl⟩ <;> interval_cases n <;> rfl

theorem rxDay_head {n : Nat} {w : Text} (h1 : 1 ≤ n) (h2 : n ≤ 31) (hw : DayText w n) : (rxDay w).head? = some (n, []) := by
  rcases hw with (rfl | ⟨h3, rfl⟩) | ⟨h3, rfl⟩ <;> interval_cases n <;> rfl

theorem rxHour_one {n : Nat} {w : Text} (h2 : n < 24) (hw : OneOrTwo w n) (t : Text) :
    (rxHour (w ++ ':' :: t)).filter (fun m => m.2.head? = some ':' ∨ m.2.head? = some ':'.toLower) = [(n, ':' :: t)] := by
  rcases hw with rfl | ⟨h3, rfl⟩ <;> interval_cases n <;> rfl

theorem rxMinute_one {n : Nat} {w : Text} (h2 : n < 60) (hw : OneOrTwo w n) (t : Text) :
    (rxMinute (w ++ ':' :: t)).filter (fun m => m.2.head? = some ':' ∨ m.2.head? = some ':'.toLower) = [(n, ':' :: t)] := by
  rcases hw with rfl | ⟨h3, rfl⟩ <;> interval_cases n <;> rfl

theorem rxSecond_one {n : Nat} {w : Text} (h2 : n < 60) (hw : OneOrTwo w n) (t : Text) :
    (rxSecond (w ++ '.' :: t)).filter (fun m => m.2.head? = some '.' ∨ m.2.head? = some '.'.toLower) = [(n, '.' :: t)] := by
  rcases hw with rfl | ⟨h3, rfl⟩ <;> interval_cases n <;> rfl

/-! ## Fractions -/

/-- The number of a list of digits. -/
def number (l : List Nat) : Nat := l.foldl (fun n d => 10 * n + d) 0

theorem foldl_number (l : List Nat) (n : Nat) : l.foldl (fun n d => 10 * n + d) n = n * 10 ^ l.length + number l := by
  induction l generalizing n with
  | nil => simp [number]
  | cons d l ih =>
    rw [number, List.foldl_cons, List.foldl_cons, ih, ih (10 * 0 + d), List.length_cons, Nat.pow_succ]
    ring

theorem number_replicate (k : Nat) : number (List.replicate k 0) = 0 := by
  induction k with
  | zero => rfl
  | succ k ih => rw [List.replicate_succ, number, List.foldl_cons]; exact ih

theorem fraction_eq (l : List Nat) : fraction l = number l * 10 ^ (6 - l.length) := by
  rw [fraction, List.foldl_append, foldl_number, number_replicate, List.length_replicate]
  rfl

/-- The last `n` digits of `k`. -/
def digitsOf : Nat → Nat → List Nat
  | 0, _ => []
  | n + 1, k => digitsOf n (k / 10) ++ [k % 10]

theorem digitsOf_chr (n k : Nat) : (digitsOf n k).map chr = decimal n k := by
  induction n generalizing k with
  | zero => rfl
  | succ n ih => simp [digitsOf, decimal, ih, chr]

theorem digitsOf_length (n k : Nat) : (digitsOf n k).length = n := by
  induction n generalizing k with
  | zero => rfl
  | succ n ih => simp [digitsOf, ih]

theorem digitsOf_le (n k : Nat) : ∀ d ∈ digitsOf n k, d ≤ 9 := by
  induction n generalizing k with
  | zero => simp [digitsOf]
  | succ n ih =>
    intro d hd
    simp only [digitsOf, List.mem_append, List.mem_singleton] at hd
    rcases hd with hd | rfl
    · exact ih _ d hd
    · omega

theorem number_digitsOf (n k : Nat) (h : k < 10 ^ n) : number (digitsOf n k) = k := by
  induction n generalizing k with
  | zero =>
    simp only [Nat.pow_zero] at h
    simp [digitsOf, number]; omega
  | succ n ih =>
    have hn : ∀ (l : List Nat) d, number (l ++ [d]) = 10 * number l + d := by simp [number, List.foldl_append]
    rw [digitsOf, hn, ih _ (by rw [Nat.pow_succ] at h; omega)]
    omega

theorem number_lt (l : List Nat) (h : ∀ d ∈ l, d ≤ 9) : number l < 10 ^ l.length ∧ digitsOf l.length (number l) = l := by
  induction l using List.reverseRecOn with
  | nil => exact ⟨by simp [number], rfl⟩
  | append_singleton l d ih =>
    obtain ⟨h1, h2⟩ := ih fun x hx => h x (by simp [hx])
    have hd := h d (by simp)
    have hn : number (l ++ [d]) = 10 * number l + d := by simp [number, List.foldl_append]
    rw [hn, List.length_append, List.length_singleton, Nat.pow_succ]
    refine ⟨by omega, ?_⟩
    rw [digitsOf, show (10 * number l + d) / 10 = number l by omega, show (10 * number l + d) % 10 = d by omega, h2]

theorem mem_rxDigits {n : Nat} {l : List Nat} {t r : Text} (h : (l, r) ∈ rxDigits n t) :
    1 ≤ l.length ∧ l.length ≤ n ∧ (∀ d ∈ l, d ≤ 9) ∧ t = l.map chr ++ r := by
  induction n generalizing l t with
  | zero => cases h
  | succ n ih =>
    simp only [rxDigits, List.mem_flatMap, List.mem_append, List.mem_map, Prod.exists, List.mem_singleton, Prod.mk.injEq] at h
    obtain ⟨d, t', h1, h | ⟨rfl, rfl⟩⟩ := h
    · obtain ⟨l', t'', h2, rfl, rfl⟩ := h
      obtain ⟨_, _, h3, rfl⟩ := mem_rxDigit.1 h1
      obtain ⟨h4, h5, h6, rfl⟩ := ih h2
      refine ⟨by simp, by simp; omega, ?_, by simp⟩
      intro x hx
      rcases List.mem_cons.1 hx with rfl | hx
      · exact h3
      · exact h6 x hx
    · obtain ⟨_, _, h3, rfl⟩ := mem_rxDigit.1 h1
      exact ⟨by simp, by simp, by simpa using h3, by simp⟩

theorem rxDigits_none (n : Nat) {x : Char} (t : Text) (hx : Xml.digit? x = none) : rxDigits n (x :: t) = [] := by
  cases n with
  | zero => rfl
  | succ n => simp [rxDigits, rxDigit, hx]

theorem rxDigits_one {n : Nat} {l : List Nat} (x : Char) (t : Text) (hx : Xml.digit? x = none) (hl : 1 ≤ l.length) (hn : l.length ≤ n)
    (h9 : ∀ d ∈ l, d ≤ 9) : (rxDigits n (l.map chr ++ x :: t)).filter (fun m => m.2.head? = some x) = [(l, x :: t)] := by
  induction n generalizing l with
  | zero => omega
  | succ n ih =>
    cases l with
    | nil => simp at hl
    | cons d l =>
      have hd := h9 d (by simp)
      simp only [List.map_cons, List.cons_append, rxDigits]
      rw [rxDigit_chr hd, if_pos ⟨by omega, hd⟩]
      simp only [List.flatMap_cons, List.flatMap_nil, List.append_nil, List.filter_append]
      cases l with
      | nil => simp [rxDigits_none n t hx]
      | cons d' l =>
        have hd' := h9 d' (by simp)
        have h1 := ih (l := d' :: l) (by simp) (by simpa using hn) (fun y hy => h9 y (List.mem_cons_of_mem _ hy))
        rw [List.filter_map]
        have h2 : ((fun m : List Nat × Text => decide (m.2.head? = some x)) ∘ fun m : List Nat × Text => (d :: m.1, m.2)) =
            fun m : List Nat × Text => decide (m.2.head? = some x) := rfl
        rw [h2, h1]
        have hne : chr d' ≠ x := by
          rintro rfl
          rw [digit?_chr hd'] at hx
          cases hx
        simp [hne]

theorem mem_rxFraction {n : Nat} {t r : Text} (h : (n, r) ∈ rxFraction t) : ∃ w, FractionText w n ∧ t = w ++ r := by
  simp only [rxFraction, List.mem_map, Prod.exists, Prod.mk.injEq] at h
  obtain ⟨l, t', h1, rfl, rfl⟩ := h
  obtain ⟨h2, h3, h4, rfl⟩ := mem_rxDigits h1
  obtain ⟨h5, h6⟩ := number_lt l h4
  refine ⟨l.map chr, ⟨l.length, number l, h2, h3, h5, ?_, fraction_eq l⟩, rfl⟩
  rw [← digitsOf_chr, h6]

theorem rxFraction_end {n : Nat} {w : Text} (hw : FractionText w n) (x : Char) (hx : x = 'Z' ∨ x = 'z') :
    rxThen (fun n _ => n) rxFraction (rxChar 'Z') (w ++ [x]) = [(n, [])] := by
  obtain ⟨k, m, h1, h2, h3, rfl, rfl⟩ := hw
  have hx' : Xml.digit? x = none := by rcases hx with rfl | rfl <;> rfl
  have h4 := rxDigits_one (n := 6) (l := digitsOf k m) x [] hx' (by rw [digitsOf_length]; exact h1) (by rw [digitsOf_length]; exact h2)
    (digitsOf_le k m)
  rw [digitsOf_chr] at h4
  have hgen : ∀ L : List (List Nat × Text), (∀ m ∈ L, ∃ v, m.1.map chr ++ m.2 = v ++ [x] ∧ ∀ c ∈ v, (Xml.digit? c).isSome) →
      (L.map fun m => (fraction m.1, m.2)).flatMap (fun m => (rxChar 'Z' m.2).map fun u => (m.1, u.2)) =
      ((L.filter fun m => m.2.head? = some x).map fun m => (fraction m.1, m.2)).flatMap
        (fun m => (rxChar 'Z' m.2).map fun u => (m.1, u.2)) := by
    intro L hL
    induction L with
    | nil => rfl
    | cons m L ih =>
      rw [List.map_cons, List.flatMap_cons, ih fun y hy => hL y (List.mem_cons_of_mem _ hy), List.filter_cons]
      split
      · rw [List.map_cons, List.flatMap_cons]
      · rename_i hm
        have : rxChar 'Z' m.2 = [] := by
          obtain ⟨v, hv, hdig⟩ := hL m (by simp)
          rcases hm2 : m.2 with _ | ⟨y, t'⟩
          · rfl
          · have hy : y ∈ v ++ [x] := by rw [← hv, hm2]; simp
            rw [hm2] at hm
            simp only [List.head?_cons, Option.some.injEq, decide_eq_true_eq] at hm
            rcases List.mem_append.1 hy with hy | hy
            · have := hdig y hy
              rw [rxChar, if_neg]
              rintro (rfl | rfl) <;> cases this
            · exact absurd (List.mem_singleton.1 hy) hm
        simp [this]
  have hflat := hgen (rxDigits 6 (decimal k m ++ [x])) (by
    intro p hp
    obtain ⟨_, _, _, h⟩ := mem_rxDigits (l := p.1) (r := p.2) hp
    refine ⟨decimal k m, h.symm, ?_⟩
    intro c hc
    rw [← digitsOf_chr] at hc
    obtain ⟨d, hd, rfl⟩ := List.mem_map.1 hc
    rw [digit?_chr (digitsOf_le k m d hd)]; rfl)
  rw [h4] at hflat
  have hc : rxChar 'Z' [x] = [((), [])] := by rcases hx with rfl | rfl <;> rfl
  rw [show rxThen (fun n (_ : Unit) => n) rxFraction (rxChar 'Z') (decimal k m ++ [x]) =
    ((rxDigits 6 (decimal k m ++ [x])).map fun m => (fraction m.1, m.2)).flatMap
      (fun m => (rxChar 'Z' m.2).map fun u => (m.1, u.2)) from rfl, hflat]
  simp [hc, fraction_eq, digitsOf_length, number_digitsOf _ _ h3]

/-! ## Dates -/

theorem isLeap_iff (y : Nat) : isLeap y = true ↔ LeapYear y := by
  simp only [isLeap, LeapYear, Bool.and_eq_true, Bool.or_eq_true, decide_eq_true_eq, Nat.dvd_iff_mod_eq_zero, ne_eq]
  omega

theorem new_ok {y m d : Nat} {x : Date} : Date.new y m d = .ok x ↔ x = ⟨y, m, d⟩ ∧ IsDate ⟨y, m, d⟩ := by
  have key : (1 ≤ y ∧ y ≤ 9999 ∧ 1 ≤ m ∧ m ≤ 12 ∧ 1 ≤ d ∧ d ≤ daysInMonth y m) ↔ IsDate ⟨y, m, d⟩ := by
    constructor
    · rintro ⟨h1, h2, h3, h4, h5, h6⟩
      refine ⟨⟨h1, h2⟩, ⟨h3, h4⟩, h5, ?_⟩
      have hl := isLeap_iff y
      clear h1 h2
      interval_cases m <;> simp [daysInMonth, monthDays] at h6 ⊢ <;> try omega
      split at h6
      · rename_i h
        have := hl.1 h
        rcases Nat.lt_or_ge 28 d with h | h
        · exact .inr ⟨by omega, this⟩
        · exact .inl h
      · exact .inl h6
    · rintro ⟨⟨h1, h2⟩, ⟨h3, h4⟩, h5, n, h6, h7⟩
      refine ⟨h1, h2, h3, h4, h5, ?_⟩
      have hl := isLeap_iff y
      simp only at h3 h4 h6 h7
      clear h1 h2
      interval_cases m <;> simp [daysInMonth, monthDays] at h6 h7 ⊢ <;> subst h6 <;> try omega
      rcases h7 with h7 | ⟨rfl, h7⟩
      · split <;> omega
      · rw [if_pos (hl.2 h7)]
  unfold Date.new
  split
  · rename_i h
    simp only [Except.ok.injEq, eq_comm (a := x), key.1 h, and_true]
  · rename_i h
    simp only [reduceCtorEq, false_iff, not_and]
    exact fun _ h' => h (key.2 h')

theorem parseDate_ok (t : Text) (d : Date) : parseDate t = .ok d ↔ IsDate d ∧ DateText t d := by
  constructor
  · intro h
    unfold parseDate at h
    split at h
    · rename_i y m dd hm
      obtain ⟨rfl, hd⟩ := new_ok.1 h
      refine ⟨hd, ?_⟩
      unfold fullMatch at hm
      split at hm
      · rename_i x rest hr
        cases hm
        have hmem : ((y, m, dd), ([] : Text)) ∈ rxDate t := by rw [hr]; simp
        obtain ⟨x1, t1, hx1, h1, h2⟩ := mem_rxSep.1 hmem
        obtain ⟨x2, t2, hx2, h3, h4⟩ := mem_rxSep.1 h2
        obtain ⟨_, rfl⟩ := mem_rxYear.1 h1
        obtain ⟨_, _, w, hw, rfl⟩ := rxMonth_text h3
        obtain ⟨_, _, w', hw', rfl⟩ := rxDay_text h4
        refine ⟨w, w', hw, hw', ?_⟩
        have e1 : x1 = '-' := by rcases hx1 with h | h <;> exact h
        have e2 : x2 = '-' := by rcases hx2 with h | h <;> exact h
        rw [e1, e2]; simp
      · cases hm
    · cases h
  · rintro ⟨hd, m, day, hm, hday, rfl⟩
    unfold parseDate fullMatch rxDate
    have hd31 : d.day ≤ 31 := by
      obtain ⟨n, hn, h⟩ := hd.day.2
      have := hd.month
      have hn31 : n ≤ 31 := by
        have : n ∈ monthDays := List.mem_of_getElem? hn
        simp [monthDays] at this
        omega
      rcases h with h | ⟨_, h, _⟩ <;> omega
    have h1 := rxYear_one hd.year.2 (m ++ '-' :: day)
    rw [show decimal 4 d.year ++ '-' :: m ++ '-' :: day = decimal 4 d.year ++ '-' :: (m ++ '-' :: day) by simp,
      rxSep_one _ _ (by rw [h1]; rfl), rxSep_one _ _ (rxMonth_one hd.month.1 hd.month.2 hm day)]
    have h2 := rxDay_head hd.day.1 hd31 hday
    cases h3 : rxDay day with
    | nil => rw [h3] at h2; cases h2
    | cons p l =>
      rw [h3] at h2
      simp only [List.head?_cons, Option.some.injEq] at h2
      subst h2
      simp only [List.map_cons]
      exact new_ok.2 ⟨rfl, hd⟩

theorem parseDate_error (t : Text) (e : PyErr) (h : parseDate t = .error e) : e = .valueError := by
  unfold parseDate fullMatch Date.new at h
  split at h
  · split at h
    · cases h
    · cases h; rfl
  · rename_i hm
    split at hm
    · cases hm
    · cases hm; cases h; rfl

theorem dateTimeNew_ok {y m d h mi s us : Nat} {x : DateTime} : DateTime.new y m d h mi s us = .ok x ↔
    x = ⟨⟨y, m, d⟩, h, mi, s, us⟩ ∧ IsDateTime ⟨⟨y, m, d⟩, h, mi, s, us⟩ := by
  unfold DateTime.new
  cases hd : Date.new y m d with
  | error e =>
    simp only [reduceCtorEq, false_iff, not_and]
    rintro _ ⟨h1, _⟩
    rw [new_ok.2 ⟨rfl, h1⟩] at hd
    cases hd
  | ok x' =>
    obtain ⟨rfl, hd'⟩ := new_ok.1 hd
    simp only
    split
    · rename_i ht
      simp only [Except.ok.injEq, eq_comm (a := x), iff_self_and]
      exact fun _ => ⟨hd', ht⟩
    · rename_i ht
      simp only [reduceCtorEq, false_iff, not_and]
      rintro _ ⟨_, h2⟩
      exact ht h2

theorem parseDateTime_ok (t : Text) (d : DateTime) : parseDateTime t = .ok d ↔ IsDateTime d ∧ DateTimeText t d := by
  constructor
  · intro h
    unfold parseDateTime at h
    split at h
    · rename_i y m dd hh mi s us hm
      obtain ⟨rfl, hd⟩ := dateTimeNew_ok.1 h
      refine ⟨hd, ?_⟩
      unfold fullMatch at hm
      split at hm
      · rename_i x rest hr
        cases hm
        have hmem : ((y, m, dd, hh, mi, s, us), ([] : Text)) ∈ rxDateTime t := by rw [hr]; simp
        obtain ⟨x1, t1, hx1, h1, hmem⟩ := mem_rxSep.1 hmem
        obtain ⟨x2, t2, hx2, h2, hmem⟩ := mem_rxSep.1 hmem
        obtain ⟨x3, t3, hx3, h3, hmem⟩ := mem_rxSep.1 hmem
        obtain ⟨x4, t4, hx4, h4, hmem⟩ := mem_rxSep.1 hmem
        obtain ⟨x5, t5, hx5, h5, hmem⟩ := mem_rxSep.1 hmem
        obtain ⟨x6, t6, hx6, h6, hmem⟩ := mem_rxSep.1 hmem
        obtain ⟨us', t7, _, h7, h8, rfl⟩ := mem_rxThen.1 hmem
        obtain ⟨_, rfl⟩ := mem_rxYear.1 h1
        obtain ⟨_, _, w1, hw1, rfl⟩ := rxMonth_text h2
        obtain ⟨_, _, w2, hw2, rfl⟩ := rxDay_text h3
        obtain ⟨_, w3, hw3, rfl⟩ := rxHour_text h4
        obtain ⟨_, w4, hw4, rfl⟩ := rxMinute_text h5
        obtain ⟨w5, hw5, rfl⟩ := rxSecond_text h6
        obtain ⟨w6, hw6, rfl⟩ := mem_rxFraction h7
        have e1 : x1 = '-' := by rcases hx1 with h | h <;> exact h
        have e2 : x2 = '-' := by rcases hx2 with h | h <;> exact h
        have e4 : x4 = ':' := by rcases hx4 with h | h <;> exact h
        have e5 : x5 = ':' := by rcases hx5 with h | h <;> exact h
        have e6 : x6 = '.' := by rcases hx6 with h | h <;> exact h
        have e3 : x3 = 'T' ∨ x3 = 't' := hx3
        obtain ⟨z, hz, rfl⟩ : ∃ z, (z = 'Z' ∨ z = 'z') ∧ t7 = [z] := by
          rcases mem_rxChar.1 h8 with h | h
          · exact ⟨_, .inl rfl, h⟩
          · exact ⟨_, .inr rfl, h⟩
        refine ⟨_, w3, w4, w5, w6, x3, z, ⟨w1, w2, hw1, hw2, rfl⟩, hw3, hw4, hw5, hw6, e3, hz, ?_⟩
        rw [e1, e2, e4, e5, e6]; simp
      · cases hm
    · cases h
  · rintro ⟨⟨hd, ht⟩, date, h, mi, s, f, x, z, ⟨m, day, hm, hday, rfl⟩, hh, hmi, hs, hf, hx, hz, rfl⟩
    unfold parseDateTime fullMatch rxDateTime
    have hd31 : d.date.day ≤ 31 := by
      obtain ⟨n, hn, h⟩ := hd.day.2
      have := hd.month
      have hn31 : n ≤ 31 := by
        have : n ∈ monthDays := List.mem_of_getElem? hn
        simp [monthDays] at this
        omega
      rcases h with h | ⟨_, h, _⟩ <;> omega
    rw [show decimal 4 d.date.year ++ '-' :: m ++ '-' :: day ++ x :: h ++ ':' :: mi ++ ':' :: s ++ '.' :: f ++ [z] =
      decimal 4 d.date.year ++ '-' :: (m ++ '-' :: (day ++ x :: (h ++ ':' :: (mi ++ ':' :: (s ++ '.' :: (f ++ [z])))))) by simp,
      rxSep_one _ _ (by rw [rxYear_one hd.year.2]; rfl), rxSep_one _ _ (rxMonth_one hd.month.1 hd.month.2 hm _),
      rxSep_one _ _ (rxDay_one hd.day.1 hd31 hday x hx _), rxSep_one _ _ (rxHour_one ht.1 hh _),
      rxSep_one _ _ (rxMinute_one ht.2.1 hmi _), rxSep_one _ _ (rxSecond_one ht.2.2.1 hs _), rxFraction_end hf z hz]
    exact dateTimeNew_ok.2 ⟨rfl, hd, ht⟩

theorem parseDateTime_error (t : Text) (e : PyErr) (h : parseDateTime t = .error e) : e = .valueError := by
  unfold parseDateTime fullMatch DateTime.new Date.new at h
  split at h
  · split at h
    · rename_i hd
      split at hd
      · cases hd
      · cases hd; cases h; rfl
    · split at h
      · cases h
      · cases h; rfl
  · rename_i hm
    split at hm
    · cases hm
    · cases hm; cases h; rfl

end Patro.Vit
