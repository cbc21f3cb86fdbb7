import Verif.Proof.VitDate
import Verif.Proof.Measurement
import Verif.Props.Measurement
import Verif.Proof.Xml
import Mathlib.Data.List.Basic
import Mathlib.Data.List.Forall2
/-! # Proofs about Valentina measurements and `.vit` files -/

set_option linter.unusedSimpArgs false
set_option linter.unusedVariables false

namespace Patro.Vit

open Patro.Text (Text)
open Measurement (Formula Meas MSet)

variable {K : Type}

/-! ## Dates -/

theorem decimal_zero (n : Nat) : decimal n 0 = List.replicate n '0' := by
  induction n with
  | zero => rfl
  | succ n ih => rw [decimal, Nat.zero_div, ih, List.replicate_succ']

theorem padded_eq (n k : Nat) (h : k < 10 ^ (n + 1)) : padded (n + 1) k = decimal (n + 1) k := by
  induction n generalizing k with
  | zero =>
    unfold padded
    rw [Xml.natToText, if_pos (by omega)]
    rw [decimal, Nat.mod_eq_of_lt (by omega)]
    rfl
  | succ n ih =>
    unfold padded
    rw [Xml.natToText]
    split
    · rename_i hk
      simp only [List.length_singleton, Nat.add_sub_cancel]
      rw [decimal, Nat.div_eq_of_lt hk, decimal_zero, Nat.mod_eq_of_lt hk]
    · rename_i hk
      have := ih (k / 10) (by rw [Nat.pow_succ] at h; omega)
      rw [decimal, ← this, padded]
      simp only [List.length_append, List.length_singleton, Nat.add_sub_add_right, List.append_assoc]

theorem str_text (d : Date) (h : IsDate d) : DateText d.str d := by
  obtain ⟨⟨_, h1⟩, ⟨_, h2⟩, h3, n, h4, h5⟩ := h
  have hn31 : n ≤ 31 := by
    have : n ∈ monthDays := List.mem_of_getElem? h4
    simp [monthDays] at this
    omega
  refine ⟨_, _, .inl rfl, .inl (.inl rfl), ?_⟩
  rw [Date.str, padded_eq _ _ (by omega), padded_eq _ _ (by omega), padded_eq _ _ (by omega)]

theorem padded_digits (n k : Nat) : ∀ c ∈ padded n k, (Xml.digit? c).isSome := by
  intro c hc
  rcases List.mem_append.1 hc with hc | hc
  · rw [List.eq_of_mem_replicate hc]; rfl
  · obtain ⟨d, hd, rfl⟩ := Xml.natToText_digits k c hc
    rw [Xml.digit?_ofNat d hd]; rfl

theorem not_digit {c : Char} (h : Xml.digit? c = none) (n k : Nat) : c ∉ padded n k := by
  intro hc
  have := padded_digits n k c hc
  rw [h] at this
  cases this

theorem str_noZ (d : DateTime) (c : Char) (hc : c = 'Z' ∨ c = 'z') : c ∉ d.str := by
  have hd : Xml.digit? c = none := by rcases hc with rfl | rfl <;> rfl
  have h := not_digit hd
  have hne : c ≠ ' ' ∧ c ≠ ':' ∧ c ≠ '.' ∧ c ≠ '-' := by rcases hc with rfl | rfl <;> decide
  unfold DateTime.str Date.str
  split <;> simp [h, hne.1, hne.2.1, hne.2.2.1, hne.2.2.2]

theorem dateStr_noZ (d : Date) (c : Char) (hc : c = 'Z' ∨ c = 'z') : c ∉ d.str := by
  have hd : Xml.digit? c = none := by rcases hc with rfl | rfl <;> rfl
  have h := not_digit hd
  have hne : c ≠ '-' := by rcases hc with rfl | rfl <;> decide
  unfold Date.str
  simp [h, hne]

theorem parseDateTime_noZ (t : Text) (h : ∀ c, c = 'Z' ∨ c = 'z' → c ∉ t) : parseDateTime t = .error .valueError := by
  cases hp : parseDateTime t with
  | error e => rw [parseDateTime_error t e hp]
  | ok d =>
    obtain ⟨_, date, h1, mi, s, f, x, z, _, _, _, _, _, _, hz, rfl⟩ := (parseDateTime_ok t d).1 hp
    exact absurd (by simp) (h z hz)

/-! ## Names -/

theorem replacePrefix_eq (t : Text) : replacePrefix t = coded t := by
  unfold replacePrefix coded Text.replace
  induction t with
  | nil => rfl
  | cons c t ih =>
    rw [Text.replaceGo, List.flatMap_cons, ← ih]
    by_cases hc : c = '@'
    · subst hc; rfl
    · rw [if_neg, if_neg hc]
      · rfl
      · simpa [List.isPrefixOf] using fun h => hc h.symm

theorem at_coded (t : Text) : '@' ∉ coded t := by
  unfold coded
  rw [List.mem_flatMap]
  rintro ⟨c, _, h⟩
  split at h
  · simp at h
  · rename_i hc
    exact hc (List.mem_singleton.1 h).symm

theorem stored_noAt {isAlnum : Char → Bool} {t n : Text} (h : StoredName isAlnum t n) : '@' ∉ n := by
  rw [h.1, List.mem_map]
  rintro ⟨c, hc, h⟩
  split at h
  · cases h
  · subst h; exact at_coded t hc

theorem validate_iff (isAlnum : Char → Bool) (t n : Text) :
    Measurement.validateName isAlnum (replacePrefix t) = .ok n ↔ StoredName isAlnum t n := by
  rw [(Measurement.validateName_spec isAlnum _).1 n, replacePrefix_eq, StoredName]
  constructor
  · rintro ⟨h1, rfl⟩
    refine ⟨rfl, ?_⟩
    intro c hc
    obtain ⟨c', hc', rfl⟩ := List.mem_map.1 hc
    by_cases h : c' = ' '
    · rw [if_pos h]; exact .inr rfl
    · rw [if_neg h]
      rcases h1 c' hc' with h' | h' | h'
      · exact .inl h'
      · exact .inr h'
      · exact absurd h' h
  · rintro ⟨rfl, h⟩
    refine ⟨?_, rfl⟩
    intro c hc
    by_cases hs : c = ' '
    · exact .inr (.inr hs)
    · have := h _ (List.mem_map_of_mem (f := fun c => if c = ' ' then '_' else c) hc)
      rw [if_neg hs] at this
      rcases this with h | h
      · exact .inl h
      · exact .inr (.inl h)

theorem validate_error (isAlnum : Char → Bool) (t : Text) (e : PyErr) (h : Measurement.validateName isAlnum t = .error e) :
    e = .valueError := by
  unfold Measurement.validateName at h
  simp only at h
  split at h
  · cases h
  · cases h; rfl

theorem isCustom_iff (m : VMeas K) : m.isCustom = true ↔ Custom m := by
  unfold VMeas.isCustom Custom
  cases m.valentinaName with
  | nil => simp
  | cons c t => simp [eq_comm]

section
variable {isAlnum : Char → Bool} {sympify : Text → Except PyErr (Formula K)}

theorem new_iff (c : Call) (m : VMeas K) : VMeas.new isAlnum sympify c.name c.value c.fullName c.description = .ok m ↔
    Makes isAlnum sympify c m ∧ m.core = Meas.new (.formula m.core.expression) := by
  constructor
  · intro h
    unfold VMeas.new at h
    split at h
    · cases h
    · rename_i value hv
      split at h
      · cases h
      · rename_i n hn
        split at h
        · cases h
        · rename_i f hf
          cases h
          exact ⟨⟨rfl, (validate_iff _ _ _).1 hn, ⟨value, hv, by rw [replacePrefix_eq] at hf; exact hf⟩, rfl, rfl⟩, rfl⟩
  · rintro ⟨⟨h1, h2, ⟨t, h3, h4⟩, h5, h6⟩, h7⟩
    unfold VMeas.new
    rw [h3]
    simp only [(validate_iff _ _ _).2 h2, replacePrefix_eq t, h4]
    obtain ⟨vn, n, fn, d, core⟩ := m
    simp only at h1 h5 h6 h7
    rw [h1, h5, h6, h7]
    rfl

/-- The keys and objects of a list of measurements. -/
def entries (l : List (VMeas K)) : Dict Text Nat :=
  l.zipIdx.flatMap fun p => (p.1.name, p.2) :: if p.1.isCustom then [(p.1.valentinaName, p.2)] else []

theorem entries_append (l : List (VMeas K)) (m : VMeas K) : entries (l ++ [m]) =
    entries l ++ (m.name, l.length) :: if m.isCustom then [(m.valentinaName, l.length)] else [] := by
  simp [entries, List.zipIdx_append]

theorem mem_entries {l : List (VMeas K)} {k : Text} {i : Nat} : (k, i) ∈ entries l ↔ ∃ m, l[i]? = some m ∧ KeyOf m k := by
  simp only [entries, List.mem_flatMap, List.mem_cons, Prod.exists, KeyOf]
  constructor
  · rintro ⟨m, j, hm, h⟩
    have hj := List.mk_mem_zipIdx_iff_getElem?.1 hm
    rcases h with h | h
    · cases h; exact ⟨m, hj, .inl rfl⟩
    · split at h
      · rename_i hc
        cases List.mem_singleton.1 h
        exact ⟨m, hj, .inr ⟨(isCustom_iff m).1 hc, rfl⟩⟩
      · cases h
  · rintro ⟨m, hm, h⟩
    refine ⟨m, i, List.mk_mem_zipIdx_iff_getElem?.2 hm, ?_⟩
    rcases h with rfl | ⟨hc, rfl⟩
    · exact .inl rfl
    · rw [if_pos ((isCustom_iff m).2 hc)]; exact .inr (by simp)

/-- What holds of every set that is filled with `add`. -/
structure VInv (isAlnum : Char → Bool) (s : VSet K) : Prop where
  names : s.names = entries s.objects
  keys : s.names.keys.Nodup
  stored : ∀ m ∈ s.objects, StoredName isAlnum m.valentinaName m.name
  expressions : s.expressions = s.objects.map fun m => (m.name, m.core.expression)
  core : ∀ m ∈ s.objects, m.core = Meas.new (.formula m.core.expression)
  nodup : (s.objects.map VMeas.name).Nodup

theorem vinv_new (isAlnum : Char → Bool) : VInv isAlnum ({} : VSet K) :=
  ⟨rfl, List.nodup_nil, by simp, rfl, by simp, List.nodup_nil⟩

theorem get?_of_mem_nodup {d : Dict Text Nat} (h : d.keys.Nodup) {k : Text} {i : Nat} (hm : (k, i) ∈ d) : d.get? k = some i := by
  induction d with
  | nil => cases hm
  | cons p d ih =>
    obtain ⟨k', i'⟩ := p
    simp only [Dict.keys, List.map_cons, List.nodup_cons] at h
    rcases List.mem_cons.1 hm with hm | hm
    · cases hm; simp [Dict.get?]
    · have hne : k' ≠ k := by
        rintro rfl
        exact h.1 (List.mem_map_of_mem (f := Prod.fst) hm)
      simp only [Dict.get?, if_neg hne]
      exact ih h.2 hm

theorem vinv_get {s : VSet K} (h : VInv isAlnum s) (k : Text) (i : Nat) :
    s.names.get? k = some i ↔ ∃ m, s.objects[i]? = some m ∧ KeyOf m k := by
  rw [← mem_entries, ← h.names]
  exact ⟨Dict.mem_of_get?, get?_of_mem_nodup h.keys⟩

theorem mem_keys {s : VSet K} (h : VInv isAlnum s) (k : Text) : k ∈ s.names.keys ↔ ∃ m ∈ s.objects, KeyOf m k := by
  rw [← Dict.get?_isSome_iff, Option.isSome_iff_exists]
  constructor
  · rintro ⟨i, hi⟩
    obtain ⟨m, hm, hk⟩ := (vinv_get h k i).1 hi
    exact ⟨m, List.mem_of_getElem? hm, hk⟩
  · rintro ⟨m, hm, hk⟩
    obtain ⟨i, hi⟩ := List.mem_iff_getElem?.1 hm
    exact ⟨i, (vinv_get h k i).2 ⟨m, hi, hk⟩⟩

theorem keyOf_stored {s : VSet K} (h : VInv isAlnum s) {t n : Text} (hn : StoredName isAlnum t n) :
    n ∈ s.names.keys ↔ n ∈ s.objects.map VMeas.name := by
  rw [mem_keys h, List.mem_map]
  constructor
  · rintro ⟨m, hm, rfl | ⟨⟨t', ht'⟩, rfl⟩⟩
    · exact ⟨m, hm, rfl⟩
    · exact absurd (by rw [ht']; simp) (stored_noAt hn)
  · rintro ⟨m, hm, rfl⟩; exact ⟨m, hm, .inl rfl⟩

/-- The outcome of a call of `add`. -/
theorem add_cases {s : VSet K} (h : VInv isAlnum s) (c : Call) :
    (∃ m, Makes isAlnum sympify c m ∧ m.name ∉ s.objects.map VMeas.name ∧
      ∃ s', s.add isAlnum sympify c.name c.value c.fullName c.description = .ok s' ∧ s'.objects = s.objects ++ [m] ∧
        s'.unit = s.unit ∧ s'.system = s.system ∧ VInv isAlnum s') ∨
    (∃ m, Makes isAlnum sympify c m ∧ m.name ∈ s.objects.map VMeas.name ∧
      s.add isAlnum sympify c.name c.value c.fullName c.description = .error .nameError) ∨
    ((∀ m, ¬ Makes isAlnum sympify c m) ∧
      ∃ e, s.add isAlnum sympify c.name c.value c.fullName c.description = .error e) := by
  unfold VSet.add
  cases hm : VMeas.new isAlnum sympify c.name c.value c.fullName c.description with
  | error e =>
    refine .inr (.inr ⟨?_, e, rfl⟩)
    intro m hmk
    have := (new_iff c { m with core := Meas.new (.formula m.core.expression) }).2
      ⟨⟨hmk.valentinaName, hmk.name, hmk.value, hmk.fullName, hmk.description⟩, rfl⟩
    rw [hm] at this
    cases this
  | ok m =>
    obtain ⟨hmk, hcore⟩ := (new_iff c m).1 hm
    simp only
    have hkey := keyOf_stored h hmk.name
    by_cases hin : m.name ∈ s.objects.map VMeas.name
    · refine .inr (.inl ⟨m, hmk, hin, ?_⟩)
      rw [if_pos]
      exact (Dict.get?_isSome_iff _ _).2 (hkey.2 hin)
    · rw [if_neg (c := s.names.contains m.name = true) (fun hc => hin (hkey.1 ((Dict.get?_isSome_iff _ _).1 hc)))]
      refine .inl ⟨m, hmk, hin, _, rfl, rfl, rfl, rfl, ?_⟩
      · have hnk : m.name ∉ s.names.keys := fun hc => hin (hkey.1 hc)
        have hstored : StoredName isAlnum m.valentinaName m.name := hmk.valentinaName ▸ hmk.name
        have hvk : m.isCustom = true → m.valentinaName ∉ (s.names ++ [(m.name, s.objects.length)]).keys := by
          intro hc hk
          obtain ⟨t, ht⟩ := (isCustom_iff m).1 hc
          simp only [Dict.keys, List.map_append, List.map_cons, List.map_nil, List.mem_append, List.mem_singleton] at hk
          rcases hk with hk | hk
          · obtain ⟨m', hm', hk'⟩ := (mem_keys h _).1 hk
            rcases hk' with hk' | ⟨_, hk'⟩
            · exact stored_noAt (h.stored m' hm') (by rw [← hk', ht]; simp)
            · have e : m.name = m'.name := by rw [hstored.1, (h.stored m' hm').1, hk']
              exact hin (e ▸ List.mem_map_of_mem hm')
          · exact stored_noAt hstored (by rw [← hk, ht]; simp)
        have hset : s.names.set m.name s.objects.length = s.names ++ [(m.name, s.objects.length)] := Dict.set_of_not_mem _ hnk
        have hek : m.name ∉ s.expressions.keys := by
          rw [h.expressions]
          simp only [Dict.keys, List.map_map]
          exact hin
        refine ⟨?_, ?_, ?_, ?_, ?_, ?_⟩
        · simp only
          rw [entries_append, hset, ← h.names]
          split
          · rename_i hc
            rw [Dict.set_of_not_mem _ (hvk hc)]
            simp
          · rfl
        · simp only
          rw [hset]
          have hnd : (s.names ++ [(m.name, s.objects.length)]).keys.Nodup := by
            simp only [Dict.keys, List.map_append, List.map_cons, List.map_nil]
            exact List.nodup_append.2 ⟨h.keys, by simp, by
              intro a ha b hb
              rw [List.mem_singleton] at hb
              subst hb
              rintro rfl
              exact hnk ha⟩
          split
          · rename_i hc
            rw [Dict.set_of_not_mem _ (hvk hc)]
            have hv := hvk hc
            simp only [Dict.keys] at hnd hv ⊢
            rw [List.map_append]
            exact List.nodup_append.2 ⟨hnd, by simp, by
              intro a ha b hb
              rw [List.map_singleton, List.mem_singleton] at hb
              subst hb
              rintro rfl
              exact hv ha⟩
          · exact hnd
        · intro m' hm'
          rcases List.mem_append.1 hm' with hm' | hm'
          · exact h.stored m' hm'
          · rw [List.mem_singleton.1 hm']; exact hstored
        · simp only
          rw [Dict.set_of_not_mem _ hek, h.expressions]
          simp
        · intro m' hm'
          rcases List.mem_append.1 hm' with hm' | hm'
          · exact h.core m' hm'
          · rw [List.mem_singleton.1 hm']; exact hcore
        · rw [List.map_append]
          exact List.nodup_append.2 ⟨h.nodup, by simp, by
            intro a ha b hb
            rw [List.map_singleton, List.mem_singleton] at hb
            subst hb
            rintro rfl
            exact hin ha⟩

theorem vinv_addAll {s : VSet K} (h : VInv isAlnum s) (l : List Call) : VInv isAlnum (s.addAll isAlnum sympify l) := by
  induction l generalizing s with
  | nil => exact h
  | cons c l ih =>
    unfold VSet.addAll
    rcases add_cases (sympify := sympify) h c with ⟨m, _, _, s', h1, _, _, _, h2⟩ | ⟨m, _, _, h1⟩ | ⟨_, e, h1⟩
    · rw [h1]; exact ih h2
    · rw [h1]; exact ih h
    · rw [h1]; exact ih h

theorem makes_unique {c : Call} {m m' : VMeas K} (h : Makes isAlnum sympify c m) (h' : Makes isAlnum sympify c m') :
    m.valentinaName = m'.valentinaName ∧ m.name = m'.name ∧ m.fullName = m'.fullName ∧ m.description = m'.description ∧
      m.core.expression = m'.core.expression := by
  refine ⟨h.valentinaName.trans h'.valentinaName.symm, h.name.1.trans h'.name.1.symm, h.fullName.trans h'.fullName.symm,
    h.description.trans h'.description.symm, ?_⟩
  obtain ⟨t, h1, h2⟩ := h.value
  obtain ⟨t', h1', h2'⟩ := h'.value
  rw [h1] at h1'
  cases h1'
  rw [h2] at h2'
  exact Except.ok.inj h2'

/-! ## Substitution -/

theorem sub_eq {s : VSet K} (h : VInv isAlnum s) (f : Formula K) :
    s.subs f = MSet.subs (s.objects.map fun m => (m.name, m.core)) f := by
  unfold VSet.subs MSet.subs MSet.sortedIter
  have hk : s.expressions.keys = Dict.keys (s.objects.map fun m => (m.name, m.core)) := by
    rw [h.expressions]; simp [Dict.keys]
  rw [hk]
  have hg : ∀ n, s.expressions.get? n = (Dict.get? (s.objects.map fun m => (m.name, m.core)) n).map Meas.expression := by
    intro n
    rw [h.expressions]
    induction s.objects with
    | nil => rfl
    | cons m l ih =>
      simp only [List.map_cons, Dict.get?]
      split
      · rfl
      · exact ih
  simp only [hg]
  generalize Measurement.sortNames _ = names
  generalize Dict.get? (s.objects.map fun m => (m.name, m.core)) = g
  induction names generalizing f with
  | nil => rfl
  | cons n names ih =>
    simp only [List.filterMap_cons]
    cases g n with
    | none => simpa using ih f
    | some m => simpa using ih _

/-! ## Files -/

theorem find_iff (r : Node) (tag : String) (n : Node) :
    r.children.find? (fun c => c.tag = some tag) = some n ↔ FirstChild r tag n := by
  rw [List.find?_eq_some_iff_append, FirstChild]
  constructor
  · rintro ⟨h1, l1, l2, h2, h3⟩
    exact ⟨l1, l2, h2, by simpa using h1, fun c hc => by simpa using h3 c hc⟩
  · rintro ⟨l1, l2, h2, h1, h3⟩
    exact ⟨by simpa using h1, l1, l2, h2, fun c hc => by simpa using h3 c hc⟩

theorem firstChild_unique {r : Node} {tag : String} {n n' : Node} (h : FirstChild r tag n) (h' : FirstChild r tag n') : n = n' := by
  rw [← find_iff] at h h'
  rw [h] at h'
  cases h'; rfl

theorem xpathText_ok {r : Node} {tag : String} {t : Option Text} :
    xpathText (some r) tag = .ok t ↔ ∃ n, FirstChild r tag n ∧ n.text = t := by
  unfold xpathText xpathElement
  simp only
  cases hf : r.children.find? fun c => c.tag = some tag with
  | none =>
    simp only [reduceCtorEq, false_iff, not_exists, not_and]
    intro n hn
    rw [← find_iff, hf] at hn
    cases hn
  | some n =>
    have hn := (find_iff r tag n).1 hf
    simp only [Except.ok.injEq]
    exact ⟨fun h => ⟨n, hn, h⟩, fun ⟨n', hn', h⟩ => firstChild_unique hn' hn ▸ h⟩

theorem xpathElement_ok {r : Node} {tag : String} {n : Node} : xpathElement (some r) tag = .ok (some n) ↔ FirstChild r tag n := by
  rw [← find_iff]; simp [xpathElement]

theorem xpathText_error {r : Option Node} {tag : String} {e : PyErr} (h : xpathText r tag = .error e) : e = .attributeError := by
  unfold xpathText xpathElement at h
  cases r with
  | none => cases h; rfl
  | some r =>
    simp only at h
    split at h
    · rename_i h'; cases h'
    · cases h; rfl
    · cases h

theorem gender_iff (t : Text) (g : Gender) : Dict.getItem genders t = .ok g ↔ GenderName t g := by
  unfold Dict.getItem GenderName
  have h : Dict.get? genders t = if "UNKNOWN".toList = t then some .unknown else if "FEMALE".toList = t then some .female
    else if "MALE".toList = t then some .male else if "PARTICULAR".toList = t then some .particular else none := rfl
  rw [h]
  have n1 : "UNKNOWN".toList ≠ "FEMALE".toList := by decide
  have n2 : "UNKNOWN".toList ≠ "MALE".toList := by decide
  have n3 : "UNKNOWN".toList ≠ "PARTICULAR".toList := by decide
  have n4 : "FEMALE".toList ≠ "MALE".toList := by decide
  have n5 : "FEMALE".toList ≠ "PARTICULAR".toList := by decide
  have n6 : "MALE".toList ≠ "PARTICULAR".toList := by decide
  generalize "UNKNOWN".toList = a at *
  generalize "FEMALE".toList = b at *
  generalize "MALE".toList = c at *
  generalize "PARTICULAR".toList = d at *
  clear h
  by_cases h1 : a = t
  · subst h1; simp [n1, n2, n3, eq_comm]
  by_cases h2 : b = t
  · subst h2; simp [n1, n1.symm, n4, n5, eq_comm]
  by_cases h3 : c = t
  · subst h3; simp [n2, n2.symm, n4, n4.symm, n6, eq_comm]
  by_cases h4 : d = t
  · subst h4; simp [n3, n3.symm, n5, n5.symm, n6, n6.symm, eq_comm]
  simp [h1, h2, h3, h4, Ne.symm h1, Ne.symm h2, Ne.symm h3, Ne.symm h4]

theorem gender_error {t : Text} {e : PyErr} (h : Dict.getItem genders t = .error e) : e = .keyError := by
  unfold Dict.getItem at h
  split at h
  · cases h
  · cases h; rfl

theorem addElement_eq (s : VSet K) (e : Node) : addElement isAlnum sympify s e =
    s.add isAlnum sympify (callOf e).name (callOf e).value (callOf e).fullName (callOf e).description := by
  unfold addElement callOf
  have h1 : Xml.initFromXml measurementAttrs e.attrib = .ok [("name", e.attrib.get? "name"), ("value", e.attrib.get? "value"),
      ("full_name", some ((e.attrib.get? "full_name").getD [])), ("description", some ((e.attrib.get? "description").getD []))] := by
    unfold Xml.initFromXml measurementAttrs
    simp only [List.foldlM_cons, List.foldlM_nil, Xml.readAttr, bind, Except.bind, pure, Except.pure]
    cases e.attrib.get? "name" <;> cases e.attrib.get? "value" <;> cases e.attrib.get? "full_name" <;>
      cases e.attrib.get? "description" <;> rfl
  rw [h1]
  have h2 : Xml.toDict measurementAttrs [("name", e.attrib.get? "name"), ("value", e.attrib.get? "value"),
      ("full_name", some ((e.attrib.get? "full_name").getD [])), ("description", some ((e.attrib.get? "description").getD []))] [] =
      .ok [("name", e.attrib.get? "name"), ("value", e.attrib.get? "value"),
      ("full_name", some ((e.attrib.get? "full_name").getD [])), ("description", some ((e.attrib.get? "description").getD []))] := rfl
  simp only [bind, Except.bind, h2]
  rfl

theorem addElements_ok {s s' : VSet K} (hs : VInv isAlnum s) (es : List Node) :
    addElements isAlnum sympify s es = .ok s' → (∀ e ∈ es, e.tag = some "m") ∧
      ∃ l, s'.objects = s.objects ++ l ∧ List.Forall₂ (fun e m => Makes isAlnum sympify (callOf e) m) es l ∧
        s'.unit = s.unit ∧ s'.system = s.system ∧ VInv isAlnum s' := by
  induction es generalizing s with
  | nil => intro h; cases h; exact ⟨by simp, [], by simp, .nil, rfl, rfl, hs⟩
  | cons e es ih =>
    intro h
    unfold addElements at h
    split at h
    · rename_i ht
      rw [addElement_eq] at h
      rcases add_cases (sympify := sympify) hs (callOf e) with ⟨m, hm, _, s1, h1, h2, h3, h4, h5⟩ | ⟨m, _, _, h1⟩ | ⟨_, err, h1⟩
      · rw [h1] at h
        obtain ⟨h6, l, h7, h8, h9, h10, h11⟩ := ih h5 h
        exact ⟨by simpa [ht] using h6, m :: l, by rw [h7, h2]; simp, .cons hm h8, h9.trans h3, h10.trans h4, h11⟩
      · rw [h1] at h; cases h
      · rw [h1] at h; cases h
    · cases h

theorem addElements_exists {s : VSet K} (hs : VInv isAlnum s) (es : List Node) (l : List (VMeas K))
    (ht : ∀ e ∈ es, e.tag = some "m") (hl : List.Forall₂ (fun e m => Makes isAlnum sympify (callOf e) m) es l)
    (hn : ((s.objects ++ l).map VMeas.name).Nodup) : ∃ s', addElements isAlnum sympify s es = .ok s' := by
  induction hl generalizing s with
  | nil => exact ⟨s, rfl⟩
  | @cons e m es l hm hl ih =>
    unfold addElements
    rw [if_pos (ht e (by simp)), addElement_eq]
    have hnm : m.name ∉ s.objects.map VMeas.name := by
      rw [List.map_append, List.map_cons] at hn
      exact fun hc => (List.nodup_append.1 hn).2.2 _ hc _ (by simp) rfl
    rcases add_cases (sympify := sympify) hs (callOf e) with ⟨m', hm', _, s1, h1, h2, h3, h4, h5⟩ | ⟨m', hm', h0, h1⟩ | ⟨h0, err, h1⟩
    · rw [h1]
      refine ih h5 (fun e he => ht e (by simp [he])) ?_
      rw [h2]
      simp only [List.map_append, List.map_cons, List.map_nil, List.append_assoc, List.singleton_append] at hn ⊢
      rw [← (makes_unique hm hm').2.1]
      exact hn
    · exact absurd ((makes_unique hm hm').2.1 ▸ h0) hnm
    · exact absurd hm (h0 m)

theorem readPersonal_ok {upper : Text → Text} {tree : Node} {p : Personal} :
    readPersonal upper tree = .ok p ↔ ∃ n, FirstChild tree "personal" n ∧ PersonalOf upper n p := by
  unfold readPersonal
  simp only [bind, Except.bind, pure, Except.pure]
  cases hp : xpathElement (some tree) "personal" with
  | error e => simp [xpathElement] at hp
  | ok po =>
    cases po with
    | none =>
      simp only [xpathText, xpathElement, reduceCtorEq, false_iff, not_exists, not_and]
      intro n hn
      rw [← xpathElement_ok, hp] at hn
      cases hn
    | some pe =>
      have hpe := xpathElement_ok.1 hp
      have hred : (∃ n, FirstChild tree "personal" n ∧ PersonalOf upper n p) ↔ PersonalOf upper pe p :=
        ⟨fun ⟨n, h1, h2⟩ => firstChild_unique h1 hpe ▸ h2, fun h => ⟨pe, hpe, h⟩⟩
      rw [hred]
      simp only
      cases hc : xpathText (some pe) "customer" with
      | error e =>
        simp only [reduceCtorEq, false_iff]
        rintro ⟨⟨n, h1, _⟩, _⟩
        rw [xpathText_ok.2 ⟨n, h1, rfl⟩] at hc; cases hc
      | ok customer =>
      simp only
      cases hb : xpathText (some pe) "birth-date" with
      | error e =>
        simp only [reduceCtorEq, false_iff]
        rintro ⟨_, ⟨n, h1, _⟩, _⟩
        rw [xpathText_ok.2 ⟨n, h1, rfl⟩] at hb; cases hb
      | ok birth =>
      simp only
      obtain ⟨nc, hnc, rfl⟩ := xpathText_ok.1 hc
      obtain ⟨nb, hnb, rfl⟩ := xpathText_ok.1 hb
      have hbirth : ∀ bd, birthDateOf (match nb.text with | some t => Arg.text t | none => Arg.null) = .ok bd ↔
          ((nb.text = none ∧ bd = none) ∨ ∃ t d, nb.text = some t ∧ IsDate d ∧ DateText t d ∧ bd = some (.inl d)) := by
        intro bd
        cases nb.text with
        | none => simp [birthDateOf, eq_comm]
        | some t =>
          simp only [birthDateOf, ensureDate, Arg.str]
          cases hpd : parseDate t with
          | error e =>
            simp only [Except.map, reduceCtorEq, false_and, Option.some.injEq, false_or, false_iff]
            rintro ⟨t', d, rfl, h1, h2, _⟩
            rw [(parseDate_ok t d).2 ⟨h1, h2⟩] at hpd; cases hpd
          | ok d =>
            obtain ⟨h1, h2⟩ := (parseDate_ok t d).1 hpd
            simp only [Except.map, Except.ok.injEq, reduceCtorEq, false_and, Option.some.injEq, false_or]
            constructor
            · rintro rfl; exact ⟨t, d, rfl, h1, h2, rfl⟩
            · rintro ⟨t', d', rfl, h3, h4, rfl⟩
              have := (parseDate_ok t d').2 ⟨h3, h4⟩
              rw [hpd] at this
              cases this; rfl
      cases hbd : birthDateOf (match nb.text with | some t => Arg.text t | none => Arg.null) with
      | error e =>
        simp only [reduceCtorEq, false_iff]
        rintro ⟨_, ⟨n, h1, h2⟩, _⟩
        rw [firstChild_unique h1 hnb] at h2
        rw [(hbirth _).2 h2] at hbd; cases hbd
      | ok bd =>
      simp only
      cases hg : xpathText (some pe) "gender" with
      | error e =>
        simp only [reduceCtorEq, false_iff]
        rintro ⟨_, _, ⟨n, t, h1, _⟩, _⟩
        rw [xpathText_ok.2 ⟨n, h1, rfl⟩] at hg; cases hg
      | ok gt =>
      obtain ⟨ng, hng, rfl⟩ := xpathText_ok.1 hg
      cases hgt : ng.text with
      | none =>
        simp only [reduceCtorEq, false_iff]
        rintro ⟨_, _, ⟨n, t, h1, h2, _⟩, _⟩
        rw [firstChild_unique h1 hng, hgt] at h2; cases h2
      | some gt =>
      simp only
      cases hgi : Dict.getItem genders (upper gt) with
      | error e =>
        simp only [reduceCtorEq, false_iff]
        rintro ⟨_, _, ⟨n, t, h1, h2, h3⟩, _⟩
        rw [firstChild_unique h1 hng, hgt] at h2; cases h2
        rw [(gender_iff _ _).2 h3] at hgi; cases hgi
      | ok g =>
      simp only
      cases he : xpathText (some pe) "email" with
      | error e =>
        simp only [reduceCtorEq, false_iff]
        rintro ⟨_, _, _, ⟨n, h1, _⟩, _⟩
        rw [xpathText_ok.2 ⟨n, h1, rfl⟩] at he; cases he
      | ok email =>
      obtain ⟨ne, hne, rfl⟩ := xpathText_ok.1 he
      simp only [Except.ok.injEq]
      constructor
      · rintro rfl
        exact ⟨⟨nc, hnc, rfl⟩, ⟨nb, hnb, (hbirth bd).1 hbd⟩, ⟨ng, gt, hng, hgt, (gender_iff _ _).1 hgi⟩, ⟨ne, hne, rfl⟩,
          rfl, rfl, rfl, rfl⟩
      · rintro ⟨⟨n1, a1, b1⟩, ⟨n2, a2, b2⟩, ⟨n3, t3, a3, b3, c3⟩, ⟨n4, a4, b4⟩, f1, f2, f3, f4⟩
        cases firstChild_unique a1 hnc
        cases firstChild_unique a2 hnb
        cases firstChild_unique a3 hng
        cases firstChild_unique a4 hne
        rw [hgt] at b3; cases b3
        have e1 := (hbirth _).2 b2
        rw [hbd] at e1
        have e2 := (gender_iff _ _).2 c3
        rw [hgi] at e2
        obtain ⟨fn, ln, bd', md, g', em, co, cu⟩ := p
        simp only at *
        cases e1; cases e2
        subst f1 f2 f3 f4 b1 b4
        rfl

theorem addElements_addAll {s s' : VSet K} (hs : VInv isAlnum s) (es : List Node) (h : addElements isAlnum sympify s es = .ok s') :
    s' = s.addAll isAlnum sympify (es.map callOf) := by
  induction es generalizing s with
  | nil => cases h; rfl
  | cons e es ih =>
    unfold addElements at h
    split at h
    · rw [addElement_eq] at h
      rw [List.map_cons, VSet.addAll]
      rcases add_cases (sympify := sympify) hs (callOf e) with ⟨m, hm, _, s1, h1, h2, h3, h4, h5⟩ | ⟨m, _, _, h1⟩ | ⟨_, err, h1⟩
      · rw [h1] at h ⊢; exact ih h5 h
      · rw [h1] at h; cases h
      · rw [h1] at h; cases h
    · cases h

theorem addAll_unit {s : VSet K} (hs : VInv isAlnum s) (l : List Call) : (s.addAll isAlnum sympify l).unit = s.unit ∧
    (s.addAll isAlnum sympify l).system = s.system := by
  induction l generalizing s with
  | nil => exact ⟨rfl, rfl⟩
  | cons c l ih =>
    unfold VSet.addAll
    rcases add_cases (sympify := sympify) hs c with ⟨m, _, _, s', h1, _, h3, h4, h2⟩ | ⟨m, _, _, h1⟩ | ⟨_, e, h1⟩
    · rw [h1]; exact ⟨(ih h2).1.trans h3, (ih h2).2.trans h4⟩
    · rw [h1]; exact ih hs
    · rw [h1]; exact ih hs

theorem entries_values (l : List (VMeas K)) (k : Nat) :
    (l.zipIdx k |>.flatMap fun p => (p.1.name, p.2) :: if p.1.isCustom then [(p.1.valentinaName, p.2)] else []).map Prod.snd =
      (l.zipIdx k).flatMap fun p => if p.1.isCustom then [p.2, p.2] else [p.2] := by
  induction l generalizing k with
  | nil => rfl
  | cons m l ih =>
    simp only [List.zipIdx_cons, List.flatMap_cons, List.map_append, ih]
    congr 1
    split <;> rfl

theorem count_values (l : List (VMeas K)) (k i : Nat) : ((l.zipIdx k).flatMap fun p => if p.1.isCustom then [p.2, p.2] else [p.2]).count i =
    if k ≤ i then match l[i - k]? with
      | some m => if m.isCustom then 2 else 1
      | none => 0
    else 0 := by
  induction l generalizing k with
  | nil => simp
  | cons m l ih =>
    rw [List.zipIdx_cons, List.flatMap_cons, List.count_append, ih (k + 1)]
    by_cases h1 : k = i
    · subst h1
      rw [if_neg (c := k + 1 ≤ k) (by omega), if_pos (Nat.le_refl _), Nat.sub_self, List.getElem?_cons_zero]
      simp only
      split <;> simp
    · have h0 : (if m.isCustom = true then [k, k] else [k]).count i = 0 := by
        split <;> simp [List.count_cons, h1]
      rw [h0, Nat.zero_add]
      by_cases h2 : k ≤ i
      · rw [if_pos h2, if_pos (by omega)]
        obtain ⟨j, rfl⟩ : ∃ j, i = k + 1 + j := ⟨i - (k + 1), by omega⟩
        rw [show k + 1 + j - (k + 1) = j by omega, show k + 1 + j - k = j + 1 by omega, List.getElem?_cons_succ]
      · rw [if_neg h2, if_neg (by omega)]

theorem iter_count {s : VSet K} (h : VInv isAlnum s) (i : Nat) : s.iter.count i = match s.objects[i]? with
    | some m => if m.isCustom then 2 else 1
    | none => 0 := by
  have : s.iter = (s.objects.zipIdx 0).flatMap fun p => if p.1.isCustom then [p.2, p.2] else [p.2] := by
    unfold VSet.iter Dict.values
    rw [h.names]
    exact entries_values s.objects 0
  rw [this, count_values, if_pos (Nat.zero_le _), Nat.sub_zero]

theorem filterMap_get {d : Dict Text Nat} (h : d.keys.Nodup) : d.keys.filterMap d.get? = d.values := by
  have key : ∀ l : Dict Text Nat, (∀ p ∈ l, p ∈ d) → (l.map Prod.fst).filterMap d.get? = l.map Prod.snd := by
    intro l
    induction l with
    | nil => intro _; rfl
    | cons p l ih =>
      intro hp
      obtain ⟨k, i⟩ := p
      rw [List.map_cons, List.filterMap_cons, get?_of_mem_nodup h (hp (k, i) (by simp))]
      simp only [List.map_cons]
      rw [ih (fun p hp' => hp p (by simp [hp']))]
  exact key d (fun p hp => hp)

theorem sortedIter_perm {s : VSet K} (h : VInv isAlnum s) : s.sortedIter.Perm s.iter := by
  unfold VSet.sortedIter VSet.iter
  rw [← filterMap_get h.keys]
  exact (Measurement.sortNames_perm _).filterMap _

theorem plain_eq {s : VSet K} (hs : VInv isAlnum s) (l : List Call) :
    (s.addAll isAlnum sympify l).objects.map (fun m => (m.name, m.core)) =
      MSet.addAll isAlnum (s.objects.map fun m => (m.name, m.core)) (l.filterMap fun c => match c.value with
        | none => none
        | some t => match sympify (coded t) with
          | .ok f => some (coded c.name, Measurement.Arg.formula f)
          | .error _ => none) := by
  induction l generalizing s with
  | nil => rfl
  | cons c l ih =>
    rw [VSet.addAll, List.filterMap_cons]
    have hkeys : Dict.keys (s.objects.map fun m => (m.name, m.core)) = s.objects.map VMeas.name := by
      simp [Dict.keys]
    rcases add_cases (sympify := sympify) hs c with ⟨m, hm, hin, s', h1, h2, _, _, h5⟩ | ⟨m, hm, hin, h1⟩ | ⟨hno, e, h1⟩
    · rw [h1]
      obtain ⟨t, ht, hf⟩ := hm.value
      simp only [ht, hf]
      rw [MSet.addAll]
      have hcore : m.core = Meas.new (.formula m.core.expression) := h5.core m (by rw [h2]; simp)
      rcases MSet.add_cases isAlnum (s.objects.map fun m => (m.name, m.core)) (coded c.name) (.formula m.core.expression) with
        ⟨h6, _⟩ | ⟨n, h6, h7⟩
      · rw [← replacePrefix_eq, (validate_iff _ _ _).2 hm.name] at h6; cases h6
      · rw [← replacePrefix_eq, (validate_iff _ _ _).2 hm.name] at h6; cases h6
        rcases h7 with ⟨h7, _⟩ | ⟨_, h7⟩
        · rw [hkeys] at h7; exact absurd h7 hin
        · rw [h7]
          simp only
          rw [ih h5, h2, List.map_append, List.map_singleton, ← hcore]
    · rw [h1]
      obtain ⟨t, ht, hf⟩ := hm.value
      simp only [ht, hf]
      rw [MSet.addAll]
      rcases MSet.add_cases isAlnum (s.objects.map fun m => (m.name, m.core)) (coded c.name) (.formula m.core.expression) with
        ⟨h6, _⟩ | ⟨n, h6, h7⟩
      · rw [← replacePrefix_eq, (validate_iff _ _ _).2 hm.name] at h6; cases h6
      · rw [← replacePrefix_eq, (validate_iff _ _ _).2 hm.name] at h6; cases h6
        rcases h7 with ⟨_, h7⟩ | ⟨h7, _⟩
        · rw [h7]; exact ih hs
        · rw [hkeys] at h7; exact absurd hin h7
    · rw [h1]
      simp only
      cases hv : c.value with
      | none => exact ih hs
      | some t =>
        simp only
        cases hf : sympify (coded t) with
        | error e => exact ih hs
        | ok f =>
          simp only
          rw [MSet.addAll]
          rcases MSet.add_cases isAlnum (s.objects.map fun m => (m.name, m.core)) (coded c.name) (.formula f) with
            ⟨_, h7⟩ | ⟨n, h6, _⟩
          · rw [h7]; exact ih hs
          · exfalso
            rw [← replacePrefix_eq, validate_iff] at h6
            exact hno ⟨c.name, n, c.fullName, c.description, Meas.new (.formula f)⟩ ⟨rfl, h6, ⟨t, hv, hf⟩, rfl, rfl⟩

end

end Patro.Vit
