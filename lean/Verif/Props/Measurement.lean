import Verif.Proof.Measurement
/-!
# C23, C24, C25, C78: measurements
-/

namespace Patro.Measurement

open Patro
open Patro.Text (Text)

variable {K : Type _}

/-- C23. A name is accepted exactly when all its characters are alphanumeric, underscores or spaces; the stored name
is the given one with the spaces replaced by underscores. Otherwise `ValueError` is raised. -/
theorem validateName_spec (isAlnum : Char → Bool) (name : Text) :
    (∀ n, validateName isAlnum name = .ok n ↔
      (∀ c ∈ name, isAlnum c = true ∨ c = '_' ∨ c = ' ') ∧ n = name.map fun c => if c = ' ' then '_' else c) ∧
    (¬ (∀ c ∈ name, isAlnum c = true ∨ c = '_' ∨ c = ' ') → validateName isAlnum name = .error .valueError) := by
  have key : ((name.map fun c => if c = ' ' then '_' else c).all fun c => isAlnum c || c == '_') = true ↔
      ∀ c ∈ name, isAlnum c = true ∨ c = '_' ∨ c = ' ' := by
    rw [List.all_eq_true]
    constructor
    · intro h c hc
      have := h _ (List.mem_map_of_mem (f := fun c => if c = ' ' then '_' else c) hc)
      by_cases hs : c = ' '
      · exact Or.inr (Or.inr hs)
      · simp only [hs, if_false, Bool.or_eq_true, beq_iff_eq] at this
        rcases this with h | h
        · exact Or.inl h
        · exact Or.inr (Or.inl h)
    · intro h x hx
      obtain ⟨c, hc, rfl⟩ := List.mem_map.1 hx
      by_cases hs : c = ' '
      · simp [hs]
      · simp only [hs, if_false, Bool.or_eq_true, beq_iff_eq]
        rcases h c hc with h | h | h
        · exact Or.inl h
        · exact Or.inr h
        · exact absurd h hs
  unfold validateName
  simp only [replace_space]
  constructor
  · intro n
    by_cases hall : ((name.map fun c => if c = ' ' then '_' else c).all fun c => isAlnum c || c == '_') = true
    · rw [if_pos hall]
      constructor
      · intro h; cases h; exact ⟨key.1 hall, rfl⟩
      · rintro ⟨_, rfl⟩; rfl
    · rw [if_neg hall]
      constructor
      · intro h; cases h
      · rintro ⟨h, _⟩; exact absurd (key.2 h) hall
  · intro h
    rw [if_neg (fun hall => h (key.1 hall))]

/-- C23. The stored name has no space, and validating it again returns it unchanged. -/
theorem validateName_idempotent (isAlnum : Char → Bool) (name n : Text) (h : validateName isAlnum name = .ok n) :
    ' ' ∉ n ∧ validateName isAlnum n = .ok n := by
  have hn := ((validateName_spec isAlnum name).1 n).1 h
  have hns : ' ' ∉ n := by
    rw [hn.2]
    intro hm
    obtain ⟨c, _, hc⟩ := List.mem_map.1 hm
    by_cases hs : c = ' '
    · subst hs; simp at hc
    · rw [if_neg hs] at hc; exact hs hc
  refine ⟨hns, ?_⟩
  rw [(validateName_spec isAlnum n).1 n]
  constructor
  · intro c hc
    rw [hn.2] at hc
    obtain ⟨x, hx, rfl⟩ := List.mem_map.1 hc
    by_cases hs : x = ' '
    · rw [if_pos hs]; exact Or.inr (Or.inl rfl)
    · rw [if_neg hs]; exact hn.1 x hx
  · have : ∀ l : Text, ' ' ∉ l → l.map (fun c => if c = ' ' then '_' else c) = l := by
      intro l
      induction l with
      | nil => intro _; rfl
      | cons c l ih =>
        intro hl
        simp only [List.mem_cons, not_or] at hl
        rw [List.map_cons, if_neg (fun e => hl.1 e.symm), ih hl.2]
    rw [this n hns]

example : validateName Char.isAlphanum "hip line 2".toList = .ok "hip_line_2".toList ∧
    validateName Char.isAlphanum "hip-line".toList = .error .valueError := by decide

/-- C24. `add` of a name already registered raises `NameError`, of a bad name `ValueError`; otherwise the measurement
is appended to the set, and nothing else changes. (A call that raises returns no new set.) -/
theorem add_spec (isAlnum : Char → Bool) (s : MSet K) (name : Text) (v : Arg K) :
    (validateName isAlnum name = .error .valueError → s.add isAlnum name v = .error .valueError) ∧
    (∀ n, validateName isAlnum name = .ok n → n ∈ s.keys → s.add isAlnum name v = .error .nameError) ∧
    (∀ n, validateName isAlnum name = .ok n → n ∉ s.keys → s.add isAlnum name v = .ok (s ++ [(n, Meas.new v)])) := by
  rcases MSet.add_cases isAlnum s name v with ⟨h1, h2⟩ | ⟨n, h1, h⟩
  · refine ⟨fun _ => h2, ?_, ?_⟩ <;> intro n hn <;> rw [h1] at hn <;> cases hn
  · refine ⟨(fun h => by rw [h1] at h; cases h), ?_, ?_⟩
    · intro n' hn' hk
      rw [h1] at hn'; cases hn'
      rcases h with ⟨_, h⟩ | ⟨h, _⟩
      · exact h
      · exact absurd hk h
    · intro n' hn' hk
      rw [h1] at hn'; cases hn'
      rcases h with ⟨h, _⟩ | ⟨_, h⟩
      · exact absurd h hk
      · exact h

/-- C24. After any sequence of `add` calls on an empty set, a name gives the measurement of the first call with that
(validated) name. -/
theorem lookup_first (isAlnum : Char → Bool) (l : List (Text × Arg K)) (n : Text) :
    (MSet.addAll isAlnum ([] : MSet K) l).get? n =
      (l.find? fun nv => validateName isAlnum nv.1 == .ok n).map fun nv => Meas.new nv.2 := by
  have gen : ∀ (s : MSet K), (s.addAll isAlnum l).get? n =
      (s.get? n).or ((l.find? fun nv => validateName isAlnum nv.1 == .ok n).map fun nv => Meas.new nv.2) := by
    induction l with
    | nil => intro s; simp [MSet.addAll]
    | cons c l ih =>
      intro s
      obtain ⟨name, v⟩ := c
      rw [MSet.addAll]
      rcases MSet.add_cases isAlnum s name v with ⟨h1, h2⟩ | ⟨n', h1, ⟨hk, h2⟩ | ⟨hk, h2⟩⟩
      · rw [h2, List.find?_cons_of_neg (by simp [h1])]
        exact ih s
      · rw [h2]
        by_cases hn : n' = n
        · subst hn
          obtain ⟨m, hm⟩ := Option.isSome_iff_exists.1 ((Dict.get?_isSome_iff s n').2 hk)
          simp only
          rw [ih s, hm]; rfl
        · rw [List.find?_cons_of_neg (by simp [h1, hn])]
          exact ih s
      · rw [h2]
        simp only
        rw [ih, ← Dict.set_of_not_mem _ hk, Dict.get?_set]
        by_cases hn : n' = n
        · subst hn
          rw [(Dict.get?_eq_none_iff s n').2 hk, List.find?_cons_of_pos (by simp [h1])]
          simp
        · rw [if_neg hn, List.find?_cons_of_neg (by simp [h1, hn])]
  rw [gen []]
  simp

/-- C24. `sorted_iter` yields every measurement of the set exactly once, in strictly ascending name order. -/
theorem sortedIter_spec (isAlnum : Char → Bool) (l : List (Text × Arg K)) :
    let s := MSet.addAll isAlnum ([] : MSet K) l
    s.sortedIter.Perm s ∧ (s.sortedIter.map Prod.fst).Pairwise (· < ·) := by
  intro s
  have hv : s.Valid := MSet.addAll_valid isAlnum l [] (by simp [MSet.Valid, Dict.keys])
  constructor
  · apply (List.perm_ext_iff_of_nodup ?_ ?_).2
    · rintro ⟨n, m⟩
      constructor
      · intro h; exact Dict.mem_of_get? (sortedIter_mem s n m h)
      · intro h
        have hg := MSet.get?_of_mem s hv n m h
        unfold MSet.sortedIter
        rw [List.mem_filterMap]
        refine ⟨n, (sortNames_perm s.keys).mem_iff.2 ((Dict.get?_isSome_iff s n).1 (by rw [hg]; rfl)), ?_⟩
        rw [hg]; rfl
    · have : (s.sortedIter.map Prod.fst).Nodup := by
        rw [sortedIter_names]
        exact (sortNames_perm s.keys).nodup_iff.2 hv
      exact List.Nodup.of_map _ this
    · exact List.Nodup.of_map Prod.fst hv
  · rw [sortedIter_names]
    exact sortNames_strict s.keys hv

example : ((MSet.addAll Char.isAlphanum ([] : MSet Int)
    [("hip".toList, .number 90), ("arm".toList, .number 60), ("hip".toList, .number 1),
     ("b!".toList, .number 2)]).sortedIter.map fun nm => (nm.1, nm.2.value))
    = [("arm".toList, some 60), ("hip".toList, some 90)] := by decide

/-- C25. Never a wrong number: if the value of a formula is computed, it is the value of the formula under every assignment that gives the
measurements needed the values of their formulas. -/
theorem subs_sound (s : MSet K) (f : Formula K) (k : K) (h : (s.subs f).ground? = some k) (σ : Text → K)
    (hσ : SolvesFor σ s f) : k = f.eval σ := by
  rw [← ground_eval _ k h σ]
  exact foldl_subst_needed σ s _ (fun nm hm => sortedIter_mem s nm.1 nm.2 hm) f hσ

/-- A set in which a formula is computed. -/
theorem needs_of_ground (s : MSet K) (hv : s.Valid) (f : Formula K) (k : K) (h : (s.subs f).ground? = some k) (n : Text) (hn : Needs s f n) :
    ∃ m, s.get? n = some m ∧ ∀ r ∈ m.expression.names, n < r := by
  refine needs_of_pass _ _ (fun nm hm => sortedIter_mem _ nm.1 nm.2 hm) ?_ f (names_of_ground _ k h) n hn
  rw [sortedIter_names]
  exact sortNames_strict _ hv

/-- C25. There is such an assignment whenever the value of a formula is computed, whatever the other measurements are, and the value of the
formula is the same under all of them. -/
theorem subs_solution (isAlnum : Char → Bool) (l : List (Text × Arg K)) (f : Formula K) (k : K)
    (h : ((MSet.addAll isAlnum ([] : MSet K) l).subs f).ground? = some k) :
    (∃ σ, SolvesFor σ (MSet.addAll isAlnum [] l) f) ∧ ∀ σ, SolvesFor σ (MSet.addAll isAlnum [] l) f → f.eval σ = k :=
  ⟨solution_exists _ f k (needs_of_ground _ (MSet.addAll_valid isAlnum l [] (by simp [MSet.Valid, Dict.keys])) f k h),
   fun σ hσ => (subs_sound _ f k h σ hσ).symm⟩

theorem ground_iff (s : MSet K) (hv : s.Valid) (f : Formula K) :
    (∃ k, (s.subs f).ground? = some k) ↔
      ∀ n, Needs s f n → ∃ m, s.get? n = some m ∧ ∀ r ∈ m.expression.names, n < r := by
  refine ⟨fun ⟨k, hk⟩ => needs_of_ground s hv f k hk, fun h => ?_⟩
  have hfwd : ∀ n m, Needs s f n → s.get? n = some m → ∀ r ∈ m.expression.names, n < r := by
    intro n m hn hm
    obtain ⟨m', h1, h2⟩ := h n hn
    rw [hm] at h1
    cases h1
    exact h2
  apply ground_of_no_names
  unfold MSet.subs
  have hdef' : ∀ n, Needs s f n → n ∈ s.keys := by
    intro n hn
    obtain ⟨m, hm, -⟩ := h n hn
    exact (Dict.get?_isSome_iff s n).1 (by rw [hm]; rfl)
  have hmem : ∀ r ∈ s.keys, r ∈ s.sortedIter.map Prod.fst := by
    intro r hr
    rw [sortedIter_names]
    exact (sortNames_perm s.keys).mem_iff.2 hr
  apply foldl_subst_names s f hfwd hdef' s.sortedIter
  · rintro ⟨n, m⟩ h; exact sortedIter_mem s n m h
  · rw [sortedIter_names]; exact sortNames_strict s.keys hv
  · intro n hn
    exact ⟨Needs.direct hn, hmem n (hdef' n (Needs.direct hn))⟩
  · intro nm _ r hr _
    exact hmem r hr

/-- C25, what holds: a formula evaluates to a number exactly if all the names it needs are measurements of the set and every
needed measurement refers only to names later in the alphabet (numbers refer to nothing). Missing: references to
earlier names, see `subs_chain_unresolved`. -/
theorem subs_complete_partial (isAlnum : Char → Bool) (l : List (Text × Arg K)) (f : Formula K) :
    (∃ k, ((MSet.addAll isAlnum ([] : MSet K) l).subs f).ground? = some k) ↔
      ∀ n, Needs (MSet.addAll isAlnum [] l) f n →
        ∃ m, (MSet.addAll isAlnum [] l).get? n = some m ∧ ∀ r ∈ m.expression.names, n < r :=
  ground_iff _ (MSet.addAll_valid isAlnum l [] (by simp [MSet.Valid, Dict.keys])) f

/-- The measurements `a = 10`, `b = 2 * a` and `c = b + a`. -/
def exampleSet : MSet Int := MSet.addAll Char.isAlphanum []
  [("a".toList, .number 10), ("b".toList, .formula (.bin (· * ·) (.num 2) (.var "a".toList))),
   ("c".toList, .formula (.bin (· + ·) (.var "b".toList) (.num 1)))]

/-- C25 is false: with `a = 10`, `b = 2 * a` and `c = b + 1`, the value of `b` is computed but the value of `c` raises
`TypeError`, although `c` is 21 under the only solution. -/
theorem subs_chain_unresolved :
    (exampleSet.value id "b".toList).1 = .ok 20 ∧ (exampleSet.value id "c".toList).1 = .error .typeError ∧
    (∀ σ, Solves σ exampleSet → σ "c".toList = 21) ∧ ∃ σ, Solves σ exampleSet := by
  refine ⟨by decide, by decide, ?_, ?_⟩
  · intro σ hσ
    have ha := hσ "a".toList _ rfl
    have hb := hσ "b".toList _ rfl
    have hc := hσ "c".toList _ rfl
    simp only [Meas.new, Formula.eval] at ha hb hc
    rw [ha] at hb
    rw [hb] at hc
    exact hc
  · refine ⟨fun n => if n = "a".toList then 10 else if n = "b".toList then 20 else 21, ?_⟩
    intro n m h
    have hmem := Dict.mem_of_get? h
    simp only [exampleSet, MSet.addAll] at hmem
    have hlist : MSet.addAll Char.isAlphanum ([] : MSet Int)
      [("a".toList, .number 10), ("b".toList, .formula (.bin (· * ·) (.num 2) (.var "a".toList))),
       ("c".toList, .formula (.bin (· + ·) (.var "b".toList) (.num 1)))]
      = [("a".toList, Meas.new (.number 10)),
         ("b".toList, Meas.new (.formula (.bin (· * ·) (.num 2) (.var "a".toList)))),
         ("c".toList, Meas.new (.formula (.bin (· + ·) (.var "b".toList) (.num 1))))] := rfl
    have hmem' := Dict.mem_of_get? h
    unfold exampleSet at hmem'
    rw [hlist] at hmem'
    simp only [List.mem_cons, Prod.mk.injEq, List.not_mem_nil, or_false] at hmem'
    rcases hmem' with ⟨rfl, rfl⟩ | ⟨rfl, rfl⟩ | ⟨rfl, rfl⟩ <;> decide

/-- The same measurements with names in the favourable order: `z = 10`, `y = 2 * z`, `x = y + 1`. -/
example : ((MSet.addAll Char.isAlphanum ([] : MSet Int)
    [("z".toList, .number 10), ("y".toList, .formula (.bin (· * ·) (.num 2) (.var "z".toList))),
     ("x".toList, .formula (.bin (· + ·) (.var "y".toList) (.num 1)))]).value id "x".toList).1 = .ok 21 := by
  decide

/-- `x` is computed although `p = q + 1` and `q = p`, which no numbers satisfy. -/
example : ((MSet.addAll Char.isAlphanum ([] : MSet Int)
    [("p".toList, .formula (.bin (· + ·) (.var "q".toList) (.num 1))), ("q".toList, .formula (.var "p".toList)), ("z".toList, .number 10),
     ("x".toList, .formula (.bin (· + ·) (.var "z".toList) (.num 1)))]).subs (.var "x".toList)).ground? = some 11 := by
  decide

/-- C78. A value that was read never changes afterwards, whatever is added to the set. -/
theorem value_stable (isAlnum : Char → Bool) (rnd : K → K) (s : MSet K) (n : Text) (v : K)
    (h : (s.value rnd n).1 = .ok v) (l : List (Text × Arg K)) :
    (MSet.value rnd (MSet.addAll isAlnum (s.value rnd n).2 l) n).1 = .ok v := by
  have hval : ∃ m, (s.value rnd n).2.get? n = some m ∧ m.value = some v := by
    unfold MSet.value at h ⊢
    cases hg : s.get? n with
    | none => rw [hg] at h; cases h
    | some m =>
      rw [hg] at h
      simp only at h ⊢
      cases hm : m.value with
      | some w =>
        rw [hm] at h
        simp only [Except.ok.injEq] at h
        subst h
        exact ⟨m, hg, hm⟩
      | none =>
        rw [hm] at h
        simp only at h ⊢
        cases hgr : (m.evaluated.getD (s.subs m.expression)).ground? with
        | none => rw [hgr] at h; cases h
        | some k =>
          rw [hgr] at h
          simp only [Except.ok.injEq] at h
          subst h
          exact ⟨_, Dict.get?_set_self _ _ _, rfl⟩
  obtain ⟨m, hm, hv⟩ := hval
  have keep : ∀ (l : List (Text × Arg K)) (s' : MSet K), s'.get? n = some m →
      (MSet.addAll isAlnum s' l).get? n = some m := by
    intro l
    induction l with
    | nil => intro s' h; exact h
    | cons c l ih =>
      intro s' h
      obtain ⟨name, v⟩ := c
      rw [MSet.addAll]
      rcases MSet.add_cases isAlnum s' name v with ⟨_, he⟩ | ⟨n', _, ⟨_, he⟩ | ⟨hk, he⟩⟩
      · rw [he]; exact ih s' h
      · rw [he]; exact ih s' h
      · rw [he]
        apply ih
        rw [← Dict.set_of_not_mem _ hk]
        have : n' ≠ n := by
          rintro rfl
          rw [(Dict.get?_eq_none_iff s' n').2 hk] at h
          cases h
        rw [Dict.get?_set_ne _ _ this, h]
  have hk := keep l _ hm
  generalize MSet.addAll isAlnum (s.value rnd n).2 l = s' at hk ⊢
  unfold MSet.value
  rw [hk]
  simp only [hv]

/-- C78. A formula read too early stays unresolved: once `value` has raised because a name was missing, it raises for
ever, even after the missing measurement has been added. -/
theorem value_error_stable (isAlnum : Char → Bool) (rnd : K → K) (s : MSet K) (n : Text)
    (h : (s.value rnd n).1 = .error .typeError) (l : List (Text × Arg K)) :
    (MSet.value rnd (MSet.addAll isAlnum (s.value rnd n).2 l) n).1 = .error .typeError := by
  have hval : ∃ m ev, (s.value rnd n).2.get? n = some m ∧ m.value = none ∧ m.evaluated = some ev ∧
      ev.ground? = none := by
    unfold MSet.value at h ⊢
    cases hg : s.get? n with
    | none => rw [hg] at h; cases h
    | some m =>
      rw [hg] at h
      simp only at h ⊢
      cases hm : m.value with
      | some w => rw [hm] at h; cases h
      | none =>
        rw [hm] at h
        simp only at h ⊢
        cases hgr : (m.evaluated.getD (s.subs m.expression)).ground? with
        | none =>
          refine ⟨_, m.evaluated.getD (s.subs m.expression), Dict.get?_set_self _ _ _, rfl, ?_, hgr⟩
          rfl
        | some k => rw [hgr] at h; cases h
  obtain ⟨m, ev, hm, hv, hev, hgr⟩ := hval
  have keep : ∀ (l : List (Text × Arg K)) (s' : MSet K), s'.get? n = some m →
      (MSet.addAll isAlnum s' l).get? n = some m := by
    intro l
    induction l with
    | nil => intro s' h; exact h
    | cons c l ih =>
      intro s' h
      obtain ⟨name, v⟩ := c
      rw [MSet.addAll]
      rcases MSet.add_cases isAlnum s' name v with ⟨_, he⟩ | ⟨n', _, ⟨_, he⟩ | ⟨hk, he⟩⟩
      · rw [he]; exact ih s' h
      · rw [he]; exact ih s' h
      · rw [he]
        apply ih
        rw [← Dict.set_of_not_mem _ hk]
        have : n' ≠ n := by
          rintro rfl
          rw [(Dict.get?_eq_none_iff s' n').2 hk] at h
          cases h
        rw [Dict.get?_set_ne _ _ this, h]
  have hk := keep l _ hm
  generalize MSet.addAll isAlnum (s.value rnd n).2 l = s' at hk ⊢
  unfold MSet.value
  rw [hk]
  simp only [hv, hev, Option.getD_some, hgr]

/-- Reading `b = 2 * z` before `z` is added. -/
example : (MSet.value id (MSet.addAll Char.isAlphanum ((MSet.addAll Char.isAlphanum ([] : MSet Int)
    [("b".toList, .formula (.bin (· * ·) (.num 2) (.var "z".toList)))]).value id "b".toList).2
    [("z".toList, .number 4)]) "b".toList).1 = .error .typeError := by decide

end Patro.Measurement
