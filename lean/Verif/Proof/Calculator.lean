import Verif.Spec.Calculator
import Mathlib.Tactic.Common
/-! # Lemmas on the text functions of the calculator -/

namespace Patro.Text

theorem findAt_some (pat t : Text) (i j : Nat) (h : findAt pat t i = some j) :
    i ≤ j ∧ pat <+: t.drop (j - i) ∧ (pat ≠ [] → j - i < t.length) ∧
      ∀ k, i ≤ k → k < j → ¬ pat <+: t.drop (k - i) := by
  induction t generalizing i with
  | nil =>
    unfold findAt at h
    split at h
    · rename_i hp
      cases h
      subst hp
      refine ⟨Nat.le_refl _, by simp, fun hne => absurd rfl hne, fun k h1 h2 => by omega⟩
    · cases h
  | cons c t ih =>
    unfold findAt at h
    split at h
    · rename_i hp
      cases h
      refine ⟨Nat.le_refl _, ?_, ?_, fun k h1 h2 => by omega⟩
      · simpa using List.isPrefixOf_iff_prefix.1 hp
      · intro _; simp
    · rename_i hp
      obtain ⟨h1, h2, h3, h4⟩ := ih (i + 1) h
      refine ⟨by omega, ?_, ?_, ?_⟩
      · have : j - i = (j - (i + 1)) + 1 := by omega
        rw [this, List.drop_succ_cons]
        exact h2
      · intro hne
        have := h3 hne
        simp only [List.length_cons]; omega
      · intro k hk1 hk2
        by_cases hk : k = i
        · subst hk
          rw [Nat.sub_self, List.drop_zero]
          intro hpre
          exact hp (List.isPrefixOf_iff_prefix.2 hpre)
        · have : k - i = (k - (i + 1)) + 1 := by omega
          rw [this, List.drop_succ_cons]
          exact h4 k (by omega) hk2

theorem findAt_none (pat t : Text) (i : Nat) (h : findAt pat t i = none) (k : Nat) :
    ¬ pat <+: t.drop k := by
  induction t generalizing i k with
  | nil =>
    unfold findAt at h
    split at h
    · cases h
    · rename_i hp
      simp only [List.drop_nil, List.prefix_nil]
      exact hp
  | cons c t ih =>
    unfold findAt at h
    split at h
    · cases h
    · rename_i hp
      cases k with
      | zero =>
        rw [List.drop_zero]
        intro hpre
        exact hp (List.isPrefixOf_iff_prefix.2 hpre)
      | succ k =>
        rw [List.drop_succ_cons]
        exact ih (i + 1) h k

theorem find_some {pat text : Text} {start s : Nat} (h : find pat text start = some s) :
    start ≤ s ∧ pat <+: text.drop s ∧ (pat ≠ [] → s < text.length) ∧
      ∀ k, start ≤ k → k < s → ¬ pat <+: text.drop k := by
  obtain ⟨h1, h2, h3, h4⟩ := findAt_some _ _ _ _ h
  refine ⟨h1, ?_, ?_, ?_⟩
  · rw [List.drop_drop] at h2
    have : start + (s - start) = s := by omega
    rwa [this] at h2
  · intro hne
    have := h3 hne
    rw [List.length_drop] at this
    omega
  · intro k hk1 hk2
    have := h4 k hk1 hk2
    rw [List.drop_drop] at this
    have e : start + (k - start) = k := by omega
    rwa [e] at this

theorem find_none {pat text : Text} {start : Nat} (h : find pat text start = none) (k : Nat) (hk : start ≤ k) :
    ¬ pat <+: text.drop k := by
  have := findAt_none _ _ _ h (k - start)
  rw [List.drop_drop] at this
  have e : start + (k - start) = k := by omega
  rwa [e] at this

end Patro.Text

namespace Patro.Calculator

open Patro
open Patro.Text

theorem takeWhile_next (p : Char → Bool) (t : Text) (c : Char)
    (h : t[(t.takeWhile p).length]? = some c) : p c = false := by
  induction t with
  | nil => simp at h
  | cons x t ih =>
    by_cases hx : p x = true
    · rw [List.takeWhile_cons_of_pos hx, List.length_cons, List.getElem?_cons_succ] at h
      exact ih h
    · rw [List.takeWhile_cons_of_neg hx] at h
      simp only [List.length_nil, List.getElem?_cons_zero, Option.some.injEq] at h
      subst h
      simpa using hx

/-- Everything `findIdentifier` guarantees. -/
theorem findIdentifier_some {e pre name : Text} {start next : Nat} (hpre : pre ≠ [])
    (h : findIdentifier e pre start = some (name, next)) :
    ∃ s, start ≤ s ∧ s < e.length ∧ OccursAt pre e s ∧ MaximalAt name e s ∧ next = s + name.length + 1 ∧
      (∀ k, start ≤ k → k < s → ¬ OccursAt pre e k) ∧
      (∃ c, e[s]? = some c ∧ name = c :: (e.drop (s + 1)).takeWhile isIdent) := by
  unfold findIdentifier at h
  cases hf : find pre e start with
  | none => rw [hf] at h; cases h
  | some s =>
    rw [hf] at h
    simp only [Option.some.injEq, Prod.mk.injEq] at h
    obtain ⟨hname, hnext⟩ := h
    obtain ⟨h1, h2, h3, h4⟩ := find_some hf
    have hs := h3 hpre
    have hdrop : e.drop s = e[s] :: e.drop (s + 1) := List.drop_eq_getElem_cons hs
    have hsub : s + 1 + ((e.drop (s + 1)).takeWhile isIdent).length - s
        = ((e.drop (s + 1)).takeWhile isIdent).length + 1 := by omega
    rw [hsub, hdrop, List.take_succ_cons] at hname
    have htake : (e.drop (s + 1)).take ((e.drop (s + 1)).takeWhile isIdent).length
        = (e.drop (s + 1)).takeWhile isIdent := by
      have := List.takeWhile_prefix isIdent (l := e.drop (s + 1))
      exact (List.prefix_iff_eq_take.1 this).symm
    rw [htake] at hname
    have hlen : name.length = ((e.drop (s + 1)).takeWhile isIdent).length + 1 := by
      rw [← hname, List.length_cons]
    refine ⟨s, h1, hs, h2, ⟨?_, ?_, ?_, ?_⟩, ?_, h4, e[s], List.getElem?_eq_getElem hs, hname.symm⟩
    · unfold OccursAt
      rw [← hname, hdrop, List.cons_prefix_cons]
      exact ⟨rfl, List.takeWhile_prefix _⟩
    · rw [← hname]; simp
    · rw [← hname]
      simp only [List.tail_cons]
      intro c hc
      exact (List.all_takeWhile (p := isIdent) (l := e.drop (s + 1)) |> List.all_eq_true.1) c hc
    · intro c hc
      apply takeWhile_next isIdent (e.drop (s + 1)) c
      rw [List.getElem?_drop]
      rw [hlen] at hc
      rw [← hc]
      congr 1
      omega
    · rw [hlen]; omega

/-- Specification of the scan loop from position `start`. -/
theorem scan_spec (e pre : Text) (hpre : pre ≠ []) (fuel start : Nat) (hf : e.length + 1 < fuel + start)
    (hs : start ≤ e.length + 1) :
    ∃ l, scan e pre fuel start = some l ∧
      (∀ name ∈ l, ∃ s, start ≤ s ∧ OccursAt pre e s ∧ MaximalAt name e s ∧
        ∃ c, e[s]? = some c ∧ name = c :: (e.drop (s + 1)).takeWhile isIdent) ∧
      (∀ k, start ≤ k → OccursAt pre e k →
        ∃ s name, name ∈ l ∧ MaximalAt name e s ∧ OccursAt pre e s ∧ s ≤ k ∧ k ≤ s + name.length) := by
  induction fuel generalizing start with
  | zero =>
    omega
  | succ fuel ih =>
    rw [scan]
    cases hfi : findIdentifier e pre start with
    | none =>
      refine ⟨[], rfl, by simp, ?_⟩
      intro k hk hocc
      exfalso
      unfold findIdentifier at hfi
      cases hfind : find pre e start with
      | none => exact find_none hfind k hk hocc
      | some s => rw [hfind] at hfi; cases hfi
    | some p =>
      obtain ⟨name, next⟩ := p
      obtain ⟨s, h1, h2, h3, h4, h5, h6, h7⟩ := findIdentifier_some hpre hfi
      have hnl : 0 < name.length := List.length_pos_iff.2 h4.2.1
      have hle : s + name.length ≤ e.length := by
        have := h4.1.length_le
        rw [List.length_drop] at this
        omega
      obtain ⟨l, hl, hl1, hl2⟩ := ih next (by omega) (by omega)
      refine ⟨name :: l, by simp [hl], ?_, ?_⟩
      · intro n hn
        rcases List.mem_cons.1 hn with rfl | hn
        · exact ⟨s, h1, h3, h4, h7⟩
        · obtain ⟨s', hs', h⟩ := hl1 n hn
          exact ⟨s', by omega, h⟩
      · intro k hk hocc
        by_cases hks : k < s
        · exact absurd hocc (h6 k hk hks)
        · by_cases hkn : next ≤ k
          · obtain ⟨s', n, hn, h⟩ := hl2 k hkn hocc
            exact ⟨s', n, List.mem_cons_of_mem _ hn, h⟩
          · exact ⟨s, name, List.mem_cons_self, h4, h3, by omega, by omega⟩

theorem identifiers_spec (e pre : Text) (hpre : pre ≠ []) :
    scan e pre (e.length + 2) 0 = some (identifiers e pre) ∧
    (∀ name ∈ identifiers e pre, ∃ s, OccursAt pre e s ∧ MaximalAt name e s ∧
      ∃ c, e[s]? = some c ∧ name = c :: (e.drop (s + 1)).takeWhile isIdent) ∧
    (∀ k, OccursAt pre e k →
      ∃ s name, name ∈ identifiers e pre ∧ MaximalAt name e s ∧ OccursAt pre e s ∧ s ≤ k ∧ k ≤ s + name.length) := by
  obtain ⟨l, hl, h1, h2⟩ := scan_spec e pre hpre (e.length + 2) 0 (by omega) (by omega)
  have : identifiers e pre = l := by unfold identifiers; rw [hl]; rfl
  rw [this]
  refine ⟨hl, ?_, fun k hk => h2 k (Nat.zero_le _) hk⟩
  intro n hn
  obtain ⟨s, _, h⟩ := h1 n hn
  exact ⟨s, h⟩

theorem mem_customTokens (e : Text) (s : Nat) (h : e[s]? = some '@') :
    '@' :: (e.drop (s + 1)).takeWhile isIdent ∈ customTokens e := by
  induction e generalizing s with
  | nil => simp at h
  | cons c t ih =>
    unfold customTokens
    cases s with
    | zero =>
      simp only [List.getElem?_cons_zero, Option.some.injEq] at h
      subst h
      simp
    | succ s =>
      rw [List.getElem?_cons_succ] at h
      rw [List.drop_succ_cons]
      split
      · exact List.mem_cons_of_mem _ (ih s h)
      · exact ih s h

theorem identifier_at_customToken (e name : Text) (h : name ∈ identifiers e ['@']) : name ∈ customTokens e := by
  obtain ⟨s, hocc, _, c, hc, rfl⟩ := (identifiers_spec e ['@'] (by simp)).2.1 name h
  have : c = '@' := by
    unfold OccursAt at hocc
    have hlt : s < e.length := (List.getElem?_eq_some_iff.1 hc).1
    rw [List.drop_eq_getElem_cons hlt, List.cons_prefix_cons] at hocc
    rw [List.getElem?_eq_getElem hlt, Option.some.injEq] at hc
    rw [← hc, ← hocc.1]
  subst this
  exact mem_customTokens e s hc

/-- Dropping a block of identifier characters. -/
theorem replaceGo_skip (old new w t : Text) : replaceGo old new w.length (w ++ t) = replaceGo old new 0 t := by
  induction w with
  | nil => rfl
  | cons c w ih => rw [List.length_cons, List.cons_append, replaceGo]; exact ih

theorem isIdent_at : isIdent '@' = false := by decide

theorem substCustom_skip (f : Text → Text) (w t : Text) (hw : ∀ c ∈ w, isIdent c = true) :
    substCustom f true (w ++ t) = substCustom f true t := by
  induction w with
  | nil => rfl
  | cons c w ih =>
    have hc := hw c List.mem_cons_self
    have hne : c ≠ '@' := by rintro rfl; rw [isIdent_at] at hc; cases hc
    rw [List.cons_append, substCustom, if_neg hne, hc]
    exact ih (fun x hx => hw x (List.mem_cons_of_mem _ hx))

theorem substCustom_flag (f : Text → Text) (t : Text) (h : ∀ c, t[0]? = some c → isIdent c = false) :
    substCustom f true t = substCustom f false t := by
  cases t with
  | nil => rfl
  | cons c t =>
    have := h c rfl
    rw [substCustom, substCustom, this]
    simp

theorem customTokens_skip (w t : Text) (hw : ∀ c ∈ w, isIdent c = true) :
    customTokens (w ++ t) = customTokens t := by
  induction w with
  | nil => rfl
  | cons c w ih =>
    have hc := hw c List.mem_cons_self
    have hne : c ≠ '@' := by rintro rfl; rw [isIdent_at] at hc; cases hc
    rw [List.cons_append, customTokens, if_neg hne]
    exact ih (fun x hx => hw x (List.mem_cons_of_mem _ hx))

/-- When all custom names of the text are `@w`, replacing `@w` textually is replacing the custom names. -/
theorem replace_eq_substCustom (w : Text) (f : Text → Text) :
    ∀ (len : Nat) (t : Text), t.length ≤ len → (∀ n ∈ customTokens t, n = '@' :: w) →
      replaceGo ('@' :: w) (f ('@' :: w)) 0 t = substCustom f false t := by
  intro len
  induction len with
  | zero =>
    intro t ht _
    have : t = [] := List.length_eq_zero_iff.1 (Nat.le_zero.1 ht)
    subst this
    rfl
  | succ len ih =>
    intro t ht hall
    cases t with
    | nil => rfl
    | cons c t =>
      simp only [List.length_cons] at ht
      by_cases hc : c = '@'
      · subst hc
        have htok : '@' :: t.takeWhile isIdent = '@' :: w :=
          hall _ (by unfold customTokens; simp)
        have hw : t.takeWhile isIdent = w := (List.cons.inj htok).2
        obtain ⟨t', ht'⟩ : ∃ t', t = w ++ t' := by
          have := List.takeWhile_prefix isIdent (l := t)
          rw [hw] at this
          obtain ⟨t', h⟩ := this
          exact ⟨t', h.symm⟩
        have hident : ∀ c ∈ w, isIdent c = true := by
          rw [← hw]
          exact List.all_eq_true.1 List.all_takeWhile
        have hnext : ∀ c, t'[0]? = some c → isIdent c = false := by
          intro c hc
          apply takeWhile_next isIdent t c
          rw [hw, ht', List.getElem?_append_right (Nat.le_refl _), Nat.sub_self]
          exact hc
        have hrest : ∀ n ∈ customTokens t', n = '@' :: w := by
          intro n hn
          apply hall
          rw [customTokens, if_pos rfl, ht', customTokens_skip w t' hident]
          exact List.mem_cons_of_mem _ hn
        have hpre : ('@' :: w).isPrefixOf ('@' :: t) = true := by
          rw [List.isPrefixOf_iff_prefix, List.cons_prefix_cons]
          exact ⟨rfl, by rw [ht']; exact List.prefix_append _ _⟩
        rw [replaceGo, if_pos hpre, substCustom, if_pos rfl, hw]
        congr 1
        have hlen : t'.length ≤ len := by
          rw [ht', List.length_append] at ht; omega
        rw [show ('@' :: w).length - 1 = w.length by simp, ht', replaceGo_skip, substCustom_skip f w t' hident,
          substCustom_flag f t' hnext]
        exact ih t' hlen hrest
      · have hpre : ¬ ('@' :: w).isPrefixOf (c :: t) = true := by
          rw [List.isPrefixOf_iff_prefix, List.cons_prefix_cons]
          rintro ⟨e, _⟩
          exact hc e.symm
        rw [replaceGo, if_neg hpre, substCustom, if_neg hc]
        simp only [Bool.false_and, Bool.false_eq_true, if_false]
        congr 1
        apply ih t (by omega)
        intro n hn
        apply hall
        rw [customTokens, if_neg hc]
        exact hn

end Patro.Calculator
