import Verif.Spec.Measurement
import Mathlib.Data.List.Lex
import Mathlib.Data.List.Nodup
import Mathlib.Tactic.Common
/-! # Lemmas on measurements -/

namespace Patro.Measurement

open Patro
open Patro.Text (Text replace replaceGo)

variable {K : Type _}

theorem replace_space (t : Text) : replace [' '] ['_'] t = t.map fun c => if c = ' ' then '_' else c := by
  unfold replace
  induction t with
  | nil => rfl
  | cons c t ih =>
    rw [replaceGo, List.map_cons]
    by_cases hc : c = ' '
    · subst hc
      rw [if_pos (by simp [List.isPrefixOf]), if_pos rfl]
      simp only [List.length_singleton, Nat.sub_self, List.singleton_append]
      rw [ih]
    · have : ¬ [' '].isPrefixOf (c :: t) = true := by
        simp only [List.isPrefixOf, Bool.and_true, beq_iff_eq]
        exact fun h => hc h.symm
      rw [if_neg this, if_neg hc, ih]

theorem insertName_perm (n : Text) (l : List Text) : (insertName n l).Perm (n :: l) := by
  induction l with
  | nil => exact List.Perm.refl _
  | cons m l ih =>
    rw [insertName]
    split
    · exact List.Perm.refl _
    · exact (List.Perm.cons m ih).trans (List.Perm.swap n m l)

theorem sortNames_perm (l : List Text) : (sortNames l).Perm l := by
  induction l with
  | nil => exact List.Perm.refl _
  | cons n l ih =>
    rw [sortNames]
    exact (insertName_perm n _).trans (List.Perm.cons n ih)

theorem insertName_sorted (n : Text) (l : List Text) (h : l.Pairwise (· ≤ ·)) :
    (insertName n l).Pairwise (· ≤ ·) := by
  induction l with
  | nil => exact List.pairwise_singleton _ _
  | cons m l ih =>
    rw [List.pairwise_cons] at h
    rw [insertName]
    split
    · rename_i hle
      rw [List.pairwise_cons]
      refine ⟨?_, List.pairwise_cons.2 h⟩
      intro x hx
      rcases List.mem_cons.1 hx with rfl | hx
      · exact hle
      · exact List.le_trans hle (h.1 x hx)
    · rename_i hle
      rw [List.pairwise_cons]
      refine ⟨?_, ih h.2⟩
      intro x hx
      have hx' := (insertName_perm n l).mem_iff.1 hx
      rcases List.mem_cons.1 hx' with rfl | hx'
      · exact (List.le_total m x).resolve_right hle
      · exact h.1 x hx'

theorem sortNames_sorted (l : List Text) : (sortNames l).Pairwise (· ≤ ·) := by
  induction l with
  | nil => exact List.Pairwise.nil
  | cons n l ih => rw [sortNames]; exact insertName_sorted n _ ih

theorem sortNames_strict (l : List Text) (h : l.Nodup) : (sortNames l).Pairwise (· < ·) := by
  have hn : (sortNames l).Nodup := (sortNames_perm l).nodup_iff.2 h
  have := (sortNames_sorted l).and hn
  refine this.imp ?_
  rintro a b ⟨h1, h2⟩
  by_contra hlt
  exact h2 (List.le_antisymm h1 (List.not_lt.1 hlt))

/-- Keys of a set that was built by `add` have no duplicates. -/
def MSet.Valid (s : MSet K) : Prop := s.keys.Nodup

theorem MSet.get?_of_mem (s : MSet K) (h : s.Valid) (n : Text) (m : Meas K) (hm : (n, m) ∈ s) :
    s.get? n = some m := by
  induction s with
  | nil => cases hm
  | cons c s ih =>
    obtain ⟨k, v⟩ := c
    unfold MSet.Valid Dict.keys at h
    simp only [List.map_cons, List.nodup_cons] at h
    rcases List.mem_cons.1 hm with e | hm
    · cases e; simp [Dict.get?]
    · have : k ≠ n := by
        rintro rfl
        exact h.1 (List.mem_map_of_mem (f := Prod.fst) hm)
      simp only [Dict.get?, this, if_false]
      exact ih h.2 hm

theorem MSet.add_cases (isAlnum : Char → Bool) (s : MSet K) (name : Text) (v : Arg K) :
    (validateName isAlnum name = .error .valueError ∧ s.add isAlnum name v = .error .valueError) ∨
    ∃ n, validateName isAlnum name = .ok n ∧
      ((n ∈ s.keys ∧ s.add isAlnum name v = .error .nameError) ∨
       (n ∉ s.keys ∧ s.add isAlnum name v = .ok (s ++ [(n, Meas.new v)]))) := by
  cases hv : validateName isAlnum name with
  | error e =>
    left
    have : e = .valueError := by
      unfold validateName at hv
      simp only at hv
      split at hv
      · cases hv
      · injection hv with h; exact h.symm
    subst this
    refine ⟨rfl, ?_⟩
    unfold MSet.add; rw [hv]; rfl
  | ok n =>
    right
    refine ⟨n, rfl, ?_⟩
    by_cases hk : n ∈ s.keys
    · left
      refine ⟨hk, ?_⟩
      have : s.contains n = true := (Dict.get?_isSome_iff s n).2 hk
      unfold MSet.add; rw [hv]; simp [bind, Except.bind, this]
    · right
      refine ⟨hk, ?_⟩
      have : s.contains n = false := by
        unfold Dict.contains
        rw [(Dict.get?_eq_none_iff s n).2 hk]; rfl
      unfold MSet.add; rw [hv]
      simp only [bind, Except.bind, this, Bool.false_eq_true, if_false]
      rw [Dict.set_of_not_mem _ hk]; rfl

theorem MSet.add_valid (isAlnum : Char → Bool) (s s' : MSet K) (name : Text) (v : Arg K) (h : s.Valid)
    (ha : s.add isAlnum name v = .ok s') : s'.Valid := by
  rcases MSet.add_cases isAlnum s name v with ⟨_, he⟩ | ⟨n, _, ⟨_, he⟩ | ⟨hk, he⟩⟩
  · rw [he] at ha; cases ha
  · rw [he] at ha; cases ha
  · rw [he] at ha
    cases ha
    unfold MSet.Valid Dict.keys at h ⊢
    rw [List.map_append, List.nodup_append]
    refine ⟨h, by simp, ?_⟩
    intro a ha b hb
    simp only [List.map_cons, List.map_nil, List.mem_singleton] at hb
    subst hb
    rintro rfl
    exact hk ha

theorem MSet.addAll_valid (isAlnum : Char → Bool) (l : List (Text × Arg K)) (s : MSet K) (h : s.Valid) :
    (s.addAll isAlnum l).Valid := by
  induction l generalizing s with
  | nil => exact h
  | cons c l ih =>
    obtain ⟨n, v⟩ := c
    rw [MSet.addAll]
    split
    · rename_i s' hs
      exact ih s' (MSet.add_valid isAlnum s s' n v h hs)
    · exact ih s h

theorem subst_eval (σ : Text → K) (n : Text) (d f : Formula K) (h : σ n = d.eval σ) :
    (f.subst n d).eval σ = f.eval σ := by
  induction f with
  | num k => rfl
  | var m =>
    rw [Formula.subst]
    split
    · rename_i e; subst e; rw [← h]; rfl
    · rfl
  | bin op a b iha ihb => simp only [Formula.subst, Formula.eval, iha, ihb]

theorem subst_names (n : Text) (d f : Formula K) (r : Text) (h : r ∈ (f.subst n d).names) :
    (r ∈ f.names ∧ r ≠ n) ∨ (n ∈ f.names ∧ r ∈ d.names) := by
  induction f with
  | num k => simp [Formula.subst, Formula.names] at h
  | var m =>
    rw [Formula.subst] at h
    split at h
    · rename_i e; subst e
      right; exact ⟨by simp [Formula.names], h⟩
    · rename_i e
      left
      simp only [Formula.names, List.mem_singleton] at h ⊢
      exact ⟨h, by rw [h]; exact e⟩
  | bin op a b iha ihb =>
    simp only [Formula.subst, Formula.names, List.mem_append] at h ⊢
    rcases h with h | h
    · rcases iha h with ⟨h1, h2⟩ | ⟨h1, h2⟩
      · exact Or.inl ⟨Or.inl h1, h2⟩
      · exact Or.inr ⟨Or.inl h1, h2⟩
    · rcases ihb h with ⟨h1, h2⟩ | ⟨h1, h2⟩
      · exact Or.inl ⟨Or.inr h1, h2⟩
      · exact Or.inr ⟨Or.inr h1, h2⟩

theorem ground_of_no_names (f : Formula K) (h : f.names = []) : ∃ k, f.ground? = some k := by
  induction f with
  | num k => exact ⟨k, rfl⟩
  | var n => simp [Formula.names] at h
  | bin op a b iha ihb =>
    simp only [Formula.names, List.append_eq_nil_iff] at h
    obtain ⟨x, hx⟩ := iha h.1
    obtain ⟨y, hy⟩ := ihb h.2
    exact ⟨op x y, by simp [Formula.ground?, hx, hy]⟩

theorem ground_eval (f : Formula K) (k : K) (h : f.ground? = some k) (σ : Text → K) : f.eval σ = k := by
  induction f generalizing k with
  | num x => simpa [Formula.ground?, Formula.eval] using h
  | var n => simp [Formula.ground?] at h
  | bin op a b iha ihb =>
    rw [Formula.ground?] at h
    split at h
    · rename_i x y hx hy
      simp only [Option.some.injEq] at h
      rw [Formula.eval, iha x hx, ihb y hy, h]
    · cases h

theorem sortedIter_mem (s : MSet K) (n : Text) (m : Meas K) (h : (n, m) ∈ s.sortedIter) : s.get? n = some m := by
  unfold MSet.sortedIter at h
  rw [List.mem_filterMap] at h
  obtain ⟨n', _, h⟩ := h
  cases hg : s.get? n' with
  | none => rw [hg] at h; cases h
  | some m' =>
    rw [hg] at h
    simp only [Option.map_some, Option.some.injEq, Prod.mk.injEq] at h
    obtain ⟨rfl, rfl⟩ := h
    exact hg

theorem sortedIter_names (s : MSet K) : s.sortedIter.map Prod.fst = sortNames s.keys := by
  unfold MSet.sortedIter
  have : ∀ l : List Text, (∀ n ∈ l, n ∈ s.keys) →
      (l.filterMap fun n => (s.get? n).map fun m => (n, m)).map Prod.fst = l := by
    intro l
    induction l with
    | nil => intro _; rfl
    | cons n l ih =>
      intro h
      have hn := (Dict.get?_isSome_iff s n).2 (h n List.mem_cons_self)
      obtain ⟨m, hm⟩ := Option.isSome_iff_exists.1 hn
      rw [List.filterMap_cons, hm]
      simp only [Option.map_some, List.map_cons]
      rw [ih (fun x hx => h x (List.mem_cons_of_mem _ hx))]
  exact this _ (fun n hn => (sortNames_perm s.keys).mem_iff.1 hn)

/-- One pass preserves the value under every solution. -/
theorem foldl_subst_eval (σ : Text → K) (l : List (Text × Meas K)) (f : Formula K)
    (h : ∀ nm ∈ l, σ nm.1 = nm.2.expression.eval σ) :
    (l.foldl (fun e nm => e.subst nm.1 nm.2.expression) f).eval σ = f.eval σ := by
  induction l generalizing f with
  | nil => rfl
  | cons c l ih =>
    rw [List.foldl_cons, ih _ (fun nm hm => h nm (List.mem_cons_of_mem _ hm)),
      subst_eval σ _ _ _ (h c List.mem_cons_self)]

/-- When every needed measurement only refers to later names, one pass removes all names. -/
theorem foldl_subst_names (s : MSet K) (f : Formula K)
    (hfwd : ∀ n m, Needs s f n → s.get? n = some m → ∀ r ∈ m.expression.names, n < r)
    (hdef : ∀ n, Needs s f n → n ∈ s.keys)
    (l : List (Text × Meas K)) (hl : ∀ nm ∈ l, s.get? nm.1 = some nm.2)
    (hsorted : (l.map Prod.fst).Pairwise (· < ·)) (g : Formula K)
    (hg : ∀ n ∈ g.names, Needs s f n ∧ n ∈ l.map Prod.fst)
    (hup : ∀ nm ∈ l, ∀ r ∈ s.keys, nm.1 < r → r ∈ l.map Prod.fst) :
    (l.foldl (fun e nm => e.subst nm.1 nm.2.expression) g).names = [] := by
  induction l generalizing g with
  | nil =>
    rw [List.foldl_nil, List.eq_nil_iff_forall_not_mem]
    intro n hn
    have := (hg n hn).2
    simp at this
  | cons c l ih =>
    obtain ⟨n, m⟩ := c
    rw [List.map_cons, List.pairwise_cons] at hsorted
    rw [List.foldl_cons]
    apply ih (fun nm h => hl nm (List.mem_cons_of_mem _ h)) hsorted.2
    · intro r hr
      rcases subst_names n m.expression g r hr with ⟨h1, h2⟩ | ⟨h1, h2⟩
      · obtain ⟨ha, hb⟩ := hg r h1
        refine ⟨ha, ?_⟩
        simp only [List.map_cons, List.mem_cons] at hb
        exact hb.resolve_left h2
      · obtain ⟨ha, _⟩ := hg n h1
        have hm : s.get? n = some m := hl (n, m) List.mem_cons_self
        have hneed : Needs s f r := Needs.through ha hm h2
        refine ⟨hneed, ?_⟩
        have hlt := hfwd n m ha hm r h2
        have := hup (n, m) List.mem_cons_self r (hdef r hneed) hlt
        simp only [List.map_cons, List.mem_cons] at this
        rcases this with e | h
        · subst e; exact absurd hlt (List.lt_irrefl _)
        · exact h
    · intro nm hnm r hr hlt
      have := hup nm (List.mem_cons_of_mem _ hnm) r hr hlt
      simp only [List.map_cons, List.mem_cons] at this
      rcases this with e | h
      · subst e
        have h1 := hsorted.1 nm.1 (List.mem_map_of_mem hnm)
        exact absurd (List.lt_trans hlt h1) (List.lt_irrefl _)
      · exact h

theorem names_of_ground (f : Formula K) (k : K) (h : f.ground? = some k) : f.names = [] := by
  induction f generalizing k with
  | num x => rfl
  | var n => simp [Formula.ground?] at h
  | bin op a b iha ihb =>
    rw [Formula.ground?] at h
    split at h
    · rename_i x y hx hy
      rw [Formula.names, iha x hx, ihb y hy, List.append_nil]
    · cases h

theorem subst_names_iff (n : Text) (d f : Formula K) (r : Text) :
    r ∈ (f.subst n d).names ↔ (r ∈ f.names ∧ r ≠ n) ∨ (n ∈ f.names ∧ r ∈ d.names) := by
  refine ⟨subst_names n d f r, fun h => ?_⟩
  induction f with
  | num k => simp [Formula.names] at h
  | var m =>
    simp only [Formula.names, List.mem_singleton] at h
    rcases h with ⟨rfl, h⟩ | ⟨rfl, h⟩
    · rw [Formula.subst, if_neg h]; simp [Formula.names]
    · rw [Formula.subst, if_pos rfl]; exact h
  | bin op a b iha ihb =>
    simp only [Formula.subst, Formula.names, List.mem_append] at h ⊢
    rcases h with ⟨h1 | h1, h2⟩ | ⟨h1 | h1, h2⟩
    · exact .inl (iha (.inl ⟨h1, h2⟩))
    · exact .inr (ihb (.inl ⟨h1, h2⟩))
    · exact .inl (iha (.inr ⟨h1, h2⟩))
    · exact .inr (ihb (.inr ⟨h1, h2⟩))

/-- A name which is not substituted stays. -/
theorem foldl_subst_keep (l : List (Text × Meas K)) (g : Formula K) (n : Text) (hn : n ∈ g.names) (hl : n ∉ l.map Prod.fst) :
    n ∈ (l.foldl (fun e nm => e.subst nm.1 nm.2.expression) g).names := by
  induction l generalizing g with
  | nil => exact hn
  | cons c l ih =>
    simp only [List.map_cons, List.mem_cons, not_or] at hl
    exact ih _ ((subst_names_iff _ _ _ _).2 (.inl ⟨hn, hl.1⟩)) hl.2

theorem needs_subst {s : MSet K} {g : Formula K} {c : Text} {m : Meas K} (hc : s.get? c = some m) {n : Text} (h : Needs s g n) :
    Needs s (g.subst c m.expression) n ∨ (n = c ∧ ∀ r ∈ m.expression.names, Needs s (g.subst c m.expression) r) := by
  induction h with
  | @direct n hn =>
    by_cases he : n = c
    · subst he
      exact .inr ⟨rfl, fun r hr => .direct ((subst_names_iff _ _ _ _).2 (.inr ⟨hn, hr⟩))⟩
    · exact .inl (.direct ((subst_names_iff _ _ _ _).2 (.inl ⟨hn, he⟩)))
  | @through n r m' _ hg hr ih =>
    rcases ih with ih | ⟨rfl, ih⟩
    · exact .inl (.through ih hg hr)
    · rw [hc] at hg
      cases hg
      exact .inl (ih r hr)

/-- When one pass removes all names, every needed measurement is in the set and refers to later names only. -/
theorem needs_of_pass (s : MSet K) (l : List (Text × Meas K)) (hl : ∀ nm ∈ l, s.get? nm.1 = some nm.2)
    (hsorted : (l.map Prod.fst).Pairwise (· < ·)) (g : Formula K)
    (h : (l.foldl (fun e nm => e.subst nm.1 nm.2.expression) g).names = []) (n : Text) (hn : Needs s g n) :
    ∃ m, s.get? n = some m ∧ ∀ r ∈ m.expression.names, n < r := by
  induction l generalizing g n with
  | nil =>
    have h : g.names = [] := h
    exfalso
    induction hn with
    | direct hn => rw [h] at hn; cases hn
    | through _ _ _ ih => exact ih
  | cons c l ih =>
    obtain ⟨c, m⟩ := c
    rw [List.map_cons, List.pairwise_cons] at hsorted
    have hc : s.get? c = some m := hl (c, m) List.mem_cons_self
    have ih' := ih (fun nm hm => hl nm (List.mem_cons_of_mem _ hm)) hsorted.2 (g.subst c m.expression) h
    rcases needs_subst hc hn with h1 | ⟨rfl, -⟩
    · exact ih' n h1
    · by_cases hd : n ∈ g.names
      · refine ⟨m, hc, fun r hr => ?_⟩
        have hr' : r ∈ (g.subst n m.expression).names := (subst_names_iff _ _ _ _).2 (.inr ⟨hd, hr⟩)
        by_cases hrl : r ∈ l.map Prod.fst
        · exact hsorted.1 r hrl
        · have := foldl_subst_keep l _ r hr' hrl
          rw [List.foldl_cons] at h
          rw [h] at this
          cases this
      · -- the name is needed through another one
        have hs : Needs s (g.subst n m.expression) n := by
          cases hn with
          | direct h => exact absurd h hd
          | @through p _ mp hp hg hr =>
            rcases needs_subst hc hp with h1 | ⟨rfl, h1⟩
            · exact .through h1 hg hr
            · rw [hc] at hg
              cases hg
              exact h1 _ hr
        exact ih' n hs

theorem eval_congr (f : Formula K) (σ τ : Text → K) (h : ∀ n ∈ f.names, σ n = τ n) : f.eval σ = f.eval τ := by
  induction f with
  | num k => rfl
  | var n => exact h n (by simp [Formula.names])
  | bin op a b iha ihb =>
    rw [Formula.eval, Formula.eval, iha fun n hn => h n (List.mem_append.2 (.inl hn)), ihb fun n hn => h n (List.mem_append.2 (.inr hn))]

/-- Later names of a list are fewer and fewer. -/
theorem later_wf (l : List Text) : WellFounded fun r n : Text => n < r ∧ r ∈ l := by
  refine Subrelation.wf (r := InvImage (· < ·) fun n => (l.filter fun r => decide (n < r)).length) ?_ (InvImage.wf _ Nat.lt_wfRel.wf)
  intro r n ⟨h1, h2⟩
  change (l.filter fun x => decide (r < x)).length < (l.filter fun x => decide (n < x)).length
  have hsub : (l.filter fun x => decide (r < x)) = (l.filter fun x => decide (n < x)).filter fun x => decide (r < x) := by
    rw [List.filter_filter]
    refine List.filter_congr fun x _ => ?_
    by_cases hx : r < x
    · simp [hx, List.lt_trans h1 hx]
    · simp [hx]
  rw [hsub]
  refine List.length_filter_lt_length_iff_exists.2 ⟨r, List.mem_filter.2 ⟨h2, by simpa using h1⟩, ?_⟩
  simp [List.lt_irrefl]

/-- There are values for the measurements of a set of names that is closed. -/
theorem solution_of (s : MSet K) (P : Text → Prop) (k0 : K)
    (h : ∀ n, P n → ∃ m, s.get? n = some m ∧ ∀ r ∈ m.expression.names, n < r ∧ P r) :
    ∃ σ : Text → K, ∀ n m, P n → s.get? n = some m → σ n = m.expression.eval σ := by
  classical
  let F : (n : Text) → ((r : Text) → (n < r ∧ r ∈ s.keys) → K) → K := fun n rec =>
    match s.get? n with
    | none => k0
    | some m => m.expression.eval fun r => if hr : n < r ∧ r ∈ s.keys then rec r hr else k0
  refine ⟨(later_wf s.keys).fix F, fun n m hn hm => ?_⟩
  rw [(later_wf s.keys).fix_eq F n]
  change (match s.get? n with
    | none => k0
    | some m => m.expression.eval fun r => if n < r ∧ r ∈ s.keys then (later_wf s.keys).fix F r else k0) = _
  rw [hm]
  refine eval_congr _ _ _ fun r hr => ?_
  obtain ⟨m', h1, h2⟩ := h n hn
  rw [hm] at h1
  cases h1
  obtain ⟨m2, h3, -⟩ := h r (h2 r hr).2
  rw [if_pos ⟨(h2 r hr).1, (Dict.get?_isSome_iff s r).1 (by rw [h3]; rfl)⟩]

theorem solution_exists (s : MSet K) (f : Formula K) (k0 : K)
    (h : ∀ n, Needs s f n → ∃ m, s.get? n = some m ∧ ∀ r ∈ m.expression.names, n < r) : ∃ σ, SolvesFor σ s f := by
  obtain ⟨σ, hσ⟩ := solution_of s (Needs s f) k0 fun n hn => by
    obtain ⟨m, h1, h2⟩ := h n hn
    exact ⟨m, h1, fun r hr => ⟨h2 r hr, .through hn h1 hr⟩⟩
  exact ⟨σ, hσ⟩

/-- When all the measurements are computed, there are values for all of them. -/
theorem solution_all (s : MSet K) (k0 : K)
    (h : ∀ n m, s.get? n = some m → ∀ r, Needs s m.expression r → ∃ m', s.get? r = some m' ∧ ∀ q ∈ m'.expression.names, r < q) :
    ∃ σ, Solves σ s := by
  classical
  obtain ⟨σ, hσ⟩ := solution_of s (fun r => ∃ n m, s.get? n = some m ∧ Needs s m.expression r) k0 fun r ⟨n, m, hm, hn⟩ => by
    obtain ⟨m', h1, h2⟩ := h n m hm r hn
    exact ⟨m', h1, fun q hq => ⟨h2 q hq, n, m, hm, .through hn h1 hq⟩⟩
  refine ⟨fun n => match s.get? n with
    | none => σ n
    | some m => m.expression.eval σ, fun n m hm => ?_⟩
  simp only [hm]
  refine eval_congr _ _ _ fun r hr => ?_
  obtain ⟨m', h1, -⟩ := h n m hm r (.direct hr)
  simp only [h1]
  exact hσ r m' ⟨n, m, hm, .direct hr⟩ h1

theorem foldl_subst_needed (σ : Text → K) (s : MSet K) (l : List (Text × Meas K)) (hl : ∀ nm ∈ l, s.get? nm.1 = some nm.2) (f : Formula K)
    (h : SolvesFor σ s f) : (l.foldl (fun e nm => e.subst nm.1 nm.2.expression) f).eval σ = f.eval σ := by
  induction l generalizing f with
  | nil => rfl
  | cons c l ih =>
    have hc := hl c List.mem_cons_self
    have hsub : ∀ n, Needs s (f.subst c.1 c.2.expression) n → Needs s f n := by
      intro n hn
      induction hn with
      | direct hn =>
        rcases subst_names _ _ _ _ hn with ⟨h1, -⟩ | ⟨h1, h2⟩
        · exact .direct h1
        · exact .through (.direct h1) hc h2
      | through _ hg hr ih => exact .through ih hg hr
    rw [List.foldl_cons, ih (fun nm hm => hl nm (List.mem_cons_of_mem _ hm)) _ fun n m hn hm => h n m (hsub n hn) hm]
    by_cases hn : c.1 ∈ f.names
    · exact subst_eval σ _ _ _ (h _ _ (.direct hn) hc)
    · have : ∀ g : Formula K, c.1 ∉ g.names → g.subst c.1 c.2.expression = g := by
        intro g
        induction g with
        | num k => intro _; rfl
        | var m =>
          intro hm
          simp only [Formula.names, List.mem_singleton] at hm
          rw [Formula.subst, if_neg fun e => hm e.symm]
        | bin op a b iha ihb =>
          intro hm
          simp only [Formula.names, List.mem_append, not_or] at hm
          rw [Formula.subst, iha hm.1, ihb hm.2]
      rw [this f hn]

end Patro.Measurement
