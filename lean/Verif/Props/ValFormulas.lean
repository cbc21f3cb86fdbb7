import Verif.Spec.ValFormulas
import Verif.Props.Vit
import Verif.Props.Formula
import Verif.Props.ValPlaces
import Verif.Props.Measurement
import Mathlib.Data.List.Nodup
/-!
# C226: a Valentina file with measurements is placed as its formulas denote
-/

namespace Patro.ValFormulas

open Patro.Text (Text)
open Measurement (Formula MSet)
open Vit (VSet VMeas KeyOf Custom VInv Call StoredName coded)
open Valentina (Class Element IsClass Sketch)
open ValPlaces (drawing implemented Complete toOps Says SaysWith)
open SketchGeometry (St Op evalSketch)

/-! ## The cache -/

section

variable {K : Type} {isAlnum : Char → Bool} {sympify : Text → Except PyErr (Formula K)} {rnd : K → K}

/-- What a reading of values keeps. -/
structure Kept (rnd : K → K) (s0 s : VSet K) : Prop where
  expressions : s.expressions = s0.expressions
  length : s.objects.length = s0.objects.length
  object : ∀ (i : Nat) (m0 : VMeas K), s0.objects[i]? = some m0 → ∃ m : VMeas K, s.objects[i]? = some m ∧ m.name = m0.name ∧ m.valentinaName = m0.valentinaName ∧
    m.core.expression = m0.core.expression ∧ (m.core.evaluated = none ∨ m.core.evaluated = some (s0.subs m0.core.expression)) ∧
    (m.core.value = none ∨ ∃ k, (s0.subs m0.core.expression).ground? = some k ∧ m.core.value = some (rnd k))

theorem subs_congr {s s' : VSet K} (h : s'.expressions = s.expressions) (f : Formula K) : s'.subs f = s.subs f := by
  unfold VSet.subs
  rw [h]

theorem kept_refl {s : VSet K} (h : VInv isAlnum s) : Kept rnd s s := by
  refine ⟨rfl, rfl, fun i m hm => ⟨m, hm, rfl, rfl, rfl, ?_, ?_⟩⟩
  · left
    rw [h.core m (List.mem_of_getElem? hm)]
    rfl
  · left
    rw [h.core m (List.mem_of_getElem? hm)]
    rfl

/-- One value. -/
theorem objectValue_spec {s0 s : VSet K} (h : Kept rnd s0 s) (i : Nat) (m0 : VMeas K) (hm : s0.objects[i]? = some m0) :
    ∃ s', Kept rnd s0 s' ∧ (∃ m, s'.objects[i]? = some m ∧ m.name = m0.name) ∧
      ((∃ k, (s0.subs m0.core.expression).ground? = some k ∧ objectValue rnd s i = (.ok (rnd k), s')) ∨
        ((s0.subs m0.core.expression).ground? = none ∧ objectValue rnd s i = (.error .typeError, s'))) := by
  obtain ⟨m, h1, h2, h3, h4, h5, h6⟩ := h.object i m0 hm
  have hlt : i < s.objects.length := (List.getElem?_eq_some_iff.1 h1).1
  unfold objectValue
  rw [h1]
  simp only
  rcases h6 with h6 | ⟨k, h6, h7⟩
  · have hev : m.core.evaluated.getD (s.subs m.core.expression) = s0.subs m0.core.expression := by
      rcases h5 with h5 | h5
      · rw [h5, h4, subs_congr h.expressions]
        rfl
      · rw [h5]
        rfl
    rw [h6]
    simp only [hev]
    have key : ∀ c : Measurement.Meas K, c.expression = m.core.expression → c.evaluated = some (s0.subs m0.core.expression) →
        (c.value = none ∨ ∃ k, (s0.subs m0.core.expression).ground? = some k ∧ c.value = some (rnd k)) →
        Kept rnd s0 { s with objects := s.objects.set i { m with core := c } } ∧
          ∃ m', (s.objects.set i { m with core := c })[i]? = some m' ∧ m'.name = m0.name := by
      intro c c1 c2 c3
      have hi : (s.objects.set i { m with core := c })[i]? = some { m with core := c } := by
        rw [List.getElem?_set_self hlt]
      refine ⟨⟨h.expressions, by simp [h.length], fun j m1 hj => ?_⟩, _, hi, h2⟩
      by_cases hij : j = i
      · subst hij
        rw [hm] at hj
        cases hj
        exact ⟨_, hi, h2, h3, c1.trans h4, .inr c2, c3⟩
      · obtain ⟨m', k1, k2⟩ := h.object j m1 hj
        refine ⟨m', ?_, k2⟩
        simp only
        rw [List.getElem?_set_ne (fun e => hij e.symm)]
        exact k1
    cases hg : (s0.subs m0.core.expression).ground? with
    | some k =>
      simp only
      obtain ⟨q1, q2⟩ := key { m.core with evaluated := some (s0.subs m0.core.expression), value := some (rnd k) } rfl rfl (.inr ⟨k, hg, rfl⟩)
      exact ⟨_, q1, q2, .inl ⟨k, rfl, rfl⟩⟩
    | none =>
      simp only
      obtain ⟨q1, q2⟩ := key { m.core with evaluated := some (s0.subs m0.core.expression), value := none } rfl rfl (.inl rfl)
      exact ⟨_, q1, q2, .inr ⟨trivial, rfl⟩⟩
  · rw [h7]
    exact ⟨s, h, ⟨m, h1, h2⟩, .inl ⟨k, h6, rfl⟩⟩

/-- The loop. -/
theorem loadCache_spec {s0 : VSet K} (is : List Nat) (his : ∀ i ∈ is, ∃ m, s0.objects[i]? = some m) (s : VSet K) (h : Kept rnd s0 s)
    (cache : Dict Text (Cached K)) :
    (∃ cache' s', loadCache rnd s cache is = (.ok cache', s') ∧ (∀ i ∈ is, ∀ m, s0.objects[i]? = some m → (s0.subs m.core.expression).ground? ≠ none) ∧
      ∀ n x, cache'.get? n = some x ↔
        (∃ i ∈ is, ∃ m k, s0.objects[i]? = some m ∧ m.name = n ∧ (s0.subs m.core.expression).ground? = some k ∧ x = .number (rnd k) ∧
          ∃ l r, is = l ++ i :: r ∧ ∀ j ∈ r, ∀ m', s0.objects[j]? = some m' → m'.name ≠ n) ∨
        ((∀ i ∈ is, ∀ m, s0.objects[i]? = some m → m.name ≠ n) ∧ cache.get? n = some x)) ∨
    (∃ s', loadCache rnd s cache is = (.error .typeError, s') ∧ ∃ i ∈ is, ∃ m, s0.objects[i]? = some m ∧ (s0.subs m.core.expression).ground? = none) := by
  induction is generalizing s cache with
  | nil =>
    refine .inl ⟨cache, s, rfl, by simp, fun n x => ?_⟩
    simp
  | cons i is ih =>
    obtain ⟨m0, hm0⟩ := his i List.mem_cons_self
    obtain ⟨s', k1, ⟨m, k2, k3⟩, k4⟩ := objectValue_spec h i m0 hm0
    rw [loadCache]
    rcases k4 with ⟨k, k4, k5⟩ | ⟨k4, k5⟩
    · rw [k5]
      simp only [k2]
      rcases ih (fun j hj => his j (List.mem_cons_of_mem _ hj)) s' k1 (cache.set m.name (.number (rnd k))) with
        ⟨cache', s'', q1, q2, q3⟩ | ⟨s'', q1, j, q2, q3⟩
      · refine .inl ⟨cache', s'', q1, fun j hj m' hm' => ?_, fun n x => ?_⟩
        · rcases List.mem_cons.1 hj with rfl | hj
          · rw [hm0] at hm'
            cases hm'
            rw [k4]
            simp
          · exact q2 j hj m' hm'
        · rw [q3]
          constructor
          · rintro (⟨j, r1, m', k', r2, r3, r4, r5, l, r, r6, r7⟩ | ⟨r1, r2⟩)
            · exact .inl ⟨j, List.mem_cons_of_mem _ r1, m', k', r2, r3, r4, r5, i :: l, r, by rw [r6]; rfl, r7⟩
            · rw [k3, Dict.get?_set] at r2
              split at r2
              · cases r2
                rename_i hn
                exact .inl ⟨i, List.mem_cons_self, m0, k, hm0, hn, k4, rfl, [], is, rfl, r1⟩
              · rename_i hn
                refine .inr ⟨fun j hj m' hm' => ?_, r2⟩
                rcases List.mem_cons.1 hj with rfl | hj
                · rw [hm0] at hm'
                  cases hm'
                  exact hn
                · exact r1 j hj m' hm'
          · rintro (⟨j, r1, m', k', r2, r3, r4, r5, l, r, r6, r7⟩ | ⟨r1, r2⟩)
            · cases l with
              | nil =>
                simp only [List.nil_append, List.cons.injEq] at r6
                obtain ⟨rfl, rfl⟩ := r6
                rw [hm0] at r2
                cases r2
                rw [k4] at r4
                cases r4
                refine .inr ⟨r7, ?_⟩
                rw [k3, r3, Dict.get?_set_self, r5]
              | cons a l =>
                simp only [List.cons_append, List.cons.injEq] at r6
                obtain ⟨rfl, rfl⟩ := r6
                exact .inl ⟨j, List.mem_append_right _ List.mem_cons_self, m', k', r2, r3, r4, r5, l, r, rfl, r7⟩
            · refine .inr ⟨fun j hj m' hm' => r1 j (List.mem_cons_of_mem _ hj) m' hm', ?_⟩
              rw [k3, Dict.get?_set_ne _ _ (r1 i List.mem_cons_self m0 hm0)]
              exact r2
      · exact .inr ⟨s'', q1, j, List.mem_cons_of_mem _ q2, q3⟩
    · rw [k5]
      exact .inr ⟨s', rfl, i, List.mem_cons_self, m0, hm0, k4⟩

/-- The objects of the loop. -/
theorem iter_objects {s : VSet K} (h : VInv isAlnum s) (i : Nat) : i ∈ s.iter ↔ ∃ m, s.objects[i]? = some m := by
  rw [← List.count_pos_iff, Vit.iter_count h]
  cases s.objects[i]? with
  | none => simp
  | some m => simp; split <;> omega

theorem name_inj {s : VSet K} (h : VInv isAlnum s) {m m' : VMeas K} (hm : m ∈ s.objects) (hm' : m' ∈ s.objects) (he : m.name = m'.name) : m = m' :=
  List.inj_on_of_nodup_map h.nodup hm hm' he

theorem cache_iff {s : VSet K} (h : VInv isAlnum s) :
    (∃ cache s', calculatorCache rnd s = (.ok cache, s') ∧ (∀ m ∈ s.objects, (s.subs m.core.expression).ground? ≠ none) ∧
      ∀ n x, cache.get? n = some x ↔ (∃ m ∈ s.objects, ∃ k, m.name = n ∧ (s.subs m.core.expression).ground? = some k ∧ x = .number (rnd k)) ∨
        ((∀ m ∈ s.objects, m.name ≠ n) ∧ n = "__calculator__".toList ∧ x = .calculator)) ∨
    (∃ s', calculatorCache rnd s = (.error .typeError, s') ∧ ∃ m ∈ s.objects, (s.subs m.core.expression).ground? = none) := by
  have hit : ∀ m ∈ s.objects, ∃ i ∈ s.iter, s.objects[i]? = some m := by
    intro m hm
    obtain ⟨i, hi⟩ := List.mem_iff_getElem?.1 hm
    exact ⟨i, (iter_objects h i).2 ⟨m, hi⟩, hi⟩
  rcases loadCache_spec (rnd := rnd) s.iter (fun i hi => (iter_objects h i).1 hi) s (kept_refl h) [("__calculator__".toList, .calculator)] with
    ⟨cache, s', h1, h2, h3⟩ | ⟨s', h1, i, h2, m, h3, h4⟩
  · refine .inl ⟨cache, s', h1, fun m hm => ?_, fun n x => ?_⟩
    · obtain ⟨i, hi, hi'⟩ := hit m hm
      exact h2 i hi m hi'
    · rw [h3]
      have hc : Dict.get? [("__calculator__".toList, Cached.calculator (K := K))] n = some x ↔ n = "__calculator__".toList ∧ x = .calculator := by
        simp only [Dict.get?]
        by_cases hn : "__calculator__".toList = n
        · rw [if_pos hn]
          constructor
          · intro e
            cases e
            exact ⟨hn.symm, rfl⟩
          · rintro ⟨-, rfl⟩
            rfl
        · rw [if_neg hn]
          constructor
          · intro e
            cases e
          · rintro ⟨e, -⟩
            exact absurd e.symm hn
      rw [hc]
      refine or_congr ?_ ?_
      · constructor
        · rintro ⟨i, -, m, k, r1, r2, r3, r4, -⟩
          exact ⟨m, List.mem_of_getElem? r1, k, r2, r3, r4⟩
        · rintro ⟨m, hm, k, r2, r3, r4⟩
          -- the last time the measurement is read
          obtain ⟨i, hi, hi'⟩ := hit m hm
          have : ∃ l r, s.iter = l ++ i :: r ∧ i ∉ r := by
            obtain ⟨a, b, e⟩ := List.append_of_mem (List.mem_reverse.2 hi)
            obtain ⟨a, b, e, hn⟩ := List.eq_append_cons_of_mem (List.mem_reverse.2 hi)
            refine ⟨b.reverse, a.reverse, ?_, by simpa using hn⟩
            have := congrArg List.reverse e
            simpa using this
          obtain ⟨l, r, e, hn⟩ := this
          refine ⟨i, hi, m, k, hi', r2, r3, r4, l, r, e, fun j hj m' hm' hne => ?_⟩
          have hmm := name_inj h (List.mem_of_getElem? hm') hm (hne.trans r2.symm)
          subst hmm
          have hnd : s.objects.Nodup := List.Nodup.of_map _ h.nodup
          have hij : i = j := by
            obtain ⟨p1, p2⟩ := List.getElem?_eq_some_iff.1 hi'
            obtain ⟨q1, q2⟩ := List.getElem?_eq_some_iff.1 hm'
            exact (List.Nodup.getElem_inj_iff hnd).1 (p2.trans q2.symm)
          exact hn (hij ▸ hj)
      · refine and_congr_left fun _ => ?_
        constructor
        · intro hh m hm
          obtain ⟨i, hi, hi'⟩ := hit m hm
          exact hh i hi m hi'
        · intro hh i _ m hm
          exact hh m (List.mem_of_getElem? hm)
  · exact .inr ⟨s', h1, m, List.mem_of_getElem? h3, h4⟩

theorem get?_map {ms : List (VMeas K)} (n : Text) (c : Measurement.Meas K)
    (hg : Dict.get? (ms.map fun m => (m.name, m.core)) n = some c) : ∃ m ∈ ms, m.name = n ∧ m.core = c := by
  have := Dict.mem_of_get? hg
  obtain ⟨m, h1, h2⟩ := List.mem_map.1 this
  cases h2
  exact ⟨m, h1, rfl, rfl⟩

theorem ground_solution {s : VSet K} (h : VInv isAlnum s) {σ : Text → K} (hσ : SolvesAll σ s.objects) {m : VMeas K} (hm : m ∈ s.objects) {k : K}
    (hk : (s.subs m.core.expression).ground? = some k) : k = σ m.name := by
  rw [Vit.sub_eq h] at hk
  rw [hσ m hm]
  refine Measurement.subs_sound _ _ k hk σ fun n c _ hc => ?_
  obtain ⟨m', h1, rfl, rfl⟩ := get?_map n c hc
  exact hσ m' h1

variable (isAlnum sympify rnd) in
/-- C226. A calculator with a set of measurements has their values, rounded, under the names of the measurements, and nothing else but itself. -/
theorem calculator_values (calls : List Call) :
    let s := VSet.addAll isAlnum sympify {} calls
    ∀ cache s', calculatorCache rnd s = (.ok cache, s') → ∀ σ, SolvesAll σ s.objects →
      (∀ m ∈ s.objects, cache.get? m.name = some (.number (rnd (σ m.name)))) ∧
      ∀ n x, cache.get? n = some x → (∃ m ∈ s.objects, m.name = n) ∨ (n = "__calculator__".toList ∧ x = .calculator) := by
  intro s cache s' hc σ hσ
  have h := Vit.vinv_addAll (sympify := sympify) (Vit.vinv_new (K := K) isAlnum) calls
  rcases cache_iff (rnd := rnd) h with ⟨cache', s1, h1, h2, h3⟩ | ⟨s1, h1, -⟩
  · have : cache = cache' := by
      have e := hc.symm.trans h1
      injection e with e
      injection e
    subst this
    refine ⟨fun m hm => ?_, fun n x hx => ?_⟩
    · obtain ⟨k, hk⟩ := Option.ne_none_iff_exists'.1 (h2 m hm)
      rw [h3]
      exact .inl ⟨m, hm, k, rfl, hk, by rw [ground_solution h hσ hm hk]⟩
    · rcases (h3 n x).1 hx with ⟨m, hm, k, q1, -⟩ | ⟨-, q1, q2⟩
      · exact .inl ⟨m, hm, q1⟩
      · exact .inr ⟨q1, q2⟩
  · have e := hc.symm.trans h1
    injection e with e
    cases e

variable (isAlnum sympify rnd) in
/-- C226. When the calculator is made, there are such values, and they are the only ones. -/
theorem calculator_solution [Nonempty K] (calls : List Call) :
    let s := VSet.addAll isAlnum sympify {} calls
    ∀ cache s', calculatorCache rnd s = (.ok cache, s') →
      (∃ σ, SolvesAll σ s.objects) ∧ ∀ σ τ, SolvesAll σ s.objects → SolvesAll τ s.objects → ∀ m ∈ s.objects, σ m.name = τ m.name := by
  intro s cache s' hc
  have h := Vit.vinv_addAll (sympify := sympify) (Vit.vinv_new (K := K) isAlnum) calls
  rcases cache_iff (rnd := rnd) h with ⟨cache', s1, h1, h2, h3⟩ | ⟨s1, h1, -⟩
  · have hv : Measurement.MSet.Valid (s.objects.map fun m : VMeas K => (m.name, m.core)) := by
      have := h.nodup
      simpa [Measurement.MSet.Valid, Dict.keys, Function.comp_def] using this
    refine ⟨?_, fun σ τ hσ hτ m hm => ?_⟩
    · obtain ⟨σ, hσ⟩ := Measurement.solution_all (s.objects.map fun m : VMeas K => (m.name, m.core)) (Classical.arbitrary K) (by
        intro n c hg
        obtain ⟨m, hm, rfl, rfl⟩ := get?_map n c hg
        obtain ⟨k, hk⟩ := Option.ne_none_iff_exists'.1 (h2 m hm)
        rw [Vit.sub_eq h] at hk
        exact Measurement.needs_of_ground _ hv _ k hk)
      exact ⟨σ, fun m hm => hσ _ _ (Measurement.MSet.get?_of_mem _ hv _ _ (List.mem_map.2 ⟨m, hm, rfl⟩))⟩
    · obtain ⟨k, hk⟩ := Option.ne_none_iff_exists'.1 (h2 m hm)
      rw [← ground_solution h hσ hm hk, ← ground_solution h hτ hm hk]
  · have e := hc.symm.trans h1
    injection e with e
    cases e

variable (isAlnum sympify rnd) in
/-- C226. The making of the calculator raises nothing but `TypeError`, and this exactly if a name is left in the expression of a
measurement after the substitutions, so that its value raises it. -/
theorem calculator_error (calls : List Call) :
    let s := VSet.addAll isAlnum sympify {} calls
    ((∃ cache s', calculatorCache rnd s = (.ok cache, s')) ↔ ∀ m ∈ s.objects, ∃ k, (s.subs m.core.expression).ground? = some k) ∧
    ∀ e s', calculatorCache rnd s = (.error e, s') → e = .typeError := by
  intro s
  have h := Vit.vinv_addAll (sympify := sympify) (Vit.vinv_new (K := K) isAlnum) calls
  rcases cache_iff (rnd := rnd) h with ⟨cache', s1, h1, h2, h3⟩ | ⟨s1, h1, m, h2, h3⟩
  · refine ⟨⟨fun _ m hm => Option.ne_none_iff_exists'.1 (h2 m hm), fun _ => ⟨_, _, h1⟩⟩, fun e s' he => ?_⟩
    have e := he.symm.trans h1
    injection e with e
    cases e
  · refine ⟨⟨fun ⟨c, s', hc⟩ => ?_, fun hall => ?_⟩, fun e s' he => ?_⟩
    · have e := hc.symm.trans h1
      injection e with e
      cases e
    · obtain ⟨k, hk⟩ := hall m h2
      rw [h3] at hk
      cases hk
    · have e := he.symm.trans h1
      injection e with e
      injection e

variable (isAlnum sympify rnd) in
/-- C226 fails for a measurement called `__calculator__`: it takes the place of the calculator, which the functions of the formulas need. -/
theorem calculator_hidden_wrong (calls : List Call) :
    let s := VSet.addAll isAlnum sympify {} calls
    ∀ cache s', calculatorCache rnd s = (.ok cache, s') →
      (cache.get? "__calculator__".toList = some .calculator ↔ ∀ m ∈ s.objects, m.name ≠ "__calculator__".toList) := by
  intro s cache s' hc
  have h := Vit.vinv_addAll (sympify := sympify) (Vit.vinv_new (K := K) isAlnum) calls
  rcases cache_iff (rnd := rnd) h with ⟨cache', s1, h1, h2, h3⟩ | ⟨s1, h1, -⟩
  · have : cache = cache' := by
      have e := hc.symm.trans h1
      injection e with e
      injection e
    subst this
    rw [h3]
    constructor
    · rintro (⟨m, -, k, -, -, e⟩ | ⟨e, -⟩)
      · cases e
      · exact e
    · exact fun e => .inr ⟨e, rfl, rfl⟩
  · have e := hc.symm.trans h1
    injection e with e
    cases e

/-! ## Names -/

theorem pyName_iff {s : VSet K} (h : VInv isAlnum s) (x p : Text) : pyName s x = .ok p ↔ ∃ m ∈ s.objects, KeyOf m x ∧ m.name = p := by
  have hg := Vit.vinv_get h x
  unfold pyName VSet.get Dict.getItem
  cases hx : s.names.get? x with
  | none =>
    simp only
    constructor
    · intro e
      cases e
    · rintro ⟨m, hm, hk, -⟩
      obtain ⟨i, hi⟩ := List.mem_iff_getElem?.1 hm
      rw [(hg i).2 ⟨m, hi, hk⟩] at hx
      cases hx
  | some i =>
    obtain ⟨m, h1, h2⟩ := (hg i).1 hx
    simp only [h1]
    constructor
    · intro e
      cases e
      exact ⟨m, List.mem_of_getElem? h1, h2, rfl⟩
    · rintro ⟨m', hm', hk', rfl⟩
      obtain ⟨j, hj⟩ := List.mem_iff_getElem?.1 hm'
      have := (hg j).2 ⟨m', hj, hk'⟩
      rw [hx] at this
      cases this
      rw [h1] at hj
      cases hj
      rfl

theorem pyName_lookup {s : VSet K} (h : VInv isAlnum s) (x : Text) : pyName s x = .error .keyError ∨ ∃ p, pyName s x = .ok p := by
  have hg := Vit.vinv_get h x
  unfold pyName VSet.get Dict.getItem
  cases hx : s.names.get? x with
  | none => exact .inl rfl
  | some i =>
    obtain ⟨m, h1, h2⟩ := (hg i).1 hx
    simp only [h1]
    exact .inr ⟨_, rfl⟩

theorem coded_ident (n : Text) (h : ∀ c ∈ n, Calculator.isIdent c = true) :
    (coded ('@' :: n)).map (fun c => if c = ' ' then '_' else c) = 'C' :: '_' :: n := by
  have h1 : Calculator.isIdent '@' = false := by decide +kernel
  have h2 : Calculator.isIdent ' ' = false := by decide +kernel
  have : (coded n).map (fun c => if c = ' ' then '_' else c) = n := by
    unfold coded
    induction n with
    | nil => rfl
    | cons c n ih =>
      have hc : c ≠ '@' := by
        rintro rfl
        have := h '@' List.mem_cons_self
        rw [h1] at this
        cases this
      have hc' : c ≠ ' ' := by
        rintro rfl
        have := h ' ' List.mem_cons_self
        rw [h2] at this
        cases this
      rw [List.flatMap_cons, if_neg hc, List.map_append, ih fun x hx => h x (List.mem_cons_of_mem _ hx), List.map_cons, if_neg hc']
      rfl
  have e : coded ('@' :: n) = 'C' :: '_' :: coded n := rfl
  rw [e, List.map_cons, List.map_cons, this]
  rfl

theorem free_custom (n : Text) (h : Calculator.Free n) : Calculator.Free ('C' :: '_' :: n) := by
  intro k hk hi
  have h1 : ∀ k ∈ Calculator.keywords, k.head? ≠ some '_' ∧ k ≠ [] ∧ k.take 2 ≠ ['C', '_'] ∧ k ≠ ['C'] := by decide +kernel
  obtain ⟨a, b, c, d⟩ := h1 k hk
  rcases List.infix_cons_iff.1 hi with hi | hi
  · obtain ⟨t, ht⟩ := hi
    rcases k with _ | ⟨x, _ | ⟨y, k⟩⟩
    · exact b rfl
    · injection ht with ht
      exact d (by rw [ht])
    · injection ht with ht1 ht2
      injection ht2 with ht2
      exact c (by rw [ht1, ht2]; rfl)
  rcases List.infix_cons_iff.1 hi with hi | hi
  · obtain ⟨t, ht⟩ := hi
    rcases k with _ | ⟨x, k⟩
    · exact b rfl
    · injection ht with ht
      exact a (by rw [ht]; rfl)
  · exact h k hk hi

theorem names_of {s : VSet K} (h : VInv isAlnum s) : Formulas.Names (pyName s) := by
  refine ⟨pyName_lookup h, fun n p hn hf hp => ?_⟩
  obtain ⟨m, hm, hk, rfl⟩ := (pyName_iff h _ _).1 hp
  have hst := h.stored m hm
  have hv : m.valentinaName = '@' :: n := by
    rcases hk with hk | ⟨-, hk⟩
    · exact absurd (hk ▸ List.mem_cons_self) (Vit.stored_noAt hst)
    · exact hk.symm
  have hname : m.name = 'C' :: '_' :: n := by
    rw [hst.1, hv]
    exact coded_ident n hn
  rw [hname]
  have h1 : ∀ k ∈ Formulas.Formula.pythonWords, k.take 2 ≠ ['C', '_'] := by decide +kernel
  refine ⟨by simp, fun c hc => ?_, fun c hc => ?_, fun hc => h1 _ hc rfl, fun hc => ?_, free_custom n hf⟩
  · rcases List.mem_cons.1 hc with rfl | hc
    · decide +kernel
    · rcases List.mem_cons.1 hc with rfl | hc
      · decide +kernel
      · exact hn c hc
  · simp only [List.head?_cons, Option.some.injEq] at hc
    subst hc
    decide +kernel
  · exact absurd (congrArg List.head? hc) (by simp)

theorem keyOf_unique {s : VSet K} (h : VInv isAlnum s) {x : Text} {m m' : VMeas K} (hm : m ∈ s.objects) (hm' : m' ∈ s.objects) (hk : KeyOf m x)
    (hk' : KeyOf m' x) : m = m' := by
  obtain ⟨i, hi⟩ := List.mem_iff_getElem?.1 hm
  obtain ⟨j, hj⟩ := List.mem_iff_getElem?.1 hm'
  have := ((Vit.vinv_get h x i).2 ⟨m, hi, hk⟩).symm.trans ((Vit.vinv_get h x j).2 ⟨m', hj, hk'⟩)
  cases this
  rw [hi] at hj
  cases hj
  rfl

theorem valueOf_eq {s : VSet K} (h : VInv isAlnum s) {σ : Text → K} {x : Text} {m : VMeas K} (hm : m ∈ s.objects) (hk : KeyOf m x) :
    valueOf rnd σ s.objects x = some (rnd (σ m.name)) := by
  classical
  unfold valueOf
  cases hf : s.objects.find? fun m : VMeas K => decide (KeyOf m x) with
  | none =>
    have := List.find?_eq_none.1 hf m hm
    simp [hk] at this
  | some m' =>
    have h1 := List.find?_some hf
    have h2 := List.mem_of_find?_eq_some hf
    rw [keyOf_unique h h2 hm (of_decide_eq_true h1) hk]
    rfl

theorem valueOf_none {ms : List (VMeas K)} {σ : Text → K} {x : Text} (h : ∀ m ∈ ms, ¬ KeyOf m x) : valueOf rnd σ ms x = none := by
  classical
  unfold valueOf
  rw [List.find?_eq_none.2 fun m hm => by simp [h m hm]]
  rfl

end

/-- The measurements that a formula can use have the values of the solution. -/
theorem measured_eq {isAlnum : Char → Bool} {rnd : ℝ → ℝ} {s : VSet ℝ} (h : VInv isAlnum s) {σ : Text → ℝ} (hσ : SolvesAll σ s.objects)
    {cache : Dict Text (Cached ℝ)} {s' : VSet ℝ} (hc : calculatorCache rnd s = (.ok cache, s')) :
    Formulas.measured (pyName s) (numbers cache) = valueOf rnd σ s.objects := by
  rcases cache_iff (rnd := rnd) h with ⟨cache', s1, h1, h2, h3⟩ | ⟨s1, h1, -⟩
  swap
  · have e := hc.symm.trans h1
    injection e with e
    cases e
  have : cache = cache' := by
    have e := hc.symm.trans h1
    injection e with e
    injection e
  subst this
  have hval : ∀ m ∈ s.objects, numbers cache m.name = some (rnd (σ m.name)) := by
    intro m hm
    obtain ⟨k, hk⟩ := Option.ne_none_iff_exists'.1 (h2 m hm)
    unfold numbers
    rw [(h3 m.name (.number (rnd k))).2 (.inl ⟨m, hm, k, rfl, hk, rfl⟩), ground_solution h hσ hm hk]
  funext x
  unfold Formulas.measured
  split
  · rename_i hx
    rcases pyName_lookup h x with hp | ⟨p, hp⟩
    · rw [hp, valueOf_none]
      intro m hm hk
      rw [(pyName_iff h x m.name).2 ⟨m, hm, hk, rfl⟩] at hp
      cases hp
    · obtain ⟨m, hm, hk, rfl⟩ := (pyName_iff h x p).1 hp
      rw [hp, valueOf_eq h hm hk]
      exact hval m hm
  · rename_i hx
    have hkey : ∀ m : VMeas ℝ, KeyOf m x ↔ m.name = x := by
      intro m
      constructor
      · rintro (e | ⟨⟨t, ht⟩, e⟩)
        · exact e.symm
        · rw [e, ht] at hx
          exact absurd rfl hx
      · exact fun e => .inl e.symm
    by_cases hex : ∃ m ∈ s.objects, m.name = x
    · obtain ⟨m, hm, rfl⟩ := hex
      rw [valueOf_eq h hm ((hkey m).2 rfl)]
      exact hval m hm
    · have hno : ∀ m ∈ s.objects, m.name ≠ x := fun m hm e => hex ⟨m, hm, e⟩
      rw [valueOf_none fun m hm hk => hno m hm ((hkey m).1 hk)]
      unfold numbers
      cases hg : cache.get? x with
      | none => rfl
      | some y =>
        rcases (h3 x y).1 hg with ⟨m, hm, k, e, -⟩ | ⟨-, -, rfl⟩
        · exact absurd e (hno m hm)
        · rfl

/-! ## The places -/

theorem saysWith_mono {val val' : Option (Vec ℝ) → String → ℝ → Prop} {d : ValPlaces.Drawing} {e : Element} {c : Class}
    (h : ∀ attr ∈ formulas c, ∀ cur v, val cur attr v → val' cur attr v) (hs : SaysWith val d e c) : SaysWith val' d e c := by
  cases c with
  | single =>
    obtain ⟨x, y, h1, h2, h3⟩ := hs
    exact ⟨x, y, h _ (by decide) _ _ h1, h _ (by decide) _ _ h2, h3⟩
  | alongLine =>
    obtain ⟨a, b, l, p, h1, h2, h3, h4⟩ := hs
    exact ⟨a, b, l, p, h1, h2, h _ (by decide) _ _ h3, h4⟩
  | endLine =>
    obtain ⟨a, angle, l, h1, h2, h3, h4⟩ := hs
    exact ⟨a, angle, l, h1, h _ (by decide) _ _ h2, h _ (by decide) _ _ h3, h4⟩
  | lineIntersect => exact hs
  | normal =>
    obtain ⟨a, b, angle, l, p, h1, h2, h3, h4, h5⟩ := hs
    exact ⟨a, b, angle, l, p, h1, h2, h _ (by decide) _ _ h3, h _ (by decide) _ _ h4, h5⟩
  | pointOfContact =>
    obtain ⟨a, b, c, r, h1, h2, h3, h4, h5⟩ := hs
    exact ⟨a, b, c, r, h1, h2, h3, h _ (by decide) _ _ h4, h5⟩
  | pointOfIntersection => exact hs
  | line => exact hs
  | spline =>
    obtain ⟨a, b, a1, l1, a2, l2, h1, h2, h3, h4, h5, h6, h7⟩ := hs
    exact ⟨a, b, a1, l1, a2, l2, h1, h2, h _ (by decide) _ _ h3, h _ (by decide) _ _ h4, h _ (by decide) _ _ h5, h _ (by decide) _ _ h6, h7⟩

theorem expression_value {builtin : Text → Bool} {isAlnum : Char → Bool} {rnd : ℝ → ℝ} {s : VSet ℝ} (h : VInv isAlnum s) {σ : Text → ℝ}
    (hσ : SolvesAll σ s.objects) {cache : Dict Text (Cached ℝ)} {s' : VSet ℝ} (hc : calculatorCache rnd s = (.ok cache, s'))
    (f : Formulas.Formula) (hf : f.Readable) (env : SketchGeometry.Env) (ha : f.Apart env) (v : ℝ)
    (hv : expression builtin s cache f.source env = .ok v) : f.Means (valueOf rnd σ s.objects) env v := by
  rw [← measured_eq h hσ hc]
  refine Formulas.Formula.formula_value_only_partial builtin _ (names_of h) f hf ha v ?_
  unfold expression at hv
  rcases hg : cache.get? "__calculator__".toList with _ | _ | _
  · rw [hg] at hv
    cases hv
  · rw [hg] at hv
    simp only at hv
    unfold Formulas.compile at hv
    split at hv
    · rename_i hx
      cases hv
      exact hx
    all_goals cases hv
  · rw [hg] at hv
    cases hv

/-- C226, what holds: the formula of a sketch has the value it denotes with the values of the measurements, unless the calculator is hidden. -/
theorem formula_measurements_partial (builtin isAlnum : _) (sympify : Text → Except PyErr (Formula ℝ)) (rnd : ℝ → ℝ)
    (calls : List Call) (cache : Dict Text (Cached ℝ)) (s' : VSet ℝ)
    (hcache : calculatorCache rnd (VSet.addAll isAlnum sympify {} calls) = (.ok cache, s'))
    (σ : Text → ℝ) (hσ : SolvesAll σ (VSet.addAll isAlnum sympify {} calls).objects)
    (hno : ∀ m ∈ (VSet.addAll isAlnum sympify {} calls).objects, m.name ≠ "__calculator__".toList)
    (f : Formulas.Formula) (hf : f.Readable) (env : SketchGeometry.Env) (ha : f.Apart env) (v : ℝ) :
    expression builtin (VSet.addAll isAlnum sympify {} calls) cache f.source env = .ok v ↔
      f.Means (valueOf rnd σ (VSet.addAll isAlnum sympify {} calls).objects) env v := by
  have h := Vit.vinv_addAll (sympify := sympify) (Vit.vinv_new (K := ℝ) isAlnum) calls
  refine ⟨expression_value h hσ hcache f hf env ha v, fun hm => ?_⟩
  rw [← measured_eq h hσ hcache] at hm
  unfold expression Formulas.compile
  rw [(calculator_hidden_wrong isAlnum sympify rnd calls cache s' hcache).2 hno]
  simp only
  rw [Formulas.Formula.formula_value_partial builtin _ (names_of h) f hf v hm]

/-- C226. A file is read, its formulas being those of a calculator with a set of measurements. When its sketch is evaluated without exception, every
point is where its element says, and every spline has the control points its element says, the formulas having the values they denote. -/
theorem file_places_formulas_partial {F : Type} {env : Valentina.Env F} (builtin isAlnum : _) (sympify : Text → Except PyErr (Formula ℝ)) (rnd : ℝ → ℝ)
    (calls : List Call) (cache : Dict Text (Cached ℝ)) (s' : VSet ℝ)
    (hcache : calculatorCache rnd (VSet.addAll isAlnum sympify {} calls) = (.ok cache, s'))
    (σ : Text → ℝ) (hσ : SolvesAll σ (VSet.addAll isAlnum sympify {} calls).objects)
    (hp : ∀ t err, env.parse t = .error err → err = .valueError) (counter : Int)
    (es : List Element) (s : Sketch F) (h : Sketch.read env { counter := counter } es = (s, .ok ())) (hc : ∀ e ∈ es, Complete e)
    (ops : List Op) (hops : toOps (expression builtin (VSet.addAll isAlnum sympify {} calls) cache) s.ops = some ops)
    (st : St) (hst : evalSketch St.empty ops = .ok st)
    (before after : List Element) (e : Element) (c : Class) (hb : implemented es = before ++ e :: after) (he : IsClass e c)
    (hf : ReadableFormulas (drawing s.ops st) before e c) :
    SaysFormulas (valueOf rnd σ (VSet.addAll isAlnum sympify {} calls).objects) (drawing s.ops st) before e c := by
  refine saysWith_mono (fun attr hattr cur v hv => ?_)
    (ValPlaces.file_places (expression builtin (VSet.addAll isAlnum sympify {} calls) cache) hp counter es s h hc ops hops st hst before after e c hb he)
  obtain ⟨t, h1, h2⟩ := hv
  obtain ⟨f, rfl, h3, h4⟩ := hf attr hattr t h1
  exact ⟨f, h1, h3, expression_value (Vit.vinv_addAll (Vit.vinv_new isAlnum) calls) hσ hcache f h3 _ (h4 cur) v h2⟩

/-! ## A file -/

/-- Two measurements, of which the second is a custom one. -/
noncomputable def exSympify (t : Text) : Except PyErr (Formula ℝ) := if t = "10".toList then .ok (.num 10) else .ok (.var t)

def exCalls : List Call := [⟨"hip".toList, some "10".toList, [], []⟩, ⟨"@ease".toList, some "hip".toList, [], []⟩]

noncomputable def exSet : VSet ℝ := VSet.addAll Char.isAlphanum exSympify {} exCalls

theorem exObjects : exSet.objects = [⟨"hip".toList, "hip".toList, [], [], Measurement.Meas.new (.formula (.num 10))⟩,
    ⟨"@ease".toList, "C_ease".toList, [], [], Measurement.Meas.new (.formula (.var "hip".toList))⟩] := by
  rfl

noncomputable def exCache : Dict Text (Cached ℝ) := [("__calculator__".toList, .calculator), ("hip".toList, .number 10), ("C_ease".toList, .number 10)]

theorem exLoaded : ∃ s', calculatorCache id exSet = (.ok exCache, s') := ⟨_, rfl⟩

/-- Both measurements are 10. -/
theorem exSolves : SolvesAll (fun _ => 10) exSet.objects := by
  intro m hm
  rw [exObjects] at hm
  simp only [List.mem_cons, List.not_mem_nil, or_false] at hm
  rcases hm with rfl | rfl <;> rfl

/-- `hip+@ease*2`. -/
def exLength : Formulas.Formula := .add (.measurement "hip".toList) (.mul (.custom "ease".toList) (.number "2".toList none))

theorem digit_readable (c : Char) (hc : c ∈ "012".toList) : (Formulas.Formula.number [c] none).Readable where
  wellFormed := by
    refine ⟨by simp, fun x hx => ?_, fun h => ?_⟩
    · rw [List.mem_singleton] at hx
      subst hx
      revert hc x
      decide
    · simp only [List.head?_cons, Option.some.injEq] at h
      rw [h]
  noClash := Formulas.Formula.noClash_of _ (by revert c; decide +kernel)
  oneCurrent := Formulas.Formula.oneCurrent_of _ (by revert c; decide +kernel)
  oneCustom := by
    intro m n hm
    simp [Formulas.Formula.parts] at hm
  noBlank := by
    intro h
    simp only [Formulas.Formula.source, List.head?_cons, Option.some.injEq] at h
    revert c
    decide

theorem exLength_readable : exLength.Readable where
  wellFormed := by
    refine ⟨?_, ⟨⟨by decide +kernel, ?_⟩, ⟨by decide, ?_, by decide⟩, by decide, by decide⟩, by decide⟩
    · exact Formulas.Formula.isName_of (by decide) (by decide +kernel) (by decide +kernel) (by decide +kernel) (by decide +kernel)
        (by decide +kernel)
    · exact (by decide +kernel : ∀ k ∈ Calculator.keywords, ¬ k <:+: "ease".toList)
    · exact (by decide +kernel : ∀ c ∈ "2".toList, c ∈ "0123456789".toList)
  noClash := Formulas.Formula.noClash_of _ (by decide +kernel)
  oneCurrent := Formulas.Formula.oneCurrent_of _ (by decide +kernel)
  oneCustom := by
    intro m n hm hn
    simp only [exLength, Formulas.Formula.parts, List.mem_cons, List.mem_append, List.not_mem_nil, or_false, reduceCtorEq, false_or,
      Formulas.Formula.custom.injEq] at hm hn
    rw [hm, hn]
  noBlank := by decide +kernel

/-- The hypotheses of `formula_measurements_partial` are met: `hip+@ease*2` is 30. -/
theorem exLength_value (env : SketchGeometry.Env) (cache : Dict Text (Cached ℝ)) (s' : VSet ℝ) (hc : calculatorCache id exSet = (.ok cache, s')) :
    expression (fun _ => false) exSet cache "hip+@ease*2".toList env = .ok 30 := by
  refine (formula_measurements_partial (fun _ => false) Char.isAlphanum exSympify id exCalls cache s' hc (fun _ => 10) exSolves ?_ exLength
    exLength_readable env ⟨trivial, trivial, trivial⟩ 30).2 ?_
  · intro m hm
    change m ∈ exSet.objects at hm
    rw [exObjects] at hm
    simp only [List.mem_cons, List.not_mem_nil, or_false] at hm
    rcases hm with rfl | rfl <;> decide
  · have hv := Vit.vinv_addAll (sympify := exSympify) (Vit.vinv_new (K := ℝ) Char.isAlphanum) exCalls
    have m1 : (⟨"hip".toList, "hip".toList, [], [], Measurement.Meas.new (.formula (.num 10))⟩ : VMeas ℝ) ∈ exSet.objects := by
      rw [exObjects]; exact List.mem_cons_self
    have m2 : (⟨"@ease".toList, "C_ease".toList, [], [], Measurement.Meas.new (.formula (.var "hip".toList))⟩ : VMeas ℝ) ∈ exSet.objects := by
      rw [exObjects]; exact List.mem_cons_of_mem _ List.mem_cons_self
    refine ⟨10, 20, ?_, ⟨10, 2, ?_, ?_, by norm_num⟩, by norm_num⟩
    · exact valueOf_eq hv m1 (.inl rfl)
    · exact valueOf_eq hv m2 (.inr ⟨⟨_, rfl⟩, rfl⟩)
    · change (2 : ℝ) = (Formulas.Formula.digitsValue "2".toList : ℕ)
      rw [show Formulas.Formula.digitsValue "2".toList = 2 by decide +kernel]
      norm_num

/-- A point `A` and a point `B` at the distance `hip+@ease*2` of it. -/
def exElements : List Element :=
  [⟨some "point", [("id", "4".toList), ("type", "single".toList), ("name", "A".toList), ("x", "1".toList), ("y", "2".toList),
      ("mx", "0".toList), ("my", "0".toList)]⟩,
   ⟨some "point", [("id", "6".toList), ("type", "endLine".toList), ("name", "B".toList), ("basePoint", "4".toList),
      ("angle", "0".toList), ("length", "hip+@ease*2".toList), ("lineColor", "black".toList), ("typeLine", "hair".toList),
      ("mx", "0".toList), ("my", "0".toList)]⟩]

theorem exRead : Sketch.read Valentina.toyEnv { counter := 0 } exElements =
    ((Sketch.read Valentina.toyEnv { counter := 0 } exElements).1, .ok ()) ∧
    (Sketch.read Valentina.toyEnv { counter := 0 } exElements).1.ops = [
      ⟨.single, 4, [("name", some (.text "A".toList)), ("x", some (.expr "1".toList)), ("y", some (.expr "2".toList))], some (0, 0)⟩,
      ⟨.endLine, 6, [("name", some (.text "B".toList)), ("base_point", some (.op 4)), ("angle", some (.expr "0".toList)),
        ("length", some (.expr "hip+@ease*2".toList)), ("line_style", some (.stroke .solidLine)),
        ("line_color", some (.color Valentina.toyEnv.black))], some (0, 0)⟩] := by
  refine ⟨Prod.ext rfl ?_, ?_⟩ <;> decide +kernel

theorem exComplete : ∀ e ∈ exElements, Complete e := by
  have key : ∀ e ∈ exElements, ∀ c, Valentina.dispatch e = .ok c →
      (e.attrib.get? "id").isSome ∧ (c.isPoint = true → (e.attrib.get? "name").isSome) ∧ ∀ a ∈ ValPlaces.placing c, (e.attrib.get? a).isSome := by
    intro e he c
    simp only [exElements, List.mem_cons, List.not_mem_nil, or_false] at he
    rcases he with rfl | rfl <;> cases c <;> decide +kernel
  intro e he c hc
  exact key e he c ((Valentina.dispatch_ok _ _).2 hc)

/-- The hypotheses of `file_places_formulas_partial` are met: the calculator is made, the file is read, its sketch is evaluated, its formulas are
readable, and the point `B` is at (31, 2). -/
theorem exPlaces : ∃ cache s' s ops st, calculatorCache id exSet = (.ok cache, s') ∧ SolvesAll (fun _ => 10) exSet.objects ∧
    Sketch.read Valentina.toyEnv { counter := 0 } exElements = (s, .ok ()) ∧ (∀ e ∈ exElements, Complete e) ∧
    toOps (expression (fun _ => false) exSet cache) s.ops = some ops ∧ evalSketch St.empty ops = .ok st ∧
    (drawing s.ops st).point 6 = some ⟨31, 2⟩ ∧
    ∀ e ∈ exElements, ∀ c before, IsClass e c → ReadableFormulas (drawing s.ops st) before e c := by
  obtain ⟨s', hs'⟩ := exLoaded
  obtain ⟨h1, h2⟩ := exRead
  have digit : ∀ c ∈ "012".toList, ∀ env, expression (fun _ => false) exSet exCache [c] env = .ok (Formulas.Formula.digitsValue [c] : ℕ) := by
    intro c hc env
    refine (formula_measurements_partial (fun _ => false) Char.isAlphanum exSympify id exCalls _ s' hs' (fun _ => 10) exSolves ?_
      (.number [c] none) (digit_readable c hc) env trivial _).2 rfl
    intro m hm
    change m ∈ exSet.objects at hm
    rw [exObjects] at hm
    simp only [List.mem_cons, List.not_mem_nil, or_false] at hm
    rcases hm with rfl | rfl <;> decide
  refine ⟨exCache, s', (Sketch.read Valentina.toyEnv { counter := 0 } exElements).1, [.single "A" (expression (fun _ => false) exSet exCache "1".toList) (expression (fun _ => false) exSet exCache "2".toList),
    .endLine "B" 0 (expression (fun _ => false) exSet exCache "0".toList) (expression (fun _ => false) exSet exCache "hip+@ease*2".toList)], ?_⟩
  have c0 : expression (fun _ => false) exSet exCache "0".toList = fun _ => .ok 0 := by
    funext e
    rw [show "0".toList = ['0'] from rfl, digit '0' (by decide), show Formulas.Formula.digitsValue ['0'] = 0 by decide +kernel]
    norm_num
  have c1 : expression (fun _ => false) exSet exCache "1".toList = fun _ => .ok 1 := by
    funext e
    rw [show "1".toList = ['1'] from rfl, digit '1' (by decide), show Formulas.Formula.digitsValue ['1'] = 1 by decide +kernel]
    norm_num
  have c2 : expression (fun _ => false) exSet exCache "2".toList = fun _ => .ok 2 := by
    funext e
    rw [show "2".toList = ['2'] from rfl, digit '2' (by decide), show Formulas.Formula.digitsValue ['2'] = 2 by decide +kernel]
    norm_num
  have c3 : expression (fun _ => false) exSet exCache "hip+@ease*2".toList = fun _ => .ok 30 := by
    funext e
    exact exLength_value e _ s' hs'
  rw [c0, c1, c2, c3]
  have hev : ∃ st, evalSketch St.empty [.single "A" (fun _ => .ok 1) (fun _ => .ok 2), .endLine "B" 0 (fun _ => .ok 0) (fun _ => .ok 30)] = .ok st ∧
      st.vec 1 = some ⟨31, 2⟩ := by
    simp [evalSketch, SketchGeometry.evalFrom, SketchGeometry.evalOp, Op.name, SketchGeometry.evalInternal, St.getValue, St.addPoint,
      St.setVec, St.getVec, St.empty, bind, Except.bind, pure, Except.pure, Vec.fromAngle, Vec.smul]
    norm_num [Vec.ext_iff, Vec.radians]
  obtain ⟨st, e1, e2⟩ := hev
  refine ⟨st, hs', exSolves, h1, exComplete, ?_, e1, ?_, ?_⟩
  · rw [h2, ← c0, ← c1, ← c2, ← c3]
    rfl
  · rw [h2]
    simp only [drawing, ValPlaces.number]
    exact e2
  · intro e he c before hcl attr hattr t ht
    have key : ∀ e ∈ exElements, ∀ c, Valentina.dispatch e = .ok c → ∀ attr ∈ formulas c, ∀ t, e.attrib.get? attr = some t →
        (∃ x ∈ "012".toList, t = [x]) ∨ t = "hip+@ease*2".toList := by
      intro e he c hd attr ha t ht
      have : ∀ e ∈ exElements, ∀ c, Valentina.dispatch e = .ok c → ∀ attr ∈ formulas c,
          (e.attrib.get? attr) ∈ [none, some "0".toList, some "1".toList, some "2".toList, some "hip+@ease*2".toList] := by
        intro e he c
        simp only [exElements, List.mem_cons, List.not_mem_nil, or_false] at he
        rcases he with rfl | rfl <;> cases c <;> decide +kernel
      have := this e he c hd attr ha
      rw [ht] at this
      simp only [List.mem_cons, List.not_mem_nil, or_false, reduceCtorEq, false_or, Option.some.injEq] at this
      rcases this with rfl | rfl | rfl | rfl
      · exact .inl ⟨'0', by decide, rfl⟩
      · exact .inl ⟨'1', by decide, rfl⟩
      · exact .inl ⟨'2', by decide, rfl⟩
      · exact .inr rfl
    rcases key e he c ((Valentina.dispatch_ok _ _).2 hcl) attr hattr t ht with ⟨x, hx, rfl⟩ | rfl
    · exact ⟨.number [x] none, rfl, digit_readable x hx, fun _ => trivial⟩
    · exact ⟨exLength, by decide +kernel, exLength_readable, fun _ => ⟨trivial, trivial, trivial⟩⟩

end Patro.ValFormulas
