import Verif.Proof.Counter
/-!
# C06-C08: the counter and the global ids
-/

set_option linter.unusedSectionVars false

namespace Patro.Counter

open Patro

variable {T : Type _} [DecidableEq T]

/-- C06. Thread `t` calls `increment(v)` for each `v` of `vs t`.  Whatever the interleaving, when every
thread has finished, the counter holds the initial value plus the sum of all the increments. -/
theorem increments_not_lost [Fintype T] (initial : Int) (vs : T → List Int) (s : Sys T)
    (h : Reachable initial (fun t => (vs t).map Call.inc) s)
    (hdone : ∀ t, s.pc t = .idle ∧ s.todo t = []) :
    s.value = initial + ∑ t, (vs t).sum := by
  have key : (∀ u, (s.pc u).incOnly ∧ ∀ c ∈ s.todo u, ∃ v, c = .inc v) ∧
      s.value + ∑ u, rest s u = initial + ∑ t, (vs t).sum := by
    clear hdone
    induction h with
    | init =>
      constructor
      · intro u
        refine ⟨trivial, ?_⟩
        intro c hc
        simp only [init, List.mem_map] at hc
        obtain ⟨v, _, rfl⟩ := hc
        exact ⟨v, rfl⟩
      · have : ∀ u, rest (init initial fun t => (vs t).map Call.inc) u = (vs u).sum := by
          intro u
          simp only [rest, init, Pc.pending, List.map_map, zero_add]
          congr 1
          exact List.map_id _
        simp only [this]
        rfl
    | step hr hs ih =>
      obtain ⟨h1, h2⟩ := ih
      obtain ⟨h3, h4⟩ := sum_step (inv hr) hs h1
      exact ⟨h3, h4.trans h2⟩
  have hz : ∀ u, rest s u = 0 := by
    intro u
    simp [rest, (hdone u).1, (hdone u).2, Pc.pending]
  have := key.2
  simp only [hz, Finset.sum_const_zero, add_zero] at this
  exact this

/-- C06. No interleaving deadlocks: as long as some thread has something to do, some thread can step. -/
theorem no_deadlock (initial : Int) (todo : T → List Call) (s : Sys T) (h : Reachable initial todo s)
    (t : T) (ht : s.pc t ≠ .idle ∨ s.todo t ≠ []) : ∃ u s', Step s u s' := by
  have hinv := inv h
  have progress : ∀ u, (s.pc u).critical → ∃ s', Step s u s' := by
    intro u hu
    cases hp : s.pc u with
    | reading k c =>
      cases c with
      | inc v => exact ⟨_, Step.readInc s u k v hp⟩
      | set v =>
        by_cases hv : v ≤ s.value
        · exact ⟨_, Step.readSetBad s u k v hp hv⟩
        · exact ⟨_, Step.readSetOk s u k v hp hv⟩
    | writing k c w => exact ⟨_, Step.write s u k c w hp⟩
    | releasing k c b =>
      cases c with
      | inc v => exact ⟨_, Step.releaseInc s u k v b hp⟩
      | set v =>
        cases b with
        | false => exact ⟨_, Step.releaseSet s u k v hp⟩
        | true => exact ⟨_, Step.releaseRaise s u k v hp⟩
    | idle => rw [hp] at hu; exact hu.elim
    | acquiring k c => rw [hp] at hu; exact hu.elim
    | returning k => rw [hp] at hu; exact hu.elim
  cases hp : s.pc t with
  | idle =>
    rcases ht with ht | ht
    · exact absurd hp ht
    · cases htd : s.todo t with
      | nil => exact absurd htd ht
      | cons c cs => exact ⟨t, _, Step.start s t c cs hp htd⟩
  | acquiring k c =>
    cases hl : s.lock with
    | none => exact ⟨t, _, Step.acquire s t k c hp hl⟩
    | some u => exact ⟨u, progress u (hinv.held u hl)⟩
  | returning k => exact ⟨t, _, Step.ret s t k hp⟩
  | reading k c => exact ⟨t, progress t (by rw [hp]; trivial)⟩
  | writing k c w => exact ⟨t, progress t (by rw [hp]; trivial)⟩
  | releasing k c b => exact ⟨t, progress t (by rw [hp]; trivial)⟩

/-- C07 is false: two threads each calling `increment()` once on a counter at 0 can both get the value 2,
because `return self._value` reads the counter after the lock was released. -/
theorem increment_returns_duplicate :
    ∃ s : Sys Bool, Reachable 0 (fun _ => [Call.inc 1]) s ∧ (∀ t, s.pc t = .idle ∧ s.todo t = []) ∧
      s.log = [.start 0 (.inc 1), .start 1 (.inc 1), .ret 0 2, .ret 1 2] := by
  -- thread `false` runs up to the release, then thread `true`, then both return
  have h0 : Reachable 0 (fun _ => [Call.inc 1]) (init (T := Bool) 0 (fun _ => [Call.inc 1])) :=
    Reachable.init
  have h1 := Reachable.step h0 (Step.start _ false (.inc 1) [] rfl rfl)
  have h2 := Reachable.step h1 (Step.start _ true (.inc 1) [] rfl rfl)
  have h3 := Reachable.step h2 (Step.acquire _ false 0 (.inc 1) rfl rfl)
  have h4 := Reachable.step h3 (Step.readInc _ false 0 1 rfl)
  have h5 := Reachable.step h4 (Step.write _ false 0 (.inc 1) 1 rfl)
  have h6 := Reachable.step h5 (Step.releaseInc _ false 0 1 false rfl)
  have h7 := Reachable.step h6 (Step.acquire _ true 1 (.inc 1) rfl rfl)
  have h8 := Reachable.step h7 (Step.readInc _ true 1 1 rfl)
  have h9 := Reachable.step h8 (Step.write _ true 1 (.inc 1) 2 rfl)
  have h10 := Reachable.step h9 (Step.releaseInc _ true 1 1 false rfl)
  have h11 := Reachable.step h10 (Step.ret _ false 0 rfl)
  have h12 := Reachable.step h11 (Step.ret _ true 1 rfl)
  refine ⟨_, h12, ?_, rfl⟩
  intro t
  cases t <;> exact ⟨rfl, rfl⟩

/-- The threads of the list have incremented the counter, one after the other, and have not yet read what they return. -/
theorem all_waiting (initial v : Int) (l : List T) (hl : l.Nodup) :
    ∃ s : Sys T, Reachable initial (fun _ => [Call.inc v]) s ∧ s.value = initial + l.length * v ∧ s.lock = none ∧ s.fresh = l.length ∧
      (∀ k r, Event.ret k r ∉ s.log) ∧
      (∀ t, t ∈ l → s.todo t = [] ∧ ∃ k, s.pc t = .returning k ∧ k < l.length) ∧
      (∀ t u k, t ∈ l → u ∈ l → s.pc t = .returning k → s.pc u = .returning k → t = u) ∧
      (∀ t, t ∉ l → s.pc t = .idle ∧ s.todo t = [.inc v]) := by
  induction l with
  | nil => exact ⟨_, Reachable.init, by simp [init], rfl, rfl, by simp [init], by simp, by simp, fun t _ => ⟨rfl, rfl⟩⟩
  | cons a l ih =>
    obtain ⟨ha, hl⟩ := List.nodup_cons.1 hl
    obtain ⟨s, h, hv, hk, hf, hr, hw, hd, hi⟩ := ih hl
    obtain ⟨i1, i2⟩ := hi a ha
    have h1 := Reachable.step h (Step.start s a (.inc v) [] i1 i2)
    have h2 := Reachable.step h1 (Step.acquire _ a s.fresh (.inc v) (by simp [upd]) hk)
    have h3 := Reachable.step h2 (Step.readInc _ a s.fresh v (by simp [upd]))
    have h4 := Reachable.step h3 (Step.write _ a s.fresh (.inc v) (s.value + v) (by simp [upd]))
    have h5 := Reachable.step h4 (Step.releaseInc _ a s.fresh v false (by simp [upd]))
    refine ⟨_, h5, ?_, rfl, ?_, ?_, ?_, ?_, ?_⟩
    · simp only [hv, List.length_cons]; push_cast; ring
    · simp [hf]
    · intro k r hkr
      simp only [List.mem_append, List.mem_singleton, reduceCtorEq, or_false] at hkr
      exact hr k r hkr
    · intro t ht
      by_cases e : t = a
      · subst e
        exact ⟨by simp [upd], s.fresh, by simp [upd], by simp [hf]⟩
      · obtain ⟨w1, k, w2, w3⟩ := hw t ((List.mem_cons.1 ht).resolve_left e)
        exact ⟨by simp [upd, e, w1], k, by simp [upd, e, w2], by simp only [List.length_cons]; omega⟩
    · intro t u k ht hu pt pu
      by_cases et : t = a <;> by_cases eu : u = a
      · rw [et, eu]
      · obtain ⟨_, k', w2, w3⟩ := hw u ((List.mem_cons.1 hu).resolve_left eu)
        simp [upd, et] at pt
        simp [upd, eu, w2] at pu
        omega
      · obtain ⟨_, k', w2, w3⟩ := hw t ((List.mem_cons.1 ht).resolve_left et)
        simp [upd, eu] at pu
        simp [upd, et, w2] at pt
        omega
      · exact hd t u k ((List.mem_cons.1 ht).resolve_left et) ((List.mem_cons.1 hu).resolve_left eu) (by simpa [upd, et] using pt)
          (by simpa [upd, eu] using pu)
    · intro t ht
      have e : t ≠ a := fun e => ht (by simp [e])
      obtain ⟨w1, w2⟩ := hi t fun h => ht (by simp [h])
      exact ⟨by simp [upd, e, w1], by simp [upd, e, w2]⟩

/-- C07 is false for any number of threads and any increment: when each thread calls `increment(v)` once, there is a schedule in which all the calls
return the same value. -/
theorem increment_returns_same_wrong [Fintype T] (initial v : Int) :
    ∃ s : Sys T, Reachable initial (fun _ => [Call.inc v]) s ∧ (∀ t, s.pc t = .idle ∧ s.todo t = []) ∧
      (s.log.filterMap fun e => match e with | .ret _ r => some r | _ => none) = List.replicate (Fintype.card T) (initial + Fintype.card T * v) := by
  obtain ⟨s, h, hv, -, -, hr, hw, -, -⟩ := all_waiting initial v (Finset.univ : Finset T).toList (Finset.nodup_toList _)
  have hc : (Finset.univ : Finset T).toList.length = Fintype.card T := by rw [Finset.length_toList]; rfl
  rw [hc] at hv
  have hall : ∀ t, s.todo t = [] ∧ ∃ k, s.pc t = .returning k := fun t => by
    obtain ⟨a, k, b, -⟩ := hw t (by simp)
    exact ⟨a, k, b⟩
  have h0 : (s.log.filterMap fun e => match e with | .ret _ r => some r | _ => none) = [] := by
    rw [List.filterMap_eq_nil_iff]
    intro e he
    cases e with
    | ret k r => exact absurd he (hr k r)
    | _ => rfl
  have key : ∀ l : List T, l.Nodup → ∃ s' : Sys T, Reachable initial (fun _ => [Call.inc v]) s' ∧ s'.value = s.value ∧
      (∀ t ∈ l, s'.pc t = .idle) ∧ (∀ t, t ∉ l → s'.pc t = s.pc t) ∧ s'.todo = s.todo ∧
      (s'.log.filterMap fun e => match e with | .ret _ r => some r | _ => none) = List.replicate l.length s.value := by
    intro l
    induction l with
    | nil => intro _; exact ⟨s, h, rfl, by simp, fun _ _ => rfl, rfl, by simp [h0]⟩
    | cons a l ih =>
      intro hl
      obtain ⟨ha, hl⟩ := List.nodup_cons.1 hl
      obtain ⟨s', g1, g2, g3, g4, g5, g6⟩ := ih hl
      obtain ⟨-, k, hk⟩ := hall a
      refine ⟨_, Reachable.step g1 (Step.ret s' a k ((g4 a ha).trans hk)), g2, ?_, ?_, g5, ?_⟩
      · intro t ht
        by_cases e : t = a
        · simp [upd, e]
        · simp only [upd, if_neg e]
          exact g3 t ((List.mem_cons.1 ht).resolve_left e)
      · intro t ht
        have e : t ≠ a := fun e => ht (by simp [e])
        simp only [upd, if_neg e]
        exact g4 t fun h => ht (by simp [h])
      · rw [List.filterMap_append, g6]
        simp [g2, List.replicate_succ']
  obtain ⟨s', g1, g2, g3, g4, g5, g6⟩ := key (Finset.univ : Finset T).toList (Finset.nodup_toList _)
  refine ⟨s', g1, fun t => ⟨g3 t (by simp), by rw [g5]; exact (hall t).1⟩, ?_⟩
  rw [g6, hc, hv]

/-- C07, what holds: for positive increments, a call that starts after another one has returned returns a
strictly greater value, whatever the other threads do meanwhile (other calls may be `set`). Missing for
C07: calls that overlap in time, for which `increment_returns_duplicate` is a counterexample. -/
theorem increment_returns_increasing_partial (initial : Int) (todo : T → List Call)
    (hpos : ∀ t v, Call.inc v ∈ todo t → 0 < v) (s : Sys T) (h : Reachable initial todo s)
    (k1 k2 : Nat) (r1 r2 : Int) (c2 : Call)
    (hbefore : [Event.ret k1 r1, Event.start k2 c2].Sublist s.log) (hret : Event.ret k2 r2 ∈ s.log) :
    r1 < r2 := by
  refine (logInv ?_ h).good k1 r1 k2 c2 r2 hbefore hret
  intro t c hc
  cases c with
  | inc v => exact hpos t v hc
  | set v => trivial

/-- C247, what holds: whatever the interleaving of increments and explicit ids, two explicit ids accepted by the counter are
different. Missing for C247: the automatic ids, for which `explicit_automatic_same_wrong` and `increment_returns_same_wrong` are
counterexamples. -/
theorem explicit_ids_distinct_partial (initial : Int) (todo : T → List Call)
    (hpos : ∀ t, ∀ v, Call.inc v ∈ todo t → 0 < v) (s : Sys T) (h : Reachable initial todo s) (k₁ k₂ : Nat) (v : Int)
    (s₁ : .start k₁ (.set v) ∈ s.log) (s₂ : .start k₂ (.set v) ∈ s.log) (d₁ : .done k₁ ∈ s.log) (d₂ : .done k₂ ∈ s.log) : k₁ = k₂ := by
  refine (setInv ?_ h).unique k₁ k₂ v (Or.inl ⟨d₁, s₁⟩) (Or.inl ⟨d₂, s₂⟩)
  intro t c hc
  cases c with
  | inc v => exact hpos t v hc
  | set v => trivial

/-- C247 is false: for every explicit id `v` that leaves room for one automatic id, a thread that asks for an automatic id while
another thread gives the id `v` can get `v` too, and both objects are created with the same id. -/
theorem explicit_automatic_same_wrong (initial v : Int) (hv : initial + 1 < v) :
    ∃ s : Sys Bool, Reachable initial (fun t => if t then [.set v] else [.inc 1]) s ∧ (∀ t, s.pc t = .idle ∧ s.todo t = []) ∧
      s.log = [.start 0 (.inc 1), .start 1 (.set v), .done 1, .ret 0 v] := by
  have h0 : Reachable initial (fun t : Bool => if t then [Call.set v] else [.inc 1]) _ := Reachable.init
  have h1 := Reachable.step h0 (Step.start _ false (.inc 1) [] rfl rfl)
  have h2 := Reachable.step h1 (Step.acquire _ false 0 (.inc 1) rfl rfl)
  have h3 := Reachable.step h2 (Step.readInc _ false 0 1 rfl)
  have h4 := Reachable.step h3 (Step.write _ false 0 (.inc 1) (initial + 1) rfl)
  have h5 := Reachable.step h4 (Step.releaseInc _ false 0 1 false rfl)
  have h6 := Reachable.step h5 (Step.start _ true (.set v) [] rfl rfl)
  have h7 := Reachable.step h6 (Step.acquire _ true 1 (.set v) rfl rfl)
  have h8 := Reachable.step h7 (Step.readSetOk _ true 1 v rfl (by simpa using hv))
  have h9 := Reachable.step h8 (Step.write _ true 1 (.set v) v rfl)
  have h10 := Reachable.step h9 (Step.releaseSet _ true 1 v rfl)
  have h11 := Reachable.step h10 (Step.ret _ false 0 rfl)
  refine ⟨_, h11, ?_, rfl⟩
  intro t
  cases t <;> exact ⟨rfl, rfl⟩

/-- The hypotheses of `explicit_ids_distinct_partial` are met: two threads that give the ids 5 and 7, one after the other. -/
example : ∃ s : Sys Bool, Reachable (-1) (fun t => if t then [.set 7] else [.set 5]) s ∧
    s.log = [.start 0 (.set 5), .done 0, .start 1 (.set 7), .done 1] := by
  have h0 : Reachable (-1) (fun t : Bool => if t then [Call.set 7] else [.set 5]) _ := Reachable.init
  have h1 := Reachable.step h0 (Step.start _ false (.set 5) [] rfl rfl)
  have h2 := Reachable.step h1 (Step.acquire _ false 0 (.set 5) rfl rfl)
  have h3 := Reachable.step h2 (Step.readSetOk _ false 0 5 rfl (by decide))
  have h4 := Reachable.step h3 (Step.write _ false 0 (.set 5) 5 rfl)
  have h5 := Reachable.step h4 (Step.releaseSet _ false 0 5 rfl)
  have h6 := Reachable.step h5 (Step.start _ true (.set 7) [] rfl rfl)
  have h7 := Reachable.step h6 (Step.acquire _ true 1 (.set 7) rfl rfl)
  have h8 := Reachable.step h7 (Step.readSetOk _ true 1 7 rfl (by decide))
  have h9 := Reachable.step h8 (Step.write _ true 1 (.set 7) 7 rfl)
  have h10 := Reachable.step h9 (Step.releaseSet _ true 1 7 rfl)
  exact ⟨_, h10, rfl⟩

/-- The ids of the successfully created objects. -/
def ids (rs : List (Except PyErr Int)) : List Int :=
  rs.filterMap fun r => match r with | .ok i => some i | .error _ => none

theorem mem_ids (rs : List (Except PyErr Int)) (i : Int) : i ∈ ids rs ↔ Except.ok i ∈ rs := by
  simp only [ids, List.mem_filterMap]
  constructor
  · rintro ⟨r, hr, he⟩
    cases r with
    | ok j => simp only [Option.some.injEq] at he; subst he; exact hr
    | error e => cases he
  · intro h
    exact ⟨_, h, rfl⟩

/-- C08. Objects created one after the other get strictly increasing ids, whatever the requested ids. -/
theorem ids_strictly_increasing (qs : List (Option Int)) :
    (ids (createAll initialCounter qs).2).Pairwise (· < ·) := by
  generalize initialCounter = c
  induction qs generalizing c with
  | nil => simp [createAll, ids]
  | cons q qs ih =>
    have hrec := ih (newId c q).1
    have hm := (createAll_mono qs (newId c q).1).2
    simp only [createAll]
    cases hq : (newId c q).2 with
    | error e => simpa [ids] using hrec
    | ok i =>
      have hi : (newId c q).1 = i := by
        cases q with
        | none => simp only [newId, increment, Except.ok.injEq] at hq ⊢; exact hq
        | some j =>
          simp only [newId, set] at hq ⊢
          by_cases hle : j ≤ c
          · simp [hle] at hq
          · simpa [hle] using hq
      have : ids (Except.ok i :: (createAll (newId c q).1 qs).2)
          = i :: ids (createAll (newId c q).1 qs).2 := by simp [ids]
      rw [this, List.pairwise_cons]
      refine ⟨?_, hrec⟩
      intro j hj
      have := hm _ j rfl ((mem_ids _ _).1 hj)
      omega

/-- C08. After any history of creations, an explicit id is accepted exactly when it is non-negative and
greater than every id given before; the object then gets that id. A refusal is a `ValueError` and leaves the
counter unchanged. -/
theorem explicit_id_spec (qs : List (Option Int)) (i : Int) :
    let c := (createAll initialCounter qs).1
    let before := ids (createAll initialCounter qs).2
    ((0 ≤ i ∧ ∀ j ∈ before, j < i) → newId c (some i) = (i, .ok i)) ∧
    (¬ (0 ≤ i ∧ ∀ j ∈ before, j < i) → newId c (some i) = (c, .error .valueError)) := by
  have key : ∀ c0, ((createAll c0 qs).1 < i ↔ (c0 < i ∧ ∀ j ∈ ids (createAll c0 qs).2, j < i)) := by
    induction qs with
    | nil => intro c0; simp [createAll, ids]
    | cons q qs ih =>
      intro c0
      simp only [createAll]
      rw [ih]
      cases q with
      | none =>
        have : ∀ l, ids (Except.ok (c0 + 1) :: l) = (c0 + 1) :: ids l := by intro l; simp [ids]
        simp only [newId, increment, this, List.mem_cons, forall_eq_or_imp]
        constructor
        · rintro ⟨h1, h2⟩; exact ⟨by omega, h1, h2⟩
        · rintro ⟨_, h1, h2⟩; exact ⟨h1, h2⟩
      | some k =>
        simp only [newId, set]
        by_cases hle : k ≤ c0
        · have : ∀ l, ids (Except.error .valueError :: l) = ids l := by intro l; simp [ids]
          simp only [hle, if_true, this]
        · have : ∀ l, ids (Except.ok k :: l) = k :: ids l := by intro l; simp [ids]
          simp only [hle, if_false, this, List.mem_cons, forall_eq_or_imp]
          constructor
          · rintro ⟨h1, h2⟩; exact ⟨by omega, h1, h2⟩
          · rintro ⟨_, h1, h2⟩; exact ⟨h1, h2⟩
  have hk := key initialCounter
  have hneg : (initialCounter < i ↔ 0 ≤ i) := by unfold initialCounter; omega
  rw [hneg] at hk
  refine ⟨fun h => ?_, fun h => ?_⟩
  · have := hk.2 h
    have hn : ¬ i ≤ (createAll initialCounter qs).1 := by omega
    simp [newId, set, hn]
  · have : ¬ (createAll initialCounter qs).1 < i := fun hh => h (hk.1 hh)
    have hn : i ≤ (createAll initialCounter qs).1 := by omega
    simp [newId, set, hn]

/-- C08. Without explicit id an object is always created; its id is one more than the greatest id given
before (0 for the first one). -/
theorem automatic_id_spec (qs : List (Option Int)) :
    let c := (createAll initialCounter qs).1
    let before := ids (createAll initialCounter qs).2
    ∃ i, newId c none = (i, .ok i) ∧ 0 ≤ i ∧ (∀ j ∈ before, j < i) ∧ (i = 0 ∨ (i - 1) ∈ before) := by
  refine ⟨(createAll initialCounter qs).1 + 1, rfl, ?_, ?_, ?_⟩
  · have := (createAll_mono qs initialCounter).1
    unfold initialCounter at *
    omega
  · have key : ∀ c0, ∀ j ∈ ids (createAll c0 qs).2, j ≤ (createAll c0 qs).1 := by
      induction qs with
      | nil => intro c0; simp [createAll, ids]
      | cons q qs ih =>
        intro c0 j hj
        simp only [createAll] at hj ⊢
        rw [mem_ids, List.mem_cons] at hj
        rcases hj with hj | hj
        · have hm := (createAll_mono qs (newId c0 q).1).1
          have : (newId c0 q).1 = j := by
            cases q with
            | none => simp only [newId, increment, Except.ok.injEq] at hj ⊢; exact hj.symm
            | some k =>
              simp only [newId, set] at hj ⊢
              by_cases hle : k ≤ c0
              · simp [hle] at hj
              · simp only [hle, if_false, Except.ok.injEq] at hj ⊢; exact hj.symm
          omega
        · exact ih _ j ((mem_ids _ _).2 hj)
    intro j hj
    have := key _ j hj
    omega
  · have key : ∀ c0, (createAll c0 qs).1 = c0 ∨ (createAll c0 qs).1 ∈ ids (createAll c0 qs).2 := by
      induction qs with
      | nil => intro c0; simp [createAll]
      | cons q qs ih =>
        intro c0
        simp only [createAll]
        rcases ih (newId c0 q).1 with h | h
        · rw [h]
          cases q with
          | none => right; rw [mem_ids]; simp [newId, increment]
          | some k =>
            simp only [newId, set]
            by_cases hle : k ≤ c0
            · left; simp [hle]
            · right; rw [mem_ids]; simp [hle]
        · right; rw [mem_ids] at h ⊢; exact List.mem_cons_of_mem _ h
    rcases key initialCounter with h | h
    · left; rw [h]; rfl
    · right; simpa using h

/-- C08. A sketch operation reports the refusal of an id as `NameError`. -/
theorem newOperationId_spec (c : Int) (id : Option Int) :
    ((newId c id).2 = .error .valueError → newOperationId c id = ((newId c id).1, .error .nameError)) ∧
    (∀ i, (newId c id).2 = .ok i → newOperationId c id = newId c id) := by
  constructor
  · intro h
    unfold newOperationId
    cases hn : newId c id with
    | mk a b => rw [hn] at h; simp only at h; subst h; rfl
  · intro i h
    unfold newOperationId
    cases hn : newId c id with
    | mk a b => rw [hn] at h; simp only at h; subst h; rfl

example : createAll initialCounter [none, some 5, some 5, none, some 3]
    = (6, [.ok 0, .ok 5, .error .valueError, .ok 6, .error .valueError]) := by decide

/-- The hypotheses of `increments_not_lost` are met by the run of `increment_returns_duplicate`. -/
example : ∃ s : Sys Bool, Reachable 0 (fun _ => [Call.inc 1]) s ∧ s.value = 2 := by
  obtain ⟨s, hr, hd, _⟩ := increment_returns_duplicate
  refine ⟨s, hr, ?_⟩
  have := increments_not_lost 0 (fun _ : Bool => [1]) s hr hd
  simpa using this

end Patro.Counter
