import Mathlib.Data.Fintype.Card
import Verif.Proof.Singleton
/-!
# C09, C10: singletons
-/

namespace Patro.Singleton

open Patro
open Patro.Counter (upd)

variable {T : Type _} [DecidableEq T]

/-- C09. With `SingletonMetaClass`, under every interleaving of any number of calls by any number of threads:
two successful constructions are one and the same, and every call that returns, returns the object that was
constructed. -/
theorem metaclass_single_instance (s : Sys T) (h : Reachable s) :
    (∀ l1 l2 l3 x y, s.log ≠ l1 ++ Event.created x :: l2 ++ Event.created y :: l3) ∧
    (∀ k o, Event.ret k o ∈ s.log → ∃ x, o = some x ∧ Event.created x ∈ s.log) ∧
    (∀ k1 k2 o1 o2, Event.ret k1 o1 ∈ s.log → Event.ret k2 o2 ∈ s.log → o1 = o2) := by
  have hi := inv h
  have hmem : ∀ x, x ∈ creations s.log → Event.created x ∈ s.log := by
    intro x hx
    simp only [creations, List.mem_filterMap] at hx
    obtain ⟨e, he, hx⟩ := hx
    cases e with
    | created y => simp only [Option.some.injEq] at hx; subst hx; exact he
    | start k => cases hx
    | ret k o => cases hx
    | raised k => cases hx
  refine ⟨?_, ?_, ?_⟩
  · intro l1 l2 l3 x y he
    have hlen : (creations s.log).length ≤ 1 := by
      cases hs : s.inst with
      | some z => rw [hi.instSome z hs]; simp
      | none =>
        by_cases hst : ∃ t k z, s.pc t = .storing k z
        · obtain ⟨t, k, z, hh⟩ := hst
          rw [(hi.stor t k z hh).2]; simp
        · rw [hi.instNone hs (fun t k z hh => hst ⟨t, k, z, hh⟩)]; simp
    rw [he] at hlen
    simp [creations] at hlen
    omega
  · intro k o hr
    obtain ⟨x, rfl, hx⟩ := hi.rets k o hr
    refine ⟨x, rfl, hmem x ?_⟩
    rw [hi.instSome x hx]; simp
  · intro k1 k2 o1 o2 h1 h2
    obtain ⟨x, rfl, hx⟩ := hi.rets k1 o1 h1
    obtain ⟨y, rfl, hy⟩ := hi.rets k2 o2 h2
    rw [hx] at hy
    rw [hy]

/-- C09. No deadlock: in every reachable state some thread can step. -/
theorem metaclass_no_deadlock (s : Sys T) (h : Reachable s) (t : T) : ∃ u s', Step s u s' := by
  have hi := inv h
  have progress : ∀ u, (s.pc u).critical → ∃ s', Step s u s' := by
    intro u hu
    cases hp : s.pc u with
    | checking k =>
      cases hn : s.inst with
      | none => exact ⟨_, Step.checkNone s u k hp hn⟩
      | some x => exact ⟨_, Step.checkSome s u k x hp hn⟩
    | constructing k => exact ⟨_, Step.constructOk s u k hp⟩
    | storing k x => exact ⟨_, Step.store s u k x hp⟩
    | releasing k => exact ⟨_, Step.release s u k hp⟩
    | raising k => exact ⟨_, Step.releaseRaise s u k hp⟩
    | idle => rw [hp] at hu; exact hu.elim
    | acquiring k => rw [hp] at hu; exact hu.elim
    | returning k => rw [hp] at hu; exact hu.elim
  cases hp : s.pc t with
  | idle => exact ⟨t, _, Step.start s t hp⟩
  | acquiring k =>
    cases hl : s.lock with
    | none => exact ⟨t, _, Step.acquire s t k hp hl⟩
    | some u => exact ⟨u, progress u (hi.held u hl)⟩
  | returning k => exact ⟨t, _, Step.ret s t k hp⟩
  | checking k => exact ⟨t, progress t (by rw [hp]; trivial)⟩
  | constructing k => exact ⟨t, progress t (by rw [hp]; trivial)⟩
  | storing k x => exact ⟨t, progress t (by rw [hp]; trivial)⟩
  | releasing k => exact ⟨t, progress t (by rw [hp]; trivial)⟩
  | raising k => exact ⟨t, progress t (by rw [hp]; trivial)⟩

/-- C10. With the decorators, calls that never overlap all return the one object constructed. -/
theorem decorator_sequential (s : Sys T) (h : DSequential s) :
    (∀ l1 l2 l3 x y, s.log ≠ l1 ++ Event.created x :: l2 ++ Event.created y :: l3) ∧
    (∀ k1 k2 o1 o2, Event.ret k1 o1 ∈ s.log → Event.ret k2 o2 ∈ s.log → o1 = o2 ∧ o1 ≠ none) := by
  have hi := seqInv h
  refine ⟨?_, ?_⟩
  · intro l1 l2 l3 x y he
    have hlen : (creations s.log).length ≤ 1 := by
      cases hs : s.inst with
      | some z => rw [hi.instSome z hs]; simp
      | none =>
        by_cases hst : ∃ t k z, s.pc t = .storing k z
        · obtain ⟨t, k, z, hh⟩ := hst
          rw [(hi.stor t k z hh).2]; simp
        · rw [hi.instNone hs (fun t k z hh => hst ⟨t, k, z, hh⟩)]; simp
    rw [he] at hlen
    simp [creations] at hlen
    omega
  · intro k1 k2 o1 o2 h1 h2
    obtain ⟨x, rfl, hx⟩ := hi.rets k1 o1 h1
    obtain ⟨y, rfl, hy⟩ := hi.rets k2 o2 h2
    rw [hx] at hy
    exact ⟨by rw [hy], by simp⟩

/-- C10. With the decorators, two overlapping calls can construct and return two different objects. -/
theorem decorator_race :
    ∃ s : Sys Bool, DReachable s ∧
      s.log = [.start 0, .start 1, .created 0, .ret 0 (some 0), .created 1, .ret 1 (some 1)] := by
  have h0 : DReachable (init : Sys Bool) := DReachable.init
  have h1 := DReachable.step h0 (DStep.start _ false rfl)
  have h2 := DReachable.step h1 (DStep.start _ true rfl)
  have h3 := DReachable.step h2 (DStep.checkNone _ false 0 rfl rfl)
  have h4 := DReachable.step h3 (DStep.checkNone _ true 1 rfl rfl)
  have h5 := DReachable.step h4 (DStep.constructOk _ false 0 rfl)
  have h6 := DReachable.step h5 (DStep.store _ false 0 0 rfl)
  have h7 := DReachable.step h6 (DStep.ret _ false 0 rfl)
  have h8 := DReachable.step h7 (DStep.constructOk _ true 1 rfl)
  have h9 := DReachable.step h8 (DStep.store _ true 1 1 rfl)
  have h10 := DReachable.step h9 (DStep.ret _ true 1 rfl)
  exact ⟨_, h10, rfl⟩

/-- The threads of the list have entered a call of the decorated class and have found no instance. -/
theorem all_constructing (l : List T) (hl : l.Nodup) :
    ∃ s : Sys T, DReachable s ∧ s.inst = none ∧ s.freshObj = 0 ∧ (∀ k o, Event.ret k o ∉ s.log) ∧
      (∀ t ∈ l, ∃ k, s.pc t = .constructing k) ∧ ∀ t, t ∉ l → s.pc t = .idle := by
  induction l with
  | nil => exact ⟨_, DReachable.init, rfl, rfl, by simp [init], by simp, fun t _ => rfl⟩
  | cons a l ih =>
    obtain ⟨ha, hl⟩ := List.nodup_cons.1 hl
    obtain ⟨s, h, h1, h2, h3, h4, h5⟩ := ih hl
    have g1 := DReachable.step h (DStep.start s a (h5 a ha))
    have g2 := DReachable.step g1 (DStep.checkNone _ a s.freshCall (by simp [upd]) h1)
    refine ⟨_, g2, h1, h2, ?_, ?_, ?_⟩
    · intro k o hk
      simp only [List.mem_append, List.mem_singleton, reduceCtorEq, or_false] at hk
      exact h3 k o hk
    · intro t ht
      by_cases e : t = a
      · exact ⟨s.freshCall, by simp [upd, e]⟩
      · obtain ⟨k, hk⟩ := h4 t ((List.mem_cons.1 ht).resolve_left e)
        exact ⟨k, by simp [upd, e, hk]⟩
    · intro t ht
      have e : t ≠ a := fun e => ht (by simp [e])
      simp [upd, e, h5 t fun h => ht (by simp [h])]

/-- C10. Without the lock, for any number of threads which call the decorated class once, there is a schedule in which each one gets another
object. -/
theorem decorator_race_all [Fintype T] :
    ∃ s : Sys T, DReachable s ∧ (∀ t, s.pc t = .idle) ∧
      (s.log.filterMap fun e => match e with | .ret _ o => some o | _ => none) = (List.range (Fintype.card T)).map some := by
  obtain ⟨s, h, h1, h2, h3, h4, -⟩ := all_constructing (Finset.univ : Finset T).toList (Finset.nodup_toList _)
  have h0 : (s.log.filterMap fun e => match e with | .ret _ o => some o | _ => none) = [] := by
    rw [List.filterMap_eq_nil_iff]
    intro e he
    cases e with
    | ret k r => exact absurd he (h3 k r)
    | _ => rfl
  have key : ∀ l : List T, l.Nodup → ∃ s' : Sys T, DReachable s' ∧ s'.freshObj = l.length ∧
      (∀ t ∈ l, s'.pc t = .idle) ∧ (∀ t, t ∉ l → s'.pc t = s.pc t) ∧
      (s'.log.filterMap fun e => match e with | .ret _ o => some o | _ => none) = (List.range l.length).map some := by
    intro l
    induction l with
    | nil => intro _; exact ⟨s, h, h2, by simp, fun _ _ => rfl, by simp [h0]⟩
    | cons a l ih =>
      intro hl
      obtain ⟨ha, hl⟩ := List.nodup_cons.1 hl
      obtain ⟨s', g1, g2, g3, g4, g5⟩ := ih hl
      obtain ⟨k, hk⟩ := h4 a (by simp)
      have k1 := DReachable.step g1 (DStep.constructOk s' a k ((g4 a ha).trans hk))
      have k2 := DReachable.step k1 (DStep.store _ a k s'.freshObj (by simp [upd]))
      have k3 := DReachable.step k2 (DStep.ret _ a k (by simp [upd]))
      refine ⟨_, k3, by simp [g2], ?_, ?_, ?_⟩
      · intro t ht
        by_cases e : t = a
        · simp [upd, e]
        · simp only [upd, if_neg e]
          exact g3 t ((List.mem_cons.1 ht).resolve_left e)
      · intro t ht
        have e : t ≠ a := fun e => ht (by simp [e])
        simp only [upd, if_neg e]
        exact g4 t fun h => ht (by simp [h])
      · rw [List.filterMap_append, List.filterMap_append, g5]
        simp [g2, List.range_succ]
  obtain ⟨s', g1, -, g3, -, g5⟩ := key (Finset.univ : Finset T).toList (Finset.nodup_toList _)
  refine ⟨s', g1, fun t => g3 t (by simp), ?_⟩
  rw [g5, Finset.length_toList]
  rfl

/-- A run with the metaclass in which two threads compete and both get the object 0. -/
example : ∃ s : Sys Bool, Reachable s ∧
    s.log = [.start 0, .start 1, .created 0, .ret 0 (some 0), .ret 1 (some 0)] := by
  have h0 : Reachable (init : Sys Bool) := Reachable.init
  have h1 := Reachable.step h0 (Step.start _ false rfl)
  have h2 := Reachable.step h1 (Step.start _ true rfl)
  have h3 := Reachable.step h2 (Step.acquire _ false 0 rfl rfl)
  have h4 := Reachable.step h3 (Step.checkNone _ false 0 rfl rfl)
  have h5 := Reachable.step h4 (Step.constructOk _ false 0 rfl)
  have h6 := Reachable.step h5 (Step.store _ false 0 0 rfl)
  have h7 := Reachable.step h6 (Step.release _ false 0 rfl)
  have h8 := Reachable.step h7 (Step.acquire _ true 1 rfl rfl)
  have h9 := Reachable.step h8 (Step.checkSome _ true 1 0 rfl rfl)
  have h10 := Reachable.step h9 (Step.release _ true 1 rfl)
  have h11 := Reachable.step h10 (Step.ret _ false 0 rfl)
  have h12 := Reachable.step h11 (Step.ret _ true 1 rfl)
  exact ⟨_, h12, rfl⟩

/-! ## C246 -/

theorem exec_returned (r : Run) (s : Seq) : ∃ l, (r.exec s).1.returned = s.returned ++ l := by
  induction r generalizing s with
  | done => exact ⟨[], by simp [Run.exec]⟩
  | raise => exact ⟨[], by simp [Run.exec]⟩
  | call inner rest ih1 ih2 =>
    unfold Run.exec
    cases hs : s.inst with
    | some x =>
      obtain ⟨l, hl⟩ := ih2 { s with returned := s.returned ++ [x] }
      simp only [hs] at hl ⊢
      exact ⟨x :: l, by rw [hl]; simp⟩
    | none =>
      obtain ⟨l, hl⟩ := ih1 { s with fresh := s.fresh + 1 }
      simp only
      rcases he : inner.exec { s with fresh := s.fresh + 1 } with ⟨t, b⟩
      simp only [hs] at he
      simp only [hs] at hl
      rw [he] at hl ⊢
      cases b with
      | false => exact ⟨l, hl⟩
      | true =>
        obtain ⟨l', hl'⟩ := ih2 { t with inst := some s.fresh, returned := t.returned ++ [s.fresh] }
        refine ⟨l ++ s.fresh :: l', ?_⟩
        simp only [Seq.finish]
        rw [hl']
        simp only at hl
        simp [hl]

theorem exec_inst (r : Run) (s : Seq) (x : Nat) (h : s.inst = some x) : (r.exec s).1.inst = some x := by
  induction r generalizing s with
  | done => exact h
  | raise => exact h
  | call inner rest ih1 ih2 =>
    unfold Run.exec
    simp only [h]
    exact ih2 _ rfl

/-- C246, what holds: whatever the constructor does, once a call made outside of it has returned an object, all the following calls return this
object; and when the constructor does not use its class, a call which raises leaves nothing behind. -/
theorem reentrant_partial (rs : List Run) (s : Seq) :
    (∀ i j x, i < j → j < rs.length → (Seq.calls rs s).2[i]? = some (some x) → (Seq.calls rs s).2[j]? = some (some x)) ∧
    (s.inst = none → Seq.call .raise s = ({ s with fresh := s.fresh + 1 }, none)) ∧
    (s.inst = none → Seq.call .done s = (⟨some s.fresh, s.fresh + 1, s.returned ++ [s.fresh]⟩, some s.fresh)) := by
  have one : ∀ (r : Run) (s : Seq) x, (s.call r).2 = some x → (s.call r).1.inst = some x := by
    intro r s x h
    unfold Seq.call at h ⊢
    cases hs : s.inst with
    | some y => simp only [hs] at h ⊢; exact h
    | none =>
      simp only [hs] at h ⊢
      rcases he : Seq.finish s.fresh (r.exec { s with fresh := s.fresh + 1 }) with ⟨t, b⟩
      simp only [hs] at he
      rw [he] at h ⊢
      cases b with
      | false => cases h
      | true => exact h
  have later : ∀ (rs : List Run) (s : Seq) x, s.inst = some x → ∀ j < rs.length, (Seq.calls rs s).2[j]? = some (some x) := by
    intro rs
    induction rs with
    | nil => intro s x _ j hj; simp at hj
    | cons r rs ih =>
      intro s x hx j hj
      have e : s.call r = ({ s with returned := s.returned ++ [x] }, some x) := by unfold Seq.call; simp only [hx]
      unfold Seq.calls
      simp only [e]
      cases j with
      | zero => rfl
      | succ j => exact ih { s with returned := s.returned ++ [x] } x hx j (by simpa using hj)
  refine ⟨?_, fun h => ?_, fun h => ?_⟩
  · induction rs generalizing s with
    | nil => intro i j x _ hj; simp at hj
    | cons r rs ih =>
      intro i j x hij hj
      obtain ⟨j, rfl⟩ : ∃ k, j = k + 1 := ⟨j - 1, by omega⟩
      unfold Seq.calls
      simp only
      cases i with
      | zero =>
        intro h
        simp only [List.getElem?_cons_zero, Option.some.injEq] at h
        rw [List.getElem?_cons_succ]
        exact later rs _ x (one r s x h) j (by simpa using hj)
      | succ i =>
        rw [List.getElem?_cons_succ, List.getElem?_cons_succ]
        exact ih (s.call r).1 i j x (by omega) (by simpa using hj)
  · unfold Seq.call; simp only [h]; rfl
  · unfold Seq.call; simp only [h]; rfl

/-- C246 is false of every constructor that instantiates its own class and returns: the first call runs the constructor at least twice, and one
of the inner calls returns an object which is not the one that is kept. -/
theorem reentrant_wrong (inner rest : Run) (s s' : Seq) (x : Nat) (hs : s.inst = none) (h : s.call (.call inner rest) = (s', some x)) :
    x = s.fresh ∧ ∃ l y, s'.returned = s.returned ++ l ∧ y ∈ l ∧ y ≠ x := by
  unfold Seq.call at h
  simp only [hs] at h
  unfold Run.exec at h
  simp only at h
  obtain ⟨l0, hl0⟩ := exec_returned inner { s with inst := none, fresh := s.fresh + 1 + 1 }
  rcases he : inner.exec { s with inst := none, fresh := s.fresh + 1 + 1 } with ⟨t, b⟩
  rw [he] at hl0
  simp only at he hl0
  rw [he] at h
  cases b with
  | false => simp [Seq.finish] at h
  | true =>
    simp only [Seq.finish] at h
    obtain ⟨l, hl⟩ := exec_returned rest ⟨some (s.fresh + 1), t.fresh, t.returned ++ [s.fresh + 1]⟩
    rcases he2 : rest.exec ⟨some (s.fresh + 1), t.fresh, t.returned ++ [s.fresh + 1]⟩ with ⟨u, b⟩
    rw [he2] at hl h
    cases b with
    | false => simp [Seq.finish] at h
    | true =>
      simp only [Seq.finish, Prod.mk.injEq, Option.some.injEq] at h
      obtain ⟨h1, h2⟩ := h
      refine ⟨h2.symm, l0 ++ (s.fresh + 1) :: (l ++ [s.fresh]), s.fresh + 1, ?_, by simp, by omega⟩
      rw [← h1]
      simp only at hl
      simp [hl, hl0]

/-- C246 is false of every constructor that instantiates its own class before it raises: the first call raises, but the following ones return an
object, which the inner call has made. -/
theorem reentrant_raise_wrong (inner : Run) (s s' : Seq) (hs : s.inst = none)
    (h : s.call (.call inner .raise) = (s', none)) (hi : (inner.exec { s with fresh := s.fresh + 2 }).2 = true) (r : Run) :
    (s'.call r).2 = some (s.fresh + 1) := by
  unfold Seq.call at h
  simp only [hs] at h
  unfold Run.exec at h
  simp only at h
  rcases he : inner.exec { s with inst := none, fresh := s.fresh + 1 + 1 } with ⟨t, b⟩
  have hb : b = true := by
    have : s = { s with inst := none } := by rw [← hs]
    rw [this] at hi
    simp only at hi
    rw [he] at hi
    exact hi
  subst hb
  rw [he] at h
  simp only [Seq.finish, Run.exec, Prod.mk.injEq, and_true] at h
  rw [← h]
  rfl

example : Seq.calls [.call .done .done, .done] {} = (⟨some 0, 2, [1, 0, 0]⟩, [some 0, some 0]) := by decide

example : Seq.calls [.call .done .raise, .done] {} = (⟨some 1, 2, [1, 1]⟩, [none, some 1]) := by decide

end Patro.Singleton
