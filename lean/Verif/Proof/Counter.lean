import Verif.Model.Counter
import Mathlib.Algebra.BigOperators.Group.Finset.Basic
import Mathlib.Algebra.BigOperators.Pi
import Mathlib.Data.Fintype.Basic
import Mathlib.Data.Fintype.BigOperators
import Mathlib.Tactic.Linarith
import Mathlib.Tactic.Ring
/-! # Invariants of the concurrent counter -/

set_option linter.unusedSectionVars false
set_option linter.unusedSimpArgs false

namespace Patro.Counter

open Patro

variable {T : Type _} [DecidableEq T]

@[simp] theorem upd_self {β : Type _} (f : T → β) (t : T) (b : β) : upd f t b t = b := by simp [upd]
theorem upd_ne {β : Type _} (f : T → β) {t x : T} (b : β) (h : x ≠ t) : upd f t b x = f x := by
  simp [upd, h]

/-- Thread is inside the `with` block. -/
def Pc.critical : Pc → Prop
  | .reading _ _ => True
  | .writing _ _ _ => True
  | .releasing _ _ _ => True
  | _ => False

/-- Mutual exclusion, and the value to be written is the one computed from the current value. -/
structure Inv (s : Sys T) : Prop where
  holds : ∀ t, (s.pc t).critical → s.lock = some t
  held : ∀ t, s.lock = some t → (s.pc t).critical
  wInc : ∀ t k v w, s.pc t = .writing k (.inc v) w → w = s.value + v
  wSet : ∀ t k v w, s.pc t = .writing k (.set v) w → w = v ∧ s.value < v
  noRaise : ∀ t k v b, s.pc t = .releasing k (.inc v) b → b = false

theorem Inv.unique {s : Sys T} (h : Inv s) {t u : T} (ht : (s.pc t).critical) (hu : (s.pc u).critical) :
    u = t := by
  have h1 := h.holds t ht
  have h2 := h.holds u hu
  rw [h1] at h2
  exact (Option.some.inj h2).symm

theorem inv_step {s s' : Sys T} {t : T} (h : Inv s) (hs : Step s t s') : Inv s' := by
  have other : ∀ u p, u ≠ t → upd s.pc t p u = s.pc u := fun u p hu => upd_ne _ _ hu
  cases hs with
  | start c cs hpc htodo =>
    refine ⟨?_, ?_, ?_, ?_, ?_⟩ <;> intro u
    · by_cases hu : u = t
      · subst hu; simp [Pc.critical]
      · simpa [other u _ hu] using h.holds u
    · by_cases hu : u = t
      · subst hu
        intro hl
        have := h.held u hl
        rw [hpc] at this
        exact this.elim
      · simpa [other u _ hu] using h.held u
    all_goals
      by_cases hu : u = t
      · subst hu; intro k v w; simp
      · simp only [other u _ hu]; first | exact h.wInc u | exact h.wSet u | exact h.noRaise u
  | acquire k c hpc hl =>
    refine ⟨?_, ?_, ?_, ?_, ?_⟩ <;> intro u
    · by_cases hu : u = t
      · subst hu; simp
      · intro hc
        simp only [other u _ hu] at hc
        have := h.holds u hc
        rw [hl] at this
        cases this
    · intro hh
      simp only [Option.some.injEq] at hh
      subst hh
      simp [Pc.critical]
    all_goals
      by_cases hu : u = t
      · subst hu; intro k v w; simp
      · simp only [other u _ hu]; first | exact h.wInc u | exact h.wSet u | exact h.noRaise u
  | readInc k v hpc =>
    refine ⟨?_, ?_, ?_, ?_, ?_⟩ <;> intro u
    · by_cases hu : u = t
      · subst hu; intro _; exact h.holds u (by rw [hpc]; trivial)
      · simpa [other u _ hu] using h.holds u
    · by_cases hu : u = t
      · subst hu; simp [Pc.critical]
      · simpa [other u _ hu] using h.held u
    · by_cases hu : u = t
      · subst hu; intro k v w hh
        simp only [upd_self, Pc.writing.injEq, Call.inc.injEq] at hh
        obtain ⟨_, rfl, rfl⟩ := hh
        rfl
      · simp only [other u _ hu]; exact h.wInc u
    · by_cases hu : u = t
      · subst hu; intro k v w; simp
      · simp only [other u _ hu]; exact h.wSet u
    · by_cases hu : u = t
      · subst hu; intro k v w; simp
      · simp only [other u _ hu]; exact h.noRaise u
  | readSetOk k v hpc hlt =>
    refine ⟨?_, ?_, ?_, ?_, ?_⟩ <;> intro u
    · by_cases hu : u = t
      · subst hu; intro _; exact h.holds u (by rw [hpc]; trivial)
      · simpa [other u _ hu] using h.holds u
    · by_cases hu : u = t
      · subst hu; simp [Pc.critical]
      · simpa [other u _ hu] using h.held u
    · by_cases hu : u = t
      · subst hu; intro k v w; simp
      · simp only [other u _ hu]; exact h.wInc u
    · by_cases hu : u = t
      · subst hu; intro k v w hh
        simp only [upd_self, Pc.writing.injEq, Call.set.injEq] at hh
        obtain ⟨_, rfl, rfl⟩ := hh
        exact ⟨rfl, Int.not_le.1 hlt⟩
      · simp only [other u _ hu]; exact h.wSet u
    · by_cases hu : u = t
      · subst hu; intro k v w; simp
      · simp only [other u _ hu]; exact h.noRaise u
  | readSetBad k v hpc hle =>
    refine ⟨?_, ?_, ?_, ?_, ?_⟩ <;> intro u
    · by_cases hu : u = t
      · subst hu; intro _; exact h.holds u (by rw [hpc]; trivial)
      · simpa [other u _ hu] using h.holds u
    · by_cases hu : u = t
      · subst hu; simp [Pc.critical]
      · simpa [other u _ hu] using h.held u
    all_goals
      by_cases hu : u = t
      · subst hu; intro k v w; simp
      · simp only [other u _ hu]; first | exact h.wInc u | exact h.wSet u | exact h.noRaise u
  | write k c w hpc =>
    have hcrit : (s.pc t).critical := by rw [hpc]; trivial
    refine ⟨?_, ?_, ?_, ?_, ?_⟩ <;> intro u
    · by_cases hu : u = t
      · subst hu; intro _; exact h.holds u hcrit
      · simpa [other u _ hu] using h.holds u
    · by_cases hu : u = t
      · subst hu; simp [Pc.critical]
      · simpa [other u _ hu] using h.held u
    · by_cases hu : u = t
      · subst hu; intro k v w; simp
      · simp only [other u _ hu]
        intro k v w hh
        exact absurd (h.unique hcrit (by rw [hh]; trivial)) hu
    · by_cases hu : u = t
      · subst hu; intro k v w; simp
      · simp only [other u _ hu]
        intro k v w hh
        exact absurd (h.unique hcrit (by rw [hh]; trivial)) hu
    · by_cases hu : u = t
      · subst hu; intro k v b hh
        simp only [upd_self, Pc.releasing.injEq] at hh
        exact hh.2.2.symm
      · simp only [other u _ hu]; exact h.noRaise u
  | releaseInc k v b hpc =>
    have hcrit : (s.pc t).critical := by rw [hpc]; trivial
    refine ⟨?_, ?_, ?_, ?_, ?_⟩ <;> intro u
    · by_cases hu : u = t
      · subst hu; simp [Pc.critical]
      · intro hc
        simp only [other u _ hu] at hc
        exact absurd (h.unique hcrit hc) hu
    · simp
    all_goals
      by_cases hu : u = t
      · subst hu; intro k v w; simp
      · simp only [other u _ hu]; first | exact h.wInc u | exact h.wSet u | exact h.noRaise u
  | releaseSet k v hpc =>
    have hcrit : (s.pc t).critical := by rw [hpc]; trivial
    refine ⟨?_, ?_, ?_, ?_, ?_⟩ <;> intro u
    · by_cases hu : u = t
      · subst hu; simp [Pc.critical]
      · intro hc
        simp only [other u _ hu] at hc
        exact absurd (h.unique hcrit hc) hu
    · simp
    all_goals
      by_cases hu : u = t
      · subst hu; intro k v w; simp
      · simp only [other u _ hu]; first | exact h.wInc u | exact h.wSet u | exact h.noRaise u
  | releaseRaise k v hpc =>
    have hcrit : (s.pc t).critical := by rw [hpc]; trivial
    refine ⟨?_, ?_, ?_, ?_, ?_⟩ <;> intro u
    · by_cases hu : u = t
      · subst hu; simp [Pc.critical]
      · intro hc
        simp only [other u _ hu] at hc
        exact absurd (h.unique hcrit hc) hu
    · simp
    all_goals
      by_cases hu : u = t
      · subst hu; intro k v w; simp
      · simp only [other u _ hu]; first | exact h.wInc u | exact h.wSet u | exact h.noRaise u
  | ret k hpc =>
    refine ⟨?_, ?_, ?_, ?_, ?_⟩ <;> intro u
    · by_cases hu : u = t
      · subst hu; simp [Pc.critical]
      · simpa [other u _ hu] using h.holds u
    · by_cases hu : u = t
      · subst hu
        intro hl
        have := h.held u hl
        rw [hpc] at this
        exact this.elim
      · simpa [other u _ hu] using h.held u
    all_goals
      by_cases hu : u = t
      · subst hu; intro k v w; simp
      · simp only [other u _ hu]; first | exact h.wInc u | exact h.wSet u | exact h.noRaise u

theorem inv_init (i : Int) (todo : T → List Call) : Inv (init i todo) :=
  ⟨by simp [init, Pc.critical], by simp [init], by simp [init], by simp [init], by simp [init]⟩

theorem inv {i : Int} {todo : T → List Call} {s : Sys T} (h : Reachable i todo s) : Inv s := by
  induction h with
  | init => exact inv_init _ _
  | step _ hs ih => exact inv_step ih hs

/-! ## Sum of increments -/

/-- Amount a call adds (sets are counted 0; they are excluded by hypothesis). -/
def Call.amount : Call → Int
  | .inc v => v
  | .set _ => 0

/-- Increment not yet written by a thread inside a call. -/
def Pc.pending : Pc → Int
  | .acquiring _ c => c.amount
  | .reading _ c => c.amount
  | .writing _ c _ => c.amount
  | _ => 0

/-- No `set` call left. -/
def Pc.incOnly : Pc → Prop
  | .acquiring _ c => ∃ v, c = .inc v
  | .reading _ c => ∃ v, c = .inc v
  | .writing _ c _ => ∃ v, c = .inc v
  | .releasing _ c _ => ∃ v, c = .inc v
  | _ => True

def rest (s : Sys T) (t : T) : Int := (s.pc t).pending + ((s.todo t).map Call.amount).sum

theorem sum_change [Fintype T] (f g : T → Int) (t : T) (h : ∀ u, u ≠ t → g u = f u) :
    ∑ u, g u = ∑ u, f u + (g t - f t) := by
  have : ∑ u, (g u - f u) = g t - f t := by
    rw [Finset.sum_eq_single t]
    · intro u _ hu; rw [h u hu]; ring
    · intro hh; exact absurd (Finset.mem_univ t) hh
  rw [Finset.sum_sub_distrib] at this
  linarith

theorem sum_step [Fintype T] {s s' : Sys T} {t : T} (h : Inv s) (hs : Step s t s')
    (hinc : ∀ u, (s.pc u).incOnly ∧ ∀ c ∈ s.todo u, ∃ v, c = .inc v) :
    (∀ u, (s'.pc u).incOnly ∧ ∀ c ∈ s'.todo u, ∃ v, c = .inc v) ∧
    s'.value + ∑ u, rest s' u = s.value + ∑ u, rest s u := by
  have other : ∀ u p, u ≠ t → upd s.pc t p u = s.pc u := fun u p hu => upd_ne _ _ hu
  cases hs with
  | start c cs hpc htodo =>
    have hc : ∃ v, c = .inc v := (hinc t).2 c (by rw [htodo]; simp)
    constructor
    · intro u
      by_cases hu : u = t
      · subst hu
        refine ⟨by simpa [Pc.incOnly] using hc, ?_⟩
        intro c' hc'
        simp only [upd_self] at hc'
        exact (hinc u).2 c' (by rw [htodo]; simp [hc'])
      · simp only [other u _ hu, upd_ne _ _ hu]; exact hinc u
    · rw [sum_change (rest s) _ t]
      · simp [rest, hpc, htodo, Pc.pending]
      · intro u hu; simp [rest, upd_ne _ _ hu]
  | acquire k c hpc hl =>
    constructor
    · intro u
      by_cases hu : u = t
      · subst hu
        have := (hinc u).1
        rw [hpc] at this
        exact ⟨by simpa [Pc.incOnly] using this, (hinc u).2⟩
      · simp only [other u _ hu]; exact hinc u
    · rw [sum_change (rest s) _ t]
      · simp [rest, hpc, Pc.pending]
      · intro u hu; simp [rest, upd_ne _ _ hu]
  | readInc k v hpc =>
    constructor
    · intro u
      by_cases hu : u = t
      · subst hu
        exact ⟨by simp [Pc.incOnly], (hinc u).2⟩
      · simp only [other u _ hu]; exact hinc u
    · rw [sum_change (rest s) _ t]
      · simp [rest, hpc, Pc.pending]
      · intro u hu; simp [rest, upd_ne _ _ hu]
  | readSetOk k v hpc hlt =>
    have := (hinc t).1
    rw [hpc] at this
    obtain ⟨_, h⟩ := this
    cases h
  | readSetBad k v hpc hle =>
    have := (hinc t).1
    rw [hpc] at this
    obtain ⟨_, h⟩ := this
    cases h
  | write k c w hpc =>
    have hc := (hinc t).1
    rw [hpc] at hc
    obtain ⟨v, rfl⟩ := hc
    have hw := h.wInc t k v w hpc
    constructor
    · intro u
      by_cases hu : u = t
      · subst hu
        exact ⟨by simp [Pc.incOnly], (hinc u).2⟩
      · simp only [other u _ hu]; exact hinc u
    · rw [sum_change (rest s) _ t]
      · have e1 : rest s t = v + ((s.todo t).map Call.amount).sum := by
          simp [rest, hpc, Pc.pending, Call.amount]
        have e2 : rest ({ s with value := w, pc := upd s.pc t (.releasing k (.inc v) false) } : Sys T) t
            = ((s.todo t).map Call.amount).sum := by
          simp [rest, Pc.pending]
        rw [e1, e2]
        simp only [hw]
        ring
      · intro u hu; simp [rest, upd_ne _ _ hu]
  | releaseInc k v b hpc =>
    constructor
    · intro u
      by_cases hu : u = t
      · subst hu
        exact ⟨by simp [Pc.incOnly], (hinc u).2⟩
      · simp only [other u _ hu]; exact hinc u
    · rw [sum_change (rest s) _ t]
      · simp [rest, hpc, Pc.pending]
      · intro u hu; simp [rest, upd_ne _ _ hu]
  | releaseSet k v hpc =>
    have := (hinc t).1
    rw [hpc] at this
    obtain ⟨_, h⟩ := this
    cases h
  | releaseRaise k v hpc =>
    have := (hinc t).1
    rw [hpc] at this
    obtain ⟨_, h⟩ := this
    cases h
  | ret k hpc =>
    constructor
    · intro u
      by_cases hu : u = t
      · subst hu
        exact ⟨by simp [Pc.incOnly], (hinc u).2⟩
      · simp only [other u _ hu]; exact hinc u
    · rw [sum_change (rest s) _ t]
      · simp [rest, hpc, Pc.pending]
      · intro u hu; simp [rest, upd_ne _ _ hu]

/-! ## Order of the returned values -/

/-- Every increment amount still to come is positive. -/
def Call.pos : Call → Prop
  | .inc v => 0 < v
  | .set _ => True

def Pc.pos : Pc → Prop
  | .acquiring _ c => c.pos
  | .reading _ c => c.pos
  | .writing _ c _ => c.pos
  | _ => True

/-- The call id of a thread that has already written. -/
def Pc.after : Pc → Option Nat
  | .releasing k _ false => some k
  | .returning k => some k
  | _ => none

structure LogInv (s : Sys T) : Prop where
  pos : ∀ t, (s.pc t).pos ∧ ∀ c ∈ s.todo t, c.pos
  retLe : ∀ k r, Event.ret k r ∈ s.log → r ≤ s.value
  starts : ∀ k c, Event.start k c ∈ s.log → k < s.fresh
  afterLt : ∀ t k, (s.pc t).after = some k → ∀ k1 r1 c,
    [Event.ret k1 r1, Event.start k c].Sublist s.log → r1 < s.value
  good : ∀ k1 r1 k2 c2 r2, [Event.ret k1 r1, Event.start k2 c2].Sublist s.log →
    Event.ret k2 r2 ∈ s.log → r1 < r2
  ids : ∀ t k, (s.pc t).after = some k → k < s.fresh
  ids' : ∀ t k c, (s.pc t = .acquiring k c ∨ s.pc t = .reading k c ∨ (∃ w, s.pc t = .writing k c w)) →
    k < s.fresh
  retIds : ∀ k r, Event.ret k r ∈ s.log → k < s.fresh

theorem pair_sublist_append {α : Type _} {a b e : α} {l : List α}
    (h : [a, b].Sublist (l ++ [e])) : [a, b].Sublist l ∨ (a ∈ l ∧ b = e) := by
  obtain ⟨l₁, l₂, hl, h1, h2⟩ := List.sublist_append_iff.1 h
  have h2' : l₂ = [] ∨ l₂ = [e] := by
    cases h2 with
    | cons _ h => left; exact List.sublist_nil.1 h
    | cons_cons _ h => right; rw [List.sublist_nil.1 h]
  rcases h2' with rfl | rfl
  · left; simpa [hl] using h1
  · cases l₁ with
    | nil => simp at hl
    | cons x xs =>
      simp only [List.cons_append, List.cons.injEq] at hl
      obtain ⟨rfl, hl⟩ := hl
      cases xs with
      | nil =>
        simp only [List.nil_append, List.cons.injEq, and_true] at hl
        right
        exact ⟨h1.subset (by simp), hl⟩
      | cons y ys => simp at hl

theorem value_mono {s s' : Sys T} {t : T} (h : Inv s) (hp : ∀ t, (s.pc t).pos) (hs : Step s t s') :
    s.value ≤ s'.value := by
  cases hs with
  | write k c w hpc =>
    cases c with
    | inc v =>
      have := h.wInc t k v w hpc
      have hv := hp t
      rw [hpc] at hv
      simp only [Pc.pos, Call.pos] at hv
      simp only
      omega
    | set v =>
      have := h.wSet t k v w hpc
      simp only
      omega
  | _ => exact Int.le_refl _

/-- Steps that append no event and are not a write. -/
theorem logInv_silent {s s' : Sys T} {t : T} (h : LogInv s) (hv : s'.value = s.value)
    (htodo : s'.todo = s.todo) (hlog : s'.log = s.log) (hfresh : s'.fresh = s.fresh) (p : Pc)
    (hpc : s'.pc = upd s.pc t p) (hpos : p.pos)
    (hafter : ∀ k, p.after = some k → (s.pc t).after = some k)
    (hids : ∀ k c, (p = .acquiring k c ∨ p = .reading k c ∨ (∃ w, p = .writing k c w)) → k < s.fresh) :
    LogInv s' := by
  have aft : ∀ u k, (s'.pc u).after = some k → ∃ u', (s.pc u').after = some k := by
    intro u k hk
    rw [hpc] at hk
    by_cases hu : u = t
    · subst hu
      rw [upd_self] at hk
      exact ⟨u, hafter k hk⟩
    · rw [upd_ne _ _ hu] at hk
      exact ⟨u, hk⟩
  refine ⟨?_, ?_, ?_, ?_, ?_, ?_, ?_, ?_⟩
  · intro u
    rw [hpc, htodo]
    by_cases hu : u = t
    · subst hu; rw [upd_self]; exact ⟨hpos, (h.pos u).2⟩
    · rw [upd_ne _ _ hu]; exact h.pos u
  · rw [hlog, hv]; exact h.retLe
  · rw [hlog, hfresh]; exact h.starts
  · intro u k hk
    rw [hlog, hv]
    obtain ⟨u', hu'⟩ := aft u k hk
    exact h.afterLt u' k hu'
  · rw [hlog]; exact h.good
  · intro u k hk
    rw [hfresh]
    obtain ⟨u', hu'⟩ := aft u k hk
    exact h.ids u' k hu'
  · intro u k c
    rw [hpc, hfresh]
    by_cases hu : u = t
    · subst hu; rw [upd_self]; exact hids k c
    · rw [upd_ne _ _ hu]; exact h.ids' u k c
  · rw [hlog, hfresh]; exact h.retIds

/-- A call id is used by at most one thread and returns at most once: needed for `ret`. -/
theorem logInv_step {s s' : Sys T} {t : T} (hi : Inv s) (h : LogInv s) (hs : Step s t s') :
    LogInv s' := by
  have hpos := fun u => (h.pos u).1
  have hmono := value_mono hi hpos hs
  cases hs with
  | start c cs hpc htodo =>
    have hcs : c.pos ∧ ∀ c' ∈ cs, c'.pos := by
      have := (h.pos t).2
      rw [htodo] at this
      exact ⟨this c (by simp), fun c' hc' => this c' (by simp [hc'])⟩
    refine ⟨?_, ?_, ?_, ?_, ?_, ?_, ?_, ?_⟩
    · intro u
      by_cases hu : u = t
      · subst hu; simp only [upd_self]; exact ⟨hcs.1, hcs.2⟩
      · simp only [upd_ne _ _ hu]; exact h.pos u
    · intro k r hr
      simp only [List.mem_append, List.mem_singleton, reduceCtorEq, or_false] at hr
      exact h.retLe k r hr
    · intro k c' hk
      simp only [List.mem_append, List.mem_singleton, Event.start.injEq] at hk
      rcases hk with hk | ⟨rfl, _⟩
      · have := h.starts k c' hk
        exact Nat.lt_succ_of_lt this
      · exact Nat.lt_succ_self _
    · intro u k hk k1 r1 c' hsub
      have hu : u ≠ t := by rintro rfl; simp [Pc.after] at hk
      simp only [upd_ne _ _ hu] at hk
      rcases pair_sublist_append hsub with hsub | ⟨_, he⟩
      · exact h.afterLt u k hk k1 r1 c' hsub
      · simp only [Event.start.injEq] at he
        have := h.ids u k hk
        omega
    · intro k1 r1 k2 c2 r2 hsub hr
      simp only [List.mem_append, List.mem_singleton, reduceCtorEq, or_false] at hr
      rcases pair_sublist_append hsub with hsub | ⟨_, he⟩
      · exact h.good k1 r1 k2 c2 r2 hsub hr
      · simp only [Event.start.injEq] at he
        have := h.retIds k2 r2 hr
        omega
    · intro u k hk
      have hu : u ≠ t := by rintro rfl; simp [Pc.after] at hk
      simp only [upd_ne _ _ hu] at hk
      exact Nat.lt_succ_of_lt (h.ids u k hk)
    · intro u k c'
      by_cases hu : u = t
      · subst hu
        simp only [upd_self, Pc.acquiring.injEq, reduceCtorEq, exists_false, or_false]
        rintro ⟨rfl, _⟩
        exact Nat.lt_succ_self _
      · simp only [upd_ne _ _ hu]
        intro hh
        exact Nat.lt_succ_of_lt (h.ids' u k c' hh)
    · intro k r hr
      simp only [List.mem_append, List.mem_singleton, reduceCtorEq, or_false] at hr
      exact Nat.lt_succ_of_lt (h.retIds k r hr)
  | acquire k c hpc hl =>
    have hp := hpos t
    rw [hpc] at hp
    refine logInv_silent h rfl rfl rfl rfl _ rfl hp (by simp [Pc.after]) ?_
    intro k' c' hh
    simp only [Pc.reading.injEq, reduceCtorEq, exists_false, or_false, false_or] at hh
    exact h.ids' t k' c' (Or.inl (by rw [hpc, hh.1, hh.2]))
  | readInc k v hpc =>
    have hp := hpos t
    rw [hpc] at hp
    refine logInv_silent h rfl rfl rfl rfl _ rfl hp (by simp [Pc.after]) ?_
    intro k' c' hh
    simp only [Pc.writing.injEq, reduceCtorEq, false_or] at hh
    obtain ⟨w, rfl, rfl, _⟩ := hh
    exact h.ids' t k _ (Or.inr (Or.inl hpc))
  | readSetOk k v hpc hlt =>
    refine logInv_silent h rfl rfl rfl rfl _ rfl trivial (by simp [Pc.after]) ?_
    intro k' c' hh
    simp only [Pc.writing.injEq, reduceCtorEq, false_or] at hh
    obtain ⟨w, rfl, rfl, _⟩ := hh
    exact h.ids' t k _ (Or.inr (Or.inl hpc))
  | readSetBad k v hpc hle =>
    exact logInv_silent h rfl rfl rfl rfl _ rfl trivial (by simp [Pc.after]) (by simp)
  | write k c w hpc =>
    have hk : k < s.fresh := h.ids' t k c (Or.inr (Or.inr ⟨w, hpc⟩))
    have hlt : s.value < w := by
      cases c with
      | inc v =>
        have := hi.wInc t k v w hpc
        have hv := hpos t
        rw [hpc] at hv
        simp only [Pc.pos, Call.pos] at hv
        omega
      | set v =>
        have := hi.wSet t k v w hpc
        omega
    refine ⟨?_, ?_, h.starts, ?_, h.good, ?_, ?_, h.retIds⟩
    · intro u
      by_cases hu : u = t
      · subst hu; simp only [upd_self]; exact ⟨trivial, (h.pos u).2⟩
      · simp only [upd_ne _ _ hu]; exact h.pos u
    · intro k r hr
      have := h.retLe k r hr
      simp only
      omega
    · intro u k' hk' k1 r1 c' hsub
      have := h.retLe k1 r1 (hsub.subset (by simp))
      simp only
      omega
    · intro u k' hk'
      by_cases hu : u = t
      · subst hu
        simp only [upd_self, Pc.after, Option.some.injEq] at hk'
        subst hk'
        exact hk
      · simp only [upd_ne _ _ hu] at hk'
        exact h.ids u k' hk'
    · intro u k' c'
      by_cases hu : u = t
      · subst hu; simp
      · simp only [upd_ne _ _ hu]; exact h.ids' u k' c'
  | releaseInc k v b hpc =>
    have hb := hi.noRaise t k v b hpc
    subst hb
    refine logInv_silent h rfl rfl rfl rfl _ rfl trivial ?_ (by simp)
    intro k' hk'
    rw [hpc]
    simpa [Pc.after] using hk'
  | releaseSet k v hpc =>
    refine ⟨?_, ?_, ?_, ?_, ?_, ?_, ?_, ?_⟩
    · intro u
      by_cases hu : u = t
      · subst hu; simp only [upd_self]; exact ⟨trivial, (h.pos u).2⟩
      · simp only [upd_ne _ _ hu]; exact h.pos u
    · intro k r hr
      simp only [List.mem_append, List.mem_singleton, reduceCtorEq, or_false] at hr
      exact h.retLe k r hr
    · intro k r hr
      simp only [List.mem_append, List.mem_singleton, reduceCtorEq, or_false] at hr
      exact h.starts k r hr
    · intro u k hk k1 r1 c' hsub
      have hu : u ≠ t := by rintro rfl; simp [Pc.after] at hk
      simp only [upd_ne _ _ hu] at hk
      rcases pair_sublist_append hsub with hsub | ⟨_, he⟩
      · exact h.afterLt u k hk k1 r1 c' hsub
      · cases he
    · intro k1 r1 k2 c2 r2 hsub hr
      simp only [List.mem_append, List.mem_singleton, reduceCtorEq, or_false] at hr
      rcases pair_sublist_append hsub with hsub | ⟨_, he⟩
      · exact h.good k1 r1 k2 c2 r2 hsub hr
      · cases he
    · intro u k hk
      have hu : u ≠ t := by rintro rfl; simp [Pc.after] at hk
      simp only [upd_ne _ _ hu] at hk
      exact h.ids u k hk
    · intro u k' c'
      by_cases hu : u = t
      · subst hu; simp
      · simp only [upd_ne _ _ hu]; exact h.ids' u k' c'
    · intro k r hr
      simp only [List.mem_append, List.mem_singleton, reduceCtorEq, or_false] at hr
      exact h.retIds k r hr
  | releaseRaise k v hpc =>
    refine ⟨?_, ?_, ?_, ?_, ?_, ?_, ?_, ?_⟩
    · intro u
      by_cases hu : u = t
      · subst hu; simp only [upd_self]; exact ⟨trivial, (h.pos u).2⟩
      · simp only [upd_ne _ _ hu]; exact h.pos u
    · intro k r hr
      simp only [List.mem_append, List.mem_singleton, reduceCtorEq, or_false] at hr
      exact h.retLe k r hr
    · intro k r hr
      simp only [List.mem_append, List.mem_singleton, reduceCtorEq, or_false] at hr
      exact h.starts k r hr
    · intro u k hk k1 r1 c' hsub
      have hu : u ≠ t := by rintro rfl; simp [Pc.after] at hk
      simp only [upd_ne _ _ hu] at hk
      rcases pair_sublist_append hsub with hsub | ⟨_, he⟩
      · exact h.afterLt u k hk k1 r1 c' hsub
      · cases he
    · intro k1 r1 k2 c2 r2 hsub hr
      simp only [List.mem_append, List.mem_singleton, reduceCtorEq, or_false] at hr
      rcases pair_sublist_append hsub with hsub | ⟨_, he⟩
      · exact h.good k1 r1 k2 c2 r2 hsub hr
      · cases he
    · intro u k hk
      have hu : u ≠ t := by rintro rfl; simp [Pc.after] at hk
      simp only [upd_ne _ _ hu] at hk
      exact h.ids u k hk
    · intro u k' c'
      by_cases hu : u = t
      · subst hu; simp
      · simp only [upd_ne _ _ hu]; exact h.ids' u k' c'
    · intro k r hr
      simp only [List.mem_append, List.mem_singleton, reduceCtorEq, or_false] at hr
      exact h.retIds k r hr
  | ret k hpc =>
    have hk : k < s.fresh := h.ids t k (by rw [hpc]; rfl)
    refine ⟨?_, ?_, ?_, ?_, ?_, ?_, ?_, ?_⟩
    · intro u
      by_cases hu : u = t
      · subst hu; simp only [upd_self]; exact ⟨trivial, (h.pos u).2⟩
      · simp only [upd_ne _ _ hu]; exact h.pos u
    · intro k' r hr
      simp only [List.mem_append, List.mem_singleton, Event.ret.injEq] at hr
      rcases hr with hr | ⟨_, rfl⟩
      · exact h.retLe k' r hr
      · exact Int.le_refl _
    · intro k r hr
      simp only [List.mem_append, List.mem_singleton, reduceCtorEq, or_false] at hr
      exact h.starts k r hr
    · intro u k hk k1 r1 c' hsub
      have hu : u ≠ t := by rintro rfl; simp [Pc.after] at hk
      simp only [upd_ne _ _ hu] at hk
      rcases pair_sublist_append hsub with hsub | ⟨_, he⟩
      · exact h.afterLt u k hk k1 r1 c' hsub
      · cases he
    · intro k1 r1 k2 c2 r2 hsub hr
      have hsub' : [Event.ret k1 r1, Event.start k2 c2].Sublist s.log := by
        rcases pair_sublist_append hsub with hsub | ⟨_, he⟩
        · exact hsub
        · cases he
      simp only [List.mem_append, List.mem_singleton, Event.ret.injEq] at hr
      rcases hr with hr | ⟨rfl, rfl⟩
      · exact h.good k1 r1 k2 c2 r2 hsub' hr
      · exact h.afterLt t k2 (by rw [hpc]; rfl) k1 r1 c2 hsub'
    · intro u k hk
      have hu : u ≠ t := by rintro rfl; simp [Pc.after] at hk
      simp only [upd_ne _ _ hu] at hk
      exact h.ids u k hk
    · intro u k' c'
      by_cases hu : u = t
      · subst hu; simp
      · simp only [upd_ne _ _ hu]; exact h.ids' u k' c'
    · intro k' r hr
      simp only [List.mem_append, List.mem_singleton, Event.ret.injEq] at hr
      rcases hr with hr | ⟨rfl, rfl⟩
      · exact h.retIds k' r hr
      · exact hk

theorem logInv {i : Int} {todo : T → List Call} (hpos : ∀ t, ∀ c ∈ todo t, c.pos) {s : Sys T}
    (h : Reachable i todo s) : LogInv s := by
  induction h with
  | init =>
    refine ⟨fun t => ⟨by simp [init, Pc.pos], hpos t⟩, ?_, ?_, ?_, ?_, ?_, ?_, ?_⟩ <;>
      simp [init, Pc.after]
  | step hr hs ih => exact logInv_step (inv hr) ih hs

/-! ## Sequential creation -/

theorem createAll_mono (qs : List (Option Int)) : ∀ c, c ≤ (createAll c qs).1 ∧
    ∀ r i, (createAll c qs).2 = r → Except.ok i ∈ r → c < i := by
  induction qs with
  | nil => intro c; refine ⟨Int.le_refl _, ?_⟩; rintro r i rfl hi; simp [createAll] at hi
  | cons q qs ih =>
    intro c
    have h1 : c ≤ (newId c q).1 ∧ ∀ i, (newId c q).2 = .ok i → c < i ∧ (newId c q).1 = i := by
      cases q with
      | none => simp only [newId, increment, Except.ok.injEq]; exact ⟨by omega, by rintro i rfl; omega⟩
      | some i =>
        simp only [newId, set]
        by_cases hle : i ≤ c
        · simp [hle]
        · simp only [hle, if_false, Except.ok.injEq]
          exact ⟨by omega, by rintro i rfl; omega⟩
    obtain ⟨ha, hb⟩ := ih (newId c q).1
    refine ⟨by simp only [createAll]; omega, ?_⟩
    rintro r i rfl hi
    simp only [createAll, List.mem_cons] at hi
    rcases hi with hi | hi
    · exact (h1.2 i hi.symm).1
    · have := hb _ i rfl hi
      omega

/-! ## Explicit ids and threads -/

/-- The call a thread is in. -/
def Pc.call : Pc → Option (Nat × Call)
  | .acquiring k c => some (k, c)
  | .reading k c => some (k, c)
  | .writing k c _ => some (k, c)
  | .releasing k c _ => some (k, c)
  | _ => none

/-- The call `k`, a `set(v)`, has stored its value. -/
def Accepted (s : Sys T) (k : Nat) (v : Int) : Prop :=
  (Event.done k ∈ s.log ∧ Event.start k (.set v) ∈ s.log) ∨ ∃ t, s.pc t = .releasing k (.set v) false

/-- What the accepted values satisfy. -/
structure SetInv (s : Sys T) : Prop where
  once : ∀ k c c', Event.start k c ∈ s.log → Event.start k c' ∈ s.log → c = c'
  started : ∀ t k c, (s.pc t).call = some (k, c) → Event.start k c ∈ s.log
  doneLt : ∀ k, Event.done k ∈ s.log → k < s.fresh
  le : ∀ k v, Accepted s k v → v ≤ s.value
  unique : ∀ k k' v, Accepted s k v → Accepted s k' v → k = k'

/-- A step that stores nothing and accepts nothing new. -/
theorem SetInv.keep {s s' : Sys T} (h : SetInv s) (once : ∀ k c c', Event.start k c ∈ s'.log → Event.start k c' ∈ s'.log → c = c')
    (started : ∀ t k c, (s'.pc t).call = some (k, c) → Event.start k c ∈ s'.log) (doneLt : ∀ k, Event.done k ∈ s'.log → k < s'.fresh)
    (hv : s.value ≤ s'.value) (acc : ∀ k v, Accepted s' k v → Accepted s k v) : SetInv s' :=
  ⟨once, started, doneLt, fun k v a => (h.le k v (acc k v a)).trans hv, fun k k' v a a' => h.unique k k' v (acc k v a) (acc k' v a')⟩

theorem setInv_step {s s' : Sys T} {t : T} (hi : Inv s) (hl : LogInv s) (h : SetInv s) (hs : Step s t s') : SetInv s' := by
  have other : ∀ u p, u ≠ t → upd s.pc t p u = s.pc u := fun u p hu => upd_ne _ _ hu
  -- the steps that leave the log as it is and whose program counter is in the same call
  have same : ∀ (s' : Sys T) (p : Pc), s'.log = s.log → s'.fresh = s.fresh → s'.pc = upd s.pc t p → s'.value = s.value →
      (p.call = none ∨ p.call = (s.pc t).call) → (∀ k v, p ≠ .releasing k (.set v) false) → SetInv s' := by
    intro s' p e1 e2 e3 e4 hp hn
    refine h.keep (by rw [e1]; exact h.once) ?_ (by rw [e1, e2]; exact h.doneLt) e4.ge ?_
    · intro u k c hu
      rw [e1]
      by_cases e : u = t
      · subst e
        rw [e3, upd_self] at hu
        rcases hp with hp | hp
        · rw [hp] at hu; cases hu
        · rw [hp] at hu; exact h.started u k c hu
      · rw [e3, other u _ e] at hu; exact h.started u k c hu
    · rintro k v (⟨a, b⟩ | ⟨u, hu⟩)
      · rw [e1] at a b; exact .inl ⟨a, b⟩
      · by_cases e : u = t
        · subst e
          rw [e3, upd_self] at hu
          exact absurd hu (hn k v)
        · rw [e3, other u _ e] at hu; exact .inr ⟨u, hu⟩
  -- the steps that log the end of a call without accepting
  cases hs with
  | start c cs hpc htodo =>
    refine h.keep ?_ ?_ ?_ le_rfl ?_
    · intro k c1 c2 h1 h2
      simp only [List.mem_append, List.mem_singleton, Event.start.injEq] at h1 h2
      rcases h1 with h1 | ⟨rfl, rfl⟩ <;> rcases h2 with h2 | ⟨h2, h3⟩
      · exact h.once k c1 c2 h1 h2
      · have := hl.starts k c1 h1; omega
      · have := hl.starts _ c2 h2; omega
      · exact h3.symm
    · intro u k c' hu
      simp only [List.mem_append, List.mem_singleton, Event.start.injEq]
      by_cases e : u = t
      · subst e
        simp only [upd_self, Pc.call, Option.some.injEq, Prod.mk.injEq] at hu
        exact .inr ⟨hu.1.symm, hu.2.symm⟩
      · simp only [other u _ e] at hu; exact .inl (h.started u k c' hu)
    · intro k hk
      simp only [List.mem_append, List.mem_singleton, reduceCtorEq, or_false] at hk
      have := h.doneLt k hk
      change k < s.fresh + 1
      omega
    · rintro k v (⟨a, b⟩ | ⟨u, hu⟩)
      · simp only [List.mem_append, List.mem_singleton, reduceCtorEq, or_false, Event.start.injEq] at a b
        rcases b with b | ⟨rfl, -⟩
        · exact .inl ⟨a, b⟩
        · exact absurd (h.doneLt _ a) (lt_irrefl _)
      · by_cases e : u = t
        · subst e; simp at hu
        · simp only [other u _ e] at hu; exact .inr ⟨u, hu⟩
  | acquire k c hpc hlk => exact same _ _ rfl rfl rfl rfl (.inr (by rw [hpc]; rfl)) (by simp)
  | readInc k v hpc => exact same _ _ rfl rfl rfl rfl (.inr (by rw [hpc]; rfl)) (by simp)
  | readSetOk k v hpc hlt => exact same _ _ rfl rfl rfl rfl (.inr (by rw [hpc]; rfl)) (by simp)
  | readSetBad k v hpc hle => exact same _ _ rfl rfl rfl rfl (.inr (by rw [hpc]; rfl)) (by simp)
  | write k c w hpc =>
    have hstart : Event.start k c ∈ s.log := h.started t k c (by rw [hpc]; rfl)
    have hst : ∀ u k' c', (upd s.pc t (.releasing k c false) u).call = some (k', c') → Event.start k' c' ∈ s.log := by
      intro u k' c' hu
      by_cases e : u = t
      · subst e
        simp only [upd_self, Pc.call, Option.some.injEq, Prod.mk.injEq] at hu
        rw [← hu.1, ← hu.2]; exact hstart
      · rw [other u _ e] at hu; exact h.started u k' c' hu
    cases c with
    | inc v =>
      have hw := hi.wInc t k v w hpc
      have hp := (hl.pos t).1
      rw [hpc] at hp
      have hv : 0 < v := hp
      refine h.keep h.once hst h.doneLt (by simp only [hw]; omega) ?_
      rintro k' v' (a | ⟨u, hu⟩)
      · exact .inl a
      · by_cases e : u = t
        · subst e; simp at hu
        · simp only [other u _ e] at hu; exact .inr ⟨u, hu⟩
    | set v =>
      obtain ⟨hw, hlt⟩ := hi.wSet t k v w hpc
      have acc : ∀ k' v', Accepted { s with value := w, pc := upd s.pc t (.releasing k (.set v) false) } k' v' →
          (k' = k ∧ v' = v) ∨ Accepted s k' v' := by
        rintro k' v' (a | ⟨u, hu⟩)
        · exact .inr (.inl a)
        · by_cases e : u = t
          · subst e
            simp only [upd_self, Pc.releasing.injEq, Call.set.injEq, and_true] at hu
            exact .inl ⟨hu.1.symm, hu.2.symm⟩
          · simp only [other u _ e] at hu; exact .inr (.inr ⟨u, hu⟩)
      refine ⟨h.once, hst, h.doneLt, ?_, ?_⟩
      · intro k' v' a
        rcases acc k' v' a with ⟨-, rfl⟩ | a
        · simp only [hw]; exact le_rfl
        · have := h.le k' v' a
          simp only [hw]; omega
      · intro k1 k2 v' a1 a2
        rcases acc k1 v' a1 with ⟨rfl, rfl⟩ | b1 <;> rcases acc k2 v' a2 with ⟨rfl, h2⟩ | b2
        · rfl
        · have := h.le k2 _ b2; omega
        · have := h.le k1 _ b1; omega
        · exact h.unique k1 k2 v' b1 b2
  | releaseInc k v b hpc => exact same _ _ rfl rfl rfl rfl (.inl rfl) (by simp)
  | releaseSet k v hpc =>
    have hstart : Event.start k (.set v) ∈ s.log := h.started t k _ (by rw [hpc]; rfl)
    refine h.keep ?_ ?_ ?_ le_rfl ?_
    · intro k' c1 c2 h1 h2
      simp only [List.mem_append, List.mem_singleton, reduceCtorEq, or_false] at h1 h2
      exact h.once k' c1 c2 h1 h2
    · intro u k' c' hu
      by_cases e : u = t
      · subst e; simp [Pc.call] at hu
      · simp only [other u _ e] at hu
        exact List.mem_append_left _ (h.started u k' c' hu)
    · intro k' hk'
      simp only [List.mem_append, List.mem_singleton, Event.done.injEq] at hk'
      rcases hk' with hk' | rfl
      · exact h.doneLt k' hk'
      · exact hl.starts _ _ hstart
    · rintro k' v' (⟨a, b⟩ | ⟨u, hu⟩)
      · simp only [List.mem_append, List.mem_singleton, Event.done.injEq, reduceCtorEq, or_false] at a b
        rcases a with a | rfl
        · exact .inl ⟨a, b⟩
        · have := h.once _ _ _ b hstart
          simp only [Call.set.injEq] at this
          subst this
          exact .inr ⟨t, hpc⟩
      · by_cases e : u = t
        · subst e; simp at hu
        · simp only [other u _ e] at hu; exact .inr ⟨u, hu⟩
  | releaseRaise k v hpc =>
    refine h.keep ?_ ?_ ?_ le_rfl ?_
    · intro k' c1 c2 h1 h2
      simp only [List.mem_append, List.mem_singleton, reduceCtorEq, or_false] at h1 h2
      exact h.once k' c1 c2 h1 h2
    · intro u k' c' hu
      by_cases e : u = t
      · subst e; simp [Pc.call] at hu
      · simp only [other u _ e] at hu
        exact List.mem_append_left _ (h.started u k' c' hu)
    · intro k' hk'
      simp only [List.mem_append, List.mem_singleton, reduceCtorEq, or_false] at hk'
      exact h.doneLt k' hk'
    · rintro k' v' (⟨a, b⟩ | ⟨u, hu⟩)
      · simp only [List.mem_append, List.mem_singleton, reduceCtorEq, or_false] at a b
        exact .inl ⟨a, b⟩
      · by_cases e : u = t
        · subst e; simp at hu
        · simp only [other u _ e] at hu; exact .inr ⟨u, hu⟩
  | ret k hpc =>
    refine h.keep ?_ ?_ ?_ le_rfl ?_
    · intro k' c1 c2 h1 h2
      simp only [List.mem_append, List.mem_singleton, reduceCtorEq, or_false] at h1 h2
      exact h.once k' c1 c2 h1 h2
    · intro u k' c' hu
      by_cases e : u = t
      · subst e; simp [Pc.call] at hu
      · simp only [other u _ e] at hu
        exact List.mem_append_left _ (h.started u k' c' hu)
    · intro k' hk'
      simp only [List.mem_append, List.mem_singleton, reduceCtorEq, or_false] at hk'
      exact h.doneLt k' hk'
    · rintro k' v' (⟨a, b⟩ | ⟨u, hu⟩)
      · simp only [List.mem_append, List.mem_singleton, reduceCtorEq, or_false] at a b
        exact .inl ⟨a, b⟩
      · by_cases e : u = t
        · subst e; simp at hu
        · simp only [other u _ e] at hu; exact .inr ⟨u, hu⟩

theorem setInv {i : Int} {todo : T → List Call} (hpos : ∀ t, ∀ c ∈ todo t, c.pos) {s : Sys T} (h : Reachable i todo s) : SetInv s := by
  induction h with
  | init =>
    refine ⟨by simp [init], by simp [init, Pc.call], by simp [init], ?_, ?_⟩
    · rintro k v (⟨a, -⟩ | ⟨u, hu⟩)
      · simp [init] at a
      · simp [init] at hu
    · rintro k k' v (⟨a, -⟩ | ⟨u, hu⟩)
      · simp [init] at a
      · simp [init] at hu
  | step hr hs ih => exact setInv_step (inv hr) (logInv hpos hr) ih hs

end Patro.Counter
