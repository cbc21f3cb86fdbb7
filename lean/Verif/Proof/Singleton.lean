import Verif.Model.Singleton
import Verif.Proof.Counter
/-! # Invariants of the singletons -/

set_option linter.unusedSectionVars false
set_option linter.unusedSimpArgs false

namespace Patro.Singleton

open Patro
open Patro.Counter (upd upd_self upd_ne)

variable {T : Type _} [DecidableEq T]

def Pc.critical : Pc → Prop
  | .checking _ | .constructing _ | .storing _ _ | .releasing _ | .raising _ => True
  | _ => False

/-- Objects created so far. -/
def creations (log : List Event) : List Nat :=
  log.filterMap fun e => match e with | .created x => some x | _ => none

@[simp] theorem creations_append (l1 l2 : List Event) : creations (l1 ++ l2) = creations l1 ++ creations l2 := by
  simp [creations]

structure Inv (s : Sys T) : Prop where
  holds : ∀ t, (s.pc t).critical → s.lock = some t
  held : ∀ t, s.lock = some t → (s.pc t).critical
  constr : ∀ t k, s.pc t = .constructing k → s.inst = none ∧ creations s.log = []
  raise : ∀ t k, s.pc t = .raising k → s.inst = none ∧ creations s.log = []
  stor : ∀ t k x, s.pc t = .storing k x → s.inst = none ∧ creations s.log = [x]
  rel : ∀ t k, (s.pc t = .releasing k ∨ s.pc t = .returning k) → s.inst ≠ none
  instSome : ∀ x, s.inst = some x → creations s.log = [x]
  instNone : s.inst = none → (∀ t k x, s.pc t ≠ .storing k x) → creations s.log = []
  rets : ∀ k o, Event.ret k o ∈ s.log → ∃ x, o = some x ∧ s.inst = some x

theorem Inv.unique {s : Sys T} (h : Inv s) {t u : T} (ht : (s.pc t).critical) (hu : (s.pc u).critical) :
    u = t := by
  have h1 := h.holds t ht
  have h2 := h.holds u hu
  rw [h1] at h2
  exact (Option.some.inj h2).symm

theorem inv {s : Sys T} (h : Reachable s) : Inv s := by
  induction h with
  | init =>
    refine ⟨?_, ?_, ?_, ?_, ?_, ?_, ?_, ?_, ?_⟩ <;> simp [init, Pc.critical, creations]
  | @step s s' t _ hs h =>
    have other : ∀ u p, u ≠ t → upd s.pc t p u = s.pc u := fun u p hu => upd_ne _ _ hu
    cases hs with
    | start hpc =>
      refine ⟨?_, ?_, ?_, ?_, ?_, ?_, ?_, ?_, ?_⟩
      · intro u
        by_cases hu : u = t
        · subst hu; simp [Pc.critical]
        · simpa [other u _ hu] using h.holds u
      · intro u hl
        by_cases hu : u = t
        · subst hu
          have := h.held u hl
          rw [hpc] at this
          exact this.elim
        · simpa [other u _ hu] using h.held u hl
      · intro u k
        by_cases hu : u = t
        · subst hu; simp
        · simpa [other u _ hu, creations] using h.constr u k
      · intro u k
        by_cases hu : u = t
        · subst hu; simp
        · simpa [other u _ hu, creations] using h.raise u k
      · intro u k x
        by_cases hu : u = t
        · subst hu; simp
        · simpa [other u _ hu, creations] using h.stor u k x
      · intro u k
        by_cases hu : u = t
        · subst hu; simp
        · simpa [other u _ hu] using h.rel u k
      · simpa [creations] using h.instSome
      · intro hn hst
        have := h.instNone hn (fun u k x => by
          by_cases hu : u = t
          · subst hu; rw [hpc]; simp
          · have := hst u k x; simpa [other u _ hu] using this)
        simpa [creations] using this
      · intro k o hr
        simp only [List.mem_append, List.mem_singleton, reduceCtorEq, or_false] at hr
        exact h.rets k o hr
    | acquire k hpc hl =>
      refine ⟨?_, ?_, ?_, ?_, ?_, ?_, h.instSome, ?_, h.rets⟩
      · intro u
        by_cases hu : u = t
        · subst hu; simp
        · intro hc
          simp only [other u _ hu] at hc
          have := h.holds u hc
          rw [hl] at this
          cases this
      · intro u hh
        simp only [Option.some.injEq] at hh
        subst hh
        simp [Pc.critical]
      · intro u k
        by_cases hu : u = t
        · subst hu; simp
        · simpa [other u _ hu] using h.constr u k
      · intro u k
        by_cases hu : u = t
        · subst hu; simp
        · simpa [other u _ hu] using h.raise u k
      · intro u k x
        by_cases hu : u = t
        · subst hu; simp
        · simpa [other u _ hu] using h.stor u k x
      · intro u k
        by_cases hu : u = t
        · subst hu; simp
        · simpa [other u _ hu] using h.rel u k
      · intro hn hst
        exact h.instNone hn (fun u k x => by
          by_cases hu : u = t
          · subst hu; rw [hpc]; simp
          · have := hst u k x; simpa [other u _ hu] using this)
    | checkNone k hpc hn =>
      have hcrit : (s.pc t).critical := by rw [hpc]; trivial
      have hempty : creations s.log = [] := h.instNone hn (fun u k x hh => by
        have := h.unique hcrit (u := u) (by rw [hh]; trivial)
        subst this
        rw [hpc] at hh; cases hh)
      refine ⟨?_, ?_, ?_, ?_, ?_, ?_, h.instSome, ?_, h.rets⟩
      · intro u
        by_cases hu : u = t
        · subst hu; intro _; exact h.holds u hcrit
        · simpa [other u _ hu] using h.holds u
      · intro u hh
        by_cases hu : u = t
        · subst hu; simp [Pc.critical]
        · simpa [other u _ hu] using h.held u hh
      · intro u k
        by_cases hu : u = t
        · subst hu; intro _; exact ⟨hn, hempty⟩
        · simpa [other u _ hu] using h.constr u k
      · intro u k
        by_cases hu : u = t
        · subst hu; simp
        · simpa [other u _ hu] using h.raise u k
      · intro u k x
        by_cases hu : u = t
        · subst hu; simp
        · simpa [other u _ hu] using h.stor u k x
      · intro u k
        by_cases hu : u = t
        · subst hu; simp
        · simpa [other u _ hu] using h.rel u k
      · intro _ _; exact hempty
    | checkSome k x hpc hsome =>
      have hcrit : (s.pc t).critical := by rw [hpc]; trivial
      refine ⟨?_, ?_, ?_, ?_, ?_, ?_, h.instSome, ?_, h.rets⟩
      · intro u
        by_cases hu : u = t
        · subst hu; intro _; exact h.holds u hcrit
        · simpa [other u _ hu] using h.holds u
      · intro u hh
        by_cases hu : u = t
        · subst hu; simp [Pc.critical]
        · simpa [other u _ hu] using h.held u hh
      · intro u k
        by_cases hu : u = t
        · subst hu; simp
        · simpa [other u _ hu] using h.constr u k
      · intro u k
        by_cases hu : u = t
        · subst hu; simp
        · simpa [other u _ hu] using h.raise u k
      · intro u k x
        by_cases hu : u = t
        · subst hu; simp
        · simpa [other u _ hu] using h.stor u k x
      · intro u k
        by_cases hu : u = t
        · subst hu; intro _; simp [hsome]
        · simpa [other u _ hu] using h.rel u k
      · intro hn; simp only at hn; rw [hsome] at hn; cases hn
    | constructOk k hpc =>
      have hcrit : (s.pc t).critical := by rw [hpc]; trivial
      obtain ⟨hn, hempty⟩ := h.constr t k hpc
      have hnew : creations (s.log ++ [Event.created s.freshObj]) = [s.freshObj] := by
        rw [creations_append, hempty]; rfl
      refine ⟨?_, ?_, ?_, ?_, ?_, ?_, ?_, ?_, ?_⟩
      · intro u
        by_cases hu : u = t
        · subst hu; intro _; exact h.holds u hcrit
        · simpa [other u _ hu] using h.holds u
      · intro u hh
        by_cases hu : u = t
        · subst hu; simp [Pc.critical]
        · simpa [other u _ hu] using h.held u hh
      · intro u k
        by_cases hu : u = t
        · subst hu; simp
        · simp only [other u _ hu]
          intro hh
          exact absurd (h.unique hcrit (by rw [hh]; trivial)) hu
      · intro u k
        by_cases hu : u = t
        · subst hu; simp
        · simp only [other u _ hu]
          intro hh
          exact absurd (h.unique hcrit (by rw [hh]; trivial)) hu
      · intro u k x
        by_cases hu : u = t
        · subst hu; intro hh
          simp only [upd_self, Pc.storing.injEq] at hh
          obtain ⟨_, rfl⟩ := hh
          exact ⟨hn, hnew⟩
        · simp only [other u _ hu]
          intro hh
          exact absurd (h.unique hcrit (by rw [hh]; trivial)) hu
      · intro u k
        by_cases hu : u = t
        · subst hu; simp
        · simpa [other u _ hu] using h.rel u k
      · intro x hx; simp only at hx; rw [hn] at hx; cases hx
      · intro _ hst
        exact absurd (upd_self _ _ _) (hst t k s.freshObj)
      · intro k o hr
        simp only [List.mem_append, List.mem_singleton, reduceCtorEq, or_false] at hr
        exact h.rets k o hr
    | constructRaise k hpc =>
      have hcrit : (s.pc t).critical := by rw [hpc]; trivial
      obtain ⟨hn, hempty⟩ := h.constr t k hpc
      refine ⟨?_, ?_, ?_, ?_, ?_, ?_, h.instSome, ?_, h.rets⟩
      · intro u
        by_cases hu : u = t
        · subst hu; intro _; exact h.holds u hcrit
        · simpa [other u _ hu] using h.holds u
      · intro u hh
        by_cases hu : u = t
        · subst hu; simp [Pc.critical]
        · simpa [other u _ hu] using h.held u hh
      · intro u k
        by_cases hu : u = t
        · subst hu; simp
        · simpa [other u _ hu] using h.constr u k
      · intro u k
        by_cases hu : u = t
        · subst hu; intro _; exact ⟨hn, hempty⟩
        · simpa [other u _ hu] using h.raise u k
      · intro u k x
        by_cases hu : u = t
        · subst hu; simp
        · simpa [other u _ hu] using h.stor u k x
      · intro u k
        by_cases hu : u = t
        · subst hu; simp
        · simpa [other u _ hu] using h.rel u k
      · intro _ _; exact hempty
    | store k x hpc =>
      have hcrit : (s.pc t).critical := by rw [hpc]; trivial
      obtain ⟨hn, hone⟩ := h.stor t k x hpc
      refine ⟨?_, ?_, ?_, ?_, ?_, ?_, ?_, ?_, ?_⟩
      · intro u
        by_cases hu : u = t
        · subst hu; intro _; exact h.holds u hcrit
        · simpa [other u _ hu] using h.holds u
      · intro u hh
        by_cases hu : u = t
        · subst hu; simp [Pc.critical]
        · simpa [other u _ hu] using h.held u hh
      · intro u k
        by_cases hu : u = t
        · subst hu; simp
        · simp only [other u _ hu]
          intro hh
          exact absurd (h.unique hcrit (by rw [hh]; trivial)) hu
      · intro u k
        by_cases hu : u = t
        · subst hu; simp
        · simp only [other u _ hu]
          intro hh
          exact absurd (h.unique hcrit (by rw [hh]; trivial)) hu
      · intro u k x
        by_cases hu : u = t
        · subst hu; simp
        · simp only [other u _ hu]
          intro hh
          exact absurd (h.unique hcrit (by rw [hh]; trivial)) hu
      · intro u k _; simp
      · intro y hy
        simp only [Option.some.injEq] at hy
        subst hy
        exact hone
      · intro hh; cases hh
      · intro k o hr
        obtain ⟨y, _, hy⟩ := h.rets k o hr
        rw [hn] at hy; cases hy
    | release k hpc =>
      have hcrit : (s.pc t).critical := by rw [hpc]; trivial
      refine ⟨?_, ?_, ?_, ?_, ?_, ?_, h.instSome, ?_, h.rets⟩
      · intro u
        by_cases hu : u = t
        · subst hu; simp [Pc.critical]
        · intro hc
          simp only [other u _ hu] at hc
          exact absurd (h.unique hcrit hc) hu
      · intro u; simp
      · intro u k
        by_cases hu : u = t
        · subst hu; simp
        · simpa [other u _ hu] using h.constr u k
      · intro u k
        by_cases hu : u = t
        · subst hu; simp
        · simpa [other u _ hu] using h.raise u k
      · intro u k x
        by_cases hu : u = t
        · subst hu; simp
        · simpa [other u _ hu] using h.stor u k x
      · intro u k'
        by_cases hu : u = t
        · subst hu; intro _; exact h.rel u k (Or.inl hpc)
        · simpa [other u _ hu] using h.rel u k'
      · intro hn hst
        exact h.instNone hn (fun u k x => by
          by_cases hu : u = t
          · subst hu; rw [hpc]; simp
          · have := hst u k x; simpa [other u _ hu] using this)
    | releaseRaise k hpc =>
      have hcrit : (s.pc t).critical := by rw [hpc]; trivial
      refine ⟨?_, ?_, ?_, ?_, ?_, ?_, ?_, ?_, ?_⟩
      · intro u
        by_cases hu : u = t
        · subst hu; simp [Pc.critical]
        · intro hc
          simp only [other u _ hu] at hc
          exact absurd (h.unique hcrit hc) hu
      · intro u; simp
      · intro u k
        by_cases hu : u = t
        · subst hu; simp
        · simpa [other u _ hu, creations] using h.constr u k
      · intro u k
        by_cases hu : u = t
        · subst hu; simp
        · simpa [other u _ hu, creations] using h.raise u k
      · intro u k x
        by_cases hu : u = t
        · subst hu; simp
        · simpa [other u _ hu, creations] using h.stor u k x
      · intro u k
        by_cases hu : u = t
        · subst hu; simp
        · simpa [other u _ hu] using h.rel u k
      · simpa [creations] using h.instSome
      · intro hn hst
        have := (h.raise t k hpc).2
        simpa [creations] using this
      · intro k o hr
        simp only [List.mem_append, List.mem_singleton, reduceCtorEq, or_false] at hr
        exact h.rets k o hr
    | ret k hpc =>
      have hne := h.rel t k (Or.inr hpc)
      refine ⟨?_, ?_, ?_, ?_, ?_, ?_, ?_, ?_, ?_⟩
      · intro u
        by_cases hu : u = t
        · subst hu; simp [Pc.critical]
        · simpa [other u _ hu] using h.holds u
      · intro u hl
        by_cases hu : u = t
        · subst hu
          have := h.held u hl
          rw [hpc] at this
          exact this.elim
        · simpa [other u _ hu] using h.held u hl
      · intro u k
        by_cases hu : u = t
        · subst hu; simp
        · simpa [other u _ hu, creations] using h.constr u k
      · intro u k
        by_cases hu : u = t
        · subst hu; simp
        · simpa [other u _ hu, creations] using h.raise u k
      · intro u k x
        by_cases hu : u = t
        · subst hu; simp
        · simpa [other u _ hu, creations] using h.stor u k x
      · intro u k
        by_cases hu : u = t
        · subst hu; simp
        · simpa [other u _ hu] using h.rel u k
      · simpa [creations] using h.instSome
      · intro hn; exact absurd hn hne
      · intro k' o hr
        simp only [List.mem_append, List.mem_singleton, Event.ret.injEq] at hr
        rcases hr with hr | ⟨_, rfl⟩
        · exact h.rets k' o hr
        · cases hi : s.inst with
          | none => exact absurd hi hne
          | some x => exact ⟨x, rfl, by simp [hi]⟩

/-- Invariant of the decorator when calls do not overlap: at most one thread is active. -/
structure SeqInv (s : Sys T) : Prop where
  one : ∀ t u, s.pc t ≠ .idle → s.pc u ≠ .idle → t = u
  noLock : ∀ t k, s.pc t ≠ .acquiring k ∧ s.pc t ≠ .releasing k ∧ s.pc t ≠ .raising k
  constr : ∀ t k, s.pc t = .constructing k → s.inst = none
  stor : ∀ t k x, s.pc t = .storing k x → s.inst = none ∧ creations s.log = [x]
  ret : ∀ t k, s.pc t = .returning k → s.inst ≠ none
  instSome : ∀ x, s.inst = some x → creations s.log = [x]
  instNone : s.inst = none → (∀ t k x, s.pc t ≠ .storing k x) → creations s.log = []
  rets : ∀ k o, Event.ret k o ∈ s.log → ∃ x, o = some x ∧ s.inst = some x

theorem seqInv {s : Sys T} (h : DSequential s) : SeqInv s := by
  induction h with
  | init => refine ⟨?_, ?_, ?_, ?_, ?_, ?_, ?_, ?_⟩ <;> simp [init, creations]
  | @step s s' t _ hs hseq h =>
    have other : ∀ u p, u ≠ t → upd s.pc t p u = s.pc u := fun u p hu => upd_ne _ _ hu
    -- every other thread is idle
    have idle : ∀ u, u ≠ t → s.pc u = .idle := by
      intro u hu
      by_cases ht : s.pc t = .idle
      · exact hseq ht u
      · by_contra hne
        exact hu (h.one u t hne ht)
    have oneOf : ∀ p, ∀ a b, upd s.pc t p a ≠ .idle → upd s.pc t p b ≠ .idle → a = b := by
      intro p a b ha hb
      have aux : ∀ a, upd s.pc t p a ≠ .idle → a = t := by
        intro a ha
        by_contra hne
        rw [other a p hne] at ha
        exact ha (idle a hne)
      rw [aux a ha, aux b hb]
    have pcs : ∀ p u, upd s.pc t p u = p ∧ u = t ∨ upd s.pc t p u = .idle := by
      intro p u
      by_cases hu : u = t
      · subst hu; left; simp
      · right; rw [other u p hu, idle u hu]
    have noL : ∀ p : Pc, (∀ k, p ≠ .acquiring k ∧ p ≠ .releasing k ∧ p ≠ .raising k) → ∀ u k,
        upd s.pc t p u ≠ .acquiring k ∧ upd s.pc t p u ≠ .releasing k ∧ upd s.pc t p u ≠ .raising k := by
      intro p hp u k
      rcases pcs p u with ⟨e, _⟩ | e
      · rw [e]; exact hp k
      · rw [e]; simp
    have fromPc : ∀ (p q : Pc) (u : T), q ≠ .idle → upd s.pc t p u = q → p = q := by
      intro p q u hq he
      rcases pcs p u with ⟨e, _⟩ | e
      · rw [← e, he]
      · rw [e] at he; exact absurd he.symm hq
    have hnone' : s.inst = none → (∀ k x, s.pc t ≠ .storing k x) → creations s.log = [] := by
      intro hn hst
      apply h.instNone hn
      intro u k x
      by_cases hu : u = t
      · subst hu; exact hst k x
      · rw [idle u hu]; simp
    cases hs with
    | start hpc =>
      refine ⟨oneOf _, noL _ (by simp), ?_, ?_, ?_, ?_, ?_, ?_⟩
      · intro u k hh; cases fromPc _ _ _ (by simp) hh
      · intro u k x hh; cases fromPc _ _ _ (by simp) hh
      · intro u k hh; cases fromPc _ _ _ (by simp) hh
      · simpa [creations] using h.instSome
      · intro hn _
        have := hnone' hn (by rw [hpc]; simp)
        simpa [creations] using this
      · intro k o hr
        simp only [List.mem_append, List.mem_singleton, reduceCtorEq, or_false] at hr
        exact h.rets k o hr
    | checkNone k hpc hn =>
      refine ⟨oneOf _, noL _ (by simp), ?_, ?_, ?_, h.instSome, ?_, h.rets⟩
      · intro u k hh; exact hn
      · intro u k x hh; cases fromPc _ _ _ (by simp) hh
      · intro u k hh; cases fromPc _ _ _ (by simp) hh
      · intro _ _; exact hnone' hn (by rw [hpc]; simp)
    | checkSome k x hpc hsome =>
      refine ⟨oneOf _, noL _ (by simp), ?_, ?_, ?_, h.instSome, ?_, h.rets⟩
      · intro u k hh; cases fromPc _ _ _ (by simp) hh
      · intro u k x hh; cases fromPc _ _ _ (by simp) hh
      · intro u k hh; simp [hsome]
      · intro hn _; simp only at hn; rw [hsome] at hn; cases hn
    | constructOk k hpc =>
      have hn := h.constr t k hpc
      have hempty := hnone' hn (by rw [hpc]; simp)
      refine ⟨oneOf _, noL _ (by simp), ?_, ?_, ?_, ?_, ?_, ?_⟩
      · intro u k hh; exact hn
      · intro u k' x hh
        have := fromPc _ _ _ (by simp) hh
        simp only [Pc.storing.injEq] at this
        refine ⟨hn, ?_⟩
        simp only [creations_append, hempty]
        simp [creations, this.2]
      · intro u k hh; cases fromPc _ _ _ (by simp) hh
      · intro x hx; simp only at hx; rw [hn] at hx; cases hx
      · intro _ hst; exact absurd (upd_self _ _ _) (hst t k s.freshObj)
      · intro k o hr
        simp only [List.mem_append, List.mem_singleton, reduceCtorEq, or_false] at hr
        exact h.rets k o hr
    | constructRaise k hpc =>
      have hn := h.constr t k hpc
      have hempty := hnone' hn (by rw [hpc]; simp)
      refine ⟨oneOf _, noL _ (by simp), ?_, ?_, ?_, ?_, ?_, ?_⟩
      · intro u k hh; exact hn
      · intro u k x hh; cases fromPc _ _ _ (by simp) hh
      · intro u k hh; cases fromPc _ _ _ (by simp) hh
      · intro x hx; simp only at hx; rw [hn] at hx; cases hx
      · intro _ _; simp only [creations_append, hempty]; rfl
      · intro k o hr
        simp only [List.mem_append, List.mem_singleton, reduceCtorEq, or_false] at hr
        exact h.rets k o hr
    | store k x hpc =>
      obtain ⟨hn, hone⟩ := h.stor t k x hpc
      refine ⟨oneOf _, noL _ (by simp), ?_, ?_, ?_, ?_, ?_, ?_⟩
      · intro u k hh; cases fromPc _ _ _ (by simp) hh
      · intro u k x hh; cases fromPc _ _ _ (by simp) hh
      · intro u k hh; simp
      · intro y hy
        simp only [Option.some.injEq] at hy
        subst hy
        exact hone
      · intro hh; cases hh
      · intro k o hr
        obtain ⟨y, _, hy⟩ := h.rets k o hr
        rw [hn] at hy; cases hy
    | ret k hpc =>
      have hne := h.ret t k hpc
      refine ⟨oneOf _, noL _ (by simp), ?_, ?_, ?_, ?_, ?_, ?_⟩
      · intro u k hh; cases fromPc _ _ _ (by simp) hh
      · intro u k x hh; cases fromPc _ _ _ (by simp) hh
      · intro u k hh; exact hne
      · simpa [creations] using h.instSome
      · intro hn; exact absurd hn hne
      · intro k' o hr
        simp only [List.mem_append, List.mem_singleton, Event.ret.injEq] at hr
        rcases hr with hr | ⟨_, rfl⟩
        · exact h.rets k' o hr
        · cases hi : s.inst with
          | none => exact absurd hi hne
          | some x => exact ⟨x, rfl, by simp [hi]⟩

end Patro.Singleton
