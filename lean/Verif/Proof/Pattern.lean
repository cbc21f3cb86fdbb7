import Verif.Spec.Pattern
import Verif.Proof.Graph
import Mathlib.Data.List.Nodup
import Mathlib.Tactic.Common
import Mathlib.Order.Lattice
import Mathlib.Data.Nat.Basic
/-! # Invariants of sketches -/

namespace Patro.Pattern

open Patro

theorem mapM_ok {α β : Type _} (f : α → Except PyErr β) (l : List α) (r : List β) (h : l.mapM f = .ok r) :
    List.Forall₂ (fun a b => f a = .ok b) l r := by
  induction l generalizing r with
  | nil =>
    rw [List.mapM_nil] at h
    cases h; exact List.Forall₂.nil
  | cons a l ih =>
    rw [List.mapM_cons] at h
    cases ha : f a with
    | error e => rw [ha] at h; cases h
    | ok b =>
      rw [ha] at h
      cases hl : l.mapM f with
      | error e => rw [hl] at h; cases h
      | ok bs =>
        rw [hl] at h
        cases h
        exact List.Forall₂.cons ha (ih bs hl)

theorem mapM_error {α β : Type _} (f : α → Except PyErr β) (l : List α) (e : PyErr) (h : l.mapM f = .error e) :
    ∃ a ∈ l, f a = .error e := by
  induction l with
  | nil => rw [List.mapM_nil] at h; cases h
  | cons a l ih =>
    rw [List.mapM_cons] at h
    cases ha : f a with
    | error e' =>
      rw [ha] at h
      cases h
      exact ⟨a, List.mem_cons_self, ha⟩
    | ok b =>
      rw [ha] at h
      cases hl : l.mapM f with
      | error e' =>
        rw [hl] at h
        cases h
        obtain ⟨x, hx, hf⟩ := ih hl
        exact ⟨x, List.mem_cons_of_mem _ hx, hf⟩
      | ok bs => rw [hl] at h; cases h

theorem forall₂_mem_right {α β : Type _} {R : α → β → Prop} {l : List α} {r : List β} (h : List.Forall₂ R l r) (b : β)
    (hb : b ∈ r) : ∃ a ∈ l, R a b := by
  induction h with
  | nil => cases hb
  | cons h1 _ ih =>
    rcases List.mem_cons.1 hb with rfl | hb
    · exact ⟨_, List.mem_cons_self, h1⟩
    · obtain ⟨a, ha, hr⟩ := ih hb
      exact ⟨a, List.mem_cons_of_mem _ ha, hr⟩

theorem forall₂_mem_left {α β : Type _} {R : α → β → Prop} {l : List α} {r : List β} (h : List.Forall₂ R l r) (a : α)
    (ha : a ∈ l) : ∃ b ∈ r, R a b := by
  induction h with
  | nil => cases ha
  | cons h1 _ ih =>
    rcases List.mem_cons.1 ha with rfl | ha
    · exact ⟨_, List.mem_cons_self, h1⟩
    · obtain ⟨b, hb, hr⟩ := ih ha
      exact ⟨b, List.mem_cons_of_mem _ hb, hr⟩

theorem getItem_ok {κ β : Type _} [DecidableEq κ] (d : Dict κ β) (k : κ) (v : β) :
    d.getItem k = .ok v ↔ d.get? k = some v := by
  unfold Dict.getItem
  cases d.get? k <;> simp

theorem getItem_error {κ β : Type _} [DecidableEq κ] (d : Dict κ β) (k : κ) (e : PyErr) :
    d.getItem k = .error e ↔ d.get? k = none ∧ e = .keyError := by
  unfold Dict.getItem
  cases d.get? k <;> simp [eq_comm]

/-! ## The graph -/

/-- Invariant of the graph: nodes are keyed by themselves, edges go upwards. -/
structure DInv (strict : Prop) (dag : Graph.G Uid) : Prop where
  reach : Graph.Reachable dag
  nodes : ∀ u r, dag.nodes.get? u = some r → r = u ∧ u < dag.next
  edges : ∀ a b, a ∈ dag.anc b → a ≤ b ∧ (strict → a < b)

theorem values_of_get? {κ β : Type _} [DecidableEq κ] {d : Dict κ β} {k : κ} {v : β} (h : d.get? k = some v) :
    v ∈ d.values := List.mem_map_of_mem (f := Prod.snd) (Dict.mem_of_get? h)

theorem connectAncestors_inv (strict : Prop) (u : Uid) (ps : List Uid) (dag : Graph.G Uid) (h : DInv strict dag)
    (hu : dag.nodes.get? u = some u) (hps : ∀ p ∈ ps, dag.nodes.get? p = some p → p ≤ u ∧ (strict → p < u)) :
    DInv strict (connectAncestors dag u ps).1 ∧ (connectAncestors dag u ps).1.nodes = dag.nodes ∧
      (connectAncestors dag u ps).1.next = dag.next ∧
      ((connectAncestors dag u ps).2 = .ok () ↔ ∀ p ∈ ps, dag.nodes.get? p = some p) ∧
      (∀ e, (connectAncestors dag u ps).2 = .error e → e = .keyError) ∧
      (∀ a b, a ∈ dag.anc b → a ∈ (connectAncestors dag u ps).1.anc b) ∧
      ((connectAncestors dag u ps).2 = .ok () → ∀ p ∈ ps, p ∈ (connectAncestors dag u ps).1.anc u) := by
  induction ps generalizing dag with
  | nil => exact ⟨h, rfl, rfl, by simp [connectAncestors], (by intro e he; cases he), fun _ _ h => h, by simp⟩
  | cons p ps ih =>
    rw [connectAncestors]
    cases hg : dag.getItem p with
    | error e =>
      simp only
      unfold Graph.G.getItem at hg
      rw [getItem_error] at hg
      refine ⟨h, trivial, trivial, ?_, ?_, fun _ _ h => h, ?_⟩
      · constructor
        · intro hh; cases hh
        · intro hh
          have := hh p List.mem_cons_self
          rw [hg.1] at this; cases this
      · intro e' he; cases he; exact hg.2
      · intro hh; cases hh
    | ok r =>
      simp only
      unfold Graph.G.getItem at hg
      rw [getItem_ok] at hg
      obtain ⟨rfl, hlt⟩ := h.nodes p r hg
      have hp := hps r List.mem_cons_self hg
      have h' : DInv strict (dag.connectAncestor u r) := by
        refine ⟨Graph.Reachable.connect h.reach (values_of_get? hu) (values_of_get? hg), h.nodes, ?_⟩
        intro a b hab
        simp only [Graph.G.connectAncestor, Graph.upd_apply] at hab
        split at hab
        · rename_i hb
          subst hb
          rcases (Graph.setAdd_mem _ _ _).1 hab with hab | hab
          · exact h.edges a b hab
          · subst hab; exact hp
        · exact h.edges a b hab
      have hmono : ∀ a b, a ∈ dag.anc b → a ∈ (dag.connectAncestor u r).anc b := by
        intro a b hab
        simp only [Graph.G.connectAncestor, Graph.upd_apply]
        split
        · rename_i hb
          subst hb
          exact (Graph.setAdd_mem _ _ _).2 (Or.inl hab)
        · exact hab
      have hself : r ∈ (dag.connectAncestor u r).anc u := by
        simp only [Graph.G.connectAncestor, Graph.upd_apply, if_true]
        exact (Graph.setAdd_mem _ _ _).2 (Or.inr rfl)
      obtain ⟨h1, h2, h3, h4, h5, h6, h7⟩ := ih (dag.connectAncestor u r) h' hu
        (fun q hq => hps q (List.mem_cons_of_mem _ hq))
      refine ⟨h1, h2, h3, ?_, h5, fun a b hab => h6 a b (hmono a b hab), ?_⟩
      · rw [h4]
        constructor
        · intro hh q hq
          rcases List.mem_cons.1 hq with rfl | hq
          · exact hg
          · exact hh q hq
        · intro hh q hq
          exact hh q (List.mem_cons_of_mem _ hq)
      · intro hok q hq
        rcases List.mem_cons.1 hq with rfl | hq
        · exact h6 _ _ hself
        · exact h7 hok q hq

/-! ## Expressions -/

/-- Invariant of an expression of the operation `uid` called `name`, `uids` being the operations of the sketch. -/
structure EInv (strict : Prop) (uids : List Uid) (uid : Uid) (name : Option Key) (e : Expr) : Prop where
  valRes : e.hasValue = true → ∃ us, e.resolved = some us
  res : ∀ us, e.resolved = some us → ∀ d ∈ us, d ∈ uids ∧ d ≤ uid ∧ (d = uid → ∃ n, name = some n ∧ n ∈ e.deps)
  read : ∀ d ∈ e.readFrom, d ∈ uids ∧ d < uid
  selfVal : e.hasValue = true → ∀ n, name = some n → n ∉ e.reads
  hidden : strict → ∀ n, name = some n → n ∈ e.deps → n ∈ e.reads

/-- What is known of the points when the operation `uid` is evaluated and one of its expressions has no value. -/
structure PInv (points : Dict Key Uid) (vec : List Uid) (uids : List Uid) (uid : Uid) (name : Option Key) : Prop where
  known : ∀ n u, points.get? n = some u → u ∈ uids
  own : ∀ n, name = some n → points.get? n = some uid
  own' : ∀ n, points.get? n = some uid → name = some n
  early : ∀ n u, points.get? n = some u → u ≤ uid
  novec : uid ∉ vec

theorem valueExpr_inv {strict : Prop} {points : Dict Key Uid} {vec uids : List Uid} {uid : Uid} {name : Option Key}
    {e : Expr} (h : EInv strict uids uid name e) (hres : ∃ us, e.resolved = some us)
    (hp : e.hasValue = false → PInv points vec uids uid name) :
    EInv strict uids uid name (valueExpr points vec e).1 ∧
      ((valueExpr points vec e).2 = .ok () → (valueExpr points vec e).1.hasValue = true) ∧
      (e.hasValue = true → (valueExpr points vec e).1.hasValue = true) := by
  unfold valueExpr
  by_cases hv : e.hasValue = true
  · rw [if_pos hv]; exact ⟨h, fun _ => hv, fun _ => hv⟩
  · rw [if_neg hv]
    have hp := hp (by simpa using hv)
    cases hr : runExpr points vec e with
    | error err => exact ⟨h, (by intro hh; cases hh), fun hh => absurd hh hv⟩
    | ok us =>
      simp only
      unfold runExpr at hr
      cases hm : e.reads.mapM points.getItem with
      | error err => rw [hm] at hr; cases hr
      | ok us' =>
        rw [hm] at hr
        simp only at hr
        split at hr
        · rename_i hall
          cases hr
          have hf := mapM_ok _ _ _ hm
          have hvec : ∀ u ∈ us, u ∈ vec := by
            simp only [Bool.and_eq_true, List.all_eq_true, decide_eq_true_eq] at hall
            exact hall.1
          refine ⟨⟨fun _ => hres, h.res, ?_, ?_, h.hidden⟩, by simp, by simp⟩
          · intro d hd
            obtain ⟨k, _, hk⟩ := forall₂_mem_right hf d hd
            rw [getItem_ok] at hk
            refine ⟨hp.known k d hk, lt_of_le_of_ne (hp.early k d hk) ?_⟩
            rintro rfl
            exact hp.novec (hvec d hd)
          · intro _ n hn hmem
            obtain ⟨u, hu, hk⟩ := forall₂_mem_left hf n hmem
            rw [getItem_ok, hp.own n hn] at hk
            cases hk
            exact hp.novec (hvec uid hu)
        · cases hr

theorem evalExpr_inv {strict : Prop} {points : Dict Key Uid} {vec uids : List Uid} {uid : Uid} {name : Option Key}
    {e : Expr} (h : EInv strict uids uid name e) (hp : e.hasValue = false → PInv points vec uids uid name) :
    EInv strict uids uid name (evalExpr points vec e).1 ∧
      ((evalExpr points vec e).2 = .ok () → (evalExpr points vec e).1.hasValue = true) ∧
      (e.hasValue = true → (evalExpr points vec e).1.hasValue = true) := by
  unfold evalExpr
  cases hr : e.resolved with
  | some us => exact valueExpr_inv h ⟨us, hr⟩ hp
  | none =>
    have hv : e.hasValue = false := by
      cases hv : e.hasValue with
      | false => rfl
      | true =>
        obtain ⟨us, hus⟩ := h.valRes hv
        rw [hus] at hr; cases hr
    have hp' := hp hv
    cases hm : e.deps.mapM points.getItem with
    | error err => exact ⟨h, (by intro hh; cases hh), fun hh => hh⟩
    | ok us =>
      simp only
      have hf := mapM_ok _ _ _ hm
      have h' : EInv strict uids uid name { e with resolved := some us } := by
        refine ⟨fun _ => ⟨us, rfl⟩, ?_, h.read, h.selfVal, h.hidden⟩
        intro us' hus d hd
        cases hus
        obtain ⟨k, hkm, hk⟩ := forall₂_mem_right hf d hd
        rw [getItem_ok] at hk
        refine ⟨hp'.known k d hk, hp'.early k d hk, ?_⟩
        rintro rfl
        exact ⟨k, hp'.own' k hk, hkm⟩
      obtain ⟨h1, h2, h3⟩ := valueExpr_inv (points := points) (vec := vec) h' ⟨us, rfl⟩ (fun _ => hp')
      exact ⟨h1, h2, fun hh => absurd hh (by rw [hv]; simp)⟩

theorem evalExprs_inv {strict : Prop} {points : Dict Key Uid} {vec uids : List Uid} {uid : Uid} {name : Option Key}
    (es : List Expr) (h : ∀ e ∈ es, EInv strict uids uid name e)
    (hp : ∀ e ∈ es, e.hasValue = false → PInv points vec uids uid name) :
    (∀ e ∈ (evalExprs points vec es).1, EInv strict uids uid name e) ∧
      ((evalExprs points vec es).2 = .ok () → ∀ e ∈ (evalExprs points vec es).1, e.hasValue = true) ∧
      ((∀ e ∈ es, e.hasValue = true) → ∀ e ∈ (evalExprs points vec es).1, e.hasValue = true) ∧
      (es = [] → (evalExprs points vec es).1 = []) := by
  induction es with
  | nil => simp [evalExprs]
  | cons e es ih =>
    obtain ⟨h1, h2, h3⟩ := evalExpr_inv (h e List.mem_cons_self) (hp e List.mem_cons_self)
    obtain ⟨i1, i2, i3, _⟩ := ih (fun x hx => h x (List.mem_cons_of_mem _ hx))
      (fun x hx => hp x (List.mem_cons_of_mem _ hx))
    rw [evalExprs]
    cases hr : evalExpr points vec e with
    | mk e' r =>
      rw [hr] at h1 h2 h3
      simp only at h1 h2 h3
      cases r with
      | error err =>
        simp only
        refine ⟨?_, (by intro hh; cases hh), ?_, (by intro hh; cases hh)⟩
        · intro x hx
          rcases List.mem_cons.1 hx with rfl | hx
          · exact h1
          · exact h x (List.mem_cons_of_mem _ hx)
        · intro hall x hx
          rcases List.mem_cons.1 hx with rfl | hx
          · exact h3 (hall e List.mem_cons_self)
          · exact hall x (List.mem_cons_of_mem _ hx)
      | ok _ =>
        simp only
        cases hr' : evalExprs points vec es with
        | mk es' r' =>
          rw [hr'] at i1 i2 i3
          simp only at i1 i2 i3 ⊢
          refine ⟨?_, ?_, ?_, (by intro hh; cases hh)⟩
          · intro x hx
            rcases List.mem_cons.1 hx with rfl | hx
            · exact h1
            · exact i1 x hx
          · intro hok x hx
            rcases List.mem_cons.1 hx with rfl | hx
            · exact h2 rfl
            · exact i2 hok x hx
          · intro hall x hx
            rcases List.mem_cons.1 hx with rfl | hx
            · exact h3 (hall e List.mem_cons_self)
            · exact i3 (fun y hy => hall y (List.mem_cons_of_mem _ hy)) x hx

/-! ## Sketches -/

/-- All the expressions of the operation have their value. -/
def Op.Complete (o : Op) : Prop := ∀ e ∈ o.exprs, e.hasValue = true

/-- The latest operation registered under a key. -/
def latest (ops : List Op) (k : Key) : Option Op := ops.reverse.find? fun o => decide (o.Registered k)

/-- Invariant of a sketch with the operations `ops`. -/
structure Inv (strict : Prop) (s : Sk) : Prop where
  dag : DInv strict s.dag
  uids : (s.ops.map Op.uid).Pairwise (· < ·)
  mem : ∀ o ∈ s.ops, s.dag.nodes.get? o.uid = some o.uid
  dict : ∀ k, s.dict.get? k = (latest s.ops k).map Op.uid
  ids : (s.ops.map Op.id).Pairwise (· < ·)
  idsLe : ∀ o ∈ s.ops, o.id ≤ s.counter
  refs : ∀ o ∈ s.ops, ∀ r ∈ o.refs, r < o.uid ∧ r ∈ s.ops.map Op.uid
  pts : ∀ n u, s.points.get? n = some u → ∃ o ∈ s.ops, o.uid = u ∧ o.name = some n
  ptsDone : ∀ n u, s.points.get? n = some u → ∀ o ∈ s.ops, o.uid < u → o.Complete
  vecDone : ∀ o ∈ s.ops, o.uid ∈ s.vec → o.Complete
  vecMem : ∀ u ∈ s.vec, u ∈ s.ops.map Op.uid
  expr : ∀ o ∈ s.ops, ∀ e ∈ o.exprs, EInv strict (s.ops.map Op.uid) o.uid o.name e
  line : ∀ o ∈ s.ops, o.kind = .line → o.exprs = []

/-- Two versions of the same operation object. -/
structure Op.Same (o o' : Op) : Prop where
  uid : o'.uid = o.uid
  id : o'.id = o.id
  kind : o'.kind = o.kind
  refs : o'.refs = o.refs

theorem Op.Same.name {o o' : Op} (h : o.Same o') : o'.name = o.name := by
  unfold Op.name; rw [h.kind]

theorem latest_update (done todo : List Op) (o o' : Op) (h : o.Same o') (k : Key) :
    (latest (done ++ o' :: todo) k).map Op.uid = (latest (done ++ o :: todo) k).map Op.uid := by
  unfold latest
  have hreg : decide (o'.Registered k) = decide (o.Registered k) := by
    rw [decide_eq_decide]; simp only [Op.Registered, h.id, h.name]
  simp only [List.reverse_append, List.reverse_cons, List.append_assoc, List.find?_append]
  cases hd : (todo.reverse.find? fun o => decide (o.Registered k)) with
  | some x => simp
  | none =>
    simp only [Option.none_or, List.find?_cons, List.find?_nil]
    rw [hreg]
    cases decide (o.Registered k) with
    | true => simp [h.uid]
    | false => simp

theorem Inv.update {strict : Prop} {s : Sk} {done todo : List Op} {o o' : Op}
    (h : Inv strict { s with ops := done ++ o :: todo }) (hs : o.Same o') (hc : o.Complete → o'.Complete)
    (hE : ∀ e ∈ o'.exprs, EInv strict ((done ++ o :: todo).map Op.uid) o.uid o.name e)
    (hl : o'.kind = .line → o'.exprs = []) :
    Inv strict { s with ops := done ++ o' :: todo } := by
  have hu : (done ++ o' :: todo).map Op.uid = (done ++ o :: todo).map Op.uid := by simp [hs.uid]
  have hi : (done ++ o' :: todo).map Op.id = (done ++ o :: todo).map Op.id := by simp [hs.id]
  have hmem : ∀ x ∈ done ++ o' :: todo, (x = o' ∧ o ∈ done ++ o :: todo) ∨ x ∈ done ++ o :: todo := by
    intro x hx
    simp only [List.mem_append, List.mem_cons] at hx ⊢
    rcases hx with hx | rfl | hx
    · exact Or.inr (Or.inl hx)
    · exact Or.inl ⟨rfl, Or.inr (Or.inl trivial)⟩
    · exact Or.inr (Or.inr (Or.inr hx))
  refine ⟨h.dag, ?_, ?_, ?_, ?_, ?_, ?_, ?_, ?_, ?_, by rw [hu]; exact h.vecMem, ?_, ?_⟩
  · rw [hu]; exact h.uids
  · intro x hx
    rcases hmem x hx with ⟨rfl, ho⟩ | hx
    · rw [hs.uid]; exact h.mem o ho
    · exact h.mem x hx
  · intro k
    rw [h.dict k]
    exact (latest_update done todo o o' hs k).symm
  · rw [hi]; exact h.ids
  · intro x hx
    rcases hmem x hx with ⟨rfl, ho⟩ | hx
    · rw [hs.id]; exact h.idsLe o ho
    · exact h.idsLe x hx
  · intro x hx
    rw [hu]
    rcases hmem x hx with ⟨rfl, ho⟩ | hx
    · rw [hs.uid, hs.refs]; exact h.refs o ho
    · exact h.refs x hx
  · intro n u hn
    obtain ⟨x, hx, h1, h2⟩ := h.pts n u hn
    simp only [List.mem_append, List.mem_cons] at hx
    rcases hx with hx | rfl | hx
    · exact ⟨x, by simp [hx], h1, h2⟩
    · exact ⟨o', by simp, by rw [hs.uid]; exact h1, by rw [hs.name]; exact h2⟩
    · exact ⟨x, by simp [hx], h1, h2⟩
  · intro n u hn x hx hlt
    rcases hmem x hx with ⟨rfl, ho⟩ | hx
    · exact hc (h.ptsDone n u hn o ho (by rw [← hs.uid]; exact hlt))
    · exact h.ptsDone n u hn x hx hlt
  · intro x hx hv
    rcases hmem x hx with ⟨rfl, ho⟩ | hx
    · exact hc (h.vecDone o ho (by rw [← hs.uid]; exact hv))
    · exact h.vecDone x hx hv
  · intro x hx
    rw [hu]
    rcases hmem x hx with ⟨rfl, ho⟩ | hx
    · rw [hs.uid, hs.name]; exact hE
    · exact h.expr x hx
  · intro x hx
    rcases hmem x hx with ⟨rfl, ho⟩ | hx
    · exact hl
    · exact h.line x hx

theorem connectExprs_inv (strict : Prop) (u : Uid) (name : Option Key) (uids : List Uid) (es : List Expr)
    (dag : Graph.G Uid) (h : DInv strict dag) (hu : dag.nodes.get? u = some u)
    (hE : ∀ e ∈ es, EInv strict uids u name e) (hv : ∀ e ∈ es, e.hasValue = true)
    (hmem : ∀ d ∈ uids, dag.nodes.get? d = some d) :
    DInv strict (connectExprs dag u es).1 ∧ (connectExprs dag u es).1.nodes = dag.nodes ∧
      (connectExprs dag u es).1.next = dag.next ∧ (connectExprs dag u es).2 = .ok () ∧
      (∀ a b, a ∈ dag.anc b → a ∈ (connectExprs dag u es).1.anc b) ∧
      (∀ e ∈ es, ∀ us, e.resolved = some us → ∀ d ∈ us, d ∈ (connectExprs dag u es).1.anc u) := by
  induction es generalizing dag with
  | nil => exact ⟨h, rfl, rfl, rfl, fun _ _ h => h, by simp⟩
  | cons e es ih =>
    have he := hE e List.mem_cons_self
    have hve := hv e List.mem_cons_self
    obtain ⟨us, hus⟩ := he.valRes hve
    rw [connectExprs, hus]
    simp only
    have hps : ∀ p ∈ us, dag.nodes.get? p = some p → p ≤ u ∧ (strict → p < u) := by
      intro p hp _
      obtain ⟨_, h2, h3⟩ := he.res us hus p hp
      refine ⟨h2, fun hst => lt_of_le_of_ne h2 ?_⟩
      intro e'
      obtain ⟨n, hn, hd⟩ := h3 e'
      exact he.selfVal hve n hn (he.hidden hst n hn hd)
    obtain ⟨c1, c2, c3, c4, _, c6, c7⟩ := connectAncestors_inv strict u us dag h hu hps
    have hok : (connectAncestors dag u us).2 = .ok () := by
      rw [c4]
      intro p hp
      exact hmem p (he.res us hus p hp).1
    have c7 := c7 hok
    cases hc : connectAncestors dag u us with
    | mk dag' r =>
      rw [hc] at c1 c2 c3 c6 c7 hok
      simp only at hok c1 c2 c3 c6 c7
      subst hok
      simp only
      obtain ⟨i1, i2, i3, i4, i5, i6⟩ := ih dag' c1 (by rw [c2]; exact hu)
        (fun x hx => hE x (List.mem_cons_of_mem _ hx)) (fun x hx => hv x (List.mem_cons_of_mem _ hx))
        (by rw [c2]; exact hmem)
      refine ⟨i1, by rw [i2, c2], by rw [i3, c3], i4, fun a b hab => i5 a b (c6 a b hab), ?_⟩
      intro x hx us' hus' d hd
      rcases List.mem_cons.1 hx with rfl | hx
      · rw [hus] at hus'; cases hus'
        exact i5 d u (c7 d hd)
      · exact i6 x hx us' hus' d hd

/-- What `evalOp` does to an operation and to the set of computed positions. -/
theorem evalOp_inv {strict : Prop} (geom : Uid → Geom) {points : Dict Key Uid} {vec uids : List Uid} (o : Op)
    (h : ∀ e ∈ o.exprs, EInv strict uids o.uid o.name e)
    (hp : (∃ e ∈ o.exprs, e.hasValue = false) → PInv points vec uids o.uid o.name)
    (hline : o.kind = .line → o.exprs = []) :
    o.Same (evalOp geom points vec o).1 ∧
      (∀ e ∈ (evalOp geom points vec o).1.exprs, EInv strict uids o.uid o.name e) ∧
      (o.Complete → (evalOp geom points vec o).1.Complete) ∧
      ((evalOp geom points vec o).2.2 = .ok () → (evalOp geom points vec o).1.Complete) ∧
      (∀ x ∈ (evalOp geom points vec o).2.1, x ∈ vec ∨ (x = o.uid ∧ (evalOp geom points vec o).1.Complete)) ∧
      (o.exprs = [] → (evalOp geom points vec o).1.exprs = []) := by
  obtain ⟨h1, h2, h3, h4⟩ := evalExprs_inv (points := points) (vec := vec) o.exprs h
    (fun e he hv => hp ⟨e, he, hv⟩)
  have self : o.Same o := ⟨rfl, rfl, rfl, rfl⟩
  have hmemv : ∀ x, x ∈ (if o.uid ∈ vec then vec else vec ++ [o.uid]) → x ∈ vec ∨ x = o.uid := by
    intro x hx
    split at hx
    · exact Or.inl hx
    · rcases List.mem_append.1 hx with hx | hx
      · exact Or.inl hx
      · exact Or.inr (List.mem_singleton.1 hx)
  unfold evalOp
  cases hk : o.kind with
  | line =>
    simp only
    refine ⟨self, h, fun hc => hc, ?_, fun x hx => Or.inl hx, fun hh => hh⟩
    intro _ e he
    rw [hline hk] at he; cases he
  | point n =>
    have same : ∀ es, o.Same { o with kind := .point n, exprs := es } := fun es => ⟨rfl, rfl, hk.symm, rfl⟩
    simp only
    cases hn : needRefs vec o with
    | error e => exact ⟨self, h, fun hc => hc, (by intro hh; cases hh), fun x hx => Or.inl hx, fun hh => hh⟩
    | ok _ =>
      simp only
      cases hr : evalExprs points vec o.exprs with
      | mk es r =>
        rw [hr] at h1 h2 h3 h4
        simp only at h1 h2 h3 h4
        cases r with
        | error e => exact ⟨same es, h1, h3, (by intro hh; cases hh), fun x hx => Or.inl hx, h4⟩
        | ok _ =>
          simp only
          cases geom o.uid with
          | position =>
            refine ⟨same es, h1, h3, fun _ => h2 rfl, ?_, h4⟩
            intro x hx
            rcases hmemv x hx with hx | hx
            · exact Or.inl hx
            · exact Or.inr ⟨hx, h2 rfl⟩
          | null =>
            refine ⟨same es, h1, h3, fun _ => h2 rfl, ?_, h4⟩
            intro x hx
            exact Or.inl (List.mem_of_mem_filter hx)
          | raises e => exact ⟨same es, h1, h3, (by intro hh; cases hh), fun x hx => Or.inl hx, h4⟩
  | spline =>
    have same : ∀ es, o.Same { o with kind := .spline, exprs := es } := fun es => ⟨rfl, rfl, hk.symm, rfl⟩
    simp only
    cases hr : evalExprs points vec o.exprs with
    | mk es r =>
      rw [hr] at h1 h2 h3 h4
      simp only at h1 h2 h3 h4
      cases r with
      | error e => exact ⟨same es, h1, h3, (by intro hh; cases hh), fun x hx => Or.inl hx, h4⟩
      | ok _ =>
        simp only
        cases hn : needRefs vec o with
        | error e => exact ⟨same es, h1, h3, (by intro hh; cases hh), fun x hx => Or.inl hx, h4⟩
        | ok _ =>
          simp only
          cases geom o.uid with
          | position =>
            refine ⟨same es, h1, h3, fun _ => h2 rfl, ?_, h4⟩
            intro x hx
            rcases hmemv x hx with hx | hx
            · exact Or.inl hx
            · exact Or.inr ⟨hx, h2 rfl⟩
          | null =>
            refine ⟨same es, h1, h3, fun _ => h2 rfl, ?_, h4⟩
            intro x hx
            exact Or.inl (List.mem_of_mem_filter hx)
          | raises e => exact ⟨same es, h1, h3, (by intro hh; cases hh), fun x hx => Or.inl hx, h4⟩

theorem uid_inj {ops : List Op} (h : (ops.map Op.uid).Pairwise (· < ·)) {a b : Op} (ha : a ∈ ops) (hb : b ∈ ops)
    (e : a.uid = b.uid) : a = b := by
  have hn : (ops.map Op.uid).Nodup := h.imp (fun h => Nat.ne_of_lt h)
  exact List.inj_on_of_nodup_map hn ha hb e

/-- The static part of the operations is unchanged. -/
def SameOps (l l' : List Op) : Prop := List.Forall₂ Op.Same l l'

theorem SameOps.refl (l : List Op) : SameOps l l := by
  induction l with
  | nil => exact List.Forall₂.nil
  | cons a l ih => exact List.Forall₂.cons ⟨rfl, rfl, rfl, rfl⟩ ih

theorem Op.Same.trans {a b c : Op} (h : a.Same b) (h' : b.Same c) : a.Same c :=
  ⟨h'.uid.trans h.uid, h'.id.trans h.id, h'.kind.trans h.kind, h'.refs.trans h.refs⟩

theorem SameOps.append {a b c d : List Op} (h : SameOps a b) (h' : SameOps c d) : SameOps (a ++ c) (b ++ d) := by
  induction h with
  | nil => exact h'
  | cons h1 _ ih => exact List.Forall₂.cons h1 ih

theorem SameOps.trans {a b c : List Op} (h : SameOps a b) (h' : SameOps b c) : SameOps a c := by
  induction h generalizing c with
  | nil => exact h'
  | cons h1 _ ih =>
    cases h' with
    | cons h2 h3 => exact List.Forall₂.cons (h1.trans h2) (ih h3)

theorem SameOps.replace (done todo : List Op) {o o' : Op} (h : o.Same o') :
    SameOps (done ++ o :: todo) (done ++ o' :: todo) :=
  (SameOps.refl done).append (List.Forall₂.cons h (SameOps.refl todo))

theorem evalLoop_inv {strict : Prop} (geom : Uid → Geom) (todo : List Op) (s : Sk) (done : List Op)
    (h : Inv strict { s with ops := done ++ todo }) (hdone : ∀ d ∈ done, d.Complete) :
    Inv strict (s.evalLoop geom done todo).1 ∧
      (s.evalLoop geom done todo).2.1 <+: todo.map Op.uid ∧
      ((s.evalLoop geom done todo).2.2 = .ok () → (s.evalLoop geom done todo).2.1 = todo.map Op.uid) ∧
      SameOps (done ++ todo) (s.evalLoop geom done todo).1.ops ∧
      (s.evalLoop geom done todo).1.dict = s.dict ∧ (s.evalLoop geom done todo).1.counter = s.counter := by
  induction todo generalizing s done with
  | nil =>
    rw [Sk.evalLoop]
    refine ⟨by simpa using h, List.prefix_rfl, fun _ => rfl, ?_, rfl, rfl⟩
    simpa using SameOps.refl done
  | cons o todo ih =>
    rw [Sk.evalLoop]
    generalize hpts : addPoint s.points o = points
    have ho : o ∈ done ++ o :: todo := by simp
    -- order of the operations
    have hpw := h.uids
    simp only [List.map_append, List.map_cons] at hpw
    rw [List.pairwise_append] at hpw
    have hbefore : ∀ x ∈ done ++ o :: todo, x.uid < o.uid → x ∈ done := by
      intro x hx hlt
      simp only [List.mem_append, List.mem_cons] at hx
      rcases hx with hx | rfl | hx
      · exact hx
      · exact absurd hlt (lt_irrefl _)
      · have := (List.pairwise_cons.1 hpw.2.1).1 x.uid (List.mem_map_of_mem hx)
        exact absurd hlt (not_lt.2 this.le)
    have hget : ∀ n u, points.get? n = some u → s.points.get? n = some u ∨ (u = o.uid ∧ o.name = some n) := by
      intro n u hn
      rw [← hpts, addPoint] at hn
      cases hnm : o.name with
      | none => rw [hnm] at hn; exact Or.inl hn
      | some m =>
        rw [hnm] at hn
        simp only at hn
        rw [Dict.get?_set] at hn
        split at hn
        · rename_i e; subst e; cases hn; exact Or.inr ⟨rfl, rfl⟩
        · exact Or.inl hn
    -- the points after `add_point`
    have h1 : Inv strict { s with points := points, ops := done ++ o :: todo } := by
      refine ⟨h.dag, h.uids, h.mem, h.dict, h.ids, h.idsLe, h.refs, ?_, ?_, h.vecDone, h.vecMem, h.expr, h.line⟩
      · intro n u hn
        rcases hget n u hn with hn | ⟨rfl, hn'⟩
        · exact h.pts n u hn
        · exact ⟨o, ho, rfl, hn'⟩
      · intro n u hn x hx hlt
        rcases hget n u hn with hn | ⟨rfl, hn⟩
        · exact h.ptsDone n u hn x hx hlt
        · exact hdone x (hbefore x hx hlt)
    have hp : (∃ e ∈ o.exprs, e.hasValue = false) →
        PInv points s.vec ((done ++ o :: todo).map Op.uid) o.uid o.name := by
      rintro ⟨e, he, hv⟩
      have hnc : ¬ o.Complete := fun hc => by rw [hc e he] at hv; cases hv
      refine ⟨?_, ?_, ?_, ?_, ?_⟩
      · intro n u hn
        obtain ⟨x, hx, rfl, _⟩ := h1.pts n u hn
        exact List.mem_map_of_mem hx
      · intro n hn
        rw [← hpts, addPoint, hn]
        exact Dict.get?_set_self _ _ _
      · intro n hn
        obtain ⟨x, hx, hxu, hxn⟩ := h1.pts n o.uid hn
        rw [← uid_inj h1.uids hx ho hxu]; exact hxn
      · intro n u hn
        by_contra hlt
        exact hnc (h1.ptsDone n u hn o ho (not_le.1 hlt))
      · intro hv'
        exact hnc (h1.vecDone o ho hv')
    obtain ⟨e1, e2, e3, e4, e5, e6⟩ := evalOp_inv geom (points := points) (vec := s.vec) o
      (h.expr o ho) hp (h.line o ho)
    simp only [hpts]
    cases hr : evalOp geom points s.vec o with
    | mk o' rest =>
      obtain ⟨vec, r⟩ := rest
      rw [hr] at e1 e2 e3 e4 e5 e6
      simp only at e1 e2 e3 e4 e5 e6
      have h2 : Inv strict { s with points := points, ops := done ++ o' :: todo } :=
        Inv.update (s := { s with points := points }) h1 e1 e3 e2
          (fun hk => e6 (h.line o ho (by rw [← e1.kind]; exact hk)))
      have h3 : Inv strict { s with points := points, vec := vec, ops := done ++ o' :: todo } := by
        refine ⟨h2.dag, h2.uids, h2.mem, h2.dict, h2.ids, h2.idsLe, h2.refs, h2.pts, h2.ptsDone, ?_, ?_, h2.expr,
          h2.line⟩
        · intro x hx hv
          rcases e5 x.uid hv with hv | ⟨hv, hc⟩
          · exact h2.vecDone x hx hv
          · have : x = o' := uid_inj h2.uids hx (by simp) (by rw [hv, e1.uid])
            rw [this]; exact hc
        · intro x hx
          rcases e5 x hx with hx | ⟨hx, _⟩
          · exact h2.vecMem x hx
          · rw [hx]; simp [e1.uid]
      cases r with
      | error err =>
        exact ⟨h3, List.nil_prefix, (by intro hh; cases hh), SameOps.replace done todo e1, rfl, rfl⟩
      | ok _ =>
        have ho' : o' ∈ done ++ o' :: todo := by simp
        obtain ⟨c1, c2, c3, c4, _, _⟩ := connectExprs_inv strict o.uid o.name ((done ++ o' :: todo).map Op.uid) o'.exprs
          s.dag h.dag (h.mem o ho) (by
            have := h3.expr o' ho'
            rw [e1.uid, e1.name] at this
            exact this) (e4 rfl) (by
            intro d hd
            obtain ⟨x, hx, rfl⟩ := List.mem_map.1 hd
            exact h3.mem x hx)
        cases hc : connectExprs s.dag o.uid o'.exprs with
        | mk dag r' =>
          rw [hc] at c1 c2 c3 c4
          simp only at c1 c2 c3 c4
          subst c4
          simp only [hc]
          have h4 : Inv strict { s with points := points, vec := vec, dag := dag, ops := (done ++ [o']) ++ todo } := by
            rw [List.append_assoc, List.singleton_append]
            refine ⟨c1, h3.uids, ?_, h3.dict, h3.ids, h3.idsLe, h3.refs, h3.pts, h3.ptsDone, h3.vecDone, h3.vecMem, h3.expr,
              h3.line⟩
            intro x hx
            show dag.nodes.get? x.uid = _
            rw [c2]; exact h3.mem x hx
          obtain ⟨i1, i2, i3, i4, i5, i6⟩ := ih { s with points := points, vec := vec, dag := dag } (done ++ [o']) h4 (by
            intro d hd
            rcases List.mem_append.1 hd with hd | hd
            · exact hdone d hd
            · rw [List.mem_singleton.1 hd]; exact e4 rfl)
          generalize hloop : Sk.evalLoop geom { s with points := points, vec := vec, dag := dag } (done ++ [o']) todo = res at i1 i2 i3 i4 i5 i6 ⊢
          obtain ⟨s', l, r⟩ := res
          simp only at i1 i2 i3 i4 i5 i6 ⊢
          refine ⟨i1, ?_, ?_, ?_, i5, i6⟩
          · rw [List.map_cons]
            exact List.cons_prefix_cons.2 ⟨rfl, i2⟩
          · intro hok
            rw [List.map_cons, i3 hok]
          · refine (SameOps.replace done todo e1).trans ?_
            rw [List.append_assoc, List.singleton_append] at i4
            exact i4

theorem resolveGroups_inv (strict : Prop) (s : Sk) (u : Uid) (gs : List (List RefArg)) (dag : Graph.G Uid)
    (h : DInv strict dag) (hu : dag.nodes.get? u = some u)
    (hgs : ∀ g ∈ gs, ∀ a ∈ g, ∀ p, s.getOperation a = .ok p → dag.nodes.get? p = some p →
      p < u ∧ p ∈ s.ops.map Op.uid) :
    DInv strict (s.resolveGroups u dag gs).1 ∧ (s.resolveGroups u dag gs).1.nodes = dag.nodes ∧
      (s.resolveGroups u dag gs).1.next = dag.next ∧
      (∀ refs, (s.resolveGroups u dag gs).2 = .ok refs →
        List.Forall₂ (fun a p => s.getOperation a = .ok p) gs.flatten refs ∧
        ∀ p ∈ refs, (p < u ∧ p ∈ s.ops.map Op.uid) ∧ p ∈ (s.resolveGroups u dag gs).1.anc u) ∧
      (∀ e, (s.resolveGroups u dag gs).2 = .error e → e = .keyError ∧
        ∃ g ∈ gs, ∃ a ∈ g, s.getOperation a = .error .keyError ∨
          ∃ p, s.getOperation a = .ok p ∧ dag.nodes.get? p ≠ some p) ∧
      (∀ a b, a ∈ dag.anc b → a ∈ (s.resolveGroups u dag gs).1.anc b) := by
  induction gs generalizing dag with
  | nil =>
    refine ⟨h, rfl, rfl, ?_, (by intro e he; cases he), fun _ _ h => h⟩
    intro refs hr
    cases hr
    exact ⟨List.Forall₂.nil, by simp⟩
  | cons g gs ih =>
    rw [Sk.resolveGroups]
    cases hm : g.mapM s.getOperation with
    | error e =>
      refine ⟨h, rfl, rfl, (by intro refs hr; cases hr), ?_, fun _ _ h => h⟩
      intro e' he
      simp only [Except.error.injEq] at he
      subst he
      obtain ⟨a, ha, hf⟩ := mapM_error _ _ _ hm
      have hke : e = .keyError := by
        cases a with
        | obj v => cases hf
        | key k =>
          simp only [Sk.getOperation] at hf
          exact ((getItem_error _ _ _).1 hf).2
      subst hke
      exact ⟨rfl, g, List.mem_cons_self, a, ha, Or.inl hf⟩
    | ok us =>
      simp only
      have hf := mapM_ok _ _ _ hm
      have hps : ∀ p ∈ us, dag.nodes.get? p = some p → p ≤ u ∧ (strict → p < u) := by
        intro p hp hn
        obtain ⟨a, ha, hr⟩ := forall₂_mem_right hf p hp
        have := (hgs g List.mem_cons_self a ha p hr hn).1
        exact ⟨this.le, fun _ => this⟩
      obtain ⟨c1, c2, c3, c4, c5, c6, c7⟩ := connectAncestors_inv strict u us dag h hu hps
      cases hc : connectAncestors dag u us with
      | mk dag' r =>
        rw [hc] at c1 c2 c3 c4 c5 c6 c7
        simp only at c1 c2 c3 c4 c5 c6 c7
        cases r with
        | error e =>
          simp only
          refine ⟨c1, c2, c3, (by intro refs hr; cases hr), ?_, c6⟩
          intro e' he
          cases he
          refine ⟨c5 e rfl, g, List.mem_cons_self, ?_⟩
          have : ¬ ∀ p ∈ us, dag.nodes.get? p = some p := fun hall => by
            have := c4.2 hall
            cases this
          push Not at this
          obtain ⟨p, hp, hn⟩ := this
          obtain ⟨a, ha, hr⟩ := forall₂_mem_right hf p hp
          exact ⟨a, ha, Or.inr ⟨p, hr, hn⟩⟩
        | ok _ =>
          simp only
          obtain ⟨i1, i2, i3, i4, i5, i6⟩ := ih dag' c1 (by rw [c2]; exact hu)
            (by
              intro g' hg' a ha p hr hn
              rw [c2] at hn
              exact hgs g' (List.mem_cons_of_mem _ hg') a ha p hr hn)
          cases hr : s.resolveGroups u dag' gs with
          | mk dag'' r' =>
            rw [hr] at i1 i2 i3 i4 i5 i6
            simp only at i1 i2 i3 i4 i5 i6
            cases r' with
            | error e =>
              simp only
              refine ⟨i1, by rw [i2, c2], by rw [i3, c3], (by intro refs hh; cases hh), ?_,
                fun a b hab => i6 a b (c6 a b hab)⟩
              intro e' he
              cases he
              obtain ⟨j1, g', hg', a, ha, hor⟩ := i5 e rfl
              rw [c2] at hor
              exact ⟨j1, g', List.mem_cons_of_mem _ hg', a, ha, hor⟩
            | ok vs =>
              simp only
              refine ⟨i1, by rw [i2, c2], by rw [i3, c3], ?_, (by intro e he; cases he),
                fun a b hab => i6 a b (c6 a b hab)⟩
              intro refs hh
              cases hh
              obtain ⟨j1, j2⟩ := i4 vs rfl
              refine ⟨?_, ?_⟩
              · rw [List.flatten_cons]
                exact List.rel_append hf j1
              · intro p hp
                rcases List.mem_append.1 hp with hp | hp
                · obtain ⟨a, ha, hra⟩ := forall₂_mem_right hf p hp
                  have hn := c4.1 rfl p hp
                  exact ⟨hgs g List.mem_cons_self a ha p hra hn, i6 _ _ (c7 rfl p hp)⟩
                · exact j2 p hp

theorem newOperationId_ok (c c' : Int) (id : Option Int) (i : Int) (h : Counter.newOperationId c id = (c', .ok i)) :
    c < i ∧ c' = i := by
  unfold Counter.newOperationId at h
  cases id with
  | none =>
    simp only [Counter.newId, Counter.increment, Prod.mk.injEq, Except.ok.injEq] at h
    omega
  | some j =>
    simp only [Counter.newId, Counter.set] at h
    by_cases hj : j ≤ c
    · rw [if_pos hj] at h; simp at h
    · rw [if_neg hj] at h
      simp only [Prod.mk.injEq, Except.ok.injEq] at h
      omega

theorem newOperationId_error (c c' : Int) (id : Option Int) (e : PyErr)
    (h : Counter.newOperationId c id = (c', .error e)) : c' = c ∧ e = .nameError ∧ ∃ i, id = some i ∧ i ≤ c := by
  unfold Counter.newOperationId at h
  cases id with
  | none => simp [Counter.newId, Counter.increment] at h
  | some j =>
    simp only [Counter.newId, Counter.set] at h
    by_cases hj : j ≤ c
    · rw [if_pos hj] at h
      simp only [Prod.mk.injEq, Except.error.injEq] at h
      exact ⟨h.1.symm, h.2.symm, j, rfl, hj⟩
    · rw [if_neg hj] at h; simp at h

theorem latest_mem {ops : List Op} {k : Key} {o : Op} (h : latest ops k = some o) : o ∈ ops ∧ o.Registered k := by
  unfold latest at h
  refine ⟨?_, ?_⟩
  · have := List.mem_of_find?_eq_some h
    simpa using this
  · have := List.find?_some h
    simpa using this

theorem addNode_inv {strict : Prop} {dag dag' : Graph.G Uid} {r : Uid} (h : DInv strict dag)
    (ha : dag.addNode dag.next = .ok (dag', r)) :
    DInv strict dag' ∧ dag'.nodes.get? dag.next = some dag.next ∧
      (∀ p v, dag.nodes.get? p = some v → dag'.nodes.get? p = some v) ∧
      (∀ p v, dag'.nodes.get? p = some v → p = dag.next ∨ dag.nodes.get? p = some v) ∧
      (∀ a b, a ∈ dag.anc b → a ∈ dag'.anc b) ∧ dag'.next = dag.next + 1 := by
  have hra : Graph.Reachable dag' := Graph.Reachable.addNode h.reach ha
  unfold Graph.G.addNode at ha
  split at ha
  · cases ha
  · rename_i hnc
    have inv := Graph.ginv dag h.reach
    cases ha
    have hfresh : dag.nodes.get? dag.next = none := by
      unfold Dict.contains at hnc
      cases hg : dag.nodes.get? dag.next with
      | none => rfl
      | some v => rw [hg] at hnc; exact absurd rfl hnc
    have hanc : dag.anc dag.next = [] := by
      rw [List.eq_nil_iff_forall_not_mem]
      intro a ha
      have hcl := (inv.closed a dag.next ((inv.mirror a dag.next).1 ha)).2
      exact Nat.lt_irrefl _ (inv.fresh _ hcl)
    refine ⟨⟨hra, ?_, ?_⟩, Dict.get?_set_self _ _ _, ?_, ?_, ?_, rfl⟩
    · intro p v hpv
      rw [Dict.get?_set] at hpv
      split at hpv
      · rename_i e; subst e; cases hpv; exact ⟨rfl, Nat.lt_succ_self _⟩
      · have := h.nodes p v hpv
        exact ⟨this.1, Nat.lt_succ_of_lt this.2⟩
    · intro a b hab
      simp only [Graph.upd_apply] at hab
      split at hab
      · cases hab
      · exact h.edges a b hab
    · intro p v hpv
      rw [Dict.get?_set]
      split
      · rename_i e; subst e; rw [hfresh] at hpv; cases hpv
      · exact hpv
    · intro p v hpv
      rw [Dict.get?_set] at hpv
      split at hpv
      · rename_i e; exact Or.inl e.symm
      · exact Or.inr hpv
    · intro a b hab
      simp only [Graph.upd_apply]
      split
      · rename_i e; subst e; rw [hanc] at hab; cases hab
      · exact hab

theorem addNode_ok {strict : Prop} {dag : Graph.G Uid} (h : DInv strict dag) :
    ∃ dag', dag.addNode dag.next = .ok (dag', dag.next) := by
  unfold Graph.G.addNode
  have : dag.nodes.contains dag.next = false := by
    unfold Dict.contains
    cases hg : dag.nodes.get? dag.next with
    | none => rfl
    | some v => exact absurd (h.nodes _ _ hg).2 (lt_irrefl _)
  rw [this]
  exact ⟨_, rfl⟩

/-- Everything there is to know about `create`. -/
theorem create_spec {strict : Prop} {s : Sk} (h : Inv strict s) (q : Req) (hq : q.Possible s)
    (hok : strict → q.NoHiddenSelf) :
    Inv strict (s.create q).1 ∧
    (∀ e, (s.create q).2 = .error e → (s.create q).1.ops = s.ops ∧ (s.create q).1.dict = s.dict ∧
      ((e = .nameError ∧ ∃ i, q.id = some i ∧ i ≤ s.counter) ∨
       (e = .keyError ∧ ∃ g ∈ q.groups, ∃ a ∈ g, (∃ k, a = .key k ∧ latest s.ops k = none) ∨
          ∃ p, a = .obj p ∧ p ∉ s.ops.map Op.uid))) ∧
    (∀ u, (s.create q).2 = .ok u → ∃ o, (s.create q).1.ops = s.ops ++ [o] ∧ o.uid = u ∧ o.kind = q.kind ∧
      s.counter < o.id ∧ (∀ i, q.id = some i → o.id = i) ∧ u ∉ s.ops.map Op.uid ∧
      List.Forall₂ (fun a p => match a with
        | .obj v => p = v ∧ v ∈ s.ops.map Op.uid
        | .key k => ∃ t, latest s.ops k = some t ∧ p = t.uid) q.groups.flatten o.refs ∧
      ∀ p ∈ o.refs, p ∈ (s.create q).1.dag.anc u) := by
  unfold Sk.create
  cases hid : Counter.newOperationId s.counter q.id with
  | mk c r =>
    cases r with
    | error e =>
      obtain ⟨rfl, rfl, hi⟩ := newOperationId_error _ _ _ _ hid
      simp only
      refine ⟨h, ?_, (by intro u hu; cases hu)⟩
      intro e' he
      cases he
      exact ⟨trivial, trivial, Or.inl ⟨rfl, hi⟩⟩
    | ok i =>
      obtain ⟨hci, rfl⟩ := newOperationId_ok _ _ _ _ hid
      simp only
      obtain ⟨dag, hadd⟩ := addNode_ok h.dag
      rw [hadd]
      simp only
      obtain ⟨d1, d2, d3, d4, d5, d6⟩ := addNode_inv h.dag hadd
      have hlt : ∀ o ∈ s.ops, o.uid < s.dag.next := fun o ho => (h.dag.nodes _ _ (h.mem o ho)).2
      have hget : ∀ k p, s.getOperation (.key k) = .ok p → ∃ t, latest s.ops k = some t ∧ p = t.uid := by
        intro k p hk
        simp only [Sk.getOperation] at hk
        rw [getItem_ok, h.dict k] at hk
        cases hl : latest s.ops k with
        | none => rw [hl] at hk; cases hk
        | some t => rw [hl] at hk; cases hk; exact ⟨t, rfl, rfl⟩
      have hgs : ∀ g ∈ q.groups, ∀ a ∈ g, ∀ p, s.getOperation a = .ok p → dag.nodes.get? p = some p →
          p < s.dag.next ∧ p ∈ s.ops.map Op.uid := by
        intro g hg a ha p hp hn
        cases a with
        | obj v =>
          simp only [Sk.getOperation, Except.ok.injEq] at hp
          subst hp
          rcases hq.objs g hg v ha with hv | ⟨hv, hv'⟩
          · obtain ⟨o, ho, rfl⟩ := List.mem_map.1 hv
            exact ⟨hlt o ho, hv⟩
          · rcases d4 v v hn with e | e
            · exact absurd e hv'
            · exact absurd ((Dict.get?_isSome_iff _ _).1 (by rw [e]; rfl)) hv
        | key k =>
          obtain ⟨t, ht, rfl⟩ := hget k p hp
          have := (latest_mem ht).1
          exact ⟨hlt t this, List.mem_map_of_mem this⟩
      obtain ⟨g1, g2, g3, g4, g5, g6⟩ := resolveGroups_inv strict s s.dag.next q.groups dag d1 d2 hgs
      cases hr : s.resolveGroups s.dag.next dag q.groups with
      | mk dag' r' =>
        rw [hr] at g1 g2 g3 g4 g5 g6
        simp only at g1 g2 g3 g4 g5 g6
        have hmem' : ∀ o ∈ s.ops, dag'.nodes.get? o.uid = some o.uid := by
          intro o ho; rw [g2]; exact d3 _ _ (h.mem o ho)
        have hc' : ∀ o ∈ s.ops, o.id ≤ c := by
          intro o ho; have := h.idsLe o ho; omega
        cases r' with
        | error e =>
          simp only
          refine ⟨⟨g1, h.uids, hmem', h.dict, h.ids, hc', h.refs, h.pts, h.ptsDone, h.vecDone, h.vecMem, h.expr, h.line⟩, ?_,
            (by intro u hu; cases hu)⟩
          intro e' he
          cases he
          obtain ⟨rfl, g, hg, a, ha, hor⟩ := g5 e rfl
          refine ⟨trivial, trivial, Or.inr ⟨rfl, g, hg, a, ha, ?_⟩⟩
          rcases hor with hor | ⟨p, hp, hn⟩
          · cases a with
            | obj v => cases hor
            | key k =>
              left
              simp only [Sk.getOperation] at hor
              rw [getItem_error, h.dict k] at hor
              refine ⟨k, rfl, ?_⟩
              cases hl : latest s.ops k with
              | none => rfl
              | some t => rw [hl] at hor; cases hor.1
          · cases a with
            | obj v =>
              right
              simp only [Sk.getOperation, Except.ok.injEq] at hp
              subst hp
              refine ⟨v, rfl, ?_⟩
              intro hv
              obtain ⟨o, ho, rfl⟩ := List.mem_map.1 hv
              exact hn (d3 _ _ (h.mem o ho))
            | key k =>
              exfalso
              obtain ⟨t, ht, rfl⟩ := hget k p hp
              exact hn (d3 _ _ (h.mem t (latest_mem ht).1))
        | ok refs =>
          simp only
          obtain ⟨f1, f2⟩ := g4 refs rfl
          generalize hexprs : (q.exprs.map fun e =>
            ({ deps := e.1, reads := e.2.1, ok := e.2.2 } : Expr)) = exprs
          have hE : ∀ e ∈ exprs, e.hasValue = false ∧ e.resolved = none ∧ e.readFrom = [] ∧
              ∃ x ∈ q.exprs, e.deps = x.1 ∧ e.reads = x.2.1 := by
            intro e he
            rw [← hexprs] at he
            obtain ⟨x, hx, rfl⟩ := List.mem_map.1 he
            exact ⟨rfl, rfl, rfl, x, hx, rfl, rfl⟩
          generalize ho : ({ uid := s.dag.next, id := c, kind := q.kind, refs := refs, exprs := exprs } : Op) = o
          have ou : o.uid = s.dag.next := by rw [← ho]
          have oi : o.id = c := by rw [← ho]
          have ok' : o.kind = q.kind := by rw [← ho]
          have orf : o.refs = refs := by rw [← ho]
          have oe : o.exprs = exprs := by rw [← ho]
          have hops : (({ s with counter := c, dag := dag' } : Sk).addOperation o).ops = s.ops ++ [o] := rfl
          have hdag : (({ s with counter := c, dag := dag' } : Sk).addOperation o).dag = dag' := rfl
          have hmapu : (s.ops ++ [o]).map Op.uid = s.ops.map Op.uid ++ [o.uid] := by simp
          have hfresh : o.uid ∉ s.ops.map Op.uid := by
            intro hh
            obtain ⟨x, hx, hxu⟩ := List.mem_map.1 hh
            have := hlt x hx
            rw [hxu, ou] at this
            exact Nat.lt_irrefl _ this
          refine ⟨?_, ?_, ?_⟩
          · refine ⟨g1, ?_, ?_, ?_, ?_, ?_, ?_, ?_, ?_, ?_, ?_, ?_, ?_⟩
            · rw [hops, hmapu, List.pairwise_append]
              refine ⟨h.uids, List.pairwise_singleton _ _, ?_⟩
              intro a ha b hb
              rw [List.mem_singleton.1 hb, ou]
              obtain ⟨x, hx, rfl⟩ := List.mem_map.1 ha
              exact hlt x hx
            · intro x hx
              rw [hops] at hx
              rw [hdag]
              rcases List.mem_append.1 hx with hx | hx
              · exact hmem' x hx
              · rw [List.mem_singleton.1 hx, ou, g2]; exact d2
            · intro k
              have hlat : latest (s.ops ++ [o]) k = if o.Registered k then some o else latest s.ops k := by
                unfold latest
                rw [List.reverse_append]
                simp only [List.reverse_singleton, List.singleton_append, List.find?_cons]
                by_cases hreg : o.Registered k <;> simp [hreg]
              rw [hops, hlat]
              show (match o.name with
                | some n => (s.dict.set (.int o.id) o.uid).set n o.uid
                | none => s.dict.set (.int o.id) o.uid).get? k = _
              cases hn : o.name with
              | none =>
                simp only [Op.Registered, hn, reduceCtorEq, or_false]
                rw [Dict.get?_set, h.dict k]
                by_cases hk : Key.int o.id = k
                · subst hk; simp
                · rw [if_neg hk, if_neg (fun e => hk e.symm)]
              | some n =>
                simp only [Op.Registered, hn, Option.some.injEq]
                rw [Dict.get?_set, Dict.get?_set, h.dict k]
                by_cases hk : n = k
                · subst hk; simp
                · rw [if_neg hk]
                  by_cases hk' : Key.int o.id = k
                  · subst hk'; simp
                  · rw [if_neg hk', if_neg]
                    rintro (e | e)
                    · exact hk' e.symm
                    · exact hk e
            · rw [hops, List.map_append, List.pairwise_append]
              refine ⟨h.ids, by simp, ?_⟩
              intro a ha b hb
              simp only [List.map_cons, List.map_nil, List.mem_singleton] at hb
              obtain ⟨x, hx, rfl⟩ := List.mem_map.1 ha
              have := h.idsLe x hx
              rw [hb, oi]; omega
            · intro x hx
              rw [hops] at hx
              show x.id ≤ c
              rcases List.mem_append.1 hx with hx | hx
              · exact hc' x hx
              · rw [List.mem_singleton.1 hx, oi]
            · intro x hx r hr'
              rw [hops] at hx ⊢
              rw [hmapu]
              rcases List.mem_append.1 hx with hx | hx
              · have := h.refs x hx r hr'
                exact ⟨this.1, List.mem_append_left _ this.2⟩
              · rw [List.mem_singleton.1 hx] at hr' ⊢
                rw [orf] at hr'
                have := (f2 r hr').1
                rw [ou]
                exact ⟨this.1, List.mem_append_left _ this.2⟩
            · intro n u hn
              obtain ⟨x, hx, hh⟩ := h.pts n u hn
              exact ⟨x, by rw [hops]; exact List.mem_append_left _ hx, hh⟩
            · intro n u hn x hx hltx
              rw [hops] at hx
              rcases List.mem_append.1 hx with hx | hx
              · exact h.ptsDone n u hn x hx hltx
              · exfalso
                rw [List.mem_singleton.1 hx, ou] at hltx
                obtain ⟨y, hy, rfl, _⟩ := h.pts n u hn
                exact Nat.lt_asymm hltx (hlt y hy)
            · intro x hx hv
              rw [hops] at hx
              rcases List.mem_append.1 hx with hx | hx
              · exact h.vecDone x hx hv
              · rw [List.mem_singleton.1 hx] at hv
                exact absurd (h.vecMem _ hv) hfresh
            · intro u hu
              rw [hops, hmapu]
              exact List.mem_append_left _ (h.vecMem u hu)
            · intro x hx e he
              rw [hops] at hx ⊢
              rw [hmapu]
              rcases List.mem_append.1 hx with hx | hx
              · have hx' := h.expr x hx e he
                refine ⟨hx'.valRes, ?_, ?_, hx'.selfVal, hx'.hidden⟩
                · intro us hus d hd
                  have := hx'.res us hus d hd
                  exact ⟨List.mem_append_left _ this.1, this.2⟩
                · intro d hd
                  have := hx'.read d hd
                  exact ⟨List.mem_append_left _ this.1, this.2⟩
              · rw [List.mem_singleton.1 hx] at he ⊢
                rw [oe] at he
                obtain ⟨e1, e2, e3, y, hy, e4, e5⟩ := hE e he
                refine ⟨?_, ?_, ?_, ?_, ?_⟩
                · intro hh; rw [e1] at hh; cases hh
                · intro us hus; rw [e2] at hus; cases hus
                · intro d hd; rw [e3] at hd; cases hd
                · intro hh; rw [e1] at hh; cases hh
                · intro hst n hn hd
                  rw [e5]
                  rw [e4] at hd
                  refine hok hst n ?_ y hy hd
                  unfold Op.name at hn
                  rw [ok'] at hn
                  cases hk : q.kind with
                  | point m => rw [hk] at hn; simp only [Option.some.injEq] at hn; rw [hn]
                  | spline => rw [hk] at hn; cases hn
                  | line => rw [hk] at hn; cases hn
            · intro x hx hk
              rw [hops] at hx
              rcases List.mem_append.1 hx with hx | hx
              · exact h.line x hx hk
              · rw [List.mem_singleton.1 hx] at hk ⊢
                rw [ok'] at hk
                rw [oe, ← hexprs, hq.line hk]; rfl
          · intro e he; cases he
          · intro u hu
            cases hu
            refine ⟨o, rfl, ou, ok', by omega, ?_, by rw [← ou]; exact hfresh, ?_, ?_⟩
            · intro j hj
              rw [oi]
              rw [hj] at hid
              unfold Counter.newOperationId Counter.newId Counter.set at hid
              by_cases hjc : j ≤ s.counter
              · simp [hjc] at hid
              · simp only [hjc, if_false, Prod.mk.injEq, Except.ok.injEq] at hid
                exact hid.2.symm
            · rw [orf]
              have hrefs : ∀ p ∈ refs, p ∈ s.ops.map Op.uid := fun p hp => (f2 p hp).1.2
              clear f2 g4 hr g5 g6 orf ho hgs
              revert hrefs
              generalize q.groups.flatten = args at f1
              induction f1 with
              | nil => intro _; exact List.Forall₂.nil
              | @cons a p l1 l2 hap _ ih =>
                intro hrefs
                refine List.Forall₂.cons ?_ (ih (fun x hx => hrefs x (List.mem_cons_of_mem _ hx)))
                cases a with
                | obj v =>
                  simp only [Sk.getOperation, Except.ok.injEq] at hap
                  subst hap
                  exact ⟨rfl, hrefs v List.mem_cons_self⟩
                | key k => exact hget k p hap
            · intro p hp
              rw [orf] at hp
              exact (f2 p hp).2

end Patro.Pattern
