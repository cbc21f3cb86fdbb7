import Verif.Model.Graph
import Verif.Spec.Graph
import Mathlib.Logic.Relation
import Mathlib.Data.List.Basic
import Mathlib.Data.List.Nodup
import Mathlib.Data.List.Perm.Subperm
/-! # Lemmas about the depth first sort and the breadth first search -/

set_option linter.unusedSectionVars false
set_option linter.unusedSimpArgs false

namespace Patro.Graph

open Patro Relation

variable {V : Type _} [DecidableEq V]

/-- The edge relation given by the descendant lists. -/
def Edge (desc : V → List V) (a b : V) : Prop := b ∈ desc a

/-! ## Depth first sort -/

/-- Invariant of the DFS state. -/
structure DfsInv (desc : V → List V) (st : Dfs V) : Prop where
  nodup : st.sorted.Nodup
  same : ∀ v, v ∈ st.sorted ↔ v ∈ st.marked
  order : ∀ a b, a ∈ st.sorted → b ∈ desc a → [b, a].Sublist st.sorted
  disj : ∀ v ∈ st.temp, v ∉ st.sorted

/-- What a successful visit does. -/
structure VisitPost (desc : V → List V) (st st' : Dfs V) (nodes : List V) : Prop where
  inv : DfsInv desc st'
  temp : st'.temp = st.temp
  pre : st.sorted <+: st'.sorted
  mem : ∀ v ∈ nodes, v ∈ st'.sorted
  reach : ∀ v ∈ st'.sorted, v ∈ st.sorted ∨ ∃ n ∈ nodes, ReflTransGen (Edge desc) n v

theorem foldlM_post (desc : V → List V) (f : Dfs V → V → Except SortErr (Dfs V))
    (hf : ∀ st v st', DfsInv desc st → f st v = .ok st' → VisitPost desc st st' [v])
    (l : List V) (st st' : Dfs V) (h : DfsInv desc st) (hl : l.foldlM f st = .ok st') :
    VisitPost desc st st' l := by
  induction l generalizing st with
  | nil =>
    simp only [List.foldlM_nil, pure, Except.pure, Except.ok.injEq] at hl
    subst hl
    exact ⟨h, rfl, List.prefix_refl _, by simp, fun v hv => Or.inl hv⟩
  | cons a t ih =>
    rw [List.foldlM_cons] at hl
    cases hfa : f st a with
    | error e => rw [hfa] at hl; cases hl
    | ok st1 =>
      rw [hfa] at hl
      have p1 := hf st a st1 h hfa
      have p2 := ih st1 p1.inv hl
      refine ⟨p2.inv, p2.temp.trans p1.temp, p1.pre.trans p2.pre, ?_, ?_⟩
      · intro v hv
        rcases List.mem_cons.1 hv with rfl | hv
        · exact p2.pre.subset (p1.mem v (by simp))
        · exact p2.mem v hv
      · intro v hv
        rcases p2.reach v hv with hv | ⟨n, hn, hr⟩
        · rcases p1.reach v hv with hv | ⟨n, hn, hr⟩
          · exact Or.inl hv
          · simp only [List.mem_singleton] at hn
            subst hn
            exact Or.inr ⟨n, by simp, hr⟩
        · exact Or.inr ⟨n, by simp [hn], hr⟩

theorem visit_post (desc : V → List V) (depth : Nat) :
    ∀ (st : Dfs V) (v : V) (st' : Dfs V), DfsInv desc st → visit desc depth st v = .ok st' →
      VisitPost desc st st' [v] := by
  induction depth with
  | zero => intro st v st' _ h; cases h
  | succ depth ih =>
    intro st v st' hinv h
    unfold visit at h
    by_cases ht : v ∈ st.temp
    · simp [ht] at h
    · by_cases hm : v ∈ st.marked
      · simp only [ht, hm, if_true, if_false, Except.ok.injEq] at h
        subst h
        refine ⟨hinv, rfl, List.prefix_refl _, ?_, fun v hv => Or.inl hv⟩
        intro w hw
        simp only [List.mem_singleton] at hw
        subst hw
        exact (hinv.same _).2 hm
      · simp only [ht, hm, if_false] at h
        cases hfold : (desc v).foldlM (visit desc depth) { st with temp := v :: st.temp } with
        | error e => rw [hfold] at h; cases h
        | ok s2 =>
          rw [hfold] at h
          simp only [Except.ok.injEq] at h
          have hvs : v ∉ st.sorted := fun hh => hm ((hinv.same v).1 hh)
          have hinv1 : DfsInv desc { st with temp := v :: st.temp } := by
            refine ⟨hinv.nodup, hinv.same, hinv.order, ?_⟩
            intro w hw
            rcases List.mem_cons.1 hw with rfl | hw
            · exact hvs
            · exact hinv.disj w hw
          have p := foldlM_post desc _ ih (desc v) _ s2 hinv1 hfold
          have htemp : s2.temp = v :: st.temp := p.temp
          have hv2 : v ∉ s2.sorted := p.inv.disj v (by rw [htemp]; simp)
          subst h
          refine ⟨⟨?_, ?_, ?_, ?_⟩, ?_, ?_, ?_, ?_⟩
          · -- nodup
            rw [List.nodup_append]
            refine ⟨p.inv.nodup, by simp, ?_⟩
            intro a ha b hb
            simp only [List.mem_singleton] at hb
            subst hb
            rintro rfl
            exact hv2 ha
          · intro w
            simp [p.inv.same, or_comm]
          · intro a b ha hb
            rcases List.mem_append.1 ha with ha | ha
            · exact (p.inv.order a b ha hb).trans (List.sublist_append_left _ _)
            · simp only [List.mem_singleton] at ha
              subst ha
              have hb' : b ∈ s2.sorted := p.mem b hb
              have : [b].Sublist s2.sorted := List.singleton_sublist.2 hb'
              exact this.append (List.Sublist.refl [a])
          · simp only [htemp, List.erase_cons_head]
            intro w hw
            rw [List.mem_append, List.mem_singleton, not_or]
            refine ⟨p.inv.disj w (by rw [htemp]; exact List.mem_cons_of_mem _ hw), ?_⟩
            rintro rfl
            exact ht hw
          · simp only [htemp, List.erase_cons_head]
          · exact p.pre.trans (List.prefix_append _ _)
          · intro w hw
            simp only [List.mem_singleton] at hw
            subst hw
            simp
          · intro w hw
            rcases List.mem_append.1 hw with hw | hw
            · rcases p.reach w hw with hw | ⟨n, hn, hr⟩
              · exact Or.inl hw
              · exact Or.inr ⟨v, by simp, ReflTransGen.head hn hr⟩
            · simp only [List.mem_singleton] at hw
              subst hw
              exact Or.inr ⟨w, by simp, ReflTransGen.refl⟩

/-- A successful fold over all nodes: the sorted list is exactly the reachable set, closed and
ordered. -/
theorem sort_ok (desc : V → List V) (limit : Nat) (order l : List V)
    (h : topologicalSort limit desc order = .ok l) :
    l.Nodup ∧ (∀ v, v ∈ l ↔ ∃ n ∈ order, ReflTransGen (Edge desc) n v) ∧
      (∀ a b, a ∈ l → b ∈ desc a → [a, b].Sublist l) := by
  unfold topologicalSort at h
  cases hf : order.foldlM (visit desc limit) { marked := [], temp := [], sorted := [] } with
  | error e => rw [hf] at h; cases h
  | ok st =>
    rw [hf] at h
    simp only [Except.ok.injEq] at h
    subst h
    have hinv0 : DfsInv desc ({ marked := [], temp := [], sorted := [] } : Dfs V) :=
      ⟨by simp, by simp, by simp, by simp⟩
    have p := foldlM_post desc _ (visit_post desc limit) order _ st hinv0 hf
    refine ⟨List.nodup_reverse.2 p.inv.nodup, ?_, ?_⟩
    · intro v
      rw [List.mem_reverse]
      constructor
      · intro hv
        rcases p.reach v hv with hv | hv
        · simp at hv
        · exact hv
      · rintro ⟨n, hn, hr⟩
        induction hr with
        | refl => exact p.mem n hn
        | tail _ he ih => exact (p.inv.order _ _ ih he).subset (by simp)
    · intro a b ha hb
      have := p.inv.order a b (List.mem_reverse.1 ha) hb
      simpa using this.reverse

/-- A list in which every edge goes forward has no cycle through its members. -/
theorem no_cycle_of_ordered (desc : V → List V) (l : List V) (hn : l.Nodup)
    (ho : ∀ a b, a ∈ l → b ∈ desc a → [a, b].Sublist l) (v : V) (hv : v ∈ l)
    (hc : TransGen (Edge desc) v v) : False := by
  have hidx : ∀ a b, [a, b].Sublist l → l.idxOf a < l.idxOf b := by
    intro a b hs
    have aux : ∀ (l : List V), l.Nodup → [a, b].Sublist l → l.idxOf a < l.idxOf b := by
      intro l
      induction l with
      | nil => intro _ h; cases h
      | cons x t ih =>
        intro hn h
        cases h with
        | cons _ h =>
          have hx := (List.nodup_cons.1 hn).1
          have ha : a ≠ x := fun e => hx (e ▸ h.subset (by simp))
          have hb : b ≠ x := fun e => hx (e ▸ h.subset (by simp))
          rw [List.idxOf_cons_ne _ (Ne.symm ha), List.idxOf_cons_ne _ (Ne.symm hb)]
          exact Nat.succ_lt_succ (ih (List.nodup_cons.1 hn).2 h)
        | cons_cons _ h =>
          have hx := (List.nodup_cons.1 hn).1
          have hbm : b ∈ t := h.subset (by simp)
          have hb : b ≠ a := fun e => hx (e ▸ hbm)
          rw [List.idxOf_cons_self, List.idxOf_cons_ne _ (Ne.symm hb)]
          exact Nat.succ_pos _
    exact aux l hn hs
  have key : ∀ w, TransGen (Edge desc) v w → w ∈ l ∧ l.idxOf v < l.idxOf w := by
    intro w hw
    induction hw with
    | single he =>
      have := ho _ _ hv he
      exact ⟨this.subset (by simp), hidx _ _ this⟩
    | tail _ he ih =>
      have := ho _ _ ih.1 he
      exact ⟨this.subset (by simp), Nat.lt_trans ih.2 (hidx _ _ this)⟩
  exact Nat.lt_irrefl _ (key v hc).2

/-- The error of a failing fold is the error of one of the visits, in a good state. -/
theorem foldlM_error (desc : V → List V) (f : Dfs V → V → Except SortErr (Dfs V))
    (hf : ∀ st v st', DfsInv desc st → f st v = .ok st' → VisitPost desc st st' [v])
    (l : List V) (st : Dfs V) (e : SortErr) (h : DfsInv desc st) (hl : l.foldlM f st = .error e) :
    ∃ v ∈ l, ∃ s, DfsInv desc s ∧ s.temp = st.temp ∧ f s v = .error e := by
  induction l generalizing st with
  | nil => simp [pure, Except.pure] at hl
  | cons a t ih =>
    rw [List.foldlM_cons] at hl
    cases hfa : f st a with
    | error e' =>
      rw [hfa] at hl
      simp only [bind, Except.bind, Except.error.injEq] at hl
      subst hl
      exact ⟨a, by simp, st, h, rfl, hfa⟩
    | ok st1 =>
      rw [hfa] at hl
      have p1 := hf st a st1 h hfa
      obtain ⟨v, hv, s, hs, ht, he⟩ := ih st1 p1.inv hl
      exact ⟨v, by simp [hv], s, hs, ht.trans p1.temp, he⟩

theorem visit_error (desc : V → List V) (U : List V) (hU : ∀ v ∈ U, ∀ w ∈ desc v, w ∈ U)
    (depth : Nat) :
    ∀ (st : Dfs V) (v : V) (e : SortErr), DfsInv desc st → visit desc depth st v = .error e →
      v ∈ U → st.temp.Nodup → (∀ t ∈ st.temp, t ∈ U) →
      (∀ t ∈ st.temp, TransGen (Edge desc) t v) →
      U.length < st.temp.length + depth →
      e = .notADag ∧ ∃ c, (∃ t, (t = v ∨ t ∈ st.temp) ∧ ReflTransGen (Edge desc) t c) ∧
        TransGen (Edge desc) c c := by
  induction depth with
  | zero =>
    intro st v e hinv h hv hnd htU hreach hlen
    exfalso
    have := (hnd.subperm htU).length_le
    omega
  | succ depth ih =>
    intro st v e hinv h hv hnd htU hreach hlen
    unfold visit at h
    by_cases ht : v ∈ st.temp
    · simp only [ht, if_true, Except.error.injEq] at h
      exact ⟨h.symm, v, ⟨v, Or.inl rfl, ReflTransGen.refl⟩, hreach v ht⟩
    · by_cases hm : v ∈ st.marked
      · simp [ht, hm] at h
      · simp only [ht, hm, if_false] at h
        cases hfold : (desc v).foldlM (visit desc depth) { st with temp := v :: st.temp } with
        | ok s2 => rw [hfold] at h; cases h
        | error e' =>
          rw [hfold] at h
          simp only [Except.error.injEq] at h
          subst h
          have hvs : v ∉ st.sorted := fun hh => hm ((hinv.same v).1 hh)
          have hinv1 : DfsInv desc { st with temp := v :: st.temp } := by
            refine ⟨hinv.nodup, hinv.same, hinv.order, ?_⟩
            intro w hw
            rcases List.mem_cons.1 hw with rfl | hw
            · exact hvs
            · exact hinv.disj w hw
          obtain ⟨w, hw, s, hs, hst, he⟩ :=
            foldlM_error desc _ (visit_post desc depth) (desc v) _ e' hinv1 hfold
          simp only at hst
          obtain ⟨h1, c, ⟨t, htc, hrc⟩, hcc⟩ := ih s w e' hs he (hU v hv w hw)
            (by rw [hst]; exact List.nodup_cons.2 ⟨ht, hnd⟩)
            (by
              rw [hst]; intro t htt
              rcases List.mem_cons.1 htt with rfl | htt
              · exact hv
              · exact htU t htt)
            (by
              rw [hst]; intro t htt
              rcases List.mem_cons.1 htt with rfl | htt
              · exact TransGen.single hw
              · exact TransGen.tail (hreach t htt) hw)
            (by rw [hst]; simp only [List.length_cons]; omega)
          refine ⟨h1, c, ?_, hcc⟩
          rcases htc with rfl | htc
          · exact ⟨v, Or.inl rfl, ReflTransGen.head hw hrc⟩
          · rw [hst] at htc
            rcases List.mem_cons.1 htc with rfl | htc
            · exact ⟨t, Or.inl rfl, hrc⟩
            · exact ⟨t, Or.inr htc, hrc⟩

theorem sort_error (desc : V → List V) (limit : Nat) (order U : List V)
    (hU : ∀ v ∈ U, ∀ w ∈ desc v, w ∈ U) (ho : ∀ v ∈ order, v ∈ U) (hlim : U.length < limit)
    (e : SortErr) (h : topologicalSort limit desc order = .error e) :
    e = .notADag ∧ ∃ n ∈ order, ∃ c, ReflTransGen (Edge desc) n c ∧ TransGen (Edge desc) c c := by
  unfold topologicalSort at h
  cases hf : order.foldlM (visit desc limit) { marked := [], temp := [], sorted := [] } with
  | ok st => rw [hf] at h; cases h
  | error e' =>
    rw [hf] at h
    simp only [Except.error.injEq] at h
    subst h
    have hinv0 : DfsInv desc ({ marked := [], temp := [], sorted := [] } : Dfs V) :=
      ⟨by simp, by simp, by simp, by simp⟩
    obtain ⟨v, hv, s, hs, hst, he⟩ :=
      foldlM_error desc _ (visit_post desc limit) order _ e' hinv0 hf
    simp only at hst
    obtain ⟨h1, c, ⟨t, htc, hrc⟩, hcc⟩ := visit_error desc U hU limit s v e' hs he (ho v hv)
      (by rw [hst]; simp) (by rw [hst]; simp) (by rw [hst]; simp) (by rw [hst]; simpa using hlim)
    rw [hst] at htc
    simp only [List.not_mem_nil, or_false] at htc
    subst htc
    exact ⟨h1, t, hv, c, hrc, hcc⟩

/-! ## Breadth first search -/

theorem pathLen_iff_reach (desc : V → List V) (a b : V) :
    (∃ n, PathLen desc n a b) ↔ ReflTransGen (Edge desc) a b := by
  constructor
  · rintro ⟨n, h⟩
    induction h with
    | nil => exact ReflTransGen.refl
    | snoc _ he ih => exact ReflTransGen.tail ih he
  · intro h
    induction h with
    | refl => exact ⟨0, PathLen.nil a⟩
    | tail _ he ih =>
      obtain ⟨n, hn⟩ := ih
      exact ⟨n + 1, PathLen.snoc hn he⟩

theorem bfsExpand_spec (ds q vis : List V) :
    ∃ new, bfsExpand ds (q, vis) = (q ++ new, new.reverse ++ vis) ∧ new.Nodup ∧
      (∀ x ∈ new, x ∈ ds ∧ x ∉ vis) ∧ (∀ x ∈ ds, x ∈ vis ∨ x ∈ new) := by
  induction ds generalizing q vis with
  | nil => exact ⟨[], by simp [bfsExpand], by simp, by simp, by simp⟩
  | cons d t ih =>
    by_cases hd : d ∈ vis
    · obtain ⟨new, h1, h2, h3, h4⟩ := ih q vis
      refine ⟨new, by simp [bfsExpand, hd, h1], h2, ?_, ?_⟩
      · intro x hx
        exact ⟨List.mem_cons_of_mem _ (h3 x hx).1, (h3 x hx).2⟩
      · intro x hx
        rcases List.mem_cons.1 hx with rfl | hx
        · exact Or.inl hd
        · exact h4 x hx
    · obtain ⟨new, h1, h2, h3, h4⟩ := ih (q ++ [d]) (d :: vis)
      refine ⟨d :: new, by simp [bfsExpand, hd, h1], ?_, ?_, ?_⟩
      · refine List.nodup_cons.2 ⟨?_, h2⟩
        intro hm
        exact (h3 d hm).2 (by simp)
      · intro x hx
        rcases List.mem_cons.1 hx with rfl | hx
        · exact ⟨by simp, hd⟩
        · have := h3 x hx
          refine ⟨List.mem_cons_of_mem _ this.1, fun hv => this.2 (List.mem_cons_of_mem _ hv)⟩
      · intro x hx
        rcases List.mem_cons.1 hx with rfl | hx
        · exact Or.inr (by simp)
        · rcases h4 x hx with h | h
          · rcases List.mem_cons.1 h with rfl | h
            · exact Or.inr (by simp)
            · exact Or.inl h
          · exact Or.inr (by simp [h])

/-- `d` is the length of a shortest path from `s` to `v`. -/
def IsDist (desc : V → List V) (s v : V) (d : Nat) : Prop :=
  PathLen desc d s v ∧ ∀ m, PathLen desc m s v → d ≤ m

/-- Invariant of the breadth first search: the queue is a layer at distance `d` followed by a layer
at distance `d + 1`. -/
structure BfsInv (desc : V → List V) (s : V) (d : Nat) (L1 L2 : List V) (st : Bfs V) : Prop where
  queue : st.queue = L1 ++ L2
  near : ∀ v ∈ L1, IsDist desc s v d
  far : ∀ v ∈ L2, IsDist desc s v (d + 1)
  vis : ∀ v, v ∈ st.visited ↔ v ∈ st.yielded ∨ v ∈ st.queue
  nodup : (st.yielded ++ st.queue).Nodup
  out : ∀ v ∈ st.yielded, ∃ k, k ≤ d ∧ IsDist desc s v k
  closed : ∀ v ∈ st.yielded, ∀ w ∈ desc v, w ∈ st.visited
  all : ∀ v n, PathLen desc n s v → n ≤ d → v ∈ st.visited
  mono : st.yielded.Pairwise (fun u v => ∀ m, PathLen desc m s v → ∃ k, k ≤ m ∧ PathLen desc k s u)
  first : (st.yielded ++ st.queue).head? = some s

theorem bfs_shift {desc : V → List V} {s : V} {d : Nat} {L2 : List V} {st : Bfs V}
    (h : BfsInv desc s d [] L2 st) : BfsInv desc s (d + 1) L2 [] st := by
  refine ⟨by simpa using h.queue, h.far, by simp, h.vis, h.nodup, ?_, h.closed, ?_, h.mono, h.first⟩
  · intro v hv
    obtain ⟨k, hk, hd⟩ := h.out v hv
    exact ⟨k, by omega, hd⟩
  · intro v n hp hn
    by_cases hle : n ≤ d
    · exact h.all v n hp hle
    · have hn' : n = d + 1 := by omega
      subst hn'
      cases hp with
      | snoc hp he =>
        rename_i b
        have hb := h.all b d hp (Nat.le_refl _)
        rcases (h.vis b).1 hb with hb | hb
        · exact h.closed b hb v he
        · rw [h.queue, List.nil_append] at hb
          have := (h.far b hb).2 d hp
          omega

theorem bfs_pop {desc : V → List V} {s : V} {d : Nat} {v : V} {L1 L2 : List V} {st : Bfs V}
    (h : BfsInv desc s d (v :: L1) L2 st) :
    ∃ st' L2', bfsStep desc st = some st' ∧ BfsInv desc s d L1 L2' st' ∧
      st'.yielded = st.yielded ++ [v] := by
  obtain ⟨new, h1, h2, h3, h4⟩ := bfsExpand_spec (desc v) (L1 ++ L2) st.visited
  refine ⟨⟨(L1 ++ L2) ++ new, new.reverse ++ st.visited, st.yielded ++ [v]⟩, L2 ++ new, ?_, ?_, rfl⟩
  · simp [bfsStep, h.queue, h1]
  · have hv := h.near v (by simp)
    have hnotq : ∀ x ∈ new, x ∉ st.yielded ∧ x ∉ st.queue := by
      intro x hx
      have := (h3 x hx).2
      rw [h.vis] at this
      exact not_or.1 this
    refine ⟨by simp, fun w hw => h.near w (List.mem_cons_of_mem _ hw), ?_, ?_, ?_, ?_, ?_, ?_, ?_, ?_⟩
    · intro w hw
      rcases List.mem_append.1 hw with hw | hw
      · exact h.far w hw
      · refine ⟨PathLen.snoc hv.1 (h3 w hw).1, ?_⟩
        intro m hm
        by_contra hlt
        exact (h3 w hw).2 (h.all w m hm (by omega))
    · intro w
      simp only [List.mem_append, List.mem_reverse, h.vis, h.queue, List.not_mem_nil, or_false, List.mem_cons]
      constructor
      · rintro (hw | hw | hw | hw)
        · exact Or.inr (Or.inr hw)
        · exact Or.inl (Or.inl hw)
        · rcases hw with hw | hw
          · exact Or.inl (Or.inr hw)
          · exact Or.inr (Or.inl (Or.inl hw))
        · exact Or.inr (Or.inl (Or.inr hw))
      · rintro ((hw | hw) | (hw | hw) | hw)
        · exact Or.inr (Or.inl hw)
        · exact Or.inr (Or.inr (Or.inl (Or.inl hw)))
        · exact Or.inr (Or.inr (Or.inl (Or.inr hw)))
        · exact Or.inr (Or.inr (Or.inr hw))
        · exact Or.inl hw
    · have hnd := h.nodup
      rw [h.queue] at hnd
      have e : (st.yielded ++ [v]) ++ ((L1 ++ L2) ++ new)
          = (st.yielded ++ (v :: L1 ++ L2)) ++ new := by simp
      show ((st.yielded ++ [v]) ++ ((L1 ++ L2) ++ new)).Nodup
      rw [e, List.nodup_append]
      refine ⟨hnd, h2, ?_⟩
      intro a ha b hb hab
      subst hab
      have := hnotq a hb
      rw [h.queue] at this
      rcases List.mem_append.1 ha with ha | ha
      · exact this.1 ha
      · exact this.2 ha
    · intro w hw
      rcases List.mem_append.1 hw with hw | hw
      · exact h.out w hw
      · simp only [List.mem_singleton] at hw
        subst hw
        exact ⟨d, Nat.le_refl _, hv⟩
    · intro w hw x hx
      rcases List.mem_append.1 hw with hw | hw
      · exact List.mem_append.2 (Or.inr (h.closed w hw x hx))
      · simp only [List.mem_singleton] at hw
        subst hw
        rcases h4 x hx with hx | hx
        · exact List.mem_append.2 (Or.inr hx)
        · exact List.mem_append.2 (Or.inl (List.mem_reverse.2 hx))
    · intro w n hp hn
      exact List.mem_append.2 (Or.inr (h.all w n hp hn))
    · rw [List.pairwise_append]
      refine ⟨h.mono, by simp, ?_⟩
      intro u hu w hw m hm
      simp only [List.mem_singleton] at hw
      subst hw
      obtain ⟨k, hk, hd⟩ := h.out u hu
      exact ⟨k, Nat.le_trans hk (hv.2 m hm), hd.1⟩
    · have := h.first
      rw [h.queue] at this
      rw [← this]
      cases hy : st.yielded <;> simp

theorem bfsRun_ok {desc : V → List V} {s : V} (U : List V) (hU : ∀ v ∈ U, ∀ w ∈ desc v, w ∈ U) (n : Nat) :
    ∀ (d : Nat) (L1 L2 : List V) (st : Bfs V), BfsInv desc s d L1 L2 st →
      (∀ v ∈ st.yielded ++ st.queue, v ∈ U) → U.length ≤ st.yielded.length + n →
      ∃ d' st', bfsRun desc n st = some st'.yielded ∧ BfsInv desc s d' [] [] st' := by
  induction n with
  | zero =>
    intro d L1 L2 st h hsub hlen
    have hle := (h.nodup.subperm hsub).length_le
    rw [List.length_append] at hle
    have hq : st.queue = [] := List.eq_nil_of_length_eq_zero (by omega)
    have hL : L1 = [] ∧ L2 = [] := by
      have := h.queue
      rw [hq] at this
      simpa using this.symm
    obtain ⟨rfl, rfl⟩ := hL
    exact ⟨d, st, by simp [bfsRun, hq], h⟩
  | succ n ih =>
    have step : ∀ (d : Nat) (v : V) (L1 L2 : List V) (st : Bfs V), BfsInv desc s d (v :: L1) L2 st →
        (∀ v ∈ st.yielded ++ st.queue, v ∈ U) → U.length ≤ st.yielded.length + (n + 1) →
        ∃ d' st', bfsRun desc (n + 1) st = some st'.yielded ∧ BfsInv desc s d' [] [] st' := by
      intro d v L1 L2 st h hsub hlen
      obtain ⟨st', L2', hs, hinv, hy⟩ := bfs_pop h
      have hvU : v ∈ U := hsub v (by rw [h.queue]; simp)
      have := ih d L1 L2' st' hinv (by
        intro w hw
        have hw' : w ∈ st'.visited := (hinv.vis w).2 (List.mem_append.1 hw)
        obtain ⟨new, h1, h2, h3, h4⟩ := bfsExpand_spec (desc v) (L1 ++ L2) st.visited
        have hst' : st' = ⟨(L1 ++ L2) ++ new, new.reverse ++ st.visited, st.yielded ++ [v]⟩ := by
          simp [bfsStep, h.queue, h1] at hs
          simpa using hs.symm
        subst hst'
        rcases List.mem_append.1 hw' with hw' | hw'
        · exact hU v hvU w (h3 w (List.mem_reverse.1 hw')).1
        · exact hsub w (List.mem_append.2 ((h.vis w).1 hw'))) (by rw [hy]; simp; omega)
      obtain ⟨d', st'', hr, hi⟩ := this
      exact ⟨d', st'', by simp [bfsRun, hs, hr], hi⟩
    intro d L1 L2 st h hsub hlen
    cases L1 with
    | cons v L1 => exact step d v L1 L2 st h hsub hlen
    | nil =>
      have h' := bfs_shift h
      cases L2 with
      | cons v L2 => exact step (d + 1) v L2 [] st h' hsub hlen
      | nil =>
        refine ⟨d + 1, st, ?_, h'⟩
        have hq : st.queue = [] := by simpa using h.queue
        simp [bfsRun, bfsStep, hq]

/-! ## The mutable graph -/

section
variable {I : Type _} [DecidableEq I]

theorem setAdd_mem (s : List Ref) (x y : Ref) : y ∈ setAdd s x ↔ y ∈ s ∨ y = x := by
  unfold setAdd
  split
  · rename_i h
    constructor
    · exact Or.inl
    · rintro (h' | rfl)
      · exact h'
      · exact h
  · simp

theorem setAdd_nodup (s : List Ref) (x : Ref) (h : s.Nodup) : (setAdd s x).Nodup := by
  unfold setAdd
  split
  · exact h
  · rename_i hx
    rw [List.nodup_append]
    refine ⟨h, by simp, ?_⟩
    intro a ha b hb
    simp only [List.mem_singleton] at hb
    subst hb
    rintro rfl
    exact hx ha

/-- Invariant of reachable graphs. -/
structure GInv (g : G I) : Prop where
  mirror : ∀ a b, a ∈ g.anc b ↔ b ∈ g.desc a
  ancNodup : ∀ a, (g.anc a).Nodup
  descNodup : ∀ a, (g.desc a).Nodup
  closed : ∀ a b, b ∈ g.desc a → a ∈ g.nodes.values ∧ b ∈ g.nodes.values
  fresh : ∀ r ∈ g.nodes.values, r < g.next
  keysNodup : g.nodes.keys.Nodup
  valuesNodup : g.nodes.values.Nodup

theorem upd_apply (f : Ref → List Ref) (r : Ref) (s : List Ref) (x : Ref) :
    upd f r s x = if x = r then s else f x := rfl

theorem ginv (g : G I) (h : Reachable g) : GInv g := by
  induction h with
  | init => exact ⟨by simp, by simp, by simp, by simp, by simp [Dict.values], by simp [Dict.keys], by simp [Dict.values]⟩
  | @addNode g g' id r _ hadd ih =>
    unfold G.addNode at hadd
    split at hadd
    · cases hadd
    · rename_i hc
      have hk : id ∉ Dict.keys g.nodes := by
        rw [← Dict.get?_isSome_iff]; exact hc
      simp only [Except.ok.injEq, Prod.mk.injEq] at hadd
      obtain ⟨rfl, rfl⟩ := hadd
      have hset := Dict.set_of_not_mem (d := g.nodes) g.next hk
      have hval : Dict.values (g.nodes.set id g.next) = g.nodes.values ++ [g.next] := by
        rw [hset]; simp [Dict.values]
      have hnext : g.next ∉ g.nodes.values := fun hm => Nat.lt_irrefl _ (ih.fresh _ hm)
      have hd0 : ∀ b, b ∉ g.desc g.next := fun b hb => hnext (ih.closed _ _ hb).1
      have ha0 : ∀ b, g.next ∉ g.desc b := fun b hb => hnext (ih.closed _ _ hb).2
      refine ⟨?_, ?_, ?_, ?_, ?_, ?_, ?_⟩
      · intro a b
        simp only [upd_apply]
        by_cases hb : b = g.next
        · subst hb
          by_cases ha : a = g.next
          · simp [ha]
          · simp [ha, ha0]
        · by_cases ha : a = g.next
          · subst ha
            simp [hb, ih.mirror, hd0]
          · simp [ha, hb, ih.mirror]
      · intro a; simp only [upd_apply]; split
        · simp
        · exact ih.ancNodup a
      · intro a; simp only [upd_apply]; split
        · simp
        · exact ih.descNodup a
      · intro a b hb
        simp only [upd_apply] at hb
        split at hb
        · simp at hb
        · have := ih.closed a b hb
          simp only [hval, List.mem_append]
          exact ⟨Or.inl this.1, Or.inl this.2⟩
      · intro r hr
        simp only [hval, List.mem_append, List.mem_singleton] at hr
        rcases hr with hr | rfl
        · exact Nat.lt_succ_of_lt (ih.fresh r hr)
        · exact Nat.lt_succ_self _
      · simp only [hset]
        have : Dict.keys (g.nodes ++ [(id, g.next)]) = g.nodes.keys ++ [id] := by simp [Dict.keys]
        rw [this, List.nodup_append]
        refine ⟨ih.keysNodup, by simp, ?_⟩
        intro a ha b hb
        simp only [List.mem_singleton] at hb
        subst hb
        rintro rfl
        exact hk ha
      · simp only [hval]
        rw [List.nodup_append]
        refine ⟨ih.valuesNodup, by simp, ?_⟩
        intro a ha b hb
        simp only [List.mem_singleton] at hb
        subst hb
        rintro rfl
        exact hnext ha
  | @connect g self node _ hs hn ih =>
    refine ⟨?_, ?_, ?_, ?_, ih.fresh, ih.keysNodup, ih.valuesNodup⟩
    · intro a b
      simp only [G.connectAncestor, upd_apply]
      by_cases hb : b = self <;> by_cases ha : a = node <;>
        simp [ha, hb, setAdd_mem, ih.mirror]
    · intro a
      simp only [G.connectAncestor, upd_apply]
      split
      · exact setAdd_nodup _ _ (ih.ancNodup _)
      · exact ih.ancNodup a
    · intro a
      simp only [G.connectAncestor, upd_apply]
      split
      · exact setAdd_nodup _ _ (ih.descNodup _)
      · exact ih.descNodup a
    · intro a b hb
      simp only [G.connectAncestor, upd_apply] at hb ⊢
      split at hb
      · rename_i ha
        subst ha
        rcases (setAdd_mem _ _ _).1 hb with hb | rfl
        · exact ih.closed _ _ hb
        · exact ⟨hn, hs⟩
      · exact ih.closed _ _ hb
  | @disconnect g self node _ hs hn ih =>
    unfold G.disconnectAncestor
    split
    · rename_i hm
      have hd : self ∈ g.desc node := (ih.mirror _ _).1 hm
      simp only [hd, if_true]
      refine ⟨?_, ?_, ?_, ?_, ih.fresh, ih.keysNodup, ih.valuesNodup⟩
      · intro a b
        simp only [upd_apply]
        by_cases hb : b = self <;> by_cases ha : a = node
        · subst ha hb
          simp [(ih.ancNodup _).mem_erase_iff, (ih.descNodup _).mem_erase_iff]
        · subst hb
          simp [ha, (ih.ancNodup _).mem_erase_iff, ih.mirror]
        · subst ha
          simp [hb, (ih.descNodup _).mem_erase_iff, ih.mirror]
        · simp [ha, hb, ih.mirror]
      · intro a
        simp only [upd_apply]
        split
        · exact (ih.ancNodup _).erase _
        · exact ih.ancNodup a
      · intro a
        simp only [upd_apply]
        split
        · exact (ih.descNodup _).erase _
        · exact ih.descNodup a
      · intro a b hb
        simp only [upd_apply] at hb ⊢
        split at hb
        · rename_i ha
          subst ha
          exact ih.closed _ _ (List.mem_of_mem_erase hb)
        · exact ih.closed _ _ hb
    · exact ih

end

end Patro.Graph
