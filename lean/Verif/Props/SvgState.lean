import Verif.Proof.SvgState
import Verif.Model.Transformation
/-! # The drawing states of SVG -/

namespace Patro.SvgState

open Patro.Xml (Text)

variable {F T : Type _} (env : Env F T)

/-! ## Groups -/

theorem onRoot_leaking : ∀ (doc : Forest F T) (state : Obj F T) (stack : List (Obj F T)) (more : List (Mark F T)),
    leaking env (doc.marks ++ more) state = (do
      let (xs, stack) ← onRoot env doc (state :: stack)
      let ys ← leaking env more (stack.headD [])
      return xs ++ ys) ∧
    ∀ xs st, onRoot env doc (state :: stack) = .ok (xs, st) → st ≠ []
  | .nil, state, stack, more => by
    constructor
    · simp only [Forest.marks, List.nil_append, onRoot, bind, Except.bind, pure, Except.pure, List.headD_cons]
      cases leaking env more state <;> rfl
    · intro xs st h
      simp only [onRoot, Except.ok.injEq, Prod.mk.injEq] at h
      rw [← h.2]; simp
  | .group given children rest, state, stack, more => by
    simp only [Forest.marks, List.cons_append, leaking, onRoot, push, bind, Except.bind, extend]
    cases e1 : clone env state with
    | error _ => simp
    | ok s =>
      simp only
      cases e2 : merge env s (object "Group" given) with
      | error _ => simp
      | ok s' =>
        simp only [pure, Except.pure]
        have h1 := onRoot_leaking children s' (state :: stack) (rest.marks ++ more)
        rw [← List.append_assoc] at h1
        simp only [bind, Except.bind] at h1
        rw [h1.1]
        cases e3 : onRoot env children (s' :: state :: stack) with
        | error _ => simp
        | ok p =>
          obtain ⟨xs, st⟩ := p
          have hne := h1.2 xs st e3
          obtain ⟨s2, st2, rfl⟩ := List.exists_cons_of_ne_nil hne
          simp only [List.headD_cons]
          have h2 := onRoot_leaking rest s2 st2 more
          simp only [bind, Except.bind] at h2
          rw [h2.1]
          cases e4 : onRoot env rest (s2 :: st2) with
          | error _ => simp
          | ok p =>
            obtain ⟨ys, st3⟩ := p
            refine ⟨?_, ?_⟩
            · simp only
              cases leaking env more (st3.headD []) <;> simp [pure, Except.pure]
            · intro a b h
              simp only [Except.ok.injEq, Prod.mk.injEq] at h
              rw [← h.2]
              exact h2.2 ys st3 e4
  | .item tag given rest, state, stack, more => by
    simp only [Forest.marks, List.cons_append, leaking, onRoot, onItem, bind, Except.bind]
    cases e1 : itemState env state tag given with
    | error _ => simp
    | ok s =>
      simp only
      have h2 := onRoot_leaking rest state stack more
      simp only [bind, Except.bind] at h2
      rw [h2.1]
      cases e4 : onRoot env rest (state :: stack) with
      | error _ => simp
      | ok p =>
        obtain ⟨ys, st3⟩ := p
        refine ⟨?_, ?_⟩
        · simp only [pure, Except.pure]
          cases leaking env more (st3.headD []) <;> rfl
        · intro a b h
          simp only [pure, Except.pure, Except.ok.injEq, Prod.mk.injEq] at h
          rw [← h.2]
          exact h2.2 ys st3 e4
  | .other rest, state, stack, more => by
    simp only [Forest.marks, onRoot]
    exact onRoot_leaking rest state stack more
  | .comment rest, state, stack, more => by
    constructor
    · simp [Forest.marks, onRoot, leaking, bind, Except.bind]
    · intro xs st h
      simp [onRoot] at h

/-- C62. What is computed, for every document: the opening tags are read in the order they are written, and the state set by a group
applies to every element which follows, in the group or not. A comment is an error. -/
theorem read_exact (doc : Forest F T) :
    read env doc = (do
      let s ← newState env none
      leaking env doc.marks s) := by
  unfold read
  cases e : newState env none with
  | error _ => rfl
  | ok s =>
    simp only [bind, Except.bind]
    have h := (onRoot_leaking env doc s [] []).1
    rw [List.append_nil] at h
    rw [h]
    simp only [bind, Except.bind]
    cases onRoot env doc [s] with
    | error _ => rfl
    | ok p => simp [leaking, pure, Except.pure]

theorem leaking_inScope : ∀ (doc : Forest F T) (state : Obj F T), doc.LastGroup →
    leaking env doc.marks state = inScope env doc state ∧ (doc.marks = [] → inScope env doc state = .ok [])
  | .nil, state, _ => ⟨rfl, fun _ => rfl⟩
  | .group given children rest, state, h => by
    refine ⟨?_, by simp [Forest.marks]⟩
    simp only [Forest.marks, h.2, List.append_nil, leaking, inScope, bind, Except.bind]
    cases extend env state (object "Group" given) with
    | error _ => rfl
    | ok s =>
      simp only
      rw [(leaking_inScope children s h.1).1]
      have hr : inScope env rest state = .ok [] := marks_nil rest state h.2
      rw [hr]
      cases inScope env children s <;> simp [pure, Except.pure]
  | .item tag given rest, state, h => by
    refine ⟨?_, by simp [Forest.marks]⟩
    simp only [Forest.marks, leaking, inScope, bind, Except.bind]
    rw [(leaking_inScope rest state h).1]
  | .other rest, state, h => by
    simp only [Forest.marks, inScope]
    exact leaking_inScope rest state h
  | .comment rest, state, h => h.elim
where
  marks_nil : ∀ (doc : Forest F T) (state : Obj F T), doc.marks = [] → inScope env doc state = .ok []
    | .nil, _, _ => rfl
    | .group .., _, h => by simp [Forest.marks] at h
    | .item .., _, h => by simp [Forest.marks] at h
    | .other rest, state, h => marks_nil rest state h
    | .comment .., _, h => by simp [Forest.marks] at h

/-- C62. The state set by a group applies to the elements of the group only, when nothing which is read follows a group among its
siblings and there are no comments. -/
theorem group_scope_partial (doc : Forest F T) (h : doc.LastGroup) :
    read env doc = (do
      let s ← newState env none
      inScope env doc s) := by
  rw [read_exact]
  cases newState env none with
  | error _ => rfl
  | ok s => exact (leaking_inScope env doc s h).1

/-- Translations along an axis, for examples; no text is a number. -/
def exampleEnv : Env ℤ ℤ where
  float _ := none
  int x := .ok x
  mul := (· + ·)
  one := 0
  ofNat n := n

/-- A group moved by 10 with a path, and a path moved by 1 after the group. -/
def exampleDoc : Forest ℤ ℤ :=
  .group [("transform", .transform 10)] (.item "path" [("transform", .transform 2)] .nil)
    (.item "path" [("transform", .transform 1)] .nil)

/-- The transformations of the items. -/
def transforms (r : Except PyErr (List (Obj ℤ ℤ))) : Option (List (Option (Val ℤ ℤ))) :=
  match r with
  | .ok xs => some (xs.map fun o => o.get? "transform")
  | .error _ => none

/-- C62. The state set by a group applies to its following siblings too: the path after the group of the example is moved by 11, not
by 1. -/
theorem group_scope_wrong :
    transforms (read exampleEnv exampleDoc) = some [some (.transform 12), some (.transform 11)] ∧
    transforms (do
      let s ← newState exampleEnv none
      inScope exampleEnv exampleDoc s) = some [some (.transform 12), some (.transform 1)] := by
  decide +kernel

example : (Forest.item "path" [] (.group [("transform", .transform 10)] (.item "path" [("transform", .transform 2)]
    (.group [("transform", .transform 3)] (.item "line" [] .nil) .nil)) .nil) : Forest ℤ ℤ).LastGroup ∧
  transforms (read exampleEnv (.item "path" [] (.group [("transform", .transform 10)] (.item "path" [("transform", .transform 2)]
    (.group [("transform", .transform 3)] (.item "line" [] .nil) .nil)) .nil)))
    = some [some (.transform 0), some (.transform 12), some (.transform 13)] := by
  constructor
  · simp [Forest.LastGroup, Forest.marks]
  · decide +kernel

/-! ## Inheritance -/

/-- The states met: every attribute has a value, which is not changed by another conversion, and the transformation is one. -/
def Settled (state : Obj F T) : Prop :=
  (∀ name ∈ (states env).map Prod.fst, ∃ v, state.get? name = some v ∧ toPython env v = .ok v) ∧
  ∃ t, state.get? "transform" = some (.transform t)

theorem mem_states (name : String) (h : name ∈ (states env).map Prod.fst) : ∃ d, (name, d) ∈ states env := by
  obtain ⟨p, hp, rfl⟩ := List.mem_map.1 h
  exact ⟨p.2, hp⟩

theorem transform_mem : "transform" ∈ (states env).map Prod.fst := by
  simp [states]

theorem style_mem : "style" ∈ (states env).map Prod.fst := by
  simp [states]

/-- C113. The default state, when the words for the defaults are not numbers. -/
theorem newState_settled (h1 : env.float "nonzero".toList = none) (h2 : env.float "butt".toList = none)
    (h3 : env.float "miter".toList = none) : ∃ s, newState env none = .ok s ∧ Settled env s ∧
      s.get? "transform" = some (.transform env.one) ∧ ∀ p ∈ states env, s.get? p.1 = some p.2 := by
  obtain ⟨s, hs, _⟩ := fold_ok (initStep env none) (fun _ => True) (states env) (fun o a _ _ => ⟨_, rfl, trivial⟩) [] trivial
  have hp : ∀ p ∈ states env, s.get? p.1 = some p.2 := fun p hp => (newState_get env none s hs p.1 p.2 hp).2 rfl
  have ht : s.get? "transform" = some (.transform env.one) := hp ("transform", .transform env.one) (by simp [states])
  refine ⟨s, hs, ⟨?_, _, ht⟩, ht, hp⟩
  have hd : ∀ p ∈ states env, toPython env p.2 = .ok p.2 := by
    simp only [states, List.forall_mem_cons, toPython, h1, h2, h3]
    simp
  intro name hn
  obtain ⟨d, hm⟩ := mem_states env name hn
  exact ⟨d, hp _ hm, hd _ hm⟩

theorem clone_get (state s : Obj F T) (hs : Settled env state) (h : clone env state = .ok s) (name : String)
    (hn : name ∈ (states env).map Prod.fst) : s.get? name = state.get? name := by
  obtain ⟨v, hv, hp⟩ := hs.1 name hn
  obtain ⟨d, hm⟩ := mem_states env name hn
  obtain ⟨w, hw, hr⟩ := (newState_get env (some state) s h name d hm).1 v hv
  rw [hp, Except.ok.injEq] at hw
  rw [hr, hv, hw]

open Classical in
theorem dictStep_fold (all : Bool) (state : Obj F T) (names : List String) (h : ∀ n ∈ names, ∃ v, state.get? n = some v) (d : Obj F T) :
    ∃ r, names.foldlM (dictStep all state) d = .ok r ∧ ∀ n, r.get? n =
      if n ∈ names ∧ (all = true ∨ state.get? n ≠ some .none) then state.get? n else d.get? n := by
  induction names generalizing d with
  | nil => exact ⟨d, rfl, fun n => by simp⟩
  | cons name names ih =>
    obtain ⟨v, hv⟩ := h name (List.mem_cons_self ..)
    obtain ⟨d', hd, hd'⟩ : ∃ d', dictStep all state d name = .ok d' ∧ ∀ n, d'.get? n =
        if n = name ∧ (all = true ∨ state.get? n ≠ some .none) then state.get? n else d.get? n := by
      unfold dictStep
      rw [hv]
      cases v with
      | none =>
        cases all with
        | false => exact ⟨d, rfl, fun n => by by_cases e : n = name <;> simp [e, hv]⟩
        | true =>
          refine ⟨_, rfl, fun n => ?_⟩
          by_cases e : n = name
          · subst e; simp [hv, Dict.get?_set_self]
          · simp [e, Dict.get?_set_ne _ _ (Ne.symm e)]
      | _ =>
        refine ⟨_, rfl, fun n => ?_⟩
        by_cases e : n = name
        · subst e; simp [hv, Dict.get?_set_self]
        · simp [e, Dict.get?_set_ne _ _ (Ne.symm e)]
    obtain ⟨r, hr, hr'⟩ := ih (fun n hn => h n (List.mem_cons_of_mem _ hn)) d'
    refine ⟨r, by rw [List.foldlM_cons, hd]; exact hr, fun n => ?_⟩
    rw [hr', hd']
    by_cases e : n = name
    · subst e
      by_cases c : all = true ∨ state.get? n ≠ some .none <;> simp [c]
    · simp [e]

open Classical in
/-- C244. The dictionary of a state gives the value of each presentation attribute, or only of those which have a value, and of nothing else;
the one of a clone is the same. -/
theorem to_dict (state : Obj F T) (hs : Settled env state) (all : Bool) :
    ∃ d, toDict env all state = .ok d ∧ (∀ name ∉ (states env).map Prod.fst, d.get? name = none) ∧
      (∀ name ∈ (states env).map Prod.fst,
        d.get? name = if all = true ∨ state.get? name ≠ some .none then state.get? name else none) ∧
      ∀ s, clone env state = .ok s → ∃ d', toDict env all s = .ok d' ∧ ∀ name, d'.get? name = d.get? name := by
  have key : ∀ s : Obj F T, (∀ n ∈ (states env).map Prod.fst, ∃ v, s.get? n = some v) → ∃ d, toDict env all s = .ok d ∧
      (∀ name ∉ (states env).map Prod.fst, d.get? name = none) ∧
      (∀ name ∈ (states env).map Prod.fst, d.get? name = if all = true ∨ s.get? name ≠ some .none then s.get? name else none) := by
    intro s h
    obtain ⟨r, h1, h2⟩ := dictStep_fold all s ((states env).map Prod.fst) h []
    refine ⟨r, h1, fun name hn => by rw [h2, if_neg fun c => hn c.1]; rfl, fun name hn => ?_⟩
    rw [h2]
    simp only [hn, true_and]
    rfl
  have hv : ∀ n ∈ (states env).map Prod.fst, ∃ v, state.get? n = some v := fun n hn => by
    obtain ⟨v, h, _⟩ := hs.1 n hn
    exact ⟨v, h⟩
  obtain ⟨d, h1, h2, h3⟩ := key state hv
  refine ⟨d, h1, h2, h3, fun s hc => ?_⟩
  have hg := clone_get env state s hs hc
  obtain ⟨d', g1, g2, g3⟩ := key s fun n hn => by rw [hg n hn]; exact hv n hn
  refine ⟨d', g1, fun name => ?_⟩
  by_cases hn : name ∈ (states env).map Prod.fst
  · rw [g3 name hn, h3 name hn, hg name hn]
  · rw [g2 name hn, h2 name hn]

/-- C244. For a state which lost an attribute, `to_dict` raises `AttributeError`. -/
theorem to_dict_missing (state : Obj F T) (all : Bool) (name : String) (hn : name ∈ (states env).map Prod.fst) (h : state.get? name = none) :
    toDict env all state = .error .attributeError := by
  unfold toDict
  generalize (states env).map Prod.fst = names at hn
  have : ∀ d : Obj F T, names.foldlM (dictStep all state) d = .error .attributeError := by
    induction names with
    | nil => cases hn
    | cons m names ih =>
      intro d
      rw [List.foldlM_cons]
      rcases List.mem_cons.1 hn with rfl | hn
      · simp [dictStep, h, bind, Except.bind]
      · cases e : dictStep all state d m with
        | ok d' => exact ih hn d'
        | error x =>
          unfold dictStep at e
          split at e
          · cases e; rfl
          · split at e <;> cases e
          · cases e
  exact this []

/-- C113. The state of an element without a style, attribute by attribute: the value of the element if its class has the attribute, even if
the element does not have it; otherwise the inherited value. -/
theorem extend_attribute (state item r : Obj F T) (hs : Settled env state) (h : extend env state item = .ok r)
    (hstyle : ∀ t, item.get? "style" ≠ some (.str t)) (name : String) (hn : name ∈ (states env).map Prod.fst)
    (ht : name ≠ "transform") (hy : name ≠ "style") :
    match item.get? name with
    | none => r.get? name = state.get? name
    | some v => ∃ w, toPython env v = .ok w ∧ r.get? name = some w := by
  obtain ⟨s, s', e1, e2, e3, _⟩ := extend_ok env state item r h
  rw [e3 hstyle]
  obtain ⟨m1, m2, _⟩ := merge_loop_get env item s s' e2 name hn
  cases hv : item.get? name with
  | none => rw [m1 hv, clone_get env state s hs e1 name hn]
  | some v => exact m2 v hv ht hy

/-- C113. The text of an attribute which is a number: with a point it is this number, without a point it is truncated; `none` is no value
and another text is kept. -/
theorem extend_text (state item r : Obj F T) (hs : Settled env state) (h : extend env state item = .ok r)
    (hstyle : ∀ t, item.get? "style" ≠ some (.str t)) (name : String) (hn : name ∈ (states env).map Prod.fst)
    (ht : name ≠ "transform") (hy : name ≠ "style") (t : Text) (hv : item.get? name = some (.str t)) :
    (t = "none".toList → r.get? name = some .none) ∧
    (t ≠ "none".toList → env.float t = none → r.get? name = some (.str t)) ∧
    (∀ x, t ≠ "none".toList → env.float t = some x → '.' ∈ t → r.get? name = some (.num x)) ∧
    (∀ x n, t ≠ "none".toList → env.float t = some x → '.' ∉ t → env.int x = .ok n → r.get? name = some (.num n)) := by
  have key := extend_attribute env state item r hs h hstyle name hn ht hy
  rw [hv] at key
  obtain ⟨w, hw, hr⟩ := key
  refine ⟨fun h1 => ?_, fun h1 h2 => ?_, fun x h1 h2 h3 => ?_, fun x n h1 h2 h3 h4 => ?_⟩
  · rw [toPython, if_pos h1, Except.ok.injEq] at hw
    rw [hr, ← hw]
  · simp only [toPython, if_neg h1, h2, Except.ok.injEq] at hw
    rw [hr, ← hw]
  · simp only [toPython, if_neg h1, h2, if_pos h3, Except.ok.injEq] at hw
    rw [hr, ← hw]
  · simp only [toPython, if_neg h1, h2, if_neg h3, h4, Except.ok.injEq] at hw
    rw [hr, ← hw]

/-- Numbers counted in tenths. -/
def tenthsEnv : Env ℤ ℤ :=
  { exampleEnv with
    float := fun t => if t = "0.5".toList ∨ t = "5e-1".toList then some 5 else none
    int := fun x => .ok (x / 10 * 10) }

/-- An opacity of `0.5` is read as one half, but `5e-1` is read as zero. -/
example : ∃ s r r', newState tenthsEnv none = .ok s ∧ extend tenthsEnv s [("opacity", .str "0.5".toList)] = .ok r ∧
    extend tenthsEnv s [("opacity", .str "5e-1".toList)] = .ok r' ∧ r.get? "opacity" = some (.num 5) ∧ r'.get? "opacity" = some (.num 0) := by
  have h : (do
      let s ← newState tenthsEnv none
      let r ← extend tenthsEnv s [("opacity", .str "0.5".toList)]
      let r' ← extend tenthsEnv s [("opacity", .str "5e-1".toList)]
      return (r.get? "opacity", r'.get? "opacity")) = .ok (some (.num 5), some (.num 0)) := by decide +kernel
  cases h1 : newState tenthsEnv none with
  | error e => rw [h1] at h; cases h
  | ok s =>
    cases h2 : extend tenthsEnv s [("opacity", .str "0.5".toList)] with
    | error e => simp only [h1, h2, bind, Except.bind] at h; cases h
    | ok r =>
      cases h3 : extend tenthsEnv s [("opacity", .str "5e-1".toList)] with
      | error e => simp only [h1, h2, h3, bind, Except.bind] at h; cases h
      | ok r' =>
        simp only [h1, h2, h3, bind, Except.bind, pure, Except.pure, Except.ok.injEq, Prod.mk.injEq] at h
        exact ⟨s, r, r', rfl, h2, h3, h.1, h.2⟩

/-- C113. The transformation of an element is composed with that of the state, which is applied last. -/
theorem extend_transform (state item r : Obj F T) (hs : Settled env state) (h : extend env state item = .ok r)
    (hstyle : ∀ t, item.get? "style" ≠ some (.str t)) (t : T) (hst : state.get? "transform" = some (.transform t)) :
    (∀ u, item.get? "transform" = some (.transform u) → r.get? "transform" = some (.transform (env.mul t u))) ∧
    (item.get? "transform" = none ∨ item.get? "transform" = some .none → r.get? "transform" = some (.transform t)) := by
  obtain ⟨s, s', e1, e2, e3, _⟩ := extend_ok env state item r h
  have hc := clone_get env state s hs e1 "transform" (transform_mem env)
  rw [e3 hstyle]
  obtain ⟨m1, _, m3, _, m5⟩ := merge_loop_get env item s s' e2 "transform" (transform_mem env)
  constructor
  · intro u hu
    obtain ⟨t', u', h1, h2, h3⟩ := m5 _ hu (by simp) rfl
    rw [hc, hst, Option.some.injEq, Val.transform.injEq] at h1
    rw [Val.transform.injEq] at h2
    rw [h3, ← h1, ← h2]
  · rintro (hu | hu)
    · rw [m1 hu, hc, hst]
    · rw [m3 hu rfl, hc, hst]

/-- C113. The state of an element without a style is a state of the same kind. -/
theorem extend_settled (state item r : Obj F T) (hs : Settled env state) (h : extend env state item = .ok r)
    (hstyle : ∀ t, item.get? "style" ≠ some (.str t)) : Settled env r := by
  obtain ⟨t, ht⟩ := hs.2
  constructor
  · intro name hn
    by_cases h1 : name = "transform"
    · subst h1
      obtain ⟨s, s', e1, e2, e3, _⟩ := extend_ok env state item r h
      obtain ⟨m1, _, m3, _, m5⟩ := merge_loop_get env item s s' e2 "transform" (transform_mem env)
      have hc := clone_get env state s hs e1 "transform" (transform_mem env)
      rw [e3 hstyle]
      cases hv : item.get? "transform" with
      | none => exact ⟨.transform t, by rw [m1 hv, hc, ht], rfl⟩
      | some v =>
        by_cases hn : v = .none
        · subst hn
          exact ⟨.transform t, by rw [m3 hv rfl, hc, ht], rfl⟩
        · obtain ⟨t', u', _, _, h3⟩ := m5 v hv hn rfl
          exact ⟨_, h3, rfl⟩
    · by_cases h2 : name = "style"
      · subst h2
        obtain ⟨s, s', e1, e2, e3, _⟩ := extend_ok env state item r h
        obtain ⟨_, _, _, m4, _⟩ := merge_loop_get env item s s' e2 "style" (style_mem env)
        rw [e3 hstyle, m4 rfl, clone_get env state s hs e1 "style" (style_mem env)]
        exact hs.1 "style" (style_mem env)
      · have := extend_attribute env state item r hs h hstyle name hn h1 h2
        cases hv : item.get? name with
        | none =>
          rw [hv] at this
          simp only at this
          rw [this]
          exact hs.1 name hn
        | some v =>
          rw [hv] at this
          obtain ⟨w, hw, hr⟩ := this
          exact ⟨w, hr, toPython_idem env v w hw⟩
  · obtain ⟨s, s', e1, e2, e3, _⟩ := extend_ok env state item r h
    obtain ⟨m1, _, m3, _, m5⟩ := merge_loop_get env item s s' e2 "transform" (transform_mem env)
    have hc := clone_get env state s hs e1 "transform" (transform_mem env)
    rw [e3 hstyle]
    cases hv : item.get? "transform" with
    | none => exact ⟨t, by rw [m1 hv, hc, ht]⟩
    | some v =>
      by_cases hn : v = .none
      · subst hn
        exact ⟨t, by rw [m3 hv rfl, hc, ht]⟩
      · obtain ⟨t', u', _, _, h3⟩ := m5 v hv hn rfl
        exact ⟨_, h3⟩

/-- C113. An attribute which an element does not have is inherited from the groups around it exactly when the class of the element does not
know this attribute, or there is nothing to inherit. -/
theorem inherited_iff (state r : Obj F T) (hs : Settled env state) (cls : String) (given : Obj F T)
    (h : extend env state (object cls given) = .ok r) (hstyle : ∀ t, given.get? "style" ≠ some (.str t)) (name : String)
    (hn : name ∈ (states env).map Prod.fst) (ht : name ≠ "transform") (hy : name ≠ "style") (hg : given.get? name = none) :
    r.get? name = state.get? name ↔ name ∉ classAttrs cls ∨ state.get? name = some .none := by
  have hstyle' : ∀ t, (object cls given).get? "style" ≠ some (.str t) := by
    intro t
    rw [object_get]
    split
    · cases hv : given.get? "style" with
      | none => simp
      | some v =>
        intro hc
        simp only [Option.getD_some] at hc
        exact hstyle t (by rw [hv, hc])
    · simp
  have key := extend_attribute env state (object cls given) r hs h hstyle' name hn ht hy
  rw [object_get, hg] at key
  by_cases hm : name ∈ classAttrs cls
  · rw [if_pos hm] at key
    simp only [Option.getD_none] at key
    obtain ⟨w, hw, hr⟩ := key
    simp only [toPython, Except.ok.injEq] at hw
    rw [hr, ← hw]
    simp only [hm, not_true, false_or]
    exact eq_comm
  · rw [if_neg hm] at key
    simp only at key
    simp only [hm, not_false_iff, true_or, iff_true]
    exact key

/-- The values of an attribute of the items. -/
def values (name : String) (r : Except PyErr (List (Obj ℤ ℤ))) : Option (List (Option (Val ℤ ℤ))) :=
  match r with
  | .ok xs => some (xs.map fun o => o.get? name)
  | .error _ => none

/-- C113. The colour of a group is not inherited by its paths, though its family of fonts is. -/
theorem inherited_wrong :
    values "fill" (read exampleEnv (.group [("fill", .str "red".toList), ("font_family", .str "serif".toList)]
      (.item "path" [] .nil) .nil)) = some [some .none] ∧
    values "font_family" (read exampleEnv (.group [("fill", .str "red".toList), ("font_family", .str "serif".toList)]
      (.item "path" [] .nil) .nil)) = some [some (.str "serif".toList)] := by
  decide +kernel

/-- C113. The caps and joins of the strokes and the limit of the mitres given by attributes are lost, whatever they are: the state keeps
the inherited values. -/
theorem stroke_attributes_lost (state r : Obj F T) (hs : Settled env state) (cls : String) (given : Obj F T)
    (h : extend env state (object cls given) = .ok r) (hstyle : ∀ t, given.get? "style" ≠ some (.str t)) (name : String)
    (hn : name = "stroke_linecap" ∨ name = "stroke_linejoin" ∨ name = "stroke_miterlimit") (hc : cls ∈ allTags.map Prod.fst) :
    r.get? name = state.get? name := by
  have hstyle' : ∀ t, (object cls given).get? "style" ≠ some (.str t) := by
    intro t
    rw [object_get]
    split
    · cases hv : given.get? "style" with
      | none => simp
      | some v =>
        intro hc
        simp only [Option.getD_some] at hc
        exact hstyle t (by rw [hv, hc])
    · simp
  have hm : name ∉ classAttrs cls := by
    have : ∀ c ∈ allTags.map Prod.fst, ∀ n ∈ ["stroke_linecap", "stroke_linejoin", "stroke_miterlimit"], n ∉ classAttrs c := by
      decide +kernel
    exact this cls hc name (by simpa using hn)
  have key := extend_attribute env state (object cls given) r hs h hstyle' name
    (by rcases hn with rfl | rfl | rfl <;> simp [states]) (by rcases hn with rfl | rfl | rfl <;> decide)
    (by rcases hn with rfl | rfl | rfl <;> decide)
  rw [object_get, if_neg hm] at key
  exact key

/-! ## Style -/

/-- The name of the attribute set by a declaration. -/
def pyName (name : Text) : String := String.ofList ((Xml.strip name).map fun c => if c = '-' then '_' else c)

theorem split_declaration (d : Text × Text) (h1 : ':' ∉ d.1) (h2 : ':' ∉ d.2) : Xml.split ':' (declaration d) = [d.1, d.2] := by
  unfold declaration
  rw [Xml.split_append _ _ _ h1, Xml.split_of_not_mem _ _ h2]

theorem styleStep_declaration (state : Obj F T) (d : Text × Text) (h1 : ':' ∉ d.1) (h2 : ':' ∉ d.2) (ht : pyName d.1 ≠ "transform") :
    styleStep env state (declaration d) = (do
      let v ← toPython env (.str (Xml.strip d.2))
      return state.set (pyName d.1) v) := by
  unfold styleStep
  rw [split_declaration d h1 h2]
  simp only [List.map_cons, List.map_nil]
  exact if_neg ht

/-- C114. The declarations of a style which are separated by semicolons, with none at the end, set the attributes they name: the last
declaration of a property wins, over the attributes of the element and over those of the groups. -/
theorem style_partial (state item r : Obj F T) (l1 : List (Text × Text)) (d : Text × Text) (l2 : List (Text × Text))
    (h : extend env state item = .ok r)
    (hstyle : item.get? "style" = some (.str (Xml.join ';' ((l1 ++ d :: l2).map declaration))))
    (hc : ∀ e ∈ l1 ++ d :: l2, ':' ∉ e.1 ∧ ':' ∉ e.2 ∧ ';' ∉ e.1 ∧ ';' ∉ e.2 ∧ pyName e.1 ≠ "transform")
    (hl : ∀ e ∈ l2, pyName e.1 ≠ pyName d.1) :
    ∃ w, toPython env (.str (Xml.strip d.2)) = .ok w ∧ r.get? (pyName d.1) = some w := by
  obtain ⟨s, s', _, _, _, e4⟩ := extend_ok env state item r h
  have hf := e4 _ hstyle
  rw [Xml.split_join] at hf
  · rw [List.map_append, List.map_cons, List.foldlM_append] at hf
    cases ea : (l1.map declaration).foldlM (styleStep env) s' with
    | error _ => simp [ea, bind, Except.bind] at hf
    | ok o1 =>
      simp only [ea, bind, Except.bind] at hf
      rw [List.foldlM_cons] at hf
      have hd := hc d (by simp)
      rw [styleStep_declaration env o1 d hd.1 hd.2.1 hd.2.2.2.2] at hf
      cases ew : toPython env (.str (Xml.strip d.2)) with
      | error _ => simp [ew, bind, Except.bind] at hf
      | ok w =>
        simp only [ew, bind, Except.bind, pure, Except.pure] at hf
        refine ⟨w, rfl, ?_⟩
        have rest : ∀ (l : List (Text × Text)) (o r : Obj F T), (l.map declaration).foldlM (styleStep env) o = .ok r →
            (∀ e ∈ l, ':' ∉ e.1 ∧ ':' ∉ e.2 ∧ pyName e.1 ≠ "transform" ∧ pyName e.1 ≠ pyName d.1) →
            r.get? (pyName d.1) = o.get? (pyName d.1) := by
          intro l
          induction l with
          | nil =>
            intro o r h _
            simp only [List.map_nil, List.foldlM_nil, pure, Except.pure, Except.ok.injEq] at h
            rw [h]
          | cons a l ih =>
            intro o r h hl
            rw [List.map_cons, List.foldlM_cons] at h
            have ha := hl a (by simp)
            rw [styleStep_declaration env o a ha.1 ha.2.1 ha.2.2.1] at h
            cases ew : toPython env (.str (Xml.strip a.2)) with
            | error _ => simp [ew, bind, Except.bind] at h
            | ok w =>
              simp only [ew, bind, Except.bind, pure, Except.pure] at h
              rw [ih _ _ h (fun e he => hl e (by simp [he])), Dict.get?_set_ne _ _ ha.2.2.2]
        rw [rest l2 _ _ hf (fun e he => ⟨(hc e (by simp [he])).1, (hc e (by simp [he])).2.1, (hc e (by simp [he])).2.2.2.2, hl e he⟩),
          Dict.get?_set_self]
  · simp
  · intro t ht
    obtain ⟨e, he, rfl⟩ := List.mem_map.1 ht
    have hx := hc e he
    simp only [declaration, List.mem_append, List.mem_cons, not_or]
    exact ⟨hx.2.2.1, by decide, hx.2.2.2.1⟩

theorem fold_step_error (l : List Text) (t : Text) (ht : t ∈ l) (hf : ∀ s : Obj F T, ∀ r, styleStep env s t ≠ .ok r) (s r : Obj F T) :
    l.foldlM (styleStep env) s ≠ .ok r := by
  intro h
  obtain ⟨l1, l2, rfl⟩ := List.append_of_mem ht
  rw [List.foldlM_append] at h
  cases ea : l1.foldlM (styleStep env) s with
  | error _ => simp [ea, bind, Except.bind] at h
  | ok o1 =>
    simp only [ea, bind, Except.bind] at h
    rw [List.foldlM_cons] at h
    cases eb : styleStep env o1 t with
    | error _ => simp [eb, bind, Except.bind] at h
    | ok o2 => exact hf o1 o2 eb

/-- A value which can be converted: not the text of a number without a point, other than one for which there is no integer and the error of
`int` is not `ValueError`, as `inf`. -/
def Readable (v : Val F T) : Prop :=
  ∀ t x e, v = .str t → t ≠ "none".toList → env.float t = some x → '.' ∉ t → env.int x = .error e → e = .valueError

theorem readable_iff (v : Val F T) : (∃ w, toPython env v = .ok w) ↔ Readable env v := by
  constructor
  · rintro ⟨w, hw⟩ t x e rfl h1 h2 h3 h4
    simp only [toPython, if_neg h1, h2, if_neg h3, h4] at hw
    cases e <;> simp_all
  · intro h
    cases v with
    | str t =>
      by_cases h1 : t = "none".toList
      · exact ⟨_, by rw [toPython, if_pos h1]⟩
      · cases h2 : env.float t with
        | none => exact ⟨_, by simp only [toPython, if_neg h1, h2]; rfl⟩
        | some x =>
          by_cases h3 : '.' ∈ t
          · exact ⟨_, by simp only [toPython, if_neg h1, h2, if_pos h3]; rfl⟩
          · cases h4 : env.int x with
            | ok n => exact ⟨_, by simp only [toPython, if_neg h1, h2, if_neg h3, h4]; rfl⟩
            | error e =>
              obtain rfl := h t x e rfl h1 h2 h3 h4
              exact ⟨_, by simp only [toPython, if_neg h1, h2, if_neg h3, h4]; rfl⟩
    | none => exact ⟨_, rfl⟩
    | num x => exact ⟨_, rfl⟩
    | transform x => exact ⟨_, rfl⟩
    | other => exact ⟨_, rfl⟩

theorem clone_ok (state : Obj F T) (hs : Settled env state) : ∃ s, clone env state = .ok s := by
  obtain ⟨s, h, _⟩ := fold_ok (initStep env (some state)) (fun _ => True) (states env) (fun o a _ ha => by
    obtain ⟨v, hv, hp⟩ := hs.1 a.1 (List.mem_map_of_mem ha)
    exact ⟨o.set a.1 v, by simp [initStep, hv, hp, bind, Except.bind, pure, Except.pure], trivial⟩) [] trivial
  exact ⟨s, h⟩

/-- The attributes of an element which can be merged with a state. -/
def Mergeable (item : Obj F T) : Prop :=
  (∀ name ∈ (states env).map Prod.fst, name ≠ "transform" → name ≠ "style" → ∀ v, item.get? name = some v → Readable env v) ∧
  ∀ v, item.get? "transform" = some v → v = .none ∨ ∃ u, v = .transform u

theorem merge_loop_iff (state s item : Obj F T) (hs : Settled env state) (hc : clone env state = .ok s) :
    (∃ r, ((states env).map Prod.fst).foldlM (mergeStep env item) s = .ok r) ↔ Mergeable env item := by
  constructor
  · rintro ⟨r, hr⟩
    constructor
    · intro name hn ht hy v hv
      obtain ⟨_, m2, _⟩ := merge_loop_get env item s r hr name hn
      obtain ⟨w, hw, _⟩ := m2 v hv ht hy
      exact (readable_iff env v).1 ⟨w, hw⟩
    · intro v hv
      obtain ⟨_, _, _, _, m5⟩ := merge_loop_get env item s r hr "transform" (transform_mem env)
      by_cases h : v = .none
      · exact Or.inl h
      · obtain ⟨_, u, _, h2, _⟩ := m5 v hv h rfl
        exact Or.inr ⟨u, h2⟩
  · rintro ⟨h1, h2⟩
    obtain ⟨r, hr, _⟩ := fold_ok (mergeStep env item) (fun o => ∃ t, o.get? "transform" = some (.transform t))
      ((states env).map Prod.fst) (fun o name ho hn => by
        obtain ⟨t, ht⟩ := ho
        unfold mergeStep
        cases hv : item.get? name with
        | none => exact ⟨o, rfl, t, ht⟩
        | some v =>
          by_cases e1 : name = "transform"
          · subst e1
            dsimp only
            rw [if_pos rfl]
            rcases h2 v hv with rfl | ⟨u, rfl⟩
            · exact ⟨o, rfl, t, ht⟩
            · exact ⟨_, by simp only [mulTransform, ht]; rfl, env.mul t u, Dict.get?_set_self ..⟩
          · by_cases e2 : name = "style"
            · exact ⟨o, by simp only [if_neg e1, if_pos e2], t, ht⟩
            · obtain ⟨w, hw⟩ := (readable_iff env v).2 (h1 name hn e1 e2 v hv)
              refine ⟨o.set name w, by simp only [if_neg e1, if_neg e2, hw]; rfl, t, ?_⟩
              rw [Dict.get?_set_ne _ _ e1, ht]) s (by
        obtain ⟨t, ht⟩ := hs.2
        exact ⟨t, by rw [clone_get env state s hs hc _ (transform_mem env), ht]⟩)
    exact ⟨r, hr⟩

/-- C113. An element without a style has a state exactly when its texts can be converted and its transformation, if it has one, was read. -/
theorem extend_iff (state item : Obj F T) (hs : Settled env state) (hstyle : ∀ t, item.get? "style" ≠ some (.str t)) :
    (∃ r, extend env state item = .ok r) ↔ Mergeable env item := by
  obtain ⟨s, hc⟩ := clone_ok env state hs
  rw [← merge_loop_iff env state s item hs hc]
  constructor
  · rintro ⟨r, hr⟩
    obtain ⟨s1, s2, e1, e2, _⟩ := extend_ok env state item r hr
    rw [hc, Except.ok.injEq] at e1
    subst e1
    exact ⟨s2, e2⟩
  · rintro ⟨r, hr⟩
    refine ⟨r, ?_⟩
    simp only [extend, hc, bind, Except.bind, merge, hr]
    rfl

/-- C114. An element with a style of declarations has a state exactly when its attributes and the values of the declarations can be
converted. -/
theorem style_iff (state item : Obj F T) (hs : Settled env state) (ds : List (Text × Text)) (hne : ds ≠ [])
    (hstyle : item.get? "style" = some (.str (Xml.join ';' (ds.map declaration))))
    (hd : ∀ e ∈ ds, ':' ∉ e.1 ∧ ':' ∉ e.2 ∧ ';' ∉ e.1 ∧ ';' ∉ e.2 ∧ pyName e.1 ≠ "transform") :
    (∃ r, extend env state item = .ok r) ↔ Mergeable env item ∧ ∀ e ∈ ds, Readable env (.str (Xml.strip e.2)) := by
  obtain ⟨s, hc⟩ := clone_ok env state hs
  rw [← merge_loop_iff env state s item hs hc]
  have hsplit : Xml.split ';' (Xml.join ';' (ds.map declaration)) = ds.map declaration := by
    rw [Xml.split_join]
    · simpa using hne
    · intro t ht
      obtain ⟨e, he, rfl⟩ := List.mem_map.1 ht
      have hx := hd e he
      simp only [declaration, List.mem_append, List.mem_cons, not_or]
      exact ⟨hx.2.2.1, by decide, hx.2.2.2.1⟩
  constructor
  · rintro ⟨r, hr⟩
    obtain ⟨s1, s2, e1, e2, _, e4⟩ := extend_ok env state item r hr
    rw [hc, Except.ok.injEq] at e1
    subst e1
    refine ⟨⟨s2, e2⟩, fun e he => ?_⟩
    have hf := e4 _ hstyle
    rw [hsplit] at hf
    by_contra hn
    refine fold_step_error env _ (declaration e) (List.mem_map_of_mem he) (fun o q hq => ?_) s2 r hf
    have hx := hd e he
    rw [styleStep_declaration env o e hx.1 hx.2.1 hx.2.2.2.2] at hq
    cases ew : toPython env (.str (Xml.strip e.2)) with
    | error _ => simp [ew, bind, Except.bind] at hq
    | ok w => exact hn ((readable_iff env _).1 ⟨w, ew⟩)
  · rintro ⟨⟨s2, h2⟩, hr⟩
    obtain ⟨q, hq, _⟩ := fold_ok (styleStep env) (fun _ => True) (ds.map declaration) (fun o a _ ha => by
      obtain ⟨e, he, rfl⟩ := List.mem_map.1 ha
      have hx := hd e he
      obtain ⟨w, hw⟩ := (readable_iff env _).2 (hr e he)
      exact ⟨o.set (pyName e.1) w, by
        rw [styleStep_declaration env o e hx.1 hx.2.1 hx.2.2.2.2, hw]; rfl, trivial⟩) s2 trivial
    refine ⟨q, ?_⟩
    simp only [extend, hc, bind, Except.bind, merge, h2, hstyle, hsplit, hq]

/-- C114. A style which ends with a semicolon is never read. -/
theorem style_semicolon_wrong (state item : Obj F T) (t : Text) (hstyle : item.get? "style" = some (.str (t ++ [';']))) (r : Obj F T) :
    extend env state item ≠ .ok r := by
  intro h
  obtain ⟨s, s', _, _, _, e4⟩ := extend_ok env state item r h
  refine fold_step_error env _ [] ?_ ?_ s' r (e4 _ hstyle)
  · rw [split_end]
    simp
  · intro s r
    simp [styleStep, Xml.split]

/-- C114. Neither is a style which sets the transformation. -/
theorem style_transform_wrong (state item : Obj F T) (v : Text) (hc : ':' ∉ v ∧ ';' ∉ v)
    (hstyle : item.get? "style" = some (.str (declaration ("transform".toList, v)))) (r : Obj F T) :
    extend env state item ≠ .ok r := by
  intro h
  obtain ⟨s, s', _, _, _, e4⟩ := extend_ok env state item r h
  have hf := e4 _ hstyle
  rw [Xml.split_of_not_mem _ _ (by
    simp only [declaration, List.mem_append, List.mem_cons, not_or]
    exact ⟨by decide, by decide, hc.2⟩)] at hf
  refine fold_step_error env [declaration ("transform".toList, v)] (declaration ("transform".toList, v)) (List.mem_singleton.2 rfl) ?_ s' r hf
  intro s r
  unfold styleStep
  rw [split_declaration _ (show ':' ∉ "transform".toList by decide) hc.1]
  simp only [List.map_cons, List.map_nil]
  rw [if_pos (by decide)]
  unfold mulTransform
  split <;> simp_all

example : values "stroke_linecap" (read exampleEnv (.item "path" [("style", .str "fill: red;stroke-linecap: round".toList)] .nil))
    = some [some (.str "round".toList)] := by
  decide +kernel

example : values "fill" (read exampleEnv (.item "path" [("style", .str "fill: red;stroke-linecap: round;".toList)] .nil)) = none := by
  decide +kernel

/-! ## Comments and the classes of the tags -/

theorem leaking_bad (marks : List (Mark F T)) (m : Mark F T) (hm : m ∈ marks) (hb : ∀ rest s xs, leaking env (m :: rest) s ≠ .ok xs)
    (state : Obj F T) (xs : List (Obj F T)) : leaking env marks state ≠ .ok xs := by
  induction marks generalizing state xs with
  | nil => cases hm
  | cons a rest ih =>
    rcases List.mem_cons.1 hm with rfl | hm'
    · exact hb rest state xs
    · intro h
      cases a with
      | comment => simp [leaking] at h
      | group given =>
        simp only [leaking, bind, Except.bind] at h
        split at h
        · cases h
        · exact ih hm' _ _ h
      | item tag given =>
        simp only [leaking, bind, Except.bind] at h
        split at h
        · cases h
        · split at h
          · cases h
          · rename_i e
            exact ih hm' _ _ e

/-- C115. A document with a comment among the elements which are visited is never read. -/
theorem comment_wrong (doc : Forest F T) (h : Mark.comment ∈ doc.marks) (xs : List (Obj F T)) : read env doc ≠ .ok xs := by
  rw [read_exact]
  cases newState env none with
  | error _ => simp [bind, Except.bind]
  | ok s =>
    simp only [bind, Except.bind]
    exact leaking_bad env _ _ h (fun rest s xs => by simp [leaking]) s xs

/-- C115. No document made by the writer is read, whatever is in it: it starts with a comment. A reader which ignores comments, and for which
a group applies to its children, would find the elements in a group with the attribute `transform`. -/
theorem written_read_wrong (transformation : Option T) (elements : Forest F T) (s : Obj F T) (hs : newState env none = .ok s) :
    read env (written transformation elements) = .error .typeError ∧
    inScope env (written transformation elements) s = (match transformation with
      | none => inScope env elements s
      | some t => do inScope env elements (← extend env s (object "Group" [("transform", .transform t)]))) := by
  constructor
  · unfold read
    rw [hs]
    cases transformation <;> simp [written, onRoot, bind, Except.bind]
  · cases transformation with
    | none => rfl
    | some t =>
      simp only [written, inScope, bind, Except.bind, pure, Except.pure]
      cases extend env s (object "Group" [("transform", .transform t)]) with
      | error e => rfl
      | ok inner =>
        dsimp only
        cases inScope env elements inner with
        | error e => rfl
        | ok xs => simp

example : (newState exampleEnv none).isOk = true := by decide +kernel

/-- C116. The classes which read the tags of graphic elements: a polyline is read as a polygon, and there is no class for polygons. -/
theorem class_of_tag :
    classOf "circle" = .ok "Circle" ∧ classOf "ellipse" = .ok "Ellipse" ∧ classOf "line" = .ok "Line" ∧ classOf "path" = .ok "Path" ∧
    classOf "rect" = .ok "Rect" ∧ classOf "polyline" = .ok "Polygon" ∧ classOf "polygon" = .error .keyError := by
  decide +kernel

/-- C116. A document with a polygon or an ellipse is never read. -/
theorem polygon_ellipse_wrong (doc : Forest F T) (tag : String) (given : Obj F T) (ht : tag = "polygon" ∨ tag = "ellipse")
    (h : Mark.item tag given ∈ doc.marks) (xs : List (Obj F T)) : read env doc ≠ .ok xs := by
  rw [read_exact]
  cases newState env none with
  | error _ => simp [bind, Except.bind]
  | ok s =>
    simp only [bind, Except.bind]
    refine leaking_bad env _ _ h (fun rest s xs => ?_) s xs
    simp only [leaking, itemState, bind, Except.bind]
    rcases ht with rfl | rfl
    · rw [class_of_tag.2.2.2.2.2.2]
      simp
    · rw [class_of_tag.2.1]
      simp only [object_get]
      rw [if_neg (by decide +kernel)]
      simp

/-- C116. The objects made for circles, lines, paths, rectangles and polylines keep the identifier, the style, the transformation and the paint of
their elements. -/
theorem item_attributes (tag : String) (given : Obj F T) (htag : tag ∈ tagsToRead) (h1 : tag ≠ "polygon") (h2 : tag ≠ "ellipse")
    (name : String) (hn : name ∈ ["id", "style", "transform", "fill", "stroke", "stroke_width", "stroke_dasharray"]) :
    ∃ cls, classOf tag = .ok cls ∧ (object cls given).get? name = some ((given.get? name).getD .none) := by
  have key : ∀ t ∈ tagsToRead, t ≠ "polygon" → t ≠ "ellipse" →
      ∀ n ∈ ["id", "style", "transform", "fill", "stroke", "stroke_width", "stroke_dasharray"],
      ∃ cls, classOf t = .ok cls ∧ n ∈ classAttrs cls := by
    obtain ⟨c1, _, c3, c4, c5, c6, _⟩ := class_of_tag
    intro t ht g1 g2
    simp only [tagsToRead, List.mem_cons, List.not_mem_nil, or_false] at ht
    rcases ht with rfl | rfl | rfl | rfl | rfl | rfl | rfl
    · exact fun n hn => ⟨_, c1, (by decide : ∀ n ∈ _, n ∈ classAttrs "Circle") n hn⟩
    · exact absurd rfl g2
    · exact fun n hn => ⟨_, c3, (by decide : ∀ n ∈ _, n ∈ classAttrs "Line") n hn⟩
    · exact fun n hn => ⟨_, c4, (by decide : ∀ n ∈ _, n ∈ classAttrs "Path") n hn⟩
    · exact fun n hn => ⟨_, c6, (by decide : ∀ n ∈ _, n ∈ classAttrs "Polygon") n hn⟩
    · exact absurd rfl g1
    · exact fun n hn => ⟨_, c5, (by decide : ∀ n ∈ _, n ∈ classAttrs "Rect") n hn⟩
  obtain ⟨cls, h3, h4⟩ := key tag htag h1 h2 name hn
  exact ⟨cls, h3, by rw [object_get, if_pos h4]⟩

/-- C116. They keep the attributes which give their shape. -/
theorem item_shape (given : Obj F T) :
    (∀ n ∈ ["cx", "cy", "r"], (object "Circle" given).get? n = some ((given.get? n).getD .none)) ∧
    (∀ n ∈ ["x1", "y1", "x2", "y2"], (object "Line" given).get? n = some ((given.get? n).getD .none)) ∧
    (∀ n ∈ ["path_data", "path_length"], (object "Path" given).get? n = some ((given.get? n).getD .none)) ∧
    (∀ n ∈ ["x", "y", "rx", "ry", "width", "height"], (object "Rect" given).get? n = some ((given.get? n).getD .none)) ∧
    (object "Polygon" given).get? "points" = some ((given.get? "points").getD .none) := by
  refine ⟨fun n hn => ?_, fun n hn => ?_, fun n hn => ?_, fun n hn => ?_, ?_⟩ <;> rw [object_get, if_pos]
  · exact (by decide : ∀ n ∈ ["cx", "cy", "r"], n ∈ classAttrs "Circle") n hn
  · exact (by decide : ∀ n ∈ ["x1", "y1", "x2", "y2"], n ∈ classAttrs "Line") n hn
  · exact (by decide : ∀ n ∈ ["path_data", "path_length"], n ∈ classAttrs "Path") n hn
  · exact (by decide : ∀ n ∈ ["x", "y", "rx", "ry", "width", "height"], n ∈ classAttrs "Rect") n hn
  · decide

/-- C116. Every other graphic element is given the state of its class, and can be read. -/
theorem item_class_partial (state : Obj F T) (tag : String) (given : Obj F T) (htag : tag ∈ tagsToRead) (h1 : tag ≠ "polygon")
    (h2 : tag ≠ "ellipse") : ∃ cls, classOf tag = .ok cls ∧ (tag ≠ "polyline" → (cls, tag) ∈ allTags) ∧
      itemState env state tag given = extend env state (object cls given) := by
  have key : ∀ cls, classOf tag = .ok cls → "id" ∈ classAttrs cls → itemState env state tag given = extend env state (object cls given) := by
    intro cls hc hid
    simp only [itemState, hc, bind, Except.bind, object_get, if_pos hid]
    rfl
  simp only [tagsToRead, List.mem_cons, List.not_mem_nil, or_false] at htag
  obtain ⟨c1, _, c3, c4, c5, c6, _⟩ := class_of_tag
  rcases htag with rfl | rfl | rfl | rfl | rfl | rfl | rfl
  · exact ⟨_, c1, fun _ => by decide +kernel, key _ c1 (by decide +kernel)⟩
  · exact absurd rfl h2
  · exact ⟨_, c3, fun _ => by decide +kernel, key _ c3 (by decide +kernel)⟩
  · exact ⟨_, c4, fun _ => by decide +kernel, key _ c4 (by decide +kernel)⟩
  · exact ⟨_, c6, fun h => absurd rfl h, key _ c6 (by decide +kernel)⟩
  · exact absurd rfl h1
  · exact ⟨_, c5, fun _ => by decide +kernel, key _ c5 (by decide +kernel)⟩

example : (read exampleEnv (.item "rect" [] (.item "polyline" [] .nil))).isOk = true ∧
    (read exampleEnv (.item "rect" [] (.item "polygon" [] .nil))).isOk = false := by
  decide +kernel

example : ((newState exampleEnv none).bind fun s => (toDict exampleEnv false s).map fun d =>
      (d.get? "transform", d.get? "fill_opacity", d.length)) = .ok (some (.transform 0), some (.num 1), 9) := by
  decide +kernel

end Patro.SvgState
