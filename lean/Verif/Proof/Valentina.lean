import Verif.Spec.Valentina
import Verif.Props.Xml
import Verif.Props.Color
/-! # Lemmas on Valentina files -/

set_option linter.unusedSimpArgs false
set_option linter.unusedVariables false

namespace Patro.Valentina

open Xml (Text)
open Tex (StrokeStyle)

/-! ## Lists of pairs computed one by one -/

section Generic

variable {A β : Type}

/-- The pairs made of a key and a computed value. -/
def pairs (k : A → String) (f : A → Except PyErr β) (l : List A) : Except PyErr (Dict String β) :=
  l.mapM fun a => (f a).map fun v => (k a, v)

theorem pairs_cons (k : A → String) (f : A → Except PyErr β) (a : A) (l : List A) :
    pairs k f (a :: l) = match f a with
      | .error e => .error e
      | .ok v => match pairs k f l with
        | .error e => .error e
        | .ok d => .ok ((k a, v) :: d) := by
  simp only [pairs, List.mapM_cons, bind, Except.bind, pure, Except.pure]
  cases f a with
  | error e => rfl
  | ok v =>
    generalize (l.mapM fun a => Except.map (fun v => (k a, v)) (f a)) = m
    cases m <;> rfl

theorem pairs_exists (k : A → String) (f : A → Except PyErr β) (l : List A) (h : ∀ a ∈ l, ∃ v, f a = .ok v) :
    ∃ d, pairs k f l = .ok d := by
  induction l with
  | nil => exact ⟨[], rfl⟩
  | cons a l ih =>
    obtain ⟨v, hv⟩ := h a List.mem_cons_self
    obtain ⟨d, hd⟩ := ih fun b hb => h b (List.mem_cons_of_mem _ hb)
    exact ⟨(k a, v) :: d, by rw [pairs_cons, hv, hd]⟩

theorem pairs_ok {k : A → String} {f : A → Except PyErr β} {l : List A} {d : Dict String β} (h : pairs k f l = .ok d) :
    d.keys = l.map k ∧ (∀ a ∈ l, ∃ v, f a = .ok v) ∧
    ((l.map k).Nodup → ∀ a ∈ l, ∀ v, f a = .ok v → d.get? (k a) = some v) := by
  induction l generalizing d with
  | nil => cases h; exact ⟨rfl, by simp, by simp⟩
  | cons a l ih =>
    rw [pairs_cons] at h
    cases hv : f a with
    | error e => rw [hv] at h; cases h
    | ok v =>
      rw [hv] at h
      cases hd : pairs k f l with
      | error e => rw [hd] at h; cases h
      | ok d' =>
        rw [hd] at h
        cases h
        obtain ⟨h1, h2, h3⟩ := ih hd
        refine ⟨?_, ?_, ?_⟩
        · simp only [Dict.keys, List.map_cons] at h1 ⊢
          rw [h1]
        · intro b hb
          rcases List.mem_cons.1 hb with rfl | hb
          · exact ⟨v, hv⟩
          · exact h2 b hb
        · intro hn b hb w hw
          simp only [List.map_cons, List.nodup_cons] at hn
          rcases List.mem_cons.1 hb with rfl | hb
          · rw [hv] at hw; cases hw
            simp [Dict.get?]
          · have : k a ≠ k b := fun e => hn.1 (e ▸ List.mem_map_of_mem hb)
            simp only [Dict.get?, this, if_false]
            exact h3 hn.2 b hb w hw

theorem pairs_error {k : A → String} {f : A → Except PyErr β} {l : List A} {e : PyErr} (h : pairs k f l = .error e) :
    ∃ l1 a l2, l = l1 ++ a :: l2 ∧ f a = .error e ∧ ∀ b ∈ l1, ∃ v, f b = .ok v := by
  induction l with
  | nil => cases h
  | cons a l ih =>
    rw [pairs_cons] at h
    cases hv : f a with
    | error e' => rw [hv] at h; cases h; exact ⟨[], a, l, rfl, hv, by simp⟩
    | ok v =>
      rw [hv] at h
      cases hd : pairs k f l with
      | ok d' => rw [hd] at h; cases h
      | error e' =>
        rw [hd] at h
        cases h
        obtain ⟨l1, b, l2, rfl, h1, h2⟩ := ih hd
        refine ⟨a :: l1, b, l2, rfl, h1, ?_⟩
        intro c hc
        rcases List.mem_cons.1 hc with rfl | hc
        · exact ⟨v, hv⟩
        · exact h2 c hc

theorem get?_isSome_keys {d : Dict String β} {k : String} : (d.get? k).isSome = decide (k ∈ d.keys) := by
  rw [Bool.eq_iff_iff, Dict.get?_isSome_iff]; simp

theorem foldlM_pairs (k : A → String) (f : A → Except PyErr β) (g : Dict String β → A → Except PyErr (Dict String β))
    (hg : ∀ o a, g o a = (f a).map fun v => o.set (k a) v) (l : List A) (o : Dict String β)
    (hn : (o.keys ++ l.map k).Nodup) : l.foldlM g o = (pairs k f l).map fun d => o ++ d := by
  induction l generalizing o with
  | nil => simp [pairs, Except.map, pure, Except.pure]
  | cons a l ih =>
    rw [List.foldlM_cons, pairs_cons, hg]
    cases hv : f a with
    | error e => rfl
    | ok v =>
      have hk : k a ∉ o.keys := by
        intro hm
        have := List.nodup_append.1 hn
        exact this.2.2 _ hm _ (by simp) rfl
      have hn' : ((o ++ [(k a, v)]).keys ++ l.map k).Nodup := by
        simp only [Dict.keys, List.map_append, List.map_cons, List.map_nil, List.append_assoc, List.singleton_append] at hn ⊢
        exact hn
      simp only [bind, Except.bind, Except.map, Dict.set_of_not_mem v hk]
      rw [ih _ hn']
      cases pairs k f l with
      | error e => rfl
      | ok d => simp [Except.map]

theorem foldlM_pairs_nil (k : A → String) (f : A → Except PyErr β) (g : Dict String β → A → Except PyErr (Dict String β))
    (hg : ∀ o a, g o a = (f a).map fun v => o.set (k a) v) (l : List A)
    (hn : (l.map k).Nodup) : l.foldlM g [] = pairs k f l := by
  rw [foldlM_pairs k f g hg l [] (by simpa [Dict.keys] using hn)]
  cases pairs k f l <;> simp [Except.map]

end Generic

variable {F : Type} (env : Env F)

/-! ## XML objects -/

theorem initFromXml_eq {V : Type} (l : List (Xml.Attr V)) (xml : Dict String Text) (hn : (l.map Xml.Attr.py).Nodup) :
    Xml.initFromXml l xml = pairs Xml.Attr.py (Xml.readValue xml) l := by
  refine foldlM_pairs_nil _ _ _ (fun o a => ?_) l hn
  rw [Xml.readAttr_eq]
  cases Xml.readValue xml a <;> rfl

/-- What an attribute makes of the keyword arguments. -/
def kwValue {V : Type} (kwargs : Dict String (Option V)) (a : Xml.Attr V) : Except PyErr (Option V) :=
  match kwargs.get? a.py with
  | some t => a.fromPy t
  | none => .ok a.default

theorem initFromKwargs_eq {V : Type} (l : List (Xml.Attr V)) (kwargs : Dict String (Option V))
    (hn : (l.map Xml.Attr.py).Nodup) :
    Xml.initFromKwargs l kwargs = pairs Xml.Attr.py (kwValue kwargs) l := by
  refine foldlM_pairs_nil _ _ _ (fun o a => ?_) l hn
  simp only [kwValue]
  cases kwargs.get? a.py with
  | none => rfl
  | some t => simp only [bind, Except.bind, pure, Except.pure]; cases a.fromPy t <;> rfl

/-- The value of an attribute of an object. -/
def objValue {V : Type} (o : Xml.Obj V) (a : Xml.Attr V) : Except PyErr (Option V) :=
  match o.get? a.py with
  | none => .error .attributeError
  | some v => .ok v

theorem toDict_eq {V : Type} (l : List (Xml.Attr V)) (o : Xml.Obj V) (ex : List String)
    (hn : (l.map Xml.Attr.py).Nodup) :
    Xml.toDict l o ex = pairs Xml.Attr.py (objValue o) (l.filter fun a => a.py ∉ ex) := by
  have hn' : ((l.filter fun a => a.py ∉ ex).map Xml.Attr.py).Nodup :=
    hn.sublist (List.filter_sublist.map _)
  have e : ∀ (g : Dict String (Option V) → Xml.Attr V → Except PyErr (Dict String (Option V)))
      (hg : ∀ d a, g d a = if a.py ∈ ex then Except.ok d else (objValue o a).map fun v => d.set a.py v)
      (l : List (Xml.Attr V)) (d : Dict String (Option V)),
      l.foldlM g d = (l.filter fun a => a.py ∉ ex).foldlM (fun d a => (objValue o a).map fun v => d.set a.py v) d := by
    intro g hg l
    induction l with
    | nil => intro d; rfl
    | cons a l ih =>
      intro d
      rw [List.foldlM_cons, List.filter_cons, hg]
      by_cases ha : a.py ∈ ex
      · simp only [ha, if_true, not_true_eq_false, decide_false, Bool.false_eq_true, if_false, bind, Except.bind]
        exact ih d
      · simp only [ha, if_false, not_false_eq_true, decide_true, if_true, List.foldlM_cons, objValue]
        cases o.get? a.py with
        | none => rfl
        | some v => exact ih _
  unfold Xml.toDict
  rw [e _ (fun d a => ?_), foldlM_pairs_nil _ _ _ (fun o a => rfl) _ hn']
  unfold objValue
  split <;> [rfl; (cases o.get? a.py <;> rfl)]

theorem toXml_ok {V : Type} (l : List (Xml.Attr V)) (o : Xml.Obj V) (kw : Dict String Text)
    (hn : (l.map Xml.Attr.xml).Nodup) (hkw : (kw.map Prod.fst).Nodup) (h : ∀ a ∈ l, ∃ v, o.get? a.py = some v) :
    ∃ x, Xml.toXml l o kw = .ok x ∧ (∀ k t, kw.get? k = some t → x.get? k = some t) ∧
      (∀ a ∈ l, kw.get? a.xml = none → x.get? a.xml = Xml.written o a) ∧
      (∀ k, kw.get? k = none → (∀ a ∈ l, a.xml ≠ k) → x.get? k = none) := by
  obtain ⟨x0, h1, h2⟩ := Xml.foldlM_write o l [] h
  have h0 : Xml.toXml l o [] = .ok x0 := by
    unfold Xml.toXml; rw [h1]; rfl
  have hx : Xml.toXml l o kw = .ok (x0.update kw) := by
    unfold Xml.toXml; rw [h1]; rfl
  have hk := fun k => Xml.toXml_kwargs l o kw x0 _ hkw h0 hx k
  refine ⟨_, hx, fun k t => (hk k).1 t, fun a ha hka => ?_, fun k hkk hne => ?_⟩
  · rw [(hk _).2 hka, h2, Xml.findSome?_unique l a _ ha hn]
    simp [Dict.get?]
  · rw [(hk _).2 hkk, h2]
    simp only [Dict.get?, Option.or_none, List.findSome?_eq_none_iff, List.mem_reverse]
    intro a ha
    simp [hne a ha]

/-! ## Dispatch -/

theorem getItem_iff {κ β : Type} [DecidableEq κ] {l : List (κ × β)} (hn : (l.map Prod.fst).Nodup) (k : κ) (v : β) :
    Dict.getItem l k = .ok v ↔ (k, v) ∈ l := by
  unfold Dict.getItem
  induction l with
  | nil => simp [Dict.get?]
  | cons a l ih =>
    obtain ⟨k', v'⟩ := a
    simp only [List.map_cons, List.nodup_cons] at hn
    by_cases h : k' = k
    · subst h
      simp only [Dict.get?, if_true, Except.ok.injEq, List.mem_cons, Prod.mk.injEq, true_and]
      constructor
      · exact fun e => Or.inl e.symm
      · rintro (e | e)
        · exact e.symm
        · exact absurd (List.mem_map_of_mem (f := Prod.fst) e) hn.1
    · have h' : ¬ k = k' := fun e => h e.symm
      simp only [Dict.get?, h, if_false, List.mem_cons, Prod.mk.injEq, h', false_and, false_or]
      exact ih hn.2

theorem getItem_error {κ β : Type} [DecidableEq κ] (l : Dict κ β) (k : κ) (e : PyErr)
    (h : Dict.getItem l k = .error e) : e = .keyError := by
  unfold Dict.getItem at h
  cases hg : l.get? k <;> rw [hg] at h <;> cases h
  rfl

theorem point_class (t : Text) (c : Class) : (t, some c) ∈ pointTypes ↔ c.isPoint = true ∧ t = c.typeName := by
  unfold pointTypes
  simp only [List.mem_cons, Prod.mk.injEq, List.not_mem_nil, or_false, Option.some.injEq, reduceCtorEq, and_false, false_or]
  cases c <;> simp only [reduceCtorEq, and_false, false_or, or_false, and_true]
  all_goals first | exact ⟨fun h => ⟨rfl, h⟩, fun h => h.2⟩ | skip
  · exact ⟨False.elim, fun h => absurd h.1 (by decide)⟩
  · exact ⟨False.elim, fun h => absurd h.1 (by decide)⟩

theorem spline_class (t : Text) (c : Class) : (t, some c) ∈ splineTypes ↔ c = .spline ∧ t = "simpleInteractive".toList := by
  cases c <;> simp only [splineTypes, List.mem_cons, Prod.mk.injEq, reduceCtorEq, and_false, false_or,
    or_false, Option.some.injEq, and_true, List.not_mem_nil, true_and, Bool.false_eq_true, false_and]

theorem pointTypes_nodup : (pointTypes.map Prod.fst).Nodup := by decide +kernel

theorem splineTypes_nodup : (splineTypes.map Prod.fst).Nodup := by decide +kernel

theorem typed_iff {types : List (Text × Option Class)} (hn : (types.map Prod.fst).Nodup) (e : Element) (c : Option Class) :
    typed types e = .ok c ↔ ∃ t, e.attrib.get? "type" = some t ∧ (t, c) ∈ types := by
  unfold typed
  simp only [bind, Except.bind]
  cases ht : e.attrib.get? "type" with
  | none => simp [Dict.getItem, ht]
  | some t =>
    have : e.attrib.getItem "type" = .ok t := by simp [Dict.getItem, ht]
    rw [this]
    simp only [Option.some.injEq]
    rw [getItem_iff hn]
    constructor
    · exact fun h => ⟨t, rfl, h⟩
    · rintro ⟨_, rfl, h⟩; exact h

theorem typed_error {types : List (Text × Option Class)} {e : Element} {err : PyErr} (h : typed types e = .error err) :
    err = .keyError := by
  unfold typed at h
  simp only [bind, Except.bind] at h
  split at h
  · rename_i h'; cases h; exact getItem_error _ _ _ h'
  · exact getItem_error _ _ _ h

theorem tagClass_some (e : Element) (c : Class) : tagClass e = .ok (some c) ↔ IsClass e c := by
  unfold tagClass IsClass
  split <;> rename_i h <;> try simp only [h]
  · simp
  · simp
  · cases c <;> simp [Class.isPoint]
  · simp
  · rw [typed_iff pointTypes_nodup]
    simp only [point_class]
    constructor
    · rintro ⟨t, h1, h2, rfl⟩; exact Or.inr (Or.inr ⟨h2, trivial, h1⟩)
    · rintro (h | h | ⟨h1, _, h2⟩)
      · exact absurd h.2 (by simp)
      · exact absurd h.2.1 (by simp)
      · exact ⟨_, h2, h1, rfl⟩
  · rw [typed_iff splineTypes_nodup]
    simp only [spline_class]
    constructor
    · rintro ⟨t, h1, rfl, rfl⟩; exact Or.inr (Or.inl ⟨rfl, trivial, h1⟩)
    · rintro (h | ⟨rfl, _, h⟩ | h)
      · exact absurd h.2 (by simp)
      · exact ⟨_, h, rfl, rfl⟩
      · exact absurd h.2.1 (by simp)
  · rename_i h1 h2 h3 h4 h5
    simp only [reduceCtorEq, false_iff, not_or, not_and]
    exact ⟨fun _ => h3, fun _ hh => absurd hh h, fun _ hh => absurd hh h5⟩

theorem tagClass_none (e : Element) : tagClass e = .ok none ↔ NotImplemented e := by
  unfold tagClass NotImplemented
  split <;> rename_i h <;> try simp only [h]
  · simp
  · simp
  · simp
  · simp
  · rw [typed_iff pointTypes_nodup]
    simp only [pointTypes, List.mem_cons, Prod.mk.injEq, reduceCtorEq, and_false, false_or, or_false, and_true, List.not_mem_nil, true_and,
      false_and, Option.some.injEq, String.reduceEq, List.map_cons, List.map_nil]
  · rw [typed_iff splineTypes_nodup]
    simp only [splineTypes, List.mem_cons, Prod.mk.injEq, reduceCtorEq, and_false, false_or, or_false, and_true, List.not_mem_nil, true_and,
      false_and, Option.some.injEq, String.reduceEq, List.map_cons, List.map_nil]
  · rename_i h1 h2 h3 h4 h5
    simp only [reduceCtorEq, false_iff, not_or, not_and]
    exact ⟨h1, h2, h4, fun hh => absurd hh h, fun hh => absurd hh h5⟩

theorem dispatch_ok (e : Element) (c : Class) : dispatch e = .ok c ↔ IsClass e c := by
  rw [← tagClass_some, dispatch]
  rcases tagClass e with err | (_ | c') <;> simp

theorem tagClass_error {e : Element} {err : PyErr} (h : tagClass e = .error err) : err = .keyError := by
  unfold tagClass at h
  split at h <;> first | cases h | exact typed_error h
  rfl

theorem dispatch_none (e : Element) : dispatch e = .error .notImplementedError ↔ NotImplemented e := by
  rw [← tagClass_none, dispatch]
  rcases hc : tagClass e with err | (_ | c')
  · have := tagClass_error hc
    subst this
    simp
  · simp
  · simp

theorem dispatch_error {e : Element} {err : PyErr} (h : dispatch e = .error err) :
    (err = .notImplementedError ∧ NotImplemented e) ∨ (err = .keyError ∧ ¬ NotImplemented e ∧ ∀ c, ¬ IsClass e c) := by
  rw [dispatch] at h
  rcases hc : tagClass e with err' | (_ | c')
  · have := tagClass_error hc
    subst this
    rw [hc] at h
    cases h
    refine Or.inr ⟨rfl, fun hn => ?_, fun c hn => ?_⟩
    · rw [← tagClass_none, hc] at hn; cases hn
    · rw [← tagClass_some, hc] at hn; cases hn
  · rw [hc] at h
    cases h
    exact Or.inl ⟨rfl, (tagClass_none e).1 hc⟩
  · rw [hc] at h; cases h

theorem isClass_unique {e : Element} {c c' : Class} (h : IsClass e c) (h' : IsClass e c') : c = c' := by
  rw [← tagClass_some] at h h'
  rw [h] at h'
  cases h'
  rfl

theorem not_both {e : Element} {c : Class} (h : IsClass e c) : ¬ NotImplemented e := by
  rw [← tagClass_some] at h
  rw [← tagClass_none, h]
  simp

end Patro.Valentina
