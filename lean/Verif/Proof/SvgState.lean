import Verif.Spec.SvgState
import Verif.Proof.Xml
/-! # Lemmas on the drawing states of SVG -/

namespace Patro.SvgState

open Patro.Xml (Text)

section Fold
variable {A O K V : Type _} [DecidableEq K]

theorem fold_other (f : Dict K V → A → Except PyErr (Dict K V)) (key : A → K)
    (hf : ∀ o a r, f o a = .ok r → ∀ k, k ≠ key a → r.get? k = o.get? k) (k : K) :
    ∀ (l : List A) (o r : Dict K V), l.foldlM f o = .ok r → k ∉ l.map key → r.get? k = o.get? k
  | [], o, r, h, _ => by
    simp only [List.foldlM_nil, pure, Except.pure, Except.ok.injEq] at h
    rw [h]
  | a :: l, o, r, h, hk => by
    simp only [List.map_cons, List.mem_cons, not_or] at hk
    rw [List.foldlM_cons] at h
    cases e : f o a with
    | error _ => simp [e, bind, Except.bind] at h
    | ok o' =>
      simp only [e, bind, Except.bind] at h
      rw [fold_other f key hf k l o' r h hk.2, hf o a o' e k hk.1]

theorem fold_at (f : Dict K V → A → Except PyErr (Dict K V)) (key : A → K)
    (hf : ∀ o a r, f o a = .ok r → ∀ k, k ≠ key a → r.get? k = o.get? k) (l1 : List A) (a : A) (l2 : List A) (o r : Dict K V)
    (h : (l1 ++ a :: l2).foldlM f o = .ok r) (h1 : key a ∉ l1.map key) (h2 : key a ∉ l2.map key) :
    ∃ o1 r1, o1.get? (key a) = o.get? (key a) ∧ f o1 a = .ok r1 ∧ r.get? (key a) = r1.get? (key a) := by
  rw [List.foldlM_append] at h
  cases e1 : l1.foldlM f o with
  | error _ => simp [e1, bind, Except.bind] at h
  | ok o1 =>
    simp only [e1, bind, Except.bind] at h
    rw [List.foldlM_cons] at h
    cases e2 : f o1 a with
    | error _ => simp [e2, bind, Except.bind] at h
    | ok r1 =>
      simp only [e2, bind, Except.bind] at h
      exact ⟨o1, r1, fold_other f key hf _ l1 o o1 e1 h1, e2, fold_other f key hf _ l2 r1 r h h2⟩

theorem fold_mem (f : Dict K V → A → Except PyErr (Dict K V)) (key : A → K)
    (hf : ∀ o a r, f o a = .ok r → ∀ k, k ≠ key a → r.get? k = o.get? k) (l : List A) (hn : (l.map key).Nodup) (a : A) (ha : a ∈ l)
    (o r : Dict K V) (h : l.foldlM f o = .ok r) :
    ∃ o1 r1, o1.get? (key a) = o.get? (key a) ∧ f o1 a = .ok r1 ∧ r.get? (key a) = r1.get? (key a) := by
  obtain ⟨l1, l2, rfl⟩ := List.append_of_mem ha
  simp only [List.map_append, List.map_cons, List.nodup_append, List.nodup_cons, List.mem_cons] at hn
  refine fold_at f key hf l1 a l2 o r h (fun hm => ?_) hn.2.1.1
  exact hn.2.2 _ hm _ (Or.inl rfl) rfl

theorem fold_ok (f : O → A → Except PyErr O) (P : O → Prop) (l : List A) (hf : ∀ o a, P o → a ∈ l → ∃ r, f o a = .ok r ∧ P r) :
    ∀ o, P o → ∃ r, l.foldlM f o = .ok r ∧ P r := by
  induction l with
  | nil => exact fun o ho => ⟨o, rfl, ho⟩
  | cons a l ih =>
    intro o ho
    obtain ⟨o', e, ho'⟩ := hf o a ho (by simp)
    obtain ⟨r, er, hr⟩ := ih (fun o a h m => hf o a h (by simp [m])) o' ho'
    exact ⟨r, by rw [List.foldlM_cons, e]; exact er, hr⟩

end Fold

variable {F T : Type _} (env : Env F T)

theorem states_nodup : ((states env).map Prod.fst).Nodup := by
  simp only [states, List.map_cons, List.map_nil]
  decide +kernel

theorem toPython_idem (v w : Val F T) (h : toPython env v = .ok w) : toPython env w = .ok w := by
  cases v with
  | str t =>
    simp only [toPython] at h
    split at h
    · cases h; rfl
    · rename_i ht
      split at h
      · cases h
        rename_i e
        simp only [toPython, if_neg ht, e]
      · rename_i x e
        split at h
        · cases h; rfl
        · rename_i hd
          split at h
          · cases h; rfl
          · rename_i e2
            cases h
            simp only [toPython, if_neg ht, e, if_neg hd, e2]
          · cases h
  | none => cases h; rfl
  | num x => cases h; rfl
  | transform t => cases h; rfl
  | other n => cases h; rfl

theorem initStep_other (item : Option (Obj F T)) (o : Obj F T) (s : String × Val F T) (r : Obj F T)
    (h : initStep env item o s = .ok r) (k : String) (hk : k ≠ s.1) : r.get? k = o.get? k := by
  unfold initStep at h
  split at h
  · rename_i v _
    cases e : toPython env v with
    | error _ => simp [e, bind, Except.bind] at h
    | ok w =>
      simp only [e, bind, Except.bind, pure, Except.pure, Except.ok.injEq] at h
      rw [← h, Dict.get?_set_ne _ _ (Ne.symm hk)]
  · cases h
    rw [Dict.get?_set_ne _ _ (Ne.symm hk)]

theorem newState_get (item : Option (Obj F T)) (r : Obj F T) (h : newState env item = .ok r) (name : String) (d : Val F T)
    (hm : (name, d) ∈ states env) :
    (∀ v, (item.bind fun item => item.get? name) = some v → ∃ w, toPython env v = .ok w ∧ r.get? name = some w) ∧
    ((item.bind fun item => item.get? name) = none → r.get? name = some d) := by
  obtain ⟨o1, r1, _, e, hr⟩ := fold_mem (initStep env item) Prod.fst (initStep_other env item) (states env) (states_nodup env) (name, d) hm
    [] r h
  simp only at hr
  constructor
  · intro v hv
    simp only [initStep, hv] at e
    cases ew : toPython env v with
    | error _ => simp [ew, bind, Except.bind] at e
    | ok w =>
      simp only [ew, bind, Except.bind, pure, Except.pure, Except.ok.injEq] at e
      exact ⟨w, rfl, by rw [hr, ← e, Dict.get?_set_self]⟩
  · intro hv
    simp only [initStep, hv] at e
    cases e
    rw [hr, Dict.get?_set_self]

theorem newState_other (item : Option (Obj F T)) (r : Obj F T) (h : newState env item = .ok r) (name : String)
    (hm : name ∉ (states env).map Prod.fst) : r.get? name = none := by
  rw [fold_other (initStep env item) Prod.fst (initStep_other env item) name (states env) [] r h hm]
  rfl

theorem mergeStep_other (item o : Obj F T) (s : String) (r : Obj F T) (h : mergeStep env item o s = .ok r) (k : String) (hk : k ≠ s) :
    r.get? k = o.get? k := by
  unfold mergeStep at h
  split at h
  · cases h; rfl
  · rename_i v _
    split at h
    · rename_i hs
      split at h
      · cases h; rfl
      · unfold mulTransform at h
        split at h
        · cases h
          rw [Dict.get?_set_ne _ _ (by rw [← hs]; exact Ne.symm hk)]
        · cases h
    · split at h
      · cases h; rfl
      · cases e : toPython env v with
        | error _ => simp [e, bind, Except.bind] at h
        | ok w =>
          simp only [e, bind, Except.bind, pure, Except.pure, Except.ok.injEq] at h
          rw [← h, Dict.get?_set_ne _ _ (Ne.symm hk)]

/-- The state after the first loop of `merge`. -/
theorem merge_loop_get (item o r : Obj F T) (h : ((states env).map Prod.fst).foldlM (mergeStep env item) o = .ok r) (name : String)
    (hm : name ∈ (states env).map Prod.fst) :
    (item.get? name = none → r.get? name = o.get? name) ∧
    (∀ v, item.get? name = some v → name ≠ "transform" → name ≠ "style" → ∃ w, toPython env v = .ok w ∧ r.get? name = some w) ∧
    (item.get? name = some .none → name = "transform" → r.get? name = o.get? name) ∧
    (name = "style" → r.get? name = o.get? name) ∧
    (∀ v, item.get? name = some v → v ≠ .none → name = "transform" → ∃ t u, o.get? name = some (.transform t) ∧ v = .transform u ∧
      r.get? name = some (.transform (env.mul t u))) := by
  obtain ⟨o1, r1, ho1, e, hr⟩ := fold_mem (mergeStep env item) id (mergeStep_other env item) ((states env).map Prod.fst)
    (by rw [List.map_id]; exact states_nodup env) name hm o r h
  simp only [id] at ho1 hr
  refine ⟨?_, ?_, ?_, ?_, ?_⟩
  · intro hn
    simp only [mergeStep, hn] at e
    cases e
    rw [hr, ho1]
  · intro v hv ht hs
    simp only [mergeStep, hv, if_neg ht, if_neg hs] at e
    cases ew : toPython env v with
    | error _ => simp [ew, bind, Except.bind] at e
    | ok w =>
      simp only [ew, bind, Except.bind, pure, Except.pure, Except.ok.injEq] at e
      exact ⟨w, rfl, by rw [hr, ← e, Dict.get?_set_self]⟩
  · intro hv ht
    simp only [mergeStep, hv, if_pos ht] at e
    cases e
    rw [hr, ho1]
  · intro hs
    subst hs
    unfold mergeStep at e
    split at e
    · cases e
      rw [hr, ho1]
    · rw [if_neg (by decide), if_pos rfl] at e
      cases e
      rw [hr, ho1]
  · intro v hv hn ht
    subst ht
    simp only [mergeStep, hv, if_pos] at e
    have e' : mulTransform env o1 v = .ok r1 := by
      cases v <;> first | exact absurd rfl hn | exact e
    rw [← ho1]
    cases hg : o1.get? "transform" with
    | none => simp [mulTransform, hg] at e'
    | some g =>
      cases g <;> cases v <;> simp only [mulTransform, hg, reduceCtorEq, Except.ok.injEq] at e'
      rename_i t u
      refine ⟨t, u, rfl, rfl, ?_⟩
      rw [hr, ← e', Dict.get?_set_self]

theorem extend_ok (state item r : Obj F T) (h : extend env state item = .ok r) :
    ∃ s s', clone env state = .ok s ∧ ((states env).map Prod.fst).foldlM (mergeStep env item) s = .ok s' ∧
      ((∀ t, item.get? "style" ≠ some (.str t)) → r = s') ∧
      (∀ t, item.get? "style" = some (.str t) → (Xml.split ';' t).foldlM (styleStep env) s' = .ok r) := by
  unfold extend at h
  cases e1 : clone env state with
  | error _ => simp [e1, bind, Except.bind] at h
  | ok s =>
    simp only [e1, bind, Except.bind] at h
    unfold merge at h
    cases e2 : ((states env).map Prod.fst).foldlM (mergeStep env item) s with
    | error _ => simp [e2, bind, Except.bind] at h
    | ok s' =>
      simp only [e2, bind, Except.bind] at h
      refine ⟨s, s', rfl, e2, ?_, ?_⟩
      · intro hn
        split at h
        · rename_i t ht
          exact absurd ht (hn t)
        · cases h; rfl
      · intro t ht
        simp only [ht] at h
        exact h

theorem split_end (c : Char) : ∀ t : Text, Xml.split c (t ++ [c]) = Xml.split c t ++ [[]]
  | [] => by simp [Xml.split]
  | a :: t => by
    rw [List.cons_append, Xml.split, Xml.split, split_end c t]
    split
    · rfl
    · cases e : Xml.split c t with
      | nil => exact absurd e (Xml.split_ne_nil c t)
      | cons w ws => rfl

theorem object_get (cls : String) (given : Obj F T) (name : String) :
    (object cls given).get? name = if name ∈ classAttrs cls then some ((given.get? name).getD .none) else none := by
  unfold object
  have : ∀ (l : List String) (o : Obj F T),
      (l.foldl (fun o name => o.set name ((given.get? name).getD .none)) o).get? name
        = if name ∈ l then some ((given.get? name).getD .none) else o.get? name := by
    intro l
    induction l with
    | nil => intro o; simp
    | cons a l ih =>
      intro o
      rw [List.foldl_cons, ih]
      by_cases hl : name ∈ l
      · rw [if_pos hl, if_pos (by simp [hl])]
      · rw [if_neg hl]
        by_cases ha : name = a
        · subst ha
          rw [if_pos (by simp), Dict.get?_set_self]
        · rw [if_neg (by simp [ha, hl]), Dict.get?_set_ne _ _ (Ne.symm ha)]
  rw [this]
  rfl

end Patro.SvgState
