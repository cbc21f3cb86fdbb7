import Verif.Proof.ValentinaRead
/-! # Writing a sketch to a Valentina file, and reading it back -/

set_option linter.unusedSimpArgs false
set_option linter.unusedVariables false

namespace Patro.Valentina

open Xml (Text)
open Tex (StrokeStyle)

variable {F : Type} {env : Env F}

/-! ## Sketches built with the API -/

/-- The properties of an operation, after the operations `earlier`. -/
structure Well (earlier : List (Operation F)) (o : Operation F) : Prop where
  rows : ∀ r ∈ table o.cls, ∃ v, o.Has r.py v ∧
    (r.meaning = .reference → ∃ i, v = some (.op i) ∧ ∃ p ∈ earlier, p.id = i) ∧ (r.meaning = .formula → ∃ f, v = some (.expr f))
  offset : o.offset.isSome = o.cls.isPoint
  style : o.cls = .spline → ∃ v, o.Has "line_style" v

/-- What holds of a sketch built with the API. -/
structure BInv (s : Sketch F) : Prop where
  ids : (s.ops.map Operation.id).Pairwise (· < ·)
  counter : ∀ o ∈ s.ops, o.id ≤ s.counter
  dict : ∀ k j, s.dict.get? k = some j → ∃ o ∈ s.ops, o.id = j
  well : ∀ l1 o l2, s.ops = l1 ++ o :: l2 → Well l1 o

theorem binv_counter {s : Sketch F} (h : BInv s) (n : Int) (hn : s.counter ≤ n) : BInv { s with counter := n } :=
  ⟨h.ids, fun o ho => le_trans (h.counter o ho) hn, h.dict, h.well⟩

theorem binv_add {s : Sketch F} (h : BInv s) (o : Operation F) (k : Option Key) (hw : Well s.ops o) (hi : ∀ p ∈ s.ops, p.id < o.id)
    (hc : o.id ≤ s.counter) : BInv (s.add o k) := by
  refine ⟨?_, ?_, ?_, ?_⟩
  · simp only [Sketch.add, List.map_append, List.map_cons, List.map_nil]
    rw [List.pairwise_append]
    refine ⟨h.ids, by simp, ?_⟩
    intro a ha b hb
    rw [List.mem_map] at ha
    obtain ⟨p, hp, rfl⟩ := ha
    rw [List.mem_singleton] at hb
    rw [hb]
    exact hi p hp
  · intro p hp
    simp only [Sketch.add, List.mem_append, List.mem_singleton] at hp ⊢
    rcases hp with hp | rfl
    · exact h.counter p hp
    · exact hc
  · intro k' j hj
    have key : ∀ (d : Dict Key Int) (k0 : Key), (∀ k' j, d.get? k' = some j → ∃ p ∈ s.ops ++ [o], p.id = j) →
        (d.set k0 o.id).get? k' = some j → ∃ p ∈ s.ops ++ [o], p.id = j := by
      intro d k0 hd hj
      by_cases e : k0 = k'
      · subst e
        rw [Dict.get?_set_self] at hj
        cases hj
        exact ⟨o, by simp, rfl⟩
      · rw [Dict.get?_set_ne _ _ e] at hj
        exact hd _ _ hj
    have h1 : ∀ k' j, (s.dict.set (.int o.id) o.id).get? k' = some j → ∃ p ∈ s.ops ++ [o], p.id = j := by
      intro k' j hj
      by_cases e : Key.int o.id = k'
      · subst e
        rw [Dict.get?_set_self] at hj
        cases hj
        exact ⟨o, by simp, rfl⟩
      · rw [Dict.get?_set_ne _ _ e] at hj
        obtain ⟨p, hp, hpj⟩ := h.dict _ _ hj
        exact ⟨p, by simp [hp], hpj⟩
    simp only [Sketch.add] at hj ⊢
    cases k with
    | none => exact h1 _ _ hj
    | some k => exact key _ _ h1 hj
  · intro l1 p l2 hl
    simp only [Sketch.add] at hl
    rcases List.eq_nil_or_concat l2 with rfl | ⟨l3, q, rfl⟩
    · have := List.append_inj' hl rfl
      simp only [List.cons.injEq, and_true] at this
      obtain ⟨rfl, rfl⟩ := this
      exact hw
    · rw [List.concat_eq_append, ← List.cons_append, ← List.append_assoc] at hl
      have := List.append_inj' hl rfl
      exact h.well l1 p l3 this.1

theorem resolve_mem {s : Sketch F} (h : BInv s) {v : Option (Val F)} {i : Int} (hr : s.resolve v = .ok i) : ∃ o ∈ s.ops, o.id = i := by
  have key : ∀ k, s.dict.getItem k = .ok i → ∃ o ∈ s.ops, o.id = i := by
    intro k hk
    unfold Dict.getItem at hk
    cases hg : s.dict.get? k with
    | none => rw [hg] at hk; cases hk
    | some j => rw [hg] at hk; cases hk; exact h.dict _ _ hg
  have key2 : (keyOf v).bind (fun k => s.dict.getItem k) = .ok i → ∃ o ∈ s.ops, o.id = i := by
    intro hk
    cases hkey : keyOf v with
    | error e => rw [hkey] at hk; cases hk
    | ok k => rw [hkey] at hk; exact key k hk
  unfold Sketch.resolve at hr
  split at hr
  · split at hr
    · rename_i hh
      cases hr
      simpa using hh
    · cases hr
  · exact key2 hr

theorem newOperationId_spec (c : Int) (a : Option Int) : (∃ i, Counter.newOperationId c a = (i, .ok i) ∧ c < i) ∨
    Counter.newOperationId c a = (c, .error .nameError) := by
  cases a with
  | none => exact Or.inl ⟨c + 1, rfl, by omega⟩
  | some i =>
    rw [newOperationId_some]
    by_cases h : c < i
    · exact Or.inl ⟨i, by rw [if_pos h], h⟩
    · exact Or.inr (by rw [if_neg h])

theorem binv_call {s : Sketch F} (h : BInv s) (cls : Class) (kw : Dict String (Option (Val F))) (off : Option (F × F)) :
    BInv (s.call env cls kw off).1 := by
  unfold Sketch.call
  split
  · rename_i hb
    cases ha : idArg (kw.get? "id") with
    | error e => exact h
    | ok a =>
      simp only
      rcases newOperationId_spec s.counter a with ⟨i, hi, hlt⟩ | hi
      · rw [hi]
        simp only [fields_eq]
        have h1 := binv_counter h i hlt.le
        cases hf : pairs Param.name (paramValue env { s with counter := i } kw) (params env cls) with
        | error e => exact h1
        | ok fields =>
          have hw : Well s.ops ⟨cls, i, fields, off⟩ := by
            obtain ⟨_, p2, p3⟩ := pairs_ok hf
            have p4 := p3 (params_nodup env cls)
            refine ⟨?_, ?_, ?_⟩
            · intro r hr
              obtain ⟨p, hp, q1, q2⟩ := row_param env cls r hr
              obtain ⟨w, hw⟩ := p2 p hp
              have hh := p4 p hp w hw
              rw [q1] at hh
              refine ⟨w, hh, ?_, ?_⟩
              · intro hm
                rw [hm] at q2
                unfold paramValue at hw
                split at hw
                · cases hw
                · rename_i v _
                  rw [q2] at hw
                  simp only [Meaning.role, fieldValue] at hw
                  cases hres : ({ s with counter := i } : Sketch F).resolve v with
                  | error e => rw [hres] at hw; cases hw
                  | ok j =>
                    rw [hres] at hw
                    cases hw
                    exact ⟨j, rfl, resolve_mem h1 hres⟩
              · intro hm
                rw [hm] at q2
                unfold paramValue at hw
                split at hw
                · cases hw
                · rename_i v _
                  rw [q2] at hw
                  simp only [Meaning.role, fieldValue] at hw
                  cases hw
                  exact ⟨_, rfl⟩
            · unfold binds at hb
              simp only [Bool.and_eq_true, beq_iff_eq] at hb
              exact hb.2
            · rintro (rfl : cls = .spline)
              have hp := spline_style_param env
              obtain ⟨w, hw⟩ := p2 _ hp
              exact ⟨w, p4 _ hp w hw⟩
          have hlt' : ∀ p ∈ s.ops, p.id < i := fun p hp => lt_of_le_of_lt (h.counter p hp) hlt
          simp only
          cases hk : nameKey (⟨cls, i, fields, off⟩ : Operation F) with
          | error e => exact binv_add h1 _ none hw hlt' (le_refl _)
          | ok k => exact binv_add h1 _ k hw hlt' (le_refl _)
      · rw [hi]
        exact binv_counter h _ (le_refl _)
  · exact h

theorem built_inv {s : Sketch F} (h : Built env s) : BInv s := by
  induction h with
  | new counter => exact ⟨by simp, by simp, by simp, by simp⟩
  | call cls kw off _ ih => exact binv_call ih cls kw off
  | other counter _ hc ih => exact binv_counter ih counter hc

/-! ## Writing -/

theorem getDict_eq (o : Operation F) (ex : List String) :
    getDict o ex = pairs Decl.py (fun d => o.get d.py) ((decls o.cls).filter fun d => d.py ∉ ex) := by
  unfold getDict pairs
  congr 1

/-- The value that is given to the constructor of the XML object. -/
def argValue (o : Operation F) (d : Decl) : Option (Option (Val F)) :=
  if d.py = "mx" then o.offset.map fun p => some (.flt p.1)
  else if d.py = "my" then o.offset.map fun p => some (.flt p.2)
  else if d.py = "id" then some (some (.int o.id))
  else o.fields.get? d.py

theorem xmlArgs_ok {l : List (Operation F)} {o : Operation F} (hw : Well l o) :
    ∃ kw, xmlArgs o = .ok kw ∧ kw ≠ [] ∧ ∀ d ∈ decls o.cls, ∃ v, argValue o d = some v ∧ kw.get? d.py = some v := by
  have hget : ∀ d ∈ argDecls o.cls, ∃ v, o.get d.py = .ok v ∧ argValue o d = some v := by
    intro d hd
    rcases decl_row _ d (argDecls_sub _ d hd) with rfl | ⟨hp, hd2⟩ | ⟨r, hr, rfl⟩
    · exact ⟨_, rfl, rfl⟩
    · exfalso
      simp only [argDecls, hp, if_true, List.mem_filter] at hd
      rcases hd2 with rfl | rfl
      · exact absurd hd.2 (by decide)
      · exact absurd hd.2 (by decide)
    · obtain ⟨v, hv, _⟩ := hw.rows r hr
      obtain ⟨n1, n2, n3, _⟩ := row_ne _ r hr
      unfold Operation.Has at hv
      refine ⟨v, ?_, ?_⟩
      · simp only [Operation.get, n1, if_false, hv]
      · simp only [argValue, n1, n2, n3, if_false, hv]
  obtain ⟨kw, hkw⟩ := pairs_exists Decl.py (fun d => o.get d.py) (argDecls o.cls) fun d hd => (hget d hd).imp fun _ h => h.1
  obtain ⟨k1, k2, k3⟩ := pairs_ok hkw
  have k4 : ∀ d ∈ argDecls o.cls, ∃ v, argValue o d = some v ∧ kw.get? d.py = some v := by
    intro d hd
    obtain ⟨v, h1, h2⟩ := hget d hd
    exact ⟨v, h2, k3 (argDecls_nodup _) d hd v h1⟩
  unfold xmlArgs
  by_cases hp : o.cls.isPoint = true
  · have ha : argDecls o.cls = (decls o.cls).filter fun d => d.py ∉ ["mx", "my"] := by simp [argDecls, hp]
    rw [ha] at hkw
    have hoff := hw.offset
    rw [hp] at hoff
    obtain ⟨⟨x, y⟩, hxy⟩ := Option.isSome_iff_exists.1 hoff
    refine ⟨(kw.set "mx" (some (.flt x))).set "my" (some (.flt y)), ?_, ?_, ?_⟩
    · simp only [hp, if_true, getDict_eq, hkw, bind, Except.bind, pure, Except.pure, hxy]
    · intro hnil
      have := Dict.get?_set_self (kw.set "mx" (some (.flt x))) "my" (some (.flt y))
      rw [hnil] at this
      cases this
    · intro d hd
      by_cases hmx : d.py = "mx"
      · refine ⟨some (.flt x), by simp [argValue, hmx, hxy], ?_⟩
        rw [hmx, Dict.get?_set_ne _ _ (by decide), Dict.get?_set_self]
      · by_cases hmy : d.py = "my"
        · refine ⟨some (.flt y), by simp [argValue, hmy, hxy], ?_⟩
          rw [hmy, Dict.get?_set_self]
        · have hda : d ∈ argDecls o.cls := by
            rw [ha, List.mem_filter]
            exact ⟨hd, by simp [hmx, hmy]⟩
          obtain ⟨v, h1, h2⟩ := k4 d hda
          refine ⟨v, h1, ?_⟩
          rw [Dict.get?_set_ne _ _ (fun e => hmy e.symm), Dict.get?_set_ne _ _ (fun e => hmx e.symm)]
          exact h2
  · simp only [Bool.not_eq_true] at hp
    have ha : argDecls o.cls = decls o.cls := by simp [argDecls, hp]
    have hf : ((decls o.cls).filter fun d => d.py ∉ ([] : List String)) = decls o.cls := by simp
    rw [ha] at hkw k4
    refine ⟨kw, ?_, ?_, k4⟩
    · simp only [hp, Bool.false_eq_true, if_false, getDict_eq, hf, hkw]
    · rintro rfl
      obtain ⟨v, _, h⟩ := k4 _ (id_decl _)
      cases h

theorem pairs_congr {A β : Type} (k : A → String) (f g : A → Except PyErr β) (l : List A) (h : ∀ a ∈ l, f a = g a) :
    pairs k f l = pairs k g l := by
  induction l with
  | nil => rfl
  | cons a l ih => rw [pairs_cons, pairs_cons, h a List.mem_cons_self, ih fun b hb => h b (List.mem_cons_of_mem _ hb)]

/-- The value that the XML object holds for a property. -/
def kindValue (env : Env F) (o : Operation F) (d : Decl) : Except PyErr (Option (Val F)) :=
  match argValue o d with
  | some v => decode env d.kind v
  | none => .ok none

theorem new_eq {l : List (Operation F)} {o : Operation F} (hw : Well l o) : ∃ kw, xmlArgs o = .ok kw ∧
    Xml.new (attrs env o.cls) none kw = pairs Decl.py (kindValue env o) (decls o.cls) := by
  obtain ⟨kw, h1, h2, h3⟩ := xmlArgs_ok hw
  refine ⟨kw, h1, ?_⟩
  unfold Xml.new
  have : kw.isEmpty = false := by cases kw with | nil => exact absurd rfl h2 | cons _ _ => rfl
  simp only [this, Bool.false_eq_true, if_false]
  rw [initFromKwargs_eq _ _ (by rw [attrs_py]; exact decls_py_nodup _), attrs, pairs_map]
  refine pairs_congr _ _ _ _ fun d hd => ?_
  obtain ⟨v, h4, h5⟩ := h3 d hd
  simp only [kindValue, h4, kwValue, Decl.attr, h5]

theorem strokeLookup_stroke (s : StrokeStyle) : ∃ n, strokeLookup (F := F) (some (.stroke s)) = .ok (some (.text n)) ∧ StyleName n s := by
  cases s <;> refine ⟨_, rfl, ?_⟩ <;> (rw [styleName_iff]; unfold strokeNames; simp only [List.mem_cons, Prod.mk.injEq, and_self, true_or, or_true])

theorem row_value {l : List (Operation F)} {o : Operation F} (hw : Well l o) (hr : Writable o) (r : Row) (h : r ∈ table o.cls) :
    ∃ v w, o.Has r.py v ∧ kindValue env o ⟨r.py, r.xml, r.meaning.kind⟩ = .ok w ∧
      WrittenAs env r.meaning v (w.map (encode env r.meaning.kind)) := by
  obtain ⟨v, hv, h1, h2⟩ := hw.rows r h
  obtain ⟨n1, n2, n3, _⟩ := row_ne _ r h
  have hv' := hv
  unfold Operation.Has at hv'
  have hk : kindValue env o ⟨r.py, r.xml, r.meaning.kind⟩ = decode env r.meaning.kind v := by
    simp only [kindValue, argValue, n1, n2, n3, if_false, hv']
  rw [hk]
  have hst := hr.style r h
  have hco := hr.colour r h
  refine ⟨v, ?_⟩
  cases hm : r.meaning
  · obtain ⟨i, rfl, _⟩ := h1 hm
    exact ⟨_, hv, rfl, i, rfl, rfl⟩
  · obtain ⟨f, rfl⟩ := h2 hm
    exact ⟨_, hv, rfl, f, rfl, rfl⟩
  · exact ⟨_, hv, rfl, rfl⟩
  · rcases hco hm with h3 | ⟨c, h3⟩
    · cases has_unique hv h3
      exact ⟨_, hv, rfl, Or.inl ⟨rfl, rfl⟩⟩
    · cases has_unique hv h3
      exact ⟨_, hv, rfl, Or.inr ⟨c, rfl, rfl⟩⟩
  · exact ⟨_, hv, rfl, rfl⟩
  · obtain ⟨s, h3⟩ := hst hm
    cases has_unique hv h3
    obtain ⟨n, h4, h5⟩ := strokeLookup_stroke (F := F) s
    exact ⟨_, hv, h4, s, n, rfl, h5, rfl⟩

theorem writeOne_ok {l : List (Operation F)} {o : Operation F} (hw : Well l o) (hr : Writable o) :
    ∃ e, writeOne env o = .ok e ∧ Written env o e := by
  obtain ⟨kw, h1, h2⟩ := new_eq (env := env) hw
  have hv : ∀ d ∈ decls o.cls, ∃ v, kindValue env o d = .ok v := by
    intro d hd
    rcases decl_row _ d hd with rfl | ⟨hp, hd⟩ | ⟨r, hr', rfl⟩
    · exact ⟨_, rfl⟩
    · have hoff := hw.offset
      rw [hp] at hoff
      obtain ⟨⟨x, y⟩, hxy⟩ := Option.isSome_iff_exists.1 hoff
      rcases hd with rfl | rfl
      · exact ⟨some (.flt x), by simp [kindValue, argValue, hxy, decode, floatFromPy]⟩
      · exact ⟨some (.flt y), by simp [kindValue, argValue, hxy, decode, floatFromPy]⟩
    · obtain ⟨_, w, _, hw, _⟩ := row_value hw hr r hr'
      exact ⟨w, hw⟩
  obtain ⟨x, hx⟩ := pairs_exists Decl.py (kindValue env o) (decls o.cls) hv
  obtain ⟨_, _, hx3⟩ := pairs_ok hx
  have hx4 := hx3 (decls_py_nodup _)
  have hn : ((attrs env o.cls).map Xml.Attr.xml).Nodup := by
    have := decls_xml_nodup o.cls
    simpa [attrs, List.map_map, Function.comp_def, Decl.attr] using this
  have hkw : ((if o.cls = .line then [] else [("type", o.cls.typeName)] : Dict String Text).map Prod.fst).Nodup := by
    split <;> simp
  have hget : ∀ a ∈ attrs env o.cls, ∃ v, x.get? a.py = some v := by
    intro a ha
    unfold attrs at ha
    rw [List.mem_map] at ha
    obtain ⟨d, hd, rfl⟩ := ha
    obtain ⟨v, hv⟩ := hv d hd
    exact ⟨v, hx4 d hd v hv⟩
  obtain ⟨att, a1, a2, a3, a4⟩ := toXml_ok (attrs env o.cls) x _ hn hkw hget
  have hatt : ∀ d ∈ decls o.cls, d.xml ≠ "type" → ∀ v, kindValue env o d = .ok v → att.get? d.xml = v.map (encode env d.kind) := by
    intro d hd ht v hv
    have hda : d.attr env ∈ attrs env o.cls := List.mem_map_of_mem hd
    have h3 := a3 _ hda (by split <;> simp [Dict.get?, Decl.attr, ht.symm])
    have h4 := hx4 d hd v hv
    simp only [Decl.attr] at h3
    rw [h3]
    simp only [Xml.written, h4]
    cases v <;> rfl
  refine ⟨⟨some o.cls.tag, att⟩, ?_, ?_, ?_, ?_, ?_⟩
  · simp only [writeOne, h1, h2, hx, bind, Except.bind, toElement, a1, pure, Except.pure]
  · unfold IsClass
    by_cases hl : o.cls = .line
    · left; exact ⟨hl, by rw [hl]; rfl⟩
    · have ht : att.get? "type" = some o.cls.typeName := a2 _ _ (by simp [hl, Dict.get?])
      by_cases hs : o.cls = .spline
      · right; left
        refine ⟨hs, by rw [hs]; rfl, ?_⟩
        rw [ht, hs]; rfl
      · right; right
        refine ⟨?_, ?_, ht⟩
        · cases hc : o.cls <;> first | rfl | exact absurd hc hl | exact absurd hc hs
        · cases hc : o.cls <;> first | rfl | exact absurd hc hl | exact absurd hc hs
  · exact hatt _ (id_decl _) (by decide) _ rfl
  · intro r hr'
    obtain ⟨v, w, h3, h4, h5⟩ := row_value (env := env) hw hr r hr'
    refine ⟨v, h3, ?_⟩
    have := hatt _ (row_decl _ r hr') (row_ne _ r hr').2.2.2.1 w h4
    simp only at this ⊢
    rw [this]
    exact h5
  · intro hp
    have hoff := hw.offset
    rw [hp] at hoff
    obtain ⟨⟨x, y⟩, hxy⟩ := Option.isSome_iff_exists.1 hoff
    refine ⟨x, y, hxy, ?_, ?_⟩
    · exact hatt _ (mx_decl _ hp).1 (by decide) (some (.flt x)) (by simp [kindValue, argValue, hxy, decode, floatFromPy])
    · exact hatt _ (mx_decl _ hp).2 (by decide) (some (.flt y)) (by simp [kindValue, argValue, hxy, decode, floatFromPy])

/-! ## Reading back what was written -/

theorem rows_exist {P : Row → Option (Val F) → Prop} (l : List Row) (hn : (l.map Row.py).Nodup) (h : ∀ r ∈ l, ∃ w, P r w) :
    ∃ d : Dict String (Option (Val F)), d.keys = l.map Row.py ∧ ∀ r ∈ l, ∃ w, d.get? r.py = some w ∧ P r w := by
  induction l with
  | nil => exact ⟨[], rfl, by simp⟩
  | cons a l ih =>
    simp only [List.map_cons, List.nodup_cons] at hn
    obtain ⟨d, hk, hd⟩ := ih hn.2 fun r hr => h r (List.mem_cons_of_mem _ hr)
    obtain ⟨w, hw⟩ := h a List.mem_cons_self
    refine ⟨(a.py, w) :: d, ?_, ?_⟩
    · simp only [Dict.keys, List.map_cons] at hk ⊢; rw [hk]
    · intro r hr
      rcases List.mem_cons.1 hr with rfl | hr
      · exact ⟨w, by simp [Dict.get?], hw⟩
      · obtain ⟨w', h1, h2⟩ := hd r hr
        have : a.py ≠ r.py := fun e => hn.1 (e ▸ List.mem_map_of_mem hr)
        exact ⟨w', by simp only [Dict.get?, this, if_false]; exact h1, h2⟩

theorem colourStr_head (c : Colour.Color) : c.str.head? = some '#' := rfl

theorem name_only (c : Class) : ∀ r ∈ table c, r.meaning = .name → c.isPoint = true ∧ r.py = "name" := by
  cases c <;> decide +kernel

theorem colourText_only (c : Class) : ∀ r ∈ table c, r.meaning = .colourText → c = .spline ∧ r.py = "line_color" := by
  cases c <;> decide +kernel

theorem row_same {ops l l' : List (Operation F)} {o : Operation F} {e : Element} (hw : Well l o) (hp : Portable ops o)
    (he : Written env o e) (hl : List.Forall₂ Same l l') (r : Row) (hr : r ∈ table o.cls) :
    ∃ w, Says env l' r.meaning (e.attrib.get? r.xml) w ∧ ∃ v, o.Has r.py v ∧ SameValue r.meaning v w := by
  obtain ⟨v, hv, hwr⟩ := he.rows r hr
  obtain ⟨v', hv', h1, h2⟩ := hw.rows r hr
  cases has_unique hv hv'
  have hc := hp.colour r hr
  have hno := name_only _ r hr
  have hco := colourText_only _ r hr
  cases hm : r.meaning <;> rw [hm] at hwr
  · obtain ⟨i, rfl, p, hpl, hpi⟩ := h1 hm
    obtain ⟨j, hj, ht⟩ := hwr
    cases hj
    rw [ht]
    obtain ⟨q, hq, hpq⟩ := forall₂_mem hl hpl
    exact ⟨_, ⟨i, ⟨Xml.int_round_trip i, q, hq, hpq.id.trans hpi⟩, rfl⟩, _, hv, rfl⟩
  · obtain ⟨f, rfl⟩ := h2 hm
    obtain ⟨g, hg, ht⟩ := hwr
    cases hg
    rw [ht]
    exact ⟨_, rfl, _, hv, rfl⟩
  · obtain ⟨hpt, hn⟩ := hno hm
    obtain ⟨t, ht⟩ := hp.name hpt
    rw [hn] at hv
    cases has_unique hv ht
    simp only [WrittenAs, pyStr] at hwr
    rw [hwr]
    exact ⟨_, rfl, _, hn ▸ hv, rfl⟩
  · rcases hwr with ⟨rfl, ht⟩ | ⟨c, rfl, ht⟩
    · rw [ht]; exact ⟨_, rfl, _, hv, rfl⟩
    · rw [ht]
      obtain ⟨c', h3, _, _, _, h4, _⟩ := Colour.text_round_trip c (hc c hm hv)
      exact ⟨_, ⟨c', Or.inl ⟨colourStr_head c, h3⟩, rfl⟩, _, hv, c', rfl, h4⟩
  · obtain ⟨hsp, hn⟩ := hco hm
    obtain ⟨⟨c, hcc⟩, _⟩ := hp.spline hsp
    rw [hn] at hv
    cases has_unique hv hcc
    simp only [WrittenAs, pyStr] at hwr
    rw [hwr]
    exact ⟨_, rfl, some (.color c), hn ▸ hv, rfl⟩
  · obtain ⟨s, n, rfl, h3, ht⟩ := hwr
    rw [ht]
    exact ⟨_, ⟨s, h3, rfl⟩, _, hv, rfl⟩

theorem table_style (r : Row) (h : r ∈ table .spline) : r.py ≠ "line_style" := by
  have : ∀ r ∈ table .spline, r.py ≠ "line_style" := by decide +kernel
  exact this r h

theorem describes_written {ops l l' : List (Operation F)} {o : Operation F} {e : Element} {counter : Int} (hw : Well l o)
    (hp : Portable ops o) (he : Written env o e) (hl : List.Forall₂ Same l l') (hc : counter < o.id)
    (ho : ∀ x y, o.offset = some (x, y) → env.parse (env.print x) = .ok x ∧ env.parse (env.print y) = .ok y)
    (hops : ∀ p ∈ ops, ∀ q ∈ l, p.id = q.id → p = q) :
    ∃ o', Describes env counter l' e o' ∧ FromPoints l' o' ∧ Same o o' := by
  obtain ⟨d, hk, hd⟩ := rows_exist (P := fun r w => Says env l' r.meaning (e.attrib.get? r.xml) w ∧ ∃ v, o.Has r.py v ∧
    SameValue r.meaning v w) (table o.cls) (table_py_nodup _) (row_same hw hp he hl)
  let o' : Operation F := ⟨o.cls, o.id, d ++ [("line_style", some (.stroke .solidLine))], o.offset⟩
  have hget : ∀ r ∈ table o.cls, ∀ w, d.get? r.py = some w → o'.fields.get? r.py = some w := by
    intro r _ w hw
    have : ∀ (d d2 : Dict String (Option (Val F))) k w, d.get? k = some w → (d ++ d2 : Dict String _).get? k = some w := by
      intro d d2 k w
      induction d with
      | nil => intro h; cases h
      | cons a d ih =>
        intro h
        obtain ⟨k', v'⟩ := a
        simp only [Dict.get?, List.cons_append] at h ⊢
        split at h
        · rename_i hh; rw [if_pos hh]; exact h
        · rename_i hh; rw [if_neg hh]; exact ih h
    exact this _ _ _ _ hw
  have hstyle : o.cls = .spline → o'.Has "line_style" (some (.stroke .solidLine)) := by
    intro hs
    have hnk : "line_style" ∉ d.keys := by
      rw [hk, List.mem_map]
      rintro ⟨r, hr, e⟩
      rw [hs] at hr
      exact table_style r hr e
    have : ∀ (d d2 : Dict String (Option (Val F))) k, k ∉ d.keys → (d ++ d2 : Dict String _).get? k = d2.get? k := by
      intro d d2 k
      induction d with
      | nil => intro _; rfl
      | cons a d ih =>
        intro h
        obtain ⟨k', v'⟩ := a
        simp only [Dict.keys, List.map_cons, List.mem_cons, not_or] at h
        simp only [Dict.get?, List.cons_append, fun e => h.1 (Eq.symm e), if_false, if_neg (fun e => h.1 (Eq.symm e))]
        exact ih h.2
    unfold Operation.Has
    change (d ++ [("line_style", some (.stroke .solidLine))] : Dict String _).get? _ = _
    rw [this _ _ _ hnk]
    simp [Dict.get?]
  have hsame : Same o o' := by
    refine ⟨rfl, rfl, rfl, ?_, ?_⟩
    · intro r hr
      obtain ⟨w, h1, _, v, h2, h3⟩ := hd r hr
      exact ⟨v, w, h2, hget r hr w h1, h3⟩
    · intro hs
      have h1 := hstyle hs
      have h2 := (hp.spline hs).2
      unfold Operation.Has at h1 h2
      rw [h1, h2]
  refine ⟨o', ⟨he.isClass, ?_, ?_, ?_, hstyle⟩, ?_, hsame⟩
  · rw [he.id]; exact ⟨Xml.int_round_trip _, hc⟩
  · intro r hr
    obtain ⟨w, h1, h2, _⟩ := hd r hr
    exact ⟨w, h2, hget r hr w h1⟩
  · change if o.cls.isPoint then _ else _
    split
    · rename_i hpt
      obtain ⟨x, y, h1, h2, h3⟩ := he.offset hpt
      obtain ⟨h4, h5⟩ := ho x y h1
      refine ⟨x, y, h1, ?_, ?_⟩
      · rw [h2]; exact h4
      · rw [h3]; exact h5
    · rename_i hpt
      have := hw.offset
      simp only [Bool.not_eq_true] at hpt
      rw [hpt] at this
      change o.offset = none
      simpa using this
  · intro r hr hm hcen
    have hr : r ∈ table o.cls := hr
    obtain ⟨i, hi, p, hpo, hpi, hpp⟩ := hp.points r hr hm hcen
    obtain ⟨v, hv, h1, _⟩ := hw.rows r hr
    obtain ⟨j, rfl, q, hq, hqj⟩ := h1 hm
    cases has_unique hi hv
    have hpq := hops p hpo q hq (hpi.trans hqj.symm)
    subst hpq
    obtain ⟨p', hp', hs⟩ := forall₂_mem hl hq
    refine ⟨i, ?_, p', hp', hs.id.trans hpi, by rw [hs.cls]; exact hpp⟩
    obtain ⟨v, w, h2, h3, h4⟩ := hsame.rows r hr
    cases has_unique hv h2
    rw [hm] at h4
    simp only [SameValue] at h4
    rw [h4] at h3
    exact h3

theorem reading_written (ops : List (Operation F)) (hid : (ops.map Operation.id).Pairwise (· < ·))
    (hwell : ∀ l1 o l2, ops = l1 ++ o :: l2 → Well l1 o) (hp : ∀ o ∈ ops, Portable ops o) (hoff : OffsetsReadBack env ops)
    (l1 l2 : List (Operation F)) (h : ops = l1 ++ l2) (l1' : List (Operation F)) (hl : List.Forall₂ Same l1 l1') (counter : Int)
    (hc : ∀ o ∈ l2, counter < o.id) :
    ∃ es l2', write env l2 = .ok es ∧ Reading env counter l1' es l2' ∧ List.Forall₂ Same l2 l2' := by
  induction l2 generalizing l1 l1' counter with
  | nil => exact ⟨[], [], rfl, .nil, .nil⟩
  | cons o l2 ih =>
    have ho : o ∈ ops := by rw [h]; simp
    have hw := hwell l1 o l2 h
    obtain ⟨e, h1, h2⟩ := writeOne_ok (env := env) hw (hp o ho).writable
    have huniq : ∀ p ∈ ops, ∀ q ∈ l1, p.id = q.id → p = q := by
      intro p hpo q hq e
      have hq' : q ∈ ops := by rw [h]; simp [hq]
      have hnd : (ops.map Operation.id).Nodup := hid.imp fun h => ne_of_lt h
      exact List.inj_on_of_nodup_map hnd hpo hq' e
    obtain ⟨o', d1, d2, d3⟩ := describes_written hw (hp o ho) h2 hl (hc o List.mem_cons_self) (hoff o ho) huniq
    have hlt : ∀ p ∈ l2, o'.id < p.id := by
      intro p hpl
      rw [d3.id]
      rw [h, List.map_append, List.pairwise_append] at hid
      have := hid.2.1
      simp only [List.map_cons, List.pairwise_cons, List.mem_map, forall_exists_index, and_imp, forall_apply_eq_imp_iff₂] at this
      exact this.1 p hpl
    obtain ⟨es, l2', h3, h4, h5⟩ := ih (l1 ++ [o]) (by rw [h]; simp) (l1' ++ [o']) (List.rel_append hl (.cons d3 .nil)) o'.id hlt
    refine ⟨e :: es, o' :: l2', ?_, .read d1 d2 h4, .cons d3 h5⟩
    unfold write at h3 ⊢
    simp only [List.mapM_cons, h1, h3, bind, Except.bind, pure, Except.pure]

theorem same_agree {o o' o'' : Operation F} (h : Same o o') (ha : Agree o' o'') : Same o o'' := by
  refine ⟨ha.cls.trans h.cls, ha.id.trans h.id, ha.offset.trans h.offset, fun r hr => ?_, fun hs => ?_⟩
  · obtain ⟨v, w, h1, h2, h3⟩ := h.rows r hr
    refine ⟨v, w, h1, ?_, h3⟩
    unfold Operation.Has at h2 ⊢
    rw [ha.rows r (by rw [h.cls]; exact hr), h2]
  · rw [ha.solid (by rw [h.cls]; exact hs), h.solid hs]

theorem same_agree_list {l l' l'' : List (Operation F)} (h : List.Forall₂ Same l l') (ha : List.Forall₂ Agree l' l'') :
    List.Forall₂ Same l l'' := by
  induction h generalizing l'' with
  | nil => cases ha; exact .nil
  | cons h1 _ ih => cases ha with | cons a1 a2 => exact .cons (same_agree h1 a1) (ih a2)

theorem same_lastId {l l' : List (Operation F)} (h : List.Forall₂ Same l l') (counter : Int) : lastId counter l' = lastId counter l := by
  induction h generalizing counter with
  | nil => rfl
  | cons h1 _ ih => simp only [lastId, List.foldl_cons] at ih ⊢; rw [h1.id]; exact ih _

theorem round_trip {s : Sketch F} (h : Built env s) (hp : ∀ o ∈ s.ops, Portable s.ops o) (hoff : OffsetsReadBack env s.ops)
    (counter : Int) (hc : ∀ o ∈ s.ops, counter < o.id) :
    ∃ es s', write env s.ops = .ok es ∧ Sketch.read env { counter := counter } es = (s', .ok ()) ∧ List.Forall₂ Same s.ops s'.ops ∧
      s'.counter = lastId counter s.ops := by
  have hb := built_inv h
  obtain ⟨es, l2', h1, h2, h3⟩ := reading_written s.ops hb.ids hb.well hp hoff [] s.ops rfl [] .nil counter hc
  obtain ⟨s', ops', h4, h5, h6, h7⟩ := read_exists h2 (inv_new counter) rfl .nil
  refine ⟨es, s', h1, h4, ?_, ?_⟩
  · rw [h5]
    exact same_agree_list h3 h6
  · rw [h7, same_lastId h3]

/-! ## Ids -/

theorem tryRead_old {s : Sketch F} {e : Element} {c : Class} (hc : IsClass e c)
    (hv : ∀ d ∈ decls c, ∃ v, declValue env e d = .ok v) {t : Text} {i : Int} (ht : e.attrib.get? "id" = some t)
    (hi : Xml.intFromText t = .ok i) (hle : i ≤ s.counter) : s.tryRead env e = (s, .error .nameError) := by
  obtain ⟨x, kw, off, hx, ha⟩ := args_exists env hv
  obtain ⟨_, hargs⟩ := args_ok env hx ha
  have hd : declValue env e ⟨"id", "id", .int⟩ = .ok (some (.int i)) := by
    simp only [declValue, ht, decode, intFromPy, hi]; rfl
  have hkid := hargs.value _ (id_arg c) _ hd
  simp only at hkid
  have hcall : s.call env c kw off = (s, .error .nameError) := by
    unfold Sketch.call
    rw [binds_true hv hargs, if_pos rfl, hkid]
    simp only [idArg, newOperationId_some]
    rw [if_neg (by omega)]
  unfold Sketch.tryRead
  rw [(dispatch_ok e c).2 hc]
  simp only [hx, ha, hcall]

theorem read_skip {s : Sketch F} (es1 es2 : List Element) (h : ∀ e ∈ es1, NotImplemented e) :
    s.read env (es1 ++ es2) = s.read env es2 := by
  induction es1 with
  | nil => rfl
  | cons e es1 ih =>
    rw [List.cons_append]
    conv_lhs => unfold Sketch.read
    unfold Sketch.readOne
    rw [tryRead_skip (h e List.mem_cons_self)]
    exact ih fun e' he' => h e' (List.mem_cons_of_mem _ he')

theorem read_old {s : Sketch F} {es1 es2 : List Element} (h : ∀ e ∈ es1, NotImplemented e) {e : Element} {c : Class} (hc : IsClass e c)
    (hv : ∀ d ∈ decls c, ∃ v, declValue env e d = .ok v) {t : Text} {i : Int} (ht : e.attrib.get? "id" = some t)
    (hi : Xml.intFromText t = .ok i) (hle : i ≤ s.counter) : s.read env (es1 ++ e :: es2) = (s, .error .nameError) := by
  rw [read_skip _ _ h]
  unfold Sketch.read Sketch.readOne
  rw [tryRead_old hc hv ht hi hle]

theorem reading_lastId {counter : Int} {l : List (Operation F)} {es : List Element} {ops : List (Operation F)}
    (h : Reading env counter l es ops) : counter ≤ lastId counter ops ∧ ∀ o ∈ ops, o.id ≤ lastId counter ops := by
  induction h with
  | nil => exact ⟨le_refl _, by simp⟩
  | skip _ _ ih => exact ih
  | @read counter earlier e es o ops hd _ _ ih =>
    have := newId_lt hd.id
    refine ⟨le_trans this.le ih.1, fun p hp => ?_⟩
    rcases List.mem_cons.1 hp with rfl | hp
    · exact ih.1
    · exact ih.2 p hp

theorem reading_first {counter : Int} {l : List (Operation F)} {es1 es2 : List Element} {e : Element} {ops : List (Operation F)}
    (h1 : ∀ e ∈ es1, NotImplemented e) (h2 : ¬ NotImplemented e) (h : Reading env counter l (es1 ++ e :: es2) ops) :
    ∃ o ops', ops = o :: ops' ∧ Describes env counter l e o := by
  induction es1 with
  | nil =>
    cases h with
    | skip hn _ => exact absurd hn h2
    | read hd _ _ => exact ⟨_, _, rfl, hd⟩
  | cons e' es1 ih =>
    cases h with
    | skip _ hr => exact ih (fun e he => h1 e (List.mem_cons_of_mem _ he)) hr
    | read hd _ _ => exact absurd (h1 e' List.mem_cons_self) (not_both hd.isClass)

/-! ## What is lost -/

theorem writeOne_error {l : List (Operation F)} {o : Operation F} (hw : Well l o)
    (hco : ∀ r ∈ table o.cls, r.meaning = .colour → o.Has r.py none ∨ ∃ c, o.Has r.py (some (.color c)))
    (r : Row) (hr : r ∈ table o.cls) (hm : r.meaning = .style) (hn : o.Has r.py none) : writeOne env o = .error .keyError := by
  obtain ⟨kw, h1, h2⟩ := new_eq (env := env) hw
  have hv : ∀ d ∈ decls o.cls, d.kind = .stroke ∨ ∃ v, kindValue env o d = .ok v := by
    intro d hd
    rcases decl_row _ d hd with rfl | ⟨hp, hd⟩ | ⟨r, hr', rfl⟩
    · exact Or.inr ⟨_, rfl⟩
    · right
      have hoff := hw.offset
      rw [hp] at hoff
      obtain ⟨⟨x, y⟩, hxy⟩ := Option.isSome_iff_exists.1 hoff
      rcases hd with rfl | rfl
      · exact ⟨some (.flt x), by simp [kindValue, argValue, hxy, decode, floatFromPy]⟩
      · exact ⟨some (.flt y), by simp [kindValue, argValue, hxy, decode, floatFromPy]⟩
    · obtain ⟨v, hv, h1, h2⟩ := hw.rows r hr'
      obtain ⟨n1, n2, n3, _⟩ := row_ne _ r hr'
      have hv' := hv
      unfold Operation.Has at hv'
      have hk : kindValue env o ⟨r.py, r.xml, r.meaning.kind⟩ = decode env r.meaning.kind v := by
        simp only [kindValue, argValue, n1, n2, n3, if_false, hv']
      rw [hk]
      have hco' := hco r hr'
      cases hm : r.meaning
      · obtain ⟨i, rfl, _⟩ := h1 hm; exact Or.inr ⟨_, rfl⟩
      · exact Or.inr ⟨_, rfl⟩
      · exact Or.inr ⟨_, rfl⟩
      · rcases hco' hm with h3 | ⟨c, h3⟩
        · cases has_unique hv h3; exact Or.inr ⟨_, rfl⟩
        · cases has_unique hv h3; exact Or.inr ⟨_, rfl⟩
      · exact Or.inr ⟨_, rfl⟩
      · exact Or.inl rfl
  have hone : ∀ c : Class, ∀ d ∈ decls c, ∀ d' ∈ decls c, d.kind = .stroke → d'.kind = .stroke → d = d' := by
    intro c; cases c <;> decide +kernel
  have hst : kindValue env o ⟨r.py, r.xml, r.meaning.kind⟩ = .error .keyError := by
    obtain ⟨n1, n2, n3, _⟩ := row_ne _ r hr
    unfold Operation.Has at hn
    simp only [kindValue, argValue, n1, n2, n3, if_false, hn, hm, Meaning.kind, decode, strokeLookup]
  cases hp : pairs Decl.py (kindValue env o) (decls o.cls) with
  | ok x =>
    obtain ⟨v, hv⟩ := (pairs_ok hp).2.1 _ (row_decl _ r hr)
    rw [hst] at hv
    cases hv
  | error err =>
    obtain ⟨l1, d, l2, hl, hd, _⟩ := pairs_error hp
    have hdm : d ∈ decls o.cls := by rw [hl]; simp
    have : err = .keyError := by
      rcases hv d hdm with hk | ⟨v, hv⟩
      · have := hone _ d hdm _ (row_decl _ r hr) hk (by rw [hm]; rfl)
        rw [this, hst] at hd
        cases hd
        rfl
      · rw [hv] at hd; cases hd
    subst this
    simp only [writeOne, h1, h2, hp, bind, Except.bind]

theorem get?_set_ne' (d : Dict String (Option (Val F))) (v : Option (Val F)) (n : String) (hn : n ≠ "line_style") :
    (d.set "line_style" v).get? n = d.get? n := Dict.get?_set_ne _ _ (Ne.symm hn)

/-- A scope that is written is read back. -/
theorem write_eq_read (sc : Scope F) (s : Sketch F) (hs : Built env s) (he : s.ops = sc.ops) (hp : ∀ o ∈ sc.ops, Portable sc.ops o)
    (hoff : OffsetsReadBack env sc.ops) (n : Text) (hn : sc.name = some n) (counter : Int) (hc : ∀ o ∈ sc.ops, counter < o.id)
    (eval : List (Operation F) → Except PyErr Unit) (heval : ∀ ops', List.Forall₂ Same sc.ops ops' → eval ops' = .ok ()) :
    ∃ d sc', writeScope env sc = .ok d ∧ readPiece env eval counter d = (lastId counter sc.ops, .ok sc') ∧ SameScope sc sc' := by
  rw [← he] at hp hoff hc heval
  obtain ⟨es, s', h1, h2, h3, h4⟩ := round_trip hs hp hoff counter hc
  rw [he] at h1
  refine ⟨⟨some n, some es, some [], some []⟩, ⟨some n, s'.ops⟩, ?_, ?_, ?_, ?_⟩
  · simp only [writeScope, hn, h1, bind, Except.bind, pure, Except.pure]
  · have hrest : ∀ s : Sketch F, readRest env s ⟨some n, some es, some [], some []⟩ = .ok [] := fun s => rfl
    simp only [readPiece, h2, heval _ h3, hrest, h4, he]
  · exact hn.symm
  · rw [he] at h3; exact h3

end Patro.Valentina
