import Verif.Props.Valentina
/-!
# Property C165, continued: details; C160 and C161, continued: arguments
-/

namespace Patro.Valentina

open Xml (Text)

variable {F : Type} (env : Env F)

/-- An attribute of an element is this integer. -/
def HasInt (e : Element) (name : String) (i : Int) : Prop := ∃ t, e.attrib.get? name = some t ∧ Xml.intFromText t = .ok i

/-- The texts of a boolean. -/
def IsBoolText (t : Text) : Prop := t ∈ ["true", "1", "false", "0"].map String.toList

/-- What is required of the modeling and of the details of a piece: the modeling has points and splines, with boolean attributes
that are booleans; a child of a detail is a list of nodes or one of the three labels; and a node refers, through the last item of the
modeling with the id it gives, to an operation of the piece. -/
def DetailsResolve (d : Draw) (ops : List (Operation F)) : Prop :=
  ∃ ms ds, d.modeling = some ms ∧ d.details = some ds ∧
    (∀ m ∈ ms, (m.tag = some "point" ∨ m.tag = some "spline") ∧ ∀ t, m.attrib.get? "inUse" = some t → IsBoolText t) ∧
    ∀ dt ∈ ds, ∀ c ∈ dt.children,
      (c.element.tag = some "nodes" ∨ c.element.tag = some "grainline" ∨ c.element.tag = some "patternInfo" ∨
        c.element.tag = some "data") ∧
      (c.element.tag = some "nodes" → ∀ n ∈ c.children, ∀ t, n.attrib.get? "idObject" = some t →
        ∃ i, Xml.intFromText t = .ok i ∧ ∃ l1 m l2, ms = l1 ++ m :: l2 ∧ HasInt m "id" i ∧ (∀ m' ∈ l2, ¬ HasInt m' "id" i) ∧
          ∀ t', m.attrib.get? "idObject" = some t' → ∃ j, Xml.intFromText t' = .ok j ∧ ∃ o ∈ ops, o.id = j)

/-- The value of an attribute of an object that was read. -/
theorem read_decl {ds : List Decl} {e : Element} {x : Xml.Obj (Val F)} (hn : (ds.map Decl.py).Nodup)
    (h : Xml.initFromXml (ds.map (Decl.attr env)) e.attrib = .ok x) (d : Decl) (hd : d ∈ ds) :
    (∀ t, e.attrib.get? d.xml = some t → ∃ v, decode env d.kind (some (.text t)) = .ok v ∧ x.get? d.py = some v) ∧
      (e.attrib.get? d.xml = none → x.get? d.py = some none) := by
  have hn' : ((ds.map (Decl.attr env)).map Xml.Attr.py).Nodup := by
    rw [List.map_map]
    exact hn
  rw [initFromXml_eq _ _ hn'] at h
  obtain ⟨_, h1, h2⟩ := pairs_ok h
  have hmem : Decl.attr env d ∈ ds.map (Decl.attr env) := List.mem_map_of_mem hd
  obtain ⟨v, hv⟩ := h1 _ hmem
  have hg := h2 hn' _ hmem v hv
  change x.get? d.py = some v at hg
  unfold Xml.readValue at hv
  constructor
  · intro t ht
    have ht' : e.attrib.get? (Decl.attr env d).xml = some t := ht
    rw [ht'] at hv
    exact ⟨v, hv, hg⟩
  · intro ht
    have ht' : e.attrib.get? (Decl.attr env d).xml = none := ht
    rw [ht'] at hv
    have hv : Except.ok (none : Option (Val F)) = Except.ok v := hv
    injection hv with hv
    rw [hg, ← hv]

theorem idOf_some {ds : List Decl} {e : Element} {x : Xml.Obj (Val F)} (hn : (ds.map Decl.py).Nodup)
    (h : Xml.initFromXml (ds.map (Decl.attr env)) e.attrib = .ok x) (py xml : String) (hd : ⟨py, xml, .int⟩ ∈ ds) (i : Int) :
    idOf x py = some i ↔ HasInt e xml i := by
  obtain ⟨h1, h2⟩ := read_decl env hn h _ hd
  unfold HasInt idOf
  cases ht : e.attrib.get? xml with
  | none =>
    rw [h2 ht]
    simp
  | some t =>
    obtain ⟨v, hv, hx⟩ := h1 t ht
    rw [hx]
    change (Xml.intFromText t).map (fun i => some (Val.int i)) = .ok v at hv
    cases hi : Xml.intFromText t with
    | error e => rw [hi] at hv; cases hv
    | ok k =>
      rw [hi] at hv
      cases hv
      simp [hi]

theorem modelingAttrs_ok {tag : Option String} {ds : List Decl} (h : modelingAttrs tag = .ok ds) :
    (tag = some "point" ∨ tag = some "spline") ∧ (ds.map Decl.py).Nodup ∧ ∀ d ∈ modelingDecls, d ∈ ds := by
  unfold modelingAttrs at h
  split at h
  · cases h
    exact ⟨.inl rfl, by decide, fun d hd => List.mem_append_left _ hd⟩
  · cases h
    exact ⟨.inr rfl, by decide, fun d hd => hd⟩
  · cases h

theorem boolFromXml_ok {t : Text} {b : Bool} (h : Xml.boolFromXml t = .ok b) : IsBoolText t := by
  unfold Xml.boolFromXml at h
  unfold IsBoolText
  simp only [List.map_cons, List.map_nil, List.mem_cons, List.not_mem_nil, or_false]
  split at h
  · rename_i h'
    rcases h' with h' | h'
    · exact .inl h'
    · exact .inr (.inl h')
  · split at h
    · rename_i h'
      rcases h' with h' | h'
      · exact .inr (.inr (.inl h'))
      · exact .inr (.inr (.inr h'))
    · cases h

/-- The modeling that was read. -/
theorem readModeling_ok {ms : List Element} {m0 m : Modeling} (h : ms.foldlM (readModelingOne env) m0 = .ok m) :
    (∀ e ∈ ms, (e.tag = some "point" ∨ e.tag = some "spline") ∧ ∀ t, e.attrib.get? "inUse" = some t → IsBoolText t) ∧
    ∀ i : Int, (m.get? (some i) = m0.get? (some i) ∧ ∀ e ∈ ms, ¬ HasInt e "id" i) ∨
      ∃ l1 e l2, ms = l1 ++ e :: l2 ∧ HasInt e "id" i ∧ (∀ e' ∈ l2, ¬ HasInt e' "id" i) ∧
        ∃ o, m.get? (some i) = some o ∧ (∀ j, o = some j ↔ HasInt e "idObject" j) ∧
          (∀ t, e.attrib.get? "idObject" = some t → ∃ j, Xml.intFromText t = .ok j) := by
  induction ms generalizing m0 with
  | nil =>
    cases h
    exact ⟨by simp, fun i => .inl ⟨rfl, by simp⟩⟩
  | cons e es ih =>
    rw [List.foldlM_cons] at h
    simp only [bind, Except.bind] at h
    cases h1 : readModelingOne env m0 e with
    | error err => rw [h1] at h; cases h
    | ok m1 =>
      rw [h1] at h
      obtain ⟨ih1, ih2⟩ := ih h
      unfold readModelingOne at h1
      simp only [bind, Except.bind] at h1
      cases h2 : modelingAttrs e.tag with
      | error err => rw [h2] at h1; cases h1
      | ok ds =>
        rw [h2] at h1
        simp only at h1
        cases h3 : Xml.initFromXml (ds.map (Decl.attr env)) e.attrib with
        | error err => rw [h3] at h1; cases h1
        | ok x =>
          rw [h3] at h1
          simp only [pure, Except.pure, Except.ok.injEq] at h1
          obtain ⟨ht, hn, hsub⟩ := modelingAttrs_ok h2
          have hid := idOf_some env hn h3 "id" "id" (hsub _ (by decide))
          have hobj := idOf_some env hn h3 "object_id" "idObject" (hsub _ (by decide))
          refine ⟨?_, ?_⟩
          · intro e' he'
            rcases List.mem_cons.1 he' with rfl | he'
            · refine ⟨ht, fun t hu => ?_⟩
              obtain ⟨v, hv, _⟩ := (read_decl env hn h3 ⟨"in_use", "inUse", .bool⟩ (hsub _ (by decide))).1 t hu
              change (Xml.boolFromXml t).map (fun b => some (Val.bool b)) = .ok v at hv
              cases hb : Xml.boolFromXml t with
              | error err => rw [hb] at hv; cases hv
              | ok b => exact boolFromXml_ok hb
            · exact ih1 e' he'
          · intro i
            rcases ih2 i with ⟨h4, h5⟩ | ⟨l1, e', l2, h4, h5, h6, h7⟩
            · by_cases hi : HasInt e "id" i
              · refine .inr ⟨[], e, es, rfl, hi, h5, idOf x "object_id", ?_, hobj, ?_⟩
                · rw [h4, ← h1, (hid i).2 hi, Dict.get?_set_self]
                · intro t hto
                  obtain ⟨v, hv, _⟩ := (read_decl env hn h3 ⟨"object_id", "idObject", .int⟩ (hsub _ (by decide))).1 t hto
                  change (Xml.intFromText t).map (fun i => some (Val.int i)) = .ok v at hv
                  cases hb : Xml.intFromText t with
                  | error err => rw [hb] at hv; cases hv
                  | ok b => exact ⟨b, rfl⟩
              · refine .inl ⟨?_, ?_⟩
                · rw [h4, ← h1, Dict.get?_set_ne]
                  intro hc
                  exact hi ((hid i).1 hc)
                · intro e' he'
                  rcases List.mem_cons.1 he' with rfl | he'
                  · exact hi
                  · exact h5 e' he'
            · exact .inr ⟨e :: l1, e', l2, by rw [h4]; rfl, h5, h6, h7⟩

theorem detailAttrs_ok {tag : Option String} {ds : List Decl} (h : detailAttrs tag = .ok ds) :
    tag = some "grainline" ∨ tag = some "patternInfo" ∨ tag = some "data" := by
  unfold detailAttrs at h
  split at h
  · exact .inl rfl
  · exact .inr (.inl rfl)
  · exact .inr (.inr rfl)
  · cases h

theorem mapM_ok {α β : Type} {f : α → Except PyErr β} {l : List α} {r : List β} (h : l.mapM f = .ok r) :
    List.Forall₂ (fun a b => f a = .ok b) l r := by
  induction l generalizing r with
  | nil => cases h; exact .nil
  | cons a l ih =>
    rw [List.mapM_cons] at h
    simp only [bind, Except.bind] at h
    cases h1 : f a with
    | error e => rw [h1] at h; cases h
    | ok b =>
      rw [h1] at h
      simp only at h
      cases h2 : l.mapM f with
      | error e => rw [h2] at h; cases h
      | ok bs =>
        rw [h2] at h
        cases h
        exact .cons h1 (ih h2)

theorem forall₂_mem_left {α β : Type} {R : α → β → Prop} {l : List α} {r : List β} (h : List.Forall₂ R l r) {a : α} (ha : a ∈ l) :
    ∃ b ∈ r, R a b := by
  induction h with
  | nil => cases ha
  | cons h1 _ ih =>
    rcases List.mem_cons.1 ha with rfl | ha
    · exact ⟨_, List.mem_cons_self .., h1⟩
    · obtain ⟨b, hb, hr⟩ := ih ha
      exact ⟨b, List.mem_cons_of_mem _ hb, hr⟩

/-- The details of a piece that were read. -/
theorem readRest_ok {s : Sketch F} {d : Draw} {r : List (List Int)} (hs : ∀ j : Int, (s.dict.get? (.int j)).isSome → ∃ o ∈ s.ops, o.id = j)
    (h : readRest env s d = .ok r) : DetailsResolve d s.ops := by
  unfold readRest at h
  simp only [bind, Except.bind] at h
  cases hm : d.modeling with
  | none => rw [hm] at h; cases h
  | some ms =>
    rw [hm] at h
    simp only [children] at h
    cases h1 : readModeling env ms with
    | error e => rw [h1] at h; cases h
    | ok m =>
      rw [h1] at h
      simp only at h
      cases hd : d.details with
      | none => rw [hd] at h; cases h
      | some ds =>
        rw [hd] at h
        simp only [children] at h
        obtain ⟨hmod, hitem⟩ := readModeling_ok env h1
        refine ⟨ms, ds, hm, hd, hmod, ?_⟩
        intro dt hdt c hc
        obtain ⟨ids, _, hids⟩ := forall₂_mem_left (mapM_ok h) hdt
        unfold readDetail at hids
        simp only [bind, Except.bind] at hids
        cases h2 : Xml.initFromXml (detailDecls.map (Decl.attr env)) dt.attrib with
        | error e => rw [h2] at hids; cases hids
        | ok x =>
          rw [h2] at hids
          simp only at hids
          cases h3 : dt.children.mapM (readChild env) with
          | error e => rw [h3] at hids; cases hids
          | ok nodes =>
            rw [h3] at hids
            simp only at hids
            obtain ⟨ns, hns, hread⟩ := forall₂_mem_left (mapM_ok h3) hc
            unfold readChild at hread
            split at hread
            · rename_i htag
              refine ⟨.inl htag, fun _ n hn t ht => ?_⟩
              obtain ⟨oid, hoid, hnode⟩ := forall₂_mem_left (mapM_ok hread) hn
              simp only [bind, Except.bind] at hnode
              cases h4 : Xml.initFromXml (nodeDecls.map (Decl.attr env)) n.attrib with
              | error e => rw [h4] at hnode; cases hnode
              | ok y =>
                rw [h4] at hnode
                simp only [pure, Except.pure, Except.ok.injEq] at hnode
                have hn' : (nodeDecls.map Decl.py).Nodup := by decide
                obtain ⟨v, hv, _⟩ := (read_decl env hn' h4 ⟨"object_id", "idObject", .int⟩ (by decide)).1 t ht
                change (Xml.intFromText t).map (fun i => some (Val.int i)) = .ok v at hv
                cases hb : Xml.intFromText t with
                | error err => rw [hb] at hv; cases hv
                | ok i =>
                  have hi : oid = some i := by
                    rw [← hnode]
                    exact (idOf_some env hn' h4 "object_id" "idObject" (by decide) i).2 ⟨t, ht, hb⟩
                  subst hi
                  have hflat : some i ∈ nodes.flatten := List.mem_flatten.2 ⟨ns, hns, hoid⟩
                  obtain ⟨op, _, hop⟩ := forall₂_mem_left (mapM_ok hids) hflat
                  unfold readNode at hop
                  simp only [bind, Except.bind] at hop
                  refine ⟨i, rfl, ?_⟩
                  rcases hitem i with ⟨h5, h6⟩ | ⟨l1, e, l2, h5, h6, h7, o, h8, h9, h10⟩
                  · have h5 : m.get? (some i) = none := h5
                    simp only [Dict.getItem, h5] at hop
                    cases hop
                  · refine ⟨l1, e, l2, h5, h6, h7, fun t' ht' => ?_⟩
                    obtain ⟨j, hj⟩ := h10 t' ht'
                    have ho := (h9 j).2 ⟨t', ht', hj⟩
                    subst ho
                    refine ⟨j, hj, hs j ?_⟩
                    simp only [Dict.getItem, h8, intKey] at hop
                    cases hk : s.dict.get? (.int j) with
                    | none => rw [hk] at hop; cases hop
                    | some k => rfl
            · rename_i htag
              simp only [bind, Except.bind] at hread
              cases h4 : detailAttrs c.element.tag with
              | error e => rw [h4] at hread; cases hread
              | ok ds' => exact ⟨.inr (detailAttrs_ok h4), fun hc => absurd hc htag⟩

/-- C165. A file is read only if the modeling of every piece has points and splines whose attribute `inUse` is a boolean, the
children of its details are lists of nodes, grain lines, labels and data, and every node refers, through the last item of the modeling
with the id it gives, to an operation that was read in the piece. -/
theorem details_require (hp : ∀ t err, env.parse t = .error err → err = .valueError) (vit : Text → Except PyErr Unit)
    (eval : List (Operation F) → Except PyErr Unit) (counter c : Int) (doc : Document) (p : Pat F)
    (h : readFile env vit eval counter doc = (c, .ok p)) :
    List.Forall₂ (fun (d : Draw) (sc : Scope F) => DetailsResolve d sc.ops) doc.draws p.scopes := by
  unfold readFile at h
  cases hh : readHead vit doc with
  | error e => rw [hh] at h; cases h
  | ok u =>
    rw [hh] at h
    simp only at h
    rcases hr : readPieces env eval counter doc.draws with ⟨c', e | l⟩
    · rw [hr] at h; cases h
    · rw [hr] at h
      cases h
      clear hh
      generalize doc.draws = ds at hr
      induction ds generalizing counter l c with
      | nil => cases hr; exact .nil
      | cons d ds ih =>
        unfold readPieces at hr
        rcases h1 : readPiece env eval counter d with ⟨c1, e | sc⟩
        · rw [h1] at hr; cases hr
        · rw [h1] at hr
          simp only at hr
          rcases h2 : readPieces env eval c1 ds with ⟨c2, e | l2⟩
          · rw [h2] at hr; cases hr
          · rw [h2] at hr
            cases hr
            refine .cons ?_ (ih _ _ _ h2)
            unfold readPiece at h1
            split at h1
            · cases h1
            · split at h1
              · cases h1
              · rename_i es hes
                rcases h3 : Sketch.read env { counter := counter } es with ⟨s, e | u⟩
                · rw [h3] at h1; cases h1
                · rw [h3] at h1
                  simp only at h1
                  cases h4 : eval s.ops with
                  | error e => rw [h4] at h1; cases h1
                  | ok u =>
                    rw [h4] at h1
                    simp only at h1
                    cases h5 : readRest env s d with
                    | error e => rw [h5] at h1; cases h1
                    | ok r =>
                      rw [h5] at h1
                      cases h1
                      obtain ⟨_, _, _, hi, _⟩ := read_ok hp es (inv_new counter) h3
                      refine readRest_ok env (fun j hj => ?_) h5
                      obtain ⟨k, hk⟩ := Option.isSome_iff_exists.1 hj
                      exact ((hi.byId j k).1 hk).2

/-- A document with one piece: a point `A`, its image in the modeling and a detail with one node. -/
def toyDocument (node : Text) : Document :=
  { unit := some (some "cm".toList), measurements := some none
    draws := [⟨some "front".toList,
      some [⟨some "point", [("id", "1".toList), ("type", "single".toList), ("name", "A".toList), ("x", "0".toList), ("y", "0".toList),
        ("mx", "0".toList), ("my", "0".toList)]⟩],
      some [⟨some "point", [("id", "2".toList), ("idObject", "1".toList), ("inUse", "true".toList)]⟩],
      some [⟨[("id", "3".toList)], [⟨⟨some "data", []⟩, []⟩, ⟨⟨some "nodes", []⟩, [⟨some "node", [("idObject", node)]⟩]⟩]⟩]⟩] }

/-- The hypotheses of `details_require` are met. -/
example : ∃ c p, readFile toyEnv (fun _ => .ok ()) (fun _ => .ok ()) 0 (toyDocument "2".toList) = (c, .ok p) ∧ p.scopes ≠ [] := by
  refine ⟨_, _, Prod.ext rfl ?_, ?_⟩
  rotate_left
  · decide +kernel
  · rfl

/-- A node that gives the id of the operation, and not that of an item of the modeling, stops the reading. -/
example : readFile toyEnv (fun _ => .ok ()) (fun _ => .ok ()) 0 (toyDocument "1".toList) = (1, .error .keyError) := by
  decide +kernel

/-! ## Arguments -/

/-- C161. An operation cannot be made without its name, one of the operations it refers to or one of its formulas: the call raises
`TypeError` and the sketch is unchanged. -/
theorem missing_argument (s : Sketch F) (c : Class) (kwargs : Dict String (Option (Val F))) (offset : Option (F × F)) (r : Row)
    (hr : r ∈ table c) (hm : r.meaning = .name ∨ r.meaning = .reference ∨ r.meaning = .formula) (hk : kwargs.get? r.py = none) :
    s.call env c kwargs offset = (s, .error .typeError) := by
  have hb : binds env c kwargs offset = false := by
    have hreq : ∃ p ∈ params env c, p.name = r.py ∧ p.default.isSome = false := by
      cases c <;> simp [table, strokeRows, pairRows] at hr <;> rcases hr with rfl | hr <;>
        (try (rcases hr with rfl | hr)) <;> (try (rcases hr with rfl | hr)) <;> (try (rcases hr with rfl | hr)) <;>
        (try (rcases hr with rfl | hr)) <;> (try (rcases hr with rfl | hr)) <;> (try subst hr) <;> simp at hm <;>
        simp [params, req, lineNone, lineBlack]
    obtain ⟨p, hp, hn, hd⟩ := hreq
    have hall : (params env c).all (fun p => (kwargs.get? p.name).isSome || p.default.isSome) = false := by
      rw [List.all_eq_false]
      refine ⟨p, hp, ?_⟩
      rw [hn, hk, hd]
      simp
    unfold binds
    rw [hall]
    simp
  unfold Sketch.call
  rw [hb]
  rfl

/-- The hypotheses of `missing_argument` are met. -/
example : (toySketch 3).call toyEnv .endLine [("name", some (.text "B".toList)), ("base_point", some (.text "A".toList)),
    ("angle", some (.int 0))] (some (0, 0)) = (toySketch 3, .error .typeError) :=
  missing_argument toyEnv _ _ _ _ ⟨"length", "length", .formula⟩ (by decide) (by decide) rfl

/-- C165. A boolean attribute that is read is written back as `true` or `false`, with the value it had. -/
theorem boolean_written (ds : List Decl) (e : Element) (x : Xml.Obj (Val F)) (hn : (ds.map Decl.py).Nodup)
    (hx : (ds.map Decl.xml).Nodup) (h : Xml.initFromXml (ds.map (Decl.attr env)) e.attrib = .ok x) (d : Decl) (hd : d ∈ ds)
    (hk : d.kind = .bool) (t : Text) (ht : e.attrib.get? d.xml = some t) :
    ∃ xml, Xml.toXml (ds.map (Decl.attr env)) x [] = .ok xml ∧
      ((t = "true".toList ∨ t = "1".toList) ∧ xml.get? d.xml = some "true".toList ∨
        (t = "false".toList ∨ t = "0".toList) ∧ xml.get? d.xml = some "false".toList) := by
  have hset : ∀ a ∈ ds.map (Decl.attr env), ∃ v, x.get? a.py = some v := by
    intro a ha
    obtain ⟨d', hd', rfl⟩ := List.mem_map.1 ha
    obtain ⟨h1, h2⟩ := read_decl env hn h d' hd'
    cases hg : e.attrib.get? d'.xml with
    | none => exact ⟨_, h2 hg⟩
    | some t' =>
      obtain ⟨v, _, hv⟩ := h1 t' hg
      exact ⟨v, hv⟩
  have hx' : ((ds.map (Decl.attr env)).map Xml.Attr.xml).Nodup := by
    rw [List.map_map]
    exact hx
  obtain ⟨xml, hxml, _, hw, _⟩ := toXml_ok _ x [] hx' (by simp) hset
  refine ⟨xml, hxml, ?_⟩
  have hg := hw _ (List.mem_map_of_mem hd) rfl
  change xml.get? d.xml = _ at hg
  obtain ⟨v, hv, hxv⟩ := (read_decl env hn h d hd).1 t ht
  rw [hk] at hv
  change (Xml.boolFromXml t).map (fun b => some (Val.bool b)) = .ok v at hv
  have hxv' : x.get? (Decl.attr env d).py = some v := hxv
  rw [hg]
  unfold Xml.written
  rw [hxv']
  have hto : (Decl.attr env d).toXml = encode env .bool := by
    rw [← hk]
    rfl
  obtain ⟨b1, b2, _⟩ := Xml.boolFromXml_spec t
  cases hb : Xml.boolFromXml t with
  | error err => rw [hb] at hv; cases hv
  | ok b =>
    rw [hb] at hv
    cases hv
    cases b
    · exact .inr ⟨b2.1 hb, by simp only [hto]; rfl⟩
    · exact .inl ⟨b1.1 hb, by simp only [hto]; rfl⟩

/-- The hypotheses of `boolean_written` are met by an item of the modeling. -/
example : ∃ x, Xml.initFromXml (modelingDecls.map (Decl.attr toyEnv)) [("id", "2".toList), ("inUse", "1".toList)] = .ok x ∧
    Xml.toXml (modelingDecls.map (Decl.attr toyEnv)) x [] = .ok [("id", "2".toList), ("inUse", "true".toList)] := by
  refine ⟨_, rfl, ?_⟩
  decide +kernel

/-- C165, against: an item of the modeling or a detail cannot be made from Python with a boolean: `True` and `False` are compared with
the texts, and the construction raises `ValueError`. -/
theorem boolean_from_python_wrong (ds1 ds2 : List Decl) (d : Decl) (hk : d.kind = .bool) (b : Bool)
    (hn : ∀ d' ∈ ds1, d'.py ≠ d.py) :
    Xml.new ((ds1 ++ d :: ds2).map (Decl.attr env)) none [(d.py, some (.bool b))] = .error .valueError := by
  have key : ∀ o : Xml.Obj (Val F), ((ds1 ++ d :: ds2).map (Decl.attr env)).foldlM (init := o) (fun o a =>
      match Dict.get? [(d.py, some (Val.bool b))] a.py with
      | some t => do
        let v ← a.fromPy t
        return o.set a.py v
      | none => return o.set a.py a.default) = .error .valueError := by
    induction ds1 with
    | nil =>
      intro o
      have hg : Dict.get? [(d.py, some (Val.bool b : Val F))] (Decl.attr env d).py = some (some (.bool b)) := by
        change Dict.get? [(d.py, some (Val.bool b : Val F))] d.py = _
        simp [Dict.get?]
      have hf : (Decl.attr env d).fromPy (some (.bool b)) = .error .valueError := by
        change decode env d.kind _ = _
        rw [hk]
        rfl
      rw [List.nil_append, List.map_cons, List.foldlM_cons, hg]
      simp only [hf, bind, Except.bind]
    | cons d' ds1 ih =>
      intro o
      have hg : Dict.get? [(d.py, some (Val.bool b : Val F))] (Decl.attr env d').py = none := by
        change Dict.get? [(d.py, some (Val.bool b : Val F))] d'.py = _
        have := hn d' (List.mem_cons_self ..)
        simp [Dict.get?, Ne.symm this]
      rw [List.cons_append, List.map_cons, List.foldlM_cons, hg]
      simp only [bind, Except.bind, pure, Except.pure]
      exact ih (fun d' h => hn d' (List.mem_cons_of_mem _ h)) _
  have h1 : Xml.initFromKwargs ((ds1 ++ d :: ds2).map (Decl.attr env)) [(d.py, some (Val.bool b))] = .error .valueError := by
    unfold Xml.initFromKwargs
    rw [← key []]
    congr 1
    funext o a
    cases Dict.get? [(d.py, some (Val.bool b))] a.py <;> rfl
  unfold Xml.new
  simp only [List.isEmpty_cons, h1]
  rfl

/-- The hypotheses of `boolean_from_python_wrong` are met. -/
example : Xml.new (modelingDecls.map (Decl.attr toyEnv)) none [("in_use", some (.bool true))] = .error .valueError :=
  boolean_from_python_wrong toyEnv [⟨"id", "id", .int⟩, ⟨"object_id", "idObject", .int⟩, ⟨"type", "type", .text⟩] []
    ⟨"in_use", "inUse", .bool⟩ rfl true (by decide)

/-- The attribute `py` of the object read from the element is the value of the attribute `xml` of the element, read as its class says, and `None`
when the element does not have it. -/
def Reads (e : Element) (x : Xml.Obj (Val F)) (py xml : String) (kind : Kind) : Prop :=
  (∀ t, e.attrib.get? xml = some t → ∃ v, decode env kind (some (.text t)) = .ok v ∧ x.get? py = some v) ∧
    (e.attrib.get? xml = none → x.get? py = some none)

/-- C165. What is read of an item of the modeling: its id, the id of its object, its type and whether it is in use, and for a point the offset
of its label. -/
theorem modeling_item_read (e : Element) (ds : List Decl) (x : Xml.Obj (Val F)) (hd : modelingAttrs e.tag = .ok ds)
    (h : Xml.initFromXml (ds.map (Decl.attr env)) e.attrib = .ok x) :
    (e.tag = some "point" ∨ e.tag = some "spline") ∧
    Reads env e x "id" "id" .int ∧ Reads env e x "object_id" "idObject" .int ∧ Reads env e x "type" "type" .text ∧
    Reads env e x "in_use" "inUse" .bool ∧
    (e.tag = some "point" → Reads env e x "mx" "mx" .float ∧ Reads env e x "my" "my" .float) := by
  unfold modelingAttrs at hd
  split at hd
  · rename_i ht
    cases hd
    have key := fun d hd => read_decl env (by decide) h d hd
    exact ⟨.inl ht, key ⟨"id", "id", .int⟩ (by decide), key ⟨"object_id", "idObject", .int⟩ (by decide), key ⟨"type", "type", .text⟩ (by decide),
      key ⟨"in_use", "inUse", .bool⟩ (by decide), fun _ => ⟨key ⟨"mx", "mx", .float⟩ (by decide), key ⟨"my", "my", .float⟩ (by decide)⟩⟩
  · rename_i ht
    cases hd
    have key := fun d hd => read_decl env (by decide) h d hd
    refine ⟨.inr ht, key ⟨"id", "id", .int⟩ (by decide), key ⟨"object_id", "idObject", .int⟩ (by decide), key ⟨"type", "type", .text⟩ (by decide),
      key ⟨"in_use", "inUse", .bool⟩ (by decide), fun hp => ?_⟩
    rw [ht] at hp
    exact absurd hp (by decide)
  · cases hd

/-- C165. What is read of a detail and of a node. -/
theorem detail_read (e : Element) (x y : Xml.Obj (Val F)) (h : Xml.initFromXml (detailDecls.map (Decl.attr env)) e.attrib = .ok x)
    (hy : Xml.initFromXml (nodeDecls.map (Decl.attr env)) e.attrib = .ok y) :
    (∀ a ∈ ["mx", "my"], Reads env e x a a .float) ∧ (∀ a ∈ ["id", "version", "width"], Reads env e x a a .int) ∧
    (∀ a ∈ ["forbidFlipping", "united", "inLayout", "seamAllowance"], Reads env e x a a .bool) ∧ Reads env e x "name" "name" .text ∧
    Reads env e y "object_id" "idObject" .int ∧ Reads env e y "type" "type" .text ∧ Reads env e y "reverse" "reverse" .bool := by
  have key := fun d hd => read_decl env (by decide) h d hd
  have key' := fun d hd => read_decl env (by decide) hy d hd
  refine ⟨?_, ?_, ?_, key ⟨"name", "name", .text⟩ (by decide), key' ⟨"object_id", "idObject", .int⟩ (by decide),
    key' ⟨"type", "type", .text⟩ (by decide), key' ⟨"reverse", "reverse", .bool⟩ (by decide)⟩
  · intro a ha
    exact key ⟨a, a, .float⟩ (by revert a; decide)
  · intro a ha
    exact key ⟨a, a, .int⟩ (by revert a; decide)
  · intro a ha
    exact key ⟨a, a, .bool⟩ (by revert a; decide)

/-- C165. What is read of the other children of a detail: grain lines, labels and data. -/
theorem detail_child_read (e : Element) (ds : List Decl) (x : Xml.Obj (Val F)) (hd : detailAttrs e.tag = .ok ds)
    (h : Xml.initFromXml (ds.map (Decl.attr env)) e.attrib = .ok x) :
    (e.tag = some "grainline" ∨ e.tag = some "patternInfo" ∨ e.tag = some "data") ∧
    Reads env e x "mx" "mx" .float ∧ Reads env e x "my" "my" .float ∧ Reads env e x "visible" "visible" .bool ∧
    Reads env e x "rotation" "rotation" .int ∧
    (e.tag = some "grainline" → Reads env e x "arrows" "arrows" .int ∧ Reads env e x "length" "length" .int) ∧
    (e.tag ≠ some "grainline" → ∀ a ∈ ["height", "width", "fontSize"], Reads env e x a a .int) ∧
    (e.tag = some "data" → Reads env e x "letter" "letter" .text) := by
  unfold detailAttrs at hd
  split at hd
  · rename_i ht
    cases hd
    have key := fun d hd => read_decl env (by decide) h d hd
    refine ⟨.inl ht, key ⟨"mx", "mx", .float⟩ (by decide), key ⟨"my", "my", .float⟩ (by decide), key ⟨"visible", "visible", .bool⟩ (by decide),
      key ⟨"rotation", "rotation", .int⟩ (by decide), fun _ => ⟨key ⟨"arrows", "arrows", .int⟩ (by decide),
      key ⟨"length", "length", .int⟩ (by decide)⟩, fun hn => absurd ht hn, fun hp => ?_⟩
    rw [ht] at hp
    exact absurd hp (by decide)
  · rename_i ht
    cases hd
    have key := fun d hd => read_decl env (by decide) h d hd
    refine ⟨.inr (.inl ht), key ⟨"mx", "mx", .float⟩ (by decide), key ⟨"my", "my", .float⟩ (by decide),
      key ⟨"visible", "visible", .bool⟩ (by decide), key ⟨"rotation", "rotation", .int⟩ (by decide), fun hp => ?_, fun _ a ha => ?_, fun hp => ?_⟩
    · rw [ht] at hp
      exact absurd hp (by decide)
    · exact key ⟨a, a, .int⟩ (by revert a; decide)
    · rw [ht] at hp
      exact absurd hp (by decide)
  · rename_i ht
    cases hd
    have key := fun d hd => read_decl env (by decide) h d hd
    refine ⟨.inr (.inr ht), key ⟨"mx", "mx", .float⟩ (by decide), key ⟨"my", "my", .float⟩ (by decide),
      key ⟨"visible", "visible", .bool⟩ (by decide), key ⟨"rotation", "rotation", .int⟩ (by decide), fun hp => ?_, fun _ a ha => ?_,
      fun _ => key ⟨"letter", "letter", .text⟩ (by decide)⟩
    · rw [ht] at hp
      exact absurd hp (by decide)
    · exact key ⟨a, a, .int⟩ (by revert a; decide)
  · cases hd

end Patro.Valentina
