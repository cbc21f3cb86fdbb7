import Verif.Props.ValentinaDetails
import Verif.Props.ValEval
import Verif.Spec.ValRead
/-!
# Property C234: which Valentina files are read
-/

namespace Patro.Valentina

open Xml (Text)
open ValPlaces (toOps drawing Complete Needs implemented)
open SketchGeometry (Expr St evalSketch)

variable {F : Type} {env : Env F}

theorem mapM_exists {α β : Type} (f : α → Except PyErr β) (l : List α) :
    (∃ r, l.mapM f = .ok r) ↔ ∀ a ∈ l, ∃ b, f a = .ok b := by
  constructor
  · rintro ⟨r, h⟩ a ha
    obtain ⟨b, _, hb⟩ := forall₂_mem_left (mapM_ok h) ha
    exact ⟨b, hb⟩
  · intro h
    induction l with
    | nil => exact ⟨[], rfl⟩
    | cons a l ih =>
      obtain ⟨b, hb⟩ := h a List.mem_cons_self
      obtain ⟨r, hr⟩ := ih fun c hc => h c (List.mem_cons_of_mem _ hc)
      exact ⟨b :: r, by rw [List.mapM_cons, hb, hr]; rfl⟩

theorem boolFromXml_exists (t : Text) : (∃ b, Xml.boolFromXml t = .ok b) ↔ IsBoolText t := by
  refine ⟨fun ⟨b, h⟩ => boolFromXml_ok h, fun h => ?_⟩
  unfold IsBoolText at h
  simp only [List.map_cons, List.map_nil, List.mem_cons, List.not_mem_nil, or_false] at h
  rcases h with rfl | rfl | rfl | rfl
  · exact ⟨true, rfl⟩
  · exact ⟨true, rfl⟩
  · exact ⟨false, rfl⟩
  · exact ⟨false, rfl⟩

/-- The names of the attributes of a kind. -/
def named (ds : List Decl) (k : Kind) : List String := (ds.filter fun d => decide (d.kind = k)).map Decl.xml

theorem mem_named {ds : List Decl} {k : Kind} {a : String} : a ∈ named ds k ↔ ∃ d ∈ ds, d.kind = k ∧ d.xml = a := by
  simp [named, and_assoc]

theorem init_fits {ds : List Decl} (hn : (ds.map Decl.py).Nodup) (hk : ∀ d ∈ ds, d.kind ∈ [Kind.int, .float, .text, .bool])
    (attrib : Dict String Text) :
    (∃ x, Xml.initFromXml (ds.map (Decl.attr env)) attrib = .ok x) ↔
      Fits env attrib (named ds .int) (named ds .float) (named ds .bool) := by
  have hn' : ((ds.map (Decl.attr env)).map Xml.Attr.py).Nodup := by rw [List.map_map]; exact hn
  rw [initFromXml_eq _ _ hn']
  have key : (∃ x, pairs Xml.Attr.py (Xml.readValue attrib) (ds.map (Decl.attr env)) = .ok x) ↔
      ∀ d ∈ ds, ∀ t, attrib.get? d.xml = some t → ∃ v, decode env d.kind (some (.text t)) = .ok v := by
    have h1 : (∃ x, pairs Xml.Attr.py (Xml.readValue attrib) (ds.map (Decl.attr env)) = .ok x) ↔
        ∀ d ∈ ds, ∃ v, Xml.readValue attrib (Decl.attr env d) = .ok v := by
      constructor
      · rintro ⟨x, hx⟩ d hd
        exact (pairs_ok hx).2.1 _ (List.mem_map_of_mem hd)
      · intro h
        refine pairs_exists _ _ _ fun a ha => ?_
        obtain ⟨d, hd, rfl⟩ := List.mem_map.1 ha
        exact h d hd
    rw [h1]
    refine forall₂_congr fun d hd => ?_
    unfold Xml.readValue
    change (∃ v, (match attrib.get? d.xml with
      | some t => decode env d.kind (some (.text t))
      | none => .ok none) = .ok v) ↔ _
    cases attrib.get? d.xml with
    | none => simp
    | some t => simp
  rw [key]
  unfold Fits
  constructor
  · intro h
    refine ⟨?_, ?_, ?_⟩
    · intro a ha t ht
      obtain ⟨d, hd, hkd, rfl⟩ := mem_named.1 ha
      obtain ⟨v, hv⟩ := h d hd t ht
      rw [hkd] at hv
      change (Xml.intFromText t).map (fun i => some (Val.int i)) = .ok v at hv
      cases hi : Xml.intFromText t with
      | error e => rw [hi] at hv; cases hv
      | ok i => exact ⟨i, rfl⟩
    · intro a ha t ht
      obtain ⟨d, hd, hkd, rfl⟩ := mem_named.1 ha
      obtain ⟨v, hv⟩ := h d hd t ht
      rw [hkd] at hv
      change (env.parse t).map (fun f => some (Val.flt f)) = .ok v at hv
      cases hi : env.parse t with
      | error e => rw [hi] at hv; cases hv
      | ok i => exact ⟨i, rfl⟩
    · intro a ha t ht
      obtain ⟨d, hd, hkd, rfl⟩ := mem_named.1 ha
      obtain ⟨v, hv⟩ := h d hd t ht
      rw [hkd] at hv
      change (Xml.boolFromXml t).map (fun b => some (Val.bool b)) = .ok v at hv
      cases hi : Xml.boolFromXml t with
      | error e => rw [hi] at hv; cases hv
      | ok i => exact boolFromXml_ok hi
  · rintro ⟨h1, h2, h3⟩ d hd t ht
    have := hk d hd
    simp only [List.mem_cons, List.not_mem_nil, or_false] at this
    rcases this with hkd | hkd | hkd | hkd
    · obtain ⟨i, hi⟩ := h1 d.xml (mem_named.2 ⟨d, hd, hkd, rfl⟩) t ht
      rw [hkd]
      change ∃ v, (Xml.intFromText t).map (fun i => some (Val.int i)) = .ok v
      rw [hi]
      exact ⟨_, rfl⟩
    · obtain ⟨i, hi⟩ := h2 d.xml (mem_named.2 ⟨d, hd, hkd, rfl⟩) t ht
      rw [hkd]
      change ∃ v, (env.parse t).map (fun f => some (Val.flt f)) = .ok v
      rw [hi]
      exact ⟨_, rfl⟩
    · rw [hkd]
      exact ⟨_, rfl⟩
    · obtain ⟨b, hb⟩ := (boolFromXml_exists t).2 (h3 d.xml (mem_named.2 ⟨d, hd, hkd, rfl⟩) t ht)
      rw [hkd]
      change ∃ v, (Xml.boolFromXml t).map (fun b => some (Val.bool b)) = .ok v
      rw [hb]
      exact ⟨_, rfl⟩

/-- The id in an object that was read. -/
theorem idOf_gives {ds : List Decl} {e : Element} {x : Xml.Obj (Val F)} (hn : (ds.map Decl.py).Nodup)
    (h : Xml.initFromXml (ds.map (Decl.attr env)) e.attrib = .ok x) (py xml : String) (hd : ⟨py, xml, .int⟩ ∈ ds) (k : Option Int) :
    idOf x py = k ↔ GivesId e xml k := by
  cases k with
  | some i => exact idOf_some env hn h py xml hd i
  | none =>
    obtain ⟨h1, h2⟩ := read_decl env hn h _ hd
    unfold GivesId
    constructor
    · intro hx
      cases ht : e.attrib.get? xml with
      | none => rfl
      | some t =>
        obtain ⟨v, hv, hx'⟩ := h1 t ht
        change (Xml.intFromText t).map (fun i => some (Val.int i)) = .ok v at hv
        cases hi : Xml.intFromText t with
        | error e => rw [hi] at hv; cases hv
        | ok j =>
          have := (idOf_some env hn h py xml hd j).2 ⟨t, ht, hi⟩
          rw [hx] at this
          cases this
    · intro hx
      have := h2 hx
      unfold idOf
      rw [this]

theorem modelingOne_iff (m0 : Modeling) (e : Element) :
    (∃ m, readModelingOne env m0 e = .ok m) ↔ ModelingFits env e := by
  unfold readModelingOne ModelingFits
  have hpoint := init_fits (env := env) (ds := modelingDecls ++ [⟨"mx", "mx", .float⟩, ⟨"my", "my", .float⟩]) (by decide) (by decide) e.attrib
  have hspline := init_fits (env := env) (ds := modelingDecls) (by decide) (by decide) e.attrib
  rw [show named (modelingDecls ++ [⟨"mx", "mx", .float⟩, ⟨"my", "my", .float⟩]) .int = ["id", "idObject"] from by decide,
    show named (modelingDecls ++ [⟨"mx", "mx", .float⟩, ⟨"my", "my", .float⟩]) .float = ["mx", "my"] from by decide,
    show named (modelingDecls ++ [⟨"mx", "mx", .float⟩, ⟨"my", "my", .float⟩]) .bool = ["inUse"] from by decide] at hpoint
  rw [show named modelingDecls .int = ["id", "idObject"] from by decide, show named modelingDecls .float = [] from by decide,
    show named modelingDecls .bool = ["inUse"] from by decide] at hspline
  by_cases h1 : e.tag = some "point"
  · rw [h1]
    simp only [modelingAttrs, bind, Except.bind, pure, Except.pure, true_and, ← hpoint]
    generalize Xml.initFromXml _ e.attrib = r
    cases r with
    | error err => simp
    | ok x => simp
  · by_cases h2 : e.tag = some "spline"
    · rw [h2]
      simp only [modelingAttrs, bind, Except.bind, pure, Except.pure, true_and, ← hspline]
      cases Xml.initFromXml (modelingDecls.map (Decl.attr env)) e.attrib with
      | error err => simp
      | ok x => simp
    · simp only [h1, h2, false_and, or_false, iff_false]
      rintro ⟨m, hm⟩
      unfold modelingAttrs at hm
      split at hm
      · rename_i h; exact h1 h
      · rename_i h; exact h2 h
      · cases hm

/-- What the modeling holds. -/
theorem modeling_fits (ms : List Element) (m0 : Modeling) :
    ((∃ m, ms.foldlM (readModelingOne env) m0 = .ok m) ↔ ∀ e ∈ ms, ModelingFits env e) ∧
    ∀ m, ms.foldlM (readModelingOne env) m0 = .ok m → ∀ k o, m.get? k = some o ↔
      (m0.get? k = some o ∧ ∀ e ∈ ms, ¬ GivesId e "id" k) ∨
      ∃ l1 e l2, ms = l1 ++ e :: l2 ∧ GivesId e "id" k ∧ (∀ e' ∈ l2, ¬ GivesId e' "id" k) ∧ GivesId e "idObject" o := by
  induction ms generalizing m0 with
  | nil =>
    refine ⟨by simp [pure, Except.pure], ?_⟩
    intro m hm k o
    cases hm
    simp
  | cons e es ih =>
    constructor
    · rw [List.foldlM_cons]
      simp only [bind, Except.bind, List.forall_mem_cons, ← modelingOne_iff m0 e]
      cases h1 : readModelingOne env m0 e with
      | error err => simp
      | ok m1 => simpa using (ih m1).1
    · intro m hm k o
      rw [List.foldlM_cons] at hm
      simp only [bind, Except.bind] at hm
      cases h1 : readModelingOne env m0 e with
      | error err => rw [h1] at hm; cases hm
      | ok m1 =>
        rw [h1] at hm
        rw [(ih m1).2 m hm k o]
        unfold readModelingOne at h1
        simp only [bind, Except.bind] at h1
        cases h2 : modelingAttrs e.tag with
        | error err => rw [h2] at h1; cases h1
        | ok ds =>
          rw [h2] at h1
          simp only at h1
          cases h3 : Xml.initFromXml (ds.map (Decl.attr env)) e.attrib with
          | error err => rw [h3] at h1; cases h1
          | ok x =>
            rw [h3] at h1
            simp only [pure, Except.pure, Except.ok.injEq] at h1
            obtain ⟨-, hn, hsub⟩ := modelingAttrs_ok h2
            have hid := idOf_gives hn h3 "id" "id" (hsub _ (by decide)) k
            have hobj := idOf_gives hn h3 "object_id" "idObject" (hsub _ (by decide)) o
            have hget : m1.get? k = some o ↔
                (GivesId e "id" k ∧ GivesId e "idObject" o) ∨ (¬ GivesId e "id" k ∧ m0.get? k = some o) := by
              rw [← h1, ← hid, ← hobj]
              by_cases hk : idOf x "id" = k
              · rw [hk, Dict.get?_set_self]
                simp
              · have hne : (m0.set (idOf x "id") (idOf x "object_id")).get? k = m0.get? k := by
                  rw [Dict.get?_set_ne]
                  exact fun hc => hk hc
                rw [hne]
                simp [hk]
            rw [hget]
            constructor
            · rintro (⟨⟨h4, h5⟩ | ⟨h4, h5⟩, h6⟩ | ⟨l1, e', l2, rfl, h4⟩)
              · exact .inr ⟨[], e, es, rfl, h4, h6, h5⟩
              · exact .inl ⟨h5, by simpa using ⟨h4, h6⟩⟩
              · exact .inr ⟨e :: l1, e', l2, rfl, h4⟩
            · rintro (⟨h4, h5⟩ | ⟨l1, e', l2, h4, h5, h6, h7⟩)
              · have h5 := List.forall_mem_cons.1 h5
                exact .inl ⟨.inr ⟨h5.1, h4⟩, h5.2⟩
              · cases l1 with
                | nil =>
                  cases h4
                  exact .inl ⟨.inl ⟨h5, h7⟩, h6⟩
                | cons a l1 =>
                  cases h4
                  exact .inr ⟨l1, e', l2, rfl, h5, h6, h7⟩

/-- The object id of an item that was read refers to an operation. -/
theorem resolves_iff {s : Sketch F} (hs : Inv s) {e : Element} {o : Option Int} (ho : GivesId e "idObject" o) :
    (∃ i, s.dict.getItem (intKey o) = .ok i) ↔ ∃ i, Refers s.ops (e.attrib.get? "idObject") i := by
  have key : ∀ k, (∃ i, s.dict.getItem k = .ok i) ↔ ∃ i, s.dict.get? k = some i := by
    intro k
    unfold Dict.getItem
    cases s.dict.get? k with
    | none => simp
    | some v => simp
  rw [key]
  cases o with
  | none =>
    have ho : e.attrib.get? "idObject" = none := ho
    rw [ho]
    simp only [intKey, hs.unnamed]
  | some j =>
    obtain ⟨t, ht, hj⟩ := ho
    rw [ht]
    simp only [intKey, hs.byId, Refers, hj, Except.ok.injEq]
    constructor
    · rintro ⟨i, rfl, h⟩
      exact ⟨i, rfl, h⟩
    · rintro ⟨i, rfl, h⟩
      exact ⟨j, rfl, h⟩

theorem detailAttrs_fits (e : Element) :
    (∃ ds x, detailAttrs e.tag = .ok ds ∧ Xml.initFromXml (ds.map (Decl.attr env)) e.attrib = .ok x) ↔
      (e.tag = some "grainline" ∧ Fits env e.attrib ["rotation", "arrows", "length"] ["mx", "my"] ["visible"]) ∨
      ((e.tag = some "patternInfo" ∨ e.tag = some "data") ∧
        Fits env e.attrib ["height", "width", "fontSize", "rotation"] ["mx", "my"] ["visible"]) := by
  have key : ∀ ds : List Decl, (ds.map Decl.py).Nodup → (∀ d ∈ ds, d.kind ∈ [Kind.int, .float, .text, .bool]) →
      detailAttrs e.tag = .ok ds →
      ((∃ ds x, detailAttrs e.tag = .ok ds ∧ Xml.initFromXml (ds.map (Decl.attr env)) e.attrib = .ok x) ↔
        Fits env e.attrib (named ds .int) (named ds .float) (named ds .bool)) := by
    intro ds h1 h2 h3
    rw [← init_fits h1 h2]
    constructor
    · rintro ⟨ds', x, h4, h5⟩
      rw [h3] at h4
      cases h4
      exact ⟨x, h5⟩
    · rintro ⟨x, hx⟩
      exact ⟨ds, x, h3, hx⟩
  by_cases h1 : e.tag = some "grainline"
  · rw [key [⟨"mx", "mx", .float⟩, ⟨"my", "my", .float⟩, ⟨"visible", "visible", .bool⟩, ⟨"rotation", "rotation", .int⟩,
      ⟨"arrows", "arrows", .int⟩, ⟨"length", "length", .int⟩] (by decide) (by decide) (by rw [h1]; rfl)]
    simp only [h1]
    simp [named]
  · by_cases h2 : e.tag = some "patternInfo"
    · rw [key [⟨"height", "height", .int⟩, ⟨"width", "width", .int⟩, ⟨"mx", "mx", .float⟩, ⟨"my", "my", .float⟩,
      ⟨"fontSize", "fontSize", .int⟩, ⟨"visible", "visible", .bool⟩, ⟨"rotation", "rotation", .int⟩] (by decide) (by decide) (by rw [h2]; rfl)]
      simp only [h2]
      simp [named]
    · by_cases h3 : e.tag = some "data"
      · rw [key [⟨"height", "height", .int⟩, ⟨"width", "width", .int⟩, ⟨"mx", "mx", .float⟩, ⟨"my", "my", .float⟩,
      ⟨"fontSize", "fontSize", .int⟩, ⟨"visible", "visible", .bool⟩, ⟨"rotation", "rotation", .int⟩, ⟨"letter", "letter", .text⟩] (by decide) (by decide) (by rw [h3]; rfl)]
        simp only [h3]
        simp [named]
      · simp only [h1, h2, h3, false_and, or_false, iff_false]
        rintro ⟨ds, x, h4, -⟩
        rcases detailAttrs_ok h4 with h | h | h
        · exact h1 h
        · exact h2 h
        · exact h3 h

theorem child_fits {s : Sketch F} (hs : Inv s) {ms : List Element} {m : Modeling} (hm : readModeling env ms = .ok m) (c : Child) :
    (∃ ns, readChild env c = .ok ns ∧ ∀ n ∈ ns, ∃ i, readNode s m n = .ok i) ↔ ChildFits env ms s.ops c := by
  have hnode : ∀ k, (∃ i, readNode s m k = .ok i) ↔ ∃ l1 e l2, ms = l1 ++ e :: l2 ∧ GivesId e "id" k ∧
      (∀ m' ∈ l2, ¬ GivesId m' "id" k) ∧ ∃ i, Refers s.ops (e.attrib.get? "idObject") i := by
    intro k
    have hg := (modeling_fits ms []).2 m hm k
    have hall := (modeling_fits (env := env) ms []).1.1 ⟨m, hm⟩
    unfold readNode
    simp only [bind, Except.bind]
    constructor
    · rintro ⟨i, hi⟩
      cases hk : m.get? k with
      | none => simp only [Dict.getItem, hk] at hi; cases hi
      | some o =>
        rcases (hg o).1 hk with ⟨h, -⟩ | ⟨l1, e, l2, h1, h2, h3, h4⟩
        · cases h
        · refine ⟨l1, e, l2, h1, h2, h3, (resolves_iff hs h4).1 ⟨i, ?_⟩⟩
          have : m.getItem k = .ok o := by simp only [Dict.getItem, hk]
          rw [this] at hi
          exact hi
    · rintro ⟨l1, e, l2, h1, h2, h3, h4⟩
      have hex : ∃ o, GivesId e "idObject" o := by
        cases ht : e.attrib.get? "idObject" with
        | none => exact ⟨none, ht⟩
        | some t =>
          have hi : ∃ i, Xml.intFromText t = .ok i := by
            rcases hall e (by rw [h1]; simp) with ⟨-, hf⟩ | ⟨-, hf⟩
            · exact hf.1 _ (by simp) t ht
            · exact hf.1 _ (by simp) t ht
          obtain ⟨i, hi⟩ := hi
          exact ⟨some i, t, ht, hi⟩
      obtain ⟨o, ho⟩ := hex
      have hk := (hg o).2 (.inr ⟨l1, e, l2, h1, h2, h3, ho⟩)
      have : m.getItem k = .ok o := by simp only [Dict.getItem, hk]
      rw [this]
      exact (resolves_iff hs ho).2 h4
  have hnd : (nodeDecls.map Decl.py).Nodup := by decide
  unfold readChild ChildFits
  by_cases htag : c.element.tag = some "nodes"
  · simp only [htag, if_true, true_and]
    have hf : ∀ n : Element, (∃ x, Xml.initFromXml (nodeDecls.map (Decl.attr env)) n.attrib = .ok x) ↔
        Fits env n.attrib ["idObject"] [] ["reverse"] := fun n => init_fits (env := env) hnd (by decide) n.attrib
    have hfalse : ∀ P Q : Prop, ((some "nodes" = some "grainline" ∧ P) ∨
        ((some "nodes" = some "patternInfo" ∨ some "nodes" = some "data") ∧ Q)) = False := by
      intro P Q; simp
    rw [hfalse, or_false]
    constructor
    · rintro ⟨ns, h1, h2⟩ n hn
      obtain ⟨k, hk, hread⟩ := forall₂_mem_left (mapM_ok h1) hn
      simp only [bind, Except.bind] at hread
      cases h4 : Xml.initFromXml (nodeDecls.map (Decl.attr env)) n.attrib with
      | error e => rw [h4] at hread; cases hread
      | ok y =>
        rw [h4] at hread
        simp only [pure, Except.pure, Except.ok.injEq] at hread
        refine ⟨(hf n).1 ⟨y, h4⟩, ?_⟩
        obtain ⟨l1, e, l2, g⟩ := (hnode k).1 (h2 k hk)
        exact ⟨k, l1, e, l2, (idOf_gives hnd h4 "object_id" "idObject" (by decide) k).1 hread, g⟩
    · intro h
      have hex : ∃ ns, (c.children.mapM fun e => do
          let x ← Xml.initFromXml (nodeDecls.map (Decl.attr env)) e.attrib
          return idOf x "object_id") = .ok ns := by
        rw [mapM_exists]
        intro n hn
        obtain ⟨x, hx⟩ := (hf n).2 (h n hn).1
        exact ⟨idOf x "object_id", by rw [hx]; rfl⟩
      obtain ⟨ns, hns⟩ := hex
      refine ⟨ns, hns, fun k hk => ?_⟩
      obtain ⟨n, hn, hread⟩ := forall₂_mem_left (List.Forall₂.flip (mapM_ok hns)) hk
      simp only [bind, Except.bind] at hread
      cases h4 : Xml.initFromXml (nodeDecls.map (Decl.attr env)) n.attrib with
      | error e => rw [h4] at hread; cases hread
      | ok y =>
        rw [h4] at hread
        simp only [pure, Except.pure, Except.ok.injEq] at hread
        obtain ⟨-, k', l1, e, l2, g1, g2⟩ := h n hn
        have := (idOf_gives hnd h4 "object_id" "idObject" (by decide) k').2 g1
        rw [hread] at this
        subst this
        exact (hnode k).2 ⟨l1, e, l2, g2⟩
  · rw [if_neg htag]
    simp only [htag, false_and, false_or, ← detailAttrs_fits, bind, Except.bind, pure, Except.pure]
    constructor
    · rintro ⟨ns, h1, -⟩
      cases h4 : detailAttrs c.element.tag with
      | error e => rw [h4] at h1; cases h1
      | ok ds =>
        rw [h4] at h1
        simp only at h1
        cases h5 : Xml.initFromXml (ds.map (Decl.attr env)) c.element.attrib with
        | error e => rw [h5] at h1; cases h1
        | ok x => exact ⟨ds, x, rfl, h5⟩
    · rintro ⟨ds, x, h4, h5⟩
      exact ⟨[], by rw [h4]; simp only; rw [h5], by simp⟩

/-- The modeling and the details of a piece are read exactly when they fit. -/
theorem rest_fits {s : Sketch F} (hs : Inv s) (d : Draw) : (∃ r, readRest env s d = .ok r) ↔ DetailsFit env d s.ops := by
  unfold readRest DetailsFit
  simp only [bind, Except.bind]
  cases hm : d.modeling with
  | none => simp [children]
  | some ms =>
    simp only [children]
    have hmf := (modeling_fits (env := env) ms []).1
    change (∃ m, readModeling env ms = .ok m) ↔ _ at hmf
    cases h1 : readModeling env ms with
    | error e =>
      rw [h1] at hmf
      simp only [Option.some.injEq, reduceCtorEq, exists_false, false_iff] at hmf ⊢
      rintro ⟨ms', ds, rfl, -, h, -⟩
      exact hmf h
    | ok m =>
      rw [h1] at hmf
      have hmf := hmf.1 ⟨m, rfl⟩
      cases hd : d.details with
      | none => simp
      | some ds =>
        simp only [mapM_exists]
        have hdet : ∀ dt : DetailElement, (∃ b, readDetail env s m dt = .ok b) ↔
            Fits env dt.attrib ["id", "version", "width"] ["mx", "my"] ["forbidFlipping", "united", "inLayout", "seamAllowance"] ∧
              ∀ c ∈ dt.children, ChildFits env ms s.ops c := by
          intro dt
          have hf : (∃ x, Xml.initFromXml (detailDecls.map (Decl.attr env)) dt.attrib = .ok x) ↔
              Fits env dt.attrib ["id", "version", "width"] ["mx", "my"] ["forbidFlipping", "united", "inLayout", "seamAllowance"] :=
            init_fits (env := env) (ds := detailDecls) (by decide) (by decide) dt.attrib
          rw [← hf]
          unfold readDetail
          simp only [bind, Except.bind, ← child_fits hs h1]
          cases h2 : Xml.initFromXml (detailDecls.map (Decl.attr env)) dt.attrib with
          | error e => simp
          | ok x =>
            simp only [Except.ok.injEq, exists_eq', true_and]
            cases h3 : dt.children.mapM (readChild env) with
            | error e =>
              simp only [reduceCtorEq, exists_false, false_iff]
              intro h
              obtain ⟨r, hr⟩ := (mapM_exists (readChild env) dt.children).2 fun c hc => (h c hc).imp fun _ h => h.1
              rw [h3] at hr
              cases hr
            | ok nodes =>
              simp only [mapM_exists]
              constructor
              · intro h c hc
                obtain ⟨ns, hns, hread⟩ := forall₂_mem_left (mapM_ok h3) hc
                exact ⟨ns, hread, fun n hn => h n (List.mem_flatten.2 ⟨ns, hns, hn⟩)⟩
              · intro h n hn
                obtain ⟨ns, hns, hn⟩ := List.mem_flatten.1 hn
                obtain ⟨c, hc, hread⟩ := forall₂_mem_left (List.Forall₂.flip (mapM_ok h3)) hns
                obtain ⟨ns', h4, h5⟩ := h c hc
                rw [hread] at h4
                cases h4
                exact h5 n hn
        simp only [hdet]
        constructor
        · intro h
          exact ⟨ms, ds, rfl, rfl, hmf, h⟩
        · rintro ⟨ms', ds', h4, h5, -, h6⟩
          cases h4
          cases h5
          exact h6

theorem details_agree {l l' : List (Operation F)} (h : List.Forall₂ Agree l l') (d : Draw) (hd : DetailsFit env d l) :
    DetailsFit env d l' := by
  obtain ⟨ms, ds, h1, h2, h3, h4⟩ := hd
  refine ⟨ms, ds, h1, h2, h3, fun dt hdt => ⟨(h4 dt hdt).1, fun c hc => ?_⟩⟩
  rcases (h4 dt hdt).2 c hc with ⟨h5, h6⟩ | h5
  · refine .inl ⟨h5, fun n hn => ⟨(h6 n hn).1, ?_⟩⟩
    obtain ⟨-, k, l1, m, l2, g1, g2, g3, g4, i, g5⟩ := h6 n hn
    exact ⟨k, l1, m, l2, g1, g2, g3, g4, i, agree_refers h g5⟩
  · exact .inr h5

theorem lastId_agree {l l' : List (Operation F)} (h : List.Forall₂ Agree l l') (c : Int) : lastId c l = lastId c l' := by
  unfold lastId
  induction h generalizing c with
  | nil => rfl
  | cons h1 _ ih => rw [List.foldl_cons, List.foldl_cons, h1.id]; exact ih _

/-- The pieces that are read, with the sketches that are made. -/
def PiecesRead (env : Env F) (eval : List (Operation F) → Except PyErr Unit) (counter : Int) : List Draw → Prop
  | [] => True
  | d :: ds => ∃ name es s, d.name = some name ∧ d.calculation = some es ∧ Sketch.read env { counter := counter } es = (s, .ok ()) ∧
      eval s.ops = .ok () ∧ DetailsFit env d s.ops ∧ PiecesRead env eval s.counter ds

theorem pieces_read (hp : ∀ t err, env.parse t = .error err → err = .valueError) (eval : List (Operation F) → Except PyErr Unit)
    (counter : Int) (ds : List Draw) :
    (∃ c l, readPieces env eval counter ds = (c, .ok l)) ↔ PiecesRead env eval counter ds := by
  induction ds generalizing counter with
  | nil => simp [readPieces, PiecesRead]
  | cons d ds ih =>
    have hpiece : ∀ c : Int, (∃ sc, readPiece env eval counter d = (c, .ok sc)) ↔
        ∃ name es s, d.name = some name ∧ d.calculation = some es ∧ Sketch.read env { counter := counter } es = (s, .ok ()) ∧
          eval s.ops = .ok () ∧ DetailsFit env d s.ops ∧ s.counter = c := by
      intro c
      unfold readPiece
      cases d.name with
      | none => simp
      | some name =>
        cases d.calculation with
        | none => simp
        | some es =>
          simp only
          rcases h3 : Sketch.read env { counter := counter } es with ⟨s, e | ⟨⟩⟩
          · simp [h3]
          · have hinv : Inv s := (read_ok hp es (inv_new counter) h3).choose_spec.2.2.1
            simp only
            cases h4 : eval s.ops with
            | error e => simp [h3, h4]
            | ok u =>
              have hr := rest_fits (env := env) hinv d
              cases h5 : readRest env s d with
              | error e =>
                rw [h5] at hr
                simp only [reduceCtorEq, exists_false, false_iff] at hr
                simp [h3, hr]
              | ok r =>
                have hr := hr.1 ⟨r, h5⟩
                simp [h3, h4, hr]
    have hsplit : (∃ c l, readPieces env eval counter (d :: ds) = (c, .ok l)) ↔
        ∃ c, (∃ sc, readPiece env eval counter d = (c, .ok sc)) ∧ ∃ c' l, readPieces env eval c ds = (c', .ok l) := by
      rw [readPieces]
      rcases readPiece env eval counter d with ⟨c1, e | sc⟩
      · simp
      · simp only
        rcases h2 : readPieces env eval c1 ds with ⟨c2, e | l⟩
        · simp only [Prod.mk.injEq, reduceCtorEq, and_false, exists_false, false_iff]
          rintro ⟨c, ⟨sc', rfl, -⟩, c', l, h⟩
          rw [h2] at h
          cases h
        · exact ⟨fun _ => ⟨c1, ⟨sc, rfl⟩, c2, l, h2⟩, fun _ => ⟨c2, _, rfl⟩⟩
    rw [hsplit, PiecesRead]
    constructor
    · rintro ⟨c, h1, h2⟩
      obtain ⟨name, es, s, g1, g2, g3, g4, g5, rfl⟩ := (hpiece c).1 h1
      exact ⟨name, es, s, g1, g2, g3, g4, g5, (ih _).1 h2⟩
    · rintro ⟨name, es, s, g1, g2, g3, g4, g5, g6⟩
      exact ⟨s.counter, (hpiece _).2 ⟨name, es, s, g1, g2, g3, g4, g5, rfl⟩, (ih _).2 g6⟩

theorem pieces_fit (hp : ∀ t err, env.parse t = .error err → err = .valueError) (eval : List (Operation F) → Except PyErr Unit)
    (heval : ∀ l l', List.Forall₂ Agree l l' → eval l = .ok () → eval l' = .ok ()) (counter : Int) (ds : List Draw) :
    PiecesRead env eval counter ds ↔ PiecesFit env eval counter ds := by
  induction ds generalizing counter with
  | nil => simp [PiecesRead, PiecesFit]
  | cons d ds ih =>
    rw [PiecesRead, PiecesFit]
    constructor
    · rintro ⟨name, es, s, g1, g2, g3, g4, g5, g6⟩
      obtain ⟨ops', k1, k2, -, k4⟩ := read_ok hp es (inv_new counter) g3
      have k2 : s.ops = ops' := by simpa using k2
      subst k2
      have k4 : s.counter = lastId counter s.ops := k4
      exact ⟨name, es, s.ops, g1, g2, k1, g4, g5, (ih _).1 (k4 ▸ g6)⟩
    · rintro ⟨name, es, ops, g1, g2, g3, g4, g5, g6⟩
      obtain ⟨s, ops', k1, k2, k3, k4⟩ := read_exists g3 (inv_new counter) rfl .nil
      have k2 : s.ops = ops' := by simpa using k2
      subst k2
      refine ⟨name, es, s, g1, g2, k1, heval _ _ k3 g4, details_agree k3 d g5, ?_⟩
      rw [k4]
      exact (ih _).2 g6

theorem file_read (hp : ∀ t err, env.parse t = .error err → err = .valueError) (vit : Text → Except PyErr Unit)
    (eval : List (Operation F) → Except PyErr Unit) (counter : Int) (doc : Document) :
    (∃ c p, readFile env vit eval counter doc = (c, .ok p)) ↔ HeadFits vit doc ∧ PiecesRead env eval counter doc.draws := by
  rw [← pieces_read hp eval]
  have hhead : (∃ u, readHead vit doc = .ok u) ↔ HeadFits vit doc := by
    unfold readHead HeadFits
    rcases doc.unit with _ | _ | unit
    · simp
    · simp
    · rcases doc.measurements with _ | _ | path
      · simp
      · simp
      · simp only
        cases hv : vit path with
        | error e => simp [hv]
        | ok u => simp [hv]
  rw [← hhead]
  unfold readFile
  cases readHead vit doc with
  | error e => simp
  | ok u =>
    simp only
    rcases readPieces env eval counter doc.draws with ⟨c, e | l⟩
    · simp
    · simp

/-- C234. A Valentina file is read exactly when it has a unit; its element of measurements is empty or names a file of measurements that is read;
each piece has a name and calculations that describe operations, which are evaluated; the modeling has points and splines, and the details have
nodes, grain lines, labels and data, with attributes which are integers, floats and booleans where they must be; and each node refers, through the
last item of the modeling with its id, to an operation of the piece. -/
theorem file_read_iff (hp : ∀ t err, env.parse t = .error err → err = .valueError) (vit : Text → Except PyErr Unit)
    (eval : List (Operation F) → Except PyErr Unit) (heval : ∀ l l', List.Forall₂ Agree l l' → eval l = .ok () → eval l' = .ok ())
    (counter : Int) (doc : Document) :
    (∃ c p, readFile env vit eval counter doc = (c, .ok p)) ↔ HeadFits vit doc ∧ PiecesFit env eval counter doc.draws := by
  rw [file_read hp, pieces_fit hp eval heval]

/-- A document is read, and so it fits; with a node which gives the id of the operation it is not read, and does not fit. -/
example : (HeadFits (fun _ => .ok ()) (toyDocument "2".toList) ∧ PiecesFit toyEnv (fun _ => .ok ()) 0 (toyDocument "2".toList).draws) ∧
    ¬ (HeadFits (fun _ => .ok ()) (toyDocument "1".toList) ∧ PiecesFit toyEnv (fun _ => .ok ()) 0 (toyDocument "1".toList).draws) := by
  have hp : ∀ t err, toyEnv.parse t = .error err → err = .valueError := fun _ _ h => intFromText_error h
  rw [← file_read_iff hp (fun _ => .ok ()) (fun _ => .ok ()) (fun _ _ _ _ => rfl),
    ← file_read_iff hp (fun _ => .ok ()) (fun _ => .ok ()) (fun _ _ _ _ => rfl)]
  constructor
  · refine ⟨_, _, Prod.ext rfl ?_⟩
    decide +kernel
  · rintro ⟨c, p, h⟩
    have h' : readFile toyEnv (fun _ => .ok ()) (fun _ => .ok ()) 0 (toyDocument "1".toList) = (1, .error .keyError) := by decide +kernel
    rw [h'] at h
    cases h

theorem agree_ids {ops ops' : List (Operation F)} (h : List.Forall₂ Agree ops ops') : ops'.map Operation.id = ops.map Operation.id := by
  induction h with
  | nil => rfl
  | cons h _ ih => simp only [List.map_cons, h.id, ih]

theorem agree_toOps (compile : Text → Expr) {ops ops' : List (Operation F)} (h : List.Forall₂ Agree ops ops') :
    toOps compile ops' = toOps compile ops :=
  ValPlaces.mapM_same _ _ (fun _ _ ha => ValPlaces.toOp_fields compile (agree_ids h) ha.cls fun _ _ _ hr _ => ha.rows _ hr) h

theorem agree_drawing {ops ops' : List (Operation F)} (h : List.Forall₂ Agree ops ops') (st : St) : drawing ops' st = drawing ops st := by
  unfold drawing
  congr 1 <;> funext i <;> rw [ValPlaces.number_ids _ _ (agree_ids h)]

/-- C234. A Valentina file, whose elements have the attributes that place them, is read and evaluated exactly when the conditions above hold and
each calculation has what it needs in the drawing of the calculations before it, for any `eval` which computes the operations of the file. -/
theorem file_computed_iff (hp : ∀ t err, env.parse t = .error err → err = .valueError) (compile : Text → Expr)
    (vit : Text → Except PyErr Unit) (eval : List (Operation F) → Except PyErr Unit)
    (heval : ∀ ops l, toOps compile ops = some l → (eval ops = .ok () ↔ ∃ st, evalSketch St.empty l = .ok st))
    (counter : Int) (doc : Document) (hc : ∀ d ∈ doc.draws, ∀ es, d.calculation = some es → ∀ e ∈ es, Complete e) :
    (∃ c p, readFile env vit eval counter doc = (c, .ok p)) ↔ HeadFits vit doc ∧ PiecesCompute env compile counter doc.draws := by
  rw [file_read hp]
  refine and_congr_right fun _ => ?_
  generalize doc.draws = ds at hc
  induction ds generalizing counter with
  | nil => simp [PiecesRead, PiecesCompute]
  | cons d ds ih =>
    have ih := fun counter => ih counter fun d hd => hc d (List.mem_cons_of_mem _ hd)
    rw [PiecesRead, PiecesCompute]
    constructor
    · rintro ⟨name, es, s, g1, g2, g3, g4, g5, g6⟩
      have hce := hc d List.mem_cons_self es g2
      obtain ⟨ops', k1, k2, -, k4⟩ := read_ok hp es (inv_new counter) g3
      have k2 : s.ops = ops' := by simpa using k2
      subst k2
      have k4 : s.counter = lastId counter s.ops := k4
      obtain ⟨l, hl, -, -⟩ := ValPlaces.file_well_formed compile hp counter es s g3 hce
      exact ⟨name, es, s.ops, l, g1, g2, k1, hl,
        (ValPlaces.file_evaluates_iff compile hp counter es s g3 hce l hl).1 ((heval _ _ hl).1 g4), g5, (ih _).1 (k4 ▸ g6)⟩
    · rintro ⟨name, es, ops, l, g1, g2, g3, hl, g4, g5, g6⟩
      have hce := hc d List.mem_cons_self es g2
      obtain ⟨s, ops', k1, k2, k3, k4⟩ := read_exists g3 (inv_new counter) rfl .nil
      have k2 : s.ops = ops' := by simpa using k2
      subst k2
      have hl' : toOps compile s.ops = some l := (agree_toOps compile k3).trans hl
      refine ⟨name, es, s, g1, g2, k1, (heval _ _ hl').2 ?_, details_agree k3 d g5, ?_⟩
      · refine (ValPlaces.file_evaluates_iff compile hp counter es s k1 hce l hl').2 fun before e after c h1 h2 => ?_
        obtain ⟨st, h3, h4⟩ := g4 before e after c h1 h2
        exact ⟨st, h3, by rw [agree_drawing k3]; exact h4⟩
      · rw [k4]
        exact (ih _).2 g6

open Classical in
/-- The hypotheses are met: a document with the calculations of C217, evaluated, is read, and so each calculation has what it needs. -/
example : ∃ (eval : List (Operation Int) → Except PyErr Unit) (doc : Document), doc.draws ≠ [] ∧
    (∀ ops l, toOps ValPlaces.toyCompile ops = some l → (eval ops = .ok () ↔ ∃ st, evalSketch St.empty l = .ok st)) ∧
    (∀ d ∈ doc.draws, ∀ es, d.calculation = some es → ∀ e ∈ es, Complete e) ∧
    HeadFits (fun _ => .ok ()) doc ∧ PiecesCompute toyEnv ValPlaces.toyCompile 0 doc.draws := by
  have hp : ∀ t err, toyEnv.parse t = .error err → err = .valueError := fun _ _ h => intFromText_error h
  let eval : List (Operation Int) → Except PyErr Unit := fun ops =>
    if ∃ l st, toOps ValPlaces.toyCompile ops = some l ∧ evalSketch St.empty l = .ok st then .ok () else .error .valueError
  let doc : Document := ⟨some (some "cm".toList), some none, [⟨some "front".toList, some toyElements, some [], some []⟩]⟩
  have heval : ∀ ops l, toOps ValPlaces.toyCompile ops = some l → (eval ops = .ok () ↔ ∃ st, evalSketch St.empty l = .ok st) := by
    intro ops l hl
    simp only [eval, hl]
    simp
  have hc : ∀ d ∈ doc.draws, ∀ es, d.calculation = some es → ∀ e ∈ es, Complete e := by
    intro d hd es hes
    simp only [doc, List.mem_singleton] at hd
    subst hd
    cases hes
    exact ValPlaces.toyComplete
  refine ⟨eval, doc, by simp [doc], heval, hc, (file_computed_iff hp ValPlaces.toyCompile (fun _ => .ok ()) eval heval 0 doc hc).1 ?_⟩
  obtain ⟨s, ops, st, h1, h2, h3, -, -⟩ := ValPlaces.toyPlaces
  have h4 : eval s.ops = .ok () := (heval _ _ h2).2 ⟨st, h3⟩
  refine ⟨s.counter, ⟨some "cm".toList, [⟨some "front".toList, s.ops⟩]⟩, ?_⟩
  simp only [readFile, readHead, doc, readPieces, readPiece, h1, h4]
  rfl

end Patro.Valentina
