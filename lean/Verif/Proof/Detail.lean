import Verif.Spec.Detail
import Verif.Props.ScenePath
/-! # Lemmas on the drawing of a sketch -/

namespace Patro.Detail

open SketchGeometry (Op St)
open SceneGeometry (IsBoxOf isBoxOf_union isBoxOf_pair)
open Style (Value PathStyle SketchStyle)
open Xml (Text)

theorem isBoxOf_point (v : Vec ℝ) : IsBoxOf (Box.ofPoint v) [v] := by
  refine ⟨?_, ?_⟩
  · intro w hw
    rw [List.mem_singleton.1 hw]
    simp [Box.Contains, Box.ofPoint]
  · intro b' h
    obtain ⟨h1, h2, h3, h4⟩ := h v (by simp)
    exact ⟨h1, h2, h3, h4⟩

theorem boxOf_pair (a b : Vec ℝ) : ∃ box, boxOf [a, b] = .ok box ∧ IsBoxOf box [a, b] := by
  obtain ⟨box, h1, h2⟩ := isBoxOf_pair a b
  exact ⟨box, by simp [boxOf, h1], h2⟩

theorem boxOf_four (a b c d : Vec ℝ) : ∃ box, boxOf [a, b, c, d] = .ok box ∧ IsBoxOf box [a, b, c, d] := by
  refine ⟨(((Box.ofPoint a).union (Box.ofPoint b)).union (Box.ofPoint c)).union (Box.ofPoint d), rfl, ?_⟩
  exact isBoxOf_union _ _ [a, b, c] [d] (isBoxOf_union _ _ [a, b] [c] (isBoxOf_union _ _ [a] [b] (isBoxOf_point a) (isBoxOf_point b))
    (isBoxOf_point c)) (isBoxOf_point d)

/-- The points which the box of an operation contains. -/
def spots (st : St) (i : Nat) (d : Drawn) : List (Vec ℝ) :=
  match d.op with
  | .line f s => [(st.vec f).getD 0, (st.vec s).getD 0]
  | .spline f s .. => [(st.vec f).getD 0, ((st.ctrl i).getD (0, 0)).1, ((st.ctrl i).getD (0, 0)).2, (st.vec s).getD 0]
  | _ => [(st.vec i).getD 0]

/-- `Evaluated` for the operations up to the number `i`. -/
def EvaluatedTo (ops : List Drawn) (st : St) (i : Nat) : Prop :=
  ∀ (j : Nat) (d : Drawn), j ≤ i → ops[j]? = some d →
    (d.op.name.isSome → (st.vec j).isSome) ∧ ∀ f s a1 l1 a2 l2, d.op = .spline f s a1 l1 a2 l2 → (st.ctrl j).isSome

theorem vectorOf_ok {ops : List Drawn} {st : St} (hr : Refs ops) {i : Nat} (he : EvaluatedTo ops st i) {d : Drawn} (hd : ops[i]? = some d)
    {j : Nat} (hj : j ∈ d.op.refs) : vectorOf ops st j = .ok (some ((st.vec j).getD 0)) := by
  obtain ⟨hlt, e, n, h1, h2⟩ := hr i d hd j hj
  have h3 := (he j e hlt.le h1).1 (by rw [h2]; rfl)
  obtain ⟨v, hv⟩ := Option.isSome_iff_exists.1 h3
  simp [vectorOf, h1, h2, hv]

theorem nameOf_ok {ops : List Drawn} (hr : Refs ops) {i : Nat} {d : Drawn} (hd : ops[i]? = some d)
    {j : Nat} (hj : j ∈ d.op.refs) : ∃ e n, ops[j]? = some e ∧ e.op.name = some n ∧ nameOf ops j = .ok n := by
  obtain ⟨_, e, n, h1, h2⟩ := hr i d hd j hj
  exact ⟨e, n, h1, h2, by simp [nameOf, h1, h2]⟩

theorem operationBox_ok {ops : List Drawn} {st : St} (hr : Refs ops) {i : Nat} (he : EvaluatedTo ops st i) {d : Drawn}
    (hd : ops[i]? = some d) : ∃ b, operationBox ops st i d = .ok b ∧ IsBoxOf b (spots st i d) := by
  have hv : ∀ j ∈ d.op.refs, vectorOf ops st j = .ok (some ((st.vec j).getD 0)) := fun j hj => vectorOf_ok hr he hd hj
  obtain ⟨he1, he2⟩ := he i d le_rfl hd
  unfold operationBox spots
  cases hop : d.op with
  | line f s =>
    rw [hop] at hv
    obtain ⟨b, h1, h2⟩ := boxOf_pair ((st.vec f).getD 0) ((st.vec s).getD 0)
    refine ⟨b, ?_, h2⟩
    simp only [hv f (by simp [Op.refs]), hv s (by simp [Op.refs]), asPoint, bind, Except.bind]
    exact h1
  | spline f s a1 l1 a2 l2 =>
    rw [hop] at hv
    obtain ⟨⟨c1, c2⟩, hc⟩ := Option.isSome_iff_exists.1 (he2 _ _ _ _ _ _ hop)
    obtain ⟨b, h1, h2⟩ := boxOf_four ((st.vec f).getD 0) c1 c2 ((st.vec s).getD 0)
    refine ⟨b, ?_, by simpa [hc] using h2⟩
    simp only [hc, hv f (by simp [Op.refs]), hv s (by simp [Op.refs]), asPoint, bind, Except.bind]
    exact h1
  | _ =>
    obtain ⟨v, hv⟩ := Option.isSome_iff_exists.1 (he1 (by rw [hop]; rfl))
    exact ⟨Box.ofPoint v, by simp [hv], by simpa [hv] using isBoxOf_point v⟩

theorem boxLoop_ok {ops : List Drawn} {st : St} (hr : Refs ops) (he : Evaluated ops st) (rest : List Drawn) :
    ∀ (i : Nat) (seen : List (Vec ℝ)) (box : Box ℝ), IsBoxOf box seen → (∀ k d, rest[k]? = some d → ops[i + k]? = some d) →
      ∃ b, boxLoop ops st i rest (some box) = .ok (some b) ∧
        IsBoxOf b (seen ++ (rest.zipIdx i).flatMap fun e => spots st e.2 e.1) := by
  induction rest with
  | nil => intro i seen box hb _; exact ⟨box, rfl, by simpa using hb⟩
  | cons d rest ih =>
    intro i seen box hb hops
    have hd := hops 0 d rfl
    rw [Nat.add_zero] at hd
    obtain ⟨b, h1, h2⟩ := operationBox_ok hr (fun j e _ => he j e) hd
    obtain ⟨b', h3, h4⟩ := ih (i + 1) (seen ++ spots st i d) (box.union b) (isBoxOf_union _ _ _ _ hb h2) (by
      intro k e hk
      have := hops (k + 1) e (by simpa using hk)
      rwa [show i + 1 + k = i + (k + 1) by omega])
    refine ⟨b', ?_, ?_⟩
    · simp only [boxLoop, h1, bind, Except.bind]
      exact h3
    · simpa [List.zipIdx_cons, List.append_assoc] using h4

theorem boundingBox_ok {ops : List Drawn} {st : St} (hr : Refs ops) (he : Evaluated ops st) (hne : ops ≠ []) :
    ∃ b, boundingBox ops st = .ok (some b) ∧ IsBoxOf b (ops.zipIdx.flatMap fun e => spots st e.2 e.1) := by
  cases hops : ops with
  | nil => exact absurd hops hne
  | cons d rest =>
    rw [← hops]
    obtain ⟨b, h1, h2⟩ := operationBox_ok hr (fun j e _ => he j e) (i := 0) (d := d) (by rw [hops]; rfl)
    obtain ⟨b', h3, h4⟩ := boxLoop_ok hr he rest 1 (spots st 0 d) b h2 (by
      intro k e hk
      rw [hops, show 1 + k = k + 1 by omega]
      simpa using hk)
    refine ⟨b', ?_, ?_⟩
    · unfold boundingBox
      conv_lhs => arg 4; rw [hops]
      simp only [boxLoop, h1, bind, Except.bind]
      exact h3
    · simpa [hops, List.zipIdx_cons] using h4

theorem spots_iff {ops : List Drawn} {st : St} (hr : Refs ops) (he : Evaluated ops st) (p : Vec ℝ) :
    p ∈ (ops.zipIdx.flatMap fun e => spots st e.2 e.1) ↔ Significant ops st p := by
  have hvec : ∀ (i : Nat) (d : Drawn), ops[i]? = some d → d.op.name.isSome → Significant ops st ((st.vec i).getD 0) := by
    intro i d hd hn
    obtain ⟨v, hv⟩ := Option.isSome_iff_exists.1 ((he i d hd).1 hn)
    exact ⟨i, d, hd, .inl ⟨hn, by simp [hv]⟩⟩
  have href : ∀ (i : Nat) (d : Drawn), ops[i]? = some d → ∀ j ∈ d.op.refs, Significant ops st ((st.vec j).getD 0) := by
    intro i d hd j hj
    obtain ⟨_, e, n, h1, h2⟩ := hr i d hd j hj
    exact hvec j e h1 (by rw [h2]; rfl)
  rw [List.mem_flatMap]
  constructor
  · rintro ⟨⟨d, i⟩, hm, hp⟩
    have hd : ops[i]? = some d := by simpa [List.mem_zipIdx_iff_getElem?] using hm
    unfold spots at hp
    cases hop : d.op with
    | line f s =>
      simp only [hop, List.mem_cons, List.not_mem_nil, or_false] at hp
      rcases hp with rfl | rfl
      · exact href i d hd f (by simp [hop, Op.refs])
      · exact href i d hd s (by simp [hop, Op.refs])
    | spline f s a1 l1 a2 l2 =>
      obtain ⟨⟨c1, c2⟩, hc⟩ := Option.isSome_iff_exists.1 ((he i d hd).2 _ _ _ _ _ _ hop)
      simp only [hop, hc, Option.getD_some, List.mem_cons, List.not_mem_nil, or_false] at hp
      rcases hp with rfl | rfl | rfl | rfl
      · exact href i d hd f (by simp [hop, Op.refs])
      · exact ⟨i, d, hd, .inr ⟨_, _, _, _, _, _, _, _, hop, hc, .inl rfl⟩⟩
      · exact ⟨i, d, hd, .inr ⟨_, _, _, _, _, _, _, _, hop, hc, .inr rfl⟩⟩
      · exact href i d hd s (by simp [hop, Op.refs])
    | _ =>
      simp only [hop, List.mem_cons, List.not_mem_nil, or_false] at hp
      rw [hp]
      exact hvec i d hd (by rw [hop]; rfl)
  · rintro ⟨i, d, hd, h⟩
    refine ⟨(d, i), by simpa [List.mem_zipIdx_iff_getElem?] using hd, ?_⟩
    unfold spots
    rcases h with ⟨hn, hv⟩ | ⟨f, s, a1, l1, a2, l2, c1, c2, hop, hc, hp⟩
    · cases hop : d.op with
      | line f s => rw [hop] at hn; cases hn
      | spline f s a1 l1 a2 l2 => rw [hop] at hn; cases hn
      | _ => simp [hv]
    · rw [hop]
      rcases hp with rfl | rfl <;> simp [hc]

/-! ## Drawing -/

/-- What `detail_scene` asks for: a shape at some positions for an operation. -/
abbrev Raw := Shape × List (Scene.Position ℝ) × Nat

/-- The coordinate registered for an operation. -/
def coord (st : St) (i : Nat) (d : Drawn) : List (String × Vec ℝ) :=
  match d.op.name with
  | some n => [(n, (st.vec i).getD 0)]
  | none => []

/-- The name of the point of number `j`. -/
def nm (ops : List Drawn) (j : Nat) : String := (ops[j]?.bind (·.op.name)).getD ""

/-- The items made for an operation. -/
def raws (black : Colour.Color) (style : SketchStyle) (ops : List Drawn) (st : St) (i : Nat) (d : Drawn) : List Raw :=
  match d.op, penOf d with
  | .line f s, some pen => [(.segment (lineOf pen style.lineWidth), [.name (nm ops f), .name (nm ops s)], i)]
  | .spline f s .., some pen => [(.cubic (lineOf pen style.lineWidth),
      [.name (nm ops f), .vector ((st.ctrl i).getD (0, 0)).1, .vector ((st.ctrl i).getD (0, 0)).2, .name (nm ops s)], i)]
  | op, _ =>
    match op.name with
    | some name =>
      [(.circle style.pointSize { lineOf (.solidLine, some black) (.num 1) with fillColor := style.pointColor }, [.name name], i),
       (.segment (lineOf (.solidLine, some black) style.labelLineWidth),
         [.vector ((st.vec i).getD 0), .vector (labelPosition ((st.vec i).getD 0) d)], i),
       (.text name style.fontSize, [.vector (labelPosition ((st.vec i).getD 0) d)], i)] ++
      (match constructionFrom d.op, penOf d with
       | some f, some pen => [(.segment (lineOf pen style.constructionLineWidth), [.name (nm ops f), .name name], i)]
       | _, _ => [])
    | none => []

/-- The coordinates are registered, then the items are added. -/
noncomputable def Sc.extend (s : Sc) (cs : List (String × Vec ℝ)) (l : List Raw) : Sc :=
  l.foldl (fun s m => add s m.1 m.2.1 m.2.2) (cs.foldl (fun s c => s.addCoordinate c.1 c.2) s)

section

variable (colors : Colour.DataBase) (floatText : Text → Except PyErr ℚ)

theorem pathStyle_ok {black : Colour.Color} (hb : colors.getItem "black".toList = .ok black) {d : Drawn} {pen}
    (hp : penOf d = some pen) (w : Value) : pathStyle colors floatText d w = .ok (lineOf pen w) := by
  unfold penOf at hp
  split at hp
  · rename_i s c h1 h2
    cases hp
    simp only [pathStyle, h1, h2, PathStyle.new, hb]
    rfl
  · rename_i s h1 h2
    cases hp
    simp only [pathStyle, h1, h2, PathStyle.new, hb]
    rfl
  · cases hp

theorem pointStyle_ok {black : Colour.Color} (hb : colors.getItem "black".toList = .ok black) (style : SketchStyle) :
    style.pointStyle colors floatText =
      .ok { lineOf (.solidLine, some black) (.num 1) with fillColor := style.pointColor } := by
  simp only [SketchStyle.pointStyle, PathStyle.new, hb]
  cases style.pointColor <;> rfl

theorem labelLineStyle_ok {black : Colour.Color} (hb : colors.getItem "black".toList = .ok black) (style : SketchStyle) :
    style.labelLineStyle colors floatText = .ok (lineOf (.solidLine, some black) style.labelLineWidth) := by
  simp only [SketchStyle.labelLineStyle, PathStyle.new, hb]
  rfl

theorem drawPoint_ok {black : Colour.Color} (hb : colors.getItem "black".toList = .ok black) (style : SketchStyle) {ops : List Drawn} {st : St}
    (hr : Refs ops) (he : Evaluated ops st) {i : Nat} {d : Drawn} (hd : ops[i]? = some d)
    (hs : usesLine d.op = true → (penOf d).isSome) {name : String} (hn : d.op.name = some name) (s : Sc) :
    drawPoint colors floatText style ops st i d name s = .ok (s.extend (coord st i d) (raws black style ops st i d)) := by
  obtain ⟨v, hv⟩ := Option.isSome_iff_exists.1 ((he i d hd).1 (by rw [hn]; rfl))
  have hlp : v + (⟨d.labelOffset.x, -d.labelOffset.y⟩ : Vec ℝ) = labelPosition v d := by
    exact Vec.ext rfl (sub_eq_add_neg _ _).symm
  have hname : ∀ j ∈ d.op.refs, nameOf ops j = .ok (nm ops j) := by
    intro j hj
    obtain ⟨e, n, h1, h2, h3⟩ := nameOf_ok hr hd hj
    rw [h3]
    simp [nm, h1, h2]
  unfold drawPoint
  rw [hv]
  simp only [pointStyle_ok colors floatText hb style, labelLineStyle_ok colors floatText hb style, bind, Except.bind, hlp]
  unfold constructionLine
  cases hop : d.op with
  | line f g => rw [hop] at hn; cases hn
  | spline f g a1 l1 a2 l2 => rw [hop] at hn; cases hn
  | along n f g l =>
    obtain ⟨pen, hp⟩ := Option.isSome_iff_exists.1 (hs (by rw [hop]; rfl))
    rw [hop] at hname hn
    cases hn
    simp only [pathStyle_ok colors floatText hb hp, hname f (by simp [Op.refs]), bind, Except.bind]
    simp [raws, coord, hop, hp, constructionFrom, Sc.extend, Op.name, hv, add]
    rfl
  | endLine n f a l =>
    obtain ⟨pen, hp⟩ := Option.isSome_iff_exists.1 (hs (by rw [hop]; rfl))
    rw [hop] at hname hn
    cases hn
    simp only [pathStyle_ok colors floatText hb hp, hname f (by simp [Op.refs]), bind, Except.bind]
    simp [raws, coord, hop, hp, constructionFrom, Sc.extend, Op.name, hv, add]
    rfl
  | normal n f g a l =>
    obtain ⟨pen, hp⟩ := Option.isSome_iff_exists.1 (hs (by rw [hop]; rfl))
    rw [hop] at hname hn
    cases hn
    simp only [pathStyle_ok colors floatText hb hp, hname f (by simp [Op.refs]), bind, Except.bind]
    simp [raws, coord, hop, hp, constructionFrom, Sc.extend, Op.name, hv, add]
    rfl
  | _ =>
    rw [hop] at hn
    cases hn
    simp [raws, coord, hop, constructionFrom, Sc.extend, Op.name, hv, add]

theorem draw_ok {black : Colour.Color} (hb : colors.getItem "black".toList = .ok black) (style : SketchStyle) {ops : List Drawn} {st : St}
    (hr : Refs ops) (he : Evaluated ops st) {i : Nat} {d : Drawn} (hd : ops[i]? = some d)
    (hs : usesLine d.op = true → (penOf d).isSome) (s : Sc) :
    draw colors floatText style ops st i d s = .ok (s.extend (coord st i d) (raws black style ops st i d)) := by
  have hname : ∀ j ∈ d.op.refs, nameOf ops j = .ok (nm ops j) := by
    intro j hj
    obtain ⟨e, n, h1, h2, h3⟩ := nameOf_ok hr hd hj
    rw [h3]
    simp [nm, h1, h2]
  have hpoint := fun n hn => drawPoint_ok colors floatText hb style hr he hd hs (name := n) hn s
  unfold draw
  cases hop : d.op with
  | line f g =>
    obtain ⟨pen, hp⟩ := Option.isSome_iff_exists.1 (hs (by rw [hop]; rfl))
    rw [hop] at hname
    simp only [pathStyle_ok colors floatText hb hp, hname f (by simp [Op.refs]), hname g (by simp [Op.refs]), bind, Except.bind]
    simp [raws, coord, hop, hp, Sc.extend, Op.name]
    rfl
  | spline f g a1 l1 a2 l2 =>
    obtain ⟨pen, hp⟩ := Option.isSome_iff_exists.1 (hs (by rw [hop]; rfl))
    obtain ⟨⟨c1, c2⟩, hc⟩ := Option.isSome_iff_exists.1 ((he i d hd).2 _ _ _ _ _ _ hop)
    rw [hop] at hname
    simp only [pathStyle_ok colors floatText hb hp, hname f (by simp [Op.refs]), hname g (by simp [Op.refs]), bind, Except.bind, hc]
    simp [raws, coord, hop, hp, Sc.extend, Op.name, hc]
    rfl
  | _ =>
    simp only [Op.name]
    exact hpoint _ (by rw [hop]; rfl)

/-- The coordinates and the items of all the operations from the number `i`. -/
def allCoords (st : St) : Nat → List Drawn → List (String × Vec ℝ)
  | _, [] => []
  | i, d :: rest => coord st i d ++ allCoords st (i + 1) rest

@[inherit_doc allCoords] def allRaws (black : Colour.Color) (style : SketchStyle) (ops : List Drawn) (st : St) : Nat → List Drawn → List Raw
  | _, [] => []
  | i, d :: rest => raws black style ops st i d ++ allRaws black style ops st (i + 1) rest

/-- The identities of the items are smaller than their number, and the items found for an operation are those which have it as user data. -/
def Tidy (s : Sc) : Prop :=
  (∀ k ∈ s.items.keys, k < s.items.length) ∧
  ∀ u, (s.userDataMap.get? u).getD [] = (s.items.filter fun e => e.2.userData = some u).map Prod.fst

/-- The items as asked. -/
def view (s : Sc) : List Raw := s.items.values.map fun it => (it.shape, it.positions, it.userData.getD 0)

theorem add_spec (s : Sc) (h : Tidy s) (sh : Shape) (ps : List (Scene.Position ℝ)) (u : Nat) :
    Tidy (add s sh ps u) ∧ view (add s sh ps u) = view s ++ [(sh, ps, u)] ∧ (add s sh ps u).coordinates = s.coordinates ∧
      (add s sh ps u).transformation = s.transformation ∧
      ((∀ e ∈ s.items, e.2.userData.isSome) → ∀ e ∈ (add s sh ps u).items, e.2.userData.isSome) := by
  obtain ⟨h1, h2⟩ := h
  have hk : s.items.length ∉ s.items.keys := fun hc => absurd (h1 _ hc) (lt_irrefl _)
  have hi : (add s sh ps u).items = s.items ++ [(s.items.length, { shape := sh, positions := ps, userData := some u, z := 0 })] :=
    Dict.set_of_not_mem _ hk
  refine ⟨⟨?_, ?_⟩, ?_, rfl, rfl, ?_⟩
  · intro k hk'
    rw [hi] at hk' ⊢
    simp only [Dict.keys, List.map_append, List.mem_append, List.map_cons, List.map_nil, List.mem_singleton] at hk'
    rw [List.length_append, List.length_singleton]
    rcases hk' with hk' | rfl
    · exact Nat.lt_succ_of_lt (h1 k hk')
    · exact Nat.lt_succ_self _
  · intro w
    rw [hi, List.filter_append, List.map_append, ← h2 w]
    change ((Dict.set s.userDataMap u _).get? w).getD [] = _
    rw [Dict.get?_set]
    by_cases hu : u = w
    · subst hu; simp
    · simp [hu]
  · unfold view
    rw [hi]
    simp [Dict.values]
  · intro hall e he
    rw [hi] at he
    rcases List.mem_append.1 he with he | he
    · exact hall e he
    · rw [List.mem_singleton.1 he]; rfl

theorem addAll_spec (l : List Raw) : ∀ (s : Sc), Tidy s → (∀ e ∈ s.items, e.2.userData.isSome) →
    let t := l.foldl (fun s m => add s m.1 m.2.1 m.2.2) s
    Tidy t ∧ view t = view s ++ l ∧ t.coordinates = s.coordinates ∧ t.transformation = s.transformation ∧
      ∀ e ∈ t.items, e.2.userData.isSome := by
  induction l with
  | nil => intro s h hu; exact ⟨h, by simp, rfl, rfl, hu⟩
  | cons m l ih =>
    intro s h hu
    obtain ⟨a1, a2, a3, a4, a5⟩ := add_spec s h m.1 m.2.1 m.2.2
    obtain ⟨b1, b2, b3, b4, b5⟩ := ih _ a1 (a5 hu)
    exact ⟨b1, by rw [List.foldl_cons, b2, a2]; simp, by rw [List.foldl_cons, b3, a3], by rw [List.foldl_cons, b4, a4], b5⟩

theorem coords_spec (cs : List (String × Vec ℝ)) : ∀ (s : Sc),
    let t := cs.foldl (fun s c => s.addCoordinate c.1 c.2) s
    t.items = s.items ∧ t.userDataMap = s.userDataMap ∧ t.transformation = s.transformation ∧
      t.coordinates = cs.foldl (fun d c => Dict.set d c.1 c.2) s.coordinates := by
  induction cs with
  | nil => intro s; exact ⟨rfl, rfl, rfl, rfl⟩
  | cons c cs ih =>
    intro s
    obtain ⟨h1, h2, h3, h4⟩ := ih (s.addCoordinate c.1 c.2)
    exact ⟨h1, h2, h3, h4⟩

theorem extend_spec (s : Sc) (h : Tidy s) (hu : ∀ e ∈ s.items, e.2.userData.isSome) (cs : List (String × Vec ℝ)) (l : List Raw) :
    Tidy (s.extend cs l) ∧ view (s.extend cs l) = view s ++ l ∧
      (s.extend cs l).coordinates = cs.foldl (fun d c => Dict.set d c.1 c.2) s.coordinates ∧
      (s.extend cs l).transformation = s.transformation ∧ ∀ e ∈ (s.extend cs l).items, e.2.userData.isSome := by
  obtain ⟨c1, c2, c3, c4⟩ := coords_spec cs s
  obtain ⟨a1, a2, a3, a4, a5⟩ := addAll_spec l (cs.foldl (fun s c => s.addCoordinate c.1 c.2) s)
    (by unfold Tidy; rw [c1, c2]; exact h) (by rw [c1]; exact hu)
  refine ⟨a1, ?_, ?_, ?_, a5⟩
  · unfold Sc.extend
    rw [a2]
    unfold view
    rw [c1]
  · unfold Sc.extend
    rw [a3, c4]
  · unfold Sc.extend
    rw [a4, c3]

theorem drawLoop_ok {black : Colour.Color} (hb : colors.getItem "black".toList = .ok black) (style : SketchStyle) {ops : List Drawn} {st : St}
    (hr : Refs ops) (he : Evaluated ops st) (hs : Styled ops) (rest : List Drawn) :
    ∀ (i : Nat) (s : Sc), Tidy s → (∀ e ∈ s.items, e.2.userData.isSome) → (∀ k d, rest[k]? = some d → ops[i + k]? = some d) →
      ∃ t, drawLoop colors floatText style ops st i rest s = .ok t ∧ Tidy t ∧
        view t = view s ++ allRaws black style ops st i rest ∧
        t.coordinates = (allCoords st i rest).foldl (fun d c => Dict.set d c.1 c.2) s.coordinates ∧
        t.transformation = s.transformation ∧ ∀ e ∈ t.items, e.2.userData.isSome := by
  induction rest with
  | nil => intro i s h hu _; exact ⟨s, rfl, h, by simp [allRaws], rfl, rfl, hu⟩
  | cons d rest ih =>
    intro i s h hu hops
    have hd := hops 0 d rfl
    rw [Nat.add_zero] at hd
    have hdraw := draw_ok colors floatText hb style hr he hd (hs d (List.mem_of_getElem? hd)) s
    obtain ⟨a1, a2, a3, a4, a5⟩ := extend_spec s h hu (coord st i d) (raws black style ops st i d)
    obtain ⟨t, b1, b2, b3, b4, b5, b6⟩ := ih (i + 1) _ a1 a5 (by
      intro k e hk
      have := hops (k + 1) e (by simpa using hk)
      rwa [show i + 1 + k = i + (k + 1) by omega])
    refine ⟨t, ?_, b2, ?_, ?_, ?_, b6⟩
    · simp only [drawLoop, hdraw, bind, Except.bind]
      exact b1
    · rw [b3, a2, allRaws, List.append_assoc]
    · rw [b4, a3, allCoords, List.foldl_append]
    · rw [b5, a4]

end

end Patro.Detail
