import Verif.Proof.Detail
import Verif.Props.SketchGeometry
import Verif.Props.Bezier
/-! # Properties of the drawing of a sketch: C171–C173 -/

namespace Patro.Detail

open SketchGeometry (Op St evalSketch)
open SceneGeometry (IsBoxOf)
open Style (Value PathStyle SketchStyle)
open Xml (Text)

/-! ## C171 -/

/-- C171. The bounding box of an evaluated sketch is the smallest box which contains the positions of its points and the control points of its
curves; there is none for a sketch without operation. -/
theorem sketch_box {ops : List Drawn} {st : St} (hr : Refs ops) (he : Evaluated ops st) :
    (ops = [] → boundingBox ops st = .ok none) ∧
    (ops ≠ [] → ∃ b, boundingBox ops st = .ok (some b) ∧ (∀ p, Significant ops st p → b.Contains p) ∧
      ∀ b' : Box ℝ, (∀ p, Significant ops st p → b'.Contains p) →
        b'.xInf ≤ b.xInf ∧ b.xSup ≤ b'.xSup ∧ b'.yInf ≤ b.yInf ∧ b.ySup ≤ b'.ySup) := by
  constructor
  · rintro rfl; rfl
  · intro hne
    obtain ⟨b, h1, h2, h3⟩ := boundingBox_ok hr he hne
    exact ⟨b, h1, fun p hp => h2 p ((spots_iff hr he p).2 hp), fun b' hb' => h3 b' fun p hp => hb' p ((spots_iff hr he p).1 hp)⟩

/-- C171. The bounding box contains every point of the lines and of the curves of the sketch. -/
theorem sketch_box_curves {ops : List Drawn} {st : St} (hr : Refs ops) (he : Evaluated ops st) {b : Box ℝ}
    (hb : boundingBox ops st = .ok (some b)) (i : Nat) (d : Drawn) (hd : ops[i]? = some d) (t : ℝ) (h0 : 0 ≤ t) (h1 : t ≤ 1) :
    (∀ f s p q, d.op = .line f s → st.vec f = some p → st.vec s = some q →
      b.Contains ⟨(1 - t) * p.x + t * q.x, (1 - t) * p.y + t * q.y⟩) ∧
    (∀ f s a1 l1 a2 l2 p q c1 c2, d.op = .spline f s a1 l1 a2 l2 → st.vec f = some p → st.vec s = some q → st.ctrl i = some (c1, c2) →
      b.Contains ((⟨p, c1, c2, q⟩ : Bezier.Cubic ℝ).pointAt t)) := by
  have hne : ops ≠ [] := by rintro rfl; simp at hd
  obtain ⟨b', hb1, hb2, _⟩ := (sketch_box hr he).2 hne
  rw [hb] at hb1
  cases hb1
  have hsig : ∀ j ∈ d.op.refs, ∀ p, st.vec j = some p → b.Contains p := by
    intro j hj p hp
    obtain ⟨_, e, n, h1, h2⟩ := hr i d hd j hj
    exact hb2 p ⟨j, e, h1, .inl ⟨by rw [h2]; rfl, hp⟩⟩
  constructor
  · intro f s p q hop hp hq
    obtain ⟨p1, p2, p3, p4⟩ := hsig f (by simp [hop, Op.refs]) p hp
    obtain ⟨q1, q2, q3, q4⟩ := hsig s (by simp [hop, Op.refs]) q hq
    refine ⟨?_, ?_, ?_, ?_⟩ <;> simp only <;> nlinarith
  · intro f s a1 l1 a2 l2 p q c1 c2 hop hp hq hc
    have hpq := hsig f (by simp [hop, Op.refs]) p hp
    have hqq := hsig s (by simp [hop, Op.refs]) q hq
    have hc1 := hb2 c1 ⟨i, d, hd, .inr ⟨_, _, _, _, _, _, _, _, hop, hc, .inl rfl⟩⟩
    have hc2 := hb2 c2 ⟨i, d, hd, .inr ⟨_, _, _, _, _, _, _, _, hop, hc, .inr rfl⟩⟩
    have := Bezier.in_box (⟨p, c1, c2, q⟩ : Bezier.Cubic ℝ) t h0 h1 ⟨b.xInf, b.yInf⟩ ⟨b.xSup, b.ySup⟩ (by
      intro r hr
      simp only [List.mem_cons, List.not_mem_nil, or_false] at hr
      rcases hr with rfl | rfl | rfl | rfl <;> assumption)
    exact this

theorem boxLoop_fail {ops : List Drawn} {st : St} {e : PyErr} (rest : List Drawn) :
    ∀ (i m : Nat) (box : Option (Box ℝ)) (d : Drawn), rest[m]? = some d → operationBox ops st (i + m) d = .error e →
      (∀ k d', k < m → rest[k]? = some d' → ∃ b, operationBox ops st (i + k) d' = .ok b) →
      boxLoop ops st i rest box = .error e := by
  induction rest with
  | nil => intro i m box d h; simp at h
  | cons d' rest ih =>
    intro i m box d hm herr hok
    cases m with
    | zero =>
      simp only [List.getElem?_cons_zero, Option.some.injEq] at hm
      subst hm
      rw [Nat.add_zero] at herr
      simp only [boxLoop, herr, bind, Except.bind]
    | succ m =>
      obtain ⟨b, hb⟩ := hok 0 d' (Nat.succ_pos m) rfl
      rw [Nat.add_zero] at hb
      simp only [boxLoop, hb, bind, Except.bind]
      refine ih (i + 1) m _ d (by simpa using hm) (by rwa [show i + 1 + m = i + (m + 1) by omega]) ?_
      intro k d'' hk hd
      have := hok (k + 1) d'' (by omega) (by simpa using hd)
      rwa [show i + 1 + k = i + (k + 1) by omega]

/-- The first point without position makes the bounding box fail. -/
theorem boundingBox_fail {ops : List Drawn} {st : St} (hr : Refs ops)
    (hc : ∀ (i : Nat) (d : Drawn), ops[i]? = some d → (∀ j e, j < i → ops[j]? = some e → e.op.name.isSome → (st.vec j).isSome) →
      ∀ f s a1 l1 a2 l2, d.op = .spline f s a1 l1 a2 l2 → (st.ctrl i).isSome)
    (hp : ∃ i d, ops[i]? = some d ∧ d.op.name.isSome ∧ st.vec i = none) : boundingBox ops st = .error .attributeError := by
  classical
  obtain ⟨d, hd, hn, hv⟩ := Nat.find_spec hp
  have hmin : ∀ j, j < Nat.find hp → ∀ e, ops[j]? = some e → e.op.name.isSome → (st.vec j).isSome := by
    intro j hj e he hne
    by_contra hno
    exact Nat.find_min hp hj ⟨e, he, hne, by simpa using hno⟩
  refine boxLoop_fail ops 0 (Nat.find hp) none d hd ?_ ?_
  · rw [Nat.zero_add]
    unfold operationBox
    cases hop : d.op with
    | line f s => rw [hop] at hn; cases hn
    | spline f s a1 l1 a2 l2 => rw [hop] at hn; cases hn
    | _ => simp [hv]
  · intro k d' hk hd'
    rw [Nat.zero_add]
    obtain ⟨b, hb, _⟩ := operationBox_ok hr (i := k) (fun j e hj he =>
      ⟨hmin j (by omega) e he, hc j e he fun j' e' hj' he' => hmin j' (by omega) e' he'⟩) hd'
    exact ⟨b, hb⟩

/-- C171. After a successful `eval` the curves have their control points, and the points have a position but for points of contact and
intersections of lines which do not exist. If one of these is missing, asking for the bounding box raises `AttributeError`. -/
theorem sketch_box_eval {ops : List Drawn} {st0 st : St} (hr : Refs ops) (h : evalSketch st0 (ops.map (·.op)) = .ok st) :
    ((∀ (i : Nat) (d : Drawn), ops[i]? = some d → d.op.name.isSome → (st.vec i).isSome) → Evaluated ops st) ∧
    ((∃ i d, ops[i]? = some d ∧ d.op.name.isSome ∧ st.vec i = none) → boundingBox ops st = .error .attributeError) ∧
    ∀ (i : Nat) (d : Drawn), ops[i]? = some d → d.op.name.isSome → st.vec i = none →
      (∃ n a b c e, d.op = .lineIntersect n a b c e) ∨ ∃ n a b c e, d.op = .contact n a b c e := by
  have hw : SketchGeometry.WellFormed (ops.map (·.op)) := by
    intro i o ho j hj
    rw [List.getElem?_map] at ho
    obtain ⟨d, hd, rfl⟩ := Option.map_eq_some_iff.1 ho
    exact (hr i d hd j hj).1
  have hs := SketchGeometry.sketch_satisfies st0 st _ hw h
  have hs' : ∀ (i : Nat) (d : Drawn), ops[i]? = some d → SketchGeometry.Satisfies st.vec st.ctrl st.value i d.op := by
    intro i d hd
    exact hs i d.op (by rw [List.getElem?_map, hd]; rfl)
  have hctrl : ∀ (i : Nat) (d : Drawn), ops[i]? = some d → ∀ f s a1 l1 a2 l2, d.op = .spline f s a1 l1 a2 l2 → (st.ctrl i).isSome := by
    intro i d hd f s a1 l1 a2 l2 hop
    have := hs' i d hd
    rw [hop] at this
    obtain ⟨_, _, _, _, _, _, _, _, _, _, _, _, hc⟩ := this
    rw [hc]; rfl
  refine ⟨fun hv i d hd => ⟨hv i d hd, hctrl i d hd⟩, fun hp => boundingBox_fail hr (fun i d hd _ => hctrl i d hd) hp, ?_⟩
  intro i d hd hn hv
  have := hs' i d hd
  cases hop : d.op with
  | lineIntersect n a b c e => exact .inl ⟨_, _, _, _, _, rfl⟩
  | contact n a b c e => exact .inr ⟨_, _, _, _, _, rfl⟩
  | line f s => rw [hop] at hn; cases hn
  | spline f s a1 l1 a2 l2 => rw [hop] at hn; cases hn
  | _ =>
    rw [hop] at this
    simp [SketchGeometry.Satisfies, hv] at this

/-- C171. Before `eval`, asking for the bounding box of a new sketch with operations raises `AttributeError`. -/
theorem sketch_box_before {ops : List Drawn} (hr : Refs ops) (hne : ops ≠ []) :
    boundingBox ops St.empty = .error .attributeError := by
  cases hops : ops with
  | nil => exact absurd hops hne
  | cons d rest =>
    rw [← hops]
    have hd : ops[0]? = some d := by rw [hops]; rfl
    have hn : d.op.name.isSome := by
      cases hop : d.op with
      | line f s => exact absurd (hr 0 d hd f (by simp [hop, Op.refs])).1 (Nat.not_lt_zero f)
      | spline f s a1 l1 a2 l2 => exact absurd (hr 0 d hd f (by simp [hop, Op.refs])).1 (Nat.not_lt_zero f)
      | _ => rfl
    refine boundingBox_fail hr ?_ ⟨0, d, hd, hn, rfl⟩
    intro i e hi hprev f s a1 l1 a2 l2 hop
    have h0 : 0 < i := lt_of_le_of_lt (Nat.zero_le f) (hr i e hi f (by simp [hop, Op.refs])).1
    exact absurd (hprev 0 d h0 hd hn) (by simp [St.empty])

/-! ## C172 -/

theorem foldl_get? (n : String) (cs : List (String × Vec ℝ)) : ∀ d : Dict String (Vec ℝ),
    (cs.foldl (fun d c => Dict.set d c.1 c.2) d).get? n = ((cs.reverse.find? fun c => c.1 = n).map Prod.snd).or (d.get? n) := by
  induction cs with
  | nil => intro d; simp
  | cons c cs ih =>
    intro d
    rw [List.foldl_cons, ih, Dict.get?_set, List.reverse_cons, List.find?_append]
    cases hf : cs.reverse.find? fun c => c.1 = n with
    | some x => simp
    | none => by_cases hc : c.1 = n <;> simp [hc]

theorem mem_allCoords {st : St} (rest : List Drawn) : ∀ (i : Nat) (c : String × Vec ℝ), c ∈ allCoords st i rest →
    ∃ k d, rest[k]? = some d ∧ d.op.name = some c.1 ∧ c.2 = (st.vec (i + k)).getD 0 := by
  induction rest with
  | nil => intro i c h; simp [allCoords] at h
  | cons d rest ih =>
    intro i c h
    rcases List.mem_append.1 h with h | h
    · unfold coord at h
      cases hn : d.op.name with
      | none => rw [hn] at h; simp at h
      | some n =>
        rw [hn] at h
        rw [List.mem_singleton.1 h]
        exact ⟨0, d, rfl, hn, rfl⟩
    · obtain ⟨k, e, h1, h2, h3⟩ := ih (i + 1) c h
      exact ⟨k + 1, e, by simpa using h1, h2, by rw [h3, show i + 1 + k = i + (k + 1) by omega]⟩

/-- The last coordinate of a name. -/
theorem last_coord {st : St} (n : String) (rest : List Drawn) : ∀ (i k : Nat) (d : Drawn), rest[k]? = some d → d.op.name = some n →
    (∀ k' d', k < k' → rest[k']? = some d' → d'.op.name ≠ some n) →
    ((allCoords st i rest).reverse.find? fun c => c.1 = n).map Prod.snd = some ((st.vec (i + k)).getD 0) := by
  induction rest with
  | nil => intro i k d h; simp at h
  | cons e rest ih =>
    intro i k d hk hn hlast
    rw [allCoords, List.reverse_append, List.find?_append]
    cases k with
    | zero =>
      simp only [List.getElem?_cons_zero, Option.some.injEq] at hk
      subst hk
      have hnone : ((allCoords st (i + 1) rest).reverse.find? fun c => decide (c.1 = n)) = none := by
        rw [List.find?_eq_none]
        intro c hc hcn
        obtain ⟨k, d', h1, h2, _⟩ := mem_allCoords rest (i + 1) c (List.mem_reverse.1 hc)
        exact hlast (k + 1) d' (Nat.succ_pos k) (by simpa using h1) (by rw [h2, of_decide_eq_true hcn])
      rw [hnone]
      simp [coord, hn]
    | succ k =>
      have := ih (i + 1) k d (by simpa using hk) hn (fun k' d' hk' hd' => hlast (k' + 1) d' (by omega) (by simpa using hd'))
      cases hf : (allCoords st (i + 1) rest).reverse.find? fun c => decide (c.1 = n) with
      | none => rw [hf] at this; simp at this
      | some x =>
        rw [hf] at this
        simpa [show i + 1 + k = i + (k + 1) by omega] using this

/-- A position is where it should be. -/
def castNames (ops : List Drawn) (st : St) (s : Sc) : Prop :=
  s.transformation = id ∧ ∀ (j : Nat) (d : Drawn) (n : String), ops[j]? = some d → d.op.name = some n →
    s.coordinates.get? n = some ((st.vec j).getD 0)

theorem cast_name {ops : List Drawn} {st : St} {s : Sc} (h : castNames ops st s) {j : Nat} {d : Drawn} {n : String}
    (hd : ops[j]? = some d) (hn : d.op.name = some n) : s.castPosition (.name n) = .ok ((st.vec j).getD 0) := by
  simp only [Scene.Scene.castPosition, Dict.getItem, h.2 j d n hd hn, h.1]
  rfl

theorem cast_vector {ops : List Drawn} {st : St} {s : Sc} (h : castNames ops st s) (v : Vec ℝ) :
    s.castPosition (.vector v) = .ok v := by
  simp only [Scene.Scene.castPosition, h.1]
  rfl

theorem nm_eq {ops : List Drawn} {j : Nat} {d : Drawn} {n : String} (hd : ops[j]? = some d) (hn : d.op.name = some n) : nm ops j = n := by
  simp [nm, hd, hn]

/-- The items of an operation are its marks. -/
theorem raws_marks {black : Colour.Color} {style : SketchStyle} {ops : List Drawn} {st : St} {s : Sc} (hc : castNames ops st s)
    (hr : Refs ops) (hs : Styled ops) {i : Nat} {d : Drawn} (hd : ops[i]? = some d) :
    ((raws black style ops st i d).map fun m => (m.1, m.2.1.mapM s.castPosition, m.2.2)) =
      (marks black style st i d).map fun m => (m.shape, Except.ok m.points, m.operation) := by
  have hcast : ∀ j ∈ d.op.refs, s.castPosition (.name (nm ops j)) = .ok ((st.vec j).getD 0) := by
    intro j hj
    obtain ⟨_, e, n, h1, h2⟩ := hr i d hd j hj
    rw [nm_eq h1 h2]
    exact cast_name hc h1 h2
  have hself : ∀ n, d.op.name = some n → s.castPosition (.name n) = .ok ((st.vec i).getD 0) := fun n hn => cast_name hc hd hn
  have hpen := hs d (List.mem_of_getElem? hd)
  unfold raws marks
  cases hop : d.op with
  | line f g =>
    obtain ⟨pen, hp⟩ := Option.isSome_iff_exists.1 (hpen (by rw [hop]; rfl))
    rw [hop] at hcast
    simp only [hp, List.map_cons, List.map_nil, List.mapM_cons, List.mapM_nil, hcast f (by simp [Op.refs]), hcast g (by simp [Op.refs])]
    rfl
  | spline f g a1 l1 a2 l2 =>
    obtain ⟨pen, hp⟩ := Option.isSome_iff_exists.1 (hpen (by rw [hop]; rfl))
    rw [hop] at hcast
    simp only [hp, List.map_cons, List.map_nil, List.mapM_cons, List.mapM_nil, hcast f (by simp [Op.refs]), hcast g (by simp [Op.refs]),
      cast_vector hc]
    rfl
  | along n f g l =>
    obtain ⟨pen, hp⟩ := Option.isSome_iff_exists.1 (hpen (by rw [hop]; rfl))
    rw [hop] at hcast hself
    simp only [hp, Op.name, pointMarks, hop, constructionFrom, List.map_cons, List.map_append, List.map_nil, List.mapM_cons, List.mapM_nil,
      hcast f (by simp [Op.refs]), hself n rfl, cast_vector hc]
    rfl
  | endLine n f a l =>
    obtain ⟨pen, hp⟩ := Option.isSome_iff_exists.1 (hpen (by rw [hop]; rfl))
    rw [hop] at hcast hself
    simp only [hp, Op.name, pointMarks, hop, constructionFrom, List.map_cons, List.map_append, List.map_nil, List.mapM_cons, List.mapM_nil,
      hcast f (by simp [Op.refs]), hself n rfl, cast_vector hc]
    rfl
  | normal n f g a l =>
    obtain ⟨pen, hp⟩ := Option.isSome_iff_exists.1 (hpen (by rw [hop]; rfl))
    rw [hop] at hcast hself
    simp only [hp, Op.name, pointMarks, hop, constructionFrom, List.map_cons, List.map_append, List.map_nil, List.mapM_cons, List.mapM_nil,
      hcast f (by simp [Op.refs]), hself n rfl, cast_vector hc]
    rfl
  | _ =>
    rw [hop] at hself
    simp only [Op.name, pointMarks, hop, constructionFrom, List.map_cons, List.map_append, List.map_nil, List.mapM_cons, List.mapM_nil,
      hself _ rfl, cast_vector hc]
    rfl

theorem allRaws_marks {black : Colour.Color} {style : SketchStyle} {ops : List Drawn} {st : St} {s : Sc} (hc : castNames ops st s)
    (hr : Refs ops) (hs : Styled ops) (rest : List Drawn) : ∀ i, (∀ k d, rest[k]? = some d → ops[i + k]? = some d) →
    ((allRaws black style ops st i rest).map fun m => (m.1, m.2.1.mapM s.castPosition, m.2.2)) =
      (allMarks black style st i rest).map fun m => (m.shape, Except.ok m.points, m.operation) := by
  induction rest with
  | nil => intro i _; rfl
  | cons d rest ih =>
    intro i hops
    have hd := hops 0 d rfl
    rw [Nat.add_zero] at hd
    rw [allRaws, allMarks, List.map_append, List.map_append, raws_marks hc hr hs hd, ih (i + 1) ?_]
    intro k e hk
    have := hops (k + 1) e (by simpa using hk)
    rwa [show i + 1 + k = i + (k + 1) by omega]

section

variable (colors : Colour.DataBase) (floatText : Text → Except PyErr ℚ)

/-- The scene of a sketch ready to be drawn. -/
theorem detailScene_ok {black : Colour.Color} (hb : colors.getItem "black".toList = .ok black) (style : SketchStyle) {ops : List Drawn} {st : St}
    (hr : Refs ops) (he : Evaluated ops st) (hs : Styled ops) :
    ∃ scene box, detailScene colors floatText (some style) ops st = .ok (scene, box) ∧ boundingBox ops st = .ok box ∧ Tidy scene ∧
      view scene = allRaws black style ops st 0 ops ∧
      scene.coordinates = (allCoords st 0 ops).foldl (fun d c => Dict.set d c.1 c.2) [] ∧
      scene.transformation = id ∧ ∀ e ∈ scene.items, e.2.userData.isSome := by
  obtain ⟨t, h1, h2, h3, h4, h5, h6⟩ := drawLoop_ok colors floatText hb style hr he hs ops 0 { transformation := id }
    ⟨by intro k hk; simp [Dict.keys] at hk, by intro u; rfl⟩ (by intro e h; simp at h) (by intro k d hk; simpa using hk)
  have hbox : ∃ box, boundingBox ops st = .ok box := by
    by_cases hne : ops = []
    · exact ⟨none, by rw [hne]; rfl⟩
    · obtain ⟨b, hb, _⟩ := boundingBox_ok hr he hne
      exact ⟨_, hb⟩
  obtain ⟨box, hbox⟩ := hbox
  refine ⟨t, box, ?_, hbox, h2, by rw [h3]; rfl, h4, h5, h6⟩
  simp only [detailScene, hbox, h1, bind, Except.bind]
  rfl

/-- C172. `detail_scene` of an evaluated sketch whose points have distinct names and whose lines have a style draws each operation, in order:
a point as a disc at its position, a line to its label and the label, with a line from its first or base point for the points with a
construction line; a line and a curve between their points, with the control points computed. Each item carries its operation as user data,
and the scene has the bounding box of the sketch. -/
theorem detail_scene {black : Colour.Color} (hb : colors.getItem "black".toList = .ok black) (style : SketchStyle) {ops : List Drawn} {st : St}
    (hr : Refs ops) (he : Evaluated ops st) (hs : Styled ops) (hn : (names ops).Nodup) :
    ∃ scene box, detailScene colors floatText (some style) ops st = .ok (scene, box) ∧ boundingBox ops st = .ok box ∧
      (scene.items.values.map fun it => (it.shape, it.positions.mapM scene.castPosition, it.userData)) =
        (allMarks black style st 0 ops).map fun m => (m.shape, Except.ok m.points, some m.operation) := by
  obtain ⟨scene, box, h1, h2, h3, h4, h5, h6, h7⟩ := detailScene_ok colors floatText hb style hr he hs
  refine ⟨scene, box, h1, h2, ?_⟩
  have hcast : castNames ops st scene := by
    refine ⟨h6, ?_⟩
    intro j d n hd hdn
    rw [h5, foldl_get?, last_coord n ops 0 j d hd hdn ?_]
    · simp
    · intro k' d' hk' hd' hn'
      have hsplit : ops = ops.take k' ++ ops.drop k' := (List.take_append_drop k' ops).symm
      have hn2 := hn
      unfold names at hn2
      rw [hsplit, List.filterMap_append] at hn2
      have hlt : k' < ops.length := (List.getElem?_eq_some_iff.1 hd').1
      have m1 : n ∈ (ops.take k').filterMap (·.op.name) := by
        rw [List.mem_filterMap]
        exact ⟨d, List.mem_of_getElem? (by rw [List.getElem?_take_of_lt hk']; exact hd), hdn⟩
      have m2 : n ∈ (ops.drop k').filterMap (·.op.name) := by
        rw [List.mem_filterMap]
        exact ⟨d', List.mem_of_getElem? (i := 0) (by rw [List.getElem?_drop]; simpa using hd'), hn'⟩
      exact (List.disjoint_of_nodup_append hn2) m1 m2
  have hview := allRaws_marks (black := black) (style := style) hcast hr hs ops 0 (by intro k d hk; simpa using hk)
  rw [← h4, view, List.map_map] at hview
  have := congrArg (List.map fun (x : Shape × Except PyErr (List (Vec ℝ)) × Nat) => (x.1, x.2.1, some x.2.2)) hview
  rw [List.map_map, List.map_map] at this
  refine Eq.trans ?_ this
  apply List.map_congr_left
  intro it hit
  obtain ⟨e, hee, rfl⟩ := List.mem_map.1 hit
  obtain ⟨u, hu⟩ := Option.isSome_iff_exists.1 (h7 e hee)
  simp [hu]

/-- C172. The items found in the scene for an operation are those drawn for it. -/
theorem detail_user_data {black : Colour.Color} (hb : colors.getItem "black".toList = .ok black) (style : SketchStyle) {ops : List Drawn} {st : St}
    (hr : Refs ops) (he : Evaluated ops st) (hs : Styled ops) :
    ∃ scene box, detailScene colors floatText (some style) ops st = .ok (scene, box) ∧
      ∀ i id, id ∈ (scene.itemForUserData i).getD [] ↔ ∃ it, (id, it) ∈ scene.items ∧ it.userData = some i := by
  obtain ⟨scene, box, h1, h2, h3, h4, h5, h6, h7⟩ := detailScene_ok colors floatText hb style hr he hs
  refine ⟨scene, box, h1, ?_⟩
  intro i id
  rw [Scene.Scene.itemForUserData, h3.2 i]
  simp only [List.mem_map, List.mem_filter, decide_eq_true_eq]
  constructor
  · rintro ⟨⟨id', it⟩, ⟨h1, h2⟩, rfl⟩
    exact ⟨it, h1, h2⟩
  · rintro ⟨it, h1, h2⟩
    exact ⟨(id, it), ⟨h1, h2⟩, rfl⟩

/-- C172. The coordinate of a name in the scene is the position of the last point with this name. -/
theorem detail_coordinate {black : Colour.Color} (hb : colors.getItem "black".toList = .ok black) (style : SketchStyle) {ops : List Drawn} {st : St}
    (hr : Refs ops) (he : Evaluated ops st) (hs : Styled ops) :
    ∃ scene box, detailScene colors floatText (some style) ops st = .ok (scene, box) ∧
      (∀ (j : Nat) (d : Drawn) (n : String) (v : Vec ℝ), ops[j]? = some d → d.op.name = some n → st.vec j = some v →
        (∀ k e, j < k → ops[k]? = some e → e.op.name ≠ some n) →
        scene.coordinate n = .ok v ∧ scene.castPosition (.name n) = .ok v) ∧
      ∀ n, n ∉ names ops → scene.coordinate n = .error .keyError := by
  obtain ⟨scene, box, h1, h2, h3, h4, h5, h6, h7⟩ := detailScene_ok colors floatText hb style hr he hs
  refine ⟨scene, box, h1, ?_, ?_⟩
  · intro j d n v hd hn hv hlast
    have : scene.coordinates.get? n = some v := by
      rw [h5, foldl_get?, last_coord n ops 0 j d hd hn hlast]
      simp [hv]
    exact ⟨by simp [Scene.Scene.coordinate, Dict.getItem, this],
      by simp only [Scene.Scene.castPosition, Dict.getItem, this, h6]; rfl⟩
  · intro n hn
    have : scene.coordinates.get? n = none := by
      rw [h5, foldl_get?]
      have hnone : ((allCoords st 0 ops).reverse.find? fun c => decide (c.1 = n)) = none := by
        rw [List.find?_eq_none]
        intro c hc hcn
        obtain ⟨k, d, g1, g2, _⟩ := mem_allCoords ops 0 c (List.mem_reverse.1 hc)
        apply hn
        unfold names
        rw [List.mem_filterMap]
        exact ⟨d, List.mem_of_getElem? g1, by rw [g2, of_decide_eq_true hcn]⟩
      rw [hnone]
      rfl
    simp [Scene.Scene.coordinate, Dict.getItem, this]

/-! ## C173 -/

theorem mem_allRaws {black : Colour.Color} {style : SketchStyle} {ops : List Drawn} {st : St} (rest : List Drawn) :
    ∀ (i k : Nat) (d : Drawn) (m : Raw), rest[k]? = some d → m ∈ raws black style ops st (i + k) d → m ∈ allRaws black style ops st i rest := by
  induction rest with
  | nil => intro i k d m h; simp at h
  | cons e rest ih =>
    intro i k d m hk hm
    rw [allRaws, List.mem_append]
    cases k with
    | zero =>
      simp only [List.getElem?_cons_zero, Option.some.injEq] at hk
      subst hk
      exact .inl hm
    | succ k => exact .inr (ih (i + 1) k d m (by simpa using hk) (by rwa [show i + 1 + k = i + (k + 1) by omega]))

theorem mem_view {s : Sc} (hu : ∀ e ∈ s.items, e.2.userData.isSome) {m : Raw} (h : m ∈ view s) :
    ∃ it ∈ s.items.values, it.shape = m.1 ∧ it.positions = m.2.1 ∧ it.userData = some m.2.2 := by
  obtain ⟨it, hit, rfl⟩ := List.mem_map.1 h
  obtain ⟨e, he, rfl⟩ := List.mem_map.1 hit
  obtain ⟨u, hu'⟩ := Option.isSome_iff_exists.1 (hu e he)
  exact ⟨e.2, hit, rfl, rfl, by simp [hu']⟩

/-- C173 fails: when a point has the same name as a later one and another position, its disc is drawn at the position of the last point with
this name. -/
theorem detail_same_name_wrong {black : Colour.Color} (hb : colors.getItem "black".toList = .ok black) (style : SketchStyle) {ops : List Drawn}
    {st : St} (hr : Refs ops) (he : Evaluated ops st) (hs : Styled ops) (i j : Nat) (d e : Drawn) (n : String) (v w : Vec ℝ) (hij : i < j)
    (hd : ops[i]? = some d) (hj : ops[j]? = some e) (hdn : d.op.name = some n) (hen : e.op.name = some n) (hv : st.vec i = some v)
    (hw : st.vec j = some w) (hvw : v ≠ w) (hlast : ∀ k f, j < k → ops[k]? = some f → f.op.name ≠ some n) :
    ∃ scene box, detailScene colors floatText (some style) ops st = .ok (scene, box) ∧
      ∃ it ∈ scene.items.values, (∃ radius ps, it.shape = .circle radius ps) ∧ it.userData = some i ∧
        it.positions.mapM scene.castPosition = .ok [w] ∧ it.positions.mapM scene.castPosition ≠ .ok [v] := by
  obtain ⟨scene, box, h1, h2, h3, h4, h5, h6, h7⟩ := detailScene_ok colors floatText hb style hr he hs
  refine ⟨scene, box, h1, ?_⟩
  have hget : scene.coordinates.get? n = some w := by
    rw [h5, foldl_get?, last_coord n ops 0 j e hj hen hlast]
    simp [hw]
  have hm : (Shape.circle style.pointSize { lineOf (.solidLine, some black) (.num 1) with fillColor := style.pointColor },
      [Scene.Position.name n], i) ∈ allRaws black style ops st 0 ops := by
    refine mem_allRaws ops 0 i d _ hd ?_
    rw [Nat.zero_add]
    unfold raws
    cases hop : d.op with
    | line f g => rw [hop] at hdn; cases hdn
    | spline f g a1 l1 a2 l2 => rw [hop] at hdn; cases hdn
    | _ => rw [hop] at hdn; cases hdn; simp [Op.name]
  rw [← h4] at hm
  obtain ⟨it, hit, g1, g2, g3⟩ := mem_view h7 hm
  have hcast : it.positions.mapM scene.castPosition = .ok [w] := by
    rw [g2]
    simp only [List.mapM_cons, List.mapM_nil, Scene.Scene.castPosition, Dict.getItem, hget, h6]
    rfl
  refine ⟨it, hit, ⟨_, _, g1⟩, g3, hcast, ?_⟩
  rw [hcast]
  intro hc
  simp only [Except.ok.injEq, List.cons.injEq, and_true] at hc
  exact hvw hc.symm

/-- C173 fails: for a point whose label has no offset, where no line should be drawn, a line of null length is added to the scene, at the
position of the point. -/
theorem detail_label_wrong {black : Colour.Color} (hb : colors.getItem "black".toList = .ok black) (style : SketchStyle) {ops : List Drawn}
    {st : St} (hr : Refs ops) (he : Evaluated ops st) (hs : Styled ops) (i : Nat) (d : Drawn) (v : Vec ℝ)
    (hd : ops[i]? = some d) (hdn : d.op.name.isSome) (hv : st.vec i = some v) (h0 : d.labelOffset = 0) :
    ∃ scene box, detailScene colors floatText (some style) ops st = .ok (scene, box) ∧
      ∃ it ∈ scene.items.values, (∃ ps, it.shape = .segment ps) ∧ it.userData = some i ∧
        it.positions.mapM scene.castPosition = .ok [v, v] := by
  obtain ⟨scene, box, h1, h2, h3, h4, h5, h6, h7⟩ := detailScene_ok colors floatText hb style hr he hs
  refine ⟨scene, box, h1, ?_⟩
  have hl : labelPosition v d = v := by
    unfold labelPosition
    rw [h0]
    exact Vec.ext (add_zero _) (sub_zero _)
  have hm : (Shape.segment (lineOf (.solidLine, some black) style.labelLineWidth), [Scene.Position.vector v, .vector v], i) ∈
      allRaws black style ops st 0 ops := by
    refine mem_allRaws ops 0 i d _ hd ?_
    rw [Nat.zero_add]
    unfold raws
    cases hop : d.op with
    | line f g => rw [hop] at hdn; cases hdn
    | spline f g a1 l1 a2 l2 => rw [hop] at hdn; cases hdn
    | _ => simp [Op.name, hv, hl]
  rw [← h4] at hm
  obtain ⟨it, hit, g1, g2, g3⟩ := mem_view h7 hm
  refine ⟨it, hit, ⟨_, g1⟩, g3, ?_⟩
  rw [g2]
  simp only [List.mapM_cons, List.mapM_nil, Scene.Scene.castPosition, h6]
  rfl

/-- An operation without line style cannot be drawn. -/
theorem draw_fail {black : Colour.Color} (hb : colors.getItem "black".toList = .ok black) (style : SketchStyle) {ops : List Drawn} {st : St}
    (he : Evaluated ops st) {i : Nat} {d : Drawn} (hd : ops[i]? = some d) (hu : usesLine d.op = true) (hl : d.lineStyle = .none) (s : Sc) :
    draw colors floatText style ops st i d s = .error .valueError := by
  have hstyle : ∀ w, pathStyle colors floatText d w = .error .valueError := by
    intro w
    simp only [pathStyle, PathStyle.new, hl]
    rfl
  have hpoint : d.op.name.isSome → ∃ v, st.vec i = some v := fun hn => Option.isSome_iff_exists.1 ((he i d hd).1 hn)
  unfold draw
  cases hop : d.op with
  | line f g => simp only [hstyle, bind, Except.bind]
  | spline f g a1 l1 a2 l2 => simp only [hstyle, bind, Except.bind]
  | along n f g l =>
    obtain ⟨v, hv⟩ := hpoint (by rw [hop]; rfl)
    simp only [Op.name, drawPoint, hv, pointStyle_ok colors floatText hb, labelLineStyle_ok colors floatText hb, constructionLine, hop, hstyle,
      bind, Except.bind]
  | endLine n f a l =>
    obtain ⟨v, hv⟩ := hpoint (by rw [hop]; rfl)
    simp only [Op.name, drawPoint, hv, pointStyle_ok colors floatText hb, labelLineStyle_ok colors floatText hb, constructionLine, hop, hstyle,
      bind, Except.bind]
  | normal n f g a l =>
    obtain ⟨v, hv⟩ := hpoint (by rw [hop]; rfl)
    simp only [Op.name, drawPoint, hv, pointStyle_ok colors floatText hb, labelLineStyle_ok colors floatText hb, constructionLine, hop, hstyle,
      bind, Except.bind]
  | _ => rw [hop] at hu; cases hu

theorem drawLoop_fail {black : Colour.Color} (hb : colors.getItem "black".toList = .ok black) (style : SketchStyle) {ops : List Drawn} {st : St}
    (hr : Refs ops) (he : Evaluated ops st) (hs : ∀ d ∈ ops, usesLine d.op = true → (penOf d).isSome ∨ d.lineStyle = .none)
    (rest : List Drawn) : ∀ (i : Nat) (s : Sc), (∀ k d, rest[k]? = some d → ops[i + k]? = some d) →
      (∃ d ∈ rest, usesLine d.op = true ∧ d.lineStyle = .none) →
      drawLoop colors floatText style ops st i rest s = .error .valueError := by
  induction rest with
  | nil => rintro i s _ ⟨d, hd, _⟩; simp at hd
  | cons d rest ih =>
    intro i s hops hex
    have hd := hops 0 d rfl
    rw [Nat.add_zero] at hd
    by_cases hbad : usesLine d.op = true ∧ d.lineStyle = .none
    · simp only [drawLoop, draw_fail colors floatText hb style he hd hbad.1 hbad.2, bind, Except.bind]
    · have hgood : usesLine d.op = true → (penOf d).isSome := by
        intro hu
        rcases hs d (List.mem_of_getElem? hd) hu with h | h
        · exact h
        · exact absurd ⟨hu, h⟩ hbad
      simp only [drawLoop, draw_ok colors floatText hb style hr he hd hgood, bind, Except.bind]
      refine ih (i + 1) _ ?_ ?_
      · intro k e hk
        have := hops (k + 1) e (by simpa using hk)
        rwa [show i + 1 + k = i + (k + 1) by omega]
      · obtain ⟨e, he, h⟩ := hex
        rcases List.mem_cons.1 he with rfl | he
        · exact absurd h hbad
        · exact ⟨e, he, h⟩

/-- C173 fails: a point along a line, at the end of a line or on a normal, made without line style, which is the default, cannot be drawn:
`detail_scene` raises `ValueError`. -/
theorem detail_style_wrong {black : Colour.Color} (hb : colors.getItem "black".toList = .ok black) (style : Option SketchStyle)
    {ops : List Drawn} {st : St} (hr : Refs ops) (he : Evaluated ops st)
    (hs : ∀ d ∈ ops, usesLine d.op = true → (penOf d).isSome ∨ d.lineStyle = .none)
    (hbad : ∃ d ∈ ops, usesLine d.op = true ∧ d.lineStyle = .none) :
    detailScene colors floatText style ops st = .error .valueError := by
  have hbox : ∃ box, boundingBox ops st = .ok box := by
    by_cases hne : ops = []
    · exact ⟨none, by rw [hne]; rfl⟩
    · obtain ⟨b, hb, _⟩ := boundingBox_ok hr he hne
      exact ⟨_, hb⟩
  obtain ⟨box, hbox⟩ := hbox
  have hdef : ∃ sk, SketchStyle.new colors [] = .ok sk := by
    simp only [SketchStyle.new, hb]
    exact ⟨_, rfl⟩
  obtain ⟨sk, hsk⟩ := hdef
  have hl := fun sty => drawLoop_fail colors floatText hb sty hr he hs ops 0 { transformation := id } (by intro k d hk; simpa using hk) hbad
  cases style with
  | none => simp only [detailScene, hbox, hsk, hl, bind, Except.bind]
  | some sty => simp only [detailScene, hbox, hl, bind, Except.bind]

/-- C172. Without style the one of `DetailSketchStyle()` is used: discs of size 0.2, lines of width 3, construction lines of width 1.5. -/
theorem detail_default {black : Colour.Color} (hb : colors.getItem "black".toList = .ok black) (ops : List Drawn) (st : St) :
    detailScene colors floatText none ops st =
      detailScene colors floatText (some ⟨.num (1 / 5), some black, .num 16, .num 2, .num 3, .num (3 / 2)⟩) ops st := by
  have : SketchStyle.new colors [] = .ok ⟨.num (1 / 5), some black, .num 16, .num 2, .num 3, .num (3 / 2)⟩ := by
    simp only [SketchStyle.new, hb]
    rfl
  simp only [detailScene, this]

/-- C173. Nothing is drawn when the bounding box fails: `detail_scene` then raises the same exception. -/
theorem detail_box_error (style : Option SketchStyle) (ops : List Drawn) (st : St) (e : PyErr) (h : boundingBox ops st = .error e) :
    detailScene colors floatText style ops st = .error e := by
  simp only [detailScene, h, bind, Except.bind]

/-- C171. A line or a curve given another operation than a point for one of its ends has no bounding box: when the sketch starts with it or
what comes before has one, asking for the box of the sketch raises `AttributeError`. A line one end of which has no position gives
`ValueError`. -/
theorem sketch_box_ends {ops : List Drawn} {st : St} (i : Nat) (d : Drawn) (f s : Nat) (hd : ops[i]? = some d) (hl : d.op = .line f s)
    (hbefore : ∀ k d', k < i → ops[k]? = some d' → ∃ b, operationBox ops st k d' = .ok b) :
    ((∀ e, ops[f]? = some e → e.op.name = none) → boundingBox ops st = .error .attributeError) ∧
    ((∃ e n, ops[f]? = some e ∧ e.op.name = some n) → (∀ e, ops[s]? = some e → e.op.name = none) →
      boundingBox ops st = .error .attributeError) ∧
    ((∃ e n, ops[f]? = some e ∧ e.op.name = some n) → (∃ e n, ops[s]? = some e ∧ e.op.name = some n) →
      (st.vec f = none ∨ st.vec s = none) → boundingBox ops st = .error .valueError) := by
  have hno : ∀ j, (∀ e, ops[j]? = some e → e.op.name = none) → vectorOf ops st j = .error .attributeError := by
    intro j hj
    unfold vectorOf
    cases h : ops[j]? with
    | none => rfl
    | some e => rw [Option.bind_some, hj e h]
  have hyes : ∀ j, (∃ e n, ops[j]? = some e ∧ e.op.name = some n) → vectorOf ops st j = .ok (st.vec j) := by
    rintro j ⟨e, n, h, hn⟩
    unfold vectorOf
    rw [h, Option.bind_some, hn]
  have key : ∀ e, operationBox ops st i d = .error e → boundingBox ops st = .error e := by
    intro e he
    exact boxLoop_fail ops 0 i none d hd (by rwa [Nat.zero_add]) (by intro k d' hk hk'; rw [Nat.zero_add]; exact hbefore k d' hk hk')
  refine ⟨fun h => key _ ?_, fun hf h => key _ ?_, fun hf hs h => key _ ?_⟩
  · unfold operationBox; rw [hl]
    simp only [hno f h, bind, Except.bind]
  · unfold operationBox; rw [hl]
    simp only [hyes f hf, hno s h, bind, Except.bind]
  · unfold operationBox; rw [hl]
    simp only [hyes f hf, hyes s hs, bind, Except.bind]
    rcases h with h | h
    · rw [h]; rfl
    · rw [h]
      cases st.vec f <;> rfl

/-- C171. A curve whose control points were not computed has no bounding box: when what comes before has one, asking for the box of the sketch
raises `NameError`, and so does drawing the sketch. -/
theorem sketch_box_no_controls {ops : List Drawn} {st : St} (i : Nat) (d : Drawn) (hd : ops[i]? = some d)
    (hl : ∃ f s a1 l1 a2 l2, d.op = .spline f s a1 l1 a2 l2) (hc : st.ctrl i = none)
    (hbefore : ∀ k d', k < i → ops[k]? = some d' → ∃ b, operationBox ops st k d' = .ok b) (style : Option SketchStyle) :
    boundingBox ops st = .error .nameError ∧ detailScene colors floatText style ops st = .error .nameError := by
  obtain ⟨f, s, a1, l1, a2, l2, hl⟩ := hl
  have : boundingBox ops st = .error .nameError := by
    refine boxLoop_fail ops 0 i none d hd ?_ (by intro k d' hk hk'; rw [Nat.zero_add]; exact hbefore k d' hk hk')
    rw [Nat.zero_add]
    unfold operationBox
    rw [hl]
    simp only [hc]
  exact ⟨this, by simp only [detailScene, this, bind, Except.bind]⟩

/-- C172. A line drawn between another operation than a point and something raises `AttributeError`, when its style is accepted. -/
theorem detail_ends {black : Colour.Color} (hb : colors.getItem "black".toList = .ok black) (style : SketchStyle) {ops : List Drawn} {st : St}
    {i : Nat} {d : Drawn} (f s : Nat) (hl : d.op = .line f s) (hp : (penOf d).isSome)
    (h : (∀ e, ops[f]? = some e → e.op.name = none) ∨ ((∃ e n, ops[f]? = some e ∧ e.op.name = some n) ∧ ∀ e, ops[s]? = some e → e.op.name = none))
    (scene : Sc) : draw colors floatText style ops st i d scene = .error .attributeError := by
  have hno : ∀ j, (∀ e, ops[j]? = some e → e.op.name = none) → nameOf ops j = .error .attributeError := by
    intro j hj
    unfold nameOf
    cases h : ops[j]? with
    | none => rfl
    | some e => rw [Option.bind_some, hj e h]
  have hyes : ∀ j, (∃ e n, ops[j]? = some e ∧ e.op.name = some n) → ∃ n, nameOf ops j = .ok n := by
    rintro j ⟨e, n, h, hn⟩
    refine ⟨n, ?_⟩
    unfold nameOf
    rw [h, Option.bind_some, hn]
  obtain ⟨pen, hpen⟩ := Option.isSome_iff_exists.1 hp
  unfold draw
  rw [hl]
  simp only [pathStyle_ok colors floatText hb hpen, bind, Except.bind]
  rcases h with h | ⟨hf, h⟩
  · rw [hno f h]
  · obtain ⟨n, hn⟩ := hyes f hf
    rw [hn]
    simp only [hno s h]

end

/-! ## Examples -/

/-- Two points, the line and a curve between them; the second point is at the end of a line from the first one. -/
def toy (name : String) (style : Value) : List Drawn :=
  [⟨.single "A" (fun _ => .ok 0) (fun _ => .ok 0), ⟨1, 2⟩, .none, .none⟩,
   ⟨.endLine name 0 (fun _ => .ok 0) (fun _ => .ok 10), 0, style, .none⟩,
   ⟨.line 0 1, 0, .stroke .solidLine, .none⟩,
   ⟨.spline 0 1 (fun _ => .ok 90) (fun _ => .ok 5) (fun _ => .ok 90) (fun _ => .ok 5), 0, .stroke .dotLine, .none⟩]

/-- The sketch evaluated. -/
def toySt : St :=
  { vec := fun i => if i = 0 then some ⟨0, 0⟩ else if i = 1 then some ⟨10, 0⟩ else none,
    ctrl := fun i => if i = 3 then some (⟨0, 5⟩, ⟨10, 5⟩) else none,
    points := fun _ => none, value := fun _ _ => none }

theorem toy_ready (name : String) (style : Value) : Refs (toy name style) ∧ Evaluated (toy name style) toySt := by
  constructor
  · intro i d hd j hj
    rcases i with _ | _ | _ | _ | i <;> simp only [toy, List.getElem?_cons_zero, List.getElem?_cons_succ, List.getElem?_nil,
      Option.some.injEq, reduceCtorEq] at hd
    all_goals subst hd
    all_goals simp only [Op.refs, List.mem_cons, List.not_mem_nil, or_false] at hj
    · subst hj; exact ⟨by omega, _, "A", rfl, rfl⟩
    · rcases hj with rfl | rfl
      · exact ⟨by omega, _, "A", rfl, rfl⟩
      · exact ⟨by omega, _, name, rfl, rfl⟩
    · rcases hj with rfl | rfl
      · exact ⟨by omega, _, "A", rfl, rfl⟩
      · exact ⟨by omega, _, name, rfl, rfl⟩
  · intro i d hd
    rcases i with _ | _ | _ | _ | i <;> simp only [toy, List.getElem?_cons_zero, List.getElem?_cons_succ, List.getElem?_nil,
      Option.some.injEq, reduceCtorEq] at hd
    all_goals subst hd
    all_goals simp [Op.name, toySt]

theorem toy_styled (name : String) : Styled (toy name (.stroke .dashLine)) := by
  intro d hd hu
  simp only [toy, List.mem_cons, List.not_mem_nil, or_false] at hd
  rcases hd with rfl | rfl | rfl | rfl
  · cases hu
  all_goals rfl

example : Refs (toy "B" (.stroke .dashLine)) ∧ Evaluated (toy "B" (.stroke .dashLine)) toySt ∧ Styled (toy "B" (.stroke .dashLine)) ∧
    (names (toy "B" (.stroke .dashLine))).Nodup :=
  ⟨(toy_ready _ _).1, (toy_ready _ _).2, toy_styled _, by simp [names, toy, Op.name]⟩

/-- Its scene has nine items. -/
example (black : Colour.Color) (style : SketchStyle) :
    ((allMarks black style toySt 0 (toy "B" (.stroke .dashLine))).map fun m => (m.points, m.operation)) =
      [([⟨0, 0⟩], 0), ([⟨0, 0⟩, ⟨1, -2⟩], 0), ([⟨1, -2⟩], 0), ([⟨10, 0⟩], 1), ([⟨10, 0⟩, ⟨10, 0⟩], 1), ([⟨10, 0⟩], 1), ([⟨0, 0⟩, ⟨10, 0⟩], 1),
        ([⟨0, 0⟩, ⟨10, 0⟩], 2), ([⟨0, 0⟩, ⟨0, 5⟩, ⟨10, 5⟩, ⟨10, 0⟩], 3)] := by
  simp [allMarks, marks, pointMarks, toy, toySt, Op.name, penOf, constructionFrom, labelPosition]

/-- Two points of the same name. -/
example (black : Colour.Color) (floatText : Text → Except PyErr ℚ) (style : SketchStyle) :
    ∃ scene box, detailScene [("black".toList, black)] floatText (some style) (toy "A" (.stroke .dashLine)) toySt = .ok (scene, box) ∧
      ∃ it ∈ scene.items.values, (∃ radius ps, it.shape = .circle radius ps) ∧ it.userData = some 0 ∧
        it.positions.mapM scene.castPosition = .ok [⟨10, 0⟩] ∧ it.positions.mapM scene.castPosition ≠ .ok [⟨0, 0⟩] := by
  refine detail_same_name_wrong [("black".toList, black)] floatText (black := black) (by simp [Dict.getItem, Dict.get?]) style (toy_ready _ _).1
    (toy_ready _ _).2 (toy_styled _) 0 1 _ _ "A" _ _ (by omega) rfl rfl rfl rfl rfl rfl (by simp) ?_
  intro k f hk hf
  rcases k with _ | _ | _ | _ | k
  · omega
  · omega
  · simp only [toy, List.getElem?_cons_zero, List.getElem?_cons_succ, Option.some.injEq] at hf; subst hf; simp [Op.name]
  · simp only [toy, List.getElem?_cons_zero, List.getElem?_cons_succ, Option.some.injEq] at hf; subst hf; simp [Op.name]
  · simp [toy] at hf

/-- The default line style. -/
example (black : Colour.Color) (floatText : Text → Except PyErr ℚ) :
    detailScene [("black".toList, black)] floatText none (toy "B" .none) toySt = .error .valueError := by
  refine detail_style_wrong [("black".toList, black)] floatText (black := black) (by simp [Dict.getItem, Dict.get?]) none
    (toy_ready _ _).1 (toy_ready _ _).2 ?_ ⟨_, List.mem_cons_of_mem _ (List.mem_cons_self ..), rfl, rfl⟩
  intro d hd hu
  simp only [toy, List.mem_cons, List.not_mem_nil, or_false] at hd
  rcases hd with rfl | rfl | rfl | rfl
  · cases hu
  · exact .inr rfl
  · exact .inl rfl
  · exact .inl rfl

end Patro.Detail
