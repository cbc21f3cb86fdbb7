import Verif.Proof.Path
/-! # C58, C59 and C107: parts of a path, relative and absolute commands, transformation and clone -/

namespace Patro.Path

open Transformation (Lin Aff TType)

variable {K : Type _} [Field K] [LinearOrder K] [IsStrictOrderedRing K]

/-- A path of lines, curves and arcs, used as an example: its points are known. -/
def sample : Path ℚ :=
  let path := (Path.new ⟨1, 1⟩).lineTo ⟨3, 0⟩ |>.2
  let path := path.verticalTo 2 (some (1 / 2)) |>.2
  let path := path.quadraticTo ⟨-1, 1⟩ ⟨-2, 0⟩ |>.2
  let path := path.cubicTo ⟨1, 3⟩ ⟨0, 3⟩ ⟨0, 2⟩ true |>.2
  let path := path.absoluteHorizontalTo (-1) |>.2
  (path.close (some (1 / 4)) (some (1 / 8))).2

theorem sample_reach : Reach sample :=
  .close _ _ _ (.absoluteHorizontal _ _ _ (.cubic _ _ _ _ _ (.quadratic _ _ _ _ (.vertical _ _ _ _ (.line _ _ _ _ (.new _))))))

/-! ## The parts chain -/

/-- C58. In every path built by the methods of the library, and transformed, the points of a part are the ones obtained by following the
parts one after the other from the start point of the path; `trace` is this specification. The parts after a stringed curve are left
out, see `stringed_wrong`. -/
theorem points_eq_trace_partial (path : Path K) (h : Reach path) (i : Nat) (hi : i < path.parts.length) (tr)
    (ht : trace path.p0 (path.parts.take (i + 1)) = some tr) : ∃ pts, tr[i]? = some pts ∧ path.points i = .ok pts :=
  points_eq path h.inv i hi tr ht

/-- C58. The first part starts at the start point of the path. -/
theorem first_start (path : Path K) (h : Reach path) (hi : 0 < path.parts.length) : path.startPoint 0 = .ok path.p0 :=
  startPoint_eq path h.inv 0 hi path.p0 rfl

/-- C58. Each part starts where the previous one stops, when no part before is a stringed curve. -/
theorem chain_partial (path : Path K) (h : Reach path) (i : Nat) (hi : i + 1 < path.parts.length)
    (hs : ∀ part ∈ path.parts.take (i + 1), part.isStringed = false) :
    ∃ p, path.stopPoint i = .ok p ∧ path.startPoint (i + 1) = .ok p := by
  have h1 := (trace_isSome path.p0 (path.parts.take (i + 1))).2 hs
  rw [← final_isSome] at h1
  obtain ⟨p, hp⟩ := Option.isSome_iff_exists.1 h1
  exact ⟨p, stopPoint_eq path h.inv i (by omega) p hp, startPoint_eq path h.inv (i + 1) hi p hp⟩

/-- C58. A closed path stops at its start point. -/
theorem closed_stop (path : Path K) (h : Reach path) (hc : path.closed = true) :
    0 < path.parts.length ∧ path.stopPoint (path.parts.length - 1) = .ok path.p0 := by
  obtain ⟨r, c, b, hl⟩ := h.inv.closed hc
  rw [List.getLast?_eq_getElem?] at hl
  refine ⟨?_, ?_⟩
  · by_contra h0
    rw [List.getElem?_eq_none (by omega)] at hl
    cases hl
  · simp [Path.stopPoint, Path.stopPointFuel, hl, Part.stopFrom]

example : (List.range 6).map sample.points =
    [.ok [⟨1, 1⟩, ⟨4, 1⟩], .ok [⟨4, 1⟩, ⟨4, 3⟩], .ok [⟨4, 3⟩, ⟨3, 4⟩, ⟨2, 3⟩], .ok [⟨2, 3⟩, ⟨1, 3⟩, ⟨0, 3⟩, ⟨0, 2⟩],
      .ok [⟨0, 2⟩, ⟨-1, 2⟩], .ok [⟨-1, 2⟩, ⟨1, 1⟩]] := by decide +kernel

example : Reach sample ∧ sample.closed = true ∧ sample.parts.length = 6 ∧ (trace sample.p0 (sample.parts.take 6)).isSome = true :=
  ⟨sample_reach, by decide +kernel, by decide +kernel, by decide +kernel⟩

omit [IsStrictOrderedRing K] in
/-- C58. A method which adds a part to an open path returns the new part, and keeps the ones before as they are. -/
theorem add_open (path : Path K) (hc : path.closed = false) (part : Part K) (hr : part.radius = none ∨ path.parts.getLast?.map Part.isLinear = some true) :
    path.addPart part = (.ok (some path.parts.length), { path with parts := path.parts ++ [part] }) := by
  unfold Path.addPart
  rw [if_neg (by simp [hc]), if_neg]
  rintro ⟨h1, h2⟩
  rcases hr with h | h
  · simp [h] at h1
  · exact h2 h

omit [IsStrictOrderedRing K] in
/-- C58. A radius after a part which is not linear, or on the first part, raises `ValueError` and leaves the path unchanged. -/
theorem add_radius_error (path : Path K) (hc : path.closed = false) (part : Part K) (h1 : part.radius ≠ none)
    (h2 : path.parts.getLast?.map Part.isLinear ≠ some true) : path.addPart part = (.error .valueError, path) := by
  unfold Path.addPart
  rw [if_neg (by simp [hc]), if_pos ⟨Option.isSome_iff_ne_none.2 h1, h2⟩]

omit [IsStrictOrderedRing K] in
/-- C58. The parts added to a closed path are ignored: the methods return `None` and the path is unchanged. -/
theorem closed_ignores (path : Path K) (hc : path.closed = true) (p p1 p2 p3 u : Vec K) (x rx ry angle : K) (radius : Option K)
    (absolute large sweep : Bool) :
    path.lineTo p radius absolute = (.ok none, path) ∧ path.horizontalTo x radius absolute = (.ok none, path) ∧
    path.verticalTo x radius absolute = (.ok none, path) ∧ path.absoluteHorizontalTo x radius = (.ok none, path) ∧
    path.absoluteVerticalTo x radius = (.ok none, path) ∧ path.directionTo u x radius = (.ok none, path) ∧
    path.quadraticTo p1 p2 absolute = (.ok none, path) ∧ path.cubicTo p1 p2 p3 absolute = (.ok none, path) ∧
    path.stringedCubicTo p1 p2 absolute = (.ok none, path) ∧ path.arcTo p rx ry angle large sweep absolute = (.ok none, path) ∧
    path.close radius = (.ok none, path) := by
  have h : ∀ part, path.addPart part = (.ok none, path) := by
    intro part
    unfold Path.addPart
    rw [if_pos hc]
  refine ⟨h _, ?_, ?_, h _, h _, h _, h _, h _, h _, h _, ?_⟩
  · unfold Path.horizontalTo; split <;> exact h _
  · unfold Path.verticalTo; split <;> exact h _
  · unfold Path.close
    rw [h]
    dsimp only
    cases path
    simp_all

/-- C58. The methods do not change the points of the parts added before. -/
theorem add_keeps (path : Path K) (h : Reach path) (part : Part K) (h' : Reach (path.addPart part).2)
    (hs : ∀ part ∈ path.parts, part.isStringed = false) (i : Nat) (hi : i < path.parts.length) :
    (path.addPart part).2.points i = path.points i := by
  have e : ∃ r, (path.addPart part).2 = { path with parts := path.parts ++ r } := by
    unfold Path.addPart
    split
    · exact ⟨[], by simp⟩
    · split
      · exact ⟨[], by simp⟩
      · exact ⟨[part], rfl⟩
  obtain ⟨r, e⟩ := e
  rw [e] at h' ⊢
  have ht := (trace_isSome path.p0 (path.parts.take (i + 1))).2 (fun q hq => hs q (List.mem_of_mem_take hq))
  obtain ⟨tr, ht⟩ := Option.isSome_iff_exists.1 ht
  obtain ⟨pts, h1, h2⟩ := points_eq path h.inv i hi tr ht
  obtain ⟨pts', h3, h4⟩ := points_eq _ h'.inv i (by simp; omega) tr
    (by dsimp only; rw [List.take_append_of_le_length (by omega)]; exact ht)
  rw [h2, h4]
  rw [h1] at h3
  rw [Option.some.inj h3]

example : ∃ path : Path ℚ, Reach path ∧ 0 < path.parts.length ∧ path.closed = false ∧ (∀ part ∈ path.parts, part.isStringed = false) ∧
    Reach (path.addPart (.line ⟨1, 1⟩ false none false false)).2 :=
  ⟨((Path.new ⟨0, 0⟩).lineTo ⟨1, 0⟩).2, .line _ _ _ _ (.new _), by decide +kernel, by decide +kernel, by decide +kernel,
    .line _ ⟨1, 1⟩ none false (.line _ _ _ _ (.new _))⟩

/-- C58 is false of the stringed curves: the part after one has no start point, `NotImplementedError` is raised. -/
theorem stringed_wrong (path : Path K) (h : Reach path) (i : Nat) (absolute : Bool) (hi : path.parts[i]? = some (.stringedCubic absolute))
    (hn : i + 1 < path.parts.length) :
    path.startPoint (i + 1) = .error .notImplementedError ∧ path.stopPoint i = .error .notImplementedError := by
  have e : path.stopPoint i = .error .notImplementedError := by
    simp [Path.stopPoint, Path.stopPointFuel, hi, Part.stopFrom]
  refine ⟨?_, e⟩
  have hb : (path.parts[i + 1]).startBulge = false := by
    by_contra hb
    have := (h.inv.bulge (i + 1) _ (List.getElem?_eq_getElem hn) (by simpa using hb)).1
    omega
  simp [Path.startPoint, Path.prevIndex, List.getElem?_eq_getElem hn, hb, e]

example : ∃ path : Path ℚ, Reach path ∧ path.parts.length = 2 ∧ path.parts[0]? = some (.stringedCubic true) :=
  ⟨(((Path.new ⟨0, 0⟩).stringedCubicTo ⟨1, 0⟩ ⟨2, 0⟩ true).2.lineTo ⟨1, 1⟩).2, .line _ _ _ _ (.stringedCubic _ _ _ _ (.new _)),
    by decide +kernel, by decide +kernel⟩

/-- C58. A stringed quadratic curve is never added: `NameError` is raised. -/
theorem stringedQuadratic_wrong (path : Path K) (p : Vec K) (absolute : Bool) :
    path.stringedQuadraticTo p absolute = (.error .nameError, path) := rfl

/-- C58 is false of every path whose start point is moved after it is closed: it still stops at the former start point, and its first part
still starts there when this corner is rounded. -/
theorem move_closed_wrong (path : Path K) (h : Reach path) (hc : path.closed = true) (point : Vec K) :
    (path.moveTo point).p0 = point ∧ (path.moveTo point).stopPoint (path.parts.length - 1) = .ok path.p0 ∧
    (∀ part, path.parts[0]? = some part → (path.moveTo point).startPoint 0 = .ok (if part.startBulge then path.p0 else point)) := by
  obtain ⟨r, c, b, hl⟩ := h.inv.closed hc
  rw [List.getLast?_eq_getElem?] at hl
  have e : (path.moveTo point).stopPoint (path.parts.length - 1) = .ok path.p0 := by
    simp [Path.moveTo, Path.stopPoint, Path.stopPointFuel, hl, Part.stopFrom]
  refine ⟨rfl, e, fun part hp => ?_⟩
  have hp' : (path.moveTo point).parts[0]? = some part := hp
  unfold Path.startPoint Path.prevIndex
  rw [hp']
  dsimp only
  cases part.startBulge with
  | true => exact e
  | false => rfl

example : Reach sample ∧ sample.closed = true ∧ sample.parts[0]?.map Part.startBulge = some true ∧
    (sample.moveTo ⟨5, 5⟩).startPoint 0 = .ok ⟨1, 1⟩ := ⟨sample_reach, by decide +kernel, by decide +kernel, by decide +kernel⟩

omit [IsStrictOrderedRing K] in
/-- C58 is false of a path closed again with a radius: nothing is added, but its first part, when it is linear, takes the radius. -/
theorem close_twice_wrong (path : Path K) (hc : path.closed = true) (part : Part K) (parts : List (Part K))
    (hp : path.parts = part :: parts) (hl : part.isLinear = true) (radius : Option K) (r : K) :
    ∃ part', part'.radius = some |r| ∧ path.close radius (some r) = (.ok none, { path with parts := part' :: parts }) := by
  obtain ⟨p0, l, c⟩ := path
  dsimp only at hc hp
  subst hc hp
  obtain ⟨part', h1, h2⟩ : ∃ part', part.close r = .ok part' ∧ part'.radius = some |r| := by
    cases part <;> simp [Part.isLinear] at hl <;> exact ⟨_, rfl, rfl⟩
  exact ⟨part', h2, by simp [Path.close, Path.addPart, Path.closeStart, h1]⟩

example : Reach sample ∧ sample.closed = true ∧ sample.parts.head?.map Part.isLinear = some true ∧
    sample.parts.head?.bind Part.radius ≠ some |3| := ⟨sample_reach, by decide +kernel, by decide +kernel, by decide +kernel⟩

omit [IsStrictOrderedRing K] in
/-- C58 is false of every path which begins with a curve and is closed with a radius: `AttributeError` is raised, with the closing segment
added and the path still open, so that parts can be added after it. -/
theorem close_torn_wrong (path : Path K) (hc : path.closed = false) (part : Part K) (parts : List (Part K))
    (hp : path.parts = part :: parts) (hl : part.isLinear = false) (r : K) :
    (path.close none (some r)).1 = .error .attributeError ∧ (path.close none (some r)).2.closed = false ∧
    (path.close none (some r)).2.parts = path.parts ++ [.line path.p0 true none true false] := by
  obtain ⟨p0, l, c⟩ := path
  dsimp only at hc hp
  subst hc hp
  cases part <;> simp [Part.isLinear] at hl <;>
    simp [Path.close, Path.addPart, Path.closeStart, Part.close, setRadius, Part.radius]

example : ∃ path : Path ℚ, Reach path ∧ path.closed = false ∧ path.parts.map Part.isLinear = [false] :=
  ⟨((Path.new ⟨0, 0⟩).quadraticTo ⟨1, 0⟩ ⟨2, 1⟩).2, .quadratic _ _ _ _ (.new _), by decide +kernel, by decide +kernel⟩

/-! ## Relative and absolute commands -/

/-- C59. A command is relative unless told otherwise. A relative command and the absolute command to the same points, from the current point `s`, build paths with the same trace,
whatever is added after. -/
theorem relative_absolute (path : Path K) (s v v1 v2 : Vec K) (radius : Option K) (rx ry angle : K) (large sweep : Bool)
    (rest : List (Part K)) (hs : final path.p0 path.parts = some s) :
    trace path.p0 ((path.lineTo v radius).2.parts ++ rest) = trace path.p0 ((path.lineTo (s + v) radius true).2.parts ++ rest) ∧
    trace path.p0 ((path.quadraticTo v v1).2.parts ++ rest) = trace path.p0 ((path.quadraticTo (s + v) (s + v1) true).2.parts ++ rest) ∧
    trace path.p0 ((path.cubicTo v v1 v2).2.parts ++ rest) =
      trace path.p0 ((path.cubicTo (s + v) (s + v1) (s + v2) true).2.parts ++ rest) ∧
    trace path.p0 ((path.arcTo v rx ry angle large sweep).2.parts ++ rest) =
      trace path.p0 ((path.arcTo (s + v) rx ry angle large sweep true).2.parts ++ rest) := by
  have key : ∀ part part' : Part K, part.radius = part'.radius → draw s part = draw s part' →
      trace path.p0 ((path.addPart part).2.parts ++ rest) = trace path.p0 ((path.addPart part').2.parts ++ rest) := by
    intro part part' hr hd
    unfold Path.addPart
    rw [hr]
    split
    · rfl
    · split
      · rfl
      · dsimp only
        rw [List.append_assoc, List.append_assoc]
        apply trace_replace
        intro s' hs'
        rw [hs] at hs'
        cases hs'
        exact hd
  refine ⟨key _ _ rfl ?_, key _ _ rfl ?_, key _ _ rfl ?_, key _ _ rfl ?_⟩ <;> simp [draw]

/-- C59. The commands by direction, and the ones which give one absolute coordinate, are the lines from the current point `s` to the point
they mean, whatever is added after. -/
theorem direction_line (path : Path K) (s u : Vec K) (x : K) (radius : Option K) (rest : List (Part K)) (hs : final path.p0 path.parts = some s) :
    trace path.p0 ((path.horizontalTo x radius false).2.parts ++ rest) = trace path.p0 ((path.lineTo ⟨s.x + x, s.y⟩ radius true).2.parts ++ rest) ∧
    trace path.p0 ((path.verticalTo x radius false).2.parts ++ rest) = trace path.p0 ((path.lineTo ⟨s.x, s.y + x⟩ radius true).2.parts ++ rest) ∧
    trace path.p0 ((path.directionTo u x radius).2.parts ++ rest) = trace path.p0 ((path.lineTo (s + u.smul x) radius true).2.parts ++ rest) ∧
    trace path.p0 ((path.absoluteHorizontalTo x radius).2.parts ++ rest) = trace path.p0 ((path.lineTo ⟨x, s.y⟩ radius true).2.parts ++ rest) ∧
    trace path.p0 ((path.absoluteVerticalTo x radius).2.parts ++ rest) = trace path.p0 ((path.lineTo ⟨s.x, x⟩ radius true).2.parts ++ rest) := by
  have key : ∀ part part' : Part K, part.radius = part'.radius → draw s part = draw s part' →
      trace path.p0 ((path.addPart part).2.parts ++ rest) = trace path.p0 ((path.addPart part').2.parts ++ rest) := by
    intro part part' hr hd
    unfold Path.addPart
    rw [hr]
    split
    · rfl
    · split
      · rfl
      · dsimp only
        rw [List.append_assoc, List.append_assoc]
        apply trace_replace
        intro s' hs'
        rw [hs] at hs'
        cases hs'
        exact hd
  refine ⟨key _ _ rfl ?_, key _ _ rfl ?_, key _ _ rfl ?_, key _ _ rfl ?_, key _ _ rfl ?_⟩
  · simp only [draw, if_true]; congr 2; ext <;> simp
  · simp only [draw, if_true]; congr 2; ext <;> simp
  · simp [draw]
  · simp [draw]
  · simp [draw]

example : final (⟨1, 1⟩ : Vec ℚ) ((Path.new ⟨1, 1⟩).lineTo ⟨3, 0⟩).2.parts = some ⟨4, 1⟩ := by decide +kernel

omit [IsStrictOrderedRing K] in
/-- C59 is false of `horizontal_to` and `vertical_to` with an absolute position: the other coordinate becomes zero, whatever the current
point. -/
theorem horizontal_absolute_wrong (path : Path K) (hc : path.closed = false) (x : K) :
    (path.horizontalTo x none true).2.stopPoint path.parts.length = .ok ⟨x, 0⟩ ∧
    (path.verticalTo x none true).2.stopPoint path.parts.length = .ok ⟨0, x⟩ := by
  constructor <;>
    simp [Path.horizontalTo, Path.verticalTo, Path.addPart, hc, setRadius, Part.radius, Path.stopPoint, Path.stopPointFuel, Part.stopFrom]

example : ∃ path : Path ℚ, Reach path ∧ path.closed = false ∧ final path.p0 path.parts = some ⟨4, 1⟩ ∧
    (path.horizontalTo 6 none true).2.stopPoint 1 = .ok ⟨6, 0⟩ ∧ (path.verticalTo 6 none true).2.stopPoint 1 = .ok ⟨0, 6⟩ :=
  ⟨((Path.new ⟨1, 1⟩).lineTo ⟨3, 0⟩).2, .line _ _ _ _ (.new _), by decide +kernel, by decide +kernel, by decide +kernel, by decide +kernel⟩

/-! ## Transformation -/

theorem scalarMul_sound (type : Option TType) (m r r' : K) (h : Transformation.scalarMul type m r = .ok r') (hr : 0 ≤ r) : 0 ≤ r' := by
  unfold Transformation.scalarMul at h
  split at h
  · cases h; exact hr
  · split at h
    · cases h; exact mul_nonneg (abs_nonneg _) hr
    · cases h

/-- The transformations of the library are among the ones of the histories. -/
theorem ofLin_sound (t : Lin K) : (ofLin t).Sound := fun r r' h hr => scalarMul_sound _ _ r r' h hr

theorem ofAff_sound (t : Aff K) : (ofAff t).Sound := fun r r' h hr => scalarMul_sound _ _ r r' h hr

/-- C59. The radii of the rounded corners are multiplied by the absolute value of a scale, and kept by the reflections about the axes; two other scales
which differ raise `ValueError`. -/
theorem corner_radius (s x y r : K) :
    (ofLin (Lin.scale s)).number r = .ok (|s| * r) ∧ (x = y → (ofLin (Lin.scale x (some y))).number r = .ok (|x| * r)) ∧
    (x ≠ y → (ofLin (Lin.scale x (some y))).number r = if x = -1 ∧ y = 1 ∨ x = 1 ∧ y = -1 then .ok r else .error .valueError) := by
  have key : ∀ s : K, (ofLin (Lin.scale s (some s))).number r = .ok (|s| * r) := by
    intro s
    simp only [ofLin, Lin.scale, Transformation.scalarMul, Transformation.typeForScale, Option.getD_some, if_true, Matrix.of_apply,
      Matrix.cons_val', Matrix.cons_val_zero]
    by_cases h1 : s = 1
    · simp [h1]
    · rw [if_neg h1]
      by_cases h2 : s = -1 <;> simp [h2]
  refine ⟨key s, ?_, ?_⟩
  · rintro rfl
    exact key x
  · intro hxy
    simp only [ofLin, Lin.scale, Transformation.scalarMul, Transformation.typeForScale, Option.getD_some, if_neg hxy]
    by_cases h1 : x = -1 ∧ y = 1
    · simp [h1]
    · by_cases h2 : x = 1 ∧ y = -1
      · rw [if_neg h1, if_pos h2, if_pos (Or.inr h2)]
        simp [h2]
      · simp [h1, h2]

/-- C59. A transformation which succeeds maps every point of every part: start, control and stop points. It holds for any transformation,
relative parts included. -/
theorem transform_points (path : Path K) (h : Reach path) (t : Transf K) (ht : t.Sound) (ho : (path.applyTransformation t).1 = .ok ())
    (i : Nat) (hi : i < path.parts.length) :
    ∃ pts, path.points i = .ok pts ∧ (path.applyTransformation t).2.points i = .ok (pts.map t.point) := by
  obtain ⟨hd, hr⟩ := (applyTransformation_ok path h.inv t).1 ho
  have inv' := Inv.transform path t h.inv ht ho
  rw [applyTransformation_eq path h.inv t hd hr] at inv' ⊢
  dsimp only at inv' ⊢
  obtain ⟨tr, htr⟩ := Option.isSome_iff_exists.1 ((trace_isSome path.p0 path.parts).2 hd)
  have hd' : ∀ part ∈ mapParts t.point t.number path.p0 path.parts, part.isStringed = false := by
    rw [← trace_isSome (t.point path.p0), trace_mapParts, htr]; rfl
  have pre : ∀ (p0 : Vec K) (l : List (Part K)) (tr : List (List (Vec K))), trace p0 l = some tr → ∀ j ≤ l.length,
      trace p0 (l.take j) = some (tr.take j) := by
    intro p0 l tr h j hj
    have h' := h
    rw [← List.take_append_drop j l, trace_append] at h'
    simp only [Option.bind_eq_some_iff, Option.map_eq_some_iff] at h'
    obtain ⟨a, ha, s, hs, b, hb, e⟩ := h'
    rw [ha, ← e]
    have := trace_length _ _ _ ha
    rw [List.length_take, Nat.min_eq_left hj] at this
    rw [← this, List.take_left']
    rfl
  obtain ⟨pts, h1, h2⟩ := points_eq path h.inv i hi _ (pre _ _ _ htr (i + 1) (by omega))
  have htr' : trace (t.point path.p0) (mapParts t.point t.number path.p0 path.parts) = some (tr.map (List.map t.point)) := by
    rw [trace_mapParts, htr]; rfl
  obtain ⟨pts', h3, h4⟩ := points_eq _ inv' i (by rw [mapParts_length]; exact hi) _ (pre _ _ _ htr' (i + 1) (by rw [mapParts_length]; omega))
  refine ⟨pts, h2, ?_⟩
  rw [h4]
  rw [List.getElem?_take_of_lt (by omega)] at h1 h3
  rw [List.getElem?_map, h1] at h3
  rw [← Option.some.inj h3]

/-- C59. The transformation succeeds exactly when no part is a stringed curve and every radius can be transformed. -/
theorem transform_ok_iff (path : Path K) (h : Reach path) (t : Transf K) :
    (path.applyTransformation t).1 = .ok () ↔ (∀ part ∈ path.parts, part.isStringed = false) ∧
      ∀ part ∈ path.parts, ∀ r, part.radius = some r → ∃ r', t.number r = .ok r' :=
  applyTransformation_ok path h.inv t

/-- C59. A path without rounded corners and stringed curves can be transformed by any transformation. -/
theorem transform_no_radius (path : Path K) (h : Reach path) (t : Transf K)
    (hs : ∀ part ∈ path.parts, part.isStringed = false ∧ part.radius = none) : (path.applyTransformation t).1 = .ok () := by
  rw [transform_ok_iff path h t]
  exact ⟨fun p hp => (hs p hp).1, fun p hp r hr => by rw [(hs p hp).2] at hr; cases hr⟩

/-- C59. The transformation keeps the number of the parts and whether the path is closed, maps the start point, and makes every part
absolute with its radius transformed, but the radii and the angle of an arc. -/
theorem transform_parts (path : Path K) (h : Reach path) (t : Transf K) (ho : (path.applyTransformation t).1 = .ok ()) :
    (path.applyTransformation t).2.p0 = t.point path.p0 ∧ (path.applyTransformation t).2.closed = path.closed ∧
    (path.applyTransformation t).2.parts.length = path.parts.length ∧
    ∀ (i : Nat) (part : Part K), path.parts[i]? = some part → ∃ s, path.startPoint i = .ok s ∧
      (path.applyTransformation t).2.parts[i]? = some (mapPart t.point t.number s part) := by
  obtain ⟨hd, hr⟩ := (applyTransformation_ok path h.inv t).1 ho
  rw [applyTransformation_eq path h.inv t hd hr]
  refine ⟨rfl, rfl, mapParts_length .., ?_⟩
  intro i part hp
  obtain ⟨s, h1, h2⟩ := mapParts_get t.point t.number path.p0 path.parts i part hp
  have hm := mem_range_length path i part hp
  rw [List.mem_range] at hm
  exact ⟨s, startPoint_eq path h.inv i hm s (h2 hd), h1⟩

/-- C59. The radii of the corners follow a similarity of the library: scaled by its factor, kept by a rotation. -/
theorem transform_radius (m : Matrix (Fin 3) (Fin 3) K) (r : K) :
    (ofAff ⟨m, some .scale⟩).number r = .ok (|m 0 0| * r) ∧ (ofAff ⟨m, some .rotation⟩).number r = .ok r ∧
    (ofAff ⟨m, some .identity⟩).number r = .ok r ∧ (ofAff ⟨m, some .translation⟩).number r = .ok (|m 0 0| * r) ∧
    (ofAff ⟨m, some .shear⟩).number r = .error .valueError ∧ (ofAff ⟨m, some .generic⟩).number r = .error .valueError := by
  refine ⟨?_, ?_, ?_, ?_, ?_, ?_⟩ <;> simp [ofAff, Transformation.scalarMul]

example : (sample.applyTransformation (ofAff (Aff.translation ⟨1, 2⟩))).1 = .ok () ∧
    (sample.applyTransformation (ofAff (Aff.translation ⟨1, 2⟩))).2.points 3 = .ok [⟨3, 5⟩, ⟨2, 5⟩, ⟨1, 5⟩, ⟨1, 4⟩] := by
  constructor <;> decide +kernel

/-- C59 is false of the arcs: a scale does not change the radii of an arc. When it makes the chord of an arc of circle longer than the
diameter, there is no such arc. -/
theorem transform_arc_wrong (path : Path K) (h : Reach path) (s : K) (ho : (path.applyTransformation (ofLin (Lin.scale s))).1 = .ok ())
    (i : Nat) (point : Vec K) (r angle : K) (large sweep absolute : Bool) (hi : path.parts[i]? = some (.arc point r r angle large sweep absolute)) :
    ∃ a b a' b' : Vec K, path.points i = .ok [a, b] ∧ (path.applyTransformation (ofLin (Lin.scale s))).2.points i = .ok [a', b'] ∧
      (b' - a').magnitudeSquare = s * s * (b - a).magnitudeSquare ∧
      (path.applyTransformation (ofLin (Lin.scale s))).2.parts[i]? = some (.arc b' r r angle large sweep true) ∧
      (4 * (r * r) < s * s * (b - a).magnitudeSquare →
        ∀ c : Vec K, ¬ ((c - a').magnitudeSquare = r * r ∧ (c - b').magnitudeSquare = r * r)) := by
  have hlt := mem_range_length path i _ hi
  rw [List.mem_range] at hlt
  obtain ⟨_, _, _, hparts⟩ := transform_parts path h _ ho
  obtain ⟨a, ha, hpart⟩ := hparts i _ hi
  obtain ⟨pts, h1, h2⟩ := transform_points path h _ (ofLin_sound _) ho i hlt
  have hpts : path.points i = .ok [a, if absolute then point else a + point] := by
    have hne : path.stopPoint i = .ok (if absolute then point else a + point) := by
      have h1' := h1
      unfold Path.points at h1'
      rw [hi] at h1'
      simp only [ha, bind, Except.bind] at h1'
      cases hst : path.stopPoint i with
      | error e => rw [hst] at h1'; cases h1'
      | ok b =>
        have hs := stopPoint_eq path h.inv i hlt
        have hd := ((applyTransformation_ok path h.inv _).1 ho).1
        have hf := (trace_isSome path.p0 (path.parts.take i)).2 (fun q hq => hd q (List.mem_of_mem_take hq))
        rw [← final_isSome] at hf
        obtain ⟨f, hf⟩ := Option.isSome_iff_exists.1 hf
        have e1 := startPoint_eq path h.inv i hlt f hf
        rw [ha] at e1
        cases e1
        have e2 : final path.p0 (path.parts.take (i + 1)) = some (if absolute then point else a + point) := by
          rw [List.take_add_one, hi, final_append, hf]
          simp [final, draw]
        rw [hs _ e2] at hst
        exact hst.symm
    unfold Path.points
    rw [hi]
    simp [ha, hne, bind, Except.bind, pure, Except.pure]
  rw [hpts] at h1
  cases h1
  refine ⟨a, _, _, _, hpts, h2, ?_, hpart, ?_⟩
  · simp only [ofLin, Lin.scale, Lin.apply, Vec.magnitudeSquare, Vec.sub_x, Vec.sub_y]
    simp
    ring
  · rintro hlong ⟨cx, cy⟩ ⟨e1, e2⟩
    set b := if absolute then point else a + point
    simp [ofLin, Lin.scale, Lin.apply, Vec.magnitudeSquare, Vec.sub_x, Vec.sub_y] at e1 e2 hlong
    nlinarith [mul_self_nonneg (cx - s * a.x + (cx - s * b.x)), mul_self_nonneg (cy - s * a.y + (cy - s * b.y))]

/-- An arc of radius 1 from (0, 0) to (2, 0), scaled by 2. -/
example : ∃ path : Path ℚ, Reach path ∧ (path.applyTransformation (ofLin (Lin.scale 2))).1 = .ok () ∧
    path.parts = [.arc ⟨2, 0⟩ 1 1 0 false false true] ∧ (4 * (1 * 1) : ℚ) < 2 * 2 * ((⟨2, 0⟩ : Vec ℚ) - path.p0).magnitudeSquare :=
  ⟨((Path.new ⟨0, 0⟩).arcTo ⟨2, 0⟩ 1 1 0 false false true).2, .arc _ _ _ _ _ _ _ _ (.new _), by decide +kernel, by decide +kernel,
    by decide +kernel⟩

omit [IsStrictOrderedRing K] in
theorem transformLoop_torn (t : Transf K) (p0 : Vec K) (closed : Bool) (l pre post : List (Part K)) (part : Part K) (s s0 s1 : Vec K) (r : K)
    (e : PyErr) (hd : ∀ part ∈ pre, part.isStringed = false)
    (hr : ∀ part ∈ pre, ∀ r, part.radius = some r → ∃ r', t.number r = .ok r') (hpr : part.radius = some r) (he : t.number r = .error e)
    (h0 : final s pre = some s0) (h1 : final s (pre ++ [part]) = some s1) :
    loop (Path.transformStep t) (List.range' l.length (pre ++ part :: post).length) ⟨p0, l ++ mapParts id .ok s (pre ++ part :: post), closed⟩ =
      (.error e, ⟨p0, l ++ mapParts t.point t.number s pre ++ mapPart t.point .ok s0 part :: mapParts id .ok s1 post, closed⟩) := by
  induction pre generalizing l s with
  | nil =>
    simp only [final, Option.some.injEq] at h0
    subst h0
    have hs1 : (((draw s part).getD []).getLastD s) = s1 := by
      simp only [List.nil_append, final, Option.bind_eq_bind] at h1
      cases hdr : draw s part with
      | none => rw [hdr] at h1; cases h1
      | some pts => rw [hdr] at h1; simpa using h1
    simp only [List.nil_append, List.length_cons, List.range'_succ, loop, mapParts, hs1, List.append_nil]
    have hx : (mapPart id .ok s part).transform t = (.error e, mapPart t.point .ok s part) := by
      cases part <;> simp [Part.radius] at hpr <;> subst hpr <;> simp [mapPart, Part.transform, Except.toOption, he]
    have h1 : Path.transformStep t ⟨p0, l ++ mapPart id .ok s part :: mapParts id .ok s1 post, closed⟩ l.length =
        (.error e, ⟨p0, l ++ mapPart t.point .ok s part :: mapParts id .ok s1 post, closed⟩) := by
      unfold Path.transformStep
      simp only [List.getElem?_append_right (Nat.le_refl _), Nat.sub_self, List.getElem?_cons_zero, hx]
      rw [setPart_eq _ l _ _ _ rfl]
    rw [h1]
  | cons q pre ih =>
    have h := transform_mapPart t s q (hd q (by simp)) (hr q (by simp))
    simp only [List.cons_append, List.length_cons, List.range'_succ, loop]
    simp only [mapParts]
    have hstep : Path.transformStep t ⟨p0, l ++ mapPart id .ok s q :: mapParts id .ok (((draw s q).getD []).getLastD s) (pre ++ part :: post),
        closed⟩ l.length = (.ok (), ⟨p0, l ++ mapPart t.point t.number s q ::
          mapParts id .ok (((draw s q).getD []).getLastD s) (pre ++ part :: post), closed⟩) := by
      unfold Path.transformStep
      simp only [List.getElem?_append_right (Nat.le_refl _), Nat.sub_self, List.getElem?_cons_zero, h]
      rw [setPart_eq _ l _ _ _ rfl]
    rw [hstep]
    dsimp only
    obtain ⟨pts, hpts⟩ : ∃ pts, draw s q = some pts := by
      have := draw_isSome s q
      rw [hd q (by simp)] at this
      exact Option.isSome_iff_exists.1 (by simpa using this)
    have := ih (l ++ [mapPart t.point t.number s q]) (((draw s q).getD []).getLastD s)
      (fun q hq => hd q (by simp [hq])) (fun q hq => hr q (by simp [hq])) (by simpa [final, hpts] using h0) (by simpa [final, hpts] using h1)
    simp only [List.length_append, List.length_cons, List.length_nil] at this
    simpa using this

/-- C59 is false of every path with a rounded corner and a transformation without a factor: the exception is raised at the first
part whose radius is refused, and the path is left with its start point and the parts before transformed, this part transformed but its radius, and the points of the
parts after as they were. -/
theorem transform_torn_wrong (path : Path K) (h : Reach path) (t : Transf K) (pre post : List (Part K)) (part : Part K) (r : K) (e : PyErr)
    (hp : path.parts = pre ++ part :: post) (hs : ∀ part ∈ path.parts, part.isStringed = false)
    (hpre : ∀ part ∈ pre, ∀ r, part.radius = some r → ∃ r', t.number r = .ok r') (hr : part.radius = some r) (he : t.number r = .error e) :
    ∃ s0 s1, final path.p0 pre = some s0 ∧ final path.p0 (pre ++ [part]) = some s1 ∧
      path.applyTransformation t = (.error e, ⟨t.point path.p0,
        mapParts t.point t.number path.p0 pre ++ mapPart t.point .ok s0 part :: mapParts id .ok s1 post, path.closed⟩) := by
  have hf : ∀ l, (∀ q ∈ l, q ∈ path.parts) → ∃ s, final path.p0 l = some s := by
    intro l hl
    have := (trace_isSome path.p0 l).2 (fun q hq => hs q (hl q hq))
    rw [← final_isSome] at this
    exact Option.isSome_iff_exists.1 this
  obtain ⟨s0, h0⟩ := hf pre (fun q hq => by rw [hp]; simp [hq])
  obtain ⟨s1, h1⟩ := hf (pre ++ [part]) (fun q hq => by rw [hp]; simp at hq ⊢; tauto)
  refine ⟨s0, s1, h0, h1, ?_⟩
  have ha := (absoluteLoop_eq path [] path.parts rfl h.inv path.p0 rfl hs).1
  simp only [List.length_nil, List.nil_append, ← List.range_eq_range'] at ha
  have ht := transformLoop_torn t (t.point path.p0) path.closed [] pre post part path.p0 s0 s1 r e
    (fun q hq => hs q (by rw [hp]; simp [hq])) hpre hr he h0 h1
  simp only [List.length_nil, List.nil_append, ← List.range_eq_range', ← hp] at ht
  unfold Path.applyTransformation
  dsimp only
  rw [ha]
  exact ht

example : Reach sample ∧ (∀ part ∈ sample.parts, part.isStringed = false) ∧ sample.parts[1]?.bind Part.radius = some (1 / 2) ∧
    (ofAff (Aff.screen (10 : ℚ))).number (1 / 2) = .error .valueError ∧
    (sample.applyTransformation (ofAff (Aff.screen 10))).2.p0 = ⟨1, 9⟩ ∧
    (sample.applyTransformation (ofAff (Aff.screen 10))).2.stopPoint 2 = sample.stopPoint 2 :=
  ⟨sample_reach, by decide +kernel, by decide +kernel, by decide +kernel, by decide +kernel, by decide +kernel⟩

/-! ## Clone -/

/-- The parts whose method `clone` works. -/
def Part.Clonable : Part K → Prop
  | .absH .. | .absV .. | .dir .. | .quad .. | .arc .. => True
  | _ => False

theorem setRadius_of_nonneg (rd : Option K) (h : ∀ r, rd = some r → 0 ≤ r) : setRadius rd = rd := by
  cases rd with
  | none => rfl
  | some r => simp [setRadius, abs_of_nonneg (h r rfl)]

theorem clone_fold (path : Path K) (inv : Inv path) (l r : List (Part K)) (e : path.parts = l ++ r) (q : Path K)
    (h0 : ∀ part, path.parts[0]? = some part → part.radius = none ∧ part.startBulge = false) :
    r.foldlM (fun (obj : Path K) part => do return { obj with parts := obj.parts ++ [← part.clone obj] }) ⟨path.p0, l, false⟩ = .ok q ↔
      (∀ part ∈ r, part.Clonable) ∧ q = ⟨path.p0, path.parts, false⟩ := by
  induction r generalizing l with
  | nil =>
    simp only [List.foldlM_nil, pure, Except.pure, Except.ok.injEq, List.not_mem_nil, false_imp_iff, implies_true, true_and]
    rw [e, List.append_nil]
    exact eq_comm
  | cons part r ih =>
    have hp : path.parts[l.length]? = some part := by simp [e]
    have hnot := inv.nonneg part (by rw [e]; simp)
    have hrad : part.radius ≠ none → l.getLast?.map Part.isLinear = some true := by
      intro h
      cases hl : l.length with
      | zero =>
        rw [hl] at hp
        exact absurd (h0 part hp).1 h
      | succ k =>
        rw [hl] at hp
        have := inv.linear k part hp h
        rw [List.getLast?_eq_getElem?, hl]
        rw [e, List.getElem?_append_left (by omega)] at this
        exact this
    have hb : part.startBulge = false := by
      by_contra hb
      have hb := inv.bulge _ part hp (by simpa using hb)
      rw [hb.1] at hp
      rw [(h0 part hp).2] at *
      simp_all
    have hc : part.Clonable → part.clone ⟨path.p0, l, false⟩ = .ok part := by
      intro hcl
      have hif : ∀ part' : Part K, part' = part →
          (if part'.radius.isSome ∧ ¬ (l.getLast?.map Part.isLinear = some true) then Except.error PyErr.valueError else .ok part') = .ok part := by
        rintro _ rfl
        rw [if_neg]
        rintro ⟨h1, h2⟩
        exact h2 (hrad (Option.isSome_iff_ne_none.1 h1))
      cases part with
      | line => cases hcl
      | cubic => cases hcl
      | stringedCubic => cases hcl
      | quad => rfl
      | arc => rfl
      | absH x rd b =>
        apply hif
        rw [setRadius_of_nonneg rd (fun r h => hnot r h)]
        simp only [Part.startBulge] at hb
        rw [hb]
      | absV x rd b =>
        apply hif
        rw [setRadius_of_nonneg rd (fun r h => hnot r h)]
        simp only [Part.startBulge] at hb
        rw [hb]
      | dir u x rd b =>
        apply hif
        rw [setRadius_of_nonneg rd (fun r h => hnot r h)]
        simp only [Part.startBulge] at hb
        rw [hb]
    have hn : ¬ part.Clonable → ∃ x, part.clone ⟨path.p0, l, false⟩ = .error x := by
      intro hcl
      cases part <;> simp [Part.Clonable] at hcl <;> exact ⟨_, rfl⟩
    rw [List.foldlM_cons]
    by_cases hcl : part.Clonable
    · rw [hc hcl]
      have := ih (l ++ [part]) (by simp [e])
      simp only [bind, Except.bind, pure, Except.pure] at this ⊢
      rw [this]
      simp [hcl]
    · obtain ⟨x, hx⟩ := hn hcl
      rw [hx]
      simp [bind, Except.bind, hcl]

/-- C107. The clone of a path succeeds exactly when no part is a segment made by `line_to`, `close` or a transformation, a cubic curve or a
stringed curve, and it is then equal to the path. -/
theorem clone_partial (path q : Path K) (h : Reach path) : path.clone = .ok q ↔ (∀ part ∈ path.parts, part.Clonable) ∧ q = path := by
  have inv := h.inv
  by_cases hc : path.closed = true
  · -- the last part is a line
    obtain ⟨r, c, b, hl⟩ := inv.closed hc
    have hm : Part.line path.p0 true r c b ∈ path.parts := List.mem_of_getLast? hl
    constructor
    · intro hq
      exfalso
      have key : ∀ (l : List (Part K)) (obj : Path K), (∃ p a r c b, Part.line p a r c b ∈ l) →
          ∃ x, l.foldlM (fun (obj : Path K) part => do return { obj with parts := obj.parts ++ [← part.clone obj] }) obj = .error x := by
        intro l
        induction l with
        | nil => rintro obj ⟨p, a, r, c, b, h⟩; cases h
        | cons part l ih =>
          rintro obj ⟨p, a, r, c, b, h⟩
          rw [List.foldlM_cons]
          rcases List.mem_cons.1 h with h | h
          · subst h
            exact ⟨.unboundLocalError, rfl⟩
          · cases hx : part.clone obj with
            | error x => exact ⟨x, rfl⟩
            | ok part' => exact ih _ ⟨p, a, r, c, b, h⟩
      obtain ⟨x, hx⟩ := key path.parts (Path.new path.p0) ⟨_, _, _, _, _, hm⟩
      unfold Path.clone at hq
      rw [hx] at hq
      cases hq
    · rintro ⟨h1, _⟩
      exact absurd (h1 _ hm) (by simp [Part.Clonable])
  · have hc' : path.closed = false := by simpa using hc
    have h0 : ∀ part, path.parts[0]? = some part → part.radius = none ∧ part.startBulge = false := by
      intro part hp
      have hb : part.startBulge = false := by
        by_contra hb
        exact hc (inv.bulge 0 part hp (by simpa using hb)).2
      refine ⟨?_, hb⟩
      by_contra hr
      rw [inv.first part hp hr] at hb
      cases hb
    have := clone_fold path inv [] path.parts rfl q h0
    unfold Path.clone Path.new
    rw [this]
    rw [← hc']

/-- C107. A path with a segment made by `line_to` cannot be cloned, nor a closed path, nor a transformed one with a segment. -/
theorem clone_line_wrong (path : Path K) (h : Reach path) (hl : path.closed = true ∨ ∃ p a r c b, Part.line p a r c b ∈ path.parts) :
    ∀ q, path.clone ≠ .ok q := by
  intro q hq
  have h1 := ((clone_partial path q h).1 hq).1
  rcases hl with hc | ⟨p, a, r, c, b, hm⟩
  · obtain ⟨r, c, b, hl⟩ := h.inv.closed hc
    exact absurd (h1 _ (List.mem_of_getLast? hl)) (by simp [Part.Clonable])
  · exact absurd (h1 _ hm) (by simp [Part.Clonable])

omit [IsStrictOrderedRing K] in
/-- C107. What is raised: the exception of the first part which cannot be cloned, when the radii before are accepted; a segment raises
`UnboundLocalError`, a cubic curve `NameError` and a stringed curve `AttributeError`. -/
theorem clone_raises_wrong (path : Path K) (pre post : List (Part K)) (part : Part K) (obj : Path K) (hp : path.parts = pre ++ part :: post)
    (hpre : (Path.mk path.p0 pre false).clone = .ok obj) :
    ((∃ p a r c b, part = .line p a r c b) → path.clone = .error .unboundLocalError) ∧
    ((∃ p1 p2 p3 a, part = .cubic p1 p2 p3 a) → path.clone = .error .nameError) ∧
    ((∃ a, part = .stringedCubic a) → path.clone = .error .attributeError) := by
  unfold Path.clone at hpre ⊢
  rw [hp, List.foldlM_append]
  simp only [Path.new] at hpre ⊢
  rw [hpre]
  refine ⟨?_, ?_, ?_⟩
  · rintro ⟨p, a, r, c, b, rfl⟩; rfl
  · rintro ⟨p1, p2, p3, a, rfl⟩; rfl
  · rintro ⟨a, rfl⟩; rfl

example : (((Path.new (⟨0, 0⟩ : Vec ℚ)).lineTo ⟨1, 0⟩).2).clone = .error .unboundLocalError ∧
    (((Path.new (⟨0, 0⟩ : Vec ℚ)).cubicTo ⟨1, 0⟩ ⟨1, 1⟩ ⟨2, 2⟩).2).clone = .error .nameError ∧
    (Path.mk (⟨0, 0⟩ : Vec ℚ) [] false).clone = .ok (Path.new ⟨0, 0⟩) := by
  refine ⟨?_, ?_, ?_⟩ <;> decide +kernel

/-- A path which can be cloned. -/
def clonable : Path ℚ :=
  let path := (Path.new ⟨1, 1⟩).horizontalTo 3 |>.2
  let path := path.verticalTo 2 (some (1 / 2)) |>.2
  (path.quadraticTo ⟨-1, 1⟩ ⟨-2, 0⟩).2

example : Reach clonable ∧ clonable.clone = .ok clonable :=
  ⟨.quadratic _ _ _ _ (.vertical _ _ _ _ (.horizontal _ _ _ _ (.new _))), by decide +kernel⟩

/-! ## Rectangles -/

/-- C58. `rounded_rectangle`: the four sides of the rectangle before rounding, closed, with the radius on its four corners. -/
theorem roundedRectangle_points (point : Vec K) (width height radius : K) :
    ∃ path, roundedRectangle point width height (some radius) = (.ok (some 3), path) ∧ path.closed = true ∧ path.parts.length = 4 ∧
      (∀ part ∈ path.parts, part.radius = some |radius|) ∧
      path.points 0 = .ok [point, ⟨point.x + width, point.y⟩] ∧
      path.points 1 = .ok [⟨point.x + width, point.y⟩, ⟨point.x + width, point.y + height⟩] ∧
      path.points 2 = .ok [⟨point.x + width, point.y + height⟩, ⟨point.x, point.y + height⟩] ∧
      path.points 3 = .ok [⟨point.x, point.y + height⟩, point] := by
  have e : roundedRectangle point width height (some radius) = (.ok (some 3), ⟨point,
      [.dir ⟨1, 0⟩ width (some |radius|) true, .dir ⟨0, 1⟩ height (some |radius|) false, .dir ⟨1, 0⟩ (-width) (some |radius|) false,
        .line point true (some |radius|) true false], true⟩) := by
    simp [roundedRectangle, Path.horizontalTo, Path.verticalTo, Path.addPart, Path.new, setRadius, Part.radius, Part.isLinear, Path.close,
      Path.closeStart, Part.close]
  rw [e]
  have h0 : (⟨point.x + width, point.y⟩ : Vec K) = point + (⟨1, 0⟩ : Vec K).smul width := by ext <;> simp
  have h1 : (⟨point.x + width, point.y + height⟩ : Vec K) = point + (⟨1, 0⟩ : Vec K).smul width + (⟨0, 1⟩ : Vec K).smul height := by
    ext <;> simp
  have h2 : (⟨point.x, point.y + height⟩ : Vec K) =
      point + (⟨1, 0⟩ : Vec K).smul width + (⟨0, 1⟩ : Vec K).smul height + (⟨1, 0⟩ : Vec K).smul (-width) := by
    ext <;> simp
  refine ⟨_, rfl, rfl, rfl, by simp [Part.radius], ?_, ?_, ?_, ?_⟩ <;>
    simp [Path.points, Path.startPoint, Path.stopPoint, Path.stopPointFuel, Path.prevIndex, Part.startBulge, Part.stopFrom, Except.map,
      bind, Except.bind, pure, Except.pure, h0, h1, h2]

end Patro.Path
