import Verif.Props.SceneGeometry
import Verif.Props.SvgArc
import Verif.Props.Bezier
import Mathlib.Topology.Order.IntermediateValue
/-! # Paths in a scene -/

namespace Patro.SceneGeometry

open Conic Transformation

/-! ## The points of the parts -/

/-- The start and the stop of a part, from the trace. -/
theorem ends_eq (path : Path.Path ℝ) (h : Path.Reach path) (tr) (ht : Path.trace path.p0 path.parts = some tr) (i : Nat)
    (part : Path.Part ℝ) (hp : path.parts[i]? = some part) :
    ∃ pts, Path.draw (startOf tr i) part = some pts ∧ tr[i]? = some (startOf tr i :: pts) ∧ stopOf tr i = pts.getLastD (startOf tr i) ∧
      path.startPoint i = .ok (startOf tr i) ∧ path.stopPoint i = .ok (stopOf tr i) ∧ path.points i = .ok (startOf tr i :: pts) := by
  obtain ⟨hi, -⟩ := List.getElem?_eq_some_iff.1 hp
  have e : path.parts = path.parts.take i ++ part :: path.parts.drop (i + 1) := by
    have := List.drop_eq_getElem?_toList_append (l := path.parts) (i := i)
    rw [hp, Option.toList_some, List.singleton_append] at this
    rw [← this, List.take_append_drop]
  rw [e] at ht
  obtain ⟨s, pts, h1, h2, h3, h4⟩ := Path.trace_at _ _ _ _ _ ht
  rw [List.length_take, Nat.min_eq_left hi.le] at h3
  have h4 : Path.final path.p0 (path.parts.take (i + 1)) = some (pts.getLastD s) := by
    rw [List.take_add_one, hp]; exact h4
  have hs : startOf tr i = s := by simp [startOf, h3]
  have he : stopOf tr i = pts.getLastD s := by
    simp only [stopOf, h3]
    simp [List.getLast?_cons, List.getLastD_eq_getLast?]
  rw [← hs] at h1 h2 h3 h4 he
  have hst := Path.startPoint_eq path h.inv i hi _ h1
  have hsp := Path.stopPoint_eq path h.inv i hi _ h4
  refine ⟨pts, h2, h3, he, hst, by rw [he]; exact hsp, ?_⟩
  have ht2 := (Path.final_isSome path.p0 (path.parts.take (i + 1))).symm
  rw [h4, Option.isSome_some] at ht2
  obtain ⟨tr2, ht2⟩ := Option.isSome_iff_exists.1 ht2
  obtain ⟨pts2, h5, h6⟩ := Path.points_eq path h.inv i hi tr2 ht2
  obtain ⟨part', s', pts', a1, a2, a3, a4, a5⟩ := Path.prefix_at path i hi tr2 ht2
  rw [hp] at a1; cases a1
  rw [h1] at a2; cases a2
  rw [h2] at a3; cases a3
  rw [h5] at a4; cases a4
  exact h6

/-- The next part starts where the part stops. -/
theorem start_next (path : Path.Path ℝ) (tr) (ht : Path.trace path.p0 path.parts = some tr) (i : Nat) (hi : i + 1 < path.parts.length) :
    startOf tr (i + 1) = stopOf tr i := by
  have key : ∀ (l : List (Path.Part ℝ)) (s : Vec ℝ) (tr) (_ : Path.trace s l = some tr) (i : Nat) (_ : i + 1 < l.length),
      startOf tr (i + 1) = stopOf tr i := by
    intro l
    induction l with
    | nil => intro s tr _ i hi; simp at hi
    | cons part l ih =>
      intro s tr ht i hi
      simp only [Path.trace, Option.bind_eq_bind, Option.bind_eq_some_iff, pure, Option.some.injEq] at ht
      obtain ⟨pts, hd, rest, hr, rfl⟩ := ht
      cases i with
      | zero =>
        cases l with
        | nil => simp at hi
        | cons part' l =>
          simp only [Path.trace, Option.bind_eq_bind, Option.bind_eq_some_iff, pure, Option.some.injEq] at hr
          obtain ⟨pts', hd', rest', hr', rfl⟩ := hr
          simp only [startOf, stopOf]
          simp [List.getLast?_cons, List.getLastD_eq_getLast?]
      | succ i => exact ih _ _ hr i (by simpa using hi)
  exact key _ _ _ ht i hi

theorem trace_linear (s : Vec ℝ) (part : Path.Part ℝ) (pts) (h : Path.draw s part = some pts) (hl : part.isLinear = true) :
    ∃ p, pts = [p] := by
  cases part <;> simp_all [Path.draw, Path.Part.isLinear] <;> exact ⟨_, h.symm⟩

/-! ## Rounded corners -/

theorem direction_smul (a b : Vec ℝ) (h : a ≠ b) : ∃ k, 0 < k ∧ b - a = (Path.direction a b).smul k := by
  have hn : b - a ≠ 0 := by
    intro e
    apply h
    have hx := congrArg Vec.x e
    have hy := congrArg Vec.y e
    simp at hx hy
    ext <;> linarith
  have hm := Vec.magnitude_pos _ hn
  refine ⟨(b - a).magnitude, hm, ?_⟩
  ext <;> simp [Path.direction, Path.normalise, Vec.sdiv] <;> field_simp

/-- The arc of a corner. -/
theorem corner_arc (a c b : Vec ℝ) (r : ℝ) (hr : 0 < r) (hx : (c - a).cross (b - c) ≠ 0) :
    ∃ arc : Arc, Rounds a c b r arc ∧
      Path.bulgeGeometry c (Path.direction a c) (Path.direction c b) r = .ok ⟨arc.center, r, some ⟨arc.start, arc.stop⟩⟩ ∧
      Path.bulgeStart c (Path.direction a c) (Path.direction c b) r = .ok arc.p ∧
      Path.bulgeStop c (Path.direction a c) (Path.direction c b) r = .ok arc.q := by
  have hac : a ≠ c := by rintro rfl; simp [Vec.cross] at hx
  have hcb : c ≠ b := by rintro rfl; simp [Vec.cross] at hx
  have h1 := Path.direction_unit a c hac
  have h2 := Path.direction_unit c b hcb
  obtain ⟨k1, hk1, e1⟩ := direction_smul a c hac
  obtain ⟨k2, hk2, e2⟩ := direction_smul c b hcb
  generalize Path.direction a c = d1 at *
  generalize Path.direction c b = d2 at *
  have hc : (c - a).cross (b - c) = k1 * k2 * d1.cross d2 := by
    rw [e1, e2]; simp [Vec.cross]; ring
  have hx' : d1.cross d2 ≠ 0 := by
    intro h; rw [hc, h, mul_zero] at hx; exact hx rfl
  obtain ⟨c', p, q, k, b1, b2, b3, hk, ep, eq, dp, dq, tp, tq⟩ := Path.bulge_tangent c d1 d2 r hr h1 h2 hx'
  obtain ⟨arc, d, p', q', w, g1, g2, g3, g4, g5, g6, g7, g8, g9, g10, g11, g12⟩ := Path.bulge_arc c d1 d2 r hr h1 h2 hx'
  rw [b1] at g4
  rw [b2] at g5
  rw [b3] at g6
  cases g4
  cases g5
  cases g6
  have hpos : 0 < k1 * k2 := by positivity
  have e1' : a - c = d1.smul (-k1) := by
    have hx := congrArg Vec.x e1
    have hy := congrArg Vec.y e1
    simp only [Vec.sub_x, Vec.sub_y, Vec.smul_x, Vec.smul_y] at hx hy
    ext <;> simp only [Vec.sub_x, Vec.sub_y, Vec.smul_x, Vec.smul_y] <;> linarith
  refine ⟨⟨arc.center, d.start, d.stop, p, q⟩, ⟨⟨k / k1, by positivity, ?_⟩, ⟨k / k2, by positivity, ?_⟩, ?_, ?_, ?_, ?_, ?_, ?_⟩, ?_, b2, b3⟩
  · rw [e1', ep]
    ext <;> simp <;> field_simp <;> ring
  · rw [e2, eq]
    ext <;> simp <;> field_simp
  · have hm : ∀ v : Vec ℝ, distance (c + v) c = v.magnitude := by
      intro v
      rw [distance_symm, ← distance_eq, Vec.magnitude, Vec.magnitude]
      simp [Vec.magnitudeSquare]
    have ep' : p = c + d1.smul (-k) := by rw [ep]; ext <;> simp <;> ring
    dsimp only
    rw [ep', eq, hm, hm, Vec.magnitude_smul, Vec.magnitude_smul, h1, h2, abs_neg]
  · dsimp only
    rw [e1]
    have : (arc.center - p).dot (d1.smul k1) = k1 * (arc.center - p).dot d1 := by simp [Vec.dot]; ring
    rw [this, tp, mul_zero]
  · dsimp only
    rw [e2]
    have : (arc.center - q).dot (d2.smul k2) = k2 * (arc.center - q).dot d2 := by simp [Vec.dot]; ring
    rw [this, tq, mul_zero]
  · change 0 < d.sweep ∧ d.sweep < 180
    rw [g7]; exact ⟨g8, g9⟩
  · intro h
    change p = _ ∧ q = onCircle _ _ (_ + d.sweep)
    rw [g7]
    exact g11 (by rw [hc] at h; exact (mul_pos_iff_of_pos_left hpos).1 h)
  · intro h
    change q = _ ∧ p = onCircle _ _ (_ + d.sweep)
    rw [g7]
    refine g12 ?_
    rw [hc] at h
    by_contra hn
    nlinarith
  · rw [g1]
    congr 1
    cases arc
    simp_all

/-- The corners of a path which are well formed: a positive radius, and two parts which are not parallel. -/
def GoodCorners (parts : List (Path.Part ℝ)) (tr : List (List (Vec ℝ))) : Prop :=
  ∀ i r, rounded parts i = some r → 0 < r ∧ (startOf tr i - beforeOf tr i).cross (stopOf tr i - startOf tr i) ≠ 0

theorem rounded_some (parts : List (Path.Part ℝ)) (i : Nat) (r : ℝ) (h : rounded parts i = some r) :
    ∃ part, parts[i]? = some part ∧ part.radius = some r := by
  unfold rounded at h
  obtain ⟨part, h1, h2⟩ := Option.bind_eq_some_iff.1 h
  exact ⟨part, h1, h2⟩

theorem partDirection_eq (path : Path.Path ℝ) (h : Path.Reach path) (tr) (ht : Path.trace path.p0 path.parts = some tr) (i : Nat)
    (hi : i < path.parts.length) : partDirection path i = .ok (Path.direction (startOf tr i) (stopOf tr i)) := by
  obtain ⟨pts, -, -, -, h1, h2, -⟩ := ends_eq path h tr ht i _ (List.getElem?_eq_getElem hi)
  simp [partDirection, h1, h2, bind, Except.bind, pure, Except.pure]

/-- The arc of a rounded corner of a path. -/
theorem part_arc (path : Path.Path ℝ) (h : Path.Reach path) (tr) (ht : Path.trace path.p0 path.parts = some tr)
    (hg : GoodCorners path.parts tr) (i : Nat) : ∃ arc : Arc, ∀ r, rounded path.parts i = some r →
      Rounds (beforeOf tr i) (startOf tr i) (stopOf tr i) r arc ∧
      partBulge path i r = .ok ⟨arc.center, r, some ⟨arc.start, arc.stop⟩⟩ ∧ partBulgeStart path i r = .ok arc.p ∧
      partBulgeStop path i r = .ok arc.q := by
  cases hro : rounded path.parts i with
  | none => exact ⟨⟨0, 0, 0, 0, 0⟩, by simp⟩
  | some r =>
    obtain ⟨part, hp, hr⟩ := rounded_some _ _ _ hro
    obtain ⟨hr0, hx⟩ := hg i r hro
    obtain ⟨arc, a1, a2, a3, a4⟩ := corner_arc _ _ _ r hr0 hx
    obtain ⟨hi, -⟩ := List.getElem?_eq_some_iff.1 hp
    obtain ⟨pts, -, -, -, h1, h2, -⟩ := ends_eq path h tr ht i _ hp
    have hlen := Path.trace_length _ _ _ ht
    have hprev : prevDirection path i = .ok (Path.direction (beforeOf tr i) (startOf tr i)) := by
      unfold prevDirection Path.Path.prevIndex
      rw [hp]
      cases i with
      | zero =>
        have hb := h.inv.first part hp (by simp [hr])
        obtain ⟨-, hc⟩ := h.inv.bulge 0 part hp hb
        obtain ⟨r', c', b', hl⟩ := h.inv.closed hc
        rw [List.getLast?_eq_getElem?] at hl
        simp only [hb, if_true, hl, Option.map_some, Path.Part.isLinear]
        rw [partDirection_eq path h tr ht _ (by omega)]
        obtain ⟨pts', e1, e2, e3, e4, e5, e6⟩ := ends_eq path h tr ht _ _ hl
        have hs : startOf tr 0 = path.p0 := by
          have := Path.first_start path h hi
          rw [h1] at this
          exact Except.ok.inj this
        simp only [Path.draw, if_true, Option.some.injEq] at e1
        rw [e3, ← e1, hs]
        simp [beforeOf, hlen, List.getLastD]
      | succ i =>
        have hb : part.startBulge = false := by
          by_contra hb
          have := h.inv.bulge _ part hp (by simpa using hb)
          omega
        have hlin := h.inv.linear i part hp (by simp [hr])
        simp only [hb, Nat.le_add_left, if_true, Nat.add_sub_cancel, Bool.false_eq_true, if_false, hlin]
        rw [partDirection_eq path h tr ht i (by omega), start_next path tr ht i hi]
        simp [beforeOf]
    refine ⟨arc, fun r' hr' => ?_⟩
    cases hr'
    have hd := partDirection_eq path h tr ht i hi
    refine ⟨a1, ?_, ?_, ?_⟩
    · simp only [partBulge, hprev, hd, h1, bind, Except.bind, a2]
    · simp only [partBulgeStart, hprev, hd, h1, bind, Except.bind, a3]
    · simp only [partBulgeStop, hprev, hd, h1, bind, Except.bind, a4]

/-- The index of the next part, for the corner at the end of a part. -/
theorem next_eq (path : Path.Path ℝ) (hc : ClosedOnce path.parts) (i : Nat) (hi : i < path.parts.length) :
    nextIndex path i = some (if i + 1 = path.parts.length then 0 else i + 1) ∨
    (nextIndex path i = none ∧ rounded path.parts (if i + 1 = path.parts.length then 0 else i + 1) = none) := by
  obtain ⟨part, hp⟩ : ∃ part, path.parts[i]? = some part := ⟨_, List.getElem?_eq_getElem hi⟩
  by_cases hcl : ∃ p a r b, part = .line p a r true b
  · obtain ⟨p, a, r, b, rfl⟩ := hcl
    left
    rw [if_pos (hc.1 i _ _ _ _ hp)]
    simp [nextIndex, hp]
  · have e : nextIndex path i = if i + 1 < path.parts.length then some (i + 1) else none := by
      unfold nextIndex
      rw [hp]
      split
      · rename_i h; cases h; exact absurd ⟨_, _, _, _, rfl⟩ hcl
      · rfl
    rw [e]
    by_cases hn : i + 1 < path.parts.length
    · left
      rw [if_pos hn, if_neg (by omega)]
    · right
      rw [if_neg hn, if_pos (by omega)]
      refine ⟨rfl, ?_⟩
      by_contra hne
      obtain ⟨p, a, r, b, hl⟩ := hc.2 (Option.isSome_iff_ne_none.2 hne)
      rw [List.getLast?_eq_getElem?, show path.parts.length - 1 = i by omega, hp] at hl
      cases hl
      exact hcl ⟨_, _, _, _, rfl⟩

/-- What is added for a part. -/
theorem addPart_eq (path : Path.Path ℝ) (h : Path.Reach path) (tr) (ht : Path.trace path.p0 path.parts = some tr)
    (hc : ClosedOnce path.parts) (ha : ∀ part ∈ path.parts, isArc part = false) (arcs : Nat → Arc)
    (harcs : ∀ i r, rounded path.parts i = some r →
      Rounds (beforeOf tr i) (startOf tr i) (stopOf tr i) r (arcs i) ∧
      partBulge path i r = .ok ⟨(arcs i).center, r, some ⟨(arcs i).start, (arcs i).stop⟩⟩ ∧ partBulgeStart path i r = .ok (arcs i).p ∧
      partBulgeStop path i r = .ok (arcs i).q) (i : Nat) (part : Path.Part ℝ) (hp : path.parts[i]? = some part) :
    addPart path i part = (expected path.parts tr arcs i, .ok ()) := by
  obtain ⟨hi, -⟩ := List.getElem?_eq_some_iff.1 hp
  obtain ⟨pts, hd, htr, he, h1, h2, h3⟩ := ends_eq path h tr ht i part hp
  have hro : rounded path.parts i = part.radius := by simp [rounded, hp]
  by_cases hl : part.isLinear = true
  · obtain ⟨p, rfl⟩ := trace_linear _ _ _ hd hl
    have he : stopOf tr i = p := by rw [he]; rfl
    obtain ⟨next, hnext⟩ : ∃ next, next = if i + 1 = path.parts.length then 0 else i + 1 := ⟨_, rfl⟩
    have hlin : linearPoints path i part = .ok (if (rounded path.parts i).isSome then (arcs i).q else startOf tr i,
        if (rounded path.parts next).isSome then (arcs next).p else p) := by
      have hstart : linearStart path i part = .ok (if (rounded path.parts i).isSome then (arcs i).q else startOf tr i) := by
        unfold linearStart
        cases hr : part.radius with
        | none => rw [hro, hr]; exact h1
        | some r => rw [hro, hr]; exact (harcs i r (by rw [hro, hr])).2.2.2
      have hstop : linearStop path i = .ok (if (rounded path.parts next).isSome then (arcs next).p else p) := by
        rw [← he]
        unfold linearStop
        have hne := next_eq path hc i hi
        rw [← hnext] at hne
        rcases hne with hn | ⟨hn, hn'⟩
        · rw [hn]
          dsimp only
          cases hq : path.parts[next]? with
          | none => simp [rounded, hq, h2]
          | some q =>
            have hroq : rounded path.parts next = q.radius := by simp [rounded, hq]
            dsimp only
            cases hr : q.radius with
            | none => rw [hroq, hr]; exact h2
            | some r => rw [hroq, hr]; exact (harcs next r (by rw [hroq, hr])).2.2.1
        · rw [hn, hn']; exact h2
      simp only [linearPoints, hstart, hstop, bind, Except.bind, pure, Except.pure]
    have hexp : expected path.parts tr arcs i = (match rounded path.parts i with
        | some r => [.circle (arcs i).center r (arcs i).start (arcs i).stop]
        | none => []) ++ [.segment (if (rounded path.parts i).isSome then (arcs i).q else startOf tr i)
          (if (rounded path.parts next).isSome then (arcs next).p else p)] := by
      subst hnext
      simp only [expected, htr, Option.getD_some]
      rfl
    rw [hexp]
    unfold addPart
    rw [if_pos hl]
    cases hr : part.radius with
    | none =>
      dsimp only
      rw [hlin, hro, hr]
    | some r =>
      dsimp only
      rw [(harcs i r (by rw [hro, hr])).2.1]
      dsimp only
      rw [hlin, hro, hr]
  · have hexp : expected path.parts tr arcs i = match startOf tr i :: pts with
      | [a, b, c] => [.quadratic a b c]
      | [a, b, c, d] => [.cubic a b c d]
      | [a, b] => expected path.parts tr arcs i
      | _ => [] := by
      rcases pts with _ | ⟨a, _ | ⟨b, _ | ⟨c, _ | ⟨d, l⟩⟩⟩⟩ <;> simp only [expected, htr, Option.getD_some]
    rw [hexp]
    unfold addPart
    rw [if_neg hl]
    have ha := ha part (List.mem_of_getElem? hp)
    cases part with
    | quad p1 p2 a =>
      simp only [Path.draw, Option.some.injEq] at hd
      subst hd
      dsimp only
      rw [h3]
      cases a <;> rfl
    | cubic p1 p2 p3 a =>
      simp only [Path.draw, Option.some.injEq] at hd
      subst hd
      dsimp only
      rw [h3]
      cases a <;> rfl
    | arc => cases ha
    | stringedCubic => simp [Path.draw] at hd
    | _ => exact absurd rfl hl

theorem addParts_eq (path : Path.Path ℝ) (f : Nat → List Item) : ∀ (rest : List (Path.Part ℝ)) (i : Nat), path.parts.drop i = rest →
    (∀ j part, path.parts[j]? = some part → addPart path j part = (f j, .ok ())) →
    addParts path i rest = ((List.range' i rest.length).flatMap f, .ok ()) := by
  intro rest
  induction rest with
  | nil => intro i _ _; rfl
  | cons part rest ih =>
    intro i hdr h
    have hp : path.parts[i]? = some part := by
      have := congrArg List.head? hdr
      simpa using this
    have hdr' : path.parts.drop (i + 1) = rest := by
      have := congrArg List.tail hdr
      simpa using this
    have := ih (i + 1) hdr' h
    simp only [addParts, h i part hp, this, List.length_cons, List.range'_succ, List.flatMap_cons]

/-- C152. A path without arcs of ellipses nor stringed curves, with well-formed rounded corners and closed once, is drawn as expected: each
corner with a radius is replaced by an arc which is tangent to both parts, the segments run between the arcs, the curves are drawn from
where the previous part stops, and the items come in the order of the parts. -/
theorem path_items_partial (path : Path.Path ℝ) (h : Path.Reach path) (tr) (ht : Path.trace path.p0 path.parts = some tr)
    (ha : ∀ part ∈ path.parts, isArc part = false) (hc : ClosedOnce path.parts) (hg : GoodCorners path.parts tr) :
    ∃ arcs : Nat → Arc, (∀ i r, rounded path.parts i = some r → Rounds (beforeOf tr i) (startOf tr i) (stopOf tr i) r (arcs i)) ∧
      addAsPathSegments path = ((List.range path.parts.length).flatMap (expected path.parts tr arcs), .ok ()) := by
  choose arcs harcs using part_arc path h tr ht hg
  refine ⟨arcs, fun i r hr => (harcs i r hr).1, ?_⟩
  have := addParts_eq path (expected path.parts tr arcs) path.parts 0 rfl
    (fun i part hp => addPart_eq path h tr ht hc ha arcs harcs i part hp)
  rw [List.range_eq_range']
  exact this

/-- C152. Without rounded corners the items are the segments and the curves of the parts, with the points obtained by following them one
after the other. -/
theorem plain_items_partial (path : Path.Path ℝ) (h : Path.Reach path) (tr) (ht : Path.trace path.p0 path.parts = some tr)
    (ha : ∀ part ∈ path.parts, isArc part = false) (hr : ∀ part ∈ path.parts, part.radius = none)
    (hc : ∀ i p a r b, path.parts[i]? = some (.line p a r true b) → i + 1 = path.parts.length) :
    ∃ items, addAsPathSegments path = (items, .ok ()) ∧ items.map Item.control = tr := by
  have hro : ∀ i, rounded path.parts i = none := by
    intro i
    cases hp : path.parts[i]? with
    | none => simp [rounded, hp]
    | some part => simp [rounded, hp, hr part (List.mem_of_getElem? hp)]
  obtain ⟨arcs, -, e⟩ := path_items_partial path h tr ht ha ⟨hc, by simp [hro]⟩ (fun i r hi => by simp [hro] at hi)
  refine ⟨_, e, ?_⟩
  have hlen := Path.trace_length _ _ _ ht
  have hone : ∀ i pts, tr[i]? = some pts → ∃ item, expected path.parts tr arcs i = [item] ∧ item.control = pts := by
    intro i pts hpts
    obtain ⟨hi, -⟩ := List.getElem?_eq_some_iff.1 hpts
    have hp := List.getElem?_eq_getElem (l := path.parts) (i := i) (by omega)
    generalize path.parts[i] = part at hp
    have ha := ha part (List.mem_of_getElem? hp)
    obtain ⟨pts', hd, htr, -⟩ := ends_eq path h tr ht i part hp
    rw [htr] at hpts
    cases hpts
    cases part with
    | stringedCubic => simp [Path.draw] at hd
    | arc => cases ha
    | quad p1 p2 a =>
      simp only [Path.draw, Option.some.injEq] at hd
      subst hd
      cases a <;> exact ⟨_, by simp only [expected, htr, Option.getD_some]; rfl, rfl⟩
    | cubic p1 p2 p3 a =>
      simp only [Path.draw, Option.some.injEq] at hd
      subst hd
      cases a <;> exact ⟨_, by simp only [expected, htr, Option.getD_some]; rfl, rfl⟩
    | _ =>
      simp only [Path.draw, Option.some.injEq] at hd
      subst hd
      exact ⟨_, by simp only [expected, htr, Option.getD_some, hro]; rfl, rfl⟩
  have key : ∀ (l : List (List (Vec ℝ))) (k : Nat), tr.drop k = l →
      ((List.range' k l.length).flatMap (expected path.parts tr arcs)).map Item.control = l := by
    intro l
    induction l with
    | nil => intro k _; rfl
    | cons pts l ih =>
      intro k hk
      have hp : tr[k]? = some pts := by
        have := congrArg List.head? hk
        simpa using this
      have hk' : tr.drop (k + 1) = l := by
        have := congrArg List.tail hk
        simpa using this
      obtain ⟨item, e1, e2⟩ := hone k pts hp
      rw [List.length_cons, List.range'_succ, List.flatMap_cons, List.map_append, ih (k + 1) hk', e1]
      simp [e2]
  have := key tr 0 rfl
  rw [hlen, ← List.range_eq_range'] at this
  exact this

/-- C152. A stringed curve is not drawn, and no error is raised; a part which is drawn from its end raises `NotImplementedError`. -/
theorem stringed_items_wrong (path : Path.Path ℝ) (i : Nat) (absolute : Bool) :
    addPart path i (.stringedCubic absolute) = ([], .ok ()) ∧
    (addAsPathSegments (((Path.Path.new ⟨0, 0⟩).stringedCubicTo ⟨1, 0⟩ ⟨2, 0⟩ true).2.lineTo ⟨1, 1⟩).2) = ([], .error .notImplementedError) := by
  refine ⟨rfl, ?_⟩
  have e : (((Path.Path.new (⟨0, 0⟩ : Vec ℝ)).stringedCubicTo ⟨1, 0⟩ ⟨2, 0⟩ true).2.lineTo ⟨1, 1⟩).2 =
      ⟨⟨0, 0⟩, [.stringedCubic true, .line ⟨1, 1⟩ false none false false], false⟩ := by
    simp [Path.Path.stringedCubicTo, Path.Path.lineTo, Path.Path.addPart, Path.Path.new, Path.setRadius, Path.Part.radius]
  rw [e]
  simp [addAsPathSegments, addParts, addPart, Path.Part.isLinear, Path.Part.radius, linearPoints, linearStart, Path.Path.startPoint,
    Path.Path.prevIndex, Path.Part.startBulge, Path.Path.stopPoint, Path.Path.stopPointFuel, Path.Part.stopFrom, bind, Except.bind]

/-- C152. An arc with a null radius, which is a segment, raises `AttributeError`; an arc whose radii are too small raises `NameError`, as
`svg_arc` does; one with equal ends raises `ZeroDivisionError`. Nothing is added for it. -/
theorem arc_items_wrong (path : Path.Path ℝ) (i : Nat) (p a b : Vec ℝ) (rx ry angle : ℝ) (large sweep absolute : Bool)
    (ha : path.startPoint i = .ok a) (hb : path.stopPoint i = .ok b) :
    ((rx = 0 ∨ ry = 0) → addPart path i (.arc p rx ry angle large sweep absolute) = ([], .error .attributeError)) ∧
    (rx ≠ 0 → ry ≠ 0 → a ≠ b → (¬ ∃ c, a ∈ ellipsePoints c |rx| |ry| angle ∧ b ∈ ellipsePoints c |rx| |ry| angle) →
      addPart path i (.arc p rx ry angle large sweep absolute) = ([], .error .nameError)) ∧
    (rx ≠ 0 → ry ≠ 0 → a = b → addPart path i (.arc p rx ry angle large sweep absolute) = ([], .error .zeroDivisionError)) := by
  refine ⟨fun h => ?_, fun hx hy hne hno => ?_, fun hx hy he => ?_⟩
  · simp [addPart, Path.Part.isLinear, ha, hb, bind, Except.bind, (svg_arc_degenerate a b rx ry angle large sweep).1 h]
  · simp [addPart, Path.Part.isLinear, ha, hb, bind, Except.bind, svg_arc_small a b rx ry angle large sweep hx hy hne hno]
  · subst he
    simp [addPart, Path.Part.isLinear, ha, hb, bind, Except.bind, (svg_arc_degenerate a a rx ry angle large sweep).2 hx hy]

/-- The quadrilateral which is closed without a radius, then closed again with one. -/
noncomputable def closedTwice (p0 p1 p2 p3 : Vec ℝ) (r : ℝ) : Path.Path ℝ :=
  let path := (Path.Path.new p0).lineTo p1 none true |>.2
  let path := path.lineTo p2 none true |>.2
  let path := path.lineTo p3 none true |>.2
  let path := path.close |>.2
  (path.close none (some r)).2

/-- C152 is false of a path closed twice, hence the hypothesis: for every quadrilateral and radius, the first corner is rounded, and the last
segment goes on up to the corner. -/
theorem closed_twice_wrong (p0 p1 p2 p3 : Vec ℝ) (r : ℝ) : Path.Reach (closedTwice p0 p1 p2 p3 r) ∧
    rounded (closedTwice p0 p1 p2 p3 r).parts 0 = some |r| ∧
    ((closedTwice p0 p1 p2 p3 r).parts[3]?).map (addPart (closedTwice p0 p1 p2 p3 r) 3) = some ([.segment p3 p0], .ok ()) := by
  refine ⟨.close _ _ _ (.close _ _ _ (.line _ _ _ _ (.line _ _ _ _ (.line _ _ _ _ (.new _))))), ?_⟩
  have e : closedTwice p0 p1 p2 p3 r = ⟨p0, [.line p1 true (some |r|) false true, .line p2 true none false false,
      .line p3 true none false false, .line p0 true none false false], true⟩ := by
    simp [closedTwice, Path.Path.close, Path.Path.lineTo, Path.Path.addPart, Path.Path.new, Path.setRadius, Path.Part.radius,
      Path.Path.closeStart, Path.Part.close]
  rw [e]
  simp [rounded, Path.Part.radius, addPart, Path.Part.isLinear, linearPoints, linearStart, linearStop, nextIndex, Path.Path.startPoint,
    Path.Path.prevIndex, Path.Part.startBulge, Path.Path.stopPoint, Path.Path.stopPointFuel, Path.Part.stopFrom, bind, Except.bind, pure,
    Except.pure]

/-- A path with curves and rounded corners meets the hypotheses: the rounded rectangle. -/
example : ∃ (path : Path.Path ℝ) (tr : List (List (Vec ℝ))), Path.Reach path ∧ Path.trace path.p0 path.parts = some tr ∧
    (∀ part ∈ path.parts, isArc part = false) ∧ ClosedOnce path.parts ∧ GoodCorners path.parts tr ∧ path.parts.length = 4 ∧
    ∀ i < 4, rounded path.parts i = some 1 := by
  let p1 := ((Path.Path.new (⟨0, 0⟩ : Vec ℝ)).lineTo ⟨4, 0⟩ none true).2
  let p2 := (p1.lineTo ⟨4, 4⟩ (some 1) true).2
  let p3 := (p2.lineTo ⟨0, 4⟩ (some 1) true).2
  refine ⟨(p3.close (some 1) (some 1)).2, [[⟨0, 0⟩, ⟨4, 0⟩], [⟨4, 0⟩, ⟨4, 4⟩], [⟨4, 4⟩, ⟨0, 4⟩], [⟨0, 4⟩, ⟨0, 0⟩]],
    .close _ _ _ (.line _ _ _ _ (.line _ _ _ _ (.line _ _ _ _ (.new _)))), ?_⟩
  have e : (p3.close (some 1) (some 1)).2 = ⟨⟨0, 0⟩, [.line ⟨4, 0⟩ true (some 1) false true, .line ⟨4, 4⟩ true (some 1) false false,
      .line ⟨0, 4⟩ true (some 1) false false, .line ⟨0, 0⟩ true (some 1) true false], true⟩ := by
    simp [p3, p2, p1, Path.Path.close, Path.Path.lineTo, Path.Path.addPart, Path.Path.new, Path.setRadius, Path.Part.radius,
      Path.Part.isLinear, Path.Path.closeStart, Path.Part.close]
  rw [e]
  refine ⟨by simp [Path.trace, Path.draw], by simp [isArc], ⟨?_, ?_⟩, ?_, rfl, ?_⟩
  · intro i p a r b hi
    rcases i with _ | _ | _ | _ | i <;> simp at hi ⊢
  · intro _; exact ⟨_, _, _, _, rfl⟩
  · intro i r hi
    rcases i with _ | _ | _ | _ | i <;> simp [rounded, Path.Part.radius] at hi <;> subst hi <;>
      simp [startOf, stopOf, beforeOf, Vec.cross]
  · intro i hi
    rcases i with _ | _ | _ | _ | i
    · rfl
    · rfl
    · rfl
    · rfl
    · omega

/-! ## A path as one item -/

/-- C153. Added as one item, a path without arcs of ellipses nor stringed curves has the lines and the curves of its parts, with the points
obtained by following them one after the other, and it is closed when the path is. Its rounded corners are ignored. -/
theorem path_item_partial (path : Path.Path ℝ) (h : Path.Reach path) (tr) (ht : Path.trace path.p0 path.parts = some tr)
    (ha : ∀ part ∈ path.parts, isArc part = false) :
    ∃ segments, addAsPath path = (.path path.p0 segments path.closed, .ok ()) ∧ segments.map PathSegment.points = tr.map List.tail := by
  have hlen := Path.trace_length _ _ _ ht
  have key : ∀ (rest : List (Path.Part ℝ)) (i : Nat), path.parts.drop i = rest →
      ∃ segments, pathSegments path i rest = (segments, .ok ()) ∧ segments.map PathSegment.points = (tr.drop i).map List.tail := by
    intro rest
    induction rest with
    | nil =>
      intro i hi
      refine ⟨[], rfl, ?_⟩
      have : path.parts.length ≤ i := List.drop_eq_nil_iff.1 hi
      rw [List.drop_of_length_le (by omega)]
      rfl
    | cons part rest ih =>
      intro i hdr
      have hp : path.parts[i]? = some part := by
        have := congrArg List.head? hdr
        simpa using this
      have hdr' : path.parts.drop (i + 1) = rest := by
        have := congrArg List.tail hdr
        simpa using this
      obtain ⟨segments, h1, h2⟩ := ih (i + 1) hdr'
      obtain ⟨pts, hd, htr, he, g1, g2, g3⟩ := ends_eq path h tr ht i part hp
      have hdt : tr.drop i = (startOf tr i :: pts) :: tr.drop (i + 1) := by
        rw [List.drop_eq_getElem?_toList_append, htr]; rfl
      rw [hdt]
      have ha := ha part (List.mem_of_getElem? hp)
      by_cases hl : part.isLinear = true
      · obtain ⟨p, rfl⟩ := trace_linear _ _ _ hd hl
        refine ⟨.linear p :: segments, ?_, ?_⟩
        · have he : stopOf tr i = p := by rw [he]; rfl
          simp only [pathSegments, if_pos hl, g2, h1, he, bind, Except.bind, pure, Except.pure]
          rfl
        · simp [PathSegment.points, h2]
      · cases part with
        | arc => cases ha
        | stringedCubic => simp [Path.draw] at hd
        | quad p1 p2 a =>
          simp only [Path.draw, Option.some.injEq] at hd
          subst hd
          cases a
          · refine ⟨.quadratic (p1 + startOf tr i) (p2 + startOf tr i) :: segments, ?_, ?_⟩
            · simp [pathSegments, Path.Part.isLinear, Path.Path.toAbsolutePoint, g1, h1, bind, Except.bind, pure, Except.pure, Except.map]
            · simp [PathSegment.points, h2, Path.vec_comm]
          · refine ⟨.quadratic p1 p2 :: segments, ?_, ?_⟩
            · simp [pathSegments, Path.Part.isLinear, Path.Path.toAbsolutePoint, h1, bind, Except.bind, pure, Except.pure]
            · simp [PathSegment.points, h2]
        | cubic p1 p2 p3 a =>
          simp only [Path.draw, Option.some.injEq] at hd
          subst hd
          cases a
          · refine ⟨.cubic (p1 + startOf tr i) (p2 + startOf tr i) (p3 + startOf tr i) :: segments, ?_, ?_⟩
            · simp [pathSegments, Path.Part.isLinear, Path.Path.toAbsolutePoint, g1, h1, bind, Except.bind, pure, Except.pure, Except.map]
            · simp [PathSegment.points, h2, Path.vec_comm]
          · refine ⟨.cubic p1 p2 p3 :: segments, ?_, ?_⟩
            · simp [pathSegments, Path.Part.isLinear, Path.Path.toAbsolutePoint, h1, bind, Except.bind, pure, Except.pure]
            · simp [PathSegment.points, h2]
        | _ => exact absurd rfl hl
  obtain ⟨segments, h1, h2⟩ := key path.parts 0 rfl
  exact ⟨segments, by simp only [addAsPath, h1], by simpa using h2⟩

/-- C153. The arcs of ellipses are left out, and no error is raised: the path which is one arc becomes an item without segments, and the one
which goes on after the arc jumps from the start of the arc to the stop of the next part. -/
theorem path_item_arc_wrong (p q r : Vec ℝ) (rx ry angle : ℝ) (large sweep : Bool) :
    addAsPath (((Path.Path.new p).arcTo q rx ry angle large sweep true).2.lineTo r none true).2 =
      (.path p [.linear r] false, .ok ()) := by
  have e : (((Path.Path.new p).arcTo q rx ry angle large sweep true).2.lineTo r none true).2 =
      ⟨p, [.arc q rx ry angle large sweep true, .line r true none false false], false⟩ := by
    simp [Path.Path.arcTo, Path.Path.lineTo, Path.Path.addPart, Path.Path.new, Path.setRadius, Path.Part.radius]
  rw [e]
  simp [addAsPath, pathSegments, Path.Part.isLinear, Path.Path.stopPoint, Path.Path.stopPointFuel, Path.Part.stopFrom,
    bind, Except.bind, pure, Except.pure]

/-- C153. The geometry of a path item is its start point only, which has no bounding box. -/
theorem path_item_geometry_wrong (t : Vec ℝ → Vec ℝ) (p : Vec ℝ) (segments : List PathSegment) (closed : Bool) :
    ∃ path, (Item.path p segments closed).geometry t = .path path ∧ path.parts = [] ∧ pathBox path = .ok none :=
  ⟨_, rfl, rfl, rfl⟩

/-- C153. So that the update of the index of a scene which has a new item without bounding box never succeeds. -/
theorem path_item_index_wrong {K S G : Type} [Field K] [LinearOrder K] [IsStrictOrderedRing K] (sh : Scene.Shapes K S G)
    {s : Scene.Scene K S G} (h : Scene.Reachable sh s) (id : Nat) (i : Scene.Item K S G) (hi : s.items.get? id = some i)
    (hd : i.dirty = true) (g : G) (hg : (s.itemGeometry sh i).1 = .ok g) (hb : ∀ b, sh.boundingBox g ≠ .ok b) :
    (s.updateRtree sh).1 ≠ .ok () := by
  intro hu
  obtain ⟨g', b, e1, e2, -⟩ := (Scene.update_index sh h hu id i hi).1 hd
  rw [hg] at e1
  cases e1
  exact hb b e2

/-! ## The bounding box of a path -/

theorem isBoxOf_pair (p q : Vec ℝ) : ∃ b, Box.fromPoints [p, q] = some b ∧ IsBoxOf b [p, q] := by
  refine ⟨_, rfl, ?_, ?_⟩
  · intro v hv
    simp only [List.mem_cons, List.not_mem_nil, or_false] at hv
    rcases hv with rfl | rfl <;> simp [Box.Contains, Box.union, Box.ofPoint]
  · intro b' h
    obtain ⟨h1, h2, h3, h4⟩ := h p (by simp)
    obtain ⟨g1, g2, g3, g4⟩ := h q (by simp)
    simp [Box.union, Box.ofPoint, *]

theorem isBoxOf_union (a b : Box ℝ) (l r : List (Vec ℝ)) (ha : IsBoxOf a l) (hb : IsBoxOf b r) : IsBoxOf (a.union b) (l ++ r) := by
  refine ⟨?_, ?_⟩
  · intro v hv
    rcases List.mem_append.1 hv with hv | hv
    · obtain ⟨h1, h2, h3, h4⟩ := ha.1 v hv
      exact ⟨min_le_of_left_le h1, le_max_of_le_left h2, min_le_of_left_le h3, le_max_of_le_left h4⟩
    · obtain ⟨h1, h2, h3, h4⟩ := hb.1 v hv
      exact ⟨min_le_of_right_le h1, le_max_of_le_right h2, min_le_of_right_le h3, le_max_of_le_right h4⟩
  · intro b' h
    obtain ⟨h1, h2, h3, h4⟩ := ha.2 b' (fun v hv => h v (by simp [hv]))
    obtain ⟨g1, g2, g3, g4⟩ := hb.2 b' (fun v hv => h v (by simp [hv]))
    exact ⟨le_min h1 g1, max_le h2 g2, le_min h3 g3, max_le h4 g4⟩

/-- The box of some points. -/
theorem isBoxOf_points (p : Vec ℝ) (l : List (Vec ℝ)) : ∃ b, Box.fromPoints (p :: l) = some b ∧ IsBoxOf b (p :: l) := by
  have hone : ∀ q : Vec ℝ, IsBoxOf (Box.ofPoint q) [q] := by
    intro q
    refine ⟨?_, ?_⟩
    · intro v hv
      rw [List.mem_singleton] at hv
      subst hv
      simp [Box.Contains, Box.ofPoint]
    · intro b' h
      obtain ⟨h1, h2, h3, h4⟩ := h q (by simp)
      simp [Box.ofPoint, *]
  have key : ∀ (l r : List (Vec ℝ)) (a : Box ℝ), IsBoxOf a r → ∃ b, Box.fromPointsLoop (some a) l = some b ∧ IsBoxOf b (r ++ l) := by
    intro l
    induction l with
    | nil => intro r a ha; exact ⟨a, rfl, by simpa using ha⟩
    | cons q l ih =>
      intro r a ha
      obtain ⟨b, h1, h2⟩ := ih (r ++ [q]) _ (isBoxOf_union _ _ _ _ ha (hone q))
      exact ⟨b, h1, by simpa using h2⟩
  exact key l [p] _ (hone p)

/-- A part which is a line or a Bézier curve. An arc with a null radius is a line. -/
def isCurve : Path.Part ℝ → Prop
  | .arc _ rx ry .. => rx = 0 ∨ ry = 0
  | .stringedCubic .. => False
  | _ => True

/-- C154, paths of lines, arcs with a null radius and Bézier curves, without rounded corners: the bounding box is the smallest box which contains their points and
control points; a path without parts has none. -/
theorem path_box_partial (path : Path.Path ℝ) (h : Path.Reach path) (tr) (ht : Path.trace path.p0 path.parts = some tr)
    (hl : ∀ part ∈ path.parts, isCurve part) (hr : ∀ part ∈ path.parts, part.radius = none) :
    (path.parts = [] → pathBox path = .ok none) ∧
    (path.parts ≠ [] → ∃ b, pathBox path = .ok (some b) ∧ IsBoxOf b tr.flatten) := by
  have hlen := Path.trace_length _ _ _ ht
  have hbox : ∀ i part, path.parts[i]? = some part → ∃ pts b, tr[i]? = some pts ∧ partBox path i part = .ok (some b) ∧ IsBoxOf b pts := by
    intro i part hp
    obtain ⟨pts, hd, htr, he, g1, g2, g3⟩ := ends_eq path h tr ht i part hp
    obtain ⟨b, hb1, hb2⟩ := isBoxOf_points (startOf tr i) pts
    refine ⟨_, b, htr, ?_, hb2⟩
    have hc := hl part (List.mem_of_getElem? hp)
    by_cases hlin : part.isLinear = true
    swap
    · cases part <;> simp only [isCurve, Path.Part.isLinear, not_true_eq_false, Bool.false_eq_true] at hc hlin
      case arc p rx ry angle large sweep absolute =>
        obtain ⟨q, rfl⟩ : ∃ q, pts = [q] := by
          simp only [Path.draw, Option.some.injEq] at hd
          exact ⟨_, hd.symm⟩
        have he : stopOf tr i = q := by rw [he]; rfl
        have harc : Conic.Ellipse.svgArc (startOf tr i) q rx ry angle large sweep = .ok (.segment ⟨startOf tr i, q⟩) := by
          unfold Conic.Ellipse.svgArc
          rw [if_pos hc]
        simp only [partBox, g1, g2, he, harc, bind, Except.bind, pure, Except.pure, hb1]
      all_goals simp only [partBox, g3, bind, Except.bind, pure, Except.pure, hb1]
    obtain ⟨p, rfl⟩ := trace_linear _ _ _ hd hlin
    have he : stopOf tr i = p := by rw [he]; rfl
    have hrad := hr part (List.mem_of_getElem? hp)
    have hstop : linearStop path i = .ok p := by
      unfold linearStop
      rw [g2, he]
      cases nextIndex path i with
      | none => rfl
      | some j =>
        dsimp only
        cases hq : path.parts[j]? with
        | none => rfl
        | some q =>
          dsimp only
          rw [hr q (List.mem_of_getElem? hq)]
    have hpts : linearPoints path i part = .ok (startOf tr i, p) := by
      simp only [linearPoints, linearStart, hrad, g1, hstop, bind, Except.bind, pure, Except.pure]
    cases part <;> simp only [isCurve, Path.Part.isLinear, Bool.false_eq_true] at hc hlin
    all_goals simp only [partBox, hpts, g1, g2, he, hb1, bind, Except.bind, pure, Except.pure]
  have key : ∀ (rest : List (Path.Part ℝ)) (i : Nat) (b : Box ℝ) (l : List (Vec ℝ)), path.parts.drop i = rest → IsBoxOf b l →
      ∃ b', pathBoxLoop path i rest (some b) = .ok (some b') ∧ IsBoxOf b' (l ++ (tr.drop i).flatten) := by
    intro rest
    induction rest with
    | nil =>
      intro i b l hi hb
      refine ⟨b, rfl, ?_⟩
      have : path.parts.length ≤ i := List.drop_eq_nil_iff.1 hi
      rw [List.drop_of_length_le (by omega)]
      simpa using hb
    | cons part rest ih =>
      intro i b l hdr hb
      have hp : path.parts[i]? = some part := by
        have := congrArg List.head? hdr
        simpa using this
      have hdr' : path.parts.drop (i + 1) = rest := by
        have := congrArg List.tail hdr
        simpa using this
      obtain ⟨pts, b2, e1, e2, e3⟩ := hbox i part hp
      obtain ⟨b', f1, f2⟩ := ih (i + 1) _ _ hdr' (isBoxOf_union _ _ _ _ hb e3)
      refine ⟨b', by simp only [pathBoxLoop, e2]; exact f1, ?_⟩
      rw [List.drop_eq_getElem?_toList_append (l := tr), e1]
      simpa using f2
  constructor
  · intro e
    simp [pathBox, e, pathBoxLoop]
  · intro hne
    obtain ⟨part, rest, e⟩ := List.exists_cons_of_ne_nil hne
    obtain ⟨pts, b, e1, e2, e3⟩ := hbox 0 part (by simp [e])
    obtain ⟨b', f1, f2⟩ := key rest 1 b pts (by simp [e]) e3
    refine ⟨b', by simp only [pathBox, e, pathBoxLoop, e2]; exact f1, ?_⟩
    have : tr = pts :: tr.drop 1 := by
      have := List.drop_eq_getElem?_toList_append (l := tr) (i := 0)
      rw [e1] at this
      simpa using this
    rw [this]
    simpa using f2

/-- C154. The box of such a path contains every point of its lines and of its curves. -/
theorem path_box_contains (path : Path.Path ℝ) (h : Path.Reach path) (tr) (ht : Path.trace path.p0 path.parts = some tr)
    (hl : ∀ part ∈ path.parts, isCurve part) (hr : ∀ part ∈ path.parts, part.radius = none) (b : Box ℝ)
    (hb : pathBox path = .ok (some b)) (pts) (hp : pts ∈ tr) (t : ℝ) (h0 : 0 ≤ t) (h1 : t ≤ 1) :
    (∀ p q, pts = [p, q] → b.Contains (p + (q - p).smul t)) ∧
    (∀ p q r, pts = [p, q, r] → b.Contains ((⟨p, q, r⟩ : Bezier.Quad ℝ).pointAt t)) ∧
    ∀ p q r s, pts = [p, q, r, s] → b.Contains ((⟨p, q, r, s⟩ : Bezier.Cubic ℝ).pointAt t) := by
  have hbox : IsBoxOf b tr.flatten := by
    obtain ⟨e1, e2⟩ := path_box_partial path h tr ht hl hr
    by_cases he : path.parts = []
    · rw [e1 he] at hb; cases hb
    · obtain ⟨b', hb', hi⟩ := e2 he
      rw [hb'] at hb; cases hb; exact hi
  have hin : ∀ v ∈ pts, b.Contains v := fun v hv => hbox.1 v (List.mem_flatten.2 ⟨pts, hp, hv⟩)
  refine ⟨?_, ?_, ?_⟩
  · rintro p q rfl
    obtain ⟨a1, a2, a3, a4⟩ := hin p (by simp)
    obtain ⟨b1, b2, b3, b4⟩ := hin q (by simp)
    refine ⟨?_, ?_, ?_, ?_⟩ <;> simp only [Vec.add_x, Vec.add_y, Vec.smul_x, Vec.smul_y, Vec.sub_x, Vec.sub_y] <;> nlinarith
  · rintro p q r rfl
    exact Bezier.in_box_quad ⟨p, q, r⟩ t h0 h1 ⟨b.xInf, b.yInf⟩ ⟨b.xSup, b.ySup⟩ hin
  · rintro p q r s rfl
    exact Bezier.in_box ⟨p, q, r, s⟩ t h0 h1 ⟨b.xInf, b.yInf⟩ ⟨b.xSup, b.ySup⟩ hin

/-- C154 is false of the curves: the box contains the control points, so that it is not the smallest one which contains the curve. The box of
a quadratic curve whose control point is above its ends goes up to the control point, the curve at most half of the way. -/
theorem path_box_curve_wrong (p0 p1 p2 : Vec ℝ) (m : ℝ) (h0 : p0.y ≤ m) (h2 : p2.y ≤ m) (h1 : m < p1.y) :
    ∃ b, Path.Reach ((Path.Path.new p0).quadraticTo p1 p2 true).2 ∧ pathBox ((Path.Path.new p0).quadraticTo p1 p2 true).2 = .ok (some b) ∧
      b.ySup = p1.y ∧ ∀ t : ℝ, 0 ≤ t → t ≤ 1 → ((⟨p0, p1, p2⟩ : Bezier.Quad ℝ).pointAt t).y ≤ (m + p1.y) / 2 := by
  have e : ((Path.Path.new p0).quadraticTo p1 p2 true).2 = ⟨p0, [.quad p1 p2 true], false⟩ := by
    simp [Path.Path.quadraticTo, Path.Path.addPart, Path.Path.new, Path.Part.radius]
  have hp : Path.Path.points ⟨p0, [.quad p1 p2 true], false⟩ 0 = .ok [p0, p1, p2] := rfl
  obtain ⟨b, hb1, hb2⟩ := isBoxOf_points p0 [p1, p2]
  refine ⟨b, .quadratic _ _ _ _ (.new _), ?_, ?_, ?_⟩
  · rw [e]
    simp only [pathBox, pathBoxLoop, partBox, hp, hb1, bind, Except.bind, pure, Except.pure]
  · simp only [Box.fromPoints, Box.fromPointsLoop, Box.union, Box.ofPoint, Option.some.injEq] at hb1
    rw [← hb1]
    dsimp only
    rw [max_eq_right (by linarith : p0.y ≤ p1.y), max_eq_left (by linarith : p2.y ≤ p1.y)]
  · intro t ht0 ht1
    rw [Bezier.quad_bernstein]
    simp only [Bezier.bernstein2, Vec.add_y, Vec.smul_y]
    nlinarith [sq_nonneg (2 * t - 1), mul_nonneg ht0 (sub_nonneg.2 ht1), mul_nonneg (sq_nonneg t) (sub_nonneg.2 h2),
      mul_nonneg (sq_nonneg (1 - t)) (sub_nonneg.2 h0), mul_nonneg (sq_nonneg (2 * t - 1)) (sub_nonneg.2 h1.le)]

/-- From (0, 0) to (2, 0) with the control point (1, 2): the box goes up to 2, the curve to 1. -/
example : (⟨0, 0⟩ : Vec ℝ).y ≤ 0 ∧ (⟨2, 0⟩ : Vec ℝ).y ≤ 0 ∧ (0 : ℝ) < (⟨1, 2⟩ : Vec ℝ).y := by norm_num

/-- C154 is false of the stringed curves: asking for the box of the path raises `AttributeError`, or what the part before raises. -/
theorem path_box_stringed_wrong (p p1 p2 : Vec ℝ) (absolute : Bool) :
    Path.Reach ((Path.Path.new p).stringedCubicTo p1 p2 absolute).2 ∧
    pathBox ((Path.Path.new p).stringedCubicTo p1 p2 absolute).2 = .error .attributeError := by
  refine ⟨.stringedCubic _ _ _ _ (.new _), ?_⟩
  have e : ((Path.Path.new p).stringedCubicTo p1 p2 absolute).2 = ⟨p, [.stringedCubic absolute], false⟩ := by
    simp [Path.Path.stringedCubicTo, Path.Path.addPart, Path.Path.new, Path.Part.radius]
  rw [e]
  rfl

/-- The path (-2, 0), (0, 2), (2, 0), with its corner rounded by the radius √2. -/
noncomputable def roof : Path.Path ℝ :=
  ((((Path.Path.new (⟨-2, 0⟩ : Vec ℝ)).lineTo ⟨0, 2⟩ none true).2).lineTo ⟨2, 0⟩ (some (Real.sqrt 2)) true).2

/-- C154 is false of the rounded corners: the arc is not in the box. -/
theorem path_box_wrong : ∃ (center : Vec ℝ) (start stop : ℝ) (b : Box ℝ) (v : Vec ℝ), Path.Reach roof ∧
    Item.circle center (Real.sqrt 2) start stop ∈ (addAsPathSegments roof).1 ∧ pathBox roof = .ok (some b) ∧
    v ∈ arcPoints center (Real.sqrt 2) start (Domain.sweep ⟨start, stop⟩) ∧ ¬ b.Contains v := by
  have hreach : Path.Reach roof := .line _ _ _ _ (.line _ _ _ _ (.new _))
  have hs2 : 0 < Real.sqrt 2 := by positivity
  have hss : Real.sqrt 2 ^ 2 = 2 := Real.sq_sqrt (by norm_num)
  have e : roof = ⟨⟨-2, 0⟩, [.line ⟨0, 2⟩ true none false false, .line ⟨2, 0⟩ true (some (Real.sqrt 2)) false false], false⟩ := by
    simp [roof, Path.Path.lineTo, Path.Path.addPart, Path.Path.new, Path.setRadius, Path.Part.radius, Path.Part.isLinear]
  have ht : Path.trace roof.p0 roof.parts = some [[⟨-2, 0⟩, ⟨0, 2⟩], [⟨0, 2⟩, ⟨2, 0⟩]] := by
    rw [e]; simp [Path.trace, Path.draw]
  have hg : GoodCorners roof.parts [[⟨-2, 0⟩, ⟨0, 2⟩], [⟨0, 2⟩, ⟨2, 0⟩]] := by
    rw [e]
    intro i r hi
    rcases i with _ | _ | i <;> simp [rounded, Path.Part.radius] at hi
    subst hi
    exact ⟨hs2, by norm_num [startOf, stopOf, beforeOf, Vec.cross]⟩
  obtain ⟨arc, harc⟩ := part_arc roof hreach _ ht hg 1
  obtain ⟨hR, hb1, hb2, hb3⟩ := harc (Real.sqrt 2) (by rw [e]; rfl)
  have hbe : beforeOf [[⟨-2, 0⟩, ⟨0, 2⟩], [⟨0, 2⟩, (⟨2, 0⟩ : Vec ℝ)]] 1 = ⟨-2, 0⟩ := by simp [beforeOf, startOf]
  have hst : startOf [[⟨-2, 0⟩, ⟨0, 2⟩], [⟨0, 2⟩, (⟨2, 0⟩ : Vec ℝ)]] 1 = ⟨0, 2⟩ := by simp [startOf]
  have hsp : stopOf [[⟨-2, 0⟩, ⟨0, 2⟩], [⟨0, 2⟩, (⟨2, 0⟩ : Vec ℝ)]] 1 = ⟨2, 0⟩ := by simp [stopOf]
  rw [hbe, hst, hsp] at hR
  obtain ⟨⟨k, hk, hp⟩, ⟨k', hk', hq⟩, hsame, t1, t2, hsw, -, hright⟩ := hR
  obtain ⟨hqa, hpa⟩ := hright (by norm_num [Vec.cross])
  obtain ⟨center, start, stop, p, q⟩ := arc
  dsimp only at *
  have hpx := congrArg Vec.x hp
  have hpy := congrArg Vec.y hp
  have hqx := congrArg Vec.x hq
  have hqy := congrArg Vec.y hq
  simp at hpx hpy hqx hqy
  have hkk : k = k' := by
    rw [distance_symm, distance_symm q, ← distance_eq, ← distance_eq] at hsame
    have := congrArg (fun x => x * x) hsame
    simp only [Vec.magnitude_mul_self, Vec.magnitudeSquare, Vec.sub_x, Vec.sub_y, hpx, hpy, hqx, hqy] at this
    have h8 : (k - k') * (k + k') = 0 := by nlinarith
    rcases mul_eq_zero.1 h8 with h | h <;> linarith
  subst hkk
  simp only [Vec.dot, Vec.sub_x, Vec.sub_y, hpx, hpy, hqx, hqy] at t1 t2
  have hcx : center.x = 0 := by linarith
  have hcy : center.y = 2 - 4 * k := by linarith
  have hk2 : k = 1 / 2 := by
    have ax := congrArg Vec.x hqa
    have ay := congrArg Vec.y hqa
    simp only [onCircle, hqx, hqy, hcx, hcy] at ax ay
    have hsc := Real.sin_sq_add_cos_sq (start * Real.pi / 180)
    have : 8 * k ^ 2 = 2 := by
      have e1 : Real.sqrt 2 * Real.cos (start * Real.pi / 180) = 2 * k := by linarith
      have e2 : Real.sqrt 2 * Real.sin (start * Real.pi / 180) = 2 * k := by linarith
      linear_combination hss + Real.sqrt 2 ^ 2 * hsc - (Real.sqrt 2 * Real.cos (start * Real.pi / 180) + 2 * k) * e1
        - (Real.sqrt 2 * Real.sin (start * Real.pi / 180) + 2 * k) * e2
    nlinarith
  subst hk2
  have hlp0 : linearPoints roof 0 (.line ⟨0, 2⟩ true none false false) = .ok (⟨-2, 0⟩, p) := by
    have h1 : nextIndex roof 0 = some 1 := by rw [e]; rfl
    have h2 : roof.parts[1]? = some (.line ⟨2, 0⟩ true (some (Real.sqrt 2)) false false) := by rw [e]; rfl
    have h3 : roof.startPoint 0 = .ok ⟨-2, 0⟩ := by rw [e]; rfl
    simp only [linearPoints, linearStart, linearStop, h1, h2, Path.Part.radius, hb2, h3, bind, Except.bind, pure, Except.pure]
  have hlp1 : linearPoints roof 1 (.line ⟨2, 0⟩ true (some (Real.sqrt 2)) false false) = .ok (q, ⟨2, 0⟩) := by
    have h1 : nextIndex roof 1 = none := by rw [e]; rfl
    have h3 : roof.stopPoint 1 = .ok ⟨2, 0⟩ := by rw [e]; rfl
    simp only [linearPoints, linearStart, linearStop, h1, Path.Part.radius, hb3, h3, bind, Except.bind, pure, Except.pure]
  -- a point of the arc above or below the centre
  obtain ⟨s, ⟨hs0, hs1⟩, hsx⟩ : ∃ s ∈ Set.Icc 0 (Domain.sweep ⟨start, stop⟩), (onCircle center (Real.sqrt 2) (start + s)).x = 0 := by
    have hcont : ContinuousOn (fun s => (onCircle center (Real.sqrt 2) (start + s)).x) (Set.Icc 0 (Domain.sweep ⟨start, stop⟩)) := by
      unfold onCircle
      fun_prop
    refine intermediate_value_Icc' hsw.1.le hcont ⟨?_, ?_⟩
    · rw [← hpa, hpx]; norm_num
    · rw [add_zero, ← hqa, hqx]; norm_num
  refine ⟨center, start, stop, ⟨-2, 2, 0, 1⟩, onCircle center (Real.sqrt 2) (start + s), hreach, ?_, ?_, ⟨s, hs0, hs1, rfl⟩, ?_⟩
  · have hp0 : addPart roof 0 (.line ⟨0, 2⟩ true none false false) = ([.segment ⟨-2, 0⟩ p], .ok ()) := by
      simp only [addPart, Path.Part.isLinear, Path.Part.radius, if_true, hlp0, List.nil_append]
    have hp1 : addPart roof 1 (.line ⟨2, 0⟩ true (some (Real.sqrt 2)) false false) =
        ([.circle center (Real.sqrt 2) start stop, .segment q ⟨2, 0⟩], .ok ()) := by
      simp only [addPart, Path.Part.isLinear, Path.Part.radius, if_true, hlp1, hb1]
      rfl
    have : roof.parts = [.line ⟨0, 2⟩ true none false false, .line ⟨2, 0⟩ true (some (Real.sqrt 2)) false false] := by rw [e]
    simp only [addAsPathSegments, this, addParts, hp0, hp1]
    simp
  · have : roof.parts = [.line ⟨0, 2⟩ true none false false, .line ⟨2, 0⟩ true (some (Real.sqrt 2)) false false] := by rw [e]
    simp only [pathBox, this, pathBoxLoop, partBox, hlp0, hlp1, bind, Except.bind, pure, Except.pure]
    simp [Box.fromPoints, Box.fromPointsLoop, Box.union, Box.ofPoint, hpx, hpy, hqx, hqy]
    norm_num
  · rintro ⟨-, -, h3, h4⟩
    simp only [onCircle] at hsx h3 h4
    have hsc := Real.sin_sq_add_cos_sq ((start + s) * Real.pi / 180)
    have hcos : Real.cos ((start + s) * Real.pi / 180) = 0 := by
      rw [hcx, zero_add] at hsx
      exact (mul_eq_zero.1 hsx).resolve_left hs2.ne'
    rw [hcos] at hsc
    rw [hcy] at h3 h4
    have : (Real.sqrt 2 * Real.sin ((start + s) * Real.pi / 180)) ^ 2 = 2 := by
      rw [mul_pow, hss]; linarith
    nlinarith

end Patro.SceneGeometry
