import Verif.Spec.DxfRoundTrip
import Verif.Props.Painters
import Verif.Props.DxfImport
/-! # Properties of a scene saved as a DXF file and imported again: C192 -/

namespace Patro.DxfRoundTrip

open Painters (Shape Points PaintOrder DxfReady DxfShows)
open Spline (BSpline)

variable {G : Type}

/-- The basis functions of the knots 0 0 0 0 1 1 1 1 are the polynomials of Bernstein. -/
theorem curve_bezier (knots : List ℝ) (hk : DxfImport.StandardKnots 3 4 knots) (p q r s : Vec ℝ) (t : ℝ) (t0 : 0 ≤ t) (t1 : t < 1) :
    Spline.curve knots 3 [p, q, r, s] t = bezier p q r s t := by
  have hkn : knots = [0, 0, 0, 0, 1, 1, 1, 1] := by
    apply List.ext_getElem?
    intro i
    by_cases hi : i < 8
    · rw [hk.2 i hi]
      interval_cases i <;> simp
    · rw [List.getElem?_eq_none (by rw [hk.1]; omega), List.getElem?_eq_none (by simp; omega)]
  subst hkn
  have hlt : ¬ t < 0 := by linarith
  have hle : ¬ (1 : ℝ) ≤ t := by linarith
  unfold Spline.curve bezier Spline.weighted
  simp only [List.map_cons, List.map_nil, List.length_cons, List.length_nil, Finset.sum_range_succ, Finset.sum_range_zero, Spline.N, Spline.knotAt]
  ext <;> simp [t0, t1, hlt, hle] <;> ring

theorem imported_cubic (points : List (ℝ × ℝ × ℝ)) (p q r s : Vec ℝ) (h : DxfImport.plane points = [p, q, r, s]) :
    ∃ b, DxfImport.onSpline points 3 false = .ok (.spline b) ∧ (∀ x, 0 ≤ x → x ≤ 1 → b.pointAt x = .ok (bezier p q r s x)) ∧
      ∀ x, x < 0 ∨ 1 < x → b.pointAt x = .error .valueError := by
  have hl : points.length = 4 := by
    have := congrArg List.length h
    simpa [DxfImport.plane] using this
  obtain ⟨b, h1, h2, h3, h4, h5, h6, h7⟩ := (DxfImport.onSpline_eq points 3 false).2 (by omega)
  obtain ⟨hv, hrange, -, ⟨z, hz, hlast⟩, hout⟩ := Spline.pointAt_uniform b h7
  have hb : b.points.length = 4 := by rw [h2, h]; rfl
  have hone : ((b.points.length : ℝ) - (b.degree : ℝ)) = 1 := by rw [hb, h3]; norm_num
  rw [hone] at hlast hout
  refine ⟨b, h1, ?_, hout⟩
  intro x x0 x1
  rcases x1.lt_or_eq with x1 | rfl
  · rw [Spline.pointAt_curve b hv x ((hrange x).2 ⟨x0, by rw [hone]; exact x1⟩), h3, h2, h]
    rw [hl] at h6
    rw [curve_bezier b.knots h6 p q r s x x0 x1]
  · rw [hlast]
    rw [h2, h] at hz
    simp at hz
    subst hz
    congr 1
    ext <;> simp [bezier]

theorem readLoop_append (knots : List ℝ) (s : Scene.Scene ℝ (Shape ℝ) G) : ∀ (l : List (Scene.Item ℝ (Shape ℝ) G))
    (entities : List (List (Painters.Entity ℝ))) (done : List DxfImport.Item), List.Forall₂ (DxfShows s) l entities →
    ∃ items, DxfImport.readLoop done (entities.flatten.map (written knots)) = .ok (done ++ items) ∧
      List.Forall₂ (Gives s 10) (l.filter drawn) items
  | _, _, done, .nil => ⟨[], by simp [DxfImport.readLoop], .nil⟩
  | i :: l, e :: entities, done, .cons he h => by
    rcases he with ⟨hk, p, hp, rfl⟩ | ⟨hk, rfl⟩ | ⟨hk, p, q, d, hp, hd, rfl⟩ | ⟨hk, p, q, r, t, d, hp, hd, rfl⟩
    · obtain ⟨items, h1, h2⟩ := readLoop_append knots s l entities done h
      refine ⟨items, ?_, ?_⟩
      · exact h1
      · have : drawn i = false := by simp [drawn, hk]
        rw [List.filter_cons_of_neg (by simp [this])]
        exact h2
    · obtain ⟨items, h1, h2⟩ := readLoop_append knots s l entities done h
      refine ⟨items, h1, ?_⟩
      have : drawn i = false := by simp [drawn, hk]
      rw [List.filter_cons_of_neg (by simp [this])]
      exact h2
    · obtain ⟨items, h1, h2⟩ := readLoop_append knots s l entities (done ++ [.segment ⟨scaled 10 p, scaled 10 q⟩]) h
      refine ⟨.segment ⟨scaled 10 p, scaled 10 q⟩ :: items, ?_, ?_⟩
      · rw [List.append_assoc] at h1
        exact h1
      · have : drawn i = true := by simp [drawn, hk]
        rw [List.filter_cons_of_pos this]
        exact .cons (.inl ⟨hk, p, q, hp, rfl⟩) h2
    · obtain ⟨b, hb, hin, hout⟩ := imported_cubic
        [(10 * p.x, 10 * p.y, 0), (10 * q.x, 10 * q.y, 0), (10 * r.x, 10 * r.y, 0), (10 * t.x, 10 * t.y, 0)]
        (scaled 10 p) (scaled 10 q) (scaled 10 r) (scaled 10 t) rfl
      obtain ⟨items, h1, h2⟩ := readLoop_append knots s l entities (done ++ [.spline b]) h
      refine ⟨.spline b :: items, ?_, ?_⟩
      · rw [List.append_assoc] at h1
        simp only [List.flatten_cons, List.map_append, List.map_cons, List.map_nil, written, List.cons_append, List.nil_append,
          DxfImport.readLoop, DxfImport.onEntity, hb]
        exact h1
      · have : drawn i = true := by simp [drawn, hk]
        rw [List.filter_cons_of_pos this]
        refine .cons (.inr ⟨hk, p, q, r, t, b, hp, rfl, ?_, hout⟩) h2
        intro x x0 x1
        rw [hin x x0 x1]
        congr 1
        ext <;> simp only [bezier, scaled] <;> ring

/-- C192, what holds: a scene of texts, circles, segments and cubic curves that are black or have no colour name, saved as a DXF file and
imported again, gives one item for each visible segment and each visible cubic curve, in the order they are painted: the segment with the
same ends, the spline with the same point at every parameter, all ten times larger. The texts and the circles are lost. -/
theorem round_trip_partial (knots : List ℝ) (s : Scene.Scene ℝ (Shape ℝ) G) (h : ∀ i ∈ s.items.values, i.visible = true → DxfReady s i) :
    ∃ l items, PaintOrder s l ∧ saveAndImport knots s = .ok items ∧ List.Forall₂ (Gives s 10) (l.filter drawn) items := by
  obtain ⟨l, entities, h1, h2, h3⟩ := Painters.dxf_items_partial s h
  obtain ⟨items, h4, h5⟩ := readLoop_append knots s l entities [] h2
  refine ⟨l, items, h1, ?_, h5⟩
  unfold saveAndImport
  rw [h3]
  exact h4

theorem points_unique {s : Scene.Scene ℝ (Shape ℝ) G} {i : Scene.Item ℝ (Shape ℝ) G} {l l' : List (Vec ℝ)} (h : Points s i l) (h' : Points s i l') :
    l = l' := by
  unfold Points at h h'
  generalize i.positions = ps at h h'
  induction h generalizing l' with
  | nil => cases h'; rfl
  | cons hd _ ih =>
    cases h' with
    | cons hd' tl' =>
      rw [hd] at hd'
      cases hd'
      rw [ih tl']

theorem bezier_zero (p q r t : Vec ℝ) (h : ∀ x : ℝ, 0 ≤ x → x ≤ 1 → bezier p q r t x = ⟨0, 0⟩) :
    p = ⟨0, 0⟩ ∧ q = ⟨0, 0⟩ ∧ r = ⟨0, 0⟩ ∧ t = ⟨0, 0⟩ := by
  have h0 := h 0 (by norm_num) (by norm_num)
  have h1 := h 1 (by norm_num) (by norm_num)
  have h2 := h (1 / 2) (by norm_num) (by norm_num)
  have h3 := h (1 / 3) (by norm_num) (by norm_num)
  simp only [bezier, Vec.mk.injEq] at h0 h1 h2 h3
  norm_num at h0 h1 h2 h3
  obtain ⟨a0, b0⟩ := h0
  obtain ⟨a1, b1⟩ := h1
  obtain ⟨a2, b2⟩ := h2
  obtain ⟨a3, b3⟩ := h3
  refine ⟨?_, ?_, ?_, ?_⟩ <;> ext <;> simp only <;> linarith

/-- C192 fails for the scale: an imported segment or curve is the one of the scene only when all its points are at the origin. -/
theorem scale_wrong (s : Scene.Scene ℝ (Shape ℝ) G) (i : Scene.Item ℝ (Shape ℝ) G) (j : DxfImport.Item) (h10 : Gives s 10 i j) :
    Gives s 1 i j ↔ ∀ l, Points s i l → ∀ p ∈ l, p = ⟨0, 0⟩ := by
  have back : ∀ p : Vec ℝ, scaled 10 p = scaled 1 p → p = ⟨0, 0⟩ := by
    intro p h
    simp only [scaled, Vec.mk.injEq] at h
    ext <;> simp only <;> linarith [h.1, h.2]
  have zero : ∀ k : ℝ, scaled k ⟨0, 0⟩ = ⟨0, 0⟩ := by intro k; simp [scaled]
  rcases h10 with ⟨hk, p, q, hp, rfl⟩ | ⟨hk, p, q, r, t, b, hp, rfl, hin, hout⟩
  · constructor
    · rintro (⟨-, p', q', hp', he⟩ | ⟨hk', -⟩)
      · cases points_unique hp hp'
        simp only [DxfImport.Item.segment.injEq, Segment.mk.injEq] at he
        intro l hl v hv
        cases points_unique hp hl
        simp only [List.mem_cons, List.not_mem_nil, or_false] at hv
        rcases hv with rfl | rfl
        · exact back _ he.1
        · exact back _ he.2
      · rw [hk] at hk'; cases hk'
    · intro h
      have e1 := h _ hp p (by simp)
      have e2 := h _ hp q (by simp)
      refine .inl ⟨hk, p, q, hp, ?_⟩
      rw [e1, e2, zero, zero]
  · constructor
    · rintro (⟨hk', -⟩ | ⟨-, p', q', r', t', b', hp', he, hin', -⟩)
      · rw [hk] at hk'; cases hk'
      · cases points_unique hp hp'
        cases he
        obtain ⟨e1, e2, e3, e4⟩ := bezier_zero p q r t fun x x0 x1 => by
          have := (hin x x0 x1).symm.trans (hin' x x0 x1)
          exact back _ (Except.ok.inj this)
        intro l hl v hv
        cases points_unique hp hl
        simp only [List.mem_cons, List.not_mem_nil, or_false] at hv
        rcases hv with rfl | rfl | rfl | rfl <;> assumption
    · intro h
      have e1 := h _ hp p (by simp)
      have e2 := h _ hp q (by simp)
      have e3 := h _ hp r (by simp)
      have e4 := h _ hp t (by simp)
      subst e1 e2 e3 e4
      have e : ∀ x, bezier ⟨0, 0⟩ ⟨0, 0⟩ ⟨0, 0⟩ ⟨0, 0⟩ x = ⟨0, 0⟩ := by intro x; simp [bezier]
      refine .inr ⟨hk, _, _, _, _, b, hp, rfl, ?_, hout⟩
      intro x x0 x1
      rw [hin x x0 x1, e, zero, zero]

/-- C192 fails for the texts and the circles: a scene whose visible items are of these kinds comes back empty. -/
theorem lost_wrong (knots : List ℝ) (s : Scene.Scene ℝ (Shape ℝ) G) (h : ∀ i ∈ s.items.values, i.visible = true → DxfReady s i)
    (hk : ∀ i ∈ s.items.values, i.visible = true → i.shape.kind = .text ∨ i.shape.kind = .circle) : saveAndImport knots s = .ok [] := by
  obtain ⟨l, items, h1, h2, h3⟩ := round_trip_partial knots s h
  have : l.filter drawn = [] := by
    rw [List.filter_eq_nil_iff]
    intro i hi
    have hi := h1.1.mem_iff.1 hi
    rw [List.mem_filter] at hi
    rcases hk i hi.1 hi.2 with h | h <;> simp [drawn, h]
  rw [this] at h3
  cases h3
  exact h2

/-! ## A scene -/

/-- A scene with a black segment, a text, and a curve below them. -/
noncomputable def demo : Scene.Scene ℝ (Shape ℝ) Unit :=
  { transformation := id
    coordinates := [("A", ⟨1, 2⟩)]
    items := [
      (1, { shape := ⟨.segment, [], 0, ⟨.dashLine, "1".toList, some { name := some "black".toList }⟩⟩, positions := [.name "A", .vector ⟨3, 4⟩],
            userData := none, z := 1 }),
      (2, { shape := ⟨.text, "A".toList, 0, ⟨.solidLine, "1".toList, none⟩⟩, positions := [.name "A"], userData := none, z := 1 }),
      (3, { shape := ⟨.cubicBezier, [], 0, ⟨.solidLine, "1".toList, some {}⟩⟩,
            positions := [.vector ⟨0, 0⟩, .vector ⟨0, 1⟩, .vector ⟨1, 1⟩, .vector ⟨1, 0⟩], userData := none, z := 0 })] }

theorem demo_ready : ∀ i ∈ demo.items.values, i.visible = true → DxfReady demo i := by
  intro i hi hv
  have hA : demo.castPosition (.name "A") = .ok ⟨1, 2⟩ := by
    simp [demo, Scene.Scene.castPosition, Dict.getItem, Dict.get?]
  simp only [demo, Dict.values, List.map_cons, List.map_nil, List.mem_cons, List.not_mem_nil, or_false] at hi
  rcases hi with rfl | rfl | rfl
  · exact ⟨.segment ⟨1, 2⟩ ⟨3, 4⟩ rfl (.cons hA (.cons rfl .nil)), fun _ => ⟨_, .inr (.inr ⟨_, rfl, rfl, rfl⟩)⟩⟩
  · exact ⟨.text ⟨1, 2⟩ rfl (.cons hA .nil), fun _ => ⟨_, .inl ⟨rfl, rfl⟩⟩⟩
  · exact ⟨.cubic ⟨0, 0⟩ ⟨0, 1⟩ ⟨1, 1⟩ ⟨1, 0⟩ rfl (.cons rfl (.cons rfl (.cons rfl (.cons rfl .nil)))), fun _ => ⟨_, .inr (.inl ⟨_, rfl, rfl, rfl⟩)⟩⟩

example : ∃ items, saveAndImport [] demo = .ok items ∧ items.length = 2 := by
  obtain ⟨l, items, h1, h2, h3⟩ := round_trip_partial [] demo demo_ready
  refine ⟨items, h2, ?_⟩
  rw [← h3.length_eq, (h1.1.filter drawn).length_eq]
  simp [demo, Dict.values, drawn]

end Patro.DxfRoundTrip
