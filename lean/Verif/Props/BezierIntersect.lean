import Verif.Model.BezierIntersect
import Verif.Props.Roots
import Verif.Props.Bezier
/-! # Properties of the intersections and end tangents of Bézier curves: C197 -/

namespace Patro.BezierIntersect

open Bezier (Quad Cubic)
open MathFunctions (Roots quadraticRoot)

/-- C197 fails: the intersection of a Bézier curve with a line raises `AttributeError` for every curve and every line. -/
theorem intersectLine_wrong (q : Quad ℝ) (c : Cubic ℝ) (line : Line ℝ) (realRoots : Roots.RealRoots) :
    quadIntersectLine q line = .error .attributeError ∧ cubicIntersectLine realRoots c line = .error .attributeError := ⟨rfl, rfl⟩

/-- C197, what holds: once a quadratic curve is mapped so that the line is the axis of abscissae, the numbers are exactly the parameters of the
points of the curve on the line, inside [0, 1] or not, unless the whole curve is parallel to the line. -/
theorem quadRoots_partial (c : Quad ℝ) (h : ¬ (c.p0.y = c.p1.y ∧ c.p1.y = c.p2.y)) (t : ℝ) :
    t ∈ (quadRoots c).toList ↔ (c.pointAt t).y = 0 := by
  unfold quadRoots
  rw [MathFunctions.quadraticRoot_exact _ _ _ _ t]
  · simp only [Quad.pointAt]
    simp
    ring_nf
  · rintro ⟨h1, h2⟩
    exact h ⟨by linarith, by linarith⟩

/-- C197, what holds: the same for a cubic curve, if sympy gives the roots of a polynomial. -/
theorem cubicRoots_partial (realRoots : Roots.RealRoots) (hr : Roots.Exact realRoots) (c : Cubic ℝ)
    (h : ¬ (c.p0.y = c.p1.y ∧ c.p1.y = c.p2.y ∧ c.p2.y = c.p3.y)) :
    ∃ r, cubicRoots realRoots c = .ok r ∧ ∀ t, t ∈ r.toList ↔ (c.pointAt t).y = 0 := by
  unfold cubicRoots
  obtain ⟨r, h1, h2⟩ := Roots.cubicRoot_exact realRoots hr (c.p3.y - 3 * c.p2.y + 3 * c.p1.y - c.p0.y) (3 * (c.p2.y - c.p1.y * 2 + c.p0.y))
    (3 * (c.p1.y - c.p0.y)) c.p0.y (by
      rintro ⟨h1, h2, h3⟩
      exact h ⟨by linarith, by linarith, by linarith⟩)
  refine ⟨r, h1, fun t => ?_⟩
  rw [h2]
  simp only [Cubic.pointAt]
  simp
  ring_nf

/-- C197 fails: the intersection of two cubic curves always raises, `ZeroDivisionError` when the ends of the first one are the same point and
`NameError` otherwise. -/
theorem intersectCurve_wrong (c1 c2 : Cubic ℝ) :
    (c1.p0 = c1.p3 → intersectCurve c1 c2 = .error .zeroDivisionError) ∧ (c1.p0 ≠ c1.p3 → intersectCurve c1 c2 = .error .nameError) := by
  have key : ∀ v q : Vec ℝ, v ≠ 0 → ∃ d, (⟨c1.p0, v⟩ : Line ℝ).distanceToLine q = .ok d := by
    intro v q hv
    unfold Line.distanceToLine Vec.deviationWith
    rw [Vec.pyDiv_ok _ _ (Vec.magnitude_pos _ hv).ne']
    exact ⟨_, rfl⟩
  constructor
  · intro h
    unfold intersectCurve Cubic.fatLine Line.fromTwoPoints
    have h0 : c1.p3 - c1.p0 = 0 := by rw [h]; ext <;> simp
    rw [h0]
    have : (⟨c1.p0, 0⟩ : Line ℝ).distanceToLine c1.p1 = .error .zeroDivisionError := by
      unfold Line.distanceToLine Vec.deviationWith Vec.pyDiv
      rw [if_pos ((Vec.magnitude_eq_zero _).2 rfl)]
    simp only [this, bind, Except.bind]
  · intro h
    have hv : c1.p3 - c1.p0 ≠ 0 := by
      intro h0
      apply h
      rw [Vec.ext_iff] at h0 ⊢
      simp [sub_eq_zero] at h0
      exact ⟨h0.1.symm, h0.2.symm⟩
    obtain ⟨d1, e1⟩ := key _ c1.p1 hv
    obtain ⟨d2, e2⟩ := key _ c1.p2 hv
    obtain ⟨d3, e3⟩ := key _ c2.p0 hv
    obtain ⟨d4, e4⟩ := key _ c2.p1 hv
    obtain ⟨d5, e5⟩ := key _ c2.p2 hv
    obtain ⟨d6, e6⟩ := key _ c2.p3 hv
    unfold intersectCurve Cubic.fatLine Line.fromTwoPoints nonParametricCurve
    simp only [e1, e2, e3, e4, e5, e6, bind, Except.bind, List.mapM_cons, List.mapM_nil, pure, Except.pure]

/-- C197. The start tangent of a quadratic curve and the end tangent of a cubic one have length 1 and the direction of the control segment, unless
it is null. -/
theorem tangents_spec (q : Quad ℝ) (c : Cubic ℝ) :
    (q.p0 ≠ q.p1 → ∃ v k, tangent0 q = some v ∧ v.magnitude = 1 ∧ 0 < k ∧ q.p1 - q.p0 = v.smul k) ∧
    (c.p2 ≠ c.p3 → ∃ v k, cubicTangent1 c = some v ∧ v.magnitude = 1 ∧ 0 < k ∧ c.p3 - c.p2 = v.smul k) := by
  have key : ∀ a b : Vec ℝ, a ≠ b → ∃ v k, (b - a).toNormalised = some v ∧ v.magnitude = 1 ∧ 0 < k ∧ b - a = v.smul k := by
    intro a b h
    have hv : b - a ≠ 0 := by
      intro h0
      apply h
      rw [Vec.ext_iff] at h0 ⊢
      simp [sub_eq_zero] at h0
      exact ⟨h0.1.symm, h0.2.symm⟩
    have hm := Vec.magnitude_pos _ hv
    refine ⟨(b - a).sdiv (b - a).magnitude, (b - a).magnitude, ?_, ?_, hm, ?_⟩
    · unfold Vec.toNormalised; rw [if_neg hm.ne']
    · rw [Vec.magnitude_eq_iff _ _ (by norm_num)]
      have hmm : (b - a).magnitude * (b - a).magnitude = (b - a).x * (b - a).x + (b - a).y * (b - a).y := Vec.magnitude_mul_self _
      simp only [Vec.magnitudeSquare, Vec.sdiv_x, Vec.sdiv_y]
      generalize (b - a).magnitude = m at hm hmm
      have := hm.ne'
      field_simp
      linarith
    · generalize b - a = w at hm
      have := hm.ne'
      ext <;> simp only [Vec.smul_x, Vec.smul_y, Vec.sdiv_x, Vec.sdiv_y] <;> field_simp
  exact ⟨key _ _, key _ _⟩

/-- C197 fails for the end tangent of a quadratic curve, which never ends, and for its start normal. -/
theorem tangent1_wrong (q : Quad ℝ) (depth : Nat) : tangent1 q depth = .error .recursionError ∧ normal0 q = .error .typeError := by
  refine ⟨?_, rfl⟩
  induction depth with
  | zero => rfl
  | succ n ih => unfold tangent1; rw [ih]; rfl

example : ∃ r, r ∈ (quadRoots ⟨⟨0, -1⟩, ⟨1, 0⟩, ⟨2, 1⟩⟩).toList ∧ ((⟨⟨0, -1⟩, ⟨1, 0⟩, ⟨2, 1⟩⟩ : Quad ℝ).pointAt r).x = 1 := by
  refine ⟨1 / 2, ?_, ?_⟩
  · rw [quadRoots_partial _ (by norm_num)]
    norm_num [Quad.pointAt]
  · norm_num [Quad.pointAt]

end Patro.BezierIntersect
