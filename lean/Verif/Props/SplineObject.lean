import Verif.Model.SplineObject
import Verif.Props.Spline
/-! # C250: B-splines are copied, reversed, compared and transformed -/

namespace Patro.SplineObject

open Spline

variable {K : Type} [Field K] [LinearOrder K]

/-- The image of a point by the affine transformation of the given coefficients. -/
def affine (a b c d e f : K) (p : Vec K) : Vec K := ⟨a * p.x + b * p.y + e, c * p.x + d * p.y + f⟩

omit [LinearOrder K] in
theorem affine_mix (a b c d e f w : K) (p q : Vec K) :
    affine a b c d e f (p.smul (1 - w) + q.smul w) = (affine a b c d e f p).smul (1 - w) + (affine a b c d e f q).smul w := by
  simp only [affine, Vec.smul]
  ext <;> simp <;> ring

omit [Field K] [LinearOrder K] in
/-- C250 is false of every B-spline: it cannot be copied, reversed or transformed with `clone`, whatever the transformation. `ValueError` is raised for
two to four control points and `TypeError` for any other number. -/
theorem spline_clone_wrong (s : BSpline K) :
    let err : PyErr := if 2 ≤ s.points.length ∧ s.points.length ≤ 4 then .valueError else .typeError
    clone s = .error err ∧ reverse s = .error err ∧ ∀ isIdentity g, transform s isIdentity g true = .error err := by
  intro err
  have key : ∀ l : List (Vec K), callVectors l = .error (if 2 ≤ l.length ∧ l.length ≤ 4 then .valueError else .typeError) := by
    intro l
    match l with
    | [] | [_] => rfl
    | p :: q :: rest =>
      by_cases h : rest.length ≤ 2
      · rw [if_pos (by simp; omega)]
        simp only [callVectors, if_pos h]; rfl
      · rw [if_neg (by simp; omega)]
        simp only [callVectors, if_neg h]
  have h1 : clone s = .error err := key _
  have h2 : reverse s = .error err := by rw [reverse, key, List.length_reverse]
  refine ⟨h1, h2, fun i g => ?_⟩
  simp only [transform, if_true, h1, bind, Except.bind]

/-- C250 fails for one control point: the spline cannot be made, whatever the degree and the knots. -/
theorem spline_one_point_wrong (p : Vec K) (degree : Nat) (closed : Bool) (knots : Option (List K)) :
    make (.points [p]) degree closed knots = .error .valueError := rfl

/-- C250, what holds: with any other number of control points, the spline is made with the control points that are given. -/
theorem spline_made (l : List (Vec K)) (hl : l.length ≠ 1) (degree : Nat) (closed : Bool) (knots : Option (List K)) :
    make (.points l) degree closed knots = BSpline.new l degree closed knots := by
  match l with
  | [] => rfl
  | [_] => exact absurd rfl hl
  | _ :: _ :: _ => rfl

theorem getItem_map {α β : Type} (g : α → β) (l : List α) (i : Nat) : Py.getItem (l.map g) i = (Py.getItem l i).map g := by
  simp only [Py.getItem, List.getElem?_map]
  cases l[i]? <;> rfl

theorem getItemInt_map {α β : Type} (g : α → β) (l : List α) (i : Int) : Py.getItemInt (l.map g) i = (Py.getItemInt l i).map g := by
  simp only [Py.getItemInt, getItem_map, List.length_map]
  split
  · rfl
  · split <;> rfl

theorem mapM_map {α β γ : Type} (g : β → γ) (h : α → Except PyErr β) : ∀ l : List α,
    l.mapM (fun a => (h a).map g) = (l.mapM h).map (List.map g)
  | [] => rfl
  | a :: l => by
    rw [List.mapM_cons, List.mapM_cons, mapM_map g h l]
    cases h a with
    | error e => rfl
    | ok b => cases l.mapM h <;> rfl

theorem foldlM_map {α β : Type} (g : β → β) (h : β → α → Except PyErr β) (hg : ∀ b a, h (g b) a = (h b a).map g) :
    ∀ (l : List α) (b : β), l.foldlM h (g b) = (l.foldlM h b).map g
  | [], _ => rfl
  | a :: l, b => by
    rw [List.foldlM_cons, List.foldlM_cons, hg]
    cases e : h b a with
    | error e => rfl
    | ok b' => exact foldlM_map g h hg l b'

/-- A transformation that keeps the weighted means of two points. -/
def KeepsMeans (g : Vec K → Vec K) : Prop := ∀ (w : K) (p q : Vec K), g (p.smul (1 - w) + q.smul w) = (g p).smul (1 - w) + (g q).smul w

theorem deboorStep_map (g : Vec K → Vec K) (hg : KeepsMeans g) (knots : List K) (degree l : Nat) (t : K) (r : Nat) (points : List (Vec K)) (j : Nat) :
    deboorStep knots degree l t r (points.map g) j = (deboorStep knots degree l t r points j).map (List.map g) := by
  simp only [deboorStep, getItem_map, getItemInt_map]
  cases Py.getItemInt knots ((j : Int) + 1 + l - r) with
  | error e => rfl
  | ok hi =>
  cases Py.getItemInt knots ((j : Int) + ((l : Int) - degree)) with
  | error e => rfl
  | ok lo =>
  cases Py.getItemInt points ((j : Int) - 1) with
  | error e => rfl
  | ok left =>
  cases Py.getItem points j with
  | error e => rfl
  | ok right =>
    simp only [bind, Except.bind, Except.map, pure, Except.pure, List.map_set]
    congr 2
    generalize (if hi - lo = 0 then 0 else (t - lo) / (hi - lo)) = w
    split
    · rfl
    · split
      · rfl
      · exact (hg _ _ _).symm

theorem deboorRow_map (g : Vec K → Vec K) (hg : KeepsMeans g) (knots : List K) (degree l : Nat) (t : K) (points : List (Vec K)) (r : Nat) :
    deboorRow knots degree l t (points.map g) r = (deboorRow knots degree l t points r).map (List.map g) :=
  foldlM_map (List.map g) _ (fun b j => deboorStep_map g hg _ _ _ _ _ b j) _ points

theorem deboor_map [FloorRing K] (g : Vec K → Vec K) (hg : KeepsMeans g) (s : BSpline K) (t : K) :
    BSpline.deboor { s with points := s.points.map g } t = (s.deboor t).map g := by
  have hs : BSpline.span { s with points := s.points.map g } t = s.span t := by
    simp only [BSpline.span, BSpline.startKnot, BSpline.endKnot, List.length_map]
  simp only [BSpline.deboor, hs]
  cases s.span t with
  | error e => rfl
  | ok o =>
  cases o with
  | none => rfl
  | some l =>
    simp only [getItemInt_map, bind, Except.bind]
    rw [mapM_map]
    cases (List.range (s.degree + 1)).mapM fun (j : Nat) => Py.getItemInt s.points ((j : Int) + ((l : Int) - s.degree)) with
    | error e => rfl
    | ok ps =>
      simp only [Except.map]
      rw [foldlM_map (List.map g) (deboorRow s.knots s.degree l t) (fun b r => deboorRow_map g hg _ _ _ _ b r)]
      cases (List.range' 1 s.degree).foldlM (deboorRow s.knots s.degree l t) ps with
      | error e => rfl
      | ok qs => simp only [Except.map]; rw [getItem_map]; rfl

theorem pointAt_map [FloorRing K] (g : Vec K → Vec K) (hg : KeepsMeans g) (s : BSpline K) (t : K) :
    BSpline.pointAt { s with points := s.points.map g } t = (s.pointAt t).map g := by
  simp only [BSpline.pointAt, List.length_map, getItem_map, getItemInt_map, deboor_map g hg]
  split
  · rfl
  · split <;> rfl

theorem insertPoint_map (g : Vec K → Vec K) (hg : KeepsMeans g) (points knots degree l t i) :
    insertPoint (points.map g) knots degree l t i = (insertPoint (K := K) points knots degree l t i).map g := by
  simp only [insertPoint, getItem_map, getItemInt_map]
  cases insertWeight knots degree l t i with
  | error e => rfl
  | ok w =>
    simp only [bind, Except.bind]
    split
    · rfl
    · split
      · rfl
      · cases Py.getItemInt points ((i : Int) - 1) with
        | error e => rfl
        | ok a =>
        cases Py.getItem points i with
        | error e => rfl
        | ok b => simp only [Except.map, pure, Except.pure]; rw [← hg]

theorem insertKnot_map [FloorRing K] (g : Vec K → Vec K) (hg : KeepsMeans g) (s : BSpline K) (t : K) :
    BSpline.insertKnot { s with points := s.points.map g } t = (s.insertKnot t).map fun r => { r with points := r.points.map g } := by
  have hs : BSpline.span { s with points := s.points.map g } t = s.span t := by
    simp only [BSpline.span, BSpline.startKnot, BSpline.endKnot, List.length_map]
  simp only [BSpline.insertKnot, hs, List.length_map, insertPoint_map g hg]
  cases s.span t with
  | error e => rfl
  | ok o =>
  cases o with
  | none => rfl
  | some l =>
    simp only [bind, Except.bind]
    rw [mapM_map]
    cases (List.range (s.points.length + 1)).mapM fun i => insertPoint s.points s.knots s.degree l t i with
    | error e => rfl
    | ok ps =>
      simp only [Except.map, BSpline.new]
      split <;> rfl

/-- C250, what holds: a transformation in place by any affine transformation keeps the degree and the knots and gives the image of the curve, at every
parameter, out of the range as well: what is raised there is the same. A knot can be inserted before or after. A transformation marked as the identity
changes nothing. Missing: `spline_clone_wrong`. -/
theorem spline_transform_partial [FloorRing K] (s : BSpline K) (a b c d e f : K) :
    let g := affine a b c d e f
    transform s true g false = .ok s ∧
    ∃ q, transform s false g false = .ok q ∧ q.degree = s.degree ∧ q.knots = s.knots ∧ q.closed = s.closed ∧ q.uniform = s.uniform ∧
      (∀ t, q.pointAt t = (s.pointAt t).map g) ∧
      ∀ t, q.insertKnot t = (do let r ← s.insertKnot t; transform r false g false) := by
  intro g
  have hg : KeepsMeans g := fun w p q => affine_mix a b c d e f w p q
  refine ⟨rfl, _, rfl, rfl, rfl, rfl, rfl, fun t => pointAt_map g hg s t, fun t => ?_⟩
  rw [insertKnot_map g hg]
  cases s.insertKnot t <;> rfl

omit [Field K] in
/-- C250, what holds: two splines are equal exactly when they have the same control points, in the same order. -/
theorem spline_eq_iff (s r : BSpline K) : eq s r = true ↔ s.points = r.points := by simp [eq]

/-- C250 is false of every spline without given knots, of degree at least 1: it is equal to a spline of another degree, which has a point at a parameter
where it has none. -/
theorem spline_eq_wrong {K : Type} [Field K] [LinearOrder K] [IsStrictOrderedRing K] [FloorRing K] (s : BSpline K) (h : IsUniform s)
    (hd : 1 ≤ s.degree) : ∃ r t p, IsUniform r ∧ eq s r = true ∧ s.pointAt t = .error .valueError ∧ r.pointAt t = .ok p := by
  have hw := (uniform_wellFormed h).points
  obtain ⟨knots, hk⟩ : ∃ knots : List K, uniformKnots (s.degree - 1) s.points.length = .ok knots := by
    rw [uniformKnots]; dsimp only; rw [if_neg (by omega)]; exact ⟨_, rfl⟩
  have hr : IsUniform (⟨s.points, s.degree - 1, s.closed, knots, true⟩ : BSpline K) :=
    ⟨rfl, by simp only [BSpline.new, hk]; rfl⟩
  obtain ⟨-, -, -, ⟨p, -, hp⟩, -⟩ := pointAt_uniform _ hr
  refine ⟨_, _, p, hr, by simp [eq], ?_, hp⟩
  refine (pointAt_uniform s h).2.2.2.2 _ (Or.inr ?_)
  have : ((s.degree - 1 : Nat) : K) < (s.degree : K) := by exact_mod_cast (by omega : s.degree - 1 < s.degree)
  linarith

/-- A quadratic spline of four points. -/
def quadratic : BSpline Rat := ⟨[⟨0, 0⟩, ⟨1, 2⟩, ⟨3, 2⟩, ⟨4, 0⟩], 2, false, [0, 0, 0, 1, 2, 2, 2], true⟩

example : IsUniform quadratic ∧ 1 ≤ quadratic.degree := ⟨⟨rfl, by decide +kernel⟩, by decide⟩
example : clone quadratic = .error .valueError := rfl
example : make (.points quadratic.points) 2 false none = .ok quadratic := by decide +kernel
example : (quadratic.pointAt (1 / 2)).map (affine 0 (-1) 1 0 5 0) = .ok ⟨7 / 2, 1⟩ ∧
    BSpline.pointAt { quadratic with points := quadratic.points.map (affine 0 (-1) 1 0 5 0) } (1 / 2) = .ok ⟨7 / 2, 1⟩ := by
  decide +kernel

end Patro.SplineObject
