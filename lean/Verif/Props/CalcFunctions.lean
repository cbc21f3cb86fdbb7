import Verif.Spec.CalcFunctions
import Verif.Props.Vector
import Mathlib.Data.List.Forall2
/-!
# Properties C186 (dependencies of an expression) and C187 (special functions)
-/

namespace Patro.CalcFunctions

open Patro.Text (Text)
open Patro.SketchGeometry (Env)

variable {P : Type} (points : Text → Option P)

theorem argPoint_iff (a : Ast) (p : P) : argPoint points a = .ok p ↔ Names points a p := by
  cases a with
  | str s =>
    unfold argPoint Names
    cases h : points s with
    | none => simp [h]
    | some q => simp [h]
  | _ => simp [argPoint, Names]

theorem argPoints_iff (l : List Ast) (ps : List P) :
    argPoints points l = .ok ps ↔ List.Forall₂ (Names points) l ps := by
  induction l generalizing ps with
  | nil => cases ps <;> simp [argPoints]
  | cons a l ih =>
    cases ps with
    | nil =>
      simp only [argPoints, bind, Except.bind]
      cases argPoint points a with
      | error e => simp
      | ok p => cases argPoints points l <;> simp [pure, Except.pure]
    | cons q qs =>
      rw [List.forall₂_cons, ← argPoint_iff, ← ih]
      simp only [argPoints, bind, Except.bind]
      cases argPoint points a with
      | error e => simp
      | ok p => cases argPoints points l <;> simp [pure, Except.pure]

/-- The part of one call. -/
theorem callPoints_iff (func : Ast) (args : List Ast) (ps : List P) :
    callPoints points func args = .ok ps ↔
      (∀ value attr, func = .attr value attr → ∃ id, value = .name id) ∧
        List.Forall₂ (Names points) (lineArguments [(func, args)]) ps := by
  classical
  unfold callPoints lineArguments IsLine
  cases func with
  | attr value attr =>
    cases value with
    | name id =>
      by_cases h1 : id = "__calculator__".toList
      · by_cases h2 : attr = "_function_Line".toList
        · subst h1 h2
          simp only [baseId, bind, Except.bind, if_pos, List.flatMap_cons, List.flatMap_nil, List.append_nil]
          rw [argPoints_iff]
          constructor
          · intro h
            exact ⟨fun v a e => ⟨_, by injection e with e1 e2; exact e1.symm⟩, h⟩
          · exact fun h => h.2
        · simp only [baseId, bind, Except.bind, h1, h2, if_true, if_false, List.flatMap_cons, List.flatMap_nil, List.append_nil,
            Ast.attr.injEq, Ast.name.injEq, and_false, true_and]
          cases ps <;> simp
      · simp only [baseId, bind, Except.bind, h1, if_false, List.flatMap_cons, List.flatMap_nil, List.append_nil,
            Ast.attr.injEq, Ast.name.injEq, false_and]
        cases ps <;> simp
    | _ =>
      simp only [baseId, bind, Except.bind]
      constructor
      · intro h; cases h
      · rintro ⟨h, _⟩
        obtain ⟨id, hid⟩ := h _ _ rfl
        cases hid
  | _ =>
    simp only [List.flatMap_cons, List.flatMap_nil, List.append_nil]
    rw [if_neg (by intro h; cases h)]
    constructor
    · intro h
      injection h with h
      subst h
      exact ⟨fun v a e => (by cases e), .nil⟩
    · rintro ⟨_, h⟩
      cases h
      rfl

theorem lineArguments_append (a b : List (Ast × List Ast)) :
    lineArguments (a ++ b) = lineArguments a ++ lineArguments b := by
  simp [lineArguments, List.flatMap_append]

theorem lineArguments_cons (a : Ast × List Ast) (b : List (Ast × List Ast)) :
    lineArguments (a :: b) = lineArguments [a] ++ lineArguments b := lineArguments_append [a] b

theorem methodsOfNames_append (a b : List (Ast × List Ast)) :
    MethodsOfNames (a ++ b) ↔ MethodsOfNames a ∧ MethodsOfNames b := by
  unfold MethodsOfNames
  constructor
  · exact fun h => ⟨fun c hc => h c (List.mem_append_left _ hc), fun c hc => h c (List.mem_append_right _ hc)⟩
  · rintro ⟨h1, h2⟩ c hc
    rcases List.mem_append.1 hc with h | h
    · exact h1 c h
    · exact h2 c h

/-- What the visit of a list of calls must give. -/
def Deps (calls : List (Ast × List Ast)) (ps : List P) : Prop :=
  MethodsOfNames calls ∧ List.Forall₂ (Names points) (lineArguments calls) ps

theorem deps_nil (ps : List P) : Deps points [] ps ↔ ps = [] := by
  unfold Deps MethodsOfNames lineArguments
  cases ps <;> simp

theorem deps_append (a b : List (Ast × List Ast)) (ps : List P) :
    Deps points (a ++ b) ps ↔ ∃ x y, ps = x ++ y ∧ Deps points a x ∧ Deps points b y := by
  unfold Deps
  rw [methodsOfNames_append, lineArguments_append]
  constructor
  · rintro ⟨⟨h1, h2⟩, h3⟩
    refine ⟨ps.take (lineArguments a).length, ps.drop (lineArguments a).length, (List.take_append_drop _ _).symm, ⟨h1, ?_⟩, ⟨h2, ?_⟩⟩
    · have := List.forall₂_take_append ps (lineArguments a) (lineArguments b) h3.flip
      exact this.flip
    · have := List.forall₂_drop_append ps (lineArguments a) (lineArguments b) h3.flip
      exact this.flip
  · rintro ⟨x, y, rfl, ⟨h1, h3⟩, ⟨h2, h4⟩⟩
    exact ⟨⟨h1, h2⟩, List.rel_append h3 h4⟩

/-- Sequencing of two visits. -/
theorem seq_iff {A B : Except PyErr (List P)} {DA DB : List P → Prop} (hA : ∀ x, A = .ok x ↔ DA x) (hB : ∀ x, B = .ok x ↔ DB x)
    (ps : List P) :
    (do let x ← A; let y ← B; return x ++ y : Except PyErr (List P)) = .ok ps ↔ ∃ x y, ps = x ++ y ∧ DA x ∧ DB y := by
  cases A with
  | error e =>
    simp only [bind, Except.bind]
    constructor
    · intro h; cases h
    · rintro ⟨x, y, _, h, _⟩
      exact absurd ((hA x).2 h) (by simp)
  | ok a =>
    cases B with
    | error e =>
      simp only [bind, Except.bind]
      constructor
      · intro h; cases h
      · rintro ⟨x, y, _, _, h⟩
        exact absurd ((hB y).2 h) (by simp)
    | ok b =>
      simp only [bind, Except.bind, pure, Except.pure, Except.ok.injEq]
      constructor
      · rintro rfl
        exact ⟨a, b, rfl, (hA a).1 rfl, (hB b).1 rfl⟩
      · rintro ⟨x, y, rfl, h1, h2⟩
        have e1 := (hA x).2 h1
        have e2 := (hB y).2 h2
        simp only [Except.ok.injEq] at e1 e2
        rw [e1, e2]

mutual

theorem visit_iff : ∀ (a : Ast) (ps : List P), visit points a = .ok ps ↔ Deps points (callsOf a) ps
  | .name _, ps => by simp [visit, callsOf, deps_nil, eq_comm]
  | .str _, ps => by simp [visit, callsOf, deps_nil, eq_comm]
  | .const, ps => by simp [visit, callsOf, deps_nil, eq_comm]
  | .attr value _, ps => by
    rw [visit, callsOf]
    exact visit_iff value ps
  | .call func args keywords, ps => by
    have hcall : ∀ x, callPoints points func args = .ok x ↔ Deps points [(func, args)] x := by
      intro x
      rw [callPoints_iff]
      unfold Deps MethodsOfNames
      simp
    have h3 := seq_iff (visitAll_iff args) (visitAll_iff keywords)
    have h2 := seq_iff (visit_iff func) h3
    have h1 := seq_iff hcall h2 ps
    have e : visit points (.call func args keywords) =
        (do
          let x ← callPoints points func args
          let y ← (do
            let x ← visit points func
            let y ← (do let x ← visitAll points args; let y ← visitAll points keywords; return x ++ y : Except PyErr (List P))
            return x ++ y : Except PyErr (List P))
          return x ++ y : Except PyErr (List P)) := by
      rw [visit]
      simp only [bind, Except.bind, pure, Except.pure]
      cases callPoints points func args <;> try rfl
      cases visit points func <;> try rfl
      cases visitAll points args <;> try rfl
      cases visitAll points keywords <;> rfl
    rw [e, h1, callsOf]
    have e2 : Deps points ((func, args) :: (callsOf func ++ (callsOfAll args ++ callsOfAll keywords))) ps ↔
        ∃ x y, ps = x ++ y ∧ Deps points [(func, args)] x ∧ Deps points (callsOf func ++ (callsOfAll args ++ callsOfAll keywords)) y :=
      deps_append points [(func, args)] _ ps
    rw [e2]
    simp only [deps_append]
  | .other children, ps => by
    rw [visit, callsOf]
    exact visitAll_iff children ps

theorem visitAll_iff : ∀ (l : List Ast) (ps : List P), visitAll points l = .ok ps ↔ Deps points (callsOfAll l) ps
  | [], ps => by simp [visitAll, callsOfAll, deps_nil, eq_comm]
  | a :: l, ps => by
    rw [visitAll, callsOfAll, deps_append]
    exact seq_iff (visit_iff a) (visitAll_iff l) ps

end

/-- C186. The points recorded as the dependencies of an expression are exactly the points named by its calls of `Line_A_B`, in the
order of the text and however deep the calls are; the analysis succeeds exactly when methods are only called on names and every
argument of such a call is the name of a known point. -/
theorem dependencies_partial (a : Ast) (ps : List P) :
    visit points a = .ok ps ↔
      MethodsOfNames (callsOf a) ∧ List.Forall₂ (Names points) (lineArguments (callsOf a)) ps := visit_iff points a ps

theorem argPoints_error (l : List Ast) (e : PyErr) (h : argPoints points l = .error e) : e = .keyError ∨ e = .attributeError := by
  induction l with
  | nil => simp [argPoints] at h
  | cons a l ih =>
    simp only [argPoints, bind, Except.bind] at h
    cases ha : argPoint points a with
    | error e' =>
      rw [ha] at h
      simp only [Except.error.injEq] at h
      subst h
      cases a with
      | str s =>
        unfold argPoint at ha
        cases hs : points s with
        | none => simp [hs] at ha; exact .inl ha.symm
        | some q => simp [hs] at ha
      | const => simp [argPoint] at ha; exact .inl ha.symm
      | _ => simp [argPoint] at ha; exact .inr ha.symm
    | ok p =>
      rw [ha] at h
      cases hl : argPoints points l with
      | error e' =>
        rw [hl] at h
        simp only [Except.error.injEq] at h
        subst h
        exact ih hl
      | ok ps => rw [hl] at h; simp [pure, Except.pure] at h

theorem callPoints_error (func : Ast) (args : List Ast) (e : PyErr) (h : callPoints points func args = .error e) :
    e = .keyError ∨ e = .attributeError := by
  unfold callPoints at h
  cases func with
  | attr value attr =>
    cases value with
    | name id =>
      simp only [baseId, bind, Except.bind] at h
      split at h
      · split at h
        · exact argPoints_error points args e h
        · cases h
      · cases h
    | _ => simp [baseId, bind, Except.bind] at h; exact .inr h.symm
  | _ => cases h

mutual

theorem visit_error : ∀ (a : Ast) (e : PyErr), visit points a = .error e → e = .keyError ∨ e = .attributeError
  | .name _, e, h => by simp [visit] at h
  | .str _, e, h => by simp [visit] at h
  | .const, e, h => by simp [visit] at h
  | .attr value _, e, h => visit_error value e (by rwa [visit] at h)
  | .call func args keywords, e, h => by
    rw [visit] at h
    simp only [bind, Except.bind, pure, Except.pure] at h
    cases h1 : callPoints points func args with
    | error e' => rw [h1] at h; simp only [Except.error.injEq] at h; subst h; exact callPoints_error points func args e' h1
    | ok x =>
      cases h2 : visit points func with
      | error e' => rw [h1, h2] at h; simp only [Except.error.injEq] at h; subst h; exact visit_error func e' h2
      | ok x =>
        cases h3 : visitAll points args with
        | error e' => rw [h1, h2, h3] at h; simp only [Except.error.injEq] at h; subst h; exact visitAll_error args e' h3
        | ok x =>
          cases h4 : visitAll points keywords with
          | error e' => rw [h1, h2, h3, h4] at h; simp only [Except.error.injEq] at h; subst h; exact visitAll_error keywords e' h4
          | ok x => rw [h1, h2, h3, h4] at h; simp at h
  | .other children, e, h => visitAll_error children e (by rwa [visit] at h)

theorem visitAll_error : ∀ (l : List Ast) (e : PyErr), visitAll points l = .error e → e = .keyError ∨ e = .attributeError
  | [], e, h => by simp [visitAll] at h
  | a :: l, e, h => by
    rw [visitAll] at h
    simp only [bind, Except.bind, pure, Except.pure] at h
    cases h1 : visit points a with
    | error e' => rw [h1] at h; simp only [Except.error.injEq] at h; subst h; exact visit_error a e' h1
    | ok x =>
      cases h2 : visitAll points l with
      | error e' => rw [h1, h2] at h; simp only [Except.error.injEq] at h; subst h; exact visitAll_error l e' h2
      | ok x => rw [h1, h2] at h; simp at h

end

/-- C186. When the analysis fails it is with a `KeyError` or an `AttributeError`, never with the `NameError` that an evaluation turns
into "no value": an expression that names an unknown point cannot be compiled, and its value cannot be read. -/
theorem dependencies_error (a : Ast) (e : PyErr) (h : visit points a = .error e) : e = .keyError ∨ e = .attributeError :=
  visit_error points a e h

/-- C186. A call such as `Line_A_B` depends on the two points, in this order. -/
theorem line_dependencies (n1 n2 : Text) (p1 p2 : P) (h1 : points n1 = some p1) (h2 : points n2 = some p2) :
    visit points (specialCall "Line".toList [n1, n2]) = .ok [p1, p2] := by
  rw [dependencies_partial]
  classical
  refine ⟨?_, ?_⟩
  · intro c hc value attr he
    simp [specialCall, callsOf, callsOfAll] at hc
    subst hc
    injection he with e1 _
    exact ⟨_, e1.symm⟩
  · have e : lineArguments (callsOf (specialCall "Line".toList [n1, n2])) = [.str n1, .str n2] := by
      simp only [specialCall, callsOf, callsOfAll, lineArguments, List.map, List.append_nil, List.flatMap_cons, List.flatMap_nil]
      rw [if_pos (by simp [IsLine])]
    rw [e]
    exact .cons ⟨n1, rfl, h1⟩ (.cons ⟨n2, rfl, h2⟩ .nil)

/-- C186 fails for the other functions: the dependencies of `AngleLine_A_B`, `Spl_A_B`, … are empty, for all names, known or not. -/
theorem other_dependencies_wrong (function : Text) (hf : function ≠ "Line".toList) (names : List Text) :
    visit points (specialCall function names) = .ok [] := by
  rw [dependencies_partial]
  classical
  have hall : ∀ names : List Text, callsOfAll (names.map Ast.str) = [] := by
    intro l
    induction l with
    | nil => rfl
    | cons a l ih => simp [callsOfAll, callsOf, ih]
  have e : callsOf (specialCall function names) =
      [(.attr (.name "__calculator__".toList) ("_function_".toList ++ function), names.map .str)] := by
    simp [specialCall, callsOf, callsOfAll, hall]
  rw [e]
  refine ⟨?_, ?_⟩
  · intro c hc value attr he
    rw [List.mem_singleton] at hc
    subst hc
    injection he with e1 _
    exact ⟨_, e1.symm⟩
  · simp only [lineArguments, List.flatMap_cons, List.flatMap_nil, List.append_nil]
    rw [if_neg]
    · exact .nil
    · intro h
      unfold IsLine at h
      injection h with _ h
      have : "_function_Line".toList = "_function_".toList ++ "Line".toList := by decide
      rw [this] at h
      exact hf (List.append_cancel_left h)

/-! ## The functions -/

/-- C187. `Line_A_B` is the distance between the two points: it does not depend on their order, and it is 0 exactly when the points
are at the same place; it reads nothing else than the two points. -/
theorem line_value (env : Env) (a b : String) (p q : Vec ℝ) (ha : env.points a = some (some p)) (hb : env.points b = some (some q)) :
    callFunction env "Line" [a, b] = .ok (Real.sqrt ((q.x - p.x) ^ 2 + (q.y - p.y) ^ 2)) ∧
      callFunction env "Line" [b, a] = callFunction env "Line" [a, b] ∧
      (callFunction env "Line" [a, b] = .ok 0 ↔ p = q) := by
  have e : ∀ (a b : String) (p q : Vec ℝ), env.points a = some (some p) → env.points b = some (some q) →
      callFunction env "Line" [a, b] = .ok (Real.sqrt ((q.x - p.x) ^ 2 + (q.y - p.y) ^ 2)) := by
    intro a b p q ha hb
    unfold callFunction
    rw [if_neg (by decide), if_pos rfl]
    simp only [vectorPoints, vectorPoint, ha, hb, bind, Except.bind, pure, Except.pure, difference, Vec.magnitude, Vec.magnitudeSquare,
      Vec.sub_x, Vec.sub_y, pow_two]
  refine ⟨e a b p q ha hb, ?_, ?_⟩
  · rw [e a b p q ha hb, e b a q p hb ha]
    congr 2
    ring
  · rw [e a b p q ha hb, Except.ok.injEq, Real.sqrt_eq_zero (by positivity)]
    constructor
    · intro h
      have h1 : (q.x - p.x) ^ 2 = 0 := by nlinarith [sq_nonneg (q.x - p.x), sq_nonneg (q.y - p.y)]
      have h2 : (q.y - p.y) ^ 2 = 0 := by nlinarith [sq_nonneg (q.x - p.x), sq_nonneg (q.y - p.y)]
      have h1' := pow_eq_zero_iff (two_ne_zero) |>.1 h1
      have h2' := pow_eq_zero_iff (two_ne_zero) |>.1 h2
      ext <;> linarith
    · rintro rfl
      ring

/-- C187. `AngleLine_A_B` is the direction from A to B in degrees, measured counter-clockwise from the x axis, in (-180, 180]: going
from A in this direction by the distance of the points arrives at B. -/
theorem angle_line_value (env : Env) (a b : String) (p q : Vec ℝ) (ha : env.points a = some (some p))
    (hb : env.points b = some (some q)) (hpq : p ≠ q) :
    ∃ angle length : ℝ, callFunction env "AngleLine" [a, b] = .ok angle ∧ callFunction env "Line" [a, b] = .ok length ∧
      -180 < angle ∧ angle ≤ 180 ∧ 0 < length ∧
      q = ⟨p.x + length * Real.cos (angle * (Real.pi / 180)), p.y + length * Real.sin (angle * (Real.pi / 180))⟩ := by
  have hd : q - p ≠ 0 := by
    intro h
    have hx := congrArg Vec.x h
    have hy := congrArg Vec.y h
    simp only [Vec.sub_x, Vec.sub_y, Vec.zero_x, Vec.zero_y] at hx hy
    exact hpq (by ext <;> linarith)
  have hpos : (0 : ℝ) < 180 / Real.pi := by positivity
  have hangle : (q - p).orientation = Vec.degrees (q - p).toComplex.arg := Vec.orientation_eq_arg _ hd
  have hmag : 0 < (q - p).magnitude := by
    have h0 : (q - p).magnitude ≠ 0 := by
      intro h0
      rw [Vec.magnitude, Real.sqrt_eq_zero (by unfold Vec.magnitudeSquare; nlinarith [mul_self_nonneg (q - p).x, mul_self_nonneg (q - p).y])] at h0
      unfold Vec.magnitudeSquare at h0
      have h1 : (q - p).x = 0 := by nlinarith [mul_self_nonneg (q - p).x, mul_self_nonneg (q - p).y]
      have h2 : (q - p).y = 0 := by nlinarith [mul_self_nonneg (q - p).x, mul_self_nonneg (q - p).y]
      exact hd (by ext <;> simpa)
    exact lt_of_le_of_ne (Real.sqrt_nonneg _) (Ne.symm h0)
  refine ⟨(q - p).orientation, (q - p).magnitude, ?_, ?_, ?_, ?_, hmag, ?_⟩
  · unfold callFunction
    rw [if_neg (by decide), if_neg (by decide), if_pos rfl]
    simp only [vectorPoints, vectorPoint, ha, hb, bind, Except.bind, pure, Except.pure, difference]
  · unfold callFunction
    rw [if_neg (by decide), if_pos rfl]
    simp only [vectorPoints, vectorPoint, ha, hb, bind, Except.bind, pure, Except.pure, difference]
  · rw [hangle, Vec.degrees]
    have := Complex.neg_pi_lt_arg (q - p).toComplex
    calc (-180 : ℝ) = -Real.pi * (180 / Real.pi) := by field_simp
      _ < _ := by exact mul_lt_mul_of_pos_right this hpos
  · rw [hangle, Vec.degrees]
    have := Complex.arg_le_pi (q - p).toComplex
    calc _ ≤ Real.pi * (180 / Real.pi) := by exact mul_le_mul_of_nonneg_right this hpos.le
      _ = 180 := by field_simp
  · have h := Vec.fromPolar_orientation (q - p) hd
    have hx := congrArg Vec.x h.1
    have hy := congrArg Vec.y h.1
    simp only [Vec.fromPolar, Vec.fromAngle, Vec.smul_x, Vec.smul_y, Vec.radians, Vec.sub_x, Vec.sub_y] at hx hy
    ext
    · change q.x = p.x + _
      linarith
    · change q.y = p.y + _
      linarith

/-- C187. The current length is the length of the segment being drawn, and an `AttributeError` outside the construction of a point
on a line. -/
theorem current_length (env : Env) :
    callFunction env "CurrentLength" [] =
      match env.current with
      | some v => .ok (Real.sqrt (v.x ^ 2 + v.y ^ 2))
      | none => .error .attributeError := by
  unfold callFunction
  rw [if_pos rfl]
  cases env.current with
  | none => rfl
  | some v => simp only [Vec.magnitude, Vec.magnitudeSquare, pow_two]

/-- C187. An unknown point is a `KeyError`, for every function of two points. -/
theorem unknown_point (env : Env) (f a b : String)
    (hf : f ∈ ["Line", "AngleLine", "Angle1Spl", "Angle2Spl", "C1LengthSpl", "C2LengthSpl", "Spl"])
    (h : env.points a = none ∨ env.points b = none) : callFunction env f [a, b] = .error .keyError := by
  have hv : vectorPoints env a b = .error .keyError := by
    unfold vectorPoints vectorPoint
    rcases h with h | h
    · simp [h, bind, Except.bind]
    · cases env.points a <;> simp [h, bind, Except.bind]
  unfold callFunction
  by_cases h1 : f = "CurrentLength"
  · subst h1
    exact absurd hf (by decide)
  rw [if_neg h1]
  by_cases h2 : f = "Line"
  · rw [if_pos h2]
    simp only [hv, bind, Except.bind]
  rw [if_neg h2]
  by_cases h3 : f = "AngleLine"
  · rw [if_pos h3]
    simp only [hv, bind, Except.bind]
  rw [if_neg h3, if_pos]
  · simp only [hv, bind, Except.bind]
  · simp only [List.mem_cons, List.not_mem_nil, or_false, h2, h3, false_or] at hf
    simp only [List.mem_cons, List.not_mem_nil, or_false]
    exact hf

/-- C187 fails for the functions of a curve: the length of a spline, the angles and the lengths of its control segments are 0,
whatever the points and the curves of the sketch. -/
theorem spline_functions_wrong (env : Env) (f a b : String) (hf : f ∈ ["Angle1Spl", "Angle2Spl", "C1LengthSpl", "C2LengthSpl", "Spl"])
    (p q : Option (Vec ℝ)) (ha : env.points a = some p) (hb : env.points b = some q) :
    callFunction env f [a, b] = .ok 0 := by
  have hv : vectorPoints env a b = .ok (p, q) := by
    simp [vectorPoints, vectorPoint, ha, hb, bind, Except.bind, pure, Except.pure]
  unfold callFunction
  rw [if_neg, if_neg, if_neg, if_pos hf]
  · simp only [hv, bind, Except.bind, pure, Except.pure]
  all_goals
    rintro rfl
    exact absurd hf (by decide)

/-- C187 fails for two points at the same place: the angle of the line is 90 degrees instead of an error. -/
theorem angle_line_null_wrong (env : Env) (a b : String) (p : Vec ℝ) (ha : env.points a = some (some p))
    (hb : env.points b = some (some p)) : callFunction env "AngleLine" [a, b] = .ok 90 := by
  unfold callFunction
  rw [if_neg (by decide), if_neg (by decide), if_pos rfl]
  have h0 : p - p = 0 := by ext <;> simp
  simp only [vectorPoints, vectorPoint, ha, hb, bind, Except.bind, pure, Except.pure, difference, h0, Vec.orientation_null]

/-! ## Examples -/

/-- The points A and B. -/
def exPoints : Text → Option Nat := fun n => if n = "A".toList then some 1 else if n = "B".toList then some 2 else none

/-- `Line_A_B + 2*AngleLine_B_A`: the two points of the first call only. -/
example : visit exPoints (.other [specialCall "Line".toList ["A".toList, "B".toList], .const,
    specialCall "AngleLine".toList ["B".toList, "A".toList]]) = .ok [1, 2] := by decide +kernel

/-- `max(Line_B_A, Line_A_A)`: nested calls. -/
example : visit exPoints (.call (.name "max".toList) [specialCall "Line".toList ["B".toList, "A".toList],
    specialCall "Line".toList ["A".toList, "A".toList]] []) = .ok [2, 1, 1, 1] := by decide +kernel

/-- An unknown point. -/
example : visit exPoints (specialCall "Line".toList ["A".toList, "C".toList]) = .error .keyError := by decide +kernel

/-- `x.y.f()`: a method of an attribute. -/
example : visit exPoints (.call (.attr (.attr (.name "x".toList) "y".toList) "f".toList) [] []) = .error .attributeError := by
  decide +kernel

/-- Two points 5 apart. -/
example : callFunction ⟨fun n => if n = "A" then some (some ⟨1, 1⟩) else if n = "B" then some (some ⟨4, 5⟩) else none, none⟩ "Line" ["A", "B"] =
    .ok 5 := by
  rw [(line_value _ "A" "B" ⟨1, 1⟩ ⟨4, 5⟩ (by simp) (by simp)).1]
  congr 1
  rw [show (4 - 1 : ℝ) ^ 2 + (5 - 1) ^ 2 = 5 ^ 2 by norm_num, Real.sqrt_sq (by norm_num)]

end Patro.CalcFunctions
