import Verif.Proof.Formula
import Mathlib.Data.List.Infix
/-!
# C225: the value of a formula is the value it denotes
-/

namespace Patro.Formulas

open Patro.Text (Text)
open Patro.SketchGeometry (Env)
open Patro.CalcFunctions (callFunction)

namespace Formula

/-! ## Numbers -/

theorem digits_value (t : Text) (h : AreDigits t) : digits t = digitsValue t := by
  have hd : ∀ c ∈ "0123456789".toList, c.toNat - '0'.toNat = "0123456789".toList.idxOf c := by decide +kernel
  induction t using List.reverseRecOn with
  | nil => rfl
  | append_singleton t c ih =>
    have h1 := ih fun x hx => h x (List.mem_append_left _ hx)
    unfold digits at h1 ⊢
    unfold digitsValue at h1 ⊢
    rw [List.foldl_append, List.reverse_append, h1]
    simp only [List.foldl_cons, List.foldl_nil, List.reverse_singleton, List.singleton_append, List.map_cons, Nat.ofDigits_cons]
    rw [hd c (h c (List.mem_append_right _ List.mem_cons_self))]
    omega

/-! ## Functions -/

theorem call_line (env : Env) (a b : Text) :
    callMethod env "_function_Line".toList [a, b] = callFunction env "Line" [String.ofList a, String.ofList b] := by
  unfold callMethod
  rw [if_pos (by decide +kernel)]
  rfl

theorem call_angleLine (env : Env) (a b : Text) :
    callMethod env "_function_AngleLine".toList [a, b] = callFunction env "AngleLine" [String.ofList a, String.ofList b] := by
  unfold callMethod
  rw [if_pos (by decide +kernel)]
  rfl

theorem call_current (env : Env) :
    callMethod env "_function_CurrentLength".toList [] = callFunction env "CurrentLength" [] := by
  unfold callMethod
  rw [if_pos (by decide +kernel)]
  rfl

/-- The outcome of the functions of two points. -/
theorem two_points (env : Env) (f a b : String) (hf : f = "Line" ∨ f = "AngleLine") :
    (∃ p q, env.points a = some (some p) ∧ env.points b = some (some q)) ∨
      (env.points a = none ∨ env.points b = none) ∧ callFunction env f [a, b] = .error .keyError ∨
      (∃ x, env.points a = some x) ∧ env.points b = some none ∧ callFunction env f [a, b] = .error .typeError ∨
      env.points a = some none ∧ callFunction env f [a, b] = .error .attributeError := by
  cases ha : env.points a with
  | none =>
    right; left
    exact ⟨.inl rfl, CalcFunctions.unknown_point env f a b (by rcases hf with rfl | rfl <;> decide) (.inl ha)⟩
  | some x =>
    cases hb : env.points b with
    | none =>
      right; left
      exact ⟨.inr rfl, CalcFunctions.unknown_point env f a b (by rcases hf with rfl | rfl <;> decide) (.inr hb)⟩
    | some y =>
      cases y with
      | none =>
        right; right; left
        refine ⟨⟨x, rfl⟩, rfl, ?_⟩
        rcases hf with rfl | rfl <;> cases x <;>
          simp [callFunction, CalcFunctions.vectorPoints, CalcFunctions.vectorPoint, ha, hb, bind, Except.bind, pure, Except.pure,
            CalcFunctions.difference]
      | some q =>
        cases x with
        | none =>
          right; right; right
          refine ⟨rfl, ?_⟩
          rcases hf with rfl | rfl <;>
            simp [callFunction, CalcFunctions.vectorPoints, CalcFunctions.vectorPoint, ha, hb, bind, Except.bind, pure, Except.pure,
              CalcFunctions.difference]
        | some p => left; exact ⟨p, q, rfl, rfl⟩

/-- A direction has one angle. -/
theorem angle_unique {l m s t : ℝ} (hl : 0 < l) (hm : 0 < m) (hs : -180 < s ∧ s ≤ 180) (ht : -180 < t ∧ t ≤ 180)
    (hc : l * Real.cos (s * (Real.pi / 180)) = m * Real.cos (t * (Real.pi / 180)))
    (hi : l * Real.sin (s * (Real.pi / 180)) = m * Real.sin (t * (Real.pi / 180))) : s = t := by
  have hp := Real.pi_pos
  have range : ∀ x : ℝ, -180 < x ∧ x ≤ 180 → x * (Real.pi / 180) ∈ Set.Ioc (-Real.pi) Real.pi := by
    intro x hx
    constructor
    · nlinarith [hx.1]
    · nlinarith [hx.2]
  have e1 := Complex.arg_mul_cos_add_sin_mul_I hl (range s hs)
  have e2 := Complex.arg_mul_cos_add_sin_mul_I hm (range t ht)
  have e3 : ∀ x y : ℝ, l * Real.cos x = m * Real.cos y → l * Real.sin x = m * Real.sin y →
      (l : ℂ) * (Complex.cos (x : ℂ) + Complex.sin (x : ℂ) * Complex.I) = (m : ℂ) * (Complex.cos (y : ℂ) + Complex.sin (y : ℂ) * Complex.I) := by
    intro x y h1 h2
    rw [← Complex.ofReal_cos, ← Complex.ofReal_sin, ← Complex.ofReal_cos, ← Complex.ofReal_sin]
    have h1' : (l : ℂ) * (Real.cos x : ℂ) = m * (Real.cos y : ℂ) := by exact_mod_cast h1
    have h2' : (l : ℂ) * (Real.sin x : ℂ) = m * (Real.sin y : ℂ) := by exact_mod_cast h2
    linear_combination h1' + Complex.I * h2'
  rw [e3 _ _ hc hi, e2] at e1
  have h180 : Real.pi / 180 ≠ 0 := by positivity
  exact (mul_right_cancel₀ h180 e1).symm

/-! ## Evaluation -/

variable {measure : Text → Option ℝ} {env : Env}

theorem bind_ok {x y : Except PyErr ℝ} {op : ℝ → ℝ → Except PyErr ℝ} {v : ℝ} :
    (do let a ← x; let b ← y; op a b) = .ok v ↔ ∃ a b, x = .ok a ∧ y = .ok b ∧ op a b = .ok v := by
  cases x with
  | error e => simp [bind, Except.bind]
  | ok a =>
    cases y with
    | error e => simp [bind, Except.bind]
    | ok b => simp [bind, Except.bind]

/-- The value of the expression is the value of the formula. -/
theorem eval_means (f : Formula) (h : f.Good) (v : ℝ) (hm : f.Means measure env v) : f.tree.eval measure env = .ok v := by
  unfold Good at h
  induction f generalizing v with
  | custom n => exact h.elim
  | number w f =>
    cases f with
    | none =>
      simp only [Means] at hm
      simp only [tree, Tree.eval, literal, hm, digits_value w h.2.1]
      simp [digits]
    | some f =>
      simp only [Means] at hm
      simp only [tree, Tree.eval, literal, hm, digits_value w h.2.1, digits_value f h.2.2]
  | measurement n =>
    simp only [Means] at hm
    simp only [tree, Tree.eval, hm]
  | line a b =>
    obtain ⟨p, q, h1, h2, rfl⟩ := hm
    exact (call_line env a b).trans (CalcFunctions.line_value env _ _ p q h1 h2).1
  | angleLine a b =>
    obtain ⟨p, q, h1, h2, h3, h4, h5, l, h6, h7⟩ := hm
    obtain ⟨s, m, k1, k2, k3, k4, k5, k6⟩ := CalcFunctions.angle_line_value env _ _ p q h1 h2 h3
    have e := h7.symm.trans k6
    have ex := congrArg Vec.x e
    have ey := congrArg Vec.y e
    simp only at ex ey
    have : v = s := angle_unique h6 k5 ⟨h4, h5⟩ ⟨k3, k4⟩ (by linarith) (by linarith)
    rw [this]
    exact (call_angleLine env a b).trans k1
  | currentLength =>
    obtain ⟨s, h1, rfl⟩ := hm
    refine (call_current env).trans ?_
    rw [CalcFunctions.current_length, h1]
  | paren f ih => exact ih h v hm
  | before f ih => exact ih h v hm
  | after f ih => exact ih h v hm
  | pos f ih => exact ih h.1 v hm
  | neg f ih =>
    obtain ⟨x, h1, rfl⟩ := hm
    simp only [tree, Tree.eval, ih h.1 x h1, bind, Except.bind, pure, Except.pure]
  | add f g ih1 ih2 | sub f g ih1 ih2 | mul f g ih1 ih2 =>
    obtain ⟨x, y, h1, h2, rfl⟩ := hm
    simp only [tree, Tree.eval, ih1 h.1 x h1, ih2 h.2.1 y h2, bind, Except.bind, pure, Except.pure]
  | div f g ih1 ih2 =>
    obtain ⟨x, y, h1, h2, h3, rfl⟩ := hm
    simp only [tree, Tree.eval, ih1 h.1 x h1, ih2 h.2.1 y h2, bind, Except.bind, pure, Except.pure, if_neg h3]

/-- The expression only has a value when the formula has one. -/
theorem means_eval (f : Formula) (h : f.Good) (ha : f.Apart env) (v : ℝ) (he : f.tree.eval measure env = .ok v) :
    f.Means measure env v := by
  unfold Good at h
  induction f generalizing v with
  | custom n => exact h.elim
  | number w f =>
    cases f with
    | none =>
      simp only [tree, Tree.eval, literal, digits_value w h.2.1, Except.ok.injEq] at he
      simp only [Means, ← he]
      simp [digits]
    | some f =>
      simp only [tree, Tree.eval, literal, digits_value w h.2.1, digits_value f h.2.2, Except.ok.injEq] at he
      simp only [Means, ← he]
  | measurement n =>
    simp only [tree, Tree.eval] at he
    simp only [Means]
    cases hn : measure n with
    | none => rw [hn] at he; cases he
    | some x => rw [hn] at he; cases he; rfl
  | line a b =>
    have he' : callFunction env "Line" [String.ofList a, String.ofList b] = .ok v := (call_line env a b).symm.trans he
    rcases two_points env "Line" (String.ofList a) (String.ofList b) (.inl rfl) with ⟨p, q, h1, h2⟩ | ⟨-, h1⟩ | ⟨-, -, h1⟩ | ⟨-, h1⟩
    · rw [(CalcFunctions.line_value env _ _ p q h1 h2).1] at he'
      cases he'
      exact ⟨p, q, h1, h2, rfl⟩
    all_goals
      rw [h1] at he'
      cases he'
  | angleLine a b =>
    have he' : callFunction env "AngleLine" [String.ofList a, String.ofList b] = .ok v := (call_angleLine env a b).symm.trans he
    rcases two_points env "AngleLine" (String.ofList a) (String.ofList b) (.inr rfl) with ⟨p, q, h1, h2⟩ | ⟨-, h1⟩ | ⟨-, -, h1⟩ | ⟨-, h1⟩
    · have hpq : p ≠ q := by
        rintro rfl
        exact ha p h1 h2
      obtain ⟨s, m, k1, k2, k3, k4, k5, k6⟩ := CalcFunctions.angle_line_value env _ _ p q h1 h2 hpq
      rw [k1] at he'
      cases he'
      exact ⟨p, q, h1, h2, hpq, k3, k4, m, k5, k6⟩
    all_goals
      rw [h1] at he'
      cases he'
  | currentLength =>
    have he' : callFunction env "CurrentLength" [] = .ok v := (call_current env).symm.trans he
    rw [CalcFunctions.current_length] at he'
    cases hc : env.current with
    | none => rw [hc] at he'; cases he'
    | some s => rw [hc] at he'; cases he'; exact ⟨s, hc, rfl⟩
  | paren f ih => exact ih h ha v he
  | before f ih => exact ih h ha v he
  | after f ih => exact ih h ha v he
  | pos f ih => exact ih h.1 ha v he
  | neg f ih =>
    simp only [tree, Tree.eval, bind, Except.bind, pure, Except.pure] at he
    cases hx : f.tree.eval measure env with
    | error e => rw [hx] at he; cases he
    | ok x => rw [hx] at he; cases he; exact ⟨x, ih h.1 ha x hx, rfl⟩
  | add f g ih1 ih2 | sub f g ih1 ih2 | mul f g ih1 ih2 =>
    simp only [tree, Tree.eval] at he
    obtain ⟨x, y, hx, hy, hv⟩ := bind_ok.1 he
    cases hv
    exact ⟨x, y, ih1 h.1 ha.1 x hx, ih2 h.2.1 ha.2 y hy, rfl⟩
  | div f g ih1 ih2 =>
    simp only [tree, Tree.eval] at he
    obtain ⟨x, y, hx, hy, hv⟩ := bind_ok.1 he
    by_cases h0 : y = 0
    · rw [if_pos h0] at hv; cases hv
    · rw [if_neg h0] at hv
      cases hv
      exact ⟨x, y, ih1 h.1 ha.1 x hx, ih2 h.2.1 ha.2 y hy, h0, rfl⟩

/-! ## Dependencies and names -/

theorem visitAll_two {P : Type} (points : Text → Option P) (a b : CalcFunctions.Ast) :
    CalcFunctions.visit points (.other [a, b]) = (do
      let x ← CalcFunctions.visit points a
      let y ← CalcFunctions.visit points b
      return x ++ y) := by
  simp only [CalcFunctions.visit, CalcFunctions.visitAll, bind, Except.bind, pure, Except.pure]
  cases CalcFunctions.visit points a <;> cases CalcFunctions.visit points b <;> simp

theorem visitAll_one {P : Type} (points : Text → Option P) (a : CalcFunctions.Ast) :
    CalcFunctions.visit points (.other [a]) = CalcFunctions.visit points a := by
  simp only [CalcFunctions.visit, CalcFunctions.visitAll, bind, Except.bind, pure, Except.pure]
  cases CalcFunctions.visit points a <;> simp

/-- The dependencies are found, unless a point of `Line` is not known. -/
theorem visit_formula {P : Type} (points : Text → Option P) (f : Formula) :
    (∃ l, CalcFunctions.visit points f.tree.ast = .ok l) ∨
      CalcFunctions.visit points f.tree.ast = .error .keyError ∧ ∃ a b, line a b ∈ f.parts ∧ (points a = none ∨ points b = none) := by
  have two : ∀ f g : Formula,
      ((∃ l, CalcFunctions.visit points f.tree.ast = .ok l) ∨
        CalcFunctions.visit points f.tree.ast = .error .keyError ∧ ∃ a b, line a b ∈ f.parts ∧ (points a = none ∨ points b = none)) →
      ((∃ l, CalcFunctions.visit points g.tree.ast = .ok l) ∨
        CalcFunctions.visit points g.tree.ast = .error .keyError ∧ ∃ a b, line a b ∈ g.parts ∧ (points a = none ∨ points b = none)) →
      (∃ l, CalcFunctions.visit points (.other [f.tree.ast, g.tree.ast]) = .ok l) ∨
        CalcFunctions.visit points (.other [f.tree.ast, g.tree.ast]) = .error .keyError ∧
          ∃ a b, line a b ∈ f.parts ++ g.parts ∧ (points a = none ∨ points b = none) := by
    intro f g h1 h2
    rw [visitAll_two]
    rcases h1 with ⟨l, h1⟩ | ⟨h1, a, b, h3, h4⟩
    · rcases h2 with ⟨m, h2⟩ | ⟨h2, a, b, h3, h4⟩
      · exact .inl ⟨l ++ m, by simp only [h1, h2, bind, Except.bind, pure, Except.pure]⟩
      · exact .inr ⟨by simp only [h1, h2, bind, Except.bind], a, b, List.mem_append_right _ h3, h4⟩
    · exact .inr ⟨by simp only [h1, bind, Except.bind], a, b, List.mem_append_left _ h3, h4⟩
  have unknown : ∀ a b, points a = none ∨ points b = none → CalcFunctions.visit points (line a b).tree.ast = .error .keyError := by
    intro a b h
    change CalcFunctions.visit points (.call (.attr (.name "__calculator__".toList) "_function_Line".toList) [.str a, .str b] []) = _
    rw [CalcFunctions.visit]
    simp only [CalcFunctions.callPoints, CalcFunctions.baseId, bind, Except.bind, if_true, CalcFunctions.argPoints, CalcFunctions.argPoint]
    cases ha : points a with
    | none => rfl
    | some p =>
      rcases h with h | h
      · rw [ha] at h; cases h
      · simp only [h]
  induction f with
  | number w f => cases f <;> exact .inl ⟨[], rfl⟩
  | custom n => exact .inl ⟨[], rfl⟩
  | measurement n => exact .inl ⟨[], rfl⟩
  | line a b =>
    cases ha : points a with
    | none =>
      right
      refine ⟨?_, a, b, List.mem_cons_self, .inl ha⟩
      exact unknown a b (.inl ha)
    | some p =>
      cases hb : points b with
      | none =>
        right
        exact ⟨unknown a b (.inr hb), a, b, List.mem_cons_self, .inr hb⟩
      | some q => exact .inl ⟨_, CalcFunctions.line_dependencies points a b p q ha hb⟩
  | angleLine a b => exact .inl ⟨[], CalcFunctions.other_dependencies_wrong points "AngleLine".toList (by decide) [a, b]⟩
  | currentLength => exact .inl ⟨[], CalcFunctions.other_dependencies_wrong points "CurrentLength".toList (by decide) []⟩
  | paren f ih | before f ih | after f ih =>
    rcases ih with ih | ⟨h1, a, b, h2, h3⟩
    · exact .inl ih
    · exact .inr ⟨h1, a, b, List.mem_cons_of_mem _ h2, h3⟩
  | pos f ih | neg f ih =>
    simp only [tree, Tree.ast, visitAll_one]
    rcases ih with ih | ⟨h1, a, b, h2, h3⟩
    · exact .inl ih
    · exact .inr ⟨h1, a, b, List.mem_cons_of_mem _ h2, h3⟩
  | add f g ih1 ih2 | sub f g ih1 ih2 | mul f g ih1 ih2 | div f g ih1 ih2 =>
    rcases two f g ih1 ih2 with h | ⟨h1, a, b, h2, h3⟩
    · exact .inl h
    · exact .inr ⟨h1, a, b, List.mem_cons_of_mem _ h2, h3⟩

theorem names_parts (f : Formula) (hg : f.Good) (n : Text) (h : n ∈ f.tree.names) : measurement n ∈ f.parts := by
  unfold Good at hg
  induction f with
  | custom n => exact hg.elim
  | number w f => cases f <;> exact absurd h List.not_mem_nil
  | measurement m =>
    have := List.mem_singleton.1 h
    subst this
    exact List.mem_cons_self
  | line a b => exact absurd h List.not_mem_nil
  | angleLine a b => exact absurd h List.not_mem_nil
  | currentLength => exact absurd h List.not_mem_nil
  | paren f ih | before f ih | after f ih => exact List.mem_cons_of_mem _ (ih hg h)
  | pos f ih | neg f ih => exact List.mem_cons_of_mem _ (ih hg.1 h)
  | add f g ih1 ih2 | sub f g ih1 ih2 | mul f g ih1 ih2 | div f g ih1 ih2 =>
    rcases List.mem_append.1 h with h | h
    · exact List.mem_cons_of_mem _ (List.mem_append_left _ (ih1 hg.1 h))
    · exact List.mem_cons_of_mem _ (List.mem_append_right _ (ih2 hg.2.1 h))

/-- The measurements of a formula which has a value are known. -/
theorem means_known (f : Formula) (v : ℝ) (h : f.Means measure env v) (n : Text) (hn : measurement n ∈ f.parts) : (measure n).isSome := by
  induction f generalizing v with
  | custom m => simp [parts] at hn
  | number w f => simp [parts] at hn
  | measurement m =>
    simp only [parts, List.mem_singleton, measurement.injEq] at hn
    subst hn
    simp only [Means] at h
    rw [h]
    rfl
  | line a b => simp [parts] at hn
  | angleLine a b => simp [parts] at hn
  | currentLength => simp [parts] at hn
  | paren f ih | before f ih | after f ih | pos f ih =>
    simp only [parts, List.mem_cons, reduceCtorEq, false_or] at hn
    exact ih v h hn
  | neg f ih =>
    simp only [parts, List.mem_cons, reduceCtorEq, false_or] at hn
    obtain ⟨x, h, -⟩ := h
    exact ih x h hn
  | add f g ih1 ih2 | sub f g ih1 ih2 | mul f g ih1 ih2 | div f g ih1 ih2 =>
    simp only [parts, List.mem_cons, reduceCtorEq, false_or, List.mem_append] at hn
    obtain ⟨x, y, h1, h2, -⟩ := h
    rcases hn with hn | hn
    · exact ih1 x h1 hn
    · exact ih2 y h2 hn

/-- The points of `Line` in a formula which has a value are known. -/
theorem means_points (f : Formula) (v : ℝ) (h : f.Means measure env v) (a b : Text) (hn : line a b ∈ f.parts) :
    env.points (String.ofList a) ≠ none ∧ env.points (String.ofList b) ≠ none := by
  induction f generalizing v with
  | custom m => simp [parts] at hn
  | number w f => simp [parts] at hn
  | measurement m => simp [parts] at hn
  | line c d =>
    simp only [parts, List.mem_singleton, line.injEq] at hn
    obtain ⟨rfl, rfl⟩ := hn
    obtain ⟨p, q, h1, h2, -⟩ := h
    rw [h1, h2]
    exact ⟨fun e => (by cases e), fun e => (by cases e)⟩
  | angleLine a b => simp [parts] at hn
  | currentLength => simp [parts] at hn
  | paren f ih | before f ih | after f ih | pos f ih =>
    simp only [parts, List.mem_cons, reduceCtorEq, false_or] at hn
    exact ih v h hn
  | neg f ih =>
    simp only [parts, List.mem_cons, reduceCtorEq, false_or] at hn
    obtain ⟨x, h, -⟩ := h
    exact ih x h hn
  | add f g ih1 ih2 | sub f g ih1 ih2 | mul f g ih1 ih2 | div f g ih1 ih2 =>
    simp only [parts, List.mem_cons, reduceCtorEq, false_or, List.mem_append] at hn
    obtain ⟨x, y, h1, h2, -⟩ := h
    rcases hn with hn | hn
    · exact ih1 x h1 hn
    · exact ih2 y h2 hn

/-- The custom measurements of a formula which has a value are known. -/
theorem means_custom (f : Formula) (v : ℝ) (h : f.Means measure env v) (n : Text) (hn : custom n ∈ f.parts) : (measure ('@' :: n)).isSome := by
  induction f generalizing v with
  | number w f => simp [parts] at hn
  | custom m =>
    simp only [parts, List.mem_singleton, custom.injEq] at hn
    subst hn
    simp only [Means] at h
    rw [h]
    rfl
  | measurement m => simp [parts] at hn
  | line a b => simp [parts] at hn
  | angleLine a b => simp [parts] at hn
  | currentLength => simp [parts] at hn
  | paren f ih | before f ih | after f ih | pos f ih =>
    simp only [parts, List.mem_cons, reduceCtorEq, false_or] at hn
    exact ih v h hn
  | neg f ih =>
    simp only [parts, List.mem_cons, reduceCtorEq, false_or] at hn
    obtain ⟨x, h, -⟩ := h
    exact ih x h hn
  | add f g ih1 ih2 | sub f g ih1 ih2 | mul f g ih1 ih2 | div f g ih1 ih2 =>
    simp only [parts, List.mem_cons, reduceCtorEq, false_or, List.mem_append] at hn
    obtain ⟨x, y, h1, h2, -⟩ := h
    rcases hn with hn | hn
    · exact ih1 x h1 hn
    · exact ih2 y h2 hn

/-- Why an evaluation fails. -/
theorem eval_error (f : Formula) (h : f.Good) (ha : f.Apart env) (e : PyErr) (he : f.tree.eval measure env = .error e) :
    (e = .nameError ∧ ∃ n, measurement n ∈ f.parts ∧ measure n = none) ∨ f.Reason measure env e := by
  have weaken : ∀ (f g : Formula) (e : PyErr), (∀ x ∈ f.parts, x ∈ g.parts) →
      ((e = .nameError ∧ ∃ n, measurement n ∈ f.parts ∧ measure n = none) ∨ f.Reason measure env e) →
      (e = .nameError ∧ ∃ n, measurement n ∈ g.parts ∧ measure n = none) ∨ g.Reason measure env e := by
    intro f g e hs h
    have hu : ∀ a b, f.UsesPoints a b → g.UsesPoints a b := fun a b hab => hab.imp (hs _) (hs _)
    rcases h with ⟨h1, n, h2, h3⟩ | h
    · exact .inl ⟨h1, n, hs _ h2, h3⟩
    · right
      cases e <;> simp only [Reason] at h ⊢
      all_goals first
      | exact h.elim
      | (obtain ⟨a, b, h1, h2⟩ := h
         first
         | exact ⟨a, b, hu a b h1, h2⟩
         | exact ⟨a, b, hs _ h1, h2⟩)
      | (rcases h with ⟨a, b, h1, h2⟩ | ⟨n, h1, h2⟩
         · exact .inl ⟨a, b, hu a b h1, h2⟩
         · exact .inr ⟨n, hs _ h1, h2⟩)
      | (rcases h with ⟨a, b, h1, h2⟩ | ⟨h1, h2⟩
         · exact .inl ⟨a, b, hu a b h1, h2⟩
         · exact .inr ⟨hs _ h1, h2⟩)
  have points : ∀ (g : Formula) (fn : String) (a b : Text), fn = "Line" ∨ fn = "AngleLine" → g.UsesPoints a b →
      callFunction env fn [String.ofList a, String.ofList b] = .error e →
      (∃ p q, env.points (String.ofList a) = some (some p) ∧ env.points (String.ofList b) = some (some q)) ∨ g.Reason measure env e := by
    intro g fn a b hf hu hc
    rcases two_points env fn (String.ofList a) (String.ofList b) hf with h1 | ⟨h1, h2⟩ | ⟨-, h1, h2⟩ | ⟨h1, h2⟩
    · exact .inl h1
    all_goals
      rw [h2] at hc
      cases hc
      right
    · exact .inl ⟨a, b, hu, h1⟩
    · exact ⟨a, b, hu, h1⟩
    · exact .inl ⟨a, b, hu, h1⟩
  have two : ∀ (f g k : Formula) (op : ℝ → ℝ → Except PyErr ℝ), (∀ x ∈ f.parts, x ∈ k.parts) → (∀ x ∈ g.parts, x ∈ k.parts) →
      (f.tree.eval measure env = .error e → (e = .nameError ∧ ∃ n, measurement n ∈ f.parts ∧ measure n = none) ∨ f.Reason measure env e) →
      (g.tree.eval measure env = .error e → (e = .nameError ∧ ∃ n, measurement n ∈ g.parts ∧ measure n = none) ∨ g.Reason measure env e) →
      (do let x ← f.tree.eval measure env; let y ← g.tree.eval measure env; op x y) = .error e →
      ((e = .nameError ∧ ∃ n, measurement n ∈ k.parts ∧ measure n = none) ∨ k.Reason measure env e) ∨
        ∃ x y, f.tree.eval measure env = .ok x ∧ g.tree.eval measure env = .ok y ∧ op x y = .error e := by
    intro f g k op h1 h2 h3 h4 h5
    cases hx : f.tree.eval measure env with
    | error e' =>
      rw [hx] at h5
      cases h5
      exact .inl (weaken f k e h1 (h3 hx))
    | ok x =>
      cases hy : g.tree.eval measure env with
      | error e' =>
        rw [hx, hy] at h5
        cases h5
        exact .inl (weaken g k e h2 (h4 hy))
      | ok y =>
        rw [hx, hy] at h5
        exact .inr ⟨x, y, rfl, rfl, h5⟩
  unfold Good at h
  induction f with
  | custom n => exact h.elim
  | number w f => cases f <;> simp [tree, Tree.eval] at he
  | measurement n =>
    left
    simp only [tree, Tree.eval] at he
    cases hn : measure n with
    | none =>
      rw [hn] at he
      cases he
      exact ⟨rfl, n, List.mem_cons_self, hn⟩
    | some v => rw [hn] at he; cases he
  | line a b =>
    right
    have hc := (call_line env a b).symm.trans he
    rcases points (line a b) "Line" a b (.inl rfl) (.inl List.mem_cons_self) hc with ⟨p, q, h1, h2⟩ | h
    · rw [(CalcFunctions.line_value env _ _ p q h1 h2).1] at hc
      cases hc
    · exact h
  | angleLine a b =>
    right
    have hc := (call_angleLine env a b).symm.trans he
    rcases points (angleLine a b) "AngleLine" a b (.inr rfl) (.inr List.mem_cons_self) hc with ⟨p, q, h1, h2⟩ | h
    · have hpq : p ≠ q := by
        rintro rfl
        exact ha p h1 h2
      obtain ⟨s, m, k1, -⟩ := CalcFunctions.angle_line_value env _ _ p q h1 h2 hpq
      rw [k1] at hc
      cases hc
    · exact h
  | currentLength =>
    right
    have hc := (call_current env).symm.trans he
    rw [CalcFunctions.current_length] at hc
    cases hs : env.current with
    | none =>
      rw [hs] at hc
      cases hc
      exact .inr ⟨List.mem_cons_self, hs⟩
    | some s => rw [hs] at hc; cases hc
  | paren f ih | before f ih | after f ih => exact weaken f _ e (fun x hx => List.mem_cons_of_mem _ hx) (ih h ha he)
  | pos f ih => exact weaken f _ e (fun x hx => List.mem_cons_of_mem _ hx) (ih h.1 ha he)
  | neg f ih =>
    refine weaken f _ e (fun x hx => List.mem_cons_of_mem _ hx) (ih h.1 ha ?_)
    simp only [tree, Tree.eval, bind, Except.bind, pure, Except.pure] at he
    cases hx : f.tree.eval measure env with
    | error e' => rw [hx] at he; cases he; rfl
    | ok x => rw [hx] at he; cases he
  | add f g ih1 ih2 =>
    rcases two f g (add f g) _ (fun x hx => List.mem_cons_of_mem _ (List.mem_append_left _ hx))
      (fun x hx => List.mem_cons_of_mem _ (List.mem_append_right _ hx)) (ih1 h.1 ha.1) (ih2 h.2.1 ha.2) he with h | ⟨x, y, -, -, hv⟩
    · exact h
    · cases hv
  | sub f g ih1 ih2 =>
    rcases two f g (sub f g) _ (fun x hx => List.mem_cons_of_mem _ (List.mem_append_left _ hx))
      (fun x hx => List.mem_cons_of_mem _ (List.mem_append_right _ hx)) (ih1 h.1 ha.1) (ih2 h.2.1 ha.2) he with h | ⟨x, y, -, -, hv⟩
    · exact h
    · cases hv
  | mul f g ih1 ih2 =>
    rcases two f g (mul f g) _ (fun x hx => List.mem_cons_of_mem _ (List.mem_append_left _ hx))
      (fun x hx => List.mem_cons_of_mem _ (List.mem_append_right _ hx)) (ih1 h.1 ha.1) (ih2 h.2.1 ha.2) he with h | ⟨x, y, -, -, hv⟩
    · exact h
    · cases hv
  | div f g ih1 ih2 =>
    rcases two f g (div f g) _ (fun x hx => List.mem_cons_of_mem _ (List.mem_append_left _ hx))
      (fun x hx => List.mem_cons_of_mem _ (List.mem_append_right _ hx)) (ih1 h.1 ha.1) (ih2 h.2.1 ha.2) he with h | ⟨x, y, -, hy, hv⟩
    · exact h
    · by_cases h0 : y = 0
      · rw [if_pos h0] at hv
        cases hv
        subst h0
        exact .inr ⟨f, g, List.mem_cons_self, means_eval g h.2.1 ha.2 0 hy⟩
      · rw [if_neg h0] at hv
        cases hv

/-! ## The value of a formula without custom measurements -/

variable (builtin : Text → Bool) (pyName : Text → Except PyErr Text)

/-- The outcome of the evaluation of a formula whose custom measurements have their names for Python. -/
noncomputable def outcome (builtin : Text → Bool) (cache : Text → Option ℝ) (env : Env) (f : Formula) : Option (Except PyErr (Option ℝ)) :=
  match CalcFunctions.visit (fun n => env.points (String.ofList n)) f.tree.ast with
  | .error e => some (.error e)
  | .ok _ =>
    if f.tree.names.any (fun n => builtin n && (cache n).isNone) then none else
    match f.tree.eval cache env with
    | .ok v => some (.ok (some v))
    | .error .nameError => some (.ok none)
    | .error e => some (.error e)

theorem outcome_value (f : Formula) (h : f.Good) (v : ℝ) (hm : f.Means measure env v) : outcome builtin measure env f = some (.ok (some v)) := by
  unfold outcome
  rcases visit_formula (fun n => env.points (String.ofList n)) f with ⟨l, hl⟩ | ⟨-, a, b, h1, h2⟩
  · rw [hl]
    simp only
    rw [if_neg, eval_means f h v hm]
    simp only [List.any_eq_true, not_exists, not_and]
    intro n hn
    have := means_known f v hm n (names_parts f h n hn)
    obtain ⟨x, hx⟩ := Option.isSome_iff_exists.1 this
    simp [hx]
  · obtain ⟨k1, k2⟩ := means_points f v hm a b h1
    rcases h2 with h2 | h2
    · exact absurd h2 k1
    · exact absurd h2 k2

theorem outcome_only (f : Formula) (h : f.Good) (ha : f.Apart env) (v : ℝ) (hv : outcome builtin measure env f = some (.ok (some v))) :
    f.Means measure env v := by
  unfold outcome at hv
  refine means_eval f h ha v ?_
  split at hv
  · cases hv
  · split at hv
    · cases hv
    · split at hv
      · cases hv
        assumption
      · cases hv
      · cases hv

theorem outcome_none (f : Formula) (h : f.Good) (ha : f.Apart env) (hv : outcome builtin measure env f = some (.ok none)) :
    ∃ n, measurement n ∈ f.parts ∧ measure n = none := by
  unfold outcome at hv
  split at hv
  · cases hv
  · split at hv
    · cases hv
    · split at hv
      · cases hv
      · rename_i he
        rcases eval_error f h ha _ he with ⟨-, h1⟩ | h1
        · exact h1
        · exact h1.elim
      · cases hv

theorem outcome_error (f : Formula) (h : f.Good) (ha : f.Apart env) (e : PyErr) (hv : outcome builtin measure env f = some (.error e)) :
    f.Reason measure env e := by
  unfold outcome at hv
  rcases visit_formula (fun n => env.points (String.ofList n)) f with ⟨l, hl⟩ | ⟨hk, a, b, h1, h2⟩
  · rw [hl] at hv
    simp only at hv
    split at hv
    · cases hv
    · split at hv
      · cases hv
      · cases hv
      · rename_i e' hne he
        cases hv
        rcases eval_error f h ha _ he with ⟨h1, -⟩ | h1
        · exact absurd h1 hne
        · exact h1
  · rw [hk] at hv
    cases hv
    exact .inl ⟨a, b, .inl h1, h2⟩

theorem outcome_some (f : Formula) (h : f.Good) (hb : ∀ n, measurement n ∈ f.parts → builtin n = false ∨ (measure n).isSome) :
    outcome builtin measure env f ≠ none := by
  unfold outcome
  split
  · simp
  · rw [if_neg]
    · split <;> simp
    · simp only [List.any_eq_true, not_exists, not_and]
      intro n hn
      rcases hb n (names_parts f h n hn) with hb | hb
      · simp [hb]
      · obtain ⟨x, hx⟩ := Option.isSome_iff_exists.1 hb
        simp [hx]

/-! ## Custom measurements -/

variable {cache : Text → Option ℝ}

/-- The parts of the formula with the names for Python. -/
theorem resolve_parts (F : Text → Text) (f g : Formula) : g ∈ (f.resolve F).parts ↔ ∃ k ∈ f.parts, g = k.resolve F := by
  induction f with
  | number w f => simp [resolve, parts]
  | measurement n => simp [resolve, parts]
  | custom n => simp [resolve, parts]
  | line a b => simp [resolve, parts]
  | angleLine a b => simp [resolve, parts]
  | currentLength => simp [resolve, parts]
  | paren f ih | before f ih | after f ih | pos f ih | neg f ih => simp [resolve, parts, ih]
  | add f g ih1 ih2 | sub f g ih1 ih2 | mul f g ih1 ih2 | div f g ih1 ih2 =>
    simp only [resolve, parts, List.mem_cons, List.mem_append, ih1, ih2]
    constructor
    · rintro (h | ⟨k, h1, h2⟩ | ⟨k, h1, h2⟩)
      · exact ⟨_, .inl rfl, h⟩
      · exact ⟨k, .inr (.inl h1), h2⟩
      · exact ⟨k, .inr (.inr h1), h2⟩
    · rintro ⟨k, rfl | h1 | h1, h2⟩
      · exact .inl h2
      · exact .inr (.inl ⟨k, h1, h2⟩)
      · exact .inr (.inr ⟨k, h1, h2⟩)

theorem wellFormed_part (P : Text → Prop) (f g : Formula) (h : f.WellFormedWith P) (hg : g ∈ f.parts) : g.WellFormedWith P := by
  induction f with
  | number w f =>
    have := List.mem_singleton.1 hg
    subst this
    exact h
  | measurement n | custom n | line a b | angleLine a b | currentLength =>
    have := List.mem_singleton.1 hg
    subst this
    exact h
  | paren f ih | before f ih | after f ih =>
    rcases List.mem_cons.1 hg with rfl | hg
    · exact h
    · exact ih h hg
  | pos f ih | neg f ih =>
    rcases List.mem_cons.1 hg with rfl | hg
    · exact h
    · exact ih h.1 hg
  | add f g ih1 ih2 | sub f g ih1 ih2 | mul f g ih1 ih2 | div f g ih1 ih2 =>
    rcases List.mem_cons.1 hg with rfl | hg
    · exact h
    · rcases List.mem_append.1 hg with hg | hg
      · exact ih1 h.1 hg
      · exact ih2 h.2.1 hg

theorem parts_trans (f g k : Formula) (h1 : k ∈ g.parts) (h2 : g ∈ f.parts) : k ∈ f.parts := by
  induction f with
  | number w f =>
    have := List.mem_singleton.1 h2
    subst this
    exact h1
  | measurement n | custom n | line a b | angleLine a b | currentLength =>
    have := List.mem_singleton.1 h2
    subst this
    exact h1
  | paren f ih | before f ih | after f ih | pos f ih | neg f ih =>
    rcases List.mem_cons.1 h2 with rfl | h2
    · exact h1
    · exact List.mem_cons_of_mem _ (ih h2)
  | add f g ih1 ih2 | sub f g ih1 ih2 | mul f g ih1 ih2 | div f g ih1 ih2 =>
    rcases List.mem_cons.1 h2 with rfl | h2
    · exact h1
    · rcases List.mem_append.1 h2 with h2 | h2
      · exact List.mem_cons_of_mem _ (List.mem_append_left _ (ih1 h2))
      · exact List.mem_cons_of_mem _ (List.mem_append_right _ (ih2 h2))

theorem measured_name (n : Text) (h : IsName n) : measured pyName cache n = cache n := by
  unfold measured
  rw [if_neg]
  intro e
  have := h.2.1 '@' (List.mem_of_head? e)
  exact absurd this (by decide +kernel)

theorem measured_custom (n p : Text) (h : pyName ('@' :: n) = .ok p) : measured pyName cache ('@' :: n) = cache p := by
  unfold measured
  rw [List.head?_cons, if_pos rfl, h]

/-- The value of the formula is the one of the formula with the names for Python. -/
theorem resolve_means (F : Text → Text) (f : Formula) (h : f.WellFormed)
    (hF : ∀ n, custom n ∈ f.parts → pyName ('@' :: n) = .ok (F ('@' :: n))) (v : ℝ) :
    (f.resolve F).Means cache env v ↔ f.Means (measured pyName cache) env v := by
  unfold WellFormed at h
  have left : ∀ {f g k : Formula}, (∀ n, custom n ∈ k :: (f.parts ++ g.parts) → pyName ('@' :: n) = .ok (F ('@' :: n))) →
      (∀ n, custom n ∈ f.parts → pyName ('@' :: n) = .ok (F ('@' :: n))) ∧ ∀ n, custom n ∈ g.parts → pyName ('@' :: n) = .ok (F ('@' :: n)) :=
    fun h => ⟨fun n hn => h n (List.mem_cons_of_mem _ (List.mem_append_left _ hn)), fun n hn => h n (List.mem_cons_of_mem _ (List.mem_append_right _ hn))⟩
  induction f generalizing v with
  | number w f => cases f <;> exact Iff.rfl
  | measurement n =>
    simp only [resolve, Means]
    rw [measured_name pyName n h]
  | custom n =>
    simp only [resolve, Means]
    rw [measured_custom pyName n _ (hF n List.mem_cons_self)]
  | line a b => exact Iff.rfl
  | angleLine a b => exact Iff.rfl
  | currentLength => exact Iff.rfl
  | paren f ih | before f ih | after f ih => exact ih h (fun n hn => hF n (List.mem_cons_of_mem _ hn)) v
  | pos f ih => exact ih h.1 (fun n hn => hF n (List.mem_cons_of_mem _ hn)) v
  | neg f ih =>
    simp only [resolve, Means, ih h.1 (fun n hn => hF n (List.mem_cons_of_mem _ hn))]
  | add f g ih1 ih2 | sub f g ih1 ih2 | mul f g ih1 ih2 | div f g ih1 ih2 =>
    simp only [resolve, Means, ih1 h.1 (left hF).1, ih2 h.2.1 (left hF).2]

theorem resolve_apart (F : Text → Text) (f : Formula) : (f.resolve F).Apart env ↔ f.Apart env := by
  induction f with
  | number w f => exact Iff.rfl
  | measurement n | custom n | line a b | angleLine a b | currentLength => exact Iff.rfl
  | paren f ih | before f ih | after f ih | pos f ih | neg f ih => exact ih
  | add f g ih1 ih2 | sub f g ih1 ih2 | mul f g ih1 ih2 | div f g ih1 ih2 =>
    simp only [resolve, Apart, ih1, ih2]

theorem resolve_reason (F : Text → Text) (f : Formula) (h : f.WellFormed)
    (hF : ∀ n, custom n ∈ f.parts → pyName ('@' :: n) = .ok (F ('@' :: n))) (e : PyErr) (hr : (f.resolve F).Reason cache env e) :
    f.Reason (measured pyName cache) env e := by
  have uses : ∀ a b, (f.resolve F).UsesPoints a b → f.UsesPoints a b := by
    rintro a b (h | h)
    · obtain ⟨k, h1, h2⟩ := (resolve_parts F f _).1 h
      cases k <;> simp only [resolve, reduceCtorEq] at h2
      exact .inl (by rwa [h2])
    · obtain ⟨k, h1, h2⟩ := (resolve_parts F f _).1 h
      cases k <;> simp only [resolve, reduceCtorEq] at h2
      exact .inr (by rwa [h2])
  cases e <;> simp only [Reason] at hr ⊢
  case zeroDivisionError =>
    obtain ⟨x, y, h1, h2⟩ := hr
    obtain ⟨k, k1, k2⟩ := (resolve_parts F f _).1 h1
    cases k <;> simp only [resolve, reduceCtorEq, div.injEq] at k2
    rename_i x' y'
    refine ⟨x', y', k1, ?_⟩
    rw [k2.2] at h2
    exact (resolve_means pyName F y' (wellFormed_part _ f _ h k1).2.1
      (fun n hn => hF n (parts_trans f (div x' y') _ (List.mem_cons_of_mem _ (List.mem_append_right _ hn)) k1)) 0).1 h2
  case keyError =>
    rcases hr with ⟨a, b, h1, h2⟩ | ⟨n, h1, -⟩
    · exact .inl ⟨a, b, uses a b h1, h2⟩
    · obtain ⟨k, k1, k2⟩ := (resolve_parts F f _).1 h1
      cases k <;> simp only [resolve, reduceCtorEq] at k2
  case typeError =>
    obtain ⟨a, b, h1, h2⟩ := hr
    exact ⟨a, b, uses a b h1, h2⟩
  case attributeError =>
    rcases hr with ⟨a, b, h1, h2⟩ | ⟨h1, h2⟩
    · exact .inl ⟨a, b, uses a b h1, h2⟩
    · obtain ⟨k, k1, k2⟩ := (resolve_parts F f _).1 h1
      cases k <;> simp only [resolve, reduceCtorEq] at k2
      exact .inr ⟨k1, h2⟩

theorem resolve_measurement (F : Text → Text) (f : Formula) (n : Text) (h : measurement n ∈ (f.resolve F).parts) :
    measurement n ∈ f.parts ∨ ∃ m, custom m ∈ f.parts ∧ n = F ('@' :: m) := by
  obtain ⟨k, k1, k2⟩ := (resolve_parts F f _).1 h
  cases k <;> simp only [resolve, reduceCtorEq, measurement.injEq] at k2
  · exact .inl (by rwa [k2])
  · exact .inr ⟨_, k1, k2⟩

/-- The names that Python is given. -/
def nameOf (x : Text) : Text :=
  match pyName x with
  | .ok p => p
  | .error _ => []

/-- The steps of the evaluation. -/
theorem value_eq (hp : Names pyName) (f : Formula) (h : f.Readable) :
    (∃ n, custom n ∈ f.parts ∧ measured pyName cache ('@' :: n) = none ∧ value builtin pyName cache f.source env = some (.error .keyError)) ∨
    (∃ F : Text → Text, (∀ n, custom n ∈ f.parts → pyName ('@' :: n) = .ok (F ('@' :: n))) ∧ (f.resolve F).Good ∧
      value builtin pyName cache f.source env = outcome builtin cache env (f.resolve F)) := by
  by_cases hex : ∃ n, custom n ∈ f.parts ∧ pyName ('@' :: n) = .error .keyError
  · obtain ⟨n, hn, he⟩ := hex
    refine .inl ⟨n, hn, ?_, ?_⟩
    · unfold measured
      rw [List.head?_cons, if_pos rfl, he]
    · unfold value
      rw [pythonise_unknown pyName hp.lookup f h.wellFormed h.oneCustom n hn he]
  · right
    have hF : ∀ n, custom n ∈ f.parts → pyName ('@' :: n) = .ok (nameOf pyName ('@' :: n)) := by
      intro n hn
      rcases hp.lookup ('@' :: n) with he | ⟨p, he⟩
      · exact absurd ⟨n, hn, he⟩ hex
      · unfold nameOf
        rw [he]
    have hN : ∀ n, custom n ∈ f.parts → IsName (nameOf pyName ('@' :: n)) := by
      intro n hn
      have hw := wellFormed_part _ f _ h.wellFormed hn
      exact hp.isName n _ hw.1 hw.2 (hF n hn)
    have hg := resolve_good (nameOf pyName) f h.wellFormed hN
    refine ⟨nameOf pyName, hF, hg, ?_⟩
    unfold value
    rw [pythonise_formula pyName (nameOf pyName) f h.wellFormed h.noClash h.oneCurrent h.oneCustom hF hN]
    simp only
    rw [parse_formula _ hg]
    · rfl
    · exact resolve_head (nameOf pyName) f h.wellFormed hN h.noBlank

/-! ## The value of a formula -/

/-- C225, what holds: a formula which has a value gives this value. Missing: formulas with other functions, with two different custom
measurements, and those that are not readable. -/
theorem formula_value_partial (hp : Names pyName) (f : Formula) (h : f.Readable) (v : ℝ) (hm : f.Means (measured pyName cache) env v) :
    value builtin pyName cache f.source env = some (.ok (some v)) := by
  rcases value_eq builtin pyName hp f h with ⟨n, h1, h2, -⟩ | ⟨F, h1, h2, h3⟩
  · have := means_custom f v hm n h1
    rw [h2] at this
    cases this
  · rw [h3]
    exact outcome_value builtin _ h2 v ((resolve_means pyName F f h.wellFormed h1 v).2 hm)

/-- C225, what holds: a formula gives no other value, and none when it has no value. -/
theorem formula_value_only_partial (hp : Names pyName) (f : Formula) (h : f.Readable) (ha : f.Apart env) (v : ℝ)
    (hv : value builtin pyName cache f.source env = some (.ok (some v))) : f.Means (measured pyName cache) env v := by
  rcases value_eq builtin pyName hp f h with ⟨n, -, -, h2⟩ | ⟨F, h1, h2, h3⟩
  · rw [h2] at hv
    cases hv
  · rw [h3] at hv
    exact (resolve_means pyName F f h.wellFormed h1 v).1 (outcome_only builtin _ h2 ((resolve_apart F f).2 ha) v hv)

/-- C225, what holds: a formula without a value, as it is said by `None`, uses a measurement which has no value. -/
theorem formula_none_partial (hp : Names pyName) (f : Formula) (h : f.Readable) (ha : f.Apart env)
    (hv : value builtin pyName cache f.source env = some (.ok none)) :
    ∃ n, (measurement n ∈ f.parts ∧ measured pyName cache n = none) ∨ (custom n ∈ f.parts ∧ measured pyName cache ('@' :: n) = none) := by
  rcases value_eq builtin pyName hp f h with ⟨n, -, -, h2⟩ | ⟨F, h1, h2, h3⟩
  · rw [h2] at hv
    cases hv
  · rw [h3] at hv
    obtain ⟨n, k1, k2⟩ := outcome_none builtin _ h2 ((resolve_apart F f).2 ha) hv
    rcases resolve_measurement F f n k1 with k | ⟨m, k, rfl⟩
    · exact ⟨n, .inl ⟨k, (measured_name pyName n (wellFormed_part _ f _ h.wellFormed k)).trans k2⟩⟩
    · exact ⟨m, .inr ⟨k, (measured_custom pyName m _ (h1 m k)).trans k2⟩⟩

/-- C225, what holds: an exception has its reason in the formula: a division by zero, a point or a custom measurement which is not known, a point
not yet placed, or the current length where there is no segment. -/
theorem formula_error_partial (hp : Names pyName) (f : Formula) (h : f.Readable) (ha : f.Apart env) (e : PyErr)
    (hv : value builtin pyName cache f.source env = some (.error e)) : f.Reason (measured pyName cache) env e := by
  rcases value_eq builtin pyName hp f h with ⟨n, h1, h2, h3⟩ | ⟨F, h1, h2, h3⟩
  · rw [h3] at hv
    cases hv
    exact .inr ⟨n, h1, h2⟩
  · rw [h3] at hv
    exact resolve_reason pyName F f h.wellFormed h1 e (outcome_error builtin _ h2 ((resolve_apart F f).2 ha) e hv)

/-- C225, what holds: a formula without the names of the functions of Python always has one of these outcomes. -/
theorem formula_outcome_partial (hp : Names pyName) (f : Formula) (h : f.Readable)
    (hb : ∀ n, measurement n ∈ f.parts → builtin n = false ∨ (cache n).isSome)
    (hc : ∀ n p, custom n ∈ f.parts → pyName ('@' :: n) = .ok p → builtin p = false ∨ (cache p).isSome) :
    value builtin pyName cache f.source env ≠ none := by
  rcases value_eq builtin pyName hp f h with ⟨n, -, -, h2⟩ | ⟨F, h1, h2, h3⟩
  · rw [h2]
    simp
  · rw [h3]
    refine outcome_some builtin _ h2 fun n hn => ?_
    rcases resolve_measurement F f n hn with k | ⟨m, k, rfl⟩
    · exact hb n k
    · exact hc m _ k (h1 m k)

/-- C225, what holds: the text of a formula can be read in one way only, as far as the value is concerned. -/
theorem formula_unambiguous_partial (hp : Names pyName) (f g : Formula) (hf : f.Readable) (hg : g.Readable) (h : f.source = g.source) (v w : ℝ)
    (hv : f.Means (measured pyName cache) env v) (hw : g.Means (measured pyName cache) env w) : v = w := by
  have h1 := formula_value_partial (fun _ => false) pyName hp f hf v hv
  have h2 := formula_value_partial (fun _ => false) pyName hp g hg w hw
  rw [h, h2] at h1
  cases h1
  rfl

/-- C225 fails for the angle of a line between two points at the same place: the angle, which has no value, is given as 90 degrees. -/
theorem formula_angle_wrong (hp : Names pyName) (a b : Text) (h : (angleLine a b).Readable) (p : Vec ℝ)
    (ha : env.points (String.ofList a) = some (some p)) (hb : env.points (String.ofList b) = some (some p)) :
    value builtin pyName cache (angleLine a b).source env = some (.ok (some 90)) ∧ ∀ v, ¬ (angleLine a b).Means measure env v := by
  constructor
  · rcases value_eq builtin pyName hp _ h with ⟨n, h1, -⟩ | ⟨F, -, -, h3⟩
    · simp [parts] at h1
    · refine h3.trans ?_
      change outcome builtin cache env (angleLine a b) = _
      unfold outcome
      rw [show CalcFunctions.visit (fun n => env.points (String.ofList n)) (angleLine a b).tree.ast = .ok [] from
        CalcFunctions.other_dependencies_wrong _ "AngleLine".toList (by decide) [a, b]]
      rw [show (angleLine a b).tree.eval cache env = .ok 90 from
        (call_angleLine env a b).trans (CalcFunctions.angle_line_null_wrong env _ _ p ha hb)]
      rfl
  · rintro v ⟨q, r, h1, h2, h3, -⟩
    rw [ha] at h1
    rw [hb] at h2
    cases h1
    cases h2
    exact h3 rfl

/-! ## Examples -/

theorem noClash_of (f : Formula) (h : ∀ v ∈ f.words.map Calculator.Word.source, ∀ w ∈ f.words.map Calculator.Word.source, ∀ c ∈ v.tails,
    (∃ k ∈ Calculator.keywords, k <+: c) → c <+: w → c = w) : f.NoClash := by
  intro v hv w hw c hc hk hp _
  exact h _ (List.mem_map_of_mem hv) _ (List.mem_map_of_mem hw) c ((List.mem_tails _ _).2 hc) hk hp

theorem oneCurrent_of (f : Formula) (h : (f.words.map Calculator.Word.source).count currentText ≤ 1) : f.OneCurrent := by
  intro a b c e
  rw [e] at h
  have h3 : Calculator.Word.currentLength.source = currentText := rfl
  simp only [List.map_append, List.map_cons, List.count_append, h3, List.count_cons_self] at h
  omega

theorem isName_of {n : Text} (h1 : n ≠ []) (h2 : n.all Calculator.isIdent = true) (h3 : n.head?.all (fun c => ! isDigit c) = true)
    (h4 : n ∉ pythonWords) (h5 : n ≠ "__calculator__".toList) (h6 : ∀ k ∈ Calculator.keywords, ¬ k <:+: n) : IsName n := by
  refine ⟨h1, List.all_eq_true.1 h2, fun c hc hd => ?_, h4, h5, h6⟩
  rw [hc] at h3
  simp [isDigit_of hd] at h3

theorem arePoints_of {a b : Text} (h : ∀ c ∈ a ++ b, Calculator.isIdent c = true ∧ c ≠ '_') (h6 : ∀ k ∈ Calculator.keywords, ¬ k <:+: a ++ '_' :: b) :
    ArePoints a b := ⟨h, h6⟩

/-- `2.50*(hip+ Line_A_B1)/@ease-CurrentLength`. -/
def exFormula : Formula :=
  sub (div (mul (number "2".toList (some "50".toList)) (paren (add (measurement "hip".toList) (before (line "A".toList "B1".toList)))))
    (custom "ease".toList)) currentLength

example : exFormula.source = "2.50*(hip+ Line_A_B1)/@ease-CurrentLength".toList := by decide +kernel

theorem exReadable : exFormula.Readable where
  wellFormed := by
    have hd : ∀ t ∈ ["2".toList, "50".toList], ∀ c ∈ t, c ∈ "0123456789".toList := by decide +kernel
    refine ⟨⟨⟨⟨by decide, hd _ (by decide), hd _ (by decide)⟩, ⟨?_, ?_, by decide⟩, by decide, by decide⟩,
      ⟨by decide +kernel, ?_⟩, by decide, by decide⟩, trivial, by decide⟩
    · exact isName_of (by decide) (by decide +kernel) (by decide +kernel) (by decide +kernel) (by decide +kernel) (by decide +kernel)
    · exact arePoints_of (by decide +kernel) (by decide +kernel)
    · exact (by decide +kernel : ∀ k ∈ Calculator.keywords, ¬ k <:+: "ease".toList)
  noClash := noClash_of _ (by decide +kernel)
  oneCurrent := oneCurrent_of _ (by decide +kernel)
  oneCustom := by
    intro m n hm hn
    simp only [exFormula, parts, List.mem_cons, List.mem_append, List.not_mem_nil, or_false, reduceCtorEq, false_or, custom.injEq] at hm hn
    rw [hm, hn]
  noBlank := by decide +kernel

/-- The names for Python: `@ease` is `C_ease`. -/
def exName : Text → Except PyErr Text := fun n => if n = "@ease".toList then .ok "C_ease".toList else .error .keyError

theorem exNames : Names exName where
  lookup x := by
    unfold exName
    split
    · exact .inr ⟨_, rfl⟩
    · exact .inl rfl
  isName n p _ _ h := by
    unfold exName at h
    split at h
    · cases h
      exact isName_of (by decide) (by decide +kernel) (by decide +kernel) (by decide +kernel) (by decide +kernel) (by decide +kernel)
    · cases h

/-- The hip is 10 and the ease is 4, the points are 5 apart and the segment has the length 2. -/
def exCache : Text → Option ℝ := fun n => if n = "hip".toList then some 10 else if n = "C_ease".toList then some 4 else none

/-- The points A and B1. -/
def exEnv : Env where
  points n := if n = "A" then some (some ⟨0, 0⟩) else if n = "B1" then some (some ⟨3, 4⟩) else none
  current := some ⟨0, 2⟩

/-- 2.5 (10 + 5) / 4 - 2. -/
theorem exMeans : exFormula.Means (measured exName exCache) exEnv (59 / 8) := by
  refine ⟨75 / 8, 2, ⟨75 / 2, 4, ⟨5 / 2, 15, ?_, ⟨10, 5, ?_, ?_, by norm_num⟩, by norm_num⟩, ?_, by norm_num, by norm_num⟩, ?_, by norm_num⟩
  · simp only [Means]
    rw [show digitsValue "2".toList = 2 by decide +kernel, show digitsValue "50".toList = 50 by decide +kernel,
      show "50".toList.length = 2 by decide +kernel]
    norm_num
  · have h : "hip".toList.head? ≠ some '@' := by decide
    simp only [Means, measured, exCache]
    rw [if_neg h]
    simp
  · refine ⟨⟨0, 0⟩, ⟨3, 4⟩, rfl, ?_, ?_⟩
    · rfl
    · rw [show ((3 : ℝ) - 0) ^ 2 + (4 - 0) ^ 2 = 5 ^ 2 by norm_num, Real.sqrt_sq (by norm_num)]
  · have h : exName ('@' :: "ease".toList) = .ok "C_ease".toList := by decide +kernel
    simp only [Means, measured, List.head?_cons, if_true, h, exCache]
    rw [if_neg (by decide)]
  · refine ⟨⟨0, 2⟩, rfl, ?_⟩
    rw [show (0 : ℝ) ^ 2 + 2 ^ 2 = 2 ^ 2 by norm_num, Real.sqrt_sq (by norm_num)]

example : value (fun _ => false) exName exCache "2.50*(hip+ Line_A_B1)/@ease-CurrentLength".toList exEnv =
    some (.ok (some (59 / 8))) := formula_value_partial _ _ exNames exFormula exReadable _ exMeans

/-- The hypotheses of `formula_angle_wrong` are met. -/
example : value (fun _ => false) exName exCache "AngleLine_A_A".toList exEnv = some (.ok (some 90)) :=
  (formula_angle_wrong (measure := exCache) (fun _ => false) exName exNames "A".toList "A".toList
    ⟨arePoints_of (by decide +kernel) (by decide +kernel), noClash_of _ (by decide +kernel), oneCurrent_of _ (by decide +kernel),
      fun m n hm => by simp [parts] at hm, by decide +kernel⟩ ⟨0, 0⟩ rfl rfl).1

/-- `1-2-3` is `(1-2)-3`, and `-2*3` is `(-2)*3`; a product binds more than a sum. -/
example : (parse "1-2-3".toList, parse "-2*3".toList, parse "1+2*3".toList, parse "(1+2)*3".toList) =
    (some (.sub (.sub (.num ['1'] []) (.num ['2'] [])) (.num ['3'] [])), some (.mul (.neg (.num ['2'] [])) (.num ['3'] [])),
      some (.add (.num ['1'] []) (.mul (.num ['2'] []) (.num ['3'] []))), some (.mul (.add (.num ['1'] []) (.num ['2'] [])) (.num ['3'] []))) := by
  decide +kernel

/-- Texts which are not in the modelled part of Python. -/
example : parse "007".toList = none ∧ parse "2hip".toList = none ∧ parse "1+".toList = none ∧ parse "(1".toList = none ∧ parse "1)".toList = none ∧
    parse " 1".toList = none ∧ parse "".toList = none ∧ parse "if".toList = none ∧ parse "1 2".toList = none := by
  decide +kernel

end Formula

end Patro.Formulas
