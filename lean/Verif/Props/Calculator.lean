import Verif.Proof.Calculator
/-!
# C20, C21, C22, C77: expressions
-/

namespace Patro.Calculator

open Patro
open Patro.Text

/-! ## Value cache -/

section Cache

variable {Code V Env : Type _} (compile : Env → Except PyErr Code) (run : Code → Env → Outcome V)

/-- C20. Once an expression has a value, every later read gives that value without evaluating anything, whatever
happens to the calculator's variables, until `set_dirty()` is called. -/
theorem value_kept (ops : List (Op Env)) (hops : Op.setDirty ∉ ops) (env : Env) (e : Expr Code V) (v : V)
    (hv : e.value = some v) :
    (∀ r ∈ (runOps compile run (env, e) ops).1, r = .ok (some v)) ∧
    (runOps compile run (env, e) ops).2.2.evaluations = e.evaluations ∧
    (runOps compile run (env, e) ops).2.2.value = some v := by
  induction ops generalizing env with
  | nil => exact ⟨by simp [runOps], rfl, hv⟩
  | cons op ops ih =>
    have hops' : Op.setDirty ∉ ops := fun h => hops (List.mem_cons_of_mem _ h)
    cases op with
    | setEnv env' => simpa [runOps, step] using ih hops' env'
    | read =>
      have hr : e.getValue compile run env = (.ok (some v), e) := by
        simp [Expr.getValue, hv]
      have := ih hops' env
      simp only [runOps, step, hr]
      refine ⟨?_, this.2⟩
      intro r hr
      simp only [Option.toList_some, List.singleton_append, List.mem_cons] at hr
      rcases hr with rfl | hr
      · rfl
      · exact this.1 r hr
    | setDirty => exact absurd List.mem_cons_self hops

/-- C20. After a read that failed with `NameError` (the read itself returned `None`), every later read gives `None`
without evaluating anything, until `set_dirty()` is called. -/
theorem nameError_kept (ops : List (Op Env)) (hops : Op.setDirty ∉ ops) (env : Env) (e : Expr Code V)
    (hv : e.value = none) (he : e.valueError = true) :
    (∀ r ∈ (runOps compile run (env, e) ops).1, r = .ok none) ∧
    (runOps compile run (env, e) ops).2.2.evaluations = e.evaluations := by
  induction ops generalizing env with
  | nil => exact ⟨by simp [runOps], rfl⟩
  | cons op ops ih =>
    have hops' : Op.setDirty ∉ ops := fun h => hops (List.mem_cons_of_mem _ h)
    cases op with
    | setEnv env' => simpa [runOps, step] using ih hops' env'
    | read =>
      have hr : e.getValue compile run env = (.ok none, e) := by
        simp [Expr.getValue, hv, he]
      have := ih hops' env
      simp only [runOps, step, hr]
      refine ⟨?_, this.2⟩
      intro r hr
      simp only [Option.toList_some, List.singleton_append, List.mem_cons] at hr
      rcases hr with rfl | hr
      · rfl
      · exact this.1 r hr
    | setDirty => exact absurd List.mem_cons_self hops

/-- C20. The first read of a new expression, and the first read after `set_dirty()`, evaluates the expression with the
variables the calculator has at that moment: the value found is returned and stored, a `NameError` gives `None` and
sets the error flag, any other exception is raised to the caller. -/
theorem read_after_dirty (env : Env) (e : Expr Code V) (c : Code)
    (hc : e.code = some c ∨ (e.code = none ∧ compile env = .ok c)) :
    (∀ v, run c env = .ok v → (e.setDirty.getValue compile run env).1 = .ok v ∧
      (e.setDirty.getValue compile run env).2.value = v) ∧
    (run c env = .error .nameError → (e.setDirty.getValue compile run env).1 = .ok none ∧
      (e.setDirty.getValue compile run env).2.value = none ∧
      (e.setDirty.getValue compile run env).2.valueError = true) ∧
    (∀ err, err ≠ .nameError → run c env = .error err → (e.setDirty.getValue compile run env).1 = .error err) ∧
    (e.setDirty.getValue compile run env).2.evaluations = e.evaluations + 1 := by
  obtain ⟨code, value, valueError, evaluations⟩ := e
  rcases hc with h | ⟨h, h'⟩
  · simp only at h
    subst h
    cases hrun : run c env with
    | ok v => simp [Expr.getValue, Expr.eval, Expr.setDirty, hrun]
    | error err => cases err <;> simp [Expr.getValue, Expr.eval, Expr.setDirty, hrun, eq_comm]
  · simp only at h
    subst h
    cases hrun : run c env with
    | ok v => simp [Expr.getValue, Expr.eval, Expr.setDirty, hrun, h']
    | error err => cases err <;> simp [Expr.getValue, Expr.eval, Expr.setDirty, hrun, h', eq_comm]

/-- C20. An expression whose compilation fails raises at every read, and is not evaluated. -/
theorem read_compile_error (env : Env) (e : Expr Code V) (err : PyErr) (hn : e.code = none) (hv : e.value = none)
    (hf : e.valueError = false) (hc : compile env = .error err) :
    e.getValue compile run env = (.error err, e) := by
  simp [Expr.getValue, Expr.eval, hn, hv, hf, hc]

/-- Number of `set_dirty()` calls in a history. -/
def dirtyCount (ops : List (Op Env)) : Nat :=
  (ops.filter fun o => match o with | .setDirty => true | _ => false).length

/-- C20. Over any history the expression is evaluated at most once plus once per `set_dirty()`, when every evaluation
gives a number or a `NameError`. (An evaluation to `None`, or another exception, is tried again at each read.) -/
theorem evaluation_count (hrun : ∀ c env, (∃ v, run c env = .ok (some v)) ∨ run c env = .error .nameError)
    (ops : List (Op Env)) (env : Env) :
    (runOps compile run (env, (Expr.new : Expr Code V)) ops).2.2.evaluations ≤ 1 + dirtyCount ops := by
  -- an expression that is neither valued nor in error may be evaluated once more
  have gen : ∀ (ops : List (Op Env)) (env : Env) (e : Expr Code V),
      (runOps compile run (env, e) ops).2.2.evaluations ≤
        e.evaluations + dirtyCount ops + (if e.value.isNone && !e.valueError then 1 else 0) := by
    intro ops
    induction ops with
    | nil => intro env e; simp [runOps, dirtyCount]
    | cons op ops ih =>
      intro env e
      cases op with
      | setEnv env' => simpa [runOps, step, dirtyCount] using ih env' e
      | setDirty =>
        have := ih env e.setDirty
        simp only [runOps, step]
        simp only [Expr.setDirty] at this ⊢
        simp only [dirtyCount, List.filter_cons_of_pos, List.length_cons] at this ⊢
        simp only [Option.isNone_none, Bool.not_false, Bool.and_self, if_true] at this
        omega
      | read =>
        have hd : dirtyCount (Op.read :: ops) = dirtyCount ops := by simp [dirtyCount]
        rw [hd]
        simp only [runOps, step]
        by_cases hs : (e.value.isNone && !e.valueError) = true
        · have hcase : ((e.getValue compile run env).2.evaluations = e.evaluations ∧
              (e.getValue compile run env).2 = e) ∨
            ((e.getValue compile run env).2.evaluations = e.evaluations + 1 ∧
              ((e.getValue compile run env).2.value.isNone && !(e.getValue compile run env).2.valueError) = false) := by
            obtain ⟨code, value, valueError, evaluations⟩ := e
            simp only [Bool.and_eq_true, Option.isNone_iff_eq_none, Bool.not_eq_true'] at hs
            obtain ⟨rfl, rfl⟩ := hs
            cases code with
            | some c =>
              right
              rcases hrun c env with ⟨v, hv⟩ | hv <;> simp [Expr.getValue, Expr.eval, hv]
            | none =>
              cases hcomp : compile env with
              | error err => left; simp [Expr.getValue, Expr.eval, hcomp]
              | ok c =>
                right
                rcases hrun c env with ⟨v, hv⟩ | hv <;> simp [Expr.getValue, Expr.eval, hv, hcomp]
          rcases hcase with ⟨h1, h2⟩ | ⟨h1, h2⟩
          · rw [h2]; exact ih env e
          · have := ih env (e.getValue compile run env).2
            rw [h2, h1] at this
            rw [hs]
            simp only [if_true]
            simp only [Bool.false_eq_true, if_false] at this
            omega
        · have hr : (e.getValue compile run env).2 = e := by
            unfold Expr.getValue
            rw [if_neg hs]
          rw [hr]
          exact ih env e
  have := gen ops env (Expr.new : Expr Code V)
  simp only [Expr.new] at this ⊢
  simp only [Option.isNone_none, Bool.not_false, Bool.and_self, if_true] at this
  omega

/-- Reading twice, changing the variable, reading, then `set_dirty()` and reading: `x + 1` with `x` going from 1
to 5. -/
example : (runOps (fun _ => .ok ()) (fun _ (x : Nat) => .ok (some (x + 1))) (1, Expr.new)
    [.read, .read, .setEnv 5, .read, .setDirty, .read]).1
    = [.ok (some 2), .ok (some 2), .ok (some 2), .ok (some 6)] := rfl

end Cache

/-! ## Identifier scan -/

/-- C22. The characters of an identifier are the ASCII letters and digits and the underscore. -/
theorem identifier_characters (c : Char) : isIdent c = true ↔ c.isAlphanum = true ∨ c = '_' := by
  simp only [isIdent, Char.isAlphanum, Char.isAlpha, Char.isUpper, Char.isLower, Char.isDigit, Bool.or_eq_true, Bool.and_eq_true,
    decide_eq_true_eq, Char.le_def, ge_iff_le]
  constructor
  · rintro (((h | h) | h) | h)
    · exact Or.inl (Or.inl (Or.inr h))
    · exact Or.inl (Or.inl (Or.inl h))
    · exact Or.inl (Or.inr h)
    · exact Or.inr h
  · rintro (((h | h) | h) | h)
    · exact Or.inl (Or.inl (Or.inr h))
    · exact Or.inl (Or.inl (Or.inl h))
    · exact Or.inl (Or.inr h)
    · exact Or.inr h

example : isIdent 'z' = true ∧ isIdent '0' = true ∧ isIdent '_' = true ∧ isIdent '(' = false := by decide

/-- C22. `_find_identifier` returns the first occurrence of the prefix from `start` on, extended to a maximal
identifier; the next search starts just after the character that ended it. It returns nothing exactly when the prefix
does not occur from `start` on. -/
theorem findIdentifier_spec (e pre : Text) (hpre : pre ≠ []) (start : Nat) :
    (findIdentifier e pre start = none ↔ ∀ k, start ≤ k → ¬ OccursAt pre e k) ∧
    ∀ name next, findIdentifier e pre start = some (name, next) →
      ∃ s, start ≤ s ∧ OccursAt pre e s ∧ (∀ k, start ≤ k → k < s → ¬ OccursAt pre e k) ∧
        MaximalAt name e s ∧ next = s + name.length + 1 := by
  constructor
  · constructor
    · intro h k hk
      unfold findIdentifier at h
      cases hf : find pre e start with
      | none => exact find_none hf k hk
      | some s => rw [hf] at h; cases h
    · intro h
      unfold findIdentifier
      cases hf : find pre e start with
      | none => rfl
      | some s =>
        obtain ⟨h1, h2, _⟩ := find_some hf
        exact absurd h2 (h s h1)
  · intro name next h
    obtain ⟨s, h1, _, h3, h4, h5, h6, _⟩ := findIdentifier_some hpre h
    exact ⟨s, h1, h3, h6, h4, h5⟩

/-- C22. The search loop always terminates (within `len(text) + 2` turns). -/
theorem scan_terminates (e pre : Text) (hpre : pre ≠ []) (fuel : Nat) (hf : e.length + 2 ≤ fuel) :
    ∃ l, scan e pre fuel 0 = some l := by
  obtain ⟨l, hl, _⟩ := scan_spec e pre hpre fuel 0 (by omega) (by omega)
  exact ⟨l, hl⟩

/-- C22. What the loop finds: maximal identifiers starting at an occurrence of the prefix. -/
theorem identifiers_sound (e pre : Text) (hpre : pre ≠ []) (name : Text) (h : name ∈ identifiers e pre) :
    ∃ s, OccursAt pre e s ∧ MaximalAt name e s := by
  obtain ⟨s, h1, h2, _⟩ := (identifiers_spec e pre hpre).2.1 name h
  exact ⟨s, h1, h2⟩

/-- C22. What the loop does not miss: an occurrence of the prefix is the start of an identifier found, or lies
inside of one, or is the character directly after one. -/
theorem identifiers_complete (e pre : Text) (hpre : pre ≠ []) (k : Nat) (h : OccursAt pre e k) :
    ∃ s name, name ∈ identifiers e pre ∧ MaximalAt name e s ∧ OccursAt pre e s ∧ s ≤ k ∧ k ≤ s + name.length :=
  (identifiers_spec e pre hpre).2.2 k h

/-- The exception of `identifiers_complete` is real: in `@a@b` the second name is missed. -/
example : identifiers "@a@b".toList ['@'] = ["@a".toList] := by decide

example : identifiers "2*Line_A1_B + Line_C_D/3".toList "Line_".toList = ["Line_A1_B".toList, "Line_C_D".toList] := by
  decide

/-! ## Custom measurement names -/

/-- C21, what holds: when the expression holds one custom name (any number of times), every occurrence is replaced by
the Python name of the measurement and nothing else changes. Missing: several different custom names, see
`rewriteCustom_two_names`. -/
theorem rewriteCustom_one_name_partial (pyName : Text → Except PyErr Text) (f : Text → Text) (e n : Text)
    (hone : ∀ m ∈ customTokens e, m = n) (hf : pyName n = .ok (f n)) :
    rewriteCustom pyName e = .ok (substCustom f false e) := by
  unfold rewriteCustom
  by_cases hat : '@' ∈ e
  · rw [if_pos hat]
    have hall : ∀ m ∈ identifiers e ['@'], m = n := fun m hm => hone m (identifier_at_customToken e m hm)
    obtain ⟨k, hk⟩ := List.mem_iff_getElem?.1 hat
    have hne : identifiers e ['@'] ≠ [] := by
      have hocc : OccursAt ['@'] e k := by
        unfold OccursAt
        have hlt : k < e.length := (List.getElem?_eq_some_iff.1 hk).1
        rw [List.drop_eq_getElem_cons hlt]
        rw [List.getElem?_eq_getElem hlt, Option.some.injEq] at hk
        rw [hk]
        exact ⟨e.drop (k + 1), rfl⟩
      obtain ⟨s, name, hmem, _⟩ := identifiers_complete e ['@'] (by simp) k hocc
      intro h
      rw [h] at hmem
      cases hmem
    have hn : ∃ w, n = '@' :: w := by
      obtain ⟨m, hm⟩ := List.exists_mem_of_ne_nil _ hne
      obtain ⟨s, hocc, _, c, hc, hname⟩ := (identifiers_spec e ['@'] (by simp)).2.1 m hm
      rw [hall m hm] at hname
      have hlt : s < e.length := (List.getElem?_eq_some_iff.1 hc).1
      unfold OccursAt at hocc
      rw [List.drop_eq_getElem_cons hlt, List.cons_prefix_cons] at hocc
      rw [List.getElem?_eq_getElem hlt, Option.some.injEq] at hc
      exact ⟨_, by rw [hname, ← hc, ← hocc.1]⟩
    have hfold : ∀ (l : List Text) (acc : Text), l ≠ [] → (∀ m ∈ l, m = n) →
        l.foldlM (init := acc) (fun _ m => do
          let p ← pyName m
          return replace m p e) = (.ok (replace n (f n) e) : Except PyErr Text) := by
      intro l
      induction l with
      | nil => intro _ h; exact absurd rfl h
      | cons a l ih =>
        intro acc _ hm
        have ha := hm a List.mem_cons_self
        rw [List.foldlM_cons, ha, hf]
        simp only [bind, Except.bind, pure, Except.pure]
        by_cases hl : l = []
        · subst hl; rfl
        · exact ih _ hl (fun m hmm => hm m (List.mem_cons_of_mem _ hmm))
    rw [hfold _ e hne hall]
    obtain ⟨w, rfl⟩ := hn
    congr 1
    exact replace_eq_substCustom w f e.length e (Nat.le_refl _) hone
  · rw [if_neg hat]
    congr 1
    clear hone hf
    induction e with
    | nil => rfl
    | cons c t ih =>
      simp only [List.mem_cons, not_or] at hat
      rw [substCustom, if_neg (fun h => hat.1 h.symm)]
      simp only [Bool.false_and, Bool.false_eq_true, if_false]
      rw [← ih hat.2]

/-- C21. What the code computes in general: only the last custom name found is replaced. -/
theorem rewriteCustom_last (pyName : Text → Except PyErr Text) (e last p : Text) (l : List Text)
    (hat : '@' ∈ e) (hids : identifiers e ['@'] = l ++ [last])
    (hl : ∀ m ∈ l, ∃ q, pyName m = .ok q) (hp : pyName last = .ok p) :
    rewriteCustom pyName e = .ok (replace last p e) := by
  unfold rewriteCustom
  rw [if_pos hat, hids, List.foldlM_append]
  have : ∀ (l : List Text) (acc : Text), (∀ m ∈ l, ∃ q, pyName m = .ok q) →
      ∃ r, l.foldlM (init := acc) (fun _ m => do
        let p ← pyName m
        return replace m p e) = (.ok r : Except PyErr Text) := by
    intro l
    induction l with
    | nil => intro acc _; exact ⟨acc, rfl⟩
    | cons a l ih =>
      intro acc hm
      obtain ⟨q, hq⟩ := hm a List.mem_cons_self
      rw [List.foldlM_cons, hq]
      exact ih _ (fun m hmm => hm m (List.mem_cons_of_mem _ hmm))
  obtain ⟨r, hr⟩ := this l e hl
  rw [hr]
  simp only [bind, Except.bind, List.foldlM_cons, hp, List.foldlM_nil]
  rfl

/-- C21. An unknown custom name raises the error of the lookup. -/
theorem rewriteCustom_unknown (pyName : Text → Except PyErr Text) (e m : Text) (err : PyErr)
    (hat : '@' ∈ e) (hm : m ∈ identifiers e ['@']) (herr : ∀ x, pyName x = .error err ∨ ∃ q, pyName x = .ok q)
    (hp : pyName m = .error err) : rewriteCustom pyName e = .error err := by
  unfold rewriteCustom
  rw [if_pos hat]
  have : ∀ (l : List Text) (acc : Text), m ∈ l →
      l.foldlM (init := acc) (fun _ m => do
        let p ← pyName m
        return replace m p e) = (.error err : Except PyErr Text) := by
    intro l
    induction l with
    | nil => intro _ h; cases h
    | cons a l ih =>
      intro acc hmem
      rw [List.foldlM_cons]
      rcases herr a with h | ⟨q, h⟩
      · rw [h]; rfl
      · rw [h]
        rcases List.mem_cons.1 hmem with rfl | hmem
        · rw [hp] at h; cases h
        · exact ih _ hmem
  exact this _ e hm

/-- C21 is false with two names: in `@a+@b`, with Python names `C_a` and `C_b`, the name `@a` is left as it is. -/
theorem rewriteCustom_two_names :
    rewriteCustom (fun n => .ok ("C_".toList ++ n.tail)) "@a+@b".toList = .ok "@a+C_b".toList ∧
    substCustom (fun n => "C_".toList ++ n.tail) false "@a+@b".toList = "C_a+C_b".toList := by
  decide

/-- An expression with one custom name used twice. -/
example : customTokens "2*@hip_1 + @hip_1/3".toList = ["@hip_1".toList, "@hip_1".toList] ∧
    rewriteCustom (fun n => .ok ("C_".toList ++ n.tail)) "2*@hip_1 + @hip_1/3".toList
      = .ok "2*C_hip_1 + C_hip_1/3".toList := by
  decide

/-! ## Function calls -/

theorem replace_self (t new : Text) (h : t ≠ []) : replace t new t = new := by
  cases t with
  | nil => exact absurd rfl h
  | cons c t =>
    unfold replace
    rw [replaceGo, if_pos (by rw [List.isPrefixOf_iff_prefix]; exact List.prefix_rfl)]
    have := replaceGo_skip (c :: t) new t []
    rw [List.append_nil] at this
    simp only [List.length_cons, Nat.add_sub_cancel]
    rw [this]
    simp [replaceGo]

theorem replace_absent (old new t : Text) (h : ∀ k, ¬ OccursAt old t k) : replace old new t = t := by
  unfold replace
  induction t with
  | nil => rfl
  | cons c t ih =>
    have h0 : ¬ old.isPrefixOf (c :: t) = true := by
      rw [List.isPrefixOf_iff_prefix]
      have := h 0
      unfold OccursAt at this
      simpa using this
    rw [replaceGo, if_neg h0, ih]
    intro k
    have := h (k + 1)
    unfold OccursAt at this ⊢
    simpa using this

/-- C77, what holds: an expression that is a single call `Line_A_B`, `AngleLine_A_B`, … is rewritten into the
corresponding Python call, provided that the other calls found inside of it (such as `Line_A_B` inside of
`AngleLine_A_B`) do not occur in the Python text. Missing: several calls, see `rewriteCalls_prefix_clash` and
`rewriteCalls_current_length`. -/
theorem rewriteCalls_single_partial (text : Text) (rest : List Text) (hne : text ≠ [])
    (hcalls : functionCalls text = text :: rest)
    (hrest : ∀ r ∈ rest, ∀ k, ¬ OccursAt r (pythonisedFunction text) k) :
    rewriteCalls text text = pythonisedFunction text := by
  unfold rewriteCalls
  rw [hcalls, List.foldl_cons, replace_self text _ hne]
  clear hcalls
  induction rest with
  | nil => rfl
  | cons r rest ih =>
    rw [List.foldl_cons, replace_absent r _ _ (hrest r List.mem_cons_self)]
    exact ih (fun x hx => hrest x (List.mem_cons_of_mem _ hx))

/-- C77. An expression in which no function prefix occurs is left as it is. -/
theorem rewriteCalls_none (text : Text) (h : ∀ p ∈ functionPrefixes, ∀ k, ¬ OccursAt p text k) :
    rewriteCalls text text = text := by
  have : functionCalls text = [] := by
    unfold functionCalls
    rw [List.flatMap_eq_nil_iff]
    intro p hp
    by_contra hne
    obtain ⟨m, hm⟩ := List.exists_mem_of_ne_nil _ hne
    have hpne : p ≠ [] := (by decide : ∀ p ∈ functionPrefixes, p ≠ []) p hp
    obtain ⟨s, hs, _⟩ := identifiers_sound text p hpne m hm
    exact h p hp s hs
  unfold rewriteCalls
  rw [this]
  rfl

/-- C77. The Python text of a call with two points. -/
example : pythonisedFunction "Line_A1_B".toList = "__calculator__._function_Line('A1', 'B')".toList := by decide

/-- The hypotheses of `rewriteCalls_single_partial` hold for this call. -/
example : functionCalls "AngleLine_A1_B".toList = ["AngleLine_A1_B".toList, "Line_A1_B".toList] ∧
    rewriteCalls "AngleLine_A1_B".toList "AngleLine_A1_B".toList
      = "__calculator__._function_AngleLine('A1', 'B')".toList := by decide

/-- C77 is false when the text of a call begins the text of another: `Line_A_B1 + Line_A_B10` becomes a text that is
not a Python expression. -/
theorem rewriteCalls_prefix_clash :
    rewriteCalls "Line_A_B1+Line_A_B10".toList "Line_A_B1+Line_A_B10".toList =
      "__calculator__._function_Line('A', 'B1')+__calculator__._function_Line('A', 'B1')0".toList := by
  decide

/-- C77 is false when `CurrentLength` is used twice: the second replacement also hits the text written by the first. -/
theorem rewriteCalls_current_length :
    rewriteCalls "CurrentLength+CurrentLength".toList "CurrentLength+CurrentLength".toList =
      ("__calculator__._function___calculator__._function_CurrentLength()()" ++
       "+__calculator__._function___calculator__._function_CurrentLength()()").toList := by
  decide +kernel

end Patro.Calculator
