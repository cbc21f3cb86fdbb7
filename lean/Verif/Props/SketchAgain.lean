import Verif.Proof.SketchAgain
import Verif.Spec.SketchAgain
import Verif.Model.CalcFunctions
/-! # Evaluating a sketch again (C216), and what a change of the measurements changes (C217) -/

namespace Patro.SketchGeometry

open Conic Classical

noncomputable section

theorem place_shape (vec : Nat → Option (Vec ℝ)) (value : Nat → Option ℝ) (o : Op) : place vec value o.shape = place vec value o := by
  cases o <;> rfl

theorem name_shape (o : Op) : o.shape.name = o.name := by cases o <;> rfl

theorem refs_shape (o : Op) : o.shape.refs = o.refs := by cases o <;> rfl

theorem exprs_shape (o : Op) : o.shape.exprs.length = o.exprs.length := by cases o <;> rfl

theorem place_congr (vec vec' : Nat → Option (Vec ℝ)) (value : Nat → Option ℝ) (o : Op) (h : ∀ j ∈ o.refs, vec j = vec' j) :
    place vec value o = place vec' value o := by
  cases o <;> simp only [Op.refs, List.mem_cons, List.not_mem_nil, or_false, forall_eq_or_imp, forall_eq] at h <;>
    simp only [place] <;> simp only [h]

theorem place_values (vec : Nat → Option (Vec ℝ)) (value value' : Nat → Option ℝ) (o : Op) (h : ∀ k < o.exprs.length, value k = value' k) :
    place vec value o = place vec value' o := by
  cases o <;> simp only [Op.exprs, List.length_cons, List.length_nil] at h <;> simp only [place]
  · rw [h 0 (by omega), h 1 (by omega)]
  · rw [h 0 (by omega)]
  · rw [h 0 (by omega), h 1 (by omega)]
  · rw [h 0 (by omega), h 1 (by omega)]
  · rw [h 0 (by omega)]
  · rw [h 0 (by omega), h 1 (by omega), h 2 (by omega), h 3 (by omega)]

theorem current_congr (vec vec' : Nat → Option (Vec ℝ)) (o : Op) (h : ∀ j ∈ o.refs, vec j = vec' j) :
    o.current vec = o.current vec' := by
  cases o <;> simp only [Op.refs, List.mem_cons, List.not_mem_nil, or_false, forall_eq_or_imp, forall_eq] at h <;>
    simp only [Op.current] <;> simp only [h]

theorem sameShape_get {ops ops' : List Op} (h : SameShape ops ops') {k : Nat} {o' : Op} (ho : ops'[k]? = some o') :
    ∃ o, ops[k]? = some o ∧ o.shape = o'.shape := by
  have : (ops.map Op.shape)[k]? = some o'.shape := by rw [h, List.getElem?_map, ho]; rfl
  rw [List.getElem?_map] at this
  cases hk : ops[k]? with
  | none => rw [hk] at this; cases this
  | some o => rw [hk] at this; exact ⟨o, rfl, Option.some.inj this⟩

theorem SameShape.wellFormed {ops ops' : List Op} (h : SameShape ops ops') (hw : WellFormed ops) : WellFormed ops' := by
  intro i o' ho' j hj
  obtain ⟨o, ho, hs⟩ := sameShape_get h ho'
  refine hw i o ho j ?_
  rw [← refs_shape, hs, refs_shape]
  exact hj

theorem pointsAfter_shape (ops ops' : List Op) (h : SameShape ops ops') (p : String → Option Nat) (i : Nat) :
    pointsAfter p i ops = pointsAfter p i ops' := by
  induction ops generalizing ops' p i with
  | nil => cases ops' with
    | nil => rfl
    | cons o l => simp [SameShape] at h
  | cons o l ih =>
    cases ops' with
    | nil => simp [SameShape] at h
    | cons o' l' =>
      simp only [SameShape, List.map_cons, List.cons.injEq] at h
      have hn : o.name = o'.name := by rw [← name_shape o, h.1, name_shape]
      simp only [pointsAfter, hn]
      exact ih l' h.2 _ _

theorem pointsAfter_eq (ops : List Op) (p : String → Option Nat) (i : Nat) (n : String) :
    pointsAfter p i ops n = (pointsAfter (fun _ => none) i ops n).or (p n) := by
  induction ops generalizing p i with
  | nil => simp [pointsAfter]
  | cons o l ih =>
    simp only [pointsAfter]
    cases o.name with
    | none => exact ih _ _
    | some m =>
      rw [ih, ih (fun n => if n = m then some i else none)]
      by_cases h : n = m <;> simp [h, Option.or_assoc]

theorem pointsAfter_again (ops : List Op) (p : String → Option Nat) (i : Nat) :
    pointsAfter (pointsAfter p i ops) i ops = pointsAfter p i ops := by
  funext n
  rw [pointsAfter_eq ops (pointsAfter p i ops) i n, pointsAfter_eq ops p i n, ← Option.or_assoc, Option.or_self]

/-- The state in which an operation is evaluated. -/
def St.named (st : St) (i : Nat) (o : Op) : St :=
  match o.name with
  | some n => st.addPoint n i
  | none => st

theorem evalOp_named (st : St) (i : Nat) (o : Op) : evalOp st i o = evalInternal (st.named i o) i o := by
  unfold evalOp St.named
  cases o.name <;> rfl

theorem named_vec (st : St) (i : Nat) (o : Op) : (st.named i o).vec = st.vec := by unfold St.named; split <;> rfl

theorem named_ctrl (st : St) (i : Nat) (o : Op) : (st.named i o).ctrl = st.ctrl := by unfold St.named; split <;> rfl

theorem named_value (st : St) (i : Nat) (o : Op) : (st.named i o).value = st.value := by unfold St.named; split <;> rfl

theorem named_points (st : St) (i : Nat) (o : Op) : (st.named i o).points = pointsAfter st.points i [o] := by
  unfold St.named
  simp only [pointsAfter]
  cases o.name <;> rfl

/-- One operation that is evaluated: what it sets, and what it leaves. -/
theorem evalOp_place (st st' : St) (i : Nat) (o : Op) (h : evalOp st i o = .ok st') :
    ∃ out, place st.vec (st'.value i) o = some out ∧ st'.vec i = out.vec.getD (st.vec i) ∧ st'.ctrl i = out.ctrl.or (st.ctrl i) ∧
      (∀ j, j ≠ i → st'.vec j = st.vec j ∧ st'.ctrl j = st.ctrl j) ∧ st'.points = pointsAfter st.points i [o] := by
  rw [evalOp_named] at h
  obtain ⟨out, h1, h2⟩ := place_of_eval _ _ i o h
  rw [named_vec] at h1
  refine ⟨out, h1, ?_, ?_, fun j hj => ?_, ?_⟩
  · rw [h2]; simp [St.put, named_vec]
  · rw [h2]; simp [St.put, named_ctrl]
  · rw [h2]; simp [St.put, named_vec, named_ctrl, hj]
  · rw [h2]; simp only [St.put, named_points]

/-- A whole evaluation, seen in its last state. -/
theorem evalFrom_place (ops : List Op) (st st' : St) (i : Nat) (h : evalFrom st i ops = .ok st')
    (hrefs : ∀ (k : Nat) (o : Op), ops[k]? = some o → ∀ j ∈ o.refs, j < i + k) :
    (∀ j, (j < i ∨ i + ops.length ≤ j) → st'.vec j = st.vec j ∧ st'.ctrl j = st.ctrl j ∧ st'.value j = st.value j) ∧
    st'.points = pointsAfter st.points i ops ∧
    ∀ (k : Nat) (o : Op), ops[k]? = some o → (∃ out, place st'.vec (st'.value (i + k)) o = some out ∧
      st'.vec (i + k) = out.vec.getD (st.vec (i + k)) ∧ st'.ctrl (i + k) = out.ctrl.or (st.ctrl (i + k))) ∧
      ∀ (l : Nat) (e : Expr), o.exprs[l]? = some e → ∃ v, st'.value (i + k) l = some v := by
  induction ops generalizing st i with
  | nil => cases h; exact ⟨fun _ _ => ⟨rfl, rfl, rfl⟩, rfl, fun k o ho => by simp at ho⟩
  | cons o os ih =>
    obtain ⟨s, hs, h⟩ := bind_ok h
    have h0 := hrefs 0 o rfl
    obtain ⟨e1, e2, -, e4⟩ := evalOp_spec st s i o hs (fun j hj => by have := h0 j hj; omega)
    obtain ⟨out, p1, p2, p3, p4, p5⟩ := evalOp_place st s i o hs
    obtain ⟨f1, f2, f3⟩ := ih s (i + 1) h (fun k o' ho' j hj => by
      have := hrefs (k + 1) o' (by simpa using ho') j hj; omega)
    refine ⟨fun j hj => ?_, ?_, fun k o' ho' => ?_⟩
    · obtain ⟨a1, a2, a3⟩ := f1 j (by simp only [List.length_cons] at hj; omega)
      obtain ⟨b1, b2, b3⟩ := e1 j (by simp only [List.length_cons] at hj; omega)
      exact ⟨a1.trans b1, a2.trans b2, a3.trans b3⟩
    · rw [f2, e2]; rfl
    · cases k with
      | zero =>
        obtain rfl : o = o' := by simpa using ho'
        obtain ⟨a1, a2, a3⟩ := f1 i (by omega)
        simp only [Nat.add_zero] at h0 ⊢
        refine ⟨⟨out, ?_, a1.trans p2, a2.trans p3⟩, fun l e he => ?_⟩
        · rw [a3, ← p1]
          refine place_congr _ _ _ _ fun j hj => ?_
          have := h0 j hj
          rw [(f1 j (by omega)).1, (p4 j (by omega)).1]
        · obtain ⟨v, hv, -⟩ := e4 l e he
          exact ⟨v, by rw [a3]; exact hv⟩
      | succ k =>
        obtain ⟨⟨out', g1, g2, g3⟩, g4⟩ := f3 k o' (by simpa using ho')
        have hik : i + 1 + k = i + (k + 1) := by omega
        rw [hik] at g1 g2 g3 g4
        refine ⟨⟨out', g1, ?_, ?_⟩, g4⟩
        · rw [g2, (p4 (i + (k + 1)) (by omega)).1]
        · rw [g3, (p4 (i + (k + 1)) (by omega)).2]

theorem again_from (ops' : List Op) (t : St) (i : Nat)
    (h : ∀ (k : Nat) (o' : Op), ops'[k]? = some o' → (∃ out, place t.vec (t.value (i + k)) o' = some out ∧
      out.vec.getD (t.vec (i + k)) = t.vec (i + k) ∧ out.ctrl.or (t.ctrl (i + k)) = t.ctrl (i + k)) ∧
      ∀ (l : Nat) (e : Expr), o'.exprs[l]? = some e → ∃ v, t.value (i + k) l = some v) :
    evalFrom t i ops' = .ok { t with points := pointsAfter t.points i ops' } := by
  induction ops' generalizing t i with
  | nil => rfl
  | cons o os ih =>
    obtain ⟨⟨out, h1, h2, h3⟩, h4⟩ := h 0 o rfl
    simp only [Nat.add_zero] at h1 h2 h3 h4
    have hstep : evalOp t i o = .ok { t with points := pointsAfter t.points i [o] } := by
      rw [evalOp_named, eval_of_place (t.named i o) i o (t.value i) out (fun k e he => ?_) (by rw [named_vec]; exact h1)]
      · congr 1
        have e1 : (fun j => if j = i then out.vec.getD (t.vec i) else t.vec j) = t.vec := by
          funext j; split
          · next hj => rw [hj, h2]
          · rfl
        have e2 : (fun j => if j = i then out.ctrl.or (t.ctrl i) else t.ctrl j) = t.ctrl := by
          funext j; split
          · next hj => rw [hj, h3]
          · rfl
        have e3 : (t.named i o).valuesWith i o (t.value i) = t.value := by
          funext j k
          simp only [St.valuesWith, named_value]
          split
          · next hj => rw [hj.1]
          · rfl
        simp only [St.put, named_vec, named_ctrl, named_points, e1, e2, e3]
      · obtain ⟨v, hv⟩ := h4 k e he
        exact ⟨v, hv, .inl (by rw [named_value]; exact hv)⟩
    have e : evalFrom t i (o :: os) = (evalOp t i o).bind fun st => evalFrom st (i + 1) os := rfl
    rw [e, hstep]
    refine (ih { t with points := pointsAfter t.points i [o] } (i + 1) fun k o' ho' => ?_).trans rfl
    have := h (k + 1) o' (by simpa using ho')
    have hik : i + (k + 1) = i + 1 + k := by omega
    rw [hik] at this
    exact this

theorem again (st st' : St) (ops ops' : List Op) (hw : WellFormed ops) (h : evalSketch st ops = .ok st') (hs : SameShape ops ops') :
    evalSketch st' ops' = .ok st' := by
  obtain ⟨-, f2, f3⟩ := evalFrom_place ops st st' 0 h (fun k o ho j hj => by have := hw k o ho j hj; omega)
  have := again_from ops' st' 0 fun k o' ho' => by
    obtain ⟨o, ho, hsh⟩ := sameShape_get hs ho'
    obtain ⟨⟨out, h1, h2, h3⟩, h4⟩ := f3 k o ho
    refine ⟨⟨out, ?_, ?_, ?_⟩, fun l e he => ?_⟩
    · rw [← place_shape, ← hsh, place_shape]; exact h1
    · rw [h2]; cases out.vec <;> rfl
    · rw [h3, ← Option.or_assoc, Option.or_self]
    · have hl : l < o.exprs.length := by
        rw [← exprs_shape, hsh, exprs_shape]
        exact (List.getElem?_eq_some_iff.1 he).1
      exact h4 l _ (List.getElem?_eq_getElem hl)
  unfold evalSketch
  rw [this]
  have hp : pointsAfter st'.points 0 ops' = st'.points := by
    rw [← pointsAfter_shape ops ops' hs, f2, pointsAfter_again]
  rw [hp]

/-- C216, what holds: evaluating again a sketch that was evaluated, from any state, succeeds and changes nothing: no point moves. -/
theorem again_same_partial (st st' : St) (ops : List Op) (hw : WellFormed ops) (h : evalSketch st ops = .ok st') :
    evalSketch st' ops = .ok st' := again st st' ops ops hw h rfl

/-- C216 is false of a sketch whose measurements, or formulas, were changed since: whatever they have become, evaluating it again changes
nothing, all the points and the values are the ones of the first evaluation. -/
theorem measurements_ignored_wrong (st st' : St) (ops ops' : List Op) (hw : WellFormed ops) (h : evalSketch st ops = .ok st')
    (hs : SameShape ops ops') : evalSketch st' ops' = .ok st' := again st st' ops ops' hw h hs

theorem place_vec_none {vec : Nat → Option (Vec ℝ)} {value : Nat → Option ℝ} {o : Op} {out : Out} (h : place vec value o = some out)
    (hn : out.vec = none) : o.name = none := by
  cases o with
  | line f s => rfl
  | spline f s a b c d => rfl
  | contact n f s c r =>
    exfalso
    obtain ⟨a, ha, h⟩ := obind h
    obtain ⟨b, hb, h⟩ := obind h
    obtain ⟨c', hc, h⟩ := obind h
    obtain ⟨v, hv, h⟩ := obind h
    split at h
    · cases h; cases hn
    · split at h
      · cases h; cases hn
      · cases h
    · cases h
  | _ =>
    exfalso
    simp only [place, bind, Option.bind_eq_some_iff, pure, Option.some.injEq] at h
    revert h
    first
      | (rintro ⟨_, _, _, _, rfl⟩; cases hn)
      | (rintro ⟨_, _, _, _, _, _, rfl⟩; cases hn)
      | (rintro ⟨_, _, _, _, _, _, _, _, rfl⟩; cases hn)
      | (rintro ⟨_, _, _, _, _, _, _, _, _, _, rfl⟩; cases hn)

/-- The operation is a spline. -/
def Op.isSpline : Op → Bool
  | .spline .. => true
  | _ => false

theorem place_ctrl {vec : Nat → Option (Vec ℝ)} {value : Nat → Option ℝ} {o : Op} {out : Out} (h : place vec value o = some out) :
    (out.ctrl = none ↔ o.isSpline = false) ∧ (o.name = none → out.vec = none) := by
  cases o with
  | line f s => cases h; simp [Op.isSpline]
  | spline f s a b c d =>
    simp only [place, bind, Option.bind_eq_some_iff, pure, Option.some.injEq] at h
    obtain ⟨_, _, _, _, _, _, _, _, _, _, _, _, rfl⟩ := h
    simp [Op.isSpline]
  | contact n f s c r =>
    obtain ⟨a, ha, h⟩ := obind h
    obtain ⟨b, hb, h⟩ := obind h
    obtain ⟨c', hc, h⟩ := obind h
    obtain ⟨v, hv, h⟩ := obind h
    split at h
    · cases h; simp [Op.isSpline, Op.name]
    · split at h
      · cases h; simp [Op.isSpline, Op.name]
      · cases h
    · cases h
  | _ =>
    simp only [place, bind, Option.bind_eq_some_iff, pure, Option.some.injEq] at h
    revert h
    first
      | (rintro ⟨_, _, _, _, rfl⟩; simp [Op.isSpline, Op.name])
      | (rintro ⟨_, _, _, _, _, _, rfl⟩; simp [Op.isSpline, Op.name])
      | (rintro ⟨_, _, _, _, _, _, _, _, rfl⟩; simp [Op.isSpline, Op.name])
      | (rintro ⟨_, _, _, _, _, _, _, _, _, _, rfl⟩; simp [Op.isSpline, Op.name])

theorem value_beyond {s s2 : St} {i k : Nat} {o : Op} (hs : evalOp s i o = .ok s2) (hrefs : ∀ j ∈ o.refs, j ≠ i)
    (hn : ∀ k, s.value i k = none) (hk : ¬ k < o.exprs.length) : s2.value i k = none := by
  obtain ⟨-, -, -, e4⟩ := evalOp_spec s s2 i o hs hrefs
  obtain ⟨out, p1, -⟩ := evalOp_place s s2 i o hs
  have hstep := eval_of_place (s.named i o) i o (s2.value i) out (fun k e he => by
    obtain ⟨v, hv, hf⟩ := e4 k e he
    refine ⟨v, hv, .inr ⟨by rw [named_value]; exact hn k, ?_⟩⟩
    rw [named_vec]
    unfold St.env
    rw [named_points, named_vec]
    exact hf (hn k)) (by rw [named_vec]; exact p1)
  rw [← evalOp_named, hs] at hstep
  have := congrFun (congrFun (congrArg St.value (Except.ok.inj hstep)) i) k
  rw [this]
  simp [St.put, St.valuesWith, hk, named_value, hn]

theorem isSpline_shape (o : Op) : o.shape.isSpline = o.isSpline := by cases o <;> rfl

theorem pointsAfter_one (p : String → Option Nat) (i : Nat) (o : Op) (n : String) (j : Nat) (h : pointsAfter p i [o] n = some j) :
    (o.name = some n ∧ j = i) ∨ (o.name ≠ some n ∧ p n = some j) := by
  simp only [pointsAfter] at h
  cases hn : o.name with
  | none => rw [hn] at h; exact .inr ⟨by simp, h⟩
  | some m =>
    rw [hn] at h
    dsimp only at h
    split at h
    · next e => subst e; exact .inl ⟨rfl, (Option.some.inj h).symm⟩
    · next e => exact .inr ⟨fun hh => e (Option.some.inj hh).symm, h⟩

theorem pointsAfter_one' (p : String → Option Nat) (i : Nat) (o : Op) (n : String) :
    pointsAfter p i [o] n = if o.name = some n then some i else p n := by
  simp only [pointsAfter]
  cases hn : o.name with
  | none => simp
  | some m => by_cases h : n = m <;> simp [h, eq_comm]

theorem dirty_from (ops : List Op) (s s' t : St) (i : Nat) (h : evalFrom s i ops = .ok s')
    (hrefs : ∀ (k : Nat) (o : Op), ops[k]? = some o → ∀ j ∈ o.refs, j < i + k)
    (hst : ∀ o ∈ ops, ∀ e ∈ o.exprs, Expr.Stable e)
    (hlow : ∀ j < i, t.vec j = s.vec j ∧ t.ctrl j = s.ctrl j)
    (hnew : ∀ j, i ≤ j → s.vec j = none ∧ s.ctrl j = none ∧ ∀ k, s.value j k = none)
    (hval : t.value = s.value)
    (hpts : ∀ n j, s.points n = some j → j < i ∧ t.points n = some j)
    (hline : ∀ (k : Nat) (o : Op), ops[k]? = some o → (o.name = none → t.vec (i + k) = none) ∧ (o.isSpline = false → t.ctrl (i + k) = none))
    (hbeyond : ∀ j, i + ops.length ≤ j → t.vec j = none ∧ t.ctrl j = none) :
    evalFrom t i ops = .ok { s' with points := pointsAfter t.points i ops } := by
  induction ops generalizing s t i with
  | nil =>
    cases h
    have e1 : t.vec = s'.vec := by
      funext j
      by_cases hj : j < i
      · exact (hlow j hj).1
      · rw [(hbeyond j (by simp; omega)).1, (hnew j (by omega)).1]
    have e2 : t.ctrl = s'.ctrl := by
      funext j
      by_cases hj : j < i
      · exact (hlow j hj).2
      · rw [(hbeyond j (by simp; omega)).2, (hnew j (by omega)).2.1]
    simp only [evalFrom, pointsAfter]
    rw [← e1, ← e2, ← hval]
  | cons o os ih =>
    obtain ⟨s2, hs, h⟩ := bind_ok h
    have h0 := hrefs 0 o rfl
    simp only [Nat.add_zero] at h0
    obtain ⟨e1, e2, -, e4⟩ := evalOp_spec s s2 i o hs (fun j hj => by have := h0 j hj; omega)
    obtain ⟨out, p1, p2, p3, p4, p5⟩ := evalOp_place s s2 i o hs
    have hl := hline 0 o rfl
    simp only [Nat.add_zero] at hl
    have hcur : o.current t.vec = o.current s.vec := current_congr _ _ _ fun j hj => (hlow j (h0 j hj)).1
    have hle : Env.Le ⟨fun n => (pointsAfter s.points i [o] n).map s.vec, o.current s.vec⟩
        ((t.named i o).env (o.current t.vec)) := by
      refine ⟨hcur, fun n hn => ?_, fun n p hn => ?_⟩
      · simp only [St.env, named_points, Option.isSome_map, named_vec] at hn ⊢
        rw [pointsAfter_one'] at hn ⊢
        split
        · rfl
        · next hne =>
          rw [if_neg hne] at hn
          obtain ⟨j, hj⟩ := Option.isSome_iff_exists.1 hn
          rw [(hpts n j hj).2]; rfl
      · simp only [St.env, named_points, named_vec] at hn ⊢
        rw [pointsAfter_one'] at hn ⊢
        split
        · next he =>
          rw [if_pos he] at hn
          simp [(hnew i le_rfl).1] at hn
        · next he =>
          rw [if_neg he] at hn
          cases hj : s.points n with
          | none => rw [hj] at hn; simp at hn
          | some j =>
            rw [hj] at hn
            rw [(hpts n j hj).2]
            simp only [Option.map_some] at hn ⊢
            rw [(hlow j (hpts n j hj).1).1]; exact hn
    have hstep := eval_of_place (t.named i o) i o (s2.value i) out (fun k e he => by
      obtain ⟨v, hv, hf⟩ := e4 k e he
      refine ⟨v, hv, .inr ⟨?_, ?_⟩⟩
      · rw [named_value, hval]; exact (hnew i le_rfl).2.2 k
      · rw [named_vec]
        exact hst o (by simp) e (List.mem_of_getElem? he) _ _ hle v (hf ((hnew i le_rfl).2.2 k))) (by
      rw [named_vec, ← p1]
      exact place_congr _ _ _ _ fun j hj => (hlow j (h0 j hj)).1)
    rw [← evalOp_named] at hstep
    have e : evalFrom t i (o :: os) = (evalOp t i o).bind fun st => evalFrom st (i + 1) os := rfl
    rw [e, hstep]
    have hpc := place_ctrl p1
    -- the values after the operation
    have hvals : (t.named i o).valuesWith i o (s2.value i) = s2.value := by
      funext j k
      simp only [St.valuesWith, named_value]
      split
      · next hj => rw [hj.1]
      · next hj =>
        rw [hval]
        by_cases hji : j = i
        · subst hji
          have hk : ¬ k < o.exprs.length := fun hk => hj ⟨rfl, hk⟩
          rw [(hnew j le_rfl).2.2 k]
          -- no expression at this position: nothing was written there
          obtain ⟨a, b, c⟩ := hnew j le_rfl
          exact (value_beyond hs (fun j' hj' => by have := h0 j' hj'; omega) c hk).symm
        · exact ((congrFun (e1 j hji).2.2 k)).symm
    refine (ih s2 _ (i + 1) h (fun k o' ho' j hj => by
        have := hrefs (k + 1) o' (by simpa using ho') j hj; omega) (fun o' ho' => hst o' (by simp [ho'])) ?_ ?_ ?_ ?_ ?_ ?_).trans ?_
    · intro j hj
      by_cases hji : j = i
      · subst hji
        constructor
        · simp only [St.put, if_true, named_vec, p2]
          cases ho : out.vec with
          | some w => rfl
          | none => simp only [Option.getD_none]; rw [hl.1 (place_vec_none p1 ho), (hnew j le_rfl).1]
        · simp only [St.put, if_true, named_ctrl, p3]
          cases ho : out.ctrl with
          | some w => rfl
          | none => simp only [Option.none_or]; rw [hl.2 (hpc.1.1 ho), (hnew j le_rfl).2.1]
      · simp only [St.put, if_neg hji, named_vec, named_ctrl]
        rw [(p4 j hji).1, (p4 j hji).2]
        exact hlow j (by omega)
    · intro j hj
      have hji : j ≠ i := by omega
      obtain ⟨a, b, c⟩ := hnew j (by omega)
      refine ⟨(e1 j hji).1.trans a, (e1 j hji).2.1.trans b, fun k => ?_⟩
      rw [(e1 j hji).2.2]; exact c k
    · exact hvals
    · intro n j hj
      rw [p5, pointsAfter_one'] at hj
      simp only [St.put, named_points]
      rw [pointsAfter_one']
      split
      · next he => rw [if_pos he] at hj; cases hj; exact ⟨by omega, rfl⟩
      · next he =>
        rw [if_neg he] at hj
        exact ⟨by have := (hpts n j hj).1; omega, (hpts n j hj).2⟩
    · intro k o' ho'
      have := hline (k + 1) o' (by simpa using ho')
      have hik : i + 1 + k = i + (k + 1) := by omega
      rw [hik]
      simp only [St.put, named_vec, named_ctrl]
      rw [if_neg (by omega), if_neg (by omega)]
      exact this
    · intro j hj
      simp only [St.put, named_vec, named_ctrl]
      rw [if_neg (by omega), if_neg (by omega)]
      exact hbeyond j (by simp only [List.length_cons]; omega)
    · simp only [St.put, named_points]; rfl

/-- C216, what holds: a sketch that was evaluated, all of whose expressions are then set dirty, is evaluated with the new measurements as if
it were a new sketch, when the evaluation of the new sketch succeeds; the formulas keep their values when more points are known, as
the ones of the calculator do (`call_stable`). -/
theorem dirty_fresh_partial (st r : St) (ops ops' : List Op) (hw : WellFormed ops) (h : evalSketch St.empty ops = .ok st)
    (hs : SameShape ops ops') (hst : ∀ o ∈ ops', ∀ e ∈ o.exprs, Expr.Stable e) (hr : evalSketch St.empty ops' = .ok r) :
    evalSketch st.setDirty ops' = .ok r := by
  have hw' := hs.wellFormed hw
  obtain ⟨f1, f2, f3⟩ := evalFrom_place ops St.empty st 0 h (fun k o ho j hj => by have := hw k o ho j hj; omega)
  obtain ⟨-, g2, -⟩ := evalFrom_place ops' St.empty r 0 hr (fun k o ho j hj => by have := hw' k o ho j hj; omega)
  have hlen : ops.length = ops'.length := by
    have := congrArg List.length hs
    simpa using this
  have := dirty_from ops' St.empty r st.setDirty 0 hr (fun k o ho j hj => by have := hw' k o ho j hj; omega) hst
    (fun j hj => by omega) (fun j _ => ⟨rfl, rfl, fun _ => rfl⟩) rfl (fun n j hj => by cases hj)
    (fun k o' ho' => by
      obtain ⟨o, ho, hsh⟩ := sameShape_get hs ho'
      obtain ⟨⟨out, h1, h2, h3⟩, -⟩ := f3 k o ho
      obtain ⟨c1, c2⟩ := place_ctrl h1
      refine ⟨fun hn => ?_, fun hn => ?_⟩
      · have : o.name = none := by rw [← name_shape, hsh, name_shape]; exact hn
        change st.vec (0 + k) = none
        rw [h2, c2 this]; rfl
      · have : o.isSpline = false := by rw [← isSpline_shape, hsh, isSpline_shape]; exact hn
        change st.ctrl (0 + k) = none
        rw [h3, c1.2 this]; rfl)
    (fun j hj => by
      obtain ⟨a1, a2, -⟩ := f1 j (by omega)
      exact ⟨a1, a2⟩)
  unfold evalSketch
  rw [this]
  congr 1
  have hp : pointsAfter st.setDirty.points 0 ops' = r.points := by
    rw [g2]
    change pointsAfter st.points 0 ops' = _
    rw [f2, pointsAfter_shape ops ops' hs, pointsAfter_again]
  rw [hp]

/-- The functions of the calculator keep their values when more points are known. -/
theorem call_stable (function : String) (args : List String) :
    Expr.Stable fun env => lift (CalcFunctions.callFunction env function args) := by
  intro env env' ⟨h1, h2, h3⟩ v hv
  have hv := lift_ok hv
  suffices CalcFunctions.callFunction env' function args = .ok v by simp only [this]; rfl
  have pts : ∀ a b x, CalcFunctions.vectorPoints env a b = .ok x → ∃ y, CalcFunctions.vectorPoints env' a b = .ok y ∧
      (∀ p, x.1 = some p → y.1 = some p) ∧ ∀ p, x.2 = some p → y.2 = some p := by
    intro a b x hx
    unfold CalcFunctions.vectorPoints CalcFunctions.vectorPoint at hx ⊢
    cases ha : env.points a with
    | none => rw [ha] at hx; cases hx
    | some va =>
      cases hb : env.points b with
      | none => rw [ha, hb] at hx; cases hx
      | some vb =>
        rw [ha, hb] at hx
        cases hx
        obtain ⟨wa, hwa⟩ := Option.isSome_iff_exists.1 (h2 a (by rw [ha]; rfl))
        obtain ⟨wb, hwb⟩ := Option.isSome_iff_exists.1 (h2 b (by rw [hb]; rfl))
        refine ⟨(wa, wb), by rw [hwa, hwb]; rfl, ?_, ?_⟩
        · rintro p rfl
          have := h3 a p ha
          rw [hwa] at this; exact Option.some.inj this
        · rintro p rfl
          have := h3 b p hb
          rw [hwb] at this; exact Option.some.inj this
  have line : ∀ a b (f : Vec ℝ → ℝ), (do
        let (p1, p2) ← CalcFunctions.vectorPoints env a b
        let d ← CalcFunctions.difference p1 p2
        return f d) = (.ok v : Except PyErr ℝ) → (do
        let (p1, p2) ← CalcFunctions.vectorPoints env' a b
        let d ← CalcFunctions.difference p1 p2
        return f d) = (.ok v : Except PyErr ℝ) := by
    intro a b f h
    cases hx : CalcFunctions.vectorPoints env a b with
    | error e => rw [hx] at h; cases h
    | ok x =>
      obtain ⟨y, hy, y1, y2⟩ := pts a b x hx
      rw [hx] at h
      rw [hy]
      obtain ⟨x1, x2⟩ := x
      obtain ⟨z1, z2⟩ := y
      cases x1 with
      | none => cases x2 <;> cases h
      | some p =>
        cases x2 with
        | none => cases h
        | some q =>
          have e1 := y1 p rfl
          have e2 := y2 q rfl
          simp only at e1 e2
          subst e1 e2
          exact h
  unfold CalcFunctions.callFunction at hv ⊢
  rw [h1]
  split_ifs at hv ⊢ with c1 c2 c3 c4
  · exact hv
  · match args, hv with
    | [a, b], hv => exact line a b _ hv
  · match args, hv with
    | [a, b], hv => exact line a b _ hv
  · match args, hv with
    | [a, b], hv =>
      dsimp only at hv ⊢
      cases hx : CalcFunctions.vectorPoints env a b with
      | error e => rw [hx] at hv; cases hv
      | ok x =>
        obtain ⟨y, hy, -⟩ := pts a b x hx
        rw [hx] at hv
        rw [hy]
        exact hv

theorem visible_meant (ops : List Op) (vec : Nat → Option (Vec ℝ)) (i : Nat) (n : String) :
    visible ops vec i n = (meant ops i n).map fun j => if j < i then vec j else none := rfl

theorem meant_congr (ops ops' : List Op) (hs : SameShape ops ops') (i : Nat) (n : String) : meant ops i n = meant ops' i n := by
  unfold meant
  congr 1
  funext j
  have : ops[j]?.bind Op.name = ops'[j]?.bind Op.name := by
    cases ho' : ops'[j]? with
    | none =>
      have : ops[j]? = none := by
        have hl : ops.length = ops'.length := by simpa using congrArg List.length hs
        rw [List.getElem?_eq_none_iff] at ho' ⊢
        omega
      rw [this]
    | some o' =>
      obtain ⟨o, ho, hsh⟩ := sameShape_get hs ho'
      rw [ho]
      change o.name = o'.name
      rw [← name_shape, hsh, name_shape]
  rw [this]

/-- C217. Let two evaluations of a sketch differ by the measurements, that is by the values of some formulas. The points, the control points
and the values of an operation are the same in both, when the formulas of the operation, of the operations it refers to, of
the operations which are named by its formulas, and so on, are the same: a change of measurements moves nothing else than what depends on
it. The set `unchanged` is any set of operations closed under these dependencies. -/
theorem unchanged_same (st st' : St) (ops ops' : List Op) (hw : WellFormed ops) (hs : SameShape ops ops')
    (h : evalSketch St.empty ops = .ok st) (h' : evalSketch St.empty ops' = .ok st') (unchanged : Nat → Prop)
    (names : Nat → List String)
    (hsame : ∀ i, unchanged i → ops[i]? = ops'[i]?)
    (hrefs : ∀ i o, unchanged i → ops[i]? = some o → ∀ j ∈ o.refs, unchanged j)
    (hreads : ∀ i o, unchanged i → ops[i]? = some o → ∀ e ∈ o.exprs, Expr.ReadsOnly e (names i))
    (hnames : ∀ i n j, unchanged i → n ∈ names i → meant ops i n = some j → j < i → unchanged j) :
    ∀ i, unchanged i → st'.vec i = st.vec i ∧ st'.ctrl i = st.ctrl i ∧
      ∀ o, ops[i]? = some o → ∀ k < o.exprs.length, st'.value i k = st.value i k := by
  have hw' := hs.wellFormed hw
  obtain ⟨f1, f2, f3⟩ := evalFrom_place ops St.empty st 0 h (fun k o ho j hj => by have := hw k o ho j hj; omega)
  obtain ⟨g1, g2, g3⟩ := evalFrom_place ops' St.empty st' 0 h' (fun k o ho j hj => by have := hw' k o ho j hj; omega)
  intro i
  induction i using Nat.strong_induction_on with
  | _ i ih =>
    intro hi
    cases ho : ops[i]? with
    | none =>
      have hl : ops.length ≤ i := List.getElem?_eq_none_iff.1 ho
      have hl' : ops'.length ≤ i := by rw [hsame i hi] at ho; exact List.getElem?_eq_none_iff.1 ho
      obtain ⟨a1, a2, -⟩ := f1 i (by omega)
      obtain ⟨b1, b2, -⟩ := g1 i (by omega)
      exact ⟨b1.trans a1.symm, b2.trans a2.symm, fun o h => by cases h⟩
    | some o =>
      have ho' : ops'[i]? = some o := by rw [← hsame i hi]; exact ho
      have hvec : ∀ j ∈ o.refs, st'.vec j = st.vec j := fun j hj => (ih j (hw i o ho j hj) (hrefs i o hi ho j hj)).1
      have hval : ∀ k < o.exprs.length, st'.value i k = st.value i k := by
        intro k hk
        obtain ⟨v, hv, he⟩ := sketch_values st ops hw h i o ho k _ (List.getElem?_eq_getElem hk)
        obtain ⟨v', hv', he'⟩ := sketch_values st' ops' hw' h' i o ho' k _ (List.getElem?_eq_getElem hk)
        have := hreads i o hi ho _ (List.getElem_mem hk) ⟨visible ops st.vec i, o.current st.vec⟩
          ⟨visible ops' st'.vec i, o.current st'.vec⟩ (current_congr _ _ _ hvec) (fun n hn => by
            change visible ops' st'.vec i n = visible ops st.vec i n
            rw [visible_meant, visible_meant, ← meant_congr ops ops' hs]
            cases hm : meant ops i n with
            | none => rfl
            | some j =>
              simp only [Option.map_some]
              congr 1
              by_cases hj : j < i
              · rw [if_pos hj, if_pos hj]
                exact (ih j hj (hnames i n j hi hn hm hj)).1
              · rw [if_neg hj, if_neg hj])
        rw [he, he'] at this
        rw [hv, hv', Except.ok.inj this]
      obtain ⟨⟨out, p1, p2, p3⟩, -⟩ := f3 i o ho
      obtain ⟨⟨out', q1, q2, q3⟩, -⟩ := g3 i o ho'
      simp only [Nat.zero_add] at p1 p2 p3 q1 q2 q3
      have hplace : place st'.vec (st'.value i) o = place st.vec (st.value i) o := by
        rw [place_congr _ _ _ _ hvec]
        exact place_values _ _ _ _ hval
      rw [p1, q1] at hplace
      cases hplace
      exact ⟨q2.trans p2.symm, q3.trans p3.symm, fun o2 h2 => by cases h2; exact hval⟩

/-- A point at a measured width, a point above it, and a point that does not depend on the width. -/
def widthSketch (width : ℝ) : List Op :=
  [.single "A" (const 0) (const 0), .single "B" (const width) (const 0), .intersection "I" 1 0, .single "C" (const 3) (const 4)]

example (a b : ℝ) : SameShape (widthSketch a) (widthSketch b) := rfl

theorem widthSketch_eval (a : ℝ) : ∃ st, evalSketch St.empty (widthSketch a) = .ok st ∧ st.vec 2 = some ⟨a, 0⟩ ∧ st.vec 3 = some ⟨3, 4⟩ := by
  simp [widthSketch, evalSketch, evalFrom, evalOp, Op.name, evalInternal, St.getValue, St.addPoint, St.setVec, St.getVec,
    const, St.empty, bind, Except.bind, pure, Except.pure, St.env]

theorem widthSketch_wf (a : ℝ) : WellFormed (widthSketch a) := by
  intro i o ho j hj
  match i, ho with
  | 0, ho => cases ho; simp [Op.refs] at hj
  | 1, ho => cases ho; simp [Op.refs] at hj
  | 2, ho => cases ho; simp [Op.refs] at hj; omega
  | 3, ho => cases ho; simp [Op.refs] at hj
  | i + 4, ho => simp [widthSketch] at ho

/-- After a change of the width from 10 to 20 the point I stays at 10; a new sketch has it at 20. -/
example : ∃ st st' r, evalSketch St.empty (widthSketch 10) = .ok st ∧ evalSketch st (widthSketch 20) = .ok st' ∧ st'.vec 2 = some ⟨10, 0⟩ ∧
    evalSketch St.empty (widthSketch 20) = .ok r ∧ r.vec 2 = some ⟨20, 0⟩ ∧ evalSketch st.setDirty (widthSketch 20) = .ok r := by
  obtain ⟨st, h, h2, -⟩ := widthSketch_eval 10
  obtain ⟨r, hr, hr2, -⟩ := widthSketch_eval 20
  refine ⟨st, st, r, h, measurements_ignored_wrong _ _ _ _ (widthSketch_wf 10) h rfl, h2, hr, hr2,
    dirty_fresh_partial st r _ _ (widthSketch_wf 10) h rfl ?_ hr⟩
  intro o ho e he
  have hc : ∀ x, Expr.Stable (const x) := fun x _ _ _ _ hv => hv
  simp only [widthSketch, List.mem_cons, List.not_mem_nil, or_false] at ho
  rcases ho with rfl | rfl | rfl | rfl <;> simp [Op.exprs] at he <;> rcases he with rfl | rfl <;> exact hc _

/-- The point C does not depend on the width. -/
example (a b : ℝ) (st st' : St) (h : evalSketch St.empty (widthSketch a) = .ok st) (h' : evalSketch St.empty (widthSketch b) = .ok st') :
    st'.vec 3 = st.vec 3 := by
  refine (unchanged_same st st' (widthSketch a) (widthSketch b) (widthSketch_wf a) rfl h h' (fun i => i = 3) (fun _ => []) ?_ ?_ ?_ ?_ 3 rfl).1
  · rintro i rfl; rfl
  · rintro i o rfl ho j hj; cases ho; simp [Op.refs] at hj
  · rintro i o rfl ho e he env env' _ _
    cases ho
    simp [Op.exprs] at he
    rcases he with rfl | rfl <;> rfl
  · rintro i n j rfl hn; simp at hn

end

end Patro.SketchGeometry
