import Verif.Spec.SketchEval
import Verif.Props.SketchGeometry
/-! # When a sketch is evaluated -/

namespace Patro.SketchGeometry

open Conic

theorem getVec_some {st : St} {j : Nat} {v : Vec ℝ} (h : st.vec j = some v) : st.getVec j = .ok v := by
  unfold St.getVec; rw [h]

theorem getValue_fresh {st : St} {i k : Nat} {e : Expr} {cur : Option (Vec ℝ)} {v : ℝ} (hf : st.value i k = none)
    (h : e (st.env cur) = .ok v) :
    st.getValue i k e cur = .ok (v, { st with value := fun j l => if j = i ∧ l = k then some v else st.value j l }) := by
  unfold St.getValue
  rw [hf]
  simp only [h]
  rfl

theorem normalised_apart {a b : Vec ℝ} (h : a ≠ b) : normalised (b - a) = .ok ((b - a).sdiv (b - a).magnitude) := by
  have hm : (b - a).magnitude ≠ 0 := by
    rw [Ne, Vec.magnitude_eq_zero]
    intro e
    apply h
    have hx := congrArg Vec.x e
    have hy := congrArg Vec.y e
    simp at hx hy
    ext <;> linarith
  unfold normalised Vec.toNormalised
  rw [if_neg hm]

theorem contact_hits (o a b : Vec ℝ) (r : ℝ) (hne : a ≠ b) :
    ∃ hits, Circle.intersectSegment ⟨o, r, none⟩ ⟨a, b⟩ = .ok hits ∧
      ((∃ p, hits = .one p) ↔ ∃! p, (⟨a, b - a⟩ : Line ℝ).Contains p ∧ distance p o = |r|) := by
  have hsame : Circle.intersectSegment ⟨o, r, none⟩ ⟨a, b⟩ = Circle.intersectSegment ⟨o, |r|, none⟩ ⟨a, b⟩ := by
    unfold Circle.intersectSegment
    simp only [sq_abs]
  rw [hsame]
  rcases intersectSegment_spec ⟨o, |r|, none⟩ (abs_nonneg r) ⟨a, b⟩ hne with ⟨e, hq⟩ | ⟨q, e, hq⟩ | ⟨q0, q1, e, hq0, hq⟩
  · refine ⟨_, e, ⟨fun ⟨p, hp⟩ => (nomatch hp), fun ⟨p, hp, _⟩ => absurd hp (hq p)⟩⟩
  · refine ⟨_, e, ⟨fun _ => ⟨q, (hq q).2 rfl, fun p hp => (hq p).1 hp⟩, fun _ => ⟨q, rfl⟩⟩⟩
  · refine ⟨_, e, ⟨fun ⟨p, hp⟩ => (nomatch hp), fun ⟨p, hp, hu⟩ => ?_⟩⟩
    exact absurd ((hu q0 ((hq q0).2 (.inl rfl))).trans (hu q1 ((hq q1).2 (.inr rfl))).symm) hq0

theorem getValue_next {st : St} {i k : Nat} {e : Expr} {cur : Option (Vec ℝ)} (hf : st.value i k = none)
    (h : ∃ v, e (st.env cur) = .ok v) : ∃ v s, e (st.env cur) = .ok v ∧ st.getValue i k e cur = .ok (v, s) ∧ s.vec = st.vec ∧ s.env = st.env ∧
      ∀ l, l ≠ k → s.value i l = st.value i l := by
  obtain ⟨v, h⟩ := h
  refine ⟨v, _, h, getValue_fresh hf h, rfl, rfl, fun l hl => ?_⟩
  simp [hl]

theorem evalInternal_iff (st : St) (i : Nat) (o : Op) (hrefs : ∀ j ∈ o.refs, j ≠ i) (hf : ∀ k, st.value i k = none) :
    (∃ st', evalInternal st i o = .ok st') ↔ Placeable st.vec (st.env (o.current st.vec)) o := by
  constructor
  · rintro ⟨st', h⟩
    obtain ⟨f1, -, hs, he⟩ := evalInternal_spec st st' i o h hrefs
    have he : ∀ (k : Nat) (e : Expr), o.exprs[k]? = some e → ∃ v, e (st.env (o.current st.vec)) = .ok v := fun k e hk => by
      obtain ⟨v, -, hv⟩ := he k e hk
      exact ⟨v, hv (hf k)⟩
    have hv : ∀ j ∈ o.refs, st'.vec j = st.vec j := fun j hj => (f1 j (hrefs j hj)).1
    cases o with
    | single n x y => exact ⟨he 0 x rfl, he 1 y rfl⟩
    | along n f s l =>
      obtain ⟨a, b, _, _, h1, h2, -, -, h3, -⟩ := hs
      rw [hv _ (by simp [Op.refs])] at h1 h2
      exact ⟨⟨a, b, h1, h2, h3⟩, he 0 l rfl⟩
    | endLine n b a l =>
      obtain ⟨p, _, _, _, h1, -⟩ := hs
      rw [hv _ (by simp [Op.refs])] at h1
      exact ⟨⟨p, h1⟩, he 0 a rfl, he 1 l rfl⟩
    | lineIntersect n a b c d =>
      obtain ⟨p, q, r, t, h1, h2, h3, h4, -⟩ := hs
      rw [hv _ (by simp [Op.refs])] at h1 h2 h3 h4
      intro j hj
      simp only [List.mem_cons, List.not_mem_nil, or_false] at hj
      rcases hj with rfl | rfl | rfl | rfl
      exacts [⟨p, h1⟩, ⟨q, h2⟩, ⟨r, h3⟩, ⟨t, h4⟩]
    | normal n f s g l =>
      obtain ⟨a, b, _, _, _, h1, h2, -, -, -, h3, -⟩ := hs
      rw [hv _ (by simp [Op.refs])] at h1 h2
      exact ⟨⟨a, b, h1, h2, h3⟩, he 0 g rfl, he 1 l rfl⟩
    | contact n f s c r =>
      obtain ⟨a, h1, h⟩ := bind_ok h
      obtain ⟨b, h2, h⟩ := bind_ok h
      obtain ⟨o, h3, h⟩ := bind_ok h
      obtain ⟨⟨v, s1⟩, h4, h⟩ := bind_ok h
      obtain ⟨hits, h5, h⟩ := bind_ok h
      have h5 := lift_ok h5
      obtain ⟨v', hv'⟩ := he 0 r rfl
      have hvv := getValue_fresh (hf 0) hv'
      simp only [Op.current] at hvv
      rw [h4] at hvv
      simp only [Except.ok.injEq, Prod.mk.injEq] at hvv
      obtain ⟨rfl, -⟩ := hvv
      have hne : a ≠ b := by
        rintro rfl
        rw [intersectSegment_null] at h5
        cases h5
      refine ⟨a, b, o, v, getVec_ok h1, getVec_ok h2, getVec_ok h3, hv', hne, fun hu => ?_⟩
      obtain ⟨hits', e1, e2⟩ := contact_hits o a b v hne
      rw [h5] at e1
      cases e1
      obtain ⟨p, rfl⟩ := e2.2 hu
      cases h
    | intersection n f s =>
      obtain ⟨a, b, h1, h2, -⟩ := hs
      rw [hv _ (by simp [Op.refs])] at h1 h2
      intro j hj
      simp only [List.mem_cons, List.not_mem_nil, or_false] at hj
      rcases hj with rfl | rfl
      exacts [⟨a, h1⟩, ⟨b, h2⟩]
    | line f s => trivial
    | spline f s a1 l1 a2 l2 =>
      obtain ⟨a, b, _, _, _, _, h1, h2, -⟩ := hs
      rw [hv _ (by simp [Op.refs])] at h1 h2
      refine ⟨fun j hj => ?_, fun e h => ?_⟩
      · simp only [List.mem_cons, List.not_mem_nil, or_false] at hj
        rcases hj with rfl | rfl
        exacts [⟨a, h1⟩, ⟨b, h2⟩]
      · simp only [List.mem_cons, List.not_mem_nil, or_false] at h
        rcases h with rfl | rfl | rfl | rfl
        exacts [he 0 _ rfl, he 1 _ rfl, he 2 _ rfl, he 3 _ rfl]
  · intro h
    have ok : ∀ {α β : Type} (a : α) (f : α → Except Err β), ((Except.ok a : Except Err α) >>= f) = f a := fun _ _ => rfl
    cases o with
    | single n x y =>
      obtain ⟨h1, h2⟩ := h
      obtain ⟨v, s, -, e1, e2, e3, e4⟩ := getValue_next (hf 0) h1
      rw [← e3] at h2
      obtain ⟨w, t, -, g1, -⟩ := getValue_next (by rw [e4 1 (by simp), hf]) h2
      simp only [Op.current] at e1 g1
      exact ⟨_, by simp only [evalInternal, e1, g1, ok]; rfl⟩
    | along n f s l =>
      obtain ⟨⟨a, b, h1, h2, h3⟩, h4⟩ := h
      obtain ⟨v, s, -, e1, e2, e3, e4⟩ := getValue_next (hf 0) h4
      simp only [Op.current, h1, h2, Option.bind_eq_bind, Option.bind_some, Option.pure_def] at e1
      exact ⟨_, by simp only [evalInternal, getVec_some h1, getVec_some h2, normalised_apart h3, e1, ok]; rfl⟩
    | endLine n b a l =>
      obtain ⟨⟨p, h0⟩, h1, h2⟩ := h
      obtain ⟨v, s, -, e1, e2, e3, e4⟩ := getValue_next (hf 0) h1
      rw [← e3] at h2
      obtain ⟨w, t, -, g1, -⟩ := getValue_next (by rw [e4 1 (by simp), hf]) h2
      simp only [Op.current] at e1 g1
      exact ⟨_, by simp only [evalInternal, getVec_some h0, e1, g1, ok]; rfl⟩
    | lineIntersect n a b c d =>
      obtain ⟨p, h1⟩ := h a (by simp)
      obtain ⟨q, h2⟩ := h b (by simp)
      obtain ⟨r, h3⟩ := h c (by simp)
      obtain ⟨t, h4⟩ := h d (by simp)
      exact ⟨_, by simp only [evalInternal, getVec_some h1, getVec_some h2, getVec_some h3, getVec_some h4, ok]; rfl⟩
    | normal n f s g l =>
      obtain ⟨⟨a, b, h1, h2, h3⟩, h4, h5⟩ := h
      obtain ⟨v, s, -, e1, e2, e3, e4⟩ := getValue_next (hf 0) h4
      rw [← e3] at h5
      obtain ⟨w, t, -, g1, -⟩ := getValue_next (by rw [e4 1 (by simp), hf]) h5
      simp only [Op.current, h1, h2, Option.bind_eq_bind, Option.bind_some, Option.pure_def] at e1 g1
      exact ⟨_, by simp only [evalInternal, getVec_some h1, getVec_some h2, normalised_apart h3, e1, g1, ok]; rfl⟩
    | contact n f s c r =>
      obtain ⟨a, b, o, v, h1, h2, h3, h4, h5, h6⟩ := h
      obtain ⟨hits, e1, e2⟩ := contact_hits o a b v h5
      have h4 := getValue_fresh (hf 0) h4
      simp only [Op.current] at h4
      cases hits with
      | none => exact ⟨_, by simp only [evalInternal, getVec_some h1, getVec_some h2, getVec_some h3, h4, e1, lift, ok]; rfl⟩
      | one p => exact absurd (e2.1 ⟨p, rfl⟩) h6
      | two p q =>
        obtain ⟨r1, k1, -⟩ := (containPoint_iff ⟨a, b⟩ p).1 h5
        obtain ⟨r2, k2, -⟩ := (containPoint_iff ⟨a, b⟩ q).1 h5
        exact ⟨_, by simp only [evalInternal, getVec_some h1, getVec_some h2, getVec_some h3, h4, e1, k1, k2, lift, ok]; rfl⟩
    | intersection n f s =>
      obtain ⟨p, h1⟩ := h f (by simp)
      obtain ⟨q, h2⟩ := h s (by simp)
      exact ⟨_, by simp only [evalInternal, getVec_some h1, getVec_some h2, ok]; rfl⟩
    | line f s => exact ⟨st, rfl⟩
    | spline f s a1 l1 a2 l2 =>
      obtain ⟨hr, he⟩ := h
      obtain ⟨p, h1⟩ := hr f (by simp)
      obtain ⟨q, h2⟩ := hr s (by simp)
      have g1 := he a1 (by simp)
      have g2 := he l1 (by simp)
      have g3 := he a2 (by simp)
      have g4 := he l2 (by simp)
      obtain ⟨v1, s1, -, a1, b1, c1, d1⟩ := getValue_next (hf 0) g1
      rw [← c1] at g2 g3 g4
      obtain ⟨v2, s2, -, a2, b2, c2, d2⟩ := getValue_next (by rw [d1 1 (by simp), hf]) g2
      rw [← c2] at g3 g4
      obtain ⟨v3, s3, -, a3, b3, c3, d3⟩ := getValue_next (k := 2) (by rw [d2 2 (by simp), d1 2 (by simp), hf]) g3
      rw [← c3] at g4
      obtain ⟨v4, s4, -, a4, b4, c4, d4⟩ := getValue_next (k := 3) (by rw [d3 3 (by simp), d2 3 (by simp), d1 3 (by simp), hf]) g4
      simp only [Op.current] at a1 a2 a3 a4
      rw [← b1, ← b2, ← b3, ← b4] at h1 h2
      exact ⟨_, by simp only [evalInternal, a1, a2, a3, a4, getVec_some h1, getVec_some h2, ok]; rfl⟩

theorem evalFrom_append (ops os : List Op) (st : St) (i : Nat) :
    evalFrom st i (ops ++ os) = evalFrom st i ops >>= fun s => evalFrom s (i + ops.length) os := by
  induction ops generalizing st i with
  | nil => rfl
  | cons o ops ih =>
    simp only [List.cons_append, evalFrom, List.length_cons]
    cases evalOp st i o with
    | error e => rfl
    | ok s =>
      show evalFrom s (i + 1) (ops ++ os) = evalFrom s (i + 1) ops >>= _
      rw [ih]
      congr 1
      funext s
      congr 1
      omega

/-- What a state is after the evaluation of a sketch: the names of its points are those of `visible`, and nothing is known of the next operation. -/
theorem evalFrom_state (ops : List Op) (st st' : St) (i : Nat) (h : evalFrom st i ops = .ok st')
    (hrefs : ∀ (k : Nat) (o : Op), ops[k]? = some o → ∀ j ∈ o.refs, j < i + k) :
    st'.points = pointsAfter st.points i ops ∧ ∀ j, i + ops.length ≤ j → st'.vec j = st.vec j ∧ st'.value j = st.value j := by
  induction ops generalizing st i with
  | nil => cases h; exact ⟨rfl, fun _ _ => ⟨rfl, rfl⟩⟩
  | cons o os ih =>
    obtain ⟨s, hs, h⟩ := bind_ok h
    have h0 := hrefs 0 o rfl
    obtain ⟨e1, e2, -, -⟩ := evalOp_spec st s i o hs (fun j hj => by have := h0 j hj; omega)
    obtain ⟨f1, f2⟩ := ih s (i + 1) h (fun k o' ho' j hj => by
      have := hrefs (k + 1) o' (by simpa using ho') j hj; omega)
    refine ⟨?_, fun j hj => ?_⟩
    · rw [f1, e2]
      exact (pointsAfter_append st.points i [o] os).symm
    · simp only [List.length_cons] at hj
      have := f2 j (by omega)
      have := e1 j (by omega)
      simp_all

/-- C228. After a sketch which was evaluated, one more operation is evaluated exactly when it can be placed from the places of the points so far. -/
theorem evaluates_next (ops : List Op) (o : Op) (hw : WellFormed (ops ++ [o])) (st : St) (h : evalSketch St.empty ops = .ok st) :
    (∃ st', evalSketch St.empty (ops ++ [o]) = .ok st') ↔
      Placeable st.vec ⟨visible (ops ++ [o]) st.vec ops.length, o.current st.vec⟩ o := by
  have hw' : ∀ (k : Nat) (o : Op), ops[k]? = some o → ∀ j ∈ o.refs, j < 0 + k := fun k o ho j hj => by
    have := hw k o (by rw [List.getElem?_append_left (List.getElem?_eq_some_iff.1 ho).1]; exact ho) j hj
    omega
  have hlast := hw ops.length o (by simp)
  obtain ⟨p1, p2⟩ := evalFrom_state ops St.empty st 0 h hw'
  have e1 : evalSketch St.empty (ops ++ [o]) = evalOp st ops.length o := by
    unfold evalSketch at h ⊢
    rw [evalFrom_append, h]
    show (evalOp st (0 + ops.length) o >>= fun s => .ok s) = _
    rw [Nat.zero_add]
    cases evalOp st ops.length o <;> rfl
  have hval : ∀ k, st.value ops.length k = none := fun k => by rw [(p2 _ (by omega)).2]; rfl
  have hvec : st.vec ops.length = none := by rw [(p2 _ (by omega)).1]; rfl
  rw [e1]
  have henv : ∀ pts : String → Option Nat, pts = pointsAfter st.points ops.length [o] →
      (fun n => (pts n).map st.vec) = visible (ops ++ [o]) st.vec ops.length := by
    rintro pts rfl
    funext n
    have q := pointsAfter_take (ops ++ [o]) (ops.length + 1) (by simp) n
    rw [List.take_of_length_le (by simp), pointsAfter_append, Nat.zero_add] at q
    have q1 : pointsAfter (fun _ => none) 0 ops = st.points := p1.symm
    rw [q1] at q
    rw [q]
    unfold visible
    generalize hfind : (List.find? _ _ : Option Nat) = r
    cases r with
    | none => rfl
    | some j =>
      have hj := List.mem_of_find?_eq_some hfind
      simp only [List.mem_reverse, List.mem_range] at hj
      simp only [Option.map_some]
      split
      · rfl
      · have : j = ops.length := by omega
        rw [this, hvec]
  unfold evalOp
  cases hn : o.name with
  | some n =>
    have : (∃ st', evalInternal (st.addPoint n ops.length) ops.length o = .ok st') ↔
        Placeable st.vec ⟨fun m => ((st.addPoint n ops.length).points m).map st.vec, o.current st.vec⟩ o :=
      evalInternal_iff (st.addPoint n ops.length) ops.length o (fun j hj => by have := hlast j hj; omega) hval
    rw [henv _ (by simp [pointsAfter, hn, St.addPoint])] at this
    exact this
  | none =>
    have := evalInternal_iff st ops.length o (fun j hj => by have := hlast j hj; omega) hval
    rw [St.env, henv _ (by simp [pointsAfter, hn])] at this
    exact this

theorem visible_take (ops : List Op) (vec : Nat → Option (Vec ℝ)) (i : Nat) : visible (ops.take (i + 1)) vec i = visible ops vec i := by
  funext n
  unfold visible
  congr 1
  refine List.find?_congr fun j hj => ?_
  simp only [List.mem_reverse, List.mem_range] at hj
  rw [List.getElem?_take_of_lt hj]

/-- C228. A sketch is evaluated exactly when each of its operations can be placed, from the places that the operations before it gave. -/
theorem sketch_evaluates_iff (ops : List Op) (hw : WellFormed ops) :
    (∃ st, evalSketch St.empty ops = .ok st) ↔
      ∀ (i : Nat) (o : Op), ops[i]? = some o → ∃ st, evalSketch St.empty (ops.take i) = .ok st ∧
        Placeable st.vec ⟨visible ops st.vec i, o.current st.vec⟩ o := by
  have hpre : ∀ i, WellFormed (ops.take i) := fun i k o ho j hj => by
    refine hw k o ?_ j hj
    rw [List.getElem?_take] at ho
    split at ho
    · exact ho
    · cases ho
  have hstep : ∀ i o, ops[i]? = some o → ops.take (i + 1) = ops.take i ++ [o] := fun i o ho => by
    rw [List.take_add_one, ho]; rfl
  have hnext : ∀ i o, ops[i]? = some o → ∀ st, evalSketch St.empty (ops.take i) = .ok st →
      ((∃ st', evalSketch St.empty (ops.take (i + 1)) = .ok st') ↔ Placeable st.vec ⟨visible ops st.vec i, o.current st.vec⟩ o) := by
    intro i o ho st hst
    have hl : (ops.take i).length = i := by
      have := (List.getElem?_eq_some_iff.1 ho).1
      simp; omega
    have := evaluates_next (ops.take i) o (by rw [← hstep i o ho]; exact hpre _) st hst
    rw [← hstep i o ho, hl, visible_take] at this
    exact this
  constructor
  · rintro ⟨st, h⟩ i o ho
    have hall : ∀ k, ∃ s, evalSketch St.empty (ops.take k) = .ok s := by
      intro k
      unfold evalSketch at h ⊢
      rw [← List.take_append_drop k ops, evalFrom_append] at h
      obtain ⟨s, hs, -⟩ := bind_ok h
      exact ⟨s, hs⟩
    obtain ⟨s, hs⟩ := hall i
    exact ⟨s, hs, (hnext i o ho s hs).1 (hall (i + 1))⟩
  · intro h
    have hall : ∀ k, k ≤ ops.length → ∃ s, evalSketch St.empty (ops.take k) = .ok s := by
      intro k
      induction k with
      | zero => exact fun _ => ⟨_, rfl⟩
      | succ k ih =>
        intro hk
        obtain ⟨s, hs, hp⟩ := h k ops[k] (List.getElem?_eq_getElem hk)
        exact (hnext k _ (List.getElem?_eq_getElem hk) s hs).2 hp
    obtain ⟨s, hs⟩ := hall ops.length le_rfl
    rw [List.take_length] at hs
    exact ⟨s, hs⟩

theorem placeable_congr {vec vec' : Nat → Option (Vec ℝ)} (env : Env) (o : Op) (h : ∀ j ∈ o.refs, vec j = vec' j)
    (hp : Placeable vec env o) : Placeable vec' env o := by
  cases o with
  | single n x y => exact hp
  | along n f s l =>
    simp only [Placeable, ← h f (by simp [Op.refs]), ← h s (by simp [Op.refs])]
    exact hp
  | endLine n b a l =>
    simp only [Placeable, ← h b (by simp [Op.refs])]
    exact hp
  | lineIntersect n a b c d => exact fun j hj => by rw [← h j hj]; exact hp j hj
  | normal n f s a l =>
    simp only [Placeable, ← h f (by simp [Op.refs]), ← h s (by simp [Op.refs])]
    exact hp
  | contact n f s c r =>
    simp only [Placeable, ← h f (by simp [Op.refs]), ← h s (by simp [Op.refs]), ← h c (by simp [Op.refs])]
    exact hp
  | intersection n f s => exact fun j hj => by rw [← h j hj]; exact hp j hj
  | line f s => trivial
  | spline f s a1 l1 a2 l2 => exact ⟨fun j hj => by rw [← h j hj]; exact hp.1 j hj, hp.2⟩

/-- C228. The places from which an operation was placed are those of the evaluated sketch: none of its points has moved since. -/
theorem evaluated_placeable (ops : List Op) (hw : WellFormed ops) (st : St) (h : evalSketch St.empty ops = .ok st) (i : Nat) (o : Op)
    (ho : ops[i]? = some o) : Placeable st.vec ⟨visible ops st.vec i, o.current st.vec⟩ o := by
  obtain ⟨s, hs, hp⟩ := (sketch_evaluates_iff ops hw).1 ⟨st, h⟩ i o ho
  have hl : (ops.take i).length = i := by
    have := (List.getElem?_eq_some_iff.1 ho).1
    simp; omega
  have hsame : ∀ j < i, st.vec j = s.vec j := by
    intro j hj
    unfold evalSketch at h hs
    rw [← List.take_append_drop i ops, evalFrom_append, hs, hl, Nat.zero_add] at h
    refine ((evalFrom_trace (ops.drop i) s st i h fun k o ho j hj => ?_).1 j hj).1
    rw [List.getElem?_drop] at ho
    exact hw _ o ho j hj
  have hr := hw i o ho
  have hvis : visible ops s.vec i = visible ops st.vec i := by
    funext n
    unfold visible
    congr 1
    funext j
    split
    · exact (hsame j ‹_›).symm
    · rfl
  have hcur : o.current s.vec = o.current st.vec := by
    cases o <;> simp only [Op.current]
    all_goals rw [hsame _ (hr _ (by simp [Op.refs])), hsame _ (hr _ (by simp [Op.refs]))]
  rw [hvis, hcur] at hp
  exact placeable_congr _ o (fun j hj => (hsame j (hr j hj)).symm) hp

/-- C228. A sketch with a point of contact on a line which touches the circle in one point is never evaluated. -/
theorem tangent_not_evaluated (ops : List Op) (hw : WellFormed ops) (i : Nat) (n : String) (f s c : Nat) (r : Expr)
    (ho : ops[i]? = some (.contact n f s c r)) (st : St) (h : evalSketch St.empty (ops.take i) = .ok st) (a b o : Vec ℝ) (v : ℝ)
    (ha : st.vec f = some a) (hb : st.vec s = some b) (hc : st.vec c = some o) (hr : r ⟨visible ops st.vec i, none⟩ = .ok v)
    (ht : ∃! p, (⟨a, b - a⟩ : Line ℝ).Contains p ∧ distance p o = |v|) (st' : St) : evalSketch St.empty ops ≠ .ok st' := by
  intro h'
  obtain ⟨st2, h2, a', b', o', v', e1, e2, e3, e4, -, e5⟩ := (sketch_evaluates_iff ops hw).1 ⟨st', h'⟩ i _ ho
  rw [h, Except.ok.injEq] at h2
  subst h2
  simp only [Op.current] at e4
  rw [ha, Option.some.injEq] at e1
  rw [hb, Option.some.injEq] at e2
  rw [hc, Option.some.injEq] at e3
  rw [hr, Except.ok.injEq] at e4
  subst e1 e2 e3 e4
  exact e5 ht

/-- Two points and the point of contact of their line with a circle of radius `r` around a third, which is at the distance 1 of the line. -/
noncomputable def touching (r : ℝ) : List Op :=
  [.single "A" (const 0) (const 0), .single "B" (const 4) (const 0), .single "C" (const 1) (const 1), .contact "D" 0 1 2 (const r)]

theorem touching_wellFormed (r : ℝ) : WellFormed (touching r) := by
  intro i o ho j hj
  match i, ho with
  | 0, ho => cases ho; simp [Op.refs] at hj
  | 1, ho => cases ho; simp [Op.refs] at hj
  | 2, ho => cases ho; simp [Op.refs] at hj
  | 3, ho => cases ho; simp [Op.refs] at hj; omega
  | i + 4, ho => simp [touching] at ho

theorem touching_points (r : ℝ) : ∃ st, evalSketch St.empty ((touching r).take 3) = .ok st ∧ st.vec 0 = some ⟨0, 0⟩ ∧ st.vec 1 = some ⟨4, 0⟩ ∧
    st.vec 2 = some ⟨1, 1⟩ := by
  simp [touching, evalSketch, evalFrom, evalOp, Op.name, evalInternal, St.getValue, St.addPoint, St.setVec, St.getVec,
      const, St.empty, bind, Except.bind, pure, Except.pure]

/-- The sketch with the circle of radius 1 is not evaluated, and those with another radius are. -/
example (r : ℝ) (hr : 0 ≤ r) : (∃ st, evalSketch St.empty (touching r) = .ok st) ↔ r ≠ 1 := by
  obtain ⟨st, h, h0, h1, h2⟩ := touching_points r
  have hops : touching r = (touching r).take 3 ++ [.contact "D" 0 1 2 (const r)] := rfl
  have key := evaluates_next ((touching r).take 3) (.contact "D" 0 1 2 (const r)) (by rw [← hops]; exact touching_wellFormed r) st h
  rw [← hops] at key
  rw [key]
  have hline : ∀ p : Vec ℝ, (⟨⟨0, 0⟩, (⟨4, 0⟩ : Vec ℝ) - ⟨0, 0⟩⟩ : Line ℝ).Contains p ↔ p.y = 0 := by
    intro p
    constructor
    · rintro ⟨t, rfl⟩; simp
    · intro h
      exact ⟨p.x / 4, by ext <;> simp [h]⟩
  have hdist : ∀ p : Vec ℝ, p.y = 0 → (distance p ⟨1, 1⟩ = |r| ↔ (p.x - 1) ^ 2 + 1 = r ^ 2) := by
    intro p hp
    unfold distance
    rw [Real.sqrt_eq_iff_mul_self_eq (by positivity) (abs_nonneg r), abs_mul_abs_self, hp]
    constructor <;> intro h <;> nlinarith
  constructor
  · rintro ⟨a, b, o, v, e1, e2, e3, e4, -, e6⟩ rfl
    rw [h0] at e1; rw [h1] at e2; rw [h2] at e3
    cases e1; cases e2; cases e3; cases e4
    refine e6 ⟨⟨1, 0⟩, ⟨(hline _).2 rfl, (hdist _ rfl).2 (by norm_num)⟩, fun p ⟨hp, hd⟩ => ?_⟩
    have hy := (hline p).1 hp
    have hx := (hdist p hy).1 hd
    have : (p.x - 1) ^ 2 = 0 := by linarith
    have : p.x - 1 = 0 := by simpa using this
    ext
    · simp; linarith
    · exact hy
  · intro hr1
    refine ⟨_, _, _, r, h0, h1, h2, rfl, by simp, ?_⟩
    rintro ⟨p, ⟨hp, hd⟩, hu⟩
    have hy := (hline p).1 hp
    have hx := (hdist p hy).1 hd
    have := hu ⟨2 - p.x, 0⟩ ⟨(hline _).2 rfl, (hdist _ rfl).2 (by simp only; rw [← hx]; ring)⟩
    have hxx : 2 - p.x = p.x := congrArg Vec.x this
    have : p.x = 1 := by linarith
    rw [this] at hx
    have : (r - 1) * (r + 1) = 0 := by linarith
    rcases mul_eq_zero.1 this with h | h
    · exact hr1 (by linarith)
    · linarith

end Patro.SketchGeometry
