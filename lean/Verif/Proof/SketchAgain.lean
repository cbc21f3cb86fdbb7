import Verif.Props.SketchGeometry
/-! # What an operation of a sketch computes from the points and the values of its expressions -/

namespace Patro.SketchGeometry

open Conic Classical

noncomputable section

/-- What an operation sets: its vector, or its control points. -/
structure Out where
  vec : Option (Option (Vec ℝ))
  ctrl : Option (Vec ℝ × Vec ℝ)

/-- What an evaluation of an operation sets when the points it refers to are `vec` and the values of its expressions `value`. -/
def place (vec : Nat → Option (Vec ℝ)) (value : Nat → Option ℝ) : Op → Option Out
  | .single .. => do
    let x ← value 0
    let y ← value 1
    return ⟨some (some ⟨x, y⟩), none⟩
  | .along _ first second _ => do
    let a ← vec first
    let b ← vec second
    let u ← (b - a).toNormalised
    let length ← value 0
    return ⟨some (some (a + u.smul length)), none⟩
  | .endLine _ base _ _ => do
    let a ← vec base
    let angle ← value 0
    let length ← value 1
    return ⟨some (some (a + (Vec.fromAngle angle).smul length)), none⟩
  | .lineIntersect _ p1l1 p2l1 p1l2 p2l2 => do
    let a ← vec p1l1
    let b ← vec p2l1
    let c ← vec p1l2
    let d ← vec p2l2
    return ⟨some ((Line.fromTwoPoints a b).intersection (Line.fromTwoPoints c d)), none⟩
  | .normal _ first second _ _ => do
    let a ← vec first
    let b ← vec second
    let u ← (b - a).toNormalised
    let angle ← value 0
    let length ← value 1
    return ⟨some (some (a + (if angle ≠ 0 then u.normal.rotate angle else u.normal).smul length)), none⟩
  | .contact _ first second center _ => do
    let a ← vec first
    let b ← vec second
    let c ← vec center
    let radius ← value 0
    match Circle.intersectSegment ⟨c, radius, none⟩ ⟨a, b⟩ with
    | .ok .none => return ⟨some none, none⟩
    | .ok (.two p0 p1) =>
      match (⟨a, b⟩ : Segment ℝ).containPoint p0, (⟨a, b⟩ : Segment ℝ).containPoint p1 with
      | .ok inside, .ok _ => return ⟨some (some (if inside then p0 else p1)), none⟩
      | _, _ => none
    | _ => none
  | .intersection _ first second => do
    let a ← vec first
    let b ← vec second
    return ⟨some (some ⟨a.x, b.y⟩), none⟩
  | .line .. => some ⟨none, none⟩
  | .spline first second _ _ _ _ => do
    let angle1 ← value 0
    let length1 ← value 1
    let angle2 ← value 2
    let length2 ← value 3
    let a ← vec first
    let b ← vec second
    return ⟨none, some (a + (Vec.fromAngle angle1).smul length1, b + (Vec.fromAngle angle2).smul length2)⟩

/-- The state after an operation has set `out`. -/
def St.put (st : St) (i : Nat) (out : Out) (value : Nat → Nat → Option ℝ) : St where
  vec := fun j => if j = i then out.vec.getD (st.vec i) else st.vec j
  ctrl := fun j => if j = i then out.ctrl.or (st.ctrl i) else st.ctrl j
  points := st.points
  value := value

theorem put_vec (st : St) (i : Nat) (w : Option (Vec ℝ)) : st.setVec i w = st.put i ⟨some w, none⟩ st.value := by
  unfold St.setVec St.put
  congr 1
  funext j
  by_cases h : j = i
  · subst h; simp
  · simp [h]

theorem normalised_some {v u : Vec ℝ} (h : normalised v = .ok u) : v.toNormalised = some u := by
  unfold normalised at h
  cases e : v.toNormalised with
  | none => rw [e] at h; cases h
  | some w => rw [e] at h; cases h; rfl

theorem put_congr {s t : St} (h1 : s.vec = t.vec) (h2 : s.ctrl = t.ctrl) (h3 : s.points = t.points) (i : Nat) (out : Out)
    (value : Nat → Nat → Option ℝ) : s.put i out value = t.put i out value := by
  unfold St.put
  rw [h1, h2, h3]

/-- An evaluation that succeeds sets what is computed from the points and the values. -/
theorem place_of_eval (st st' : St) (i : Nat) (o : Op) (h : evalInternal st i o = .ok st') :
    ∃ out, place st.vec (st'.value i) o = some out ∧ st' = st.put i out st'.value := by
  cases o with
  | single n x y =>
    obtain ⟨⟨vx, s1⟩, h1, h⟩ := bind_ok h
    obtain ⟨⟨vy, s2⟩, h2, h⟩ := bind_ok h
    have h := pure_ok h
    subst h
    obtain ⟨a1, a2, a3, a4, a5, a6⟩ := getValue_ok h1
    obtain ⟨b1, b2, b3, b4, b5, b6⟩ := getValue_ok h2
    have e0 : s2.value i 0 = some vx := (b5 i 0 (by simp)).trans a4
    rw [put_vec]
    refine ⟨_, by simp [place, St.put, e0, b4], put_congr (b1.trans a1) (b2.trans a2) (b3.trans a3) _ _ _⟩
  | along n f s l =>
    obtain ⟨a, ha, h⟩ := bind_ok h
    obtain ⟨b, hb, h⟩ := bind_ok h
    obtain ⟨u, hu, h⟩ := bind_ok h
    obtain ⟨⟨vl, s1⟩, h1, h⟩ := bind_ok h
    have h := pure_ok h
    subst h
    obtain ⟨a1, a2, a3, a4, a5, a6⟩ := getValue_ok h1
    rw [put_vec]
    exact ⟨_, by simp [place, St.put, a4, getVec_ok ha, getVec_ok hb, normalised_some hu], put_congr a1 a2 a3 _ _ _⟩
  | endLine n b angle l =>
    obtain ⟨a, ha, h⟩ := bind_ok h
    obtain ⟨⟨vx, s1⟩, h1, h⟩ := bind_ok h
    obtain ⟨⟨vy, s2⟩, h2, h⟩ := bind_ok h
    have h := pure_ok h
    subst h
    obtain ⟨a1, a2, a3, a4, a5, a6⟩ := getValue_ok h1
    obtain ⟨b1, b2, b3, b4, b5, b6⟩ := getValue_ok h2
    have e0 : s2.value i 0 = some vx := (b5 i 0 (by simp)).trans a4
    rw [put_vec]
    exact ⟨_, by simp [place, St.put, e0, b4, getVec_ok ha], put_congr (b1.trans a1) (b2.trans a2) (b3.trans a3) _ _ _⟩
  | lineIntersect n p1 p2 p3 p4 =>
    obtain ⟨a, ha, h⟩ := bind_ok h
    obtain ⟨b, hb, h⟩ := bind_ok h
    obtain ⟨c, hc, h⟩ := bind_ok h
    obtain ⟨d, hd, h⟩ := bind_ok h
    have h := pure_ok h
    subst h
    rw [put_vec]
    exact ⟨_, by simp [place, getVec_ok ha, getVec_ok hb, getVec_ok hc, getVec_ok hd], rfl⟩
  | normal n f s angle l =>
    obtain ⟨a, ha, h⟩ := bind_ok h
    obtain ⟨b, hb, h⟩ := bind_ok h
    obtain ⟨u, hu, h⟩ := bind_ok h
    obtain ⟨⟨vx, s1⟩, h1, h⟩ := bind_ok h
    obtain ⟨⟨vy, s2⟩, h2, h⟩ := bind_ok h
    have h := pure_ok h
    subst h
    obtain ⟨a1, a2, a3, a4, a5, a6⟩ := getValue_ok h1
    obtain ⟨b1, b2, b3, b4, b5, b6⟩ := getValue_ok h2
    have e0 : s2.value i 0 = some vx := (b5 i 0 (by simp)).trans a4
    rw [put_vec]
    exact ⟨_, by simp only [place, St.put, e0, b4, getVec_ok ha, getVec_ok hb, bind, Option.bind_some, normalised_some hu]; rfl,
      put_congr (b1.trans a1) (b2.trans a2) (b3.trans a3) _ _ _⟩
  | contact n f s c r =>
    obtain ⟨a, ha, h⟩ := bind_ok h
    obtain ⟨b, hb, h⟩ := bind_ok h
    obtain ⟨o, ho, h⟩ := bind_ok h
    obtain ⟨⟨vr, s1⟩, h1, h⟩ := bind_ok h
    obtain ⟨hits, hh, h⟩ := bind_ok h
    have hh := lift_ok hh
    obtain ⟨a1, a2, a3, a4, a5, a6⟩ := getValue_ok h1
    have ha := getVec_ok ha
    have hb := getVec_ok hb
    have ho := getVec_ok ho
    cases hits with
    | none =>
      have h := pure_ok h
      subst h
      rw [put_vec]
      exact ⟨_, by simp only [place, St.put, a4, ha, hb, ho, Option.bind_some, bind, hh]; rfl, put_congr a1 a2 a3 _ _ _⟩
    | one p => cases h
    | two p0 p1 =>
      obtain ⟨b0, e0, h⟩ := bind_ok h
      obtain ⟨b1, e1, h⟩ := bind_ok h
      have h := pure_ok h
      subst h
      rw [put_vec]
      exact ⟨_, by simp only [place, St.put, a4, ha, hb, ho, Option.bind_some, bind, hh, lift_ok e0, lift_ok e1]; rfl,
        put_congr a1 a2 a3 _ _ _⟩
  | intersection n f s =>
    obtain ⟨a, ha, h⟩ := bind_ok h
    obtain ⟨b, hb, h⟩ := bind_ok h
    have h := pure_ok h
    subst h
    rw [put_vec]
    exact ⟨_, by simp [place, getVec_ok ha, getVec_ok hb], rfl⟩
  | line f s =>
    cases h
    refine ⟨⟨none, none⟩, rfl, ?_⟩
    unfold St.put
    have e1 : (fun j => if j = i then st.vec i else st.vec j) = st.vec := by funext j; split <;> simp_all
    have e2 : (fun j => if j = i then st.ctrl i else st.ctrl j) = st.ctrl := by funext j; split <;> simp_all
    simp only [Option.getD_none, Option.none_or, e1, e2]
  | spline f s x1 l1 x2 l2 =>
    obtain ⟨⟨v1, s1⟩, h1, h⟩ := bind_ok h
    obtain ⟨⟨v2, s2⟩, h2, h⟩ := bind_ok h
    obtain ⟨⟨v3, s3⟩, h3, h⟩ := bind_ok h
    obtain ⟨⟨v4, s4⟩, h4, h⟩ := bind_ok h
    obtain ⟨a, ha, h⟩ := bind_ok h
    obtain ⟨b, hb, h⟩ := bind_ok h
    have h := pure_ok h
    subst h
    obtain ⟨a1, a2, a3, a4, a5, a6⟩ := getValue_ok h1
    obtain ⟨b1, b2, b3, b4, b5, b6⟩ := getValue_ok h2
    obtain ⟨c1, c2, c3, c4, c5, c6⟩ := getValue_ok h3
    obtain ⟨d1, d2, d3, d4, d5, d6⟩ := getValue_ok h4
    have ev : s4.vec = st.vec := d1.trans (c1.trans (b1.trans a1))
    have ha := getVec_ok ha
    have hb := getVec_ok hb
    rw [ev] at ha hb
    have e1 : s4.value i 0 = some v1 :=
      (d5 i 0 (by simp)).trans ((c5 i 0 (by simp)).trans ((b5 i 0 (by simp)).trans a4))
    have e2 : s4.value i 1 = some v2 := (d5 i 1 (by simp)).trans ((c5 i 1 (by simp)).trans b4)
    have e3 : s4.value i 2 = some v3 := (d5 i 2 (by simp)).trans c4
    refine ⟨_, by simp only [place, e1, e2, e3, d4, ha, hb]; rfl, ?_⟩
    have ec : s4.ctrl = st.ctrl := d2.trans (c2.trans (b2.trans a2))
    have ep : s4.points = st.points := d3.trans (c3.trans (b3.trans a3))
    unfold St.put
    simp only [ec, ep, ev, Option.getD_none]
    congr 1
    funext j
    split <;> simp_all

/-- The state with a value kept. -/
def St.keep (st : St) (i k : Nat) (v : ℝ) : St := { st with value := fun j l => if j = i ∧ l = k then some v else st.value j l }

/-- The value `v` is cached, or it is the one which the formula has. -/
def St.Gives (st : St) (i k : Nat) (e : Expr) (cur : Option (Vec ℝ)) (v : ℝ) : Prop :=
  st.value i k = some v ∨ (st.value i k = none ∧ e (st.env cur) = .ok v)

theorem getValue_hit {st : St} {i k : Nat} {e : Expr} {cur : Option (Vec ℝ)} {v : ℝ} (h : st.Gives i k e cur v) :
    st.getValue i k e cur = .ok (v, st.keep i k v) := by
  unfold St.getValue
  rcases h with h | ⟨h, he⟩
  · rw [h]
    dsimp only
    have : (fun j l => if j = i ∧ l = k then some v else st.value j l) = st.value := by
      funext j l
      split
      · next hjl => rw [hjl.1, hjl.2, h]
      · rfl
    unfold St.keep
    rw [this]
  · rw [h, he]
    rfl

theorem gives_keep {st : St} {i k l : Nat} {e : Expr} {cur : Option (Vec ℝ)} {v w : ℝ} (hkl : l ≠ k) (h : st.Gives i l e cur w) :
    (st.keep i k v).Gives i l e cur w := by
  unfold St.Gives St.keep at *
  simpa [hkl, St.env] using h

theorem getVec_hit {st : St} {j : Nat} {v : Vec ℝ} (h : st.vec j = some v) : st.getVec j = .ok v := by
  unfold St.getVec
  rw [h]

theorem normalised_hit {v u : Vec ℝ} (h : v.toNormalised = some u) : normalised v = .ok u := by
  unfold normalised
  rw [h]

theorem obind {α β : Type} {m : Option α} {f : α → Option β} {b : β} (h : (m >>= f) = some b) : ∃ a, m = some a ∧ f a = some b := by
  cases m with
  | none => cases h
  | some a => exact ⟨a, rfl, h⟩

/-- The values of an operation replaced. -/
def St.valuesWith (st : St) (i : Nat) (o : Op) (value : Nat → Option ℝ) : Nat → Nat → Option ℝ :=
  fun j k => if j = i ∧ k < o.exprs.length then value k else st.value j k

theorem put_values {st s : St} {i : Nat} {o : Op} {value : Nat → Option ℝ} (w : Option (Vec ℝ)) (h1 : s.vec = st.vec) (h2 : s.ctrl = st.ctrl)
    (h3 : s.points = st.points) (h4 : s.value = st.valuesWith i o value) :
    s.setVec i w = st.put i ⟨some w, none⟩ (st.valuesWith i o value) := by
  rw [put_vec, h4]
  exact put_congr h1 h2 h3 _ _ _

/-- An operation whose values are cached, or given by its formulas, sets what is computed from the points and the values. -/
theorem eval_of_place (st : St) (i : Nat) (o : Op) (value : Nat → Option ℝ) (out : Out)
    (hv : ∀ k e, o.exprs[k]? = some e → ∃ v, value k = some v ∧ st.Gives i k e (o.current st.vec) v)
    (h : place st.vec value o = some out) :
    evalInternal st i o = .ok (st.put i out (st.valuesWith i o value)) := by
  cases o with
  | single n x y =>
    obtain ⟨vx, h1, g1⟩ := hv 0 x rfl
    obtain ⟨vy, h2, g2⟩ := hv 1 y rfl
    change st.Gives i 0 x none vx at g1
    change st.Gives i 1 y none vy at g2
    simp [place, h1, h2] at h
    subst h
    simp only [evalInternal, getValue_hit g1, getValue_hit (gives_keep (v := vx) (k := 0) (by decide) g2), bind, Except.bind, pure, Except.pure]
    refine congrArg Except.ok (put_values _ rfl rfl rfl ?_)
    funext j k
    by_cases hj : j = i
    · match k with
      | 0 => simp [St.keep, St.valuesWith, Op.exprs, hj, h1]
      | 1 => simp [St.keep, St.valuesWith, Op.exprs, hj, h2]
      | k + 2 => simp [St.keep, St.valuesWith, Op.exprs, hj]
    · simp [St.keep, St.valuesWith, Op.exprs, hj]
  | along n f s l =>
    obtain ⟨a, ha, h⟩ := obind h
    obtain ⟨b, hb, h⟩ := obind h
    obtain ⟨u, hu, h⟩ := obind h
    obtain ⟨v, h1, g1⟩ := hv 0 l rfl
    have hc : (Op.along n f s l).current st.vec = some (b - a) := by simp [Op.current, ha, hb]
    rw [hc] at g1
    simp [h1] at h
    subst h
    simp only [evalInternal, getVec_hit ha, getVec_hit hb, normalised_hit hu, getValue_hit g1, bind, Except.bind, pure, Except.pure]
    refine congrArg Except.ok (put_values _ rfl rfl rfl ?_)
    funext j k
    by_cases hj : j = i
    · match k with
      | 0 => simp [St.keep, St.valuesWith, Op.exprs, hj, h1]
      | k + 1 => simp [St.keep, St.valuesWith, Op.exprs, hj]
    · simp [St.keep, St.valuesWith, Op.exprs, hj]
  | endLine n b angle l =>
    obtain ⟨a, ha, h⟩ := obind h
    obtain ⟨vx, h1, g1⟩ := hv 0 angle rfl
    obtain ⟨vy, h2, g2⟩ := hv 1 l rfl
    change st.Gives i 0 angle none vx at g1
    change st.Gives i 1 l none vy at g2
    simp [h1, h2] at h
    subst h
    simp only [evalInternal, getVec_hit ha, getValue_hit g1, getValue_hit (gives_keep (v := vx) (k := 0) (by decide) g2), bind, Except.bind, pure, Except.pure]
    refine congrArg Except.ok (put_values _ rfl rfl rfl ?_)
    funext j k
    by_cases hj : j = i
    · match k with
      | 0 => simp [St.keep, St.valuesWith, Op.exprs, hj, h1]
      | 1 => simp [St.keep, St.valuesWith, Op.exprs, hj, h2]
      | k + 2 => simp [St.keep, St.valuesWith, Op.exprs, hj]
    · simp [St.keep, St.valuesWith, Op.exprs, hj]
  | lineIntersect n p1 p2 p3 p4 =>
    obtain ⟨a, ha, h⟩ := obind h
    obtain ⟨b, hb, h⟩ := obind h
    obtain ⟨c, hc, h⟩ := obind h
    obtain ⟨d, hd, h⟩ := obind h
    cases h
    simp only [evalInternal, getVec_hit ha, getVec_hit hb, getVec_hit hc, getVec_hit hd, bind, Except.bind, pure, Except.pure]
    refine congrArg Except.ok (put_values _ rfl rfl rfl ?_)
    funext j k
    simp [St.valuesWith, Op.exprs]
  | normal n f s angle l =>
    obtain ⟨a, ha, h⟩ := obind h
    obtain ⟨b, hb, h⟩ := obind h
    obtain ⟨u, hu, h⟩ := obind h
    obtain ⟨vx, h1, g1⟩ := hv 0 angle rfl
    obtain ⟨vy, h2, g2⟩ := hv 1 l rfl
    have hc : (Op.normal n f s angle l).current st.vec = some (b - a) := by simp [Op.current, ha, hb]
    rw [hc] at g1 g2
    simp only [h1, h2] at h
    cases h
    simp only [evalInternal, getVec_hit ha, getVec_hit hb, normalised_hit hu, getValue_hit g1, getValue_hit (gives_keep (v := vx) (k := 0) (by decide) g2), bind,
      Except.bind, pure, Except.pure]
    refine congrArg Except.ok (put_values _ rfl rfl rfl ?_)
    funext j k
    by_cases hj : j = i
    · match k with
      | 0 => simp [St.keep, St.valuesWith, Op.exprs, hj, h1]
      | 1 => simp [St.keep, St.valuesWith, Op.exprs, hj, h2]
      | k + 2 => simp [St.keep, St.valuesWith, Op.exprs, hj]
    · simp [St.keep, St.valuesWith, Op.exprs, hj]
  | contact n f s c r =>
    obtain ⟨a, ha, h⟩ := obind h
    obtain ⟨b, hb, h⟩ := obind h
    obtain ⟨c', hc, h⟩ := obind h
    obtain ⟨v, hv', h⟩ := obind h
    obtain ⟨v', h1, g1⟩ := hv 0 r rfl
    change st.Gives i 0 r none v' at g1
    obtain rfl : v = v' := by rw [hv'] at h1; exact Option.some.inj h1
    have hk : (st.keep i 0 v).value = st.valuesWith i (.contact n f s c r) value := by
      funext j k
      by_cases hj : j = i
      · match k with
        | 0 => simp [St.keep, St.valuesWith, Op.exprs, hj, h1]
        | k + 1 => simp [St.keep, St.valuesWith, Op.exprs, hj]
      · simp [St.keep, St.valuesWith, Op.exprs, hj]
    simp only [evalInternal, getVec_hit ha, getVec_hit hb, getVec_hit hc, getValue_hit g1, bind, Except.bind, pure, Except.pure]
    cases hh : Circle.intersectSegment ⟨c', v, none⟩ ⟨a, b⟩ with
    | error e => rw [hh] at h; cases h
    | ok hits =>
      rw [hh] at h
      cases hits with
      | none =>
        cases h
        simp only [lift]
        exact congrArg Except.ok (put_values (st := st) (s := st.keep i 0 v) _ rfl rfl rfl hk)
      | one p => cases h
      | two p0 p1 =>
        dsimp only at h
        cases h0 : (⟨a, b⟩ : Segment ℝ).containPoint p0 with
        | error e => rw [h0] at h; cases h
        | ok b0 =>
          cases h1 : (⟨a, b⟩ : Segment ℝ).containPoint p1 with
          | error e => rw [h0, h1] at h; cases h
          | ok b1 =>
            rw [h0, h1] at h
            cases h
            simp only [lift, h0, h1]
            exact congrArg Except.ok (put_values (st := st) (s := st.keep i 0 v) _ rfl rfl rfl hk)
  | intersection n f s =>
    obtain ⟨a, ha, h⟩ := obind h
    obtain ⟨b, hb, h⟩ := obind h
    cases h
    simp only [evalInternal, getVec_hit ha, getVec_hit hb, bind, Except.bind, pure, Except.pure]
    refine congrArg Except.ok (put_values _ rfl rfl rfl ?_)
    funext j k
    simp [St.valuesWith, Op.exprs]
  | line f s =>
    cases h
    have e1 : (fun j => if j = i then st.vec i else st.vec j) = st.vec := by funext j; split <;> simp_all
    have e2 : (fun j => if j = i then st.ctrl i else st.ctrl j) = st.ctrl := by funext j; split <;> simp_all
    have e3 : st.valuesWith i (.line f s) value = st.value := by funext j k; simp [St.valuesWith, Op.exprs]
    simp only [evalInternal, St.put, Option.getD_none, Option.none_or, e1, e2, e3]
  | spline f s x1 l1 x2 l2 =>
    obtain ⟨v1, h1, g1⟩ := hv 0 x1 rfl
    obtain ⟨v2, h2, g2⟩ := hv 1 l1 rfl
    obtain ⟨v3, h3, g3⟩ := hv 2 x2 rfl
    obtain ⟨v4, h4, g4⟩ := hv 3 l2 rfl
    change st.Gives i 0 x1 none v1 at g1
    change st.Gives i 1 l1 none v2 at g2
    change st.Gives i 2 x2 none v3 at g3
    change st.Gives i 3 l2 none v4 at g4
    obtain ⟨w1, k1, h⟩ := obind h
    obtain ⟨w2, k2, h⟩ := obind h
    obtain ⟨w3, k3, h⟩ := obind h
    obtain ⟨w4, k4, h⟩ := obind h
    obtain ⟨a, ha, h⟩ := obind h
    obtain ⟨b, hb, h⟩ := obind h
    cases h
    rw [h1] at k1; rw [h2] at k2; rw [h3] at k3; rw [h4] at k4
    cases k1; cases k2; cases k3; cases k4
    have g2' := gives_keep (v := v1) (k := 0) (by decide) g2
    have g3' := gives_keep (v := v2) (k := 1) (by decide) (gives_keep (v := v1) (k := 0) (by decide) g3)
    have g4' := gives_keep (v := v3) (k := 2) (by decide) (gives_keep (v := v2) (k := 1) (by decide)
      (gives_keep (v := v1) (k := 0) (by decide) g4))
    have ha' : ((((st.keep i 0 v1).keep i 1 v2).keep i 2 v3).keep i 3 v4).vec f = some a := ha
    have hb' : ((((st.keep i 0 v1).keep i 1 v2).keep i 2 v3).keep i 3 v4).vec s = some b := hb
    have e1 : (fun j => if j = i then st.vec i else st.vec j) = st.vec := by funext j; split <;> simp_all
    have hk : ((((st.keep i 0 v1).keep i 1 v2).keep i 2 v3).keep i 3 v4).value =
        st.valuesWith i (.spline f s x1 l1 x2 l2) value := by
      funext j k
      by_cases hj : j = i
      · match k with
        | 0 => simp [St.keep, St.valuesWith, Op.exprs, hj, h1]
        | 1 => simp [St.keep, St.valuesWith, Op.exprs, hj, h2]
        | 2 => simp [St.keep, St.valuesWith, Op.exprs, hj, h3]
        | 3 => simp [St.keep, St.valuesWith, Op.exprs, hj, h4]
        | k + 4 => simp [St.keep, St.valuesWith, Op.exprs, hj]
      · simp [St.keep, St.valuesWith, Op.exprs, hj]
    simp only [evalInternal, getValue_hit g1]
    simp only [bind, Except.bind, getValue_hit g2', getValue_hit g3', getValue_hit g4', getVec_hit ha', getVec_hit hb', pure, Except.pure,
      St.put, Option.getD_none, e1, hk]
    rfl

end

end Patro.SketchGeometry
