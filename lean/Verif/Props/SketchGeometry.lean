import Verif.Spec.SketchGeometry
import Verif.Props.Conic
import Verif.Props.Line
/-! # C29: the points of a sketch satisfy their geometric definition -/

namespace Patro.SketchGeometry

open Conic Classical

theorem bind_ok {α β : Type} {m : Except Err α} {f : α → Except Err β} {b : β} (h : (m >>= f) = .ok b) :
    ∃ a, m = .ok a ∧ f a = .ok b := by
  cases m with
  | error e => cases h
  | ok a => exact ⟨a, rfl, h⟩

theorem pure_ok {α : Type} {a b : α} (h : (pure a : Except Err α) = .ok b) : a = b := by
  cases h; rfl

theorem getVec_ok {st : St} {j : Nat} {v : Vec ℝ} (h : st.getVec j = .ok v) : st.vec j = some v := by
  unfold St.getVec at h
  split at h
  · rename_i w hw; cases h; exact hw
  · cases h

theorem getValue_ok {st st' : St} {i slot : Nat} {e : Expr} {cur : Option (Vec ℝ)} {v : ℝ}
    (h : st.getValue i slot e cur = .ok (v, st')) :
    st'.vec = st.vec ∧ st'.ctrl = st.ctrl ∧ st'.points = st.points ∧ st'.value i slot = some v ∧
    (∀ j k, ¬ (j = i ∧ k = slot) → st'.value j k = st.value j k) ∧
    (st.value i slot = none → e (st.env cur) = .ok v) := by
  unfold St.getValue at h
  split at h
  · rename_i w hw
    cases h
    exact ⟨rfl, rfl, rfl, hw, fun _ _ _ => rfl, fun hn => by rw [hn] at hw; cases hw⟩
  · obtain ⟨w, hw, h⟩ := bind_ok h
    cases h
    exact ⟨rfl, rfl, rfl, by simp, fun j k hjk => by simp [hjk], fun _ => hw⟩

theorem normalised_ok {v u : Vec ℝ} (h : normalised v = .ok u) : v.magnitude ≠ 0 ∧ u = v.sdiv v.magnitude := by
  unfold normalised Vec.toNormalised at h
  by_cases h0 : v.magnitude = 0
  · simp [h0] at h
  · simp [h0] at h; exact ⟨h0, h.symm⟩

theorem lift_ok {α : Type} {m : Except PyErr α} {a : α} (h : lift m = .ok a) : m = .ok a := by
  cases m with
  | ok b => cases h; rfl
  | error e => cases h

theorem fromAngle_eq (angle : ℝ) : Vec.fromAngle angle = direction angle := by
  unfold Vec.fromAngle direction Vec.radians
  rw [← mul_div_assoc]

theorem atFrom_along (a b : Vec ℝ) (l : ℝ) (h0 : (b - a).magnitude ≠ 0) :
    AtFrom a b 0 l (a + ((b - a).sdiv (b - a).magnitude).smul l) := by
  have hd : distance a b = (b - a).magnitude := by rw [distance_eq]; exact distance_symm a b
  refine ⟨?_, l / (b - a).magnitude, ?_, ?_, ?_⟩
  · rintro rfl
    apply h0
    rw [Vec.magnitude_eq_zero]
    ext <;> simp
  · rw [hd]; field_simp
  · simp; field_simp
  · simp; field_simp

theorem atFrom_normal (a b : Vec ℝ) (angle l : ℝ) (h0 : (b - a).magnitude ≠ 0) :
    AtFrom a b (90 + angle) l (a + ((if angle ≠ 0 then ((b - a).sdiv (b - a).magnitude).normal.rotate angle
      else ((b - a).sdiv (b - a).magnitude).normal).smul l)) := by
  have hd : distance a b = (b - a).magnitude := by rw [distance_eq]; exact distance_symm a b
  have hrot : (if angle ≠ 0 then ((b - a).sdiv (b - a).magnitude).normal.rotate angle
      else ((b - a).sdiv (b - a).magnitude).normal) = ((b - a).sdiv (b - a).magnitude).normal.rotate angle := by
    split
    · rfl
    · rename_i h
      have h : angle = 0 := by simpa using h
      subst h
      ext <;> simp [Vec.rotate, Vec.radians]
  rw [hrot]
  have e : (90 + angle) * Real.pi / 180 = angle * Real.pi / 180 + Real.pi / 2 := by ring
  have e2 : Vec.radians angle = angle * Real.pi / 180 := by unfold Vec.radians; ring
  refine ⟨?_, l / (b - a).magnitude, ?_, ?_, ?_⟩
  · rintro rfl
    apply h0
    rw [Vec.magnitude_eq_zero]
    ext <;> simp
  · rw [hd]; field_simp
  · rw [e, Real.cos_add_pi_div_two, Real.sin_add_pi_div_two]
    simp [Vec.rotate, e2]; field_simp; ring
  · rw [e, Real.cos_add_pi_div_two, Real.sin_add_pi_div_two]
    simp [Vec.rotate, e2]; field_simp; ring

theorem toLine_eq (a b : Vec ℝ) : (⟨a, b⟩ : Segment ℝ).toLine = ⟨a, b - a⟩ := rfl

theorem contact_points (o a b : Vec ℝ) (r : ℝ) (hits : Hits ℝ)
    (h : Circle.intersectSegment ⟨o, r, none⟩ ⟨a, b⟩ = .ok hits) :
    match hits with
    | .none => ∀ p, (⟨a, b - a⟩ : Line ℝ).Contains p → distance p o ≠ |r|
    | .one _ => True
    | .two p0 p1 => ∀ p, p = p0 ∨ p = p1 → (⟨a, b - a⟩ : Line ℝ).Contains p ∧ distance p o = |r| := by
  have hsame : Circle.intersectSegment ⟨o, r, none⟩ ⟨a, b⟩ = Circle.intersectSegment ⟨o, |r|, none⟩ ⟨a, b⟩ := by
    unfold Circle.intersectSegment
    simp only [sq_abs]
  by_cases hne : a = b
  · subst hne
    rw [intersectSegment_null] at h
    cases h
  · rw [hsame] at h
    rcases intersectSegment_spec ⟨o, |r|, none⟩ (abs_nonneg r) ⟨a, b⟩ hne with ⟨e, hq⟩ | ⟨q, e, _⟩ | ⟨q0, q1, e, _, hq⟩
    · rw [e] at h
      cases h
      exact fun p hp hd => hq p ⟨hp, hd⟩
    · rw [e] at h; cases h; trivial
    · rw [e] at h
      cases h
      exact fun p hp => (hq p).2 hp

/-- What an evaluation of one operation changes, and what it establishes. -/
theorem evalInternal_spec (st st' : St) (i : Nat) (o : Op) (h : evalInternal st i o = .ok st') (hrefs : ∀ j ∈ o.refs, j ≠ i) :
    (∀ j, j ≠ i → st'.vec j = st.vec j ∧ st'.ctrl j = st.ctrl j ∧ st'.value j = st.value j) ∧ st'.points = st.points ∧
    Satisfies st'.vec st'.ctrl st'.value i o ∧
    (∀ k e, o.exprs[k]? = some e → ∃ v, st'.value i k = some v ∧
      (st.value i k = none → e (st.env (o.current st.vec)) = .ok v)) := by
  cases o with
  | single n x y =>
    obtain ⟨⟨vx, s1⟩, h1, h⟩ := bind_ok h
    obtain ⟨⟨vy, s2⟩, h2, h⟩ := bind_ok h
    have h := pure_ok h
    subst h
    obtain ⟨a1, a2, a3, a4, a5, a6⟩ := getValue_ok h1
    obtain ⟨b1, b2, b3, b4, b5, b6⟩ := getValue_ok h2
    have henv : s1.env = st.env := by unfold St.env; rw [a1, a3]
    refine ⟨fun j hj => ⟨by simp [St.setVec, hj, b1, a1], by simp [St.setVec, b2, a2], ?_⟩, by simp [St.setVec, b3, a3], ?_, ?_⟩
    · funext k
      exact (b5 j k (fun hh => hj hh.1)).trans (a5 j k fun hh => hj hh.1)
    · have : s2.value i 0 = some vx := (b5 i 0 (by simp)).trans a4
      exact ⟨vx, vy, this, b4, by simp [St.setVec]⟩
    · intro k e he
      match k, he with
      | 0, he =>
        cases he
        exact ⟨vx, (b5 i 0 (by simp)).trans a4, a6⟩
      | 1, he =>
        cases he
        exact ⟨vy, b4, fun hn => by rw [← henv]; exact b6 ((a5 i 1 (by simp)).trans hn)⟩
      | k + 2, he => cases he
  | along n f s l =>
    obtain ⟨a, ha, h⟩ := bind_ok h
    obtain ⟨b, hb, h⟩ := bind_ok h
    obtain ⟨u, hu, h⟩ := bind_ok h
    obtain ⟨⟨vl, s1⟩, h1, h⟩ := bind_ok h
    have h := pure_ok h
    subst h
    obtain ⟨a1, a2, a3, a4, a5, a6⟩ := getValue_ok h1
    have ha := getVec_ok ha
    have hb := getVec_ok hb
    obtain ⟨hu0, rfl⟩ := normalised_ok hu
    have hf : f ≠ i := hrefs f (by simp [Op.refs])
    have hs : s ≠ i := hrefs s (by simp [Op.refs])
    refine ⟨fun j hj => ⟨by simp [St.setVec, hj, a1], by simp [St.setVec, a2], ?_⟩, by simp [St.setVec, a3], ?_, ?_⟩
    · funext k
      exact a5 j k fun hh => hj hh.1
    · exact ⟨a, b, vl, _, by simp [St.setVec, hf, a1, ha], by simp [St.setVec, hs, a1, hb], a4, by simp [St.setVec],
        atFrom_along a b vl hu0⟩
    · intro k e he
      match k, he with
      | 0, he =>
        cases he
        refine ⟨vl, a4, fun hn => ?_⟩
        have := a6 hn
        simpa [Op.current, ha, hb] using this
      | k + 1, he => cases he
  | endLine n b angle l =>
    obtain ⟨a, ha, h⟩ := bind_ok h
    obtain ⟨⟨vx, s1⟩, h1, h⟩ := bind_ok h
    obtain ⟨⟨vy, s2⟩, h2, h⟩ := bind_ok h
    have h := pure_ok h
    subst h
    obtain ⟨a1, a2, a3, a4, a5, a6⟩ := getValue_ok h1
    obtain ⟨b1, b2, b3, b4, b5, b6⟩ := getValue_ok h2
    have ha := getVec_ok ha
    have henv : s1.env = st.env := by unfold St.env; rw [a1, a3]
    have hb : b ≠ i := hrefs b (by simp [Op.refs])
    refine ⟨fun j hj => ⟨by simp [St.setVec, hj, b1, a1], by simp [St.setVec, b2, a2], ?_⟩, by simp [St.setVec, b3, a3], ?_, ?_⟩
    · funext k
      exact (b5 j k (fun hh => hj hh.1)).trans (a5 j k fun hh => hj hh.1)
    · have : s2.value i 0 = some vx := (b5 i 0 (by simp)).trans a4
      refine ⟨a, vx, vy, _, by simp [St.setVec, hb, b1, a1, ha], this, b4, by simp [St.setVec]; rfl, ?_⟩
      rw [fromAngle_eq]
    · intro k e he
      match k, he with
      | 0, he =>
        cases he
        exact ⟨vx, (b5 i 0 (by simp)).trans a4, a6⟩
      | 1, he =>
        cases he
        exact ⟨vy, b4, fun hn => by rw [← henv]; exact b6 ((a5 i 1 (by simp)).trans hn)⟩
      | k + 2, he => cases he
  | lineIntersect n p1 p2 p3 p4 =>
    obtain ⟨a, ha, h⟩ := bind_ok h
    obtain ⟨b, hb, h⟩ := bind_ok h
    obtain ⟨c, hc, h⟩ := bind_ok h
    obtain ⟨d, hd, h⟩ := bind_ok h
    have h := pure_ok h
    subst h
    have ha := getVec_ok ha
    have hb := getVec_ok hb
    have hc := getVec_ok hc
    have hd := getVec_ok hd
    have r1 : p1 ≠ i := hrefs _ (by simp [Op.refs])
    have r2 : p2 ≠ i := hrefs _ (by simp [Op.refs])
    have r3 : p3 ≠ i := hrefs _ (by simp [Op.refs])
    have r4 : p4 ≠ i := hrefs _ (by simp [Op.refs])
    refine ⟨fun j hj => ⟨by simp [St.setVec, hj], rfl, rfl⟩, rfl, ?_, ?_⟩
    · refine ⟨a, b, c, d, by simp [St.setVec, r1, ha], by simp [St.setVec, r2, hb], by simp [St.setVec, r3, hc],
        by simp [St.setVec, r4, hd], ?_, fun p hp => ?_⟩
      · have := (intersection_none_iff (Line.fromTwoPoints a b) (Line.fromTwoPoints c d)).1
        simpa [St.setVec, Line.fromTwoPoints] using this
      have hp : (Line.fromTwoPoints a b).intersection (Line.fromTwoPoints c d) = some p := by simpa [St.setVec] using hp
      have := intersection_sound _ _ _ hp
      exact ⟨this.1, this.2.1⟩
    · intro k e he
      simp [Op.exprs] at he
  | normal n f s angle l =>
    obtain ⟨a, ha, h⟩ := bind_ok h
    obtain ⟨b, hb, h⟩ := bind_ok h
    obtain ⟨u, hu, h⟩ := bind_ok h
    obtain ⟨⟨vx, s1⟩, h1, h⟩ := bind_ok h
    obtain ⟨⟨vy, s2⟩, h2, h⟩ := bind_ok h
    have h := pure_ok h
    subst h
    obtain ⟨a1, a2, a3, a4, a5, a6⟩ := getValue_ok h1
    obtain ⟨b1, b2, b3, b4, b5, b6⟩ := getValue_ok h2
    have ha := getVec_ok ha
    have hb := getVec_ok hb
    obtain ⟨hu0, rfl⟩ := normalised_ok hu
    have henv : s1.env = st.env := by unfold St.env; rw [a1, a3]
    have hf : f ≠ i := hrefs f (by simp [Op.refs])
    have hs : s ≠ i := hrefs s (by simp [Op.refs])
    refine ⟨fun j hj => ⟨by simp [St.setVec, hj, b1, a1], by simp [St.setVec, b2, a2], ?_⟩, by simp [St.setVec, b3, a3], ?_, ?_⟩
    · funext k
      exact (b5 j k (fun hh => hj hh.1)).trans (a5 j k fun hh => hj hh.1)
    · have : s2.value i 0 = some vx := (b5 i 0 (by simp)).trans a4
      exact ⟨a, b, vx, vy, _, by simp [St.setVec, hf, b1, a1, ha], by simp [St.setVec, hs, b1, a1, hb], this, b4,
        by simp only [St.setVec, if_true], atFrom_normal a b vx vy hu0⟩
    · intro k e he
      match k, he with
      | 0, he =>
        cases he
        refine ⟨vx, (b5 i 0 (by simp)).trans a4, fun hn => ?_⟩
        have := a6 hn
        simpa [Op.current, ha, hb] using this
      | 1, he =>
        cases he
        refine ⟨vy, b4, fun hn => ?_⟩
        have := b6 ((a5 i 1 (by simp)).trans hn)
        rw [henv] at this
        simpa [Op.current, ha, hb] using this
      | k + 2, he => cases he
  | contact n f s c r =>
    obtain ⟨a, ha, h⟩ := bind_ok h
    obtain ⟨b, hb, h⟩ := bind_ok h
    obtain ⟨o, ho, h⟩ := bind_ok h
    obtain ⟨⟨vr, s1⟩, h1, h⟩ := bind_ok h
    obtain ⟨hits, hh, h⟩ := bind_ok h
    have hh := lift_ok hh
    obtain ⟨a1, a2, a3, a4, a5, a6⟩ := getValue_ok h1
    have ha := getVec_ok ha
    have hb := getVec_ok hb
    have ho := getVec_ok ho
    have hf : f ≠ i := hrefs f (by simp [Op.refs])
    have hs : s ≠ i := hrefs s (by simp [Op.refs])
    have hc : c ≠ i := hrefs c (by simp [Op.refs])
    obtain ⟨w, rfl, hwn, hw⟩ : ∃ w, st' = s1.setVec i w ∧
        (w = none ↔ ∀ p, (⟨a, b - a⟩ : Line ℝ).Contains p → distance p o ≠ |vr|) ∧
        ∀ p, w = some p → (⟨a, b - a⟩ : Line ℝ).Contains p ∧ distance p o = |vr| := by
      have hcp := contact_points o a b vr hits hh
      cases hits with
      | none =>
        have h := pure_ok h
        exact ⟨none, h.symm, ⟨fun _ => hcp, fun _ => rfl⟩, fun p hp => by cases hp⟩
      | one p => cases h
      | two p0 p1 =>
        obtain ⟨b0, _, h⟩ := bind_ok h
        obtain ⟨b1, _, h⟩ := bind_ok h
        have h := pure_ok h
        refine ⟨_, h.symm, ⟨fun hn => by simp at hn, fun hn => absurd (hcp p0 (.inl rfl)).2 (hn p0 (hcp p0 (.inl rfl)).1)⟩, fun p hp => ?_⟩
        refine hcp p ?_
        injection hp with hp
        split at hp
        · exact .inl hp.symm
        · exact .inr hp.symm
    refine ⟨fun j hj => ⟨by simp [St.setVec, hj, a1], by simp [St.setVec, a2], ?_⟩, by simp [St.setVec, a3], ?_, ?_⟩
    · funext k
      exact a5 j k fun hh => hj hh.1
    · exact ⟨a, b, o, vr, by simp [St.setVec, hf, a1, ha], by simp [St.setVec, hs, a1, hb], by simp [St.setVec, hc, a1, ho], a4,
        by simpa [St.setVec] using hwn, fun p hp => hw p (by simpa [St.setVec] using hp)⟩
    · intro k e he
      match k, he with
      | 0, he =>
        cases he
        exact ⟨vr, a4, a6⟩
      | k + 1, he => cases he
  | intersection n f s =>
    obtain ⟨a, ha, h⟩ := bind_ok h
    obtain ⟨b, hb, h⟩ := bind_ok h
    have h := pure_ok h
    subst h
    have ha := getVec_ok ha
    have hb := getVec_ok hb
    have hf : f ≠ i := hrefs f (by simp [Op.refs])
    have hs : s ≠ i := hrefs s (by simp [Op.refs])
    refine ⟨fun j hj => ⟨by simp [St.setVec, hj], rfl, rfl⟩, rfl, ?_, ?_⟩
    · exact ⟨a, b, by simp [St.setVec, hf, ha], by simp [St.setVec, hs, hb], by simp [St.setVec]⟩
    · intro k e he
      simp [Op.exprs] at he
  | line f s =>
    cases h
    exact ⟨fun j _ => ⟨rfl, rfl, rfl⟩, rfl, trivial, fun k e he => by simp [Op.exprs] at he⟩
  | spline f s x1 l1 x2 l2 =>
    obtain ⟨⟨v1, s1⟩, h1, h⟩ := bind_ok h
    obtain ⟨⟨v2, s2⟩, h2, h⟩ := bind_ok h
    obtain ⟨⟨v3, s3⟩, h3, h⟩ := bind_ok h
    obtain ⟨⟨v4, s4⟩, h4, h⟩ := bind_ok h
    obtain ⟨a, ha, h⟩ := bind_ok h
    obtain ⟨b, hb, h⟩ := bind_ok h
    have h := pure_ok h
    subst h
    obtain ⟨a1, a2, a3, a4, a5, a6⟩ := getValue_ok h1
    obtain ⟨b1, b2, b3, b4, b5, b6⟩ := getValue_ok h2
    obtain ⟨c1, c2, c3, c4, c5, c6⟩ := getValue_ok h3
    obtain ⟨d1, d2, d3, d4, d5, d6⟩ := getValue_ok h4
    have ha := getVec_ok ha
    have hb := getVec_ok hb
    have henv1 : s1.env = st.env := by unfold St.env; rw [a1, a3]
    have henv2 : s2.env = st.env := by rw [← henv1]; unfold St.env; rw [b1, b3]
    have henv3 : s3.env = st.env := by rw [← henv2]; unfold St.env; rw [c1, c3]
    have e1 : s4.value i 0 = some v1 :=
      (d5 i 0 (by simp)).trans ((c5 i 0 (by simp)).trans ((b5 i 0 (by simp)).trans a4))
    have e2 : s4.value i 1 = some v2 := (d5 i 1 (by simp)).trans ((c5 i 1 (by simp)).trans b4)
    have e3 : s4.value i 2 = some v3 := (d5 i 2 (by simp)).trans c4
    refine ⟨fun j hj => ⟨by simp [d1, c1, b1, a1], by simp [hj, d2, c2, b2, a2], ?_⟩, by simp [d3, c3, b3, a3], ?_, ?_⟩
    · funext k
      exact (d5 j k (fun hh => hj hh.1)).trans ((c5 j k (fun hh => hj hh.1)).trans
        ((b5 j k (fun hh => hj hh.1)).trans (a5 j k fun hh => hj hh.1)))
    · refine ⟨a, b, v1, v2, v3, v4, ha, hb, e1, e2, e3, d4, ?_⟩
      simp [fromAngle_eq]
    · intro k e he
      match k, he with
      | 0, he =>
        cases he
        exact ⟨v1, e1, a6⟩
      | 1, he =>
        cases he
        exact ⟨v2, e2, fun hn => by
          have := b6 ((a5 i 1 (by simp)).trans hn); rw [henv1] at this; exact this⟩
      | 2, he =>
        cases he
        exact ⟨v3, e3, fun hn => by
          have := c6 ((b5 i 2 (by simp)).trans ((a5 i 2 (by simp)).trans hn)); rw [henv2] at this; exact this⟩
      | 3, he =>
        cases he
        exact ⟨v4, d4, fun hn => by
          have := d6 ((c5 i 3 (by simp)).trans ((b5 i 3 (by simp)).trans ((a5 i 3 (by simp)).trans hn)))
          rw [henv3] at this; exact this⟩
      | k + 4, he => cases he


/-- The names known to the calculator after some operations. -/
def pointsAfter (points : String → Option Nat) (i : Nat) : List Op → String → Option Nat
  | [] => points
  | o :: os => pointsAfter (match o.name with
      | some m => fun n => if n = m then some i else points n
      | none => points) (i + 1) os

theorem evalOp_spec (st st' : St) (i : Nat) (o : Op) (h : evalOp st i o = .ok st') (hrefs : ∀ j ∈ o.refs, j ≠ i) :
    (∀ j, j ≠ i → st'.vec j = st.vec j ∧ st'.ctrl j = st.ctrl j ∧ st'.value j = st.value j) ∧
    st'.points = pointsAfter st.points i [o] ∧ Satisfies st'.vec st'.ctrl st'.value i o ∧
    (∀ k e, o.exprs[k]? = some e → ∃ v, st'.value i k = some v ∧
      (st.value i k = none → e ⟨fun n => (pointsAfter st.points i [o] n).map st.vec, o.current st.vec⟩ = .ok v)) := by
  unfold evalOp at h
  cases hn : o.name with
  | some n =>
    rw [hn] at h
    have := evalInternal_spec _ _ i o h hrefs
    simpa only [pointsAfter, hn, St.addPoint, St.env] using this
  | none =>
    rw [hn] at h
    have := evalInternal_spec _ _ i o h hrefs
    simpa only [pointsAfter, hn, St.env] using this

/-- The whole evaluation, seen from one operation. -/
theorem evalFrom_trace (ops : List Op) (st st' : St) (i : Nat) (h : evalFrom st i ops = .ok st')
    (hrefs : ∀ (k : Nat) (o : Op), ops[k]? = some o → ∀ j ∈ o.refs, j < i + k) :
    (∀ j < i, st'.vec j = st.vec j ∧ st'.ctrl j = st.ctrl j ∧ st'.value j = st.value j) ∧
    ∀ (k : Nat) (o : Op), ops[k]? = some o → ∃ s1 s2, evalOp s1 (i + k) o = .ok s2 ∧
      (∀ j < i + k, s1.vec j = st'.vec j) ∧ (∀ j, i + k ≤ j → s1.vec j = st.vec j ∧ s1.value j = st.value j) ∧
      (∀ j ≤ i + k, s2.vec j = st'.vec j ∧ s2.ctrl j = st'.ctrl j ∧ s2.value j = st'.value j) ∧
      s1.points = pointsAfter st.points i (ops.take k) := by
  induction ops generalizing st i with
  | nil => cases h; exact ⟨fun _ _ => ⟨rfl, rfl, rfl⟩, fun k o ho => by simp at ho⟩
  | cons o os ih =>
    obtain ⟨s, hs, h⟩ := bind_ok h
    have h0 := hrefs 0 o rfl
    obtain ⟨e1, e2, -, -⟩ := evalOp_spec st s i o hs (fun j hj => by have := h0 j hj; omega)
    obtain ⟨f1, f2⟩ := ih s (i + 1) h (fun k o' ho' j hj => by
      have := hrefs (k + 1) o' (by simpa using ho') j hj; omega)
    refine ⟨fun j hj => ?_, fun k o' ho' => ?_⟩
    · obtain ⟨a1, a2, a3⟩ := f1 j (by omega)
      obtain ⟨b1, b2, b3⟩ := e1 j (by omega)
      exact ⟨a1.trans b1, a2.trans b2, a3.trans b3⟩
    · cases k with
      | zero =>
        obtain rfl : o = o' := by simpa using ho'
        refine ⟨st, s, hs, fun j hj => ?_, fun j _ => ⟨rfl, rfl⟩, fun j hj => ?_, rfl⟩
        · rw [(f1 j (by omega)).1, (e1 j (by omega)).1]
        · obtain ⟨a1, a2, a3⟩ := f1 j (by omega)
          exact ⟨a1.symm, a2.symm, a3.symm⟩
      | succ k =>
        obtain ⟨s1, s2, g0, g1, g2, g3, g4⟩ := f2 k o' (by simpa using ho')
        have hik : i + 1 + k = i + (k + 1) := by omega
        rw [hik] at g0 g1 g2 g3
        refine ⟨s1, s2, g0, g1, fun j hj => ?_, g3, ?_⟩
        · obtain ⟨a1, a2⟩ := g2 j hj
          obtain ⟨b1, b2, b3⟩ := e1 j (by omega)
          exact ⟨a1.trans b1, a2.trans b3⟩
        · rw [g4, e2]; rfl

theorem satisfies_congr (vec vec' : Nat → Option (Vec ℝ)) (ctrl ctrl' : Nat → Option (Vec ℝ × Vec ℝ))
    (value value' : Nat → Nat → Option ℝ) (i : Nat) (o : Op) (hv : ∀ j ∈ o.refs, vec j = vec' j) (hi : vec i = vec' i)
    (hc : ctrl i = ctrl' i) (hx : value i = value' i) (h : Satisfies vec ctrl value i o) : Satisfies vec' ctrl' value' i o := by
  cases o <;> simp only [Op.refs, List.mem_cons, List.not_mem_nil, or_false, forall_eq_or_imp, forall_eq] at hv <;>
    simp only [Satisfies] at h ⊢ <;> simp only [← hv, ← hi, ← hc, ← hx] <;> exact h

/-- C29. After a successful `eval`, every operation of the sketch satisfies its geometric definition on the final points: an
evaluation does not disturb the points evaluated before it. This includes evaluations of a sketch already evaluated. A point
of intersection of lines is missing exactly when the cross product is at most `5·10⁻⁸` in absolute value, a point of contact exactly when
the line does not meet the circle. -/
theorem sketch_satisfies (st st' : St) (ops : List Op) (hw : WellFormed ops) (h : evalSketch st ops = .ok st') :
    ∀ (i : Nat) (o : Op), ops[i]? = some o → Satisfies st'.vec st'.ctrl st'.value i o := by
  intro i o ho
  obtain ⟨-, ht⟩ := evalFrom_trace ops st st' 0 h (fun k o ho j hj => by have := hw k o ho j hj; omega)
  obtain ⟨s1, s2, g0, g1, g2, g3, g4⟩ := ht i o ho
  simp only [Nat.zero_add] at g0 g1 g2 g3
  have hr := hw i o ho
  obtain ⟨-, -, hs, -⟩ := evalOp_spec s1 s2 i o g0 (fun j hj => by have := hr j hj; omega)
  exact satisfies_congr _ _ _ _ _ _ i o (fun j hj => (g3 j (le_of_lt (hr j hj))).1) (g3 i le_rfl).1 (g3 i le_rfl).2.1
    (g3 i le_rfl).2.2 hs

theorem pointsAfter_append (points : String → Option Nat) (i : Nat) (os os' : List Op) :
    pointsAfter points i (os ++ os') = pointsAfter (pointsAfter points i os) (i + os.length) os' := by
  induction os generalizing points i with
  | nil => rfl
  | cons o os ih =>
    simp only [List.cons_append, pointsAfter, ih, List.length_cons]
    congr 1; omega

theorem pointsAfter_take (ops : List Op) (k : Nat) (hk : k ≤ ops.length) (n : String) :
    pointsAfter (fun _ => none) 0 (ops.take k) n =
      (List.range k).reverse.find? fun j => ops[j]?.bind Op.name = some n := by
  induction k with
  | zero => rfl
  | succ k ih =>
    have hlt : k < ops.length := hk
    rw [List.take_succ, pointsAfter_append, List.getElem?_eq_getElem hlt, List.range_succ, List.reverse_append]
    have hl : (ops.take k).length = k := by simp; omega
    rw [hl]
    simp only [Option.toList_some, pointsAfter, List.reverse_singleton, List.singleton_append, List.find?_cons,
      List.getElem?_eq_getElem hlt, Option.bind_some, Nat.zero_add]
    cases hm : ops[k].name with
    | none => simpa using ih (by omega)
    | some m =>
      by_cases hnm : n = m
      · simp [hnm]
      · have : ¬ m = n := fun e => hnm e.symm
        simpa [hnm, this] using ih (by omega)

/-- C29. In a new sketch, the value used for each expression is the expression evaluated with the final vectors of the points created before,
under the last point of each name, and with the segment of the operation as current segment. -/
theorem sketch_values (st' : St) (ops : List Op) (hw : WellFormed ops) (h : evalSketch St.empty ops = .ok st') :
    ∀ (i : Nat) (o : Op), ops[i]? = some o → ∀ (k : Nat) (e : Expr), o.exprs[k]? = some e →
      ∃ v, st'.value i k = some v ∧ e ⟨visible ops st'.vec i, o.current st'.vec⟩ = .ok v := by
  intro i o ho k e he
  obtain ⟨-, ht⟩ := evalFrom_trace ops St.empty st' 0 h (fun k o ho j hj => by have := hw k o ho j hj; omega)
  obtain ⟨s1, s2, g0, g1, g2, g3, g4⟩ := ht i o ho
  simp only [Nat.zero_add] at g0 g1 g2 g3
  have hr := hw i o ho
  obtain ⟨-, -, -, hs⟩ := evalOp_spec s1 s2 i o g0 (fun j hj => by have := hr j hj; omega)
  obtain ⟨v, hv, hf⟩ := hs k e he
  refine ⟨v, by rw [← (g3 i le_rfl).2.2]; exact hv, ?_⟩
  have hfresh : s1.value i k = none := by rw [(g2 i le_rfl).2]; rfl
  have hf := hf hfresh
  have hcur : o.current s1.vec = o.current st'.vec := by
    cases o <;> simp only [Op.current]
    · rw [g1 _ (hr _ (by simp [Op.refs])), g1 _ (hr _ (by simp [Op.refs]))]
    · rw [g1 _ (hr _ (by simp [Op.refs])), g1 _ (hr _ (by simp [Op.refs]))]
  have hlen : i < ops.length := (List.getElem?_eq_some_iff.1 ho).1
  have hpts : (fun n => (pointsAfter s1.points i [o] n).map s1.vec) = visible ops st'.vec i := by
    funext n
    have h1 : pointsAfter s1.points i [o] = pointsAfter (fun _ => none) 0 (ops.take (i + 1)) := by
      rw [List.take_succ, ho, pointsAfter_append, g4]
      have : (ops.take i).length = i := by simp; omega
      simp [this, St.empty]
    rw [h1, pointsAfter_take ops (i + 1) hlen]
    unfold visible
    cases hfd : (List.range (i + 1)).reverse.find? fun j => ops[j]?.bind Op.name = some n with
    | none => rfl
    | some j =>
      simp only [Option.map_some]
      congr 1
      have hj : j < i + 1 := by simpa using List.mem_of_find?_eq_some hfd
      split
      · exact g1 j ‹_›
      · have : j = i := by omega
        subst this
        rw [(g2 j le_rfl).1]; rfl
  rw [hcur, hpts] at hf
  exact hf

/-- An expression without variables. -/
def const (x : ℝ) : Expr := fun _ => .ok x

/-- C96, the line: after a successful `eval` a point of contact is on the line of its two points and on the circle, and it is missing
exactly when the line does not meet the circle. Missing: the point on the segment is not preferred (`contact_outside_wrong`), and
a tangent line raises (`contact_tangent_wrong`). -/
theorem contact_partial (st st' : St) (ops : List Op) (hw : WellFormed ops) (h : evalSketch st ops = .ok st') (i : Nat)
    (n : String) (f s c : Nat) (e : Expr) (ho : ops[i]? = some (.contact n f s c e)) :
    ∃ a b o r, st'.vec f = some a ∧ st'.vec s = some b ∧ st'.vec c = some o ∧ st'.value i 0 = some r ∧
      (st'.vec i = none ↔ ∀ p, (⟨a, b - a⟩ : Line ℝ).Contains p → distance p o ≠ |r|) ∧
      ∀ p, st'.vec i = some p → (⟨a, b - a⟩ : Line ℝ).Contains p ∧ distance p o = |r| :=
  sketch_satisfies st st' ops hw h i _ ho

/-- A segment from `(l, 0)` to `(0, 0)`, and the point of contact with the circle of radius `r` around the origin. -/
noncomputable def contactSketch (l r : ℝ) : List Op :=
  [.single "A" (const l) (const 0), .single "B" (const 0) (const 0), .contact "C" 0 1 1 (const r)]

example (l r : ℝ) : WellFormed (contactSketch l r) := by
  intro i o ho j hj
  match i, ho with
  | 0, ho => cases ho; simp [Op.refs] at hj
  | 1, ho => cases ho; simp [Op.refs] at hj
  | 2, ho => cases ho; simp [Op.refs] at hj; omega
  | i + 3, ho => simp [contactSketch] at ho

/-- C96 fails: the point kept may be outside of the segment even though the other solution is inside: for every segment from
`(l, 0)` to `(0, 0)` and circle of radius `r` around the origin, with `0 < r < l - 1`, it is `(-r, 0)`, although `(r, 0)` is on the segment. -/
theorem contact_outside_wrong (l r : ℝ) (hr : 0 < r) (hl : r < l - 1) :
    ∃ st, evalSketch St.empty (contactSketch l r) = .ok st ∧ st.vec 0 = some ⟨l, 0⟩ ∧ st.vec 1 = some ⟨0, 0⟩ ∧
    st.vec 2 = some ⟨-r, 0⟩ ∧ ¬ (⟨⟨l, 0⟩, ⟨0, 0⟩⟩ : Segment ℝ).Contains ⟨-r, 0⟩ ∧
    (⟨⟨l, 0⟩, ⟨0, 0⟩⟩ : Segment ℝ).Contains ⟨r, 0⟩ ∧ distance ⟨r, 0⟩ (⟨0, 0⟩ : Vec ℝ) = r := by
  have hl0 : 0 < l := by linarith
  have hne : (⟨l, 0⟩ : Vec ℝ) ≠ ⟨0, 0⟩ := fun e => by have := congrArg Vec.x e; simp only at this; linarith
  have hsq : Real.sqrt (r ^ 2 * l ^ 2) = r * l := by
    rw [← mul_pow]; exact Real.sqrt_sq (by positivity)
  have hit : Circle.intersectSegment ⟨⟨0, 0⟩, r, none⟩ ⟨⟨l, 0⟩, ⟨0, 0⟩⟩ = .ok (.two ⟨r, 0⟩ ⟨-r, 0⟩) := by
    rw [(intersectSegment_eq ⟨⟨0, 0⟩, r, none⟩ ⟨⟨l, 0⟩, ⟨0, 0⟩⟩ hne).2]
    have h1 : ¬ r ^ 2 * l ^ 2 < 0 := not_lt.2 (by positivity)
    have h2 : ¬ r ^ 2 * l ^ 2 = 0 := (by positivity : r ^ 2 * l ^ 2 ≠ 0)
    simp only [Segment.vector, Vec.cross, Vec.sub_x, Vec.sub_y, sub_zero, zero_sub, neg_sq, mul_zero, ne_eq, OfNat.ofNat_ne_zero,
      not_false_eq_true, zero_pow, add_zero, h1, h2, if_false, hsq, MathFunctions.sign]
    refine congrArg Except.ok (congrArg₂ Hits.two (Vec.ext ?_ ?_) (Vec.ext ?_ ?_)) <;> simp <;> field_simp
  have c0 : (⟨⟨l, 0⟩, ⟨0, 0⟩⟩ : Segment ℝ).containPoint ⟨r, 0⟩ = .ok false := by
    obtain ⟨b, hb, hi⟩ := (containPoint_iff ⟨⟨l, 0⟩, ⟨0, 0⟩⟩ ⟨r, 0⟩).1 hne
    rw [hb]
    have : ¬ b = true := by
      rw [hi]
      have : distance (⟨l, 0⟩ : Vec ℝ) ⟨0, 0⟩ = l := by
        unfold distance
        simp only [sub_zero, ne_eq, OfNat.ofNat_ne_zero, not_false_eq_true, zero_pow, add_zero]
        exact Real.sqrt_sq hl0.le
      rw [this]
      simp only [Vec.dot, Vec.sub_x, Vec.sub_y]
      rintro ⟨-, h⟩
      nlinarith
    simpa using this
  obtain ⟨b1, c1, -⟩ := (containPoint_iff ⟨⟨l, 0⟩, ⟨0, 0⟩⟩ ⟨-r, 0⟩).1 hne
  have hev : ∃ st, evalSketch St.empty (contactSketch l r) = .ok st ∧ st.vec 0 = some ⟨l, 0⟩ ∧ st.vec 1 = some ⟨0, 0⟩ ∧
      st.vec 2 = some ⟨-r, 0⟩ := by
    simp [contactSketch, evalSketch, evalFrom, evalOp, Op.name, evalInternal, St.getValue, St.addPoint, St.setVec, St.getVec,
      const, St.empty, bind, Except.bind, pure, Except.pure, hit, lift, c0, c1]
  obtain ⟨st, h, h0, h1, h2⟩ := hev
  refine ⟨st, h, h0, h1, h2, ?_, ⟨1 - r / l, ?_, ?_, Vec.ext ?_ ?_⟩, ?_⟩
  · rintro ⟨t, t0, t1, e⟩
    have := congrArg Vec.x e
    simp only at this
    nlinarith
  · rw [sub_nonneg, div_le_one hl0]; linarith
  · linarith [div_pos hr hl0]
  · simp only; field_simp; ring
  · simp
  · unfold distance
    simp [Real.sqrt_sq hr.le]

/-- C96 fails: a line tangent to the circle makes the evaluation raise, for every line and centre: the distance of the centre to the line is the
radius. -/
theorem contact_tangent_wrong (a b o : Vec ℝ) (r : ℝ) (hne : a ≠ b)
    (ht : r ^ 2 * ((b.x - a.x) ^ 2 + (b.y - a.y) ^ 2) = ((a - o).cross (b - o)) ^ 2) : evalSketch St.empty
    [.single "A" (const a.x) (const a.y), .single "B" (const b.x) (const b.y), .single "O" (const o.x) (const o.y),
      .contact "C" 0 1 2 (const r)] = .error (.py .attributeError) := by
  obtain ⟨p, hit⟩ : ∃ p, Circle.intersectSegment ⟨o, r, none⟩ ⟨a, b⟩ = .ok (.one p) := by
    rw [(intersectSegment_eq ⟨o, r, none⟩ ⟨a, b⟩ hne).2]
    have h0 : r ^ 2 * ((Segment.vector ⟨a, b⟩).x ^ 2 + (Segment.vector ⟨a, b⟩).y ^ 2) - ((a - o).cross (b - o)) ^ 2 = 0 := by
      rw [← ht]; simp only [Segment.vector, Vec.sub_x, Vec.sub_y]; ring
    simp only [h0, lt_irrefl, if_false, if_true]
    exact ⟨_, rfl⟩
  simp [evalSketch, evalFrom, evalOp, Op.name, evalInternal, St.getValue, St.addPoint, St.setVec, St.getVec,
    const, St.empty, bind, Except.bind, pure, Except.pure, hit, lift]

/-- The line `y = 5` is tangent to the circle of radius 5 around the origin. -/
example : (5 : ℝ) ^ 2 * (((⟨0, 5⟩ : Vec ℝ).x - (⟨10, 5⟩ : Vec ℝ).x) ^ 2 + ((⟨0, 5⟩ : Vec ℝ).y - (⟨10, 5⟩ : Vec ℝ).y) ^ 2) =
    (((⟨10, 5⟩ : Vec ℝ) - ⟨0, 0⟩).cross (⟨0, 5⟩ - ⟨0, 0⟩)) ^ 2 := by
  simp only [Vec.cross, Vec.sub_x, Vec.sub_y]; norm_num

/-- C29, splines: the curve has the end points and the control points of the definition once the sketch is evaluated; before, asking
for it raises `NameError`. -/
theorem spline_geometry (st st' : St) (ops : List Op) (hw : WellFormed ops) (h : evalSketch st ops = .ok st') (i f s : Nat)
    (a1 l1 a2 l2 : Expr) (ho : ops[i]? = some (.spline f s a1 l1 a2 l2)) :
    (∃ a b v1 w1 v2 w2, st'.vec f = some a ∧ st'.vec s = some b ∧ st'.value i 0 = some v1 ∧ st'.value i 1 = some w1 ∧
      st'.value i 2 = some v2 ∧ st'.value i 3 = some w2 ∧
      splineGeometry st' i f s = .ok (some a, a + (direction v1).smul w1, b + (direction v2).smul w2, some b)) ∧
    splineGeometry St.empty i f s = .error .nameError := by
  obtain ⟨a, b, v1, w1, v2, w2, e1, e2, e3, e4, e5, e6, e7⟩ := sketch_satisfies st st' ops hw h i _ ho
  exact ⟨⟨a, b, v1, w1, v2, w2, e1, e2, e3, e4, e5, e6, by simp [splineGeometry, e7, e1, e2]⟩, rfl⟩

/-- Half of the current length. -/
noncomputable def half : Expr := fun env => match env.current with
  | some v => .ok (v.magnitude / 2)
  | none => .error (.py .typeError)

/-- Two points, the middle of their segment, a point above, and a spline. -/
noncomputable def exampleSketch : List Op :=
  [.single "A" (const 0) (const 0), .single "B" (const 10) (const 0), .along "M" 0 1 half, .endLine "E" 0 (const 0) (const 5),
    .intersection "I" 2 0, .line 0 1, .spline 0 1 (const 0) (const 3) (const 0) (const 4)]

example : WellFormed exampleSketch ∧ ∃ st, evalSketch St.empty exampleSketch = .ok st ∧ st.vec 2 = some ⟨5, 0⟩ ∧
    st.vec 3 = some ⟨5, 0⟩ ∧ st.vec 4 = some ⟨5, 0⟩ := by
  refine ⟨?_, ?_⟩
  · intro i o ho j hj
    match i, ho with
    | 0, ho => cases ho; simp [Op.refs] at hj
    | 1, ho => cases ho; simp [Op.refs] at hj
    | 2, ho => cases ho; simp [Op.refs] at hj; omega
    | 3, ho => cases ho; simp [Op.refs] at hj; omega
    | 4, ho => cases ho; simp [Op.refs] at hj; omega
    | 5, ho => cases ho; simp [Op.refs] at hj; omega
    | 6, ho => cases ho; simp [Op.refs] at hj; omega
    | i + 7, ho => simp [exampleSketch] at ho
  · have hm : ((⟨10, 0⟩ : Vec ℝ) - ⟨0, 0⟩).magnitude = 10 := by
      rw [distance_eq]; unfold distance; simp
    have hn : normalised ((⟨10, 0⟩ : Vec ℝ) - ⟨0, 0⟩) = .ok ⟨1, 0⟩ := by
      unfold normalised Vec.toNormalised
      rw [hm]
      simp [Vec.sdiv]
    have hf : Vec.fromAngle 0 = ⟨1, 0⟩ := by rw [fromAngle_eq]; simp [direction]
    simp [exampleSketch, evalSketch, evalFrom, evalOp, Op.name, evalInternal, St.getValue, St.addPoint, St.setVec, St.getVec,
      const, St.empty, bind, Except.bind, pure, Except.pure, hn, half, hm, hf, St.env, Vec.smul]
    refine ⟨Vec.ext ?_ ?_, Vec.ext ?_ ?_, ?_⟩ <;> norm_num

end Patro.SketchGeometry
