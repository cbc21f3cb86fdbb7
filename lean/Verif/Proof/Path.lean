import Verif.Spec.Path
import Mathlib.Tactic.Ring
/-! # Proofs about paths -/

namespace Patro.Path

variable {K : Type _} [Field K] [LinearOrder K]

omit [LinearOrder K] in
theorem vec_comm (a b : Vec K) : a + b = b + a := by
  ext <;> simp [add_comm]

/-! ## The trace -/

omit [LinearOrder K] in
theorem final_append (start : Vec K) (l r : List (Part K)) :
    final start (l ++ r) = (final start l).bind fun s => final s r := by
  induction l generalizing start with
  | nil => rfl
  | cons part l ih =>
    simp only [List.cons_append, final]
    cases draw start part with
    | none => rfl
    | some pts => exact ih _

omit [LinearOrder K] in
theorem trace_append (start : Vec K) (l r : List (Part K)) :
    trace start (l ++ r) = (trace start l).bind fun a => (final start l).bind fun s => (trace s r).map (a ++ ·) := by
  induction l generalizing start with
  | nil => simp [trace, final]
  | cons part l ih =>
    simp only [List.cons_append, trace, final]
    cases draw start part with
    | none => rfl
    | some pts =>
      simp only [Option.bind_eq_bind, Option.bind_some, ih]
      cases trace (pts.getLastD start) l with
      | none => rfl
      | some a =>
        cases final (pts.getLastD start) l with
        | none => rfl
        | some s =>
          simp only [Option.bind_some, pure]
          cases trace s r <;> simp

omit [LinearOrder K] in
theorem final_isSome (start : Vec K) (l : List (Part K)) : (final start l).isSome = (trace start l).isSome := by
  induction l generalizing start with
  | nil => rfl
  | cons part l ih =>
    simp only [trace, final]
    cases draw start part with
    | none => rfl
    | some pts =>
      simp only [Option.bind_eq_bind, Option.bind_some, ih]
      cases trace (pts.getLastD start) l <;> rfl

omit [LinearOrder K] in
theorem trace_length (start : Vec K) (l : List (Part K)) (tr) (h : trace start l = some tr) : tr.length = l.length := by
  induction l generalizing start tr with
  | nil => simp only [trace, Option.some.injEq] at h; subst h; rfl
  | cons part l ih =>
    simp only [trace, Option.bind_eq_bind, Option.bind_eq_some_iff] at h
    obtain ⟨pts, _, rest, hr, e⟩ := h
    simp only [pure, Option.some.injEq] at e
    subst e
    simp [ih _ _ hr]

/-- The start of the part after `l`, and what it draws. -/
theorem trace_at (start : Vec K) (l r : List (Part K)) (part : Part K) (tr) (h : trace start (l ++ part :: r) = some tr) :
    ∃ s pts, final start l = some s ∧ draw s part = some pts ∧ tr[l.length]? = some (s :: pts) ∧
      final start (l ++ [part]) = some (pts.getLastD s) := by
  rw [trace_append] at h
  simp only [Option.bind_eq_some_iff, Option.map_eq_some_iff, trace, Option.bind_eq_bind] at h
  obtain ⟨a, ha, s, hs, rest, ⟨pts, hd, rest', hr, e⟩, e'⟩ := h
  simp only [pure, Option.some.injEq] at e
  subst e e'
  have := trace_length _ _ _ ha
  refine ⟨s, pts, hs, hd, ?_, ?_⟩
  · simp [← this]
  · rw [final_append, hs]; simp [final, hd]

omit [LinearOrder K] in
/-- Replacing a part by one which draws the same. -/
theorem trace_replace (start : Vec K) (l r : List (Part K)) (part part' : Part K)
    (h : ∀ s, final start l = some s → draw s part = draw s part') :
    trace start (l ++ part :: r) = trace start (l ++ part' :: r) := by
  rw [trace_append, trace_append]
  congr 1
  funext a
  cases e : final start l with
  | none => rfl
  | some s => simp only [Option.bind_some, trace, h s e]

/-! ## What the histories keep -/

/-- What holds of the paths built by the methods. -/
structure Inv (path : Path K) : Prop where
  bulge : ∀ (i : Nat) (part : Part K), path.parts[i]? = some part → part.startBulge = true → i = 0 ∧ path.closed = true
  closed : path.closed = true → ∃ r c b, path.parts.getLast? = some (.line path.p0 true r c b)
  first : ∀ (part : Part K), path.parts[0]? = some part → part.radius ≠ none → part.startBulge = true
  linear : ∀ (i : Nat) (part : Part K), path.parts[i + 1]? = some part → part.radius ≠ none →
    (path.parts[i]?).map Part.isLinear = some true
  bulgeRadius : ∀ (part : Part K), part ∈ path.parts → part.startBulge = true → part.radius ≠ none
  nonneg : ∀ (part : Part K), part ∈ path.parts → ∀ r, part.radius = some r → 0 ≤ r

omit [LinearOrder K] in
theorem startBulge_linear (part : Part K) (h : part.startBulge = true) : part.isLinear = true := by
  cases part <;> simp_all [Part.startBulge, Part.isLinear]

omit [LinearOrder K] in
theorem radius_linear (part : Part K) (h : part.radius ≠ none) : part.isLinear = true := by
  cases part <;> simp_all [Part.radius, Part.isLinear]

/-- `stop_point` of a part of a well-formed path. -/
theorem stopPointFuel_eq (path : Path K) (inv : Inv path) (i fuel : Nat) (hf : i + 2 ≤ fuel) (hi : i < path.parts.length) (e : Vec K)
    (h : final path.p0 (path.parts.take (i + 1)) = some e) : path.stopPointFuel fuel i = .ok e := by
  induction i generalizing fuel e with
  | zero =>
    obtain ⟨fuel, rfl⟩ : ∃ f, fuel = f + 2 := ⟨fuel - 2, by omega⟩
    obtain ⟨part, hp⟩ : ∃ part, path.parts[0]? = some part := ⟨_, List.getElem?_eq_getElem hi⟩
    have ht : path.parts.take (0 + 1) = [part] := by
      rw [List.take_add_one, hp]; rfl
    rw [ht] at h
    simp only [final, Option.bind_eq_bind, Option.bind_eq_some_iff, Option.some.injEq] at h
    obtain ⟨pts, hd, rfl⟩ := h
    have hs : path.prevIndex 0 = none ∨ ∃ j, path.prevIndex 0 = some j ∧ path.stopPointFuel (fuel + 1) j = .ok path.p0 := by
      unfold Path.prevIndex
      rw [hp]
      by_cases hb : part.startBulge = true
      · right
        simp only [if_pos hb]
        obtain ⟨_, hc⟩ := inv.bulge 0 part hp hb
        obtain ⟨r, c, b, hl⟩ := inv.closed hc
        rw [List.getLast?_eq_getElem?] at hl
        exact ⟨_, rfl, by simp only [Path.stopPointFuel, hl, Part.stopFrom, if_true]⟩
      · simp [if_neg hb]
    have hs' : path.stopPointFuel (fuel + 2) 0 = part.stopFrom (.ok path.p0) := by
      rw [Path.stopPointFuel, hp]
      dsimp only
      rcases hs with e | ⟨j, e, e'⟩
      · rw [e]
      · rw [e]
        dsimp only
        rw [e']
    rw [hs']
    cases part <;> simp only [draw, Option.some.injEq, reduceCtorEq] at hd <;> subst hd <;>
      simp only [Part.stopFrom, Except.map, List.getLastD] <;> (try split) <;> simp_all [vec_comm]
  | succ i ih =>
    obtain ⟨fuel, rfl⟩ : ∃ f, fuel = f + 1 := ⟨fuel - 1, by omega⟩
    obtain ⟨part, hp⟩ : ∃ part, path.parts[i + 1]? = some part := ⟨_, List.getElem?_eq_getElem hi⟩
    rw [List.take_add_one, hp, final_append] at h
    simp only [Option.bind_eq_some_iff, Option.toList_some, final, Option.bind_eq_bind, Option.some.injEq] at h
    obtain ⟨s, hs, pts, hd, rfl⟩ := h
    have hs' := ih fuel (by omega) (by omega) s hs
    have hb : part.startBulge = false := by
      by_contra hb
      have := inv.bulge _ part hp (by simpa using hb)
      omega
    unfold Path.stopPointFuel
    rw [hp]
    dsimp only
    have hpi : path.prevIndex (i + 1) = some i := by
      unfold Path.prevIndex
      simp [hp, hb]
    rw [hpi]
    dsimp only
    rw [hs']
    cases part <;> simp only [draw, Option.some.injEq, reduceCtorEq] at hd <;> subst hd <;>
      simp only [Part.stopFrom, Except.map, List.getLastD] <;> (try split) <;> simp_all [vec_comm]

theorem startPoint_eq (path : Path K) (inv : Inv path) (i : Nat) (hi : i < path.parts.length) (s : Vec K)
    (h : final path.p0 (path.parts.take i) = some s) : path.startPoint i = .ok s := by
  obtain ⟨part, hp⟩ : ∃ part, path.parts[i]? = some part := ⟨_, List.getElem?_eq_getElem hi⟩
  unfold Path.startPoint
  cases i with
  | zero =>
    simp only [List.take_zero, final, Option.some.injEq] at h
    subst h
    unfold Path.prevIndex
    rw [hp]
    by_cases hb : part.startBulge = true
    · simp only [if_pos hb]
      obtain ⟨_, hc⟩ := inv.bulge 0 part hp hb
      obtain ⟨r, c, b, hl⟩ := inv.closed hc
      rw [List.getLast?_eq_getElem?] at hl
      simp only [Path.stopPoint, Path.stopPointFuel, hl, Part.stopFrom, if_true]
    · simp [if_neg hb]
  | succ i =>
    have hb : part.startBulge = false := by
      by_contra hb
      have := inv.bulge _ part hp (by simpa using hb)
      omega
    have hpi : path.prevIndex (i + 1) = some i := by
      unfold Path.prevIndex
      simp [hp, hb]
    rw [hpi]
    exact stopPointFuel_eq path inv i _ (by omega) (by omega) s h

theorem stopPoint_eq (path : Path K) (inv : Inv path) (i : Nat) (hi : i < path.parts.length) (e : Vec K)
    (h : final path.p0 (path.parts.take (i + 1)) = some e) : path.stopPoint i = .ok e :=
  stopPointFuel_eq path inv i _ (by omega) hi e h

/-- The pieces of the trace of a prefix. -/
theorem prefix_at (path : Path K) (i : Nat) (hi : i < path.parts.length) (tr)
    (h : trace path.p0 (path.parts.take (i + 1)) = some tr) :
    ∃ part s pts, path.parts[i]? = some part ∧ final path.p0 (path.parts.take i) = some s ∧ draw s part = some pts ∧
      tr[i]? = some (s :: pts) ∧ final path.p0 (path.parts.take (i + 1)) = some (pts.getLastD s) := by
  obtain ⟨part, hp⟩ : ∃ part, path.parts[i]? = some part := ⟨_, List.getElem?_eq_getElem hi⟩
  rw [List.take_add_one, hp, Option.toList_some] at h ⊢
  obtain ⟨s, pts, h1, h2, h3, h4⟩ := trace_at _ _ _ _ _ h
  rw [List.length_take, Nat.min_eq_left (by omega)] at h3
  exact ⟨part, s, pts, rfl, h1, h2, h3, h4⟩

theorem points_eq (path : Path K) (inv : Inv path) (i : Nat) (hi : i < path.parts.length) (tr)
    (h : trace path.p0 (path.parts.take (i + 1)) = some tr) : ∃ pts, tr[i]? = some pts ∧ path.points i = .ok pts := by
  obtain ⟨part, s, pts, hp, hs, hd, ht, he⟩ := prefix_at path i hi tr h
  refine ⟨_, ht, ?_⟩
  have h1 := startPoint_eq path inv i hi s hs
  have h2 := stopPoint_eq path inv i hi _ he
  unfold Path.points
  rw [hp]
  dsimp only
  cases part with
  | quad p1 p2 a =>
    simp only [draw, Option.some.injEq] at hd
    subst hd
    simp only [h1, bind, Except.bind, pure, Except.pure, Path.toAbsolutePoint]
    cases a <;> simp [Except.map, vec_comm]
  | cubic p1 p2 p3 a =>
    simp only [draw, Option.some.injEq] at hd
    subst hd
    simp only [h1, bind, Except.bind, pure, Except.pure, Path.toAbsolutePoint]
    cases a <;> simp [Except.map, vec_comm]
  | stringedCubic a => simp [draw] at hd
  | _ =>
    simp only [draw, Option.some.injEq] at hd
    subst hd
    simp only [h1, h2, bind, Except.bind, pure, Except.pure]
    simp [List.getLastD]


/-! ## The histories keep the invariant -/

theorem setRadius_nonneg [IsStrictOrderedRing K] (radius : Option K) (r : K) (h : setRadius radius = some r) : 0 ≤ r := by
  unfold setRadius at h
  cases radius with
  | none => simp at h
  | some x =>
    simp only [Option.map_some, Option.some.injEq] at h
    rw [← h]; exact abs_nonneg x

theorem Inv.new (start : Vec K) : Inv (Path.new start) := by
  constructor <;> simp [Path.new]

theorem Inv.move (path : Path K) (point : Vec K) (inv : Inv path) (h : path.closed = false) : Inv (path.moveTo point) := by
  refine ⟨inv.bulge, ?_, inv.first, inv.linear, inv.bulgeRadius, inv.nonneg⟩
  intro hc
  simp [Path.moveTo, h] at hc

theorem Inv.add (path : Path K) (part : Part K) (inv : Inv path) (hb : part.startBulge = false)
    (hn : ∀ r, part.radius = some r → 0 ≤ r) : Inv (path.addPart part).2 := by
  unfold Path.addPart
  split
  · exact inv
  · rename_i hc
    split
    · exact inv
    · rename_i hr
      have hr' : part.radius ≠ none → path.parts.getLast?.map Part.isLinear = some true := by
        intro h
        by_contra h'
        exact hr ⟨Option.isSome_iff_ne_none.2 h, h'⟩
      refine ⟨?_, ?_, ?_, ?_, ?_, ?_⟩
      · intro i q hq hqb
        dsimp only at hq ⊢
        rcases Nat.lt_trichotomy i path.parts.length with h | h | h
        · rw [List.getElem?_append_left h] at hq
          exact inv.bulge i q hq hqb
        · subst h
          simp at hq
          subst hq
          rw [hb] at hqb
          cases hqb
        · rw [List.getElem?_append_right (by omega), List.getElem?_eq_none (by simp; omega)] at hq
          cases hq
      · intro h; exact absurd h hc
      · intro q hq hqr
        dsimp only at hq
        cases e : path.parts with
        | nil =>
          rw [e] at hq
          simp at hq
          subst hq
          have := hr' hqr
          simp [e] at this
        | cons a l =>
          have : path.parts[0]? = some q := by rw [e] at hq ⊢; simpa using hq
          exact inv.first q this hqr
      · intro i q hq hqr
        dsimp only at hq ⊢
        rcases Nat.lt_trichotomy (i + 1) path.parts.length with h | h | h
        · rw [List.getElem?_append_left h] at hq
          rw [List.getElem?_append_left (by omega)]
          exact inv.linear i q hq hqr
        · rw [h] at hq
          simp at hq
          subst hq
          have := hr' hqr
          rw [List.getLast?_eq_getElem?] at this
          rw [List.getElem?_append_left (by omega)]
          have e : i = path.parts.length - 1 := by omega
          rw [e]; exact this
        · rw [List.getElem?_append_right (by omega), List.getElem?_eq_none (by simp; omega)] at hq
          cases hq
      · intro q hq hqb
        rcases List.mem_append.1 hq with h | h
        · exact inv.bulgeRadius q h hqb
        · simp at h; subst h; rw [hb] at hqb; cases hqb
      · intro q hq
        rcases List.mem_append.1 hq with h | h
        · exact inv.nonneg q h
        · simp at h; subst h; exact hn

omit [LinearOrder K] in
/-- Replacing a part by a similar one. -/
theorem Inv.replace [LinearOrder K] (path : Path K) (l r : List (Part K)) (part part' : Part K) (e : path.parts = l ++ part :: r) (inv : Inv path)
    (hl : part'.isLinear = part.isLinear) (hr : part'.radius = part.radius) (hb : part'.startBulge = part.startBulge)
    (hp : ∀ rd c b, part = .line path.p0 true rd c b → ∃ rd c b, part' = .line path.p0 true rd c b) :
    Inv { path with parts := l ++ part' :: r } := by
  have key : ∀ (i : Nat) (q : Part K), (l ++ part' :: r)[i]? = some q → ∃ q', path.parts[i]? = some q' ∧ q.isLinear = q'.isLinear ∧
      q.radius = q'.radius ∧ q.startBulge = q'.startBulge := by
    intro i q hq
    rw [e]
    rcases Nat.lt_trichotomy i l.length with h | h | h
    · rw [List.getElem?_append_left h] at hq ⊢
      exact ⟨q, hq, rfl, rfl, rfl⟩
    · subst h
      simp at hq
      subst hq
      exact ⟨part, by simp, hl, hr, hb⟩
    · rw [List.getElem?_append_right (by omega)] at hq ⊢
      obtain ⟨k, hk⟩ : ∃ k, i - l.length = k + 1 := ⟨i - l.length - 1, by omega⟩
      rw [hk] at hq ⊢
      exact ⟨q, hq, rfl, rfl, rfl⟩
  have lin : ∀ i : Nat, ((l ++ part' :: r)[i]?).map Part.isLinear = (path.parts[i]?).map Part.isLinear := by
    intro i
    cases h : (l ++ part' :: r)[i]? with
    | none =>
      have : path.parts[i]? = none := by
        rw [List.getElem?_eq_none_iff] at h ⊢
        simp [e] at h ⊢
        omega
      rw [this]
    | some q =>
      obtain ⟨q', h', e1, _⟩ := key i q h
      rw [h']
      simp [e1]
  refine ⟨?_, ?_, ?_, ?_, ?_, ?_⟩
  · intro i q hq hqb
    obtain ⟨q', h', _, _, e3⟩ := key i q hq
    exact inv.bulge i q' h' (by rw [← e3]; exact hqb)
  · intro hc
    obtain ⟨rd, c, b, h⟩ := inv.closed hc
    dsimp only
    rw [e] at h
    cases r with
    | nil =>
      simp at h
      obtain ⟨rd, c, b, h⟩ := hp _ _ _ h
      exact ⟨rd, c, b, by simp [h]⟩
    | cons a r => exact ⟨rd, c, b, by simpa using h⟩
  · intro q hq hqr
    obtain ⟨q', h', _, e2, e3⟩ := key 0 q hq
    rw [e3]
    exact inv.first q' h' (by rw [← e2]; exact hqr)
  · intro i q hq hqr
    obtain ⟨q', h', _, e2, e3⟩ := key _ q hq
    rw [lin]
    exact inv.linear i q' h' (by rw [← e2]; exact hqr)
  · intro q hq hqb
    obtain ⟨i, hi⟩ := List.mem_iff_getElem?.1 hq
    obtain ⟨q', h', _, e2, e3⟩ := key i q hi
    rw [e2]
    exact inv.bulgeRadius q' (List.mem_iff_getElem?.2 ⟨i, h'⟩) (by rw [← e3]; exact hqb)
  · intro q hq
    obtain ⟨i, hi⟩ := List.mem_iff_getElem?.1 hq
    obtain ⟨q', h', _, e2, e3⟩ := key i q hi
    rw [e2]
    exact inv.nonneg q' (List.mem_iff_getElem?.2 ⟨i, h'⟩)

theorem close_part [IsStrictOrderedRing K] (radius : K) (part part' : Part K) (h : part.close radius = .ok part') :
    part'.isLinear = true ∧ part.isLinear = true ∧ part'.radius = some |radius| ∧ part'.startBulge = true ∧
      (∀ s, draw s part' = draw s part) ∧
      ∀ p a r c b, part = .line p a r c b → part' = .line p a (some |radius|) c true := by
  cases part <;> simp [Part.close] at h <;> subst h <;>
    refine ⟨rfl, rfl, rfl, rfl, fun _ => rfl, fun p a r c b h => ?_⟩ <;> cases h
  rfl

theorem Inv.closeStart [IsStrictOrderedRing K] (path : Path K) (radius : K) (inv : Inv path)
    (h : ∃ r c b, path.parts.getLast? = some (.line path.p0 true r c b)) (ho : (path.closeStart radius).1 = .ok ()) :
    Inv { (path.closeStart radius).2 with closed := true } := by
  unfold Path.closeStart at ho ⊢
  cases e : path.parts with
  | nil => rw [e] at ho; simp at ho
  | cons part l =>
    rw [e] at ho
    dsimp only at ho ⊢
    cases e' : part.close radius with
    | error x => rw [e'] at ho; simp at ho
    | ok part' =>
      dsimp only
      obtain ⟨h1, h2, h3, h4, h5, h6⟩ := close_part _ _ _ e'
      refine ⟨?_, ?_, ?_, ?_, ?_, ?_⟩
      · intro i q hq hqb
        dsimp only at hq ⊢
        cases i with
        | zero => exact ⟨rfl, rfl⟩
        | succ i =>
          exact ⟨(inv.bulge (i + 1) q (by rw [e]; exact hq) hqb).1, rfl⟩
      · intro _
        obtain ⟨r, c, b, h⟩ := h
        rw [e] at h
        dsimp only
        cases l with
        | nil =>
          simp at h
          exact ⟨some |radius|, c, true, by simp [h6 _ _ _ _ _ h]⟩
        | cons a l => exact ⟨r, c, b, by simpa using h⟩
      · intro q hq _
        simp at hq
        subst hq
        exact h4
      · intro i q hq hqr
        have hq' : path.parts[i + 1]? = some q := by rw [e]; exact hq
        have := inv.linear i q hq' hqr
        cases i with
        | zero => simp [h1]
        | succ i => rw [e] at this; exact this
      · intro q hq hqb
        rcases List.mem_cons.1 hq with h | h
        · subst h; simp [h3]
        · exact inv.bulgeRadius q (by rw [e]; simp [h]) hqb
      · intro q hq
        rcases List.mem_cons.1 hq with h | h
        · subst h
          intro r hr
          rw [h3] at hr
          simp at hr
          rw [← hr]
          exact abs_nonneg _
        · exact inv.nonneg q (by rw [e]; simp [h])

theorem Inv.close [IsStrictOrderedRing K] (path : Path K) (radius closeRadius : Option K) (inv : Inv path) :
    Inv (path.close radius closeRadius).2 := by
  unfold Path.close
  have inv' : Inv (path.addPart (.line path.p0 true (setRadius radius) closeRadius.isSome false)).2 :=
    Inv.add _ _ inv rfl (fun r hr => setRadius_nonneg radius r hr)
  have hl : ∀ seg, (path.addPart (.line path.p0 true (setRadius radius) closeRadius.isSome false)).1 = .ok seg →
      ∃ r c b, (path.addPart (.line path.p0 true (setRadius radius) closeRadius.isSome false)).2.parts.getLast? =
        some (.line (path.addPart (.line path.p0 true (setRadius radius) closeRadius.isSome false)).2.p0 true r c b) := by
    intro seg
    unfold Path.addPart
    split
    · rename_i hc
      intro _
      exact inv.closed hc
    · split
      · intro h; simp at h
      · intro _; exact ⟨setRadius radius, closeRadius.isSome, false, by simp⟩
  generalize hx : path.addPart (.line path.p0 true (setRadius radius) closeRadius.isSome false) = x at inv' hl
  obtain ⟨r, path'⟩ := x
  dsimp only at inv' hl ⊢
  cases r with
  | error e => exact inv'
  | ok seg =>
    have hl := hl seg rfl
    cases closeRadius with
    | none =>
      refine ⟨?_, fun _ => hl, inv'.first, inv'.linear, inv'.bulgeRadius, inv'.nonneg⟩
      intro i part hp hb
      exact ⟨(inv'.bulge i part hp hb).1, rfl⟩
    | some cr =>
      dsimp only
      have := Inv.closeStart path' cr inv' hl
      cases hy : path'.closeStart cr with
      | mk r' path'' =>
        rw [hy] at this
        cases r' with
        | ok u => exact this rfl
        | error e =>
          have e' : path'' = path' := by
            unfold Path.closeStart at hy
            split at hy
            · simp at hy; exact hy.2.symm
            · split at hy
              · simp at hy
              · simp at hy; exact hy.2.symm
          dsimp only
          rw [e']
          exact inv'

/-! ## Transformations -/

omit [LinearOrder K] in
theorem bind_ok (r : Option K) : (r.bind fun r => (Except.ok r : Except PyErr K).toOption) = r := by
  cases r <;> rfl

theorem setPart_eq (path : Path K) (l r : List (Part K)) (part part' : Part K) (e : path.parts = l ++ part :: r) :
    path.setPart l.length part' = { path with parts := l ++ part' :: r } := by
  simp [Path.setPart, e, List.set_append]

omit [LinearOrder K] in
theorem mapPart_isLinear (f : Vec K → Vec K) (g : K → Except PyErr K) (s : Vec K) (part : Part K) :
    (mapPart f g s part).isLinear = part.isLinear := by
  cases part <;> simp only [mapPart] <;> (try split) <;> rfl

omit [LinearOrder K] in
theorem mapPart_startBulge (f : Vec K → Vec K) (g : K → Except PyErr K) (s : Vec K) (part : Part K) :
    (mapPart f g s part).startBulge = part.startBulge := by
  cases part <;> simp only [mapPart] <;> (try split) <;> rfl

omit [LinearOrder K] in
theorem mapPart_radius (f : Vec K → Vec K) (g : K → Except PyErr K) (s : Vec K) (part : Part K) :
    (mapPart f g s part).radius = part.radius.bind fun r => (g r).toOption := by
  cases part <;> simp only [mapPart] <;> (try split) <;> rfl

/-- The body of the first loop makes a part absolute. -/
theorem absoluteStep_eq [IsStrictOrderedRing K] (path : Path K) (inv : Inv path) (l r : List (Part K)) (part : Part K)
    (e : path.parts = l ++ part :: r) (s : Vec K) (hs : final path.p0 l = some s) (hd : part.isStringed = false) :
    path.absoluteStep l.length = (.ok (), { path with parts := l ++ mapPart id .ok s part :: r }) ∧
      Inv { path with parts := l ++ mapPart id .ok s part :: r } := by
  have hp : path.parts[l.length]? = some part := by simp [e]
  have hlen : l.length < path.parts.length := by simp [e]
  have htake : path.parts.take l.length = l := by simp [e]
  have hstart := startPoint_eq path inv l.length hlen s (by rw [htake]; exact hs)
  have hInv : Inv { path with parts := l ++ mapPart id .ok s part :: r } := by
    apply Inv.replace path l r part _ e inv
    · exact mapPart_isLinear ..
    · rw [mapPart_radius, bind_ok]
    · exact mapPart_startBulge ..
    · intro rd c b h
      subst h
      exact ⟨rd, c, b, by simp [mapPart, bind_ok]⟩
  have hnot : ∀ rd, part.radius = some rd → 0 ≤ rd := inv.nonneg part (by rw [e]; simp)
  have hbr : ∀ rd, part.radius = some rd →
      (l.length = 0 ∧ part.startBulge = true) ∨
      (l.length ≠ 0 ∧ part.startBulge = false ∧ (path.parts[l.length - 1]?).map Part.isLinear = some true) := by
    intro rd h
    by_cases h0 : l.length = 0
    · left
      rw [h0] at hp
      exact ⟨h0, inv.first part hp (by simp [h])⟩
    · right
      obtain ⟨k, hk⟩ : ∃ k, l.length = k + 1 := ⟨l.length - 1, by omega⟩
      refine ⟨h0, ?_, ?_⟩
      · by_contra hb
        exact h0 (inv.bulge _ part hp (by simpa using hb)).1
      · rw [hk] at hp ⊢
        exact inv.linear k part hp (by simp [h])
  have hbn : part.radius = none → part.startBulge = false := by
    intro h
    by_contra hb
    exact inv.bulgeRadius part (by rw [e]; simp) (by simpa using hb) h
  refine ⟨?_, hInv⟩
  -- the parts which are cast to an absolute segment
  have cast : ∀ (pt : Vec K) (absolute : Bool) (rd : Option K) (b : Bool), part.radius = rd → part.startBulge = b →
      path.makeSegment l.length pt absolute rd = Except.ok (Part.line pt absolute rd false b) := by
    intro pt absolute rd b h1 h2
    cases rd with
    | none => rw [hbn h1] at h2; subst h2; rfl
    | some r =>
      have hr := abs_of_nonneg (hnot r h1)
      rcases hbr r h1 with ⟨h0, hb⟩ | ⟨h0, hb, hl⟩
      · rw [hb] at h2; subst h2
        simp [Path.makeSegment, h0, Part.close, hr]
      · rw [hb] at h2; subst h2
        simp [Path.makeSegment, h0, hl, hr]
  unfold Path.absoluteStep
  rw [hp]
  dsimp only
  cases part with
  | line pt absolute rd c b =>
    simp only [Path.toPathSegment]
    rw [setPart_eq path l r _ _ e, ← e]
    cases absolute with
    | true => simp [Part.absolute, mapPart, bind_ok, e]
    | false =>
      have hstart' : Path.startPoint ⟨path.p0, path.parts, path.closed⟩ l.length = .ok s := hstart
      simp [Part.absolute, Path.toAbsolute, Path.toAbsolutePoint, hstart', Except.map, bind, Except.bind, pure, Except.pure]
      rw [setPart_eq _ l r _ _ e]
      simp [mapPart, bind_ok, vec_comm]
  | absH x rd b =>
    have hstop := stopPoint_eq path inv l.length hlen ⟨x, s.y⟩ (by rw [List.take_add_one, htake, hp, final_append, hs]; simp [final, draw])
    simp only [Path.toPathSegment, hstop, bind, Except.bind]
    rw [cast _ true rd b rfl rfl]
    dsimp only
    rw [setPart_eq path l r _ _ e]
    simp [Part.absolute, mapPart, bind_ok]
  | absV y rd b =>
    have hstop := stopPoint_eq path inv l.length hlen ⟨s.x, y⟩ (by rw [List.take_add_one, htake, hp, final_append, hs]; simp [final, draw])
    simp only [Path.toPathSegment, hstop, bind, Except.bind]
    rw [cast _ true rd b rfl rfl]
    dsimp only
    rw [setPart_eq path l r _ _ e]
    simp [Part.absolute, mapPart, bind_ok]
  | dir u length rd b =>
    simp only [Path.toPathSegment]
    rw [cast _ false rd b rfl rfl]
    dsimp only
    rw [setPart_eq path l r _ _ e]
    have inv' : Inv { path with parts := l ++ Part.line (u.smul length) false rd false b :: r } := by
      apply Inv.replace path l r _ (Part.line (u.smul length) false rd false b) e inv rfl rfl rfl
      intro rd c b h; cases h
    have hstart' := startPoint_eq _ inv' l.length (by simp) s (by simpa using hs)
    simp [Part.absolute, Path.toAbsolute, Path.toAbsolutePoint, hstart', Except.map, bind, Except.bind, pure, Except.pure]
    rw [setPart_eq _ l r _ _ rfl]
    simp [mapPart, bind_ok, vec_comm]
  | quad p1 p2 absolute =>
    simp only [Path.toPathSegment]
    rw [setPart_eq path l r _ _ e, ← e]
    cases absolute with
    | true => simp [Part.absolute, mapPart, e]
    | false =>
      have hstart' : Path.startPoint ⟨path.p0, path.parts, path.closed⟩ l.length = .ok s := hstart
      simp [Part.absolute, Path.toAbsolute, Path.toAbsolutePoint, hstart', Except.map, bind, Except.bind, pure, Except.pure]
      rw [setPart_eq _ l r _ _ e]
      simp [mapPart, vec_comm]
  | cubic p1 p2 p3 absolute =>
    simp only [Path.toPathSegment]
    rw [setPart_eq path l r _ _ e, ← e]
    cases absolute with
    | true => simp [Part.absolute, mapPart, e]
    | false =>
      have hstart' : Path.startPoint ⟨path.p0, path.parts, path.closed⟩ l.length = .ok s := hstart
      simp [Part.absolute, Path.toAbsolute, Path.toAbsolutePoint, hstart', Except.map, bind, Except.bind, pure, Except.pure]
      rw [setPart_eq _ l r _ _ e]
      simp [mapPart, vec_comm]
  | stringedCubic a => simp [Part.isStringed] at hd
  | arc pt rx ry an la sw absolute =>
    simp only [Path.toPathSegment]
    rw [setPart_eq path l r _ _ e, ← e]
    cases absolute with
    | true => simp [Part.absolute, mapPart, e]
    | false =>
      have hstart' : Path.startPoint ⟨path.p0, path.parts, path.closed⟩ l.length = .ok s := hstart
      simp [Part.absolute, Path.toAbsolute, Path.toAbsolutePoint, hstart', Except.map, bind, Except.bind, pure, Except.pure]
      rw [setPart_eq _ l r _ _ e]
      simp [mapPart, vec_comm]

omit [LinearOrder K] in
theorem draw_mapPart (f : Vec K → Vec K) (g : K → Except PyErr K) (s s' : Vec K) (part : Part K) :
    draw s' (mapPart f g s part) = (draw s part).map (List.map f) := by
  cases part <;> simp only [mapPart] <;> (try split) <;> simp_all [draw]

omit [LinearOrder K] in
theorem getLastD_map (f : Vec K → Vec K) (l : List (Vec K)) (a : Vec K) : (l.map f).getLastD (f a) = f (l.getLastD a) := by
  induction l generalizing a with
  | nil => rfl
  | cons b l ih => simp only [List.map_cons, List.getLastD_cons, ih]

omit [LinearOrder K] in
theorem draw_isSome (s : Vec K) (part : Part K) : (draw s part).isSome = !part.isStringed := by
  cases part <;> rfl

omit [LinearOrder K] in
theorem trace_isSome (s : Vec K) (l : List (Part K)) : (trace s l).isSome = true ↔ ∀ part ∈ l, part.isStringed = false := by
  induction l generalizing s with
  | nil => simp [trace]
  | cons part l ih =>
    have := draw_isSome s part
    simp only [trace, List.mem_cons, forall_eq_or_imp]
    cases e : draw s part with
    | none => rw [e] at this; simp at this; simp [this]
    | some pts =>
      rw [e] at this
      simp at this
      rw [this]
      simp only [Option.bind_eq_bind, Option.bind_some, true_and, ← ih (pts.getLastD s)]
      cases trace (pts.getLastD s) l <;> simp [pure]

omit [LinearOrder K] in
theorem trace_mapParts (f : Vec K → Vec K) (g : K → Except PyErr K) (s : Vec K) (l : List (Part K)) :
    trace (f s) (mapParts f g s l) = (trace s l).map (List.map (List.map f)) := by
  induction l generalizing s with
  | nil => rfl
  | cons part l ih =>
    simp only [trace, mapParts, draw_mapPart]
    cases e : draw s part with
    | none => rfl
    | some pts =>
      simp only [Option.map_some, Option.bind_eq_bind, Option.bind_some, Option.getD_some]
      rw [getLastD_map, ih]
      cases trace (pts.getLastD s) l <;> simp [pure]

/-- The first loop. -/
theorem absoluteLoop_eq [IsStrictOrderedRing K] (path : Path K) (l r : List (Part K)) (e : path.parts = l ++ r) (inv : Inv path)
    (s : Vec K) (hs : final path.p0 l = some s) (hd : ∀ part ∈ r, part.isStringed = false) :
    loop Path.absoluteStep (List.range' l.length r.length) path = (.ok (), { path with parts := l ++ mapParts id .ok s r }) ∧
      Inv { path with parts := l ++ mapParts id .ok s r } := by
  induction r generalizing path l s with
  | nil => simp [loop, mapParts, ← e, inv]
  | cons part r ih =>
    obtain ⟨h1, h2⟩ := absoluteStep_eq path inv l r part e s hs (hd part (by simp))
    simp only [List.length_cons, List.range'_succ, loop, h1]
    have hdraw : ∃ pts, draw s part = some pts := by
      have := draw_isSome s part
      rw [hd part (by simp)] at this
      exact Option.isSome_iff_exists.1 (by simpa using this)
    obtain ⟨pts, hpts⟩ := hdraw
    have := ih { path with parts := l ++ mapPart id .ok s part :: r } (l ++ [mapPart id .ok s part]) (by simp) h2 (pts.getLastD s)
      (by
        dsimp only
        rw [final_append, hs]
        simp [final, draw_mapPart, hpts]) (fun q hq => hd q (by simp [hq]))
    simp only [List.length_append, List.length_cons, List.length_nil] at this
    simp only [mapParts, hpts, Option.getD_some]
    simpa using this

/-- The transformation of a part which is absolute. -/
theorem transform_mapPart (t : Transf K) (s : Vec K) (part : Part K) (hd : part.isStringed = false)
    (hr : ∀ r, part.radius = some r → ∃ r', t.number r = .ok r') :
    (mapPart id .ok s part).transform t = (.ok (), mapPart t.point t.number s part) := by
  have key : ∀ (p : Vec K) (rd : Option K) (c b : Bool), part.radius = rd →
      Part.transform t (.line p true (rd.bind fun r => (Except.ok r : Except PyErr K).toOption) c b) =
        (.ok (), .line (t.point p) true (rd.bind fun r => (t.number r).toOption) c b) := by
    intro p rd c b h
    cases rd with
    | none => rfl
    | some r =>
      obtain ⟨r', e⟩ := hr r h
      simp [Part.transform, Except.toOption, e]
  cases part with
  | line p a rd c b => exact key _ _ _ _ rfl
  | absH x rd b => exact key _ _ _ _ rfl
  | absV y rd b => exact key _ _ _ _ rfl
  | dir u len rd b => exact key _ _ _ _ rfl
  | quad p1 p2 a => cases a <;> rfl
  | cubic p1 p2 p3 a => cases a <;> rfl
  | stringedCubic a => simp [Part.isStringed] at hd
  | arc => rfl

/-- The second loop. -/
theorem transformLoop_eq (t : Transf K) (p0 : Vec K) (closed : Bool) (l r : List (Part K)) (s : Vec K)
    (hd : ∀ part ∈ r, part.isStringed = false)
    (hr : ∀ part ∈ r, ∀ r, part.radius = some r → ∃ r', t.number r = .ok r') :
    loop (Path.transformStep t) (List.range' l.length r.length) ⟨p0, l ++ mapParts id .ok s r, closed⟩ =
      (.ok (), ⟨p0, l ++ mapParts t.point t.number s r, closed⟩) := by
  induction r generalizing l s with
  | nil => simp [loop, mapParts]
  | cons part r ih =>
    have h := transform_mapPart t s part (hd part (by simp)) (hr part (by simp))
    simp only [List.length_cons, List.range'_succ, loop]
    simp only [mapParts]
    have h1 : Path.transformStep t ⟨p0, l ++ mapPart id .ok s part :: mapParts id .ok (((draw s part).getD []).getLastD s) r, closed⟩ l.length =
        (.ok (), ⟨p0, l ++ mapPart t.point t.number s part :: mapParts id .ok (((draw s part).getD []).getLastD s) r, closed⟩) := by
      unfold Path.transformStep
      simp only [List.getElem?_append_right (Nat.le_refl _), Nat.sub_self, List.getElem?_cons_zero, h]
      rw [setPart_eq _ l _ _ _ rfl]
    rw [h1]
    dsimp only
    have := ih (l ++ [mapPart t.point t.number s part]) (((draw s part).getD []).getLastD s)
      (fun q hq => hd q (by simp [hq])) (fun q hq => hr q (by simp [hq]))
    simp only [List.length_append, List.length_cons, List.length_nil] at this
    simpa using this

/-- `apply_transformation` of a path whose parts have points and whose radii are accepted. -/
theorem applyTransformation_eq [IsStrictOrderedRing K] (path : Path K) (inv : Inv path) (t : Transf K)
    (hd : ∀ part ∈ path.parts, part.isStringed = false)
    (hr : ∀ part ∈ path.parts, ∀ r, part.radius = some r → ∃ r', t.number r = .ok r') :
    path.applyTransformation t = (.ok (), ⟨t.point path.p0, mapParts t.point t.number path.p0 path.parts, path.closed⟩) := by
  have h1 := (absoluteLoop_eq path [] path.parts rfl inv path.p0 rfl hd).1
  have h2 := transformLoop_eq t (t.point path.p0) path.closed [] path.parts path.p0 hd hr
  unfold Path.applyTransformation
  simp only [List.length_nil, List.nil_append, ← List.range_eq_range'] at h1 h2
  dsimp only
  rw [h1]
  exact h2

/-! ## A transformation which succeeds -/

theorem loop_error (step : Path K → Nat → Except PyErr Unit × Path K) (Q : Path K → Prop) (i : Nat) (is : List Nat) (path : Path K)
    (hQ : Q path) (hi : i ∈ is) (h1 : ∀ path, Q path → ∃ e, (step path i).1 = .error e)
    (h2 : ∀ path j, Q path → Q (step path j).2) : ∃ e, (loop step is path).1 = .error e := by
  induction is generalizing path with
  | nil => cases hi
  | cons j is ih =>
    unfold loop
    rcases e : step path j with ⟨r, path'⟩
    cases r with
    | error x => exact ⟨x, rfl⟩
    | ok u =>
      rcases List.mem_cons.1 hi with h | h
      · subst h
        obtain ⟨x, hx⟩ := h1 path hQ
        rw [e] at hx
        cases hx
      · have := h2 path j hQ
        rw [e] at this
        exact ih path' this h

theorem loop_keep (step : Path K → Nat → Except PyErr Unit × Path K) (Q : Path K → Prop) (is : List Nat) (path : Path K)
    (hQ : Q path) (h2 : ∀ path j, Q path → Q (step path j).2) : Q (loop step is path).2 := by
  induction is generalizing path with
  | nil => exact hQ
  | cons j is ih =>
    unfold loop
    have := h2 path j hQ
    rcases e : step path j with ⟨r, path'⟩
    rw [e] at this
    cases r with
    | error x => exact this
    | ok u => exact ih path' this

theorem setPart_get (path : Path K) (i j : Nat) (part : Part K) (h : i ≠ j) : (path.setPart i part).parts[j]? = path.parts[j]? := by
  simp [Path.setPart, List.getElem?_set_ne h]

theorem absoluteStep_other (path : Path K) (i j : Nat) (h : i ≠ j) : (path.absoluteStep i).2.parts[j]? = path.parts[j]? := by
  unfold Path.absoluteStep
  split
  · rfl
  · split
    · rfl
    · dsimp only
      split
      · exact setPart_get _ _ _ _ h
      · split
        · exact setPart_get _ _ _ _ h
        · rw [setPart_get _ _ _ _ h, setPart_get _ _ _ _ h]

theorem absoluteStep_stringed (path : Path K) (i : Nat) (a : Bool) (h : path.parts[i]? = some (.stringedCubic a)) :
    (path.absoluteStep i).2.parts[i]? = some (.stringedCubic a) := by
  have hlen : i < path.parts.length := by
    by_contra hc
    rw [List.getElem?_eq_none (by omega)] at h
    cases h
  unfold Path.absoluteStep
  rw [h]
  simp only [Path.toPathSegment, Part.absolute, Path.toAbsolute]
  cases a <;> simp [Path.setPart, hlen]

theorem transformStep_other (t : Transf K) (path : Path K) (i j : Nat) (h : i ≠ j) :
    (Path.transformStep t path i).2.parts[j]? = path.parts[j]? := by
  unfold Path.transformStep
  split
  · rfl
  · exact setPart_get _ _ _ _ h

theorem mem_range_length (path : Path K) (i : Nat) (part : Part K) (h : path.parts[i]? = some part) : i ∈ List.range path.parts.length := by
  rw [List.mem_range]
  by_contra hc
  rw [List.getElem?_eq_none (by omega)] at h
  cases h

/-- A stringed curve makes the transformation raise. -/
theorem applyTransformation_stringed (path : Path K) (t : Transf K) (part : Part K) (hp : part ∈ path.parts) (hs : part.isStringed = true) :
    ∃ e, (path.applyTransformation t).1 = .error e := by
  obtain ⟨i, hi⟩ := List.mem_iff_getElem?.1 hp
  obtain ⟨a, rfl⟩ : ∃ a, part = .stringedCubic a := by
    cases part <;> simp [Part.isStringed] at hs
    exact ⟨_, rfl⟩
  unfold Path.applyTransformation
  dsimp only
  have hk := loop_keep Path.absoluteStep (fun path => path.parts[i]? = some (.stringedCubic a)) (List.range path.parts.length) path hi
    (fun path j hj => by
      by_cases h : j = i
      · subst h; exact absoluteStep_stringed path _ a hj
      · rw [absoluteStep_other path j i h]; exact hj)
  rcases e : loop Path.absoluteStep (List.range path.parts.length) path with ⟨r, path'⟩
  rw [e] at hk
  cases r with
  | error x => exact ⟨x, rfl⟩
  | ok u =>
    refine loop_error (Path.transformStep t) (fun path => path.parts[i]? = some (.stringedCubic a)) i _ _ hk (mem_range_length path i _ hi) ?_ ?_
    · intro path hq
      refine ⟨.attributeError, ?_⟩
      unfold Path.transformStep
      rw [hq]
      rfl
    · intro path j hj
      by_cases h : j = i
      · subst h
        have hm := mem_range_length path _ _ hj
        rw [List.mem_range] at hm
        unfold Path.transformStep
        rw [hj]
        simp [Part.transform, Path.setPart, hm]
      · rw [transformStep_other t path j i h]; exact hj

theorem mapParts_length (f : Vec K → Vec K) (g : K → Except PyErr K) (s : Vec K) (l : List (Part K)) : (mapParts f g s l).length = l.length := by
  induction l generalizing s with
  | nil => rfl
  | cons part l ih => simp [mapParts, ih]

omit [LinearOrder K] in
theorem mapParts_get (f : Vec K → Vec K) (g : K → Except PyErr K) (s : Vec K) (l : List (Part K)) (i : Nat) (part : Part K)
    (h : l[i]? = some part) : ∃ s', (mapParts f g s l)[i]? = some (mapPart f g s' part) ∧
      ((∀ part ∈ l, part.isStringed = false) → final s (l.take i) = some s') := by
  induction l generalizing s i with
  | nil => simp at h
  | cons q l ih =>
    cases i with
    | zero =>
      simp at h
      subst h
      exact ⟨s, by simp [mapParts], fun _ => rfl⟩
    | succ i =>
      simp at h
      obtain ⟨s', h1, h2⟩ := ih (((draw s q).getD []).getLastD s) i h
      refine ⟨s', by simpa [mapParts] using h1, ?_⟩
      intro hs
      have := draw_isSome s q
      rw [hs q (by simp)] at this
      obtain ⟨pts, hpts⟩ := Option.isSome_iff_exists.1 (by simpa using this)
      rw [hpts, Option.getD_some] at h2
      simp only [List.take_succ_cons, final, hpts, Option.bind_eq_bind, Option.bind_some]
      exact h2 (fun p hp => hs p (by simp [hp]))

/-- A radius which is not accepted makes the transformation raise. -/
theorem applyTransformation_radius [IsStrictOrderedRing K] (path : Path K) (inv : Inv path) (t : Transf K)
    (hd : ∀ part ∈ path.parts, part.isStringed = false) (part : Part K)
    (hp : part ∈ path.parts) (r : K) (e : PyErr) (hr : part.radius = some r) (he : t.number r = .error e) :
    ∃ e, (path.applyTransformation t).1 = .error e := by
  obtain ⟨i, hi⟩ := List.mem_iff_getElem?.1 hp
  have h1 := (absoluteLoop_eq path [] path.parts rfl inv path.p0 rfl hd).1
  simp only [List.length_nil, List.nil_append, ← List.range_eq_range'] at h1
  unfold Path.applyTransformation
  dsimp only
  rw [h1]
  dsimp only
  obtain ⟨s', hs', _⟩ := mapParts_get id .ok path.p0 path.parts i part hi
  obtain ⟨p, c, b, hm⟩ : ∃ p c b, mapPart id .ok s' part = .line p true (some r) c b := by
    cases part <;> simp [Part.radius] at hr <;> subst hr <;> exact ⟨_, _, _, rfl⟩
  rw [hm] at hs'
  -- the point of the part may be transformed by the step which raises
  refine loop_error (Path.transformStep t) (fun path => ∃ p, path.parts[i]? = some (.line p true (some r) c b)) i _ _ ⟨p, hs'⟩
    (mem_range_length path i _ hi) ?_ ?_
  · rintro path ⟨p, hq⟩
    refine ⟨e, ?_⟩
    unfold Path.transformStep
    rw [hq]
    simp [Part.transform, he]
  · rintro path j ⟨p, hj⟩
    by_cases h : j = i
    · subst h
      have hm := mem_range_length path _ _ hj
      rw [List.mem_range] at hm
      unfold Path.transformStep
      rw [hj]
      simp [Part.transform, he, Path.setPart, hm]
    · exact ⟨p, by rw [transformStep_other t path j i h]; exact hj⟩

/-- `apply_transformation` succeeds exactly when every part has points and every radius is accepted. -/
theorem applyTransformation_ok [IsStrictOrderedRing K] (path : Path K) (inv : Inv path) (t : Transf K) :
    (path.applyTransformation t).1 = .ok () ↔ (∀ part ∈ path.parts, part.isStringed = false) ∧
      ∀ part ∈ path.parts, ∀ r, part.radius = some r → ∃ r', t.number r = .ok r' := by
  constructor
  · intro h
    have hd : ∀ part ∈ path.parts, part.isStringed = false := by
      intro part hp
      by_contra hc
      obtain ⟨e, he⟩ := applyTransformation_stringed path t part hp (by simpa using hc)
      rw [h] at he
      cases he
    refine ⟨hd, fun part hp r hr => ?_⟩
    cases hx : t.number r with
    | ok r' => exact ⟨r', rfl⟩
    | error e =>
      obtain ⟨e, he⟩ := applyTransformation_radius path inv t hd part hp r e hr hx
      rw [h] at he
      cases he
  · rintro ⟨h1, h2⟩
    rw [applyTransformation_eq path inv t h1 h2]

theorem Inv.transform [IsStrictOrderedRing K] (path : Path K) (t : Transf K) (inv : Inv path) (ht : t.Sound)
    (h : (path.applyTransformation t).1 = .ok ()) : Inv (path.applyTransformation t).2 := by
  obtain ⟨hd, hr⟩ := (applyTransformation_ok path inv t).1 h
  rw [applyTransformation_eq path inv t hd hr]
  dsimp only
  have key : ∀ (i : Nat) (q : Part K), (mapParts t.point t.number path.p0 path.parts)[i]? = some q → ∃ part s, path.parts[i]? = some part ∧
      q = mapPart t.point t.number s part := by
    intro i q hq
    have hlen : i < path.parts.length := by
      by_contra hc
      rw [List.getElem?_eq_none (by rw [mapParts_length]; omega)] at hq
      cases hq
    obtain ⟨part, hp⟩ : ∃ part, path.parts[i]? = some part := ⟨_, List.getElem?_eq_getElem hlen⟩
    obtain ⟨s, hs, _⟩ := mapParts_get t.point t.number path.p0 path.parts i part hp
    rw [hs] at hq
    exact ⟨part, s, hp, (Option.some.inj hq).symm⟩
  have rad : ∀ part ∈ path.parts, ∀ s, (mapPart t.point t.number s part).radius ≠ none ↔ part.radius ≠ none := by
    intro part hp s
    rw [mapPart_radius]
    cases e : part.radius with
    | none => simp
    | some r =>
      obtain ⟨r', h⟩ := hr part hp r e
      simp [h, Except.toOption]
  refine ⟨?_, ?_, ?_, ?_, ?_, ?_⟩
  · intro i q hq hb
    obtain ⟨part, s, hp, rfl⟩ := key i q hq
    rw [mapPart_startBulge] at hb
    exact inv.bulge i part hp hb
  · intro hc
    obtain ⟨r, c, b, hl⟩ := inv.closed hc
    rw [List.getLast?_eq_getElem?] at hl
    obtain ⟨s, hs, _⟩ := mapParts_get t.point t.number path.p0 path.parts _ _ hl
    refine ⟨r.bind fun r => (t.number r).toOption, c, b, ?_⟩
    dsimp only
    rw [List.getLast?_eq_getElem?, mapParts_length, hs]
    rfl
  · intro q hq hqr
    obtain ⟨part, s, hp, rfl⟩ := key 0 q hq
    rw [mapPart_startBulge]
    exact inv.first part hp ((rad part (List.mem_iff_getElem?.2 ⟨0, hp⟩) s).1 hqr)
  · intro i q hq hqr
    obtain ⟨part, s, hp, rfl⟩ := key (i + 1) q hq
    have := inv.linear i part hp ((rad part (List.mem_iff_getElem?.2 ⟨_, hp⟩) s).1 hqr)
    obtain ⟨q', hq', h'⟩ := Option.map_eq_some_iff.1 this
    obtain ⟨s', hs', _⟩ := mapParts_get t.point t.number path.p0 path.parts i q' hq'
    dsimp only
    rw [hs', Option.map_some, mapPart_isLinear, h']
  · intro q hq hb
    obtain ⟨i, hi⟩ := List.mem_iff_getElem?.1 hq
    obtain ⟨part, s, hp, rfl⟩ := key i q hi
    rw [mapPart_startBulge] at hb
    have hm := List.mem_iff_getElem?.2 ⟨i, hp⟩
    exact (rad part hm s).2 (inv.bulgeRadius part hm hb)
  · intro q hq r hqr
    obtain ⟨i, hi⟩ := List.mem_iff_getElem?.1 hq
    obtain ⟨part, s, hp, rfl⟩ := key i q hi
    have hm := List.mem_iff_getElem?.2 ⟨i, hp⟩
    rw [mapPart_radius] at hqr
    obtain ⟨r0, h0, h1⟩ := Option.bind_eq_some_iff.1 hqr
    obtain ⟨r', h'⟩ := hr part hm r0 h0
    rw [h'] at h1
    simp [Except.toOption] at h1
    subst h1
    exact ht r0 r' h' (inv.nonneg part hm r0 h0)

theorem Reach.inv [IsStrictOrderedRing K] (path : Path K) (h : Reach path) : Inv path := by
  induction h with
  | new start => exact Inv.new start
  | move path point _ hc ih => exact Inv.move path point ih hc
  | line path point radius absolute _ ih => exact Inv.add _ _ ih rfl (fun r hr => setRadius_nonneg radius r hr)
  | horizontal path length radius absolute _ ih =>
    unfold Path.horizontalTo
    split <;> exact Inv.add _ _ ih rfl (fun r hr => setRadius_nonneg radius r hr)
  | vertical path length radius absolute _ ih =>
    unfold Path.verticalTo
    split <;> exact Inv.add _ _ ih rfl (fun r hr => setRadius_nonneg radius r hr)
  | absoluteHorizontal path x radius _ ih => exact Inv.add _ _ ih rfl (fun r hr => setRadius_nonneg radius r hr)
  | absoluteVertical path x radius _ ih => exact Inv.add _ _ ih rfl (fun r hr => setRadius_nonneg radius r hr)
  | direction path u length radius _ ih => exact Inv.add _ _ ih rfl (fun r hr => setRadius_nonneg radius r hr)
  | quadratic path p1 p2 a _ ih => exact Inv.add _ _ ih rfl (by intro r h; cases h)
  | cubic path p1 p2 p3 a _ ih => exact Inv.add _ _ ih rfl (by intro r h; cases h)
  | stringedQuadratic path p a _ ih => exact ih
  | stringedCubic path p1 p2 a _ ih => exact Inv.add _ _ ih rfl (by intro r h; cases h)
  | arc path p rx ry an l s a _ ih => exact Inv.add _ _ ih rfl (by intro r h; cases h)
  | close path radius closeRadius _ ih => exact Inv.close path radius closeRadius ih
  | transform path t _ ht ho ih => exact Inv.transform path t ih ht ho

end Patro.Path
