import Verif.Proof.PathEdit
import Verif.Props.PathBulge
/-! # Parts of a path as mutable objects: what is read again, and what is read after an edit (C210, C211) -/

namespace Patro.PathEdit

noncomputable section

theorem con_after (o : Obj) (h : Con o) (r : Read) : (r.after o).path = o.path ∧ Con (r.after o) := by
  cases r with
  | direction i => exact (pure_direction i o h).2
  | bissector i => exact (pure_bissector i o h).2
  | bulgeAngle i => exact (pure_angle i o h).2
  | bulgeCenter i => exact (pure_center i o h).2
  | bulgeStart i => exact (pure_start i o h).2
  | bulgeStop i => exact (pure_stop i o h).2
  | arc i radius => exact (pure_geometry i radius o h).2
  | points i => exact (pure_points i o h).2

theorem con_history (path : Path.Path ℝ) (history : List Read) :
    (history.foldl Read.after (Obj.new path)).path = path ∧ Con (history.foldl Read.after (Obj.new path)) := by
  suffices ∀ o, o.path = path → Con o → (history.foldl Read.after o).path = path ∧ Con (history.foldl Read.after o) from
    this _ rfl (Con.new path)
  induction history with
  | nil => intro o h h'; exact ⟨h, h'⟩
  | cons r rest ih =>
    intro o h h'
    obtain ⟨h1, h2⟩ := con_after o h' r
    exact ih _ (h1.trans h) h2

/-- C210. Whatever was read of a path before, in any order and any number of times, with or without an exception, the values which are
read are the ones of a path just made, and the path itself is unchanged: what the parts keep cannot be seen as long as nothing is
edited. -/
theorem reads_same (path : Path.Path ℝ) (history : List Read) :
    SameReadings (history.foldl Read.after (Obj.new path)) (Obj.new path) ∧ (history.foldl Read.after (Obj.new path)).path = path := by
  obtain ⟨h1, h2⟩ := con_history path history
  generalize history.foldl Read.after (Obj.new path) = o at h1 h2
  subst h1
  exact ⟨⟨fun i => (pure_direction i o h2).1, fun i => (pure_bissector i o h2).1, fun i => (pure_angle i o h2).1,
    fun i => (pure_center i o h2).1, fun i => (pure_start i o h2).1, fun i => (pure_stop i o h2).1,
    fun i radius => (pure_geometry i radius o h2).1, fun i => (pure_points i o h2).1⟩, rfl⟩

theorem fresh_bind {α β : Type} {m : M α} {f : α → M β} (hm : Pure m) (hf : ∀ a, Pure (f a)) (path : Path.Path ℝ) :
    fresh (m >>= f) path = fresh m path >>= fun a => fresh (f a) path := by
  obtain ⟨n1, n2, n3⟩ := hm (Obj.new path) (Con.new _)
  have e : (m >>= f) (Obj.new path) = match m (Obj.new path) with
    | (.ok a, o) => f a o
    | (.error e, o) => (.error e, o) := rfl
  unfold fresh
  rw [e]
  rcases hmn : m (Obj.new path) with ⟨r, n⟩
  rw [hmn] at n2 n3
  cases r with
  | error e => rfl
  | ok a =>
    have := (hf a n n3).1
    dsimp only at n2
    rw [n2] at this
    exact this

theorem fresh_lift {α : Type} (f : Path.Path ℝ → Except PyErr α) (path : Path.Path ℝ) : fresh (M.lift f) path = f path := rfl

theorem fresh_pure {α : Type} (a : α) (path : Path.Path ℝ) : fresh (pure a : M α) path = .ok a := rfl

theorem fresh_memo {α : Type} {get : Cache → Option α} {set : α → Cache → Cache} {i : Nat} {compute : M α} (path : Path.Path ℝ)
    (h : get ((Obj.new path).cache i) = none) : fresh (M.memo get set i compute) path = fresh compute path := by
  unfold fresh M.memo
  rw [h]
  dsimp only
  rcases compute (Obj.new path) with ⟨r, n⟩
  cases r <;> rfl

theorem fresh_memoBulge {α : Type} {get : Bulge → Option α} {set : α → Bulge → Bulge} {i : Nat} {compute : M α} (path : Path.Path ℝ)
    (hg : get Bulge.reset = none) (h : (radiusOf path i).isSome) :
    fresh (M.memoBulge get set i compute) path = fresh compute path := by
  have hb : ((Obj.new path).cache i).bulge = some Bulge.reset := by
    unfold radiusOf at h
    unfold Obj.new
    dsimp only
    cases hp : path.parts[i]? with
    | none => rw [hp] at h; simp at h
    | some part =>
      rw [hp] at h
      simp only [Option.bind_some] at h
      simp [Cache.new, h]
  have e : fresh (M.memoBulge get set i compute) path =
      fresh (M.memo (fun c => c.bulge.bind get) (fun a c => { c with bulge := c.bulge.map (set a) }) i compute) path := by
    unfold fresh M.memoBulge
    rw [hb]
  rw [e, fresh_memo]
  rw [hb]
  exact hg

theorem fresh_direction (path : Path.Path ℝ) (i : Nat) : fresh (direction i) path = SceneGeometry.partDirection path i := by
  unfold direction
  rw [fresh_memo path (new_direction path i), fresh_bind (Pure.lift _) (fun _ => Pure.bind (Pure.lift _) fun _ => Pure.pure _), fresh_lift]
  unfold SceneGeometry.partDirection
  congr 1
  funext stop
  rw [fresh_bind (Pure.lift _) (fun _ => Pure.pure _), fresh_lift]
  rfl

theorem fresh_prevDirection (path : Path.Path ℝ) (i : Nat) : fresh (prevDirection i) path = SceneGeometry.prevDirection path i := by
  have key : fresh (prevDirection i) path = match path.prevIndex i with
    | none => .error .attributeError
    | some j => if (path.parts[j]?.map Path.Part.isLinear) = some true then fresh (direction j) path else .error .attributeError := by
    unfold fresh prevDirection
    rw [new_path]
    cases path.prevIndex i with
    | none => rfl
    | some j => dsimp only; split <;> rfl
  rw [key]
  unfold SceneGeometry.prevDirection
  cases path.prevIndex i with
  | none => rfl
  | some j => dsimp only; rw [fresh_direction]

theorem fresh_angle (path : Path.Path ℝ) (i : Nat) (h : (radiusOf path i).isSome) (d1 d2 : Vec ℝ)
    (h1 : SceneGeometry.prevDirection path i = .ok d1) (h2 : SceneGeometry.partDirection path i = .ok d2) :
    fresh (bulgeAngleRad i) path = Path.bulgeAngleRad d1 d2 := by
  unfold bulgeAngleRad
  rw [fresh_memoBulge path rfl h, fresh_bind (pure_direction i) (fun _ => Pure.bind (pure_prevDirection i) fun _ => Pure.lift _),
    fresh_direction, h2]
  show fresh (prevDirection i >>= _) path = _
  rw [fresh_bind (pure_prevDirection i) (fun _ => Pure.lift _), fresh_prevDirection, h1]
  rfl

theorem fresh_stop (path : Path.Path ℝ) (i : Nat) (r : ℝ) (h : radiusOf path i = some r) (p : Vec ℝ)
    (hp : SceneGeometry.partBulgeStop path i r = .ok p) : fresh (bulgeStop i) path = .ok p := by
  unfold SceneGeometry.partBulgeStop at hp
  cases hs : path.startPoint i with
  | error e => rw [hs] at hp; cases hp
  | ok start =>
    cases h1 : SceneGeometry.prevDirection path i with
    | error e => rw [hs, h1] at hp; cases hp
    | ok d1 =>
      cases h2 : SceneGeometry.partDirection path i with
      | error e => rw [hs, h1, h2] at hp; cases hp
      | ok d2 =>
        rw [hs, h1, h2] at hp
        have hp : Path.bulgeStop start d1 d2 r = .ok p := hp
        unfold Path.bulgeStop Path.halfBulgeAngle at hp
        unfold bulgeStop
        rw [fresh_memoBulge path rfl (by rw [h]; rfl), fresh_bind (pure_angle i) (fun _ => Pure.bind (pure_direction i) fun _ =>
          Pure.bind (Pure.lift _) fun _ => Pure.bind (Pure.lift _) fun _ => Pure.pure _), fresh_angle path i (by rw [h]; rfl) d1 d2 h1 h2]
        cases ha : Path.bulgeAngleRad d1 d2 with
        | error e => rw [ha] at hp; cases hp
        | ok angle =>
          rw [ha] at hp
          show fresh (direction i >>= _) path = _
          rw [fresh_bind (pure_direction i) (fun _ => Pure.bind (Pure.lift _) fun _ => Pure.bind (Pure.lift _) fun _ => Pure.pure _),
            fresh_direction, h2]
          show fresh (M.lift _ >>= _) path = _
          rw [fresh_bind (Pure.lift _) (fun _ => Pure.bind (Pure.lift _) fun _ => Pure.pure _), fresh_lift, h]
          show fresh (M.lift _ >>= _) path = _
          rw [fresh_bind (Pure.lift _) (fun _ => Pure.pure _), fresh_lift, hs]
          exact hp

theorem fresh_start (path : Path.Path ℝ) (i : Nat) (r : ℝ) (h : radiusOf path i = some r) (p : Vec ℝ)
    (hp : SceneGeometry.partBulgeStart path i r = .ok p) : fresh (bulgeStart i) path = .ok p := by
  unfold SceneGeometry.partBulgeStart at hp
  cases hs : path.startPoint i with
  | error e => rw [hs] at hp; cases hp
  | ok start =>
    cases h1 : SceneGeometry.prevDirection path i with
    | error e => rw [hs, h1] at hp; cases hp
    | ok d1 =>
      cases h2 : SceneGeometry.partDirection path i with
      | error e => rw [hs, h1, h2] at hp; cases hp
      | ok d2 =>
        rw [hs, h1, h2] at hp
        have hp : Path.bulgeStart start d1 d2 r = .ok p := hp
        unfold Path.bulgeStart Path.halfBulgeAngle at hp
        unfold bulgeStart
        rw [fresh_memoBulge path rfl (by rw [h]; rfl), fresh_bind (pure_angle i) (fun _ => Pure.bind (pure_prevDirection i) fun _ =>
          Pure.bind (Pure.lift _) fun _ => Pure.bind (Pure.lift _) fun _ => Pure.pure _), fresh_angle path i (by rw [h]; rfl) d1 d2 h1 h2]
        cases ha : Path.bulgeAngleRad d1 d2 with
        | error e => rw [ha] at hp; cases hp
        | ok angle =>
          rw [ha] at hp
          show fresh (prevDirection i >>= _) path = _
          rw [fresh_bind (pure_prevDirection i) (fun _ => Pure.bind (Pure.lift _) fun _ => Pure.bind (Pure.lift _) fun _ => Pure.pure _),
            fresh_prevDirection, h1]
          show fresh (M.lift _ >>= _) path = _
          rw [fresh_bind (Pure.lift _) (fun _ => Pure.bind (Pure.lift _) fun _ => Pure.pure _), fresh_lift, h]
          show fresh (M.lift _ >>= _) path = _
          rw [fresh_bind (Pure.lift _) (fun _ => Pure.pure _), fresh_lift, hs]
          exact hp

theorem fresh_center (path : Path.Path ℝ) (i : Nat) (r : ℝ) (h : radiusOf path i = some r) (start d1 d2 p : Vec ℝ)
    (hs : path.startPoint i = .ok start) (h1 : SceneGeometry.prevDirection path i = .ok d1)
    (h2 : SceneGeometry.partDirection path i = .ok d2) (hp : Path.bulgeCenter start d1 d2 r = .ok p) :
    fresh (bulgeCenter i) path = .ok p := by
  unfold Path.bulgeCenter Path.halfBulgeAngle at hp
  unfold bulgeCenter
  rw [fresh_memoBulge path rfl (by rw [h]; rfl), fresh_bind (Pure.lift _) (fun _ => Pure.bind (pure_bissectorRadius i _) fun _ =>
    Pure.bind (pure_angle i) fun _ => Pure.bind (Pure.lift _) fun _ => Pure.pure _), fresh_lift, h]
  show fresh (bissectorRadius i (some r) >>= _) path = _
  have hb : fresh (bissectorRadius i (some r)) path = .ok ((Path.bissector d1 d2).smul r) := by
    show fresh (bissector i >>= _) path = _
    rw [fresh_bind (pure_bissector i) (fun _ => Pure.pure _)]
    have hbi : fresh (bissector i) path = .ok (Path.bissector d1 d2) := by
      unfold bissector
      rw [fresh_memo path (new_bissector path i), fresh_bind (pure_direction i) (fun _ => Pure.bind (pure_prevDirection i) fun _ => Pure.pure _),
        fresh_direction, h2]
      show fresh (prevDirection i >>= _) path = _
      rw [fresh_bind (pure_prevDirection i) (fun _ => Pure.pure _), fresh_prevDirection, h1]
      rfl
    rw [hbi]
    rfl
  rw [fresh_bind (pure_bissectorRadius i _) (fun _ => Pure.bind (pure_angle i) fun _ => Pure.bind (Pure.lift _) fun _ => Pure.pure _), hb]
  show fresh (bulgeAngleRad i >>= _) path = _
  rw [fresh_bind (pure_angle i) (fun _ => Pure.bind (Pure.lift _) fun _ => Pure.pure _), fresh_angle path i (by rw [h]; rfl) d1 d2 h1 h2]
  cases ha : Path.bulgeAngleRad d1 d2 with
  | error e => rw [ha] at hp; cases hp
  | ok angle =>
    rw [ha] at hp
    show fresh (M.lift _ >>= _) path = _
    rw [fresh_bind (Pure.lift _) (fun _ => Pure.pure _), fresh_lift, hs]
    exact hp

/-- C210. The points of a linear part, rounded or not, are the ones computed from its corners, its directions and its radius, whatever was
read before: the rounded corner is the one of C108. -/
theorem points_computed (path : Path.Path ℝ) (history : List Read) (i : Nat) (part : Path.Part ℝ) (hi : path.parts[i]? = some part)
    (p q : Vec ℝ) (h : SceneGeometry.linearPoints path i part = .ok (p, q)) :
    (points i (history.foldl Read.after (Obj.new path))).1 = .ok (p, q) := by
  rw [(reads_same path history).1.points]
  show fresh (points i) path = _
  unfold SceneGeometry.linearPoints at h
  cases h1 : SceneGeometry.linearStart path i part with
  | error e => rw [h1] at h; cases h
  | ok a =>
    cases h2 : SceneGeometry.linearStop path i with
    | error e => rw [h1, h2] at h; cases h
    | ok b =>
      rw [h1, h2] at h
      obtain ⟨rfl, rfl⟩ : a = p ∧ b = q := by
        have : Except.ok (a, b) = (Except.ok (p, q) : Except PyErr (Vec ℝ × Vec ℝ)) := h
        simpa using this
      have hr : radiusOf path i = part.radius := by unfold radiusOf; rw [hi]; rfl
      unfold points
      rw [fresh_bind (Pure.lift _) (fun _ => Pure.bind (pure_pointsStart i _) fun _ => Pure.bind (Pure.lift _) fun _ =>
        Pure.bind (pure_pointsStop i _) fun _ => Pure.pure _), fresh_lift]
      show fresh (pointsStart i (radiusOf path i) >>= _) path = _
      have hA : fresh (pointsStart i (radiusOf path i)) path = .ok a := by
        unfold SceneGeometry.linearStart at h1
        cases hp : part.radius with
        | none => rw [hp] at h1; rw [hr, hp]; exact h1
        | some r => rw [hp] at h1; rw [hr, hp]; exact fresh_stop path i r (hr.trans hp) a h1
      rw [fresh_bind (pure_pointsStart i _) (fun _ => Pure.bind (Pure.lift _) fun _ => Pure.bind (pure_pointsStop i _) fun _ => Pure.pure _), hA]
      show fresh (M.lift _ >>= _) path = _
      rw [fresh_bind (Pure.lift _) (fun _ => Pure.bind (pure_pointsStop i _) fun _ => Pure.pure _), fresh_lift]
      show fresh (pointsStop i (rounded path (SceneGeometry.nextIndex path i)) >>= _) path = _
      have hB : fresh (pointsStop i (rounded path (SceneGeometry.nextIndex path i))) path = .ok b := by
        unfold SceneGeometry.linearStop at h2
        cases hn : SceneGeometry.nextIndex path i with
        | none => rw [hn] at h2; exact h2
        | some j =>
          rw [hn] at h2
          dsimp only at h2
          cases hj : path.parts[j]? with
          | none =>
            rw [hj] at h2
            have : rounded path (some j) = none := by simp [rounded, radiusOf, hj]
            rw [this]
            exact h2
          | some next =>
            rw [hj] at h2
            dsimp only at h2
            cases hp : next.radius with
            | none =>
              rw [hp] at h2
              have : rounded path (some j) = none := by simp [rounded, radiusOf, hj, hp]
              rw [this]
              exact h2
            | some r =>
              rw [hp] at h2
              have hrj : radiusOf path j = some r := by simp [radiusOf, hj, hp]
              have : rounded path (some j) = some j := by simp [rounded, hrj]
              rw [this]
              exact fresh_start path j r hrj b h2
      rw [fresh_bind (pure_pointsStop i _) (fun _ => Pure.pure _), hB]
      rfl

/-- C210. The arc of a rounded corner is the one computed from its corner, the directions and the radius, whatever was read before. -/
theorem arc_computed (path : Path.Path ℝ) (history : List Read) (i : Nat) (r : ℝ) (hr : radiusOf path i = some r)
    (arc : Conic.Circle ℝ) (h : SceneGeometry.partBulge path i r = .ok arc) :
    (bulgeGeometry i r (history.foldl Read.after (Obj.new path))).1 = .ok arc := by
  rw [(reads_same path history).1.arc]
  show fresh (bulgeGeometry i r) path = _
  unfold SceneGeometry.partBulge at h
  cases hs : path.startPoint i with
  | error e => rw [hs] at h; cases h
  | ok start =>
    cases h1 : SceneGeometry.prevDirection path i with
    | error e => rw [hs, h1] at h; cases h
    | ok d1 =>
      cases h2 : SceneGeometry.partDirection path i with
      | error e => rw [hs, h1, h2] at h; cases h
      | ok d2 =>
        rw [hs, h1, h2] at h
        have h : Path.bulgeGeometry start d1 d2 r = .ok arc := h
        unfold Path.bulgeGeometry at h
        cases hc : Path.bulgeCenter start d1 d2 r with
        | error e => rw [hc] at h; cases h
        | ok c =>
          cases ha : Path.bulgeStart start d1 d2 r with
          | error e => rw [hc, ha] at h; cases h
          | ok a =>
            cases hb : Path.bulgeStop start d1 d2 r with
            | error e => rw [hc, ha, hb] at h; cases h
            | ok b =>
              cases hg : Path.bulgeAngleRad d1 d2 with
              | error e => rw [hc, ha, hb, hg] at h; cases h
              | ok g =>
                rw [hc, ha, hb, hg] at h
                unfold bulgeGeometry
                rw [fresh_bind (pure_center i) (fun _ => Pure.bind (pure_start i) fun _ => Pure.bind (pure_stop i) fun _ =>
                  Pure.bind (pure_angle i) fun _ => Pure.pure _), fresh_center path i r hr start d1 d2 c hs h1 h2 hc]
                show fresh (bulgeStart i >>= _) path = _
                rw [fresh_bind (pure_start i) (fun _ => Pure.bind (pure_stop i) fun _ => Pure.bind (pure_angle i) fun _ => Pure.pure _),
                  fresh_start path i r hr a (by unfold SceneGeometry.partBulgeStart; rw [hs, h1, h2]; exact ha)]
                show fresh (bulgeStop i >>= _) path = _
                rw [fresh_bind (pure_stop i) (fun _ => Pure.bind (pure_angle i) fun _ => Pure.pure _),
                  fresh_stop path i r hr b (by unfold SceneGeometry.partBulgeStop; rw [hs, h1, h2]; exact hb)]
                show fresh (bulgeAngleRad i >>= _) path = _
                rw [fresh_bind (pure_angle i) (fun _ => Pure.pure _), fresh_angle path i (by rw [hr]; rfl) d1 d2 h1 h2, hg]
                exact h

/-! ## Edits -/

/-- C211, what holds: a part edited before anything was read of the path, with its class and whether it has a radius kept, is as if the
path were made with the new part; and so for the start point of the path. -/
theorem edit_unread_partial (path : Path.Path ℝ) (i : Nat) (old part : Path.Part ℝ) (hi : path.parts[i]? = some old)
    (hr : part.radius.isSome = old.radius.isSome) (p0 : Vec ℝ) :
    (Obj.new path).setPart i part = Obj.new (path.setPart i part) ∧ (Obj.new path).moveTo p0 = Obj.new (path.moveTo p0) := by
  have hlt : i < path.parts.length := by
    by_contra h
    rw [List.getElem?_eq_none (by omega)] at hi
    cases hi
  refine ⟨?_, rfl⟩
  unfold Obj.setPart Obj.new
  dsimp only
  congr 1
  funext j
  unfold Path.Path.setPart
  dsimp only
  rw [List.getElem?_set]
  by_cases e : i = j
  · subst e
    rw [if_pos rfl, if_pos hlt, hi]
    simp [Cache.new, hr]
  · rw [if_neg e]

theorem run_bind {α β : Type} (m : M α) (f : α → M β) (o : Obj) : (m >>= f) o = match m o with
    | (.ok a, o) => f a o
    | (.error e, o) => (.error e, o) := rfl

theorem run_lift {α β : Type} (g : Path.Path ℝ → Except PyErr α) (f : α → M β) (o : Obj) : (M.lift g >>= f) o = match g o.path with
    | .ok a => f a o
    | .error e => (.error e, o) := by
  rw [run_bind]
  unfold M.lift
  cases g o.path <;> rfl

/-- C211, what holds: in a path without rounded corners the points of the linear parts are their start and stop points, whatever was read
or edited before. -/
theorem edit_plain_partial (o : Obj) (h : ∀ j, radiusOf o.path j = none) (i : Nat) :
    (points i o).1 = do
      let start ← o.path.startPoint i
      let stop ← o.path.stopPoint i
      return (start, stop) := by
  have hn : rounded o.path (SceneGeometry.nextIndex o.path i) = none := by
    unfold rounded
    cases SceneGeometry.nextIndex o.path i with
    | none => rfl
    | some j => simp [h j]
  unfold points
  rw [run_lift, h i]
  dsimp only
  unfold pointsStart
  rw [run_lift]
  cases o.path.startPoint i with
  | error e => rfl
  | ok start =>
    dsimp only
    rw [run_lift, hn]
    dsimp only
    unfold pointsStop
    rw [run_lift]
    cases o.path.stopPoint i <;> rfl

/-- C211 is false of a radius given to a part made without one: the attributes of the rounded corner do not exist, and its points cannot be
read any more, `AttributeError` is raised; it holds of every path, after any readings. -/
theorem radius_later_wrong (path : Path.Path ℝ) (history : List Read) (i : Nat) (part : Path.Part ℝ) (hi : path.parts[i]? = some part)
    (hl : part.isLinear = true) (hr : part.radius = none) (r : ℝ) :
    (points i ((history.foldl Read.after (Obj.new path)).setRadius i (some r))).1 = .error .attributeError := by
  obtain ⟨h1, h2⟩ := con_history path history
  generalize history.foldl Read.after (Obj.new path) = o at h1 h2
  subst h1
  have hb : (o.cache i).bulge = none := by
    have := h2.exist i
    have hn : ((Obj.new o.path).cache i).bulge = none := by
      unfold Obj.new
      dsimp only
      rw [hi]
      simp [Cache.new, hr]
    rw [hn] at this
    simpa using this
  have hlt : i < o.path.parts.length := by
    by_contra h
    rw [List.getElem?_eq_none (by omega)] at hi
    cases hi
  have hrad : radiusOf (o.setRadius i (some r)).path i = some |r| := by
    unfold Obj.setRadius
    rw [hi]
    dsimp only [Obj.setPart, Path.Path.setPart, radiusOf]
    rw [List.getElem?_set_self hlt]
    cases part <;> simp_all [withRadius, Path.Part.radius, Path.setRadius, Path.Part.isLinear]
  have hc : ((o.setRadius i (some r)).cache i).bulge = none := by
    unfold Obj.setRadius
    rw [hi]
    exact hb
  unfold points
  rw [run_lift, hrad]
  dsimp only [pointsStart]
  have hs : bulgeStop i (o.setRadius i (some r)) = (.error .attributeError, o.setRadius i (some r)) := by
    unfold bulgeStop M.memoBulge
    rw [hc]
  rw [run_bind, hs]

theorem memo_again {α : Type} {get : Cache → Option α} {set : α → Cache → Cache} {i : Nat} {compute : M α}
    (hset : ∀ a c, get (set a c) = some a) (o : Obj) (a : α) (h : (M.memo get set i compute o).1 = .ok a) :
    get ((M.memo get set i compute o).2.cache i) = some a := by
  unfold M.memo at h ⊢
  cases hg : get (o.cache i) with
  | some b => rw [hg] at h; dsimp only at h ⊢; rw [hg]; simpa using h
  | none =>
    rw [hg] at h
    dsimp only at h ⊢
    rcases hc : compute o with ⟨r, o'⟩
    rw [hc] at h
    cases r with
    | error e => cases h
    | ok b =>
      dsimp only at h ⊢
      rw [if_pos rfl, hset]
      simpa using h

theorem memo_hit {α : Type} {get : Cache → Option α} {set : α → Cache → Cache} {i : Nat} {compute : M α} (o : Obj) (a : α)
    (h : get (o.cache i) = some a) : (M.memo get set i compute o).1 = .ok a := by
  unfold M.memo
  rw [h]

/-- C211 is false once a direction was read: it is kept, and no edit of the parts or of the start point changes it. -/
theorem direction_kept_wrong (o : Obj) (i : Nat) (d : Vec ℝ) (h : (direction i o).1 = .ok d) (j : Nat) (part : Path.Part ℝ) (p0 : Vec ℝ) :
    (direction i ((direction i o).2.setPart j part)).1 = .ok d ∧ (direction i ((direction i o).2.moveTo p0)).1 = .ok d := by
  have hk : ((direction i o).2.cache i).direction = some d :=
    memo_again (get := fun c : Cache => c.direction) (set := fun d c => { c with direction := some d }) (fun _ _ => rfl) o d h
  exact ⟨memo_hit _ d hk, memo_hit _ d hk⟩

theorem memoBulge_again {α : Type} {get : Bulge → Option α} {set : α → Bulge → Bulge} {i : Nat} {compute : M α}
    (hset : ∀ a b, get (set a b) = some a) (hc : Pure compute) (o : Obj) (ho : Con o) (a : α)
    (h : (M.memoBulge get set i compute o).1 = .ok a) :
    ((M.memoBulge get set i compute o).2.cache i).bulge.bind get = some a := by
  unfold M.memoBulge at h ⊢
  cases hb : (o.cache i).bulge with
  | none => rw [hb] at h; cases h
  | some b =>
    rw [hb] at h
    dsimp only at h ⊢
    unfold M.memo at h ⊢
    dsimp only at h ⊢
    rw [hb] at h ⊢
    dsimp only [Option.bind_some] at h ⊢
    cases hg : get b with
    | some c => rw [hg] at h; dsimp only at h ⊢; rw [hb]; simp only [Option.bind_some]; rw [hg]; simpa using h
    | none =>
      rw [hg] at h
      dsimp only at h ⊢
      have hk : ((compute o).2.cache i).bulge.isSome := by
        obtain ⟨_, c2, c3⟩ := hc o ho
        rw [c3.exist i, c2, ← ho.exist i, hb]
        rfl
      rcases hc : compute o with ⟨r, o'⟩
      rw [hc] at h hk
      cases r with
      | error e => cases h
      | ok c =>
        dsimp only at h hk ⊢
        obtain ⟨b', hb'⟩ := Option.isSome_iff_exists.1 hk
        rw [if_pos rfl, hb']
        simp only [Option.map_some, Option.bind_some, hset]
        simpa using h

theorem memoBulge_hit {α : Type} {get : Bulge → Option α} {set : α → Bulge → Bulge} {i : Nat} {compute : M α} (o : Obj) (a : α)
    (h : (o.cache i).bulge.bind get = some a) : (M.memoBulge get set i compute o).1 = .ok a := by
  unfold M.memoBulge
  cases hb : (o.cache i).bulge with
  | none => rw [hb] at h; cases h
  | some b => exact memo_hit o a h

/-- C211 is false once the corner of a part was read: the points and the centre are kept, and neither another radius nor any edit of the
parts changes them. -/
theorem corner_kept_wrong (path : Path.Path ℝ) (history : List Read) (i j : Nat) (p : Vec ℝ) (part : Path.Part ℝ) (radius : Option ℝ) :
    ((bulgeStop i (history.foldl Read.after (Obj.new path))).1 = .ok p →
      (bulgeStop i (((bulgeStop i (history.foldl Read.after (Obj.new path))).2.setPart j part).setRadius i radius)).1 = .ok p) ∧
    ((bulgeStart i (history.foldl Read.after (Obj.new path))).1 = .ok p →
      (bulgeStart i (((bulgeStart i (history.foldl Read.after (Obj.new path))).2.setPart j part).setRadius i radius)).1 = .ok p) ∧
    ((bulgeCenter i (history.foldl Read.after (Obj.new path))).1 = .ok p →
      (bulgeCenter i (((bulgeCenter i (history.foldl Read.after (Obj.new path))).2.setPart j part).setRadius i radius)).1 = .ok p) := by
  obtain ⟨_, ho⟩ := con_history path history
  generalize history.foldl Read.after (Obj.new path) = o at ho
  have hcache : ∀ x : Obj, ((x.setPart j part).setRadius i radius).cache = x.cache := by
    intro x
    unfold Obj.setRadius
    split <;> rfl
  refine ⟨fun h => ?_, fun h => ?_, fun h => ?_⟩
  · refine memoBulge_hit _ p ?_
    rw [hcache]
    exact memoBulge_again (get := fun b : Bulge => b.stop) (set := fun a b => { b with stop := some a }) (fun _ _ => rfl) (Pure.bind (pure_angle i) fun _ => Pure.bind (pure_direction i) fun _ =>
      Pure.bind (Pure.lift _) fun _ => Pure.bind (Pure.lift _) fun _ => Pure.pure _) o ho p h
  · refine memoBulge_hit _ p ?_
    rw [hcache]
    exact memoBulge_again (get := fun b : Bulge => b.start) (set := fun a b => { b with start := some a }) (fun _ _ => rfl) (Pure.bind (pure_angle i) fun _ => Pure.bind (pure_prevDirection i) fun _ =>
      Pure.bind (Pure.lift _) fun _ => Pure.bind (Pure.lift _) fun _ => Pure.pure _) o ho p h
  · refine memoBulge_hit _ p ?_
    rw [hcache]
    exact memoBulge_again (get := fun b : Bulge => b.center) (set := fun a b => { b with center := some a }) (fun _ _ => rfl) (Pure.bind (Pure.lift _) fun _ => Pure.bind (pure_bissectorRadius i _) fun _ =>
      Pure.bind (pure_angle i) fun _ => Pure.bind (Pure.lift _) fun _ => Pure.pure _) o ho p h

/-- The points of a rounded corner depend on the radius: the ones kept are wrong after the radius is changed. -/
theorem corner_radius (corner d1 d2 : Vec ℝ) (r r' : ℝ) (hr : 0 < r) (hr' : 0 < r') (h1 : d1.magnitude = 1) (h2 : d2.magnitude = 1)
    (hx : d1.cross d2 ≠ 0) (h : Path.bulgeStop corner d1 d2 r = Path.bulgeStop corner d1 d2 r') : r = r' := by
  obtain ⟨c, p, q, k, hc, hp, hq, hk, ep, eq, e1, e2, o1, o2⟩ := Path.bulge_tangent corner d1 d2 r hr h1 h2 hx
  obtain ⟨c', p', q', k', hc', hp', hq', hk', ep', eq', e1', e2', o1', o2'⟩ := Path.bulge_tangent corner d1 d2 r' hr' h1 h2 hx
  rw [hq, hq'] at h
  have hqq : q = q' := by simpa using h
  subst hqq
  have hd : d2.x ≠ 0 ∨ d2.y ≠ 0 := by
    by_contra hn
    push Not at hn
    apply hx
    simp [Vec.cross, hn.1, hn.2]
  have hkk : k = k' := by
    rw [eq] at eq'
    have hx1 := congrArg Vec.x eq'
    have hy1 := congrArg Vec.y eq'
    simp at hx1 hy1
    rcases hd with h | h
    · exact hx1.resolve_right h
    · exact hy1.resolve_right h
  subst hkk
  have hpp : p = p' := ep.trans ep'.symm
  subst hpp
  have hcc : c = c' := by
    simp only [Vec.dot, Vec.sub_x, Vec.sub_y] at o1 o2 o1' o2'
    simp only [Vec.cross] at hx
    have a1 : (c.x - c'.x) * d1.x + (c.y - c'.y) * d1.y = 0 := by linarith
    have a2 : (c.x - c'.x) * d2.x + (c.y - c'.y) * d2.y = 0 := by linarith
    have b1 : (c.x - c'.x) * (d1.x * d2.y - d1.y * d2.x) = 0 := by linear_combination d2.y * a1 - d1.y * a2
    have b2 : (c.y - c'.y) * (d1.x * d2.y - d1.y * d2.x) = 0 := by linear_combination d1.x * a2 - d2.x * a1
    ext
    · have := (mul_eq_zero.1 b1).resolve_right hx; linarith
    · have := (mul_eq_zero.1 b2).resolve_right hx; linarith
  rw [← e2, ← e2', hcc]

theorem bind_error {α β : Type} {m : M α} {f : α → M β} {o : Obj} {e : PyErr} (h : (m o).1 = .error e) : ((m >>= f) o).1 = .error e := by
  have e1 : (m >>= f) o = match m o with
    | (.ok a, o) => f a o
    | (.error e, o) => (.error e, o) := rfl
  rw [e1]
  rcases hm : m o with ⟨r, n⟩
  rw [hm] at h
  dsimp only at h
  rw [h]

theorem bind_ok {α β : Type} {m : M α} {f : α → M β} {o n : Obj} {a : α} (h : m o = (.ok a, n)) : (m >>= f) o = f a n := by
  have e1 : (m >>= f) o = match m o with
    | (.ok a, o) => f a o
    | (.error e, o) => (.error e, o) := rfl
  rw [e1, h]

theorem bind_path {α β : Type} {m : M α} {f : α → M β} (hm : ∀ o, (m o).2.path = o.path) (hf : ∀ a o, (f a o).2.path = o.path) (o : Obj) :
    ((m >>= f) o).2.path = o.path := by
  have e1 : (m >>= f) o = match m o with
    | (.ok a, o) => f a o
    | (.error e, o) => (.error e, o) := rfl
  have := hm o
  rw [e1]
  rcases hx : m o with ⟨r, n⟩
  rw [hx] at this
  cases r with
  | error e => exact this
  | ok a => exact (hf a n).trans this

theorem direction_path (i : Nat) (o : Obj) : (direction i o).2.path = o.path := by
  unfold direction M.memo
  split
  · rfl
  · have e := bind_path (m := M.lift (·.stopPoint i))
      (f := fun stop => M.lift (·.startPoint i) >>= fun start => (pure (Path.direction start stop) : M (Vec ℝ))) (fun _ => rfl)
      (fun _ => bind_path (fun _ => rfl) (fun _ _ => rfl)) o
    split
    · rename_i h
      rw [h] at e
      exact e
    · rename_i h
      rw [h] at e
      exact e

theorem prevDirection_path (i : Nat) (o : Obj) : (prevDirection i o).2.path = o.path := by
  unfold prevDirection
  split
  · rfl
  · split
    · exact direction_path _ o
    · rfl

/-- C211. When the radius of a part is set to `None` the points of its corner raise `TypeError`, unless they are kept from a previous
reading. -/
theorem no_radius (o : Obj) (i : Nat) (part : Path.Part ℝ) (hp : o.path.parts[i]? = some part) (b : Bulge) (hb : (o.cache i).bulge = some b) :
    (b.center = none → (bulgeCenter i (o.setRadius i none)).1 = .error .typeError) ∧
    (b.start = none → ∀ a, b.angle = some a → ∀ d, (prevDirection i (o.setRadius i none)).1 = .ok d →
      (bulgeStart i (o.setRadius i none)).1 = .error .typeError) ∧
    (b.stop = none → ∀ a, b.angle = some a → ∀ d, (direction i (o.setRadius i none)).1 = .ok d →
      (bulgeStop i (o.setRadius i none)).1 = .error .typeError) := by
  have hpath : radiusOf (o.setRadius i none).path i = none := by
    unfold Obj.setRadius
    rw [hp]
    unfold radiusOf Obj.setPart Path.Path.setPart
    have hi : i < o.path.parts.length := (List.getElem?_eq_some_iff.1 hp).1
    dsimp only
    rw [List.getElem?_set_self hi]
    cases part <;> rfl
  have hcache : (o.setRadius i none).cache = o.cache := by
    unfold Obj.setRadius
    rw [hp]
    rfl
  generalize o.setRadius i none = o' at hpath hcache
  rw [← hcache] at hb
  have hangle : ∀ a, b.angle = some a → bulgeAngleRad i o' = (.ok a, o') := by
    intro a ha
    unfold bulgeAngleRad M.memoBulge
    rw [hb]
    show M.memo _ _ _ _ o' = _
    unfold M.memo
    dsimp only
    rw [hb]
    dsimp only [Option.bind_some]
    rw [ha]
  have hmemo : ∀ (get : Bulge → Option (Vec ℝ)) (set : Vec ℝ → Bulge → Bulge) (compute : M (Vec ℝ)), get b = none →
      (compute o').1 = .error .typeError → (M.memoBulge get set i compute o').1 = .error .typeError := by
    intro get set compute hg hc
    unfold M.memoBulge
    rw [hb]
    show (M.memo _ _ _ _ o').1 = _
    unfold M.memo
    dsimp only
    rw [hb]
    dsimp only [Option.bind_some]
    rw [hg]
    dsimp only
    rcases h : compute o' with ⟨r, n⟩
    rw [h] at hc
    dsimp only at hc
    rw [hc]
  refine ⟨fun h => hmemo _ _ _ h ?_, fun h a ha d hd => hmemo _ _ _ h ?_, fun h a ha d hd => hmemo _ _ _ h ?_⟩
  · rw [bind_ok (m := M.lift fun path => .ok (radiusOf path i)) (a := radiusOf o'.path i) (n := o') rfl, hpath]
    exact bind_error rfl
  · rw [bind_ok (hangle a ha)]
    have hpd := prevDirection_path i o'
    rcases hx : prevDirection i o' with ⟨r, n⟩
    rw [hx] at hd hpd
    dsimp only at hd hpd
    rw [hd] at hx
    rw [bind_ok hx]
    refine bind_error ?_
    show timesRadius d (radiusOf n.path i) = _
    rw [hpd, hpath]
    rfl
  · rw [bind_ok (hangle a ha)]
    have hpd := direction_path i o'
    rcases hx : direction i o' with ⟨r, n⟩
    rw [hx] at hd hpd
    dsimp only at hd hpd
    rw [hd] at hx
    rw [bind_ok hx]
    refine bind_error ?_
    show timesRadius d (radiusOf n.path i) = _
    rw [hpd, hpath]
    rfl

/-- A corner from (0, 0) by (4, 0) to (4, 4) with the radius 1. -/
def cornerPath : Path.Path ℝ := ⟨⟨0, 0⟩, [.line ⟨4, 0⟩ true none false false, .line ⟨4, 4⟩ true (some 1) false false], false⟩

theorem corner_directions : cornerPath.startPoint 1 = .ok ⟨4, 0⟩ ∧ SceneGeometry.prevDirection cornerPath 1 = .ok ⟨1, 0⟩ ∧
    SceneGeometry.partDirection cornerPath 1 = .ok ⟨0, 1⟩ := by
  have s0 : cornerPath.startPoint 0 = .ok ⟨0, 0⟩ := rfl
  have t0 : cornerPath.stopPoint 0 = .ok ⟨4, 0⟩ := rfl
  have s1 : cornerPath.startPoint 1 = .ok ⟨4, 0⟩ := rfl
  have t1 : cornerPath.stopPoint 1 = .ok ⟨4, 4⟩ := rfl
  have q : √(4 * 4 : ℝ) = 4 := Real.sqrt_mul_self (by norm_num)
  refine ⟨s1, ?_, ?_⟩
  · show SceneGeometry.partDirection cornerPath 0 = _
    unfold SceneGeometry.partDirection
    rw [s0, t0]
    show Except.ok (Path.direction _ _) = _
    congr 1
    ext <;> simp [Path.direction, Path.normalise, Vec.magnitude, Vec.magnitudeSquare, Vec.sdiv, pow_two, q]
  · unfold SceneGeometry.partDirection
    rw [s1, t1]
    show Except.ok (Path.direction _ _) = _
    congr 1
    ext <;> simp [Path.direction, Path.normalise, Vec.magnitude, Vec.magnitudeSquare, Vec.sdiv, pow_two, q]

/-- The hypotheses of `points_computed`, `arc_computed`, `direction_kept_wrong` and `corner_kept_wrong` are met on the corner. -/
example : ∃ p q arc d, SceneGeometry.linearPoints cornerPath 1 (.line ⟨4, 4⟩ true (some 1) false false) = .ok (p, q) ∧
    SceneGeometry.partBulge cornerPath 1 1 = .ok arc ∧ (direction 1 (Obj.new cornerPath)).1 = .ok d ∧
    (bulgeStop 1 (Obj.new cornerPath)).1 = .ok p := by
  obtain ⟨h1, h2, h3⟩ := corner_directions
  have m1 : (⟨1, 0⟩ : Vec ℝ).magnitude = 1 := by simp [Vec.magnitude, Vec.magnitudeSquare]
  have m2 : (⟨0, 1⟩ : Vec ℝ).magnitude = 1 := by simp [Vec.magnitude, Vec.magnitudeSquare]
  obtain ⟨c, p, q, k, hc, hp, hq, -⟩ := Path.bulge_tangent ⟨4, 0⟩ ⟨1, 0⟩ ⟨0, 1⟩ 1 one_pos m1 m2 (by simp [Vec.cross])
  have hB : SceneGeometry.partBulgeStop cornerPath 1 1 = .ok q := by
    unfold SceneGeometry.partBulgeStop
    rw [h1, h2, h3]
    exact hq
  have hA : ∃ g, Path.bulgeAngleRad ⟨1, 0⟩ ⟨0, 1⟩ = .ok g := by
    unfold Path.bulgeStop Path.halfBulgeAngle at hq
    cases hg : Path.bulgeAngleRad ⟨1, 0⟩ ⟨0, 1⟩ with
    | error e => rw [hg] at hq; cases hq
    | ok g => exact ⟨g, rfl⟩
  obtain ⟨g, hg⟩ := hA
  have hG : ∃ arc, SceneGeometry.partBulge cornerPath 1 1 = .ok arc := by
    unfold SceneGeometry.partBulge
    rw [h1, h2, h3]
    show ∃ arc, Path.bulgeGeometry _ _ _ _ = .ok arc
    unfold Path.bulgeGeometry
    rw [hc, hp, hq, hg]
    exact ⟨_, rfl⟩
  obtain ⟨arc, hG⟩ := hG
  refine ⟨q, ⟨4, 4⟩, arc, _, ?_, hG, (fresh_direction cornerPath 1).trans h3, fresh_stop cornerPath 1 1 rfl q hB⟩
  unfold SceneGeometry.linearPoints SceneGeometry.linearStart
  dsimp only [Path.Part.radius]
  rw [hB]
  rfl

/-- The hypotheses of `no_radius` are met on the corner. -/
example : (∃ part, (Obj.new cornerPath).path.parts[1]? = some part) ∧ ((Obj.new cornerPath).cache 1).bulge = some Bulge.reset := ⟨⟨_, rfl⟩, rfl⟩

/-- The direction kept is not the one of the edited path: the segment to (4, 0) moved to (0, 4). -/
example : (direction 0 ((direction 0 (Obj.new cornerPath)).2.setPart 0 (.line ⟨0, 4⟩ true none false false))).1 = .ok ⟨1, 0⟩ ∧
    SceneGeometry.partDirection (cornerPath.setPart 0 (.line ⟨0, 4⟩ true none false false)) 0 = .ok ⟨0, 1⟩ := by
  have h : (direction 0 (Obj.new cornerPath)).1 = .ok ⟨1, 0⟩ := (fresh_direction cornerPath 0).trans corner_directions.2.1
  refine ⟨(direction_kept_wrong _ 0 _ h 0 _ 0).1, ?_⟩
  have s1 : (cornerPath.setPart 0 (.line ⟨0, 4⟩ true none false false)).startPoint 0 = .ok ⟨0, 0⟩ := rfl
  have t1 : (cornerPath.setPart 0 (.line ⟨0, 4⟩ true none false false)).stopPoint 0 = .ok ⟨0, 4⟩ := rfl
  have q : √(4 * 4 : ℝ) = 4 := Real.sqrt_mul_self (by norm_num)
  unfold SceneGeometry.partDirection
  rw [s1, t1]
  show Except.ok (Path.direction _ _) = _
  congr 1
  ext <;> simp [Path.direction, Path.normalise, Vec.magnitude, Vec.magnitudeSquare, Vec.sdiv, pow_two, q]

end

end Patro.PathEdit
