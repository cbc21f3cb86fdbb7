import Verif.Spec.PathEdit
/-! # Readings of a path do not depend on what was read before -/

namespace Patro.PathEdit

noncomputable section

/-- The reading `m` of a new path. -/
def fresh {α : Type} (m : M α) (path : Path.Path ℝ) : Except PyErr α := (m (Obj.new path)).1

/-- What is kept is what a new path gives, and the attributes which exist are the ones of a new path. -/
structure Con (o : Obj) : Prop where
  direction : ∀ i a, (o.cache i).direction = some a → fresh (PathEdit.direction i) o.path = .ok a
  bissector : ∀ i a, (o.cache i).bissector = some a → fresh (PathEdit.bissector i) o.path = .ok a
  angle : ∀ i b a, (o.cache i).bulge = some b → b.angle = some a → fresh (bulgeAngleRad i) o.path = .ok a
  center : ∀ i b a, (o.cache i).bulge = some b → b.center = some a → fresh (bulgeCenter i) o.path = .ok a
  start : ∀ i b a, (o.cache i).bulge = some b → b.start = some a → fresh (bulgeStart i) o.path = .ok a
  stop : ∀ i b a, (o.cache i).bulge = some b → b.stop = some a → fresh (bulgeStop i) o.path = .ok a
  exist : ∀ i, (o.cache i).bulge.isSome = ((Obj.new o.path).cache i).bulge.isSome

theorem new_path (path : Path.Path ℝ) : (Obj.new path).path = path := rfl

theorem new_direction (path : Path.Path ℝ) (i : Nat) : ((Obj.new path).cache i).direction = none := by
  unfold Obj.new; dsimp only; split <;> rfl

theorem new_bissector (path : Path.Path ℝ) (i : Nat) : ((Obj.new path).cache i).bissector = none := by
  unfold Obj.new; dsimp only; split <;> rfl

theorem new_bulge (path : Path.Path ℝ) (i : Nat) (b : Bulge) (h : ((Obj.new path).cache i).bulge = some b) : b = Bulge.reset := by
  unfold Obj.new at h
  dsimp only at h
  split at h
  · unfold Cache.new at h
    dsimp only at h
    split at h
    · exact (Option.some.inj h).symm
    · exact absurd h (by simp)
  · exact absurd h (by simp)

theorem Con.new (path : Path.Path ℝ) : Con (Obj.new path) where
  direction i a h := by rw [new_direction] at h; cases h
  bissector i a h := by rw [new_bissector] at h; cases h
  angle i b a h h' := by rw [new_bulge path i b h] at h'; cases h'
  center i b a h h' := by rw [new_bulge path i b h] at h'; cases h'
  start i b a h h' := by rw [new_bulge path i b h] at h'; cases h'
  stop i b a h h' := by rw [new_bulge path i b h] at h'; cases h'
  exist i := rfl

/-- A reading which gives what it gives on a new path, changes only what is kept, and keeps right values. -/
def Pure {α : Type} (m : M α) : Prop := ∀ o, Con o → (m o).1 = fresh m o.path ∧ (m o).2.path = o.path ∧ Con (m o).2

theorem Pure.lift {α : Type} (f : Path.Path ℝ → Except PyErr α) : Pure (M.lift f) := fun _ h => ⟨rfl, rfl, h⟩

theorem Pure.pure {α : Type} (a : α) : Pure (Pure.pure a : M α) := fun _ h => ⟨rfl, rfl, h⟩

theorem Pure.bind {α β : Type} {m : M α} {f : α → M β} (hm : Pure m) (hf : ∀ a, Pure (f a)) : Pure (m >>= f) := by
  intro o h
  obtain ⟨h1, h2, h3⟩ := hm o h
  obtain ⟨n1, n2, n3⟩ := hm (Obj.new o.path) (Con.new _)
  have e : ∀ o', (m >>= f) o' = match m o' with
    | (.ok a, o) => f a o
    | (.error e, o) => (.error e, o) := fun _ => rfl
  unfold fresh at h1 ⊢
  rw [e, e]
  rcases hmo : m o with ⟨r, o'⟩
  rcases hmn : m (Obj.new o.path) with ⟨r', n'⟩
  rw [hmo] at h1 h2 h3
  rw [hmn] at h1 n2 n3
  dsimp only at h1 h2 h3 n2 n3 ⊢
  subst h1
  cases r with
  | error e => exact ⟨rfl, h2, h3⟩
  | ok a =>
    dsimp only
    obtain ⟨k1, k2, k3⟩ := hf a o' h3
    obtain ⟨l1, l2, l3⟩ := hf a n' n3
    rw [h2] at k1
    rw [n2, new_path] at l1
    exact ⟨k1.trans l1.symm, k2.trans h2, k3⟩

theorem Pure.ite {α : Type} {p : Prop} [Decidable p] {m m' : M α} (h : Pure m) (h' : Pure m') : Pure (if p then m else m') := by
  split <;> assumption

/-- A kept attribute: `hget` reads the right value, `hset` keeps right values. -/
theorem Pure.memo {α : Type} {get : Cache → Option α} {set : α → Cache → Cache} {i : Nat} {compute : M α} (hc : Pure compute)
    (hnew : ∀ path, get ((Obj.new path).cache i) = none)
    (hget : ∀ o, Con o → ∀ a, get (o.cache i) = some a → fresh (M.memo get set i compute) o.path = .ok a)
    (hset : ∀ o, Con o → ∀ a, fresh (M.memo get set i compute) o.path = .ok a →
      Con { o with cache := fun j => if j = i then set a (o.cache i) else o.cache j }) : Pure (M.memo get set i compute) := by
  intro o h
  have hf : fresh (M.memo get set i compute) o.path = fresh compute o.path := by
    unfold fresh M.memo
    rw [hnew]
    dsimp only
    rcases hcn : compute (Obj.new o.path) with ⟨r, n⟩
    cases r <;> rfl
  obtain ⟨h1, h2, h3⟩ := hc o h
  have h4 : M.memo get set i compute o = match get (o.cache i) with
    | some a => (.ok a, o)
    | none =>
      match compute o with
      | (.ok a, o) => (.ok a, { o with cache := fun j => if j = i then set a (o.cache i) else o.cache j })
      | (.error e, o) => (.error e, o) := rfl
  rw [h4]
  cases hg : get (o.cache i) with
  | some a => exact ⟨(hget o h a hg).symm, rfl, h⟩
  | none =>
    dsimp only
    rcases hco : compute o with ⟨r, o'⟩
    rw [hco] at h1 h2 h3
    dsimp only at h1 h2 h3
    cases r with
    | error e => exact ⟨by rw [hf]; exact h1, h2, h3⟩
    | ok a =>
      dsimp only
      have hf' := hf.trans h1.symm
      exact ⟨hf'.symm, h2, hset o' h3 a (by rw [h2]; exact hf')⟩

theorem Pure.memoBulge {α : Type} {get : Bulge → Option α} {set : α → Bulge → Bulge} {i : Nat} {compute : M α} (hc : Pure compute)
    (hnew : get Bulge.reset = none)
    (hget : ∀ o, Con o → ∀ b a, (o.cache i).bulge = some b → get b = some a → fresh (M.memoBulge get set i compute) o.path = .ok a)
    (hset : ∀ o, Con o → ∀ a b, fresh (M.memoBulge get set i compute) o.path = .ok a → (o.cache i).bulge = some b →
      Con { o with cache := fun j => if j = i then { o.cache i with bulge := some (set a b) } else o.cache j }) :
    Pure (M.memoBulge get set i compute) := by
  intro o h
  have hnew' : ∀ path, (fun c : Cache => c.bulge.bind get) ((Obj.new path).cache i) = none := by
    intro path
    dsimp only
    cases hb : ((Obj.new path).cache i).bulge with
    | none => rfl
    | some b => rw [new_bulge path i b hb]; exact hnew
  have hex := h.exist i
  have key : ∀ o', M.memoBulge get set i compute o' = match (o'.cache i).bulge with
    | none => (.error .attributeError, o')
    | some _ => M.memo (fun c => c.bulge.bind get) (fun a c => { c with bulge := c.bulge.map (set a) }) i compute o' := fun _ => rfl
  cases hb : (o.cache i).bulge with
  | none =>
    have hn : ((Obj.new o.path).cache i).bulge = none := by rw [hb] at hex; simpa using hex.symm
    unfold fresh
    rw [key, key, hb, hn]
    exact ⟨rfl, rfl, h⟩
  | some b =>
    have hn : ∃ b', ((Obj.new o.path).cache i).bulge = some b' := by
      rw [hb] at hex
      exact Option.isSome_iff_exists.1 hex.symm
    have hfr : ∀ path, ((Obj.new path).cache i).bulge.isSome = true → fresh (M.memoBulge get set i compute) path =
        fresh (M.memo (fun c => c.bulge.bind get) (fun a c => { c with bulge := c.bulge.map (set a) }) i compute) path := by
      intro path hp
      obtain ⟨b', hb'⟩ := Option.isSome_iff_exists.1 hp
      unfold fresh
      rw [key, hb']
    -- only the objects with the attributes are met
    obtain ⟨h1, h2, h3⟩ := hc o h
    have hf : fresh (M.memoBulge get set i compute) o.path = fresh compute o.path := by
      obtain ⟨b', hb'⟩ := hn
      rw [hfr o.path (by rw [hb']; rfl)]
      unfold fresh M.memo
      rw [hnew']
      dsimp only
      rcases hcn : compute (Obj.new o.path) with ⟨r, n⟩
      cases r <;> rfl
    rw [key, hb]
    dsimp only
    unfold M.memo
    dsimp only
    rw [hb]
    dsimp only [Option.bind_some]
    cases hg : get b with
    | some a => exact ⟨(hget o h b a hb hg).symm, rfl, h⟩
    | none =>
      dsimp only
      rcases hco : compute o with ⟨r, o'⟩
      rw [hco] at h1 h2 h3
      dsimp only at h1 h2 h3
      cases r with
      | error e => exact ⟨by rw [hf]; exact h1, h2, h3⟩
      | ok a =>
        dsimp only
        have hf' := hf.trans h1.symm
        refine ⟨hf'.symm, h2, ?_⟩
        have hs : ∃ b', (o'.cache i).bulge = some b' := by
          have := h3.exist i
          rw [h2, ← hex, hb] at this
          exact Option.isSome_iff_exists.1 this
        obtain ⟨b', hb'⟩ := hs
        have := hset o' h3 a b' (by rw [h2]; exact hf') hb'
        rw [hb']
        exact this

theorem pure_direction (i : Nat) : Pure (direction i) := by
  refine Pure.memo (Pure.bind (Pure.lift _) fun _ => Pure.bind (Pure.lift _) fun _ => Pure.pure _) (fun path => new_direction path i)
    (fun o h a ha => h.direction i a ha) ?_
  intro o h a ha
  constructor
  · intro j b hb
    dsimp only at hb
    split at hb
    · next e => subst e; simp only [Option.some.injEq] at hb; subst hb; exact ha
    · exact h.direction j b hb
  · intro j b hb
    dsimp only at hb
    split at hb
    · next e => subst e; exact h.bissector _ b hb
    · exact h.bissector j b hb
  all_goals first
    | (intro j b c hb hc
       dsimp only at hb
       split at hb
       · next e => subst e; first | exact h.angle _ b c hb hc | exact h.center _ b c hb hc | exact h.start _ b c hb hc | exact h.stop _ b c hb hc
       · first | exact h.angle j b c hb hc | exact h.center j b c hb hc | exact h.start j b c hb hc | exact h.stop j b c hb hc)
    | (intro j
       dsimp only
       split
       · next e => subst e; exact h.exist _
       · exact h.exist j)

theorem pure_prevDirection (i : Nat) : Pure (prevDirection i) := by
  intro o h
  have key : ∀ o, prevDirection i o = match o.path.prevIndex i with
    | none => (.error .attributeError, o)
    | some j => if (o.path.parts[j]?.map Path.Part.isLinear) = some true then direction j o else (.error .attributeError, o) := fun _ => rfl
  unfold fresh
  rw [key, key, new_path]
  cases o.path.prevIndex i with
  | none => exact ⟨rfl, rfl, h⟩
  | some j =>
    dsimp only
    split
    · exact pure_direction j o h
    · exact ⟨rfl, rfl, h⟩

theorem pure_bissector (i : Nat) : Pure (bissector i) := by
  refine Pure.memo (Pure.bind (pure_direction i) fun _ => Pure.bind (pure_prevDirection i) fun _ => Pure.pure _)
    (fun path => new_bissector path i) (fun o h a ha => h.bissector i a ha) ?_
  intro o h a ha
  constructor
  · intro j b hb
    dsimp only at hb
    split at hb
    · next e => subst e; exact h.direction _ b hb
    · exact h.direction j b hb
  · intro j b hb
    dsimp only at hb
    split at hb
    · next e => subst e; simp only [Option.some.injEq] at hb; subst hb; exact ha
    · exact h.bissector j b hb
  all_goals first
    | (intro j b c hb hc
       dsimp only at hb
       split at hb
       · next e => subst e; first | exact h.angle _ b c hb hc | exact h.center _ b c hb hc | exact h.start _ b c hb hc | exact h.stop _ b c hb hc
       · first | exact h.angle j b c hb hc | exact h.center j b c hb hc | exact h.start j b c hb hc | exact h.stop j b c hb hc)
    | (intro j
       dsimp only
       split
       · next e => subst e; exact h.exist _
       · exact h.exist j)

/-- The tactic shared by the attributes of `_reset_cache`. -/
theorem con_set (o : Obj) (h : Con o) (i : Nat) (b b' : Bulge) (hb : (o.cache i).bulge = some b)
    (h1 : ∀ a, b'.angle = some a → b.angle = some a ∨ fresh (bulgeAngleRad i) o.path = .ok a)
    (h2 : ∀ a, b'.center = some a → b.center = some a ∨ fresh (bulgeCenter i) o.path = .ok a)
    (h3 : ∀ a, b'.start = some a → b.start = some a ∨ fresh (bulgeStart i) o.path = .ok a)
    (h4 : ∀ a, b'.stop = some a → b.stop = some a ∨ fresh (bulgeStop i) o.path = .ok a) :
    Con { o with cache := fun j => if j = i then { o.cache i with bulge := some b' } else o.cache j } := by
  constructor
  · intro j a ha
    dsimp only at ha
    split at ha
    · next e => subst e; exact h.direction _ a ha
    · exact h.direction j a ha
  · intro j a ha
    dsimp only at ha
    split at ha
    · next e => subst e; exact h.bissector _ a ha
    · exact h.bissector j a ha
  · intro j c a hc ha
    dsimp only at hc
    split at hc
    · next e => subst e; obtain rfl := Option.some.inj hc; exact (h1 a ha).elim (h.angle _ b a hb) id
    · exact h.angle j c a hc ha
  · intro j c a hc ha
    dsimp only at hc
    split at hc
    · next e => subst e; obtain rfl := Option.some.inj hc; exact (h2 a ha).elim (h.center _ b a hb) id
    · exact h.center j c a hc ha
  · intro j c a hc ha
    dsimp only at hc
    split at hc
    · next e => subst e; obtain rfl := Option.some.inj hc; exact (h3 a ha).elim (h.start _ b a hb) id
    · exact h.start j c a hc ha
  · intro j c a hc ha
    dsimp only at hc
    split at hc
    · next e => subst e; obtain rfl := Option.some.inj hc; exact (h4 a ha).elim (h.stop _ b a hb) id
    · exact h.stop j c a hc ha
  · intro j
    dsimp only
    split
    · next e => subst e; have := h.exist j; rw [hb] at this; exact this
    · exact h.exist j

theorem pure_angle (i : Nat) : Pure (bulgeAngleRad i) := by
  refine Pure.memoBulge (Pure.bind (pure_direction i) fun _ => Pure.bind (pure_prevDirection i) fun _ => Pure.lift _) rfl
    (fun o h b a hb ha => h.angle i b a hb ha) ?_
  intro o h a b ha hb
  refine con_set o h i b _ hb ?_ (fun _ h => .inl h) (fun _ h => .inl h) (fun _ h => .inl h)
  intro c hc
  obtain rfl := Option.some.inj hc
  exact .inr ha

theorem pure_bissectorRadius (i : Nat) (radius : Option ℝ) : Pure (bissectorRadius i radius) := by
  cases radius with
  | none => exact Pure.lift _
  | some r => exact Pure.bind (pure_bissector i) fun _ => Pure.pure _

theorem pure_center (i : Nat) : Pure (bulgeCenter i) := by
  refine Pure.memoBulge (Pure.bind (Pure.lift _) fun _ => Pure.bind (pure_bissectorRadius i _) fun _ =>
    Pure.bind (pure_angle i) fun _ => Pure.bind (Pure.lift _) fun _ => Pure.pure _) rfl
    (fun o h b a hb ha => h.center i b a hb ha) ?_
  intro o h a b ha hb
  refine con_set o h i b _ hb (fun _ h => .inl h) ?_ (fun _ h => .inl h) (fun _ h => .inl h)
  intro c hc
  obtain rfl := Option.some.inj hc
  exact .inr ha

theorem pure_start (i : Nat) : Pure (bulgeStart i) := by
  refine Pure.memoBulge (Pure.bind (pure_angle i) fun _ => Pure.bind (pure_prevDirection i) fun _ =>
    Pure.bind (Pure.lift _) fun _ => Pure.bind (Pure.lift _) fun _ => Pure.pure _) rfl
    (fun o h b a hb ha => h.start i b a hb ha) ?_
  intro o h a b ha hb
  refine con_set o h i b _ hb (fun _ h => .inl h) (fun _ h => .inl h) ?_ (fun _ h => .inl h)
  intro c hc
  obtain rfl := Option.some.inj hc
  exact .inr ha

theorem pure_stop (i : Nat) : Pure (bulgeStop i) := by
  refine Pure.memoBulge (Pure.bind (pure_angle i) fun _ => Pure.bind (pure_direction i) fun _ =>
    Pure.bind (Pure.lift _) fun _ => Pure.bind (Pure.lift _) fun _ => Pure.pure _) rfl
    (fun o h b a hb ha => h.stop i b a hb ha) ?_
  intro o h a b ha hb
  refine con_set o h i b _ hb (fun _ h => .inl h) (fun _ h => .inl h) (fun _ h => .inl h) ?_
  intro c hc
  obtain rfl := Option.some.inj hc
  exact .inr ha

theorem pure_geometry (i : Nat) (radius : ℝ) : Pure (bulgeGeometry i radius) :=
  Pure.bind (pure_center i) fun _ => Pure.bind (pure_start i) fun _ => Pure.bind (pure_stop i) fun _ =>
    Pure.bind (pure_angle i) fun _ => Pure.pure _

theorem pure_pointsStart (i : Nat) (radius : Option ℝ) : Pure (pointsStart i radius) := by
  cases radius with
  | none => exact Pure.lift _
  | some r => exact pure_stop i

theorem pure_pointsStop (i : Nat) (next : Option Nat) : Pure (pointsStop i next) := by
  cases next with
  | none => exact Pure.lift _
  | some r => exact pure_start r

theorem pure_points (i : Nat) : Pure (points i) :=
  Pure.bind (Pure.lift _) fun _ => Pure.bind (pure_pointsStart i _) fun _ => Pure.bind (Pure.lift _) fun _ =>
    Pure.bind (pure_pointsStop i _) fun _ => Pure.pure _

end

end Patro.PathEdit
