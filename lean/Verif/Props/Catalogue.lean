import Verif.Spec.Catalogue
import Verif.Model.CatalogueData
/-! # The catalogue of the standard measurements (C224) -/

namespace Patro.Catalogue

open Patro.Text (Text)

theorem describes_iff (l : Text × List Text) (m : Entry) : Entry.new l.1 l.2 = .ok m ↔ Describes l m := by
  obtain ⟨code, fields⟩ := l
  obtain ⟨c, n, f, d, v⟩ := m
  unfold Describes Entry.new
  split
  · rename_i a b c' d' h
    simp only at h
    subst h
    constructor
    · intro h
      cases h
      exact ⟨rfl, rfl⟩
    · rintro ⟨h1, h2⟩
      simp only at h1 h2
      cases h1
      cases h2
      rfl
  · rename_i hx
    constructor
    · intro h; cases h
    · rintro ⟨-, h2⟩
      exact absurd h2 (hx _ _ _ _)

theorem new_error (code : Text) (fields : List Text) (err : PyErr) (h : Entry.new code fields = .error err) :
    err = .typeError ∧ fields.length ≠ 4 := by
  unfold Entry.new at h
  split at h
  · cases h
  · rename_i hx
    cases h
    refine ⟨rfl, fun h4 => ?_⟩
    match fields, h4 with
    | [a, b, c, d], _ => exact hx a b c d rfl

/-- The names after measurements were added. -/
def addAll (names : Dict Text Entry) (ms : List Entry) : Dict Text Entry := names ++ ms.map fun m => (m.name, m)

theorem keys_addAll (names : Dict Text Entry) (ms : List Entry) : (addAll names ms).keys = names.keys ++ ms.map (·.name) := by
  simp [addAll, Dict.keys, Function.comp_def]

theorem add_ok {names s : Dict Text Entry} {m : Entry} : add names m = .ok s ↔ m.name ∉ names.keys ∧ s = addAll names [m] := by
  unfold add
  have hc : names.contains m.name = true ↔ m.name ∈ names.keys := Dict.get?_isSome_iff names m.name
  by_cases h : m.name ∈ names.keys
  · rw [if_pos (hc.2 h)]
    constructor
    · intro h'; cases h'
    · intro h'; exact absurd h h'.1
  · rw [if_neg (fun h' => h (hc.1 h'))]
    rw [Dict.set_of_not_mem _ h]
    constructor
    · intro h'; cases h'; exact ⟨h, rfl⟩
    · rintro ⟨-, rfl⟩; rfl

theorem addAll_addAll (names : Dict Text Entry) (a b : List Entry) : addAll (addAll names a) b = addAll names (a ++ b) := by
  simp [addAll]

theorem loadTopic_ok : ∀ (l : List (Text × List Text)) (names s : Dict Text Entry), names.keys.Nodup →
    (loadTopic names l = .ok s ↔ ∃ ms, List.Forall₂ Describes l ms ∧ s = addAll names ms ∧ s.keys.Nodup)
  | [], names, s, hn => by
    simp only [loadTopic]
    constructor
    · intro h; cases h; exact ⟨[], .nil, by simp [addAll], hn⟩
    · rintro ⟨ms, h1, h2, -⟩
      cases h1
      rw [h2]; simp [addAll]
  | (code, fields) :: rest, names, s, hn => by
    simp only [loadTopic]
    cases hm : Entry.new code fields with
    | error e =>
      constructor
      · intro h; cases h
      · rintro ⟨ms, h1, -⟩
        cases h1 with
        | cons h _ =>
          rw [(describes_iff (code, fields) _).2 h] at hm
          cases hm
    | ok m =>
      have hd := (describes_iff (code, fields) m).1 hm
      dsimp only
      have huniq : ∀ m', Describes (code, fields) m' → m' = m := by
        intro m' h'
        have := (describes_iff (code, fields) m').2 h'
        rw [hm] at this
        cases this
        rfl
      cases ha : add names m with
      | error e =>
        constructor
        · intro h; cases h
        · rintro ⟨ms, h1, h2, h3⟩
          cases h1 with
          | @cons _ m' _ ms' h _ =>
            cases huniq _ h
            rw [h2, keys_addAll] at h3
            have hnot : m.name ∉ names.keys := fun hmem => by
              rw [List.nodup_append] at h3
              exact h3.2.2 _ hmem _ (by simp) rfl
            rw [(add_ok (s := addAll names [m])).2 ⟨hnot, rfl⟩] at ha
            cases ha
      | ok names' =>
        obtain ⟨h1, rfl⟩ := add_ok.1 ha
        dsimp only
        rw [loadTopic_ok rest _ _ (by
          rw [keys_addAll, List.nodup_append]
          exact ⟨hn, by simp, by rintro a ha b hb rfl; simp at hb; exact h1 (hb ▸ ha)⟩)]
        constructor
        · rintro ⟨ms, g1, g2, g3⟩
          exact ⟨m :: ms, .cons hd g1, by rw [g2, addAll_addAll]; rfl, g3⟩
        · rintro ⟨ms, g1, g2, g3⟩
          cases g1 with
          | @cons _ m' _ ms' h g1 =>
            cases huniq _ h
            exact ⟨ms', g1, by rw [g2, addAll_addAll]; rfl, g3⟩

theorem forall₂_split {α β : Type} {R : α → β → Prop} : ∀ (a b : List α) (l : List β), List.Forall₂ R (a ++ b) l →
    ∃ x y, l = x ++ y ∧ List.Forall₂ R a x ∧ List.Forall₂ R b y
  | [], b, l, h => ⟨[], l, rfl, .nil, h⟩
  | c :: a, b, l, h => by
    cases h with
    | @cons _ d _ l h1 h2 =>
      obtain ⟨x, y, rfl, h3, h4⟩ := forall₂_split a b l h2
      exact ⟨d :: x, y, rfl, .cons h1 h3, h4⟩

theorem describes_unique : ∀ (l : List (Text × List Text)) (a b : List Entry), List.Forall₂ Describes l a → List.Forall₂ Describes l b → a = b
  | [], _, _, .nil, .nil => rfl
  | x :: l, _, _, .cons (b := m) h1 h2, .cons (b := m') h3 h4 => by
    rw [describes_unique l _ _ h2 h4]
    have h5 := (describes_iff x m).2 h1
    rw [(describes_iff x m').2 h3] at h5
    cases h5
    rfl

theorem loadTopics_ok : ∀ (data : List (Text × Topic)) (names s : Dict Text Entry), names.keys.Nodup →
    (loadTopics names data = .ok s ↔ ∃ ms, Document data ms ∧ s = addAll names ms ∧ s.keys.Nodup)
  | [], names, s, hn => by
    simp only [loadTopics]
    constructor
    · intro h; cases h; exact ⟨[], ⟨by simp, .nil⟩, by simp [addAll], hn⟩
    · rintro ⟨ms, ⟨-, h1⟩, h2, -⟩
      cases h1
      rw [h2]; simp [addAll]
  | (letter, topic) :: rest, names, s, hn => by
    simp only [loadTopics]
    cases ht : topic.measurements with
    | none =>
      constructor
      · intro h; cases h
      · rintro ⟨ms, ⟨h1, -⟩, -⟩
        exact absurd ht (h1 _ (List.mem_cons_self ..))
    | some l =>
      have hl : listed ((letter, topic) :: rest) = l ++ listed rest := by simp [listed, ht]
      have hdoc : ∀ ms, Document ((letter, topic) :: rest) ms ↔
          ∃ a b, ms = a ++ b ∧ List.Forall₂ Describes l a ∧ Document rest b := by
        intro ms
        unfold Document
        rw [hl]
        constructor
        · rintro ⟨h1, h2⟩
          obtain ⟨x, y, h3, h4, h5⟩ := forall₂_split _ _ _ h2
          exact ⟨x, y, h3, h4, fun t ht => h1 t (List.mem_cons_of_mem _ ht), h5⟩
        · rintro ⟨a, b, rfl, h1, h2, h3⟩
          refine ⟨fun t htm => ?_, List.rel_append h1 h3⟩
          rcases List.mem_cons.1 htm with rfl | htm
          · rw [ht]; simp
          · exact h2 t htm
      dsimp only
      cases hlt : loadTopic names l with
      | error e =>
        constructor
        · intro h; cases h
        · rintro ⟨ms, h1, h2, h3⟩
          obtain ⟨a, b, rfl, h4, h5⟩ := (hdoc ms).1 h1
          have : loadTopic names l = .ok (addAll names a) := (loadTopic_ok l names _ hn).2 ⟨a, h4, rfl, by
            rw [h2, ← addAll_addAll, keys_addAll] at h3
            exact (List.nodup_append.1 h3).1⟩
          rw [hlt] at this
          cases this
      | ok names' =>
        obtain ⟨a, g1, rfl, g3⟩ := (loadTopic_ok l names names' hn).1 hlt
        dsimp only
        rw [loadTopics_ok rest _ _ g3]
        have huniq : ∀ a', List.Forall₂ Describes l a' → a' = a := fun a' h' => describes_unique l a' a h' g1
        constructor
        · rintro ⟨b, h1, h2, h3⟩
          exact ⟨a ++ b, (hdoc _).2 ⟨a, b, rfl, g1, h1⟩, by rw [h2, addAll_addAll], h3⟩
        · rintro ⟨ms, h1, h2, h3⟩
          obtain ⟨a', b, rfl, h4, h5⟩ := (hdoc ms).1 h1
          cases huniq _ h4
          exact ⟨b, h5, by rw [h2, addAll_addAll], h3⟩

/-- C224. The catalogue is loaded exactly if every topic has its measurements, every measurement has four fields, and no name occurs twice, in a topic
or in two of them. The measurements are then those of the document, in its order, each with its code, and each is found under its name. -/
theorem load_ok (data : Dict Text Topic) (s : Dict Text Entry) :
    load data = .ok s ↔ ∃ ms, Document data ms ∧ (ms.map (·.name)).Nodup ∧ s.values = ms ∧ s.keys = ms.map (·.name) := by
  unfold load
  rw [loadTopics_ok data [] s (by simp [Dict.keys])]
  refine exists_congr fun ms => and_congr_right fun _ => ?_
  constructor
  · rintro ⟨rfl, h⟩
    rw [keys_addAll] at h
    exact ⟨by simpa [Dict.keys] using h, by simp [addAll, Dict.values, Function.comp_def], by rw [keys_addAll]; rfl⟩
  · rintro ⟨h1, h2, h3⟩
    refine ⟨?_, h3 ▸ h1⟩
    have key : ∀ (d : List (Text × Entry)) (l : List Entry), d.map Prod.snd = l → d.map Prod.fst = l.map (·.name) →
        d = l.map fun m => (m.name, m) := by
      intro d
      induction d with
      | nil => intro l hl _; cases hl; rfl
      | cons x d ih =>
        rintro l rfl hk
        simp only [List.map_cons, List.cons.injEq] at hk ⊢
        exact ⟨Prod.ext hk.1 rfl, ih _ rfl hk.2⟩
    rw [addAll, List.nil_append]
    exact key s ms h2 h3

theorem inj_of_nodup {α β : Type} (f : α → β) : ∀ l : List α, (l.map f).Nodup → ∀ a ∈ l, ∀ b ∈ l, f a = f b → a = b
  | [], _, _, ha, _, _, _ => by cases ha
  | x :: l, h, a, ha, b, hb, hab => by
    rw [List.map_cons, List.nodup_cons] at h
    rcases List.mem_cons.1 ha with h1 | h1 <;> rcases List.mem_cons.1 hb with h2 | h2
    · rw [h1, h2]
    · rw [h1] at hab
      exact absurd (hab ▸ List.mem_map_of_mem h2) h.1
    · rw [h2] at hab
      exact absurd (hab ▸ List.mem_map_of_mem h1) h.1
    · exact inj_of_nodup f l h.2 a h1 b h2 hab

/-- C224. After the loading a name gives the measurement of the document that has it, and any other name raises `KeyError`. -/
theorem load_found (data : Dict Text Topic) (s : Dict Text Entry) (h : load data = .ok s) (ms : List Entry) (hd : Document data ms) :
    (∀ m ∈ ms, s.getItem m.name = .ok m) ∧ ∀ n, n ∉ ms.map (·.name) → s.getItem n = .error .keyError := by
  obtain ⟨ms', h1, h2, h3, h4⟩ := (load_ok data s).1 h
  cases describes_unique _ _ _ h1.2 hd.2
  refine ⟨fun m hm => ?_, fun n hn => ?_⟩
  · have hs : (s.get? m.name).isSome := by rw [Dict.get?_isSome_iff, h4]; exact List.mem_map_of_mem hm
    obtain ⟨m', hm'⟩ := Option.isSome_iff_exists.1 hs
    have hmem := Dict.mem_of_get? hm'
    obtain ⟨l, hl⟩ := (loadTopics_ok data [] s (by simp [Dict.keys])).1 h
    rw [hl.2.1] at hmem
    simp only [addAll, List.nil_append, List.mem_map, Prod.mk.injEq] at hmem
    obtain ⟨m'', hm1, hm2, rfl⟩ := hmem
    cases describes_unique _ _ _ hl.1.2 hd.2
    have : m'' = m := inj_of_nodup _ _ h2 m'' hm1 m hm hm2
    subst this
    simp [Dict.getItem, hm']
  · have : s.get? n = none := by rw [Dict.get?_eq_none_iff, h4]; exact hn
    simp [Dict.getItem, this]

theorem loadTopic_error : ∀ (l : List (Text × List Text)) (names : Dict Text Entry) (err : PyErr), loadTopic names l = .error err →
    (err = .typeError ∧ ∃ m ∈ l, m.2.length ≠ 4) ∨ (err = .nameError ∧ ∃ before x after m ms, l = before ++ x :: after ∧
      Describes x m ∧ List.Forall₂ Describes before ms ∧ m.name ∈ names.keys ++ ms.map (·.name))
  | [], _, _, h => by cases h
  | (code, fields) :: rest, names, err, h => by
    simp only [loadTopic] at h
    cases hm : Entry.new code fields with
    | error e =>
      rw [hm] at h
      cases h
      obtain ⟨h1, h2⟩ := new_error _ _ _ hm
      exact .inl ⟨h1, _, List.mem_cons_self .., h2⟩
    | ok m =>
      have hd := (describes_iff (code, fields) m).1 hm
      rw [hm] at h
      dsimp only at h
      cases ha : add names m with
      | error e =>
        rw [ha] at h
        cases h
        have : err = .nameError ∧ m.name ∈ names.keys := by
          unfold add at ha
          split at ha
          · rename_i hc
            cases ha
            exact ⟨rfl, (Dict.get?_isSome_iff names m.name).1 hc⟩
          · cases ha
        exact .inr ⟨this.1, [], _, rest, m, [], rfl, hd, .nil, by simpa using this.2⟩
      | ok names' =>
        rw [ha] at h
        dsimp only at h
        obtain ⟨-, rfl⟩ := add_ok.1 ha
        rcases loadTopic_error rest _ err h with ⟨h1, m', h2, h3⟩ | ⟨h1, before, x, after, m', ms, h2, h3, h4, h5⟩
        · exact .inl ⟨h1, m', List.mem_cons_of_mem _ h2, h3⟩
        · refine .inr ⟨h1, _ :: before, x, after, m', m :: ms, by rw [h2]; rfl, h3, .cons hd h4, ?_⟩
          rw [keys_addAll] at h5
          simpa using h5

theorem loadTopics_error : ∀ (data : List (Text × Topic)) (names : Dict Text Entry) (err : PyErr), names.keys.Nodup →
    loadTopics names data = .error err → (err = .keyError ∧ ∃ t ∈ data, t.2.measurements = none) ∨
      (err = .typeError ∧ ∃ m ∈ listed data, m.2.length ≠ 4) ∨ (err = .nameError ∧ ∃ before x after m ms, listed data = before ++ x :: after ∧
        Describes x m ∧ List.Forall₂ Describes before ms ∧ m.name ∈ names.keys ++ ms.map (·.name))
  | [], _, _, _, h => by cases h
  | (letter, topic) :: rest, names, err, hn, h => by
    simp only [loadTopics] at h
    cases ht : topic.measurements with
    | none =>
      rw [ht] at h
      cases h
      exact .inl ⟨rfl, _, List.mem_cons_self .., ht⟩
    | some l =>
      have hl : listed ((letter, topic) :: rest) = l ++ listed rest := by simp [listed, ht]
      rw [ht] at h
      dsimp only at h
      rw [hl]
      cases hlt : loadTopic names l with
      | error e =>
        rw [hlt] at h
        cases h
        rcases loadTopic_error l names err hlt with ⟨h1, m, h2, h3⟩ | ⟨h1, before, x, after, m, ms, h2, h3, h4, h5⟩
        · exact .inr (.inl ⟨h1, m, List.mem_append_left _ h2, h3⟩)
        · exact .inr (.inr ⟨h1, before, x, after ++ listed rest, m, ms, by rw [h2]; simp, h3, h4, h5⟩)
      | ok names' =>
        rw [hlt] at h
        dsimp only at h
        obtain ⟨a, g1, rfl, g3⟩ := (loadTopic_ok l names names' hn).1 hlt
        rcases loadTopics_error rest _ err g3 h with ⟨h1, t, h2, h3⟩ | ⟨h1, m, h2, h3⟩ | ⟨h1, before, x, after, m, ms, h2, h3, h4, h5⟩
        · exact .inl ⟨h1, t, List.mem_cons_of_mem _ h2, h3⟩
        · exact .inr (.inl ⟨h1, m, List.mem_append_right _ h2, h3⟩)
        · refine .inr (.inr ⟨h1, l ++ before, x, after, m, a ++ ms, by rw [h2]; simp, h3, List.rel_append g1 h4, ?_⟩)
          rw [keys_addAll] at h5
          simpa using h5

/-- C224. Otherwise the loading raises: `KeyError` when a topic has no measurements, `TypeError` when a measurement does not have four fields, `NameError`
when the name of a measurement is the one of a measurement before it. As the catalogue is loaded when the module of the Valentina measurements is imported,
this one cannot be imported. -/
theorem load_error (data : Dict Text Topic) (err : PyErr) (h : load data = .error err) :
    (err = .keyError ∧ ∃ t ∈ data, t.2.measurements = none) ∨ (err = .typeError ∧ ∃ m ∈ listed data, m.2.length ≠ 4) ∨
      (err = .nameError ∧ ∃ before x after m ms, listed data = before ++ x :: after ∧ Describes x m ∧ List.Forall₂ Describes before ms ∧
        m.name ∈ ms.map (·.name)) := by
  simpa [Dict.keys] using loadTopics_error data [] err (by simp [Dict.keys]) h

theorem loads_of {data : Dict Text Topic} {n : Nat} (h : (load data).toOption.map List.length = some n) :
    ∃ s, load data = .ok s ∧ s.length = n ∧ s.keys.Nodup := by
  cases hs : load data with
  | error e => rw [hs] at h; cases h
  | ok s =>
    rw [hs] at h
    obtain ⟨ms, -, h2, -, h4⟩ := (load_ok data s).1 hs
    exact ⟨s, rfl, Option.some.inj h, h4 ▸ h2⟩

/-- C224. The catalogue that comes with the library is loaded: its 244 names are different. -/
theorem shipped_loads : ∃ s, load shipped = .ok s ∧ s.length = 244 ∧ s.keys.Nodup := loads_of (by decide +kernel)

/-! ## Examples -/

/-- Two topics. -/
def toy : Dict Text Topic :=
  [("A".toList, ⟨some [("A01".toList, ["height", "Height: Total", "From crown of head to floor.", "0"].map String.toList),
      ("A02".toList, ["height_neck", "Height: Neck", "From the neck to the floor.", "0"].map String.toList)]⟩),
   ("B".toList, ⟨some [("B01".toList, ["width_shoulder", "Width: Shoulder", "Horizontal distance.", "0"].map String.toList)]⟩)]

example : ∃ s m, load toy = .ok s ∧ s.getItem "height_neck".toList = .ok m ∧ m.code = "A02".toList ∧ s.length = 3 :=
  ⟨_, _, rfl, rfl, rfl, rfl⟩

/-- A name in two topics, a measurement with three fields, and a topic without measurements. -/
example : load (toy ++ [("C".toList, ⟨some [("C01".toList, ["height", "", "", ""].map String.toList)]⟩)]) = .error .nameError ∧
    load (toy ++ [("C".toList, ⟨some [("C01".toList, ["weight", "", ""].map String.toList)]⟩)]) = .error .typeError ∧
    load (toy ++ [("C".toList, ⟨none⟩)]) = .error .keyError := ⟨rfl, rfl, rfl⟩

end Patro.Catalogue
