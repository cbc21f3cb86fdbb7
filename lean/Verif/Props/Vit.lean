import Verif.Proof.Vit
/-!
# C166–C170: Valentina measurements, `.vit` files, personal data, dates, standard measurements
-/

set_option linter.unusedSimpArgs false
set_option linter.unusedVariables false

namespace Patro.Vit

open Patro.Text (Text)
open Measurement (Formula Meas MSet)

variable {K : Type} (isAlnum : Char → Bool) (sympify : Text → Except PyErr (Formula K))

/-! ## C166 -/

/-- C166. A call of `add` succeeds exactly when it makes a measurement, its name being valid and its value an expression, and no
measurement of the set has this name; then the measurement is the last one and the others do not change. -/
theorem vset_add (calls : List Call) (c : Call) :
    let s := VSet.addAll isAlnum sympify {} calls
    ((∃ s', s.add isAlnum sympify c.name c.value c.fullName c.description = .ok s') ↔
      ∃ m, Makes isAlnum sympify c m ∧ ∀ m' ∈ s.objects, m'.name ≠ m.name) ∧
    (∀ s', s.add isAlnum sympify c.name c.value c.fullName c.description = .ok s' →
      ∃ m, Makes isAlnum sympify c m ∧ s'.objects = s.objects ++ [m]) := by
  intro s
  have h := vinv_addAll (sympify := sympify) (vinv_new (K := K) isAlnum) calls
  rcases add_cases (sympify := sympify) h c with ⟨m, hm, hin, s', h1, h2, _, _, h5⟩ | ⟨m, hm, hin, h1⟩ | ⟨hno, e, h1⟩
  · refine ⟨⟨fun _ => ⟨m, hm, fun m' hm' he => hin (he ▸ List.mem_map_of_mem hm')⟩, fun _ => ⟨s', h1⟩⟩, ?_⟩
    intro s1 hs1
    rw [h1] at hs1
    cases hs1
    exact ⟨m, hm, h2⟩
  · refine ⟨⟨fun ⟨s', hs'⟩ => (by rw [h1] at hs'; cases hs'), ?_⟩, fun s' hs' => by rw [h1] at hs'; cases hs'⟩
    rintro ⟨m', hm', hno⟩
    obtain ⟨m1, hm1, he⟩ := List.mem_map.1 hin
    exact absurd (he.trans (makes_unique hm hm').2.1) (hno m1 hm1)
  · exact ⟨⟨fun ⟨s', hs'⟩ => (by rw [h1] at hs'; cases hs'), fun ⟨m, hm, _⟩ => absurd hm (hno m)⟩,
      fun s' hs' => by rw [h1] at hs'; cases hs'⟩

/-- C166. A call without value raises `AttributeError`, with a bad name `ValueError`, with a value that is not an expression what
`sympify` raises, with a name that is taken `NameError`. -/
theorem vset_add_errors (calls : List Call) (c : Call) :
    let s := VSet.addAll isAlnum sympify {} calls
    (c.value = none → s.add isAlnum sympify c.name c.value c.fullName c.description = .error .attributeError) ∧
    (c.value ≠ none → (¬ ∃ n, StoredName isAlnum c.name n) →
      s.add isAlnum sympify c.name c.value c.fullName c.description = .error .valueError) ∧
    (∀ t n e, c.value = some t → StoredName isAlnum c.name n → sympify (coded t) = .error e →
      s.add isAlnum sympify c.name c.value c.fullName c.description = .error e) ∧
    (∀ m, Makes isAlnum sympify c m → (∃ m' ∈ s.objects, m'.name = m.name) →
      s.add isAlnum sympify c.name c.value c.fullName c.description = .error .nameError) := by
  intro s
  have h := vinv_addAll (sympify := sympify) (vinv_new (K := K) isAlnum) calls
  refine ⟨?_, ?_, ?_, ?_⟩
  · intro hv
    unfold VSet.add VMeas.new
    rw [hv]
  · intro hv hn
    cases hv' : c.value with
    | none => exact absurd hv' hv
    | some t =>
      unfold VSet.add VMeas.new
      simp only
      cases hval : Measurement.validateName isAlnum (replacePrefix c.name) with
      | ok n => exact absurd ⟨n, (validate_iff _ _ _).1 hval⟩ hn
      | error e => rw [validate_error _ _ _ hval]
  · intro t n e hv hn he
    unfold VSet.add VMeas.new
    simp only [hv, (validate_iff _ _ _).2 hn, replacePrefix_eq t, he]
  · rintro m hm ⟨m', hm', he⟩
    rcases add_cases (sympify := sympify) h c with ⟨m1, hm1, hin, _⟩ | ⟨_, _, _, h1⟩ | ⟨hno, _⟩
    · exact absurd (((makes_unique hm hm1).2.1 ▸ he) ▸ List.mem_map_of_mem hm') hin
    · exact h1
    · exact absurd hm (hno m)

/-- C166. After any sequence of calls, a key gives the measurement that has it: the key is the stored name, or the name with `@` of
a custom measurement. Other keys raise `KeyError`, and no two measurements have a key in common. -/
theorem vset_lookup (calls : List Call) (k : Text) (i : Nat) :
    let s := VSet.addAll isAlnum sympify {} calls
    (s.get k = .ok i ↔ ∃ m, s.objects[i]? = some m ∧ KeyOf m k) ∧
    ((∀ m ∈ s.objects, ¬ KeyOf m k) → s.get k = .error .keyError) ∧
    (∀ m ∈ s.objects, StoredName isAlnum m.valentinaName m.name) := by
  intro s
  have h := vinv_addAll (sympify := sympify) (vinv_new (K := K) isAlnum) calls
  have hg := vinv_get h k
  refine ⟨?_, ?_, h.stored⟩
  · rw [← hg, VSet.get, Dict.getItem]
    change _ ↔ s.names.get? k = some i
    cases s.names.get? k <;> simp
  · intro hno
    have : s.names.get? k = none := by
      cases hk : s.names.get? k with
      | none => rfl
      | some j =>
        obtain ⟨m, hm, hk'⟩ := (hg j).1 hk
        exact absurd hk' (hno m (List.mem_of_getElem? hm))
    rw [VSet.get, Dict.getItem, this]

/-- C166. A loop over the set gives a measurement that is not custom once. What is missing: a custom one, see
`vset_iter_wrong`. -/
theorem vset_iter_partial (calls : List Call) (i : Nat) (m : VMeas K) :
    let s := VSet.addAll isAlnum sympify {} calls
    s.objects[i]? = some m → ¬ Custom m → s.iter.count i = 1 ∧ s.sortedIter.count i = 1 := by
  intro s hm hc
  have h := vinv_addAll (sympify := sympify) (vinv_new (K := K) isAlnum) calls
  have hcount := iter_count h i
  rw [← isCustom_iff] at hc
  rw [(sortedIter_perm h).count_eq]
  refine (and_self_iff).2 ?_
  rw [hcount]
  change (match s.objects[i]? with | some m => _ | none => _) = _
  rw [hm]
  exact if_neg hc

/-- C166. A loop over the set gives every custom measurement twice: it is stored under two names. -/
theorem vset_iter_wrong (calls : List Call) (i : Nat) (m : VMeas K) :
    let s := VSet.addAll isAlnum sympify {} calls
    s.objects[i]? = some m → Custom m → s.iter.count i = 2 ∧ s.sortedIter.count i = 2 := by
  intro s hm hc
  have h := vinv_addAll (sympify := sympify) (vinv_new (K := K) isAlnum) calls
  have hcount := iter_count h i
  rw [← isCustom_iff] at hc
  rw [(sortedIter_perm h).count_eq]
  refine (and_self_iff).2 ?_
  rw [hcount]
  change (match s.objects[i]? with | some m => _ | none => _) = _
  rw [hm]
  exact if_pos hc

/-- C166. A custom measurement `@a` and a measurement `C_a` exclude each other, whatever the name: the second one raises
`NameError`. -/
theorem vset_clash_wrong (calls : List Call) (t v fullName description : Text) (f : Formula K) (n : Text)
    (hn : StoredName isAlnum ('@' :: t) n) (hv : sympify (coded v) = .ok f) :
    let s := VSet.addAll isAlnum sympify {} calls
    (∃ m ∈ s.objects, m.valentinaName = '@' :: t) →
      s.add isAlnum sympify ('C' :: '_' :: t) (some v) fullName description = .error .nameError := by
  intro s ⟨m, hm, hmt⟩
  have h := vinv_addAll (sympify := sympify) (vinv_new (K := K) isAlnum) calls
  have hst := h.stored m hm
  have hco : coded ('C' :: '_' :: t) = coded ('@' :: t) := by
    simp only [coded, List.flatMap_cons]
    rfl
  have hmk : Makes isAlnum sympify ⟨'C' :: '_' :: t, some v, fullName, description⟩
      ⟨'C' :: '_' :: t, n, fullName, description, Meas.new (.formula f)⟩ :=
    ⟨rfl, ⟨by rw [hn.1, hco], hn.2⟩, ⟨v, rfl, hv⟩, rfl, rfl⟩
  exact (vset_add_errors isAlnum sympify calls ⟨'C' :: '_' :: t, some v, fullName, description⟩).2.2.2 _ hmk
    ⟨m, hm, by rw [hst.1, hmt]; exact hn.1.symm⟩

/-- C166. Custom measurements behave as measurements called `C_…`: the set has the names and the expressions of a plain set filled
with the calls in which `@` is replaced by `C_` in the name and in the value, and substitutes the same expressions. -/
theorem vset_plain (calls : List Call) (g : Formula K) :
    let s := VSet.addAll isAlnum sympify {} calls
    let plain := MSet.addAll isAlnum [] (calls.filterMap fun c => match c.value with
      | none => none
      | some t => match sympify (coded t) with
        | .ok f => some (coded c.name, Measurement.Arg.formula f)
        | .error _ => none)
    s.objects.map (fun m => (m.name, m.core)) = plain ∧ s.subs g = plain.subs g ∧
      ∀ (i : Nat) m k, s.objects[i]? = some m → KeyOf m k → s.evaluated k = .ok (plain.subs m.core.expression) := by
  intro s plain
  have h := vinv_addAll (sympify := sympify) (vinv_new (K := K) isAlnum) calls
  have hp : s.objects.map (fun m => (m.name, m.core)) = plain := plain_eq (vinv_new isAlnum) calls
  refine ⟨hp, ?_, ?_⟩
  · rw [← hp]; exact sub_eq h g
  · intro i m k hm hk
    have hg : s.names.get? k = some i := (vinv_get h k i).2 ⟨m, hm, hk⟩
    unfold VSet.evaluated
    rw [hg]
    simp only [hm]
    rw [← hp]
    exact congrArg _ (sub_eq h _)

/-! ## C167 -/

/-- C167. A `.vit` file that is read says what the object holds: the measurements are the elements of `body-measurements` in order,
with distinct names, and they are those of the corresponding calls of `add`. -/
theorem vit_read (upper : Text → Text) (tree : Node) (f : VitFile K) (h : readVit isAlnum sympify upper tree = .ok f) :
    VitOf isAlnum sympify upper tree f ∧
      ∃ n, FirstChild tree "body-measurements" n ∧ f.measurements = VSet.addAll isAlnum sympify {} (n.children.map callOf) := by
  unfold readVit at h
  simp only [bind, Except.bind, pure, Except.pure] at h
  cases h1 : xpathText (some tree) "version" with
  | error e => rw [h1] at h; cases h
  | ok v =>
  rw [h1] at h; simp only at h
  cases h2 : xpathText (some tree) "unit" with
  | error e => rw [h2] at h; cases h
  | ok u =>
  rw [h2] at h; simp only at h
  cases h3 : xpathText (some tree) "pm_system" with
  | error e => rw [h3] at h; cases h
  | ok sy =>
  rw [h3] at h; simp only at h
  cases h4 : readPersonal upper tree with
  | error e => rw [h4] at h; cases h
  | ok p =>
  rw [h4] at h; simp only at h
  cases h5 : xpathElement (some tree) "body-measurements" with
  | error e => rw [h5] at h; cases h
  | ok bo =>
  rw [h5] at h; simp only at h
  cases bo with
  | none => cases h
  | some body =>
  simp only at h
  cases h6 : addElements isAlnum sympify {} body.children with
  | error e => rw [h6] at h; cases h
  | ok s =>
  rw [h6] at h
  cases h
  obtain ⟨n1, a1, _⟩ := xpathText_ok.1 h1
  obtain ⟨n2, a2, b2⟩ := xpathText_ok.1 h2
  obtain ⟨n3, a3, b3⟩ := xpathText_ok.1 h3
  obtain ⟨ht, l, hl, hf, _, _, hinv⟩ := addElements_ok (vinv_new isAlnum) body.children h6
  refine ⟨⟨⟨n1, a1⟩, ⟨n2, a2, b2.symm⟩, ⟨n3, a3, b3.symm⟩, readPersonal_ok.1 h4,
    ⟨body, xpathElement_ok.1 h5, ht, ?_, hinv.nodup⟩⟩, body, xpathElement_ok.1 h5, addElements_addAll (vinv_new isAlnum) _ h6⟩
  simp only at hl ⊢
  rw [hl]
  exact hf

/-- C167. Every `.vit` file that says something is read. -/
theorem vit_read_succeeds (upper : Text → Text) (tree : Node) :
    (∃ f : VitFile K, VitOf isAlnum sympify upper tree f) ↔ ∃ f, readVit isAlnum sympify upper tree = .ok f := by
  constructor
  · rintro ⟨f, ⟨n1, a1⟩, ⟨n2, a2, _⟩, ⟨n3, a3, _⟩, hp, ⟨body, a5, ht, hf, hn⟩⟩
    obtain ⟨s, hs⟩ := addElements_exists (vinv_new isAlnum) body.children f.measurements.objects ht hf
      (by simpa using hn)
    unfold readVit
    simp only [bind, Except.bind, pure, Except.pure]
    rw [xpathText_ok.2 ⟨n1, a1, rfl⟩, xpathText_ok.2 ⟨n2, a2, rfl⟩, xpathText_ok.2 ⟨n3, a3, rfl⟩, readPersonal_ok.2 hp,
      xpathElement_ok.2 a5]
    simp only [hs]
    exact ⟨_, rfl⟩
  · rintro ⟨f, hf⟩
    exact ⟨f, (vit_read isAlnum sympify upper tree f hf).1⟩

/-- C167. The unit and the system of the file are not those of the measurements, which have none. -/
theorem vit_unit_wrong (upper : Text → Text) (tree : Node) (f : VitFile K) (h : readVit isAlnum sympify upper tree = .ok f) :
    f.measurements.unit = none ∧ f.measurements.system = none := by
  obtain ⟨_, n, _, hf⟩ := vit_read isAlnum sympify upper tree f h
  rw [hf]
  exact addAll_unit (vinv_new isAlnum) _

/-- C167. An empty e-mail address is read as the text `None`. -/
theorem vit_email_wrong (upper : Text → Text) (tree p e : Node) (f : VitFile K) (h : readVit isAlnum sympify upper tree = .ok f)
    (hp : FirstChild tree "personal" p) (he : FirstChild p "email" e) (ht : e.text = none) :
    f.personal.email = "None".toList := by
  obtain ⟨⟨_, _, _, ⟨n, hn, hpo⟩, _⟩, _⟩ := vit_read isAlnum sympify upper tree f h
  cases firstChild_unique hn hp
  obtain ⟨e', he', h'⟩ := hpo.email
  cases firstChild_unique he' he
  rw [h', ht]
  rfl

/-- C167. A file without version, unit, system or personal data, or whose personal data have no `customer` or no `birth-date`, raises
`AttributeError`. -/
theorem vit_missing (upper : Text → Text) (tree : Node)
    (h : (∃ tag ∈ ["version", "unit", "pm_system", "personal"], ¬ ∃ n, FirstChild tree tag n) ∨
      ∃ p, FirstChild tree "personal" p ∧ ∃ tag ∈ ["customer", "birth-date"], ¬ ∃ n, FirstChild p tag n) :
    readVit isAlnum sympify upper tree = .error .attributeError := by
  have hx : ∀ (r : Node) (tag : String), xpathText (some r) tag = .error .attributeError ∨ ∃ n, FirstChild r tag n := by
    intro r tag
    cases hx : xpathText (some r) tag with
    | error e => rw [xpathText_error hx]; exact .inl rfl
    | ok t =>
      obtain ⟨n, hn, _⟩ := xpathText_ok.1 hx
      exact .inr ⟨n, hn⟩
  unfold readVit
  simp only [bind, Except.bind, pure, Except.pure]
  rcases hx tree "version" with h1 | ⟨n1, h1⟩
  · rw [h1]
  rw [xpathText_ok.2 ⟨n1, h1, rfl⟩]
  simp only
  rcases hx tree "unit" with h2 | ⟨n2, h2⟩
  · rw [h2]
  rw [xpathText_ok.2 ⟨n2, h2, rfl⟩]
  simp only
  rcases hx tree "pm_system" with h3 | ⟨n3, h3⟩
  · rw [h3]
  rw [xpathText_ok.2 ⟨n3, h3, rfl⟩]
  simp only
  have hp : readPersonal upper tree = .error .attributeError := by
    unfold readPersonal
    simp only [bind, Except.bind, pure, Except.pure]
    rcases h with ⟨tag, htag, hno⟩ | ⟨p, hp, tag, htag, hno⟩
    · simp only [List.mem_cons, List.not_mem_nil, or_false] at htag
      rcases htag with rfl | rfl | rfl | rfl
      · exact absurd ⟨n1, h1⟩ hno
      · exact absurd ⟨n2, h2⟩ hno
      · exact absurd ⟨n3, h3⟩ hno
      · have : xpathElement (some tree) "personal" = .ok none := by
          cases hx : xpathElement (some tree) "personal" with
          | error e => simp [xpathElement] at hx
          | ok o =>
            cases o with
            | none => rfl
            | some n => exact absurd ⟨n, xpathElement_ok.1 hx⟩ hno
        rw [this]
        rfl
    · rw [xpathElement_ok.2 hp]
      simp only
      simp only [List.mem_cons, List.not_mem_nil, or_false] at htag
      rcases hx p "customer" with h4 | ⟨n4, h4⟩
      · rw [h4]
      rw [xpathText_ok.2 ⟨n4, h4, rfl⟩]
      simp only
      rcases htag with rfl | rfl
      · exact absurd ⟨n4, h4⟩ hno
      · rcases hx p "birth-date" with h5 | h5
        · rw [h5]
        · exact absurd h5 hno
  rw [hp]

/-- C167. A file whose head is complete raises `TypeError` without `body-measurements`, and `NotImplementedError` at the first
element of `body-measurements` that is not an `m`, a comment for instance. -/
theorem vit_body (upper : Text → Text) (tree p : Node) (pd : Personal)
    (h : ∀ tag ∈ ["version", "unit", "pm_system"], ∃ n, FirstChild tree tag n)
    (hp : FirstChild tree "personal" p) (hpd : PersonalOf upper p pd) :
    ((¬ ∃ n, FirstChild tree "body-measurements" n) → readVit isAlnum sympify upper tree = .error .typeError) ∧
    (∀ body es e es' l, FirstChild tree "body-measurements" body → body.children = es ++ e :: es' → (∀ x ∈ es, x.tag = some "m") →
      List.Forall₂ (fun e m => Makes isAlnum sympify (callOf e) m) es l → (l.map VMeas.name).Nodup → e.tag ≠ some "m" →
      readVit isAlnum sympify upper tree = .error .notImplementedError) := by
  obtain ⟨n1, h1⟩ := h "version" (by simp)
  obtain ⟨n2, h2⟩ := h "unit" (by simp)
  obtain ⟨n3, h3⟩ := h "pm_system" (by simp)
  unfold readVit
  simp only [bind, Except.bind, pure, Except.pure]
  rw [xpathText_ok.2 ⟨n1, h1, rfl⟩, xpathText_ok.2 ⟨n2, h2, rfl⟩, xpathText_ok.2 ⟨n3, h3, rfl⟩, readPersonal_ok.2 ⟨p, hp, hpd⟩]
  simp only
  constructor
  · intro hno
    have : xpathElement (some tree) "body-measurements" = .ok none := by
      cases hx : xpathElement (some tree) "body-measurements" with
      | error e => simp [xpathElement] at hx
      | ok o =>
        cases o with
        | none => rfl
        | some n => exact absurd ⟨n, xpathElement_ok.1 hx⟩ hno
    rw [this]
  · intro body es e es' l hb hc ht hl hn he
    rw [xpathElement_ok.2 hb]
    simp only
    have key : ∀ (es : List Node) (l : List (VMeas K)) (s : VSet K), VInv isAlnum s → (∀ x ∈ es, x.tag = some "m") →
        List.Forall₂ (fun e m => Makes isAlnum sympify (callOf e) m) es l → ((s.objects ++ l).map VMeas.name).Nodup →
        addElements isAlnum sympify s (es ++ e :: es') = .error .notImplementedError := by
      intro es
      induction es with
      | nil =>
        intro l s _ _ _ _
        rw [List.nil_append, addElements, if_neg he]
      | cons x es ih =>
        intro l s hs ht hl hn
        cases hl with
        | @cons _ m _ l hm hl =>
        rw [List.cons_append, addElements, if_pos (ht x (by simp)), addElement_eq]
        have hnm : m.name ∉ s.objects.map VMeas.name := by
          rw [List.map_append, List.map_cons] at hn
          exact fun hc => (List.nodup_append.1 hn).2.2 _ hc _ (by simp) rfl
        rcases add_cases (sympify := sympify) hs (callOf x) with ⟨m', hm', _, s1, a1, a2, _, _, a5⟩ | ⟨m', hm', a0, _⟩ | ⟨a0, _⟩
        · rw [a1]
          refine ih l s1 a5 (fun e he => ht e (by simp [he])) hl ?_
          rw [a2]
          simp only [List.map_append, List.map_cons, List.map_nil, List.append_assoc, List.singleton_append] at hn ⊢
          rw [← (makes_unique hm hm').2.1]
          exact hn
        · exact absurd ((makes_unique hm hm').2.1 ▸ a0) hnm
        · exact absurd hm (a0 m)
    rw [hc, key es l {} (vinv_new isAlnum) ht hl (by simpa using hn)]

/-! ## C168 -/

/-- C168. A gender is given by its name in any case, by the member or by its number; any other text raises `KeyError` and any other
value `ValueError`. -/
theorem gender_set (upper : Text → Text) :
    (∀ t g, ensureGender upper (.text t) = .ok g ↔ GenderName (upper t) g) ∧
    (∀ t, (¬ ∃ g, GenderName (upper t) g) → ensureGender upper (.text t) = .error .keyError) ∧
    (∀ g, ensureGender upper (.gender g) = .ok g) ∧
    (∀ i g, ensureGender upper (.int i) = .ok g ↔ i = g.number) ∧
    (∀ i, (¬ ∃ g : Gender, i = g.number) → ensureGender upper (.int i) = .error .valueError) ∧
    (∀ d, ensureGender upper (.date d) = .error .valueError) ∧ (∀ d, ensureGender upper (.datetime d) = .error .valueError) ∧
    ensureGender upper .null = .error .valueError := by
  have hint : ∀ i g, ensureGender upper (.int i) = .ok g ↔ i = g.number := by
    intro i g
    by_cases h : i ∈ [(1 : Int), 2, 3, 4]
    · simp only [List.mem_cons, List.not_mem_nil, or_false] at h
      rcases h with rfl | rfl | rfl | rfl <;> cases g <;> simp [ensureGender, genders, Gender.number]
    · have hne : i ≠ g.number := by
        rintro rfl
        cases g <;> simp [Gender.number] at h
      simp only [hne, iff_false]
      simp only [List.mem_cons, List.not_mem_nil, or_false, not_or] at h
      unfold ensureGender
      simp only
      by_cases h1 : i < 1
      · rw [if_pos h1]; simp
      · rw [if_neg h1]
        have : genders[(i - 1).toNat]? = none := List.getElem?_eq_none (by
          change 4 ≤ _
          omega)
        rw [this]; simp
  refine ⟨fun t g => gender_iff (upper t) g, ?_, fun _ => rfl, hint, ?_, fun _ => rfl, fun _ => rfl, rfl⟩
  · intro t hno
    cases hg : ensureGender upper (.text t) with
    | ok g => exact absurd ⟨g, (gender_iff _ _).1 hg⟩ hno
    | error e => rw [gender_error (t := upper t) hg]
  · intro i hno
    cases hg : ensureGender upper (.int i) with
    | ok g => exact absurd ⟨g, (hint i g).1 hg⟩ hno
    | error e =>
      unfold ensureGender at hg
      simp only at hg
      split at hg
      · cases hg; rfl
      · split at hg
        · cases hg
        · cases hg; rfl

/-- C168. `PersonalData` uses its seven arguments only: others are ignored, even when they are misspelled. -/
theorem personal_ignores (upper : Text → Text) (kwargs kwargs' : Dict String Arg)
    (h : ∀ k ∈ personalKeys, kwargs.get? k = kwargs'.get? k) : Personal.new upper kwargs = Personal.new upper kwargs' := by
  unfold Personal.new
  rw [h "first_name" (by decide), h "last_name" (by decide), h "birth_date" (by decide), h "measurement_date" (by decide),
    h "gender" (by decide), h "email" (by decide), h "comment" (by decide)]

/-- C168. The personal data made from the attributes of personal data are equal to them; without argument they are empty and the
gender is unknown. -/
theorem personal_round_trip (upper : Text → Text) (p : Personal) (h : p.customer = none) :
    Personal.new upper (argsOf p) = .ok p ∧ Personal.new upper [] = .ok Personal.default := by
  refine ⟨?_, rfl⟩
  obtain ⟨a, b, c, d, e, f, g, i⟩ := p
  simp only at h
  subst h
  rcases c with _ | c | c <;> cases d <;> rfl

/-- C168. The texts and the dates are those that are given: the dates have to be texts in the formats of `ensure_date` and
`ensure_datetime`, dates or nothing. Missing is the case of texts given as `None` and of dates given with a time, see
`personal_none_wrong` and `birth_date_wrong`. -/
theorem personal_new_partial (upper : Text → Text) (first last email comment : Text) (b m : Text) (g : Arg) (p : Personal) :
    Personal.new upper [("first_name", .text first), ("last_name", .text last), ("birth_date", .text b),
      ("measurement_date", .text m), ("gender", g), ("email", .text email), ("comment", .text comment)] = .ok p ↔
    p.firstName = first ∧ p.lastName = last ∧ p.email = email ∧ p.comment = comment ∧ p.customer = none ∧
      ensureGender upper g = .ok p.gender ∧ (∃ d, p.birthDate = some (.inl d) ∧ IsDate d ∧ DateText b d) ∧
      ∃ d, p.measurementDate = some d ∧ IsDateTime d ∧ DateTimeText m d := by
  have hnew : Personal.new upper [("first_name", .text first), ("last_name", .text last), ("birth_date", .text b),
      ("measurement_date", .text m), ("gender", g), ("email", .text email), ("comment", .text comment)] =
      (do
        let bd ← (parseDate b).map .inl |>.map some
        let md ← (parseDateTime m).map some
        let gender ← ensureGender upper g
        return ⟨first, last, bd, md, gender, email, comment, none⟩) := rfl
  rw [hnew]
  simp only [bind, Except.bind, pure, Except.pure]
  cases hb : parseDate b with
  | error e =>
    simp only [Except.map, reduceCtorEq, false_iff]
    rintro ⟨_, _, _, _, _, _, ⟨d, _, h1, h2⟩, _⟩
    rw [(parseDate_ok b d).2 ⟨h1, h2⟩] at hb; cases hb
  | ok bd =>
  obtain ⟨b1, b2⟩ := (parseDate_ok b bd).1 hb
  simp only [Except.map]
  cases hm : parseDateTime m with
  | error e =>
    simp only [reduceCtorEq, false_iff]
    rintro ⟨_, _, _, _, _, _, _, d, _, h1, h2⟩
    rw [(parseDateTime_ok m d).2 ⟨h1, h2⟩] at hm; cases hm
  | ok md =>
  obtain ⟨m1, m2⟩ := (parseDateTime_ok m md).1 hm
  simp only
  cases hg : ensureGender upper g with
  | error e =>
    simp only [reduceCtorEq, false_iff]
    rintro ⟨_, _, _, _, _, h1, _⟩
    cases h1
  | ok gd =>
  simp only [Except.ok.injEq]
  constructor
  · rintro rfl
    exact ⟨rfl, rfl, rfl, rfl, rfl, rfl, ⟨bd, rfl, b1, b2⟩, md, rfl, m1, m2⟩
  · rintro ⟨h1, h2, h3, h4, h5, h6, ⟨d, h7, h8, h9⟩, d', h10, h11, h12⟩
    have e1 := (parseDate_ok b d).2 ⟨h8, h9⟩
    rw [hb] at e1
    have e2 := (parseDateTime_ok m d').2 ⟨h11, h12⟩
    rw [hm] at e2
    cases e1; cases e2
    obtain ⟨q1, q2, q3, q4, q5, q6, q7, q8⟩ := p
    simp only at h1 h2 h3 h4 h5 h6 h7 h10
    subst h1 h2 h3 h4 h5 h6 h7 h10
    rfl

/-- C168. A name, an e-mail address or a comment that is not known, given as `None`, becomes the text `None`. -/
theorem personal_none_wrong (upper : Text → Text) (p : Personal) :
    (Personal.new upper [("first_name", .null)] = .ok p → p.firstName = "None".toList) ∧
    (Personal.new upper [("last_name", .null)] = .ok p → p.lastName = "None".toList) ∧
    (Personal.new upper [("email", .null)] = .ok p → p.email = "None".toList) ∧
    (Personal.new upper [("comment", .null)] = .ok p → p.comment = "None".toList) := by
  refine ⟨?_, ?_, ?_, ?_⟩ <;> intro h <;> cases h <;> rfl

/-- C168. A birth date given as a date with a time keeps the time: it is not a date. -/
theorem birth_date_wrong (upper : Text → Text) (d : DateTime) (p : Personal)
    (h : Personal.new upper [("birth_date", .datetime d)] = .ok p) : p.birthDate = some (.inr d) := by
  cases h; rfl

/-! ## C169 -/

/-- C169. `ensure_date` of a text gives the date that is written in it as `YYYY-MM-DD`, a date of the calendar of a year from 1 to
9999, and otherwise raises `ValueError`. -/
theorem ensure_date_text (t : Text) :
    (∀ d, ensureDate (.text t) = .ok d ↔ ∃ d', d = .inl d' ∧ IsDate d' ∧ DateText t d') ∧
    ((¬ ∃ d', IsDate d' ∧ DateText t d') → ensureDate (.text t) = .error .valueError) := by
  unfold ensureDate Arg.str
  simp only
  constructor
  · intro d
    cases hp : parseDate t with
    | error e =>
      simp only [Except.map, reduceCtorEq, false_iff]
      rintro ⟨d', _, h⟩
      rw [(parseDate_ok t d').2 h] at hp; cases hp
    | ok d0 =>
      have h0 := (parseDate_ok t d0).1 hp
      simp only [Except.map, Except.ok.injEq]
      constructor
      · rintro rfl; exact ⟨d0, rfl, h0⟩
      · rintro ⟨d', rfl, h⟩
        rw [(parseDate_ok t d').2 h] at hp
        cases hp; rfl
  · intro h
    cases hp : parseDate t with
    | error e => rw [parseDate_error t e hp]; rfl
    | ok d => exact absurd ⟨d, (parseDate_ok t d).1 hp⟩ h

/-- C169. `ensure_datetime` of a text gives the date and time written in it as `YYYY-MM-DDTHH:MM:SS.ffffffZ`, and otherwise raises
`ValueError`. -/
theorem ensure_datetime_text (t : Text) :
    (∀ d, ensureDateTime (.text t) = .ok d ↔ IsDateTime d ∧ DateTimeText t d) ∧
    ((¬ ∃ d, IsDateTime d ∧ DateTimeText t d) → ensureDateTime (.text t) = .error .valueError) := by
  unfold ensureDateTime Arg.str
  refine ⟨fun d => parseDateTime_ok t d, ?_⟩
  intro h
  cases hp : parseDateTime t with
  | error e => exact parseDateTime_error t e hp ▸ hp
  | ok d => exact absurd ⟨d, (parseDateTime_ok t d).1 hp⟩ h

/-- C169. `ensure_date(str(date))` is the date, and a date or a date with a time is returned as it is. -/
theorem date_round_trip (d : Date) (h : IsDate d) :
    ensureDate (.text d.str) = .ok (.inl d) ∧ ensureDate (.date d) = .ok (.inl d) ∧
      (∀ x, ensureDate (.datetime x) = .ok (.inr x)) ∧ ∀ x, ensureDateTime (.datetime x) = .ok x :=
  ⟨((ensure_date_text d.str).1 _).2 ⟨d, rfl, h, str_text d h⟩, rfl, fun _ => rfl, fun _ => rfl⟩

/-- C169. A date and time written with six digits for the microseconds and `Z` is read back. What is missing: the text of `str`, see
`datetime_round_trip_wrong`. -/
theorem datetime_round_trip_partial (d : DateTime) (h : IsDateTime d) : ensureDateTime (.text (isoText d)) = .ok d :=
  ((ensure_datetime_text _).1 d).2 ⟨h, _, _, _, _, _, 'T', 'Z', ⟨_, _, .inl rfl, .inl (.inl rfl), rfl⟩, .inl rfl, .inl rfl, .inl rfl,
    ⟨6, d.microsecond, by omega, by omega, h.time.2.2.2, rfl, by simp⟩, .inl rfl, .inl rfl, rfl⟩

/-- C169. `ensure_datetime(str(datetime))` raises `ValueError` for every date and time, and so does a date. -/
theorem datetime_round_trip_wrong (d : DateTime) (d' : Date) :
    ensureDateTime (.text d.str) = .error .valueError ∧ ensureDateTime (.text d'.str) = .error .valueError ∧
      ensureDateTime (.date d') = .error .valueError :=
  ⟨parseDateTime_noZ _ (str_noZ d), parseDateTime_noZ _ (dateStr_noZ d'), parseDateTime_noZ _ (dateStr_noZ d')⟩

/-! ## C170 -/

/-- C170. After any sequence of calls of `add`, a name gives the first measurement added with it, a loop gives the measurements in the
order of the calls that succeeded, and adding a name again raises `NameError`. -/
theorem standard_lookup (l : List Standard) :
    (∀ n, (standardAll l []).get? n = l.find? fun m => m.name = n) ∧
    (standardAll l []).values.Sublist l ∧ ((standardAll l []).values.map Standard.name).Nodup ∧
    (∀ m ∈ l, m.name ∈ (standardAll l []).values.map Standard.name) ∧
    ∀ m, (m.name ∈ l.map Standard.name → standardAdd (standardAll l []) m = .error .nameError) ∧
      (m.name ∉ l.map Standard.name → ∃ s, standardAdd (standardAll l []) m = .ok s ∧
        s.values = (standardAll l []).values ++ [m]) := by
  have key : ∀ (l : List Standard) (s : Dict Text Standard), (∀ p ∈ s, p.1 = p.2.name) → s.keys.Nodup →
      (∀ n, (standardAll l s).get? n = (s.get? n).or (l.find? fun m => m.name = n)) ∧
      (∃ l', (standardAll l s).values = s.values ++ l' ∧ l'.Sublist l) ∧ (∀ p ∈ standardAll l s, p.1 = p.2.name) ∧
      (standardAll l s).keys.Nodup := by
    intro l
    induction l with
    | nil => intro s hs hn; exact ⟨fun n => by simp [standardAll], ⟨[], by simp [standardAll]⟩, hs, hn⟩
    | cons m l ih =>
      intro s hs hn
      unfold standardAll standardAdd
      by_cases hc : s.contains m.name = true
      · rw [if_pos hc]
        obtain ⟨h1, ⟨l', h2, h3⟩, h4, h5⟩ := ih s hs hn
        refine ⟨?_, ⟨l', h2, h3.cons _⟩, h4, h5⟩
        intro n
        rw [h1 n, List.find?_cons]
        by_cases hmn : m.name = n
        · subst hmn
          obtain ⟨v, hv⟩ := Option.isSome_iff_exists.1 (show (s.get? m.name).isSome from hc)
          rw [hv]; rfl
        · simp [hmn]
      · rw [if_neg hc]
        have hk : m.name ∉ s.keys := fun hk => hc ((Dict.get?_isSome_iff _ _).2 hk)
        have hset : s.set m.name m = s ++ [(m.name, m)] := Dict.set_of_not_mem _ hk
        obtain ⟨h1, ⟨l', h2, h3⟩, h4, h5⟩ := ih (s.set m.name m) (by
          intro p hp
          rw [hset] at hp
          rcases List.mem_append.1 hp with hp | hp
          · exact hs p hp
          · rw [List.mem_singleton.1 hp]) (by
          rw [hset]
          unfold Dict.keys at *
          rw [List.map_append]
          exact List.nodup_append.2 ⟨hn, by simp, by
            intro a ha b hb
            rw [List.map_singleton, List.mem_singleton] at hb
            subst hb
            rintro rfl
            exact hk ha⟩)
        refine ⟨?_, ⟨m :: l', ?_, h3.cons_cons _⟩, h4, h5⟩
        · intro n
          simp only
          rw [h1 n, Dict.get?_set, List.find?_cons]
          by_cases hmn : m.name = n
          · subst hmn
            have : s.get? m.name = none := (Dict.get?_eq_none_iff _ _).2 hk
            simp [this]
          · simp [hmn]
        · simp only
          rw [h2, hset]
          simp [Dict.values]
  obtain ⟨h1, ⟨l', h2, h3⟩, h4, h5⟩ := key l [] (by simp) List.nodup_nil
  have hv : (standardAll l []).values.map Standard.name = (standardAll l []).keys := by
    unfold Dict.values Dict.keys
    rw [List.map_map]
    exact List.map_congr_left fun p hp => (h4 p hp).symm
  have hmem : ∀ n, n ∈ (standardAll l []).keys ↔ n ∈ l.map Standard.name := by
    intro n
    rw [← Dict.get?_isSome_iff, h1 n]
    simp [Dict.get?]
  refine ⟨fun n => by rw [h1 n]; rfl, by rw [h2]; simpa [Dict.values] using h3, by rw [hv]; exact h5, ?_, ?_⟩
  · intro m hm
    rw [hv, hmem]
    exact List.mem_map_of_mem hm
  · intro m
    unfold standardAdd
    constructor
    · intro hm
      rw [if_pos]
      exact (Dict.get?_isSome_iff _ _).2 ((hmem _).2 hm)
    · intro hm
      have hk : m.name ∉ (standardAll l []).keys := fun hk => hm ((hmem _).1 hk)
      rw [if_neg (c := (standardAll l []).contains m.name = true) (fun hc => hk ((Dict.get?_isSome_iff _ _).1 hc))]
      exact ⟨_, rfl, by rw [Dict.set_of_not_mem _ hk]; simp [Dict.values]⟩

/-! ## Cases -/

/-- A stand-in for `sympify`. -/
def toySympify (t : Text) : Except PyErr (Formula Int) :=
  match t with
  | [] => .error .valueError
  | c :: _ => if c.isDigit then .ok (.num t.length) else .ok (.var t)

/-- Five calls, of which the third has a name that is taken, the fourth no value. -/
def toyCalls : List Call :=
  [⟨"height knee".toList, some "46".toList, [], []⟩, ⟨"@a".toList, some "height_knee".toList, "A".toList, []⟩,
   ⟨"C_a".toList, some "1".toList, [], []⟩, ⟨"b".toList, none, [], []⟩, ⟨"b".toList, some "@a".toList, [], []⟩]

example : ((VSet.addAll Char.isAlphanum toySympify {} toyCalls).objects.map fun m => (m.name, m.valentinaName)) =
      [("height_knee".toList, "height knee".toList), ("C_a".toList, "@a".toList), ("b".toList, "b".toList)] ∧
    (VSet.addAll Char.isAlphanum toySympify {} toyCalls).get "@a".toList = .ok 1 ∧
    (VSet.addAll Char.isAlphanum toySympify {} toyCalls).get "C_a".toList = .ok 1 ∧
    (VSet.addAll Char.isAlphanum toySympify {} toyCalls).get "height knee".toList = .error .keyError ∧
    (VSet.addAll Char.isAlphanum toySympify {} toyCalls).iter = [0, 1, 1, 2] ∧
    ((VSet.addAll Char.isAlphanum toySympify {} toyCalls).evaluated "b".toList).map (fun f => match f with
      | .num k => k
      | _ => 0) = .ok 2 := by decide +kernel

example : StoredName Char.isAlphanum "@a b".toList "C_a_b".toList ∧ toySympify (coded "1".toList) = .ok (.num 1) :=
  ⟨by unfold StoredName; decide, rfl⟩

/-- An element with a text. -/
def toyText (tag : String) (t : Option String) : Node := ⟨some tag, [], t.map String.toList, []⟩

/-- A `.vit` file; the comment before the version is skipped. -/
def toyVit (personal body : List Node) : Node :=
  ⟨some "vit", [], none, [⟨none, [], some "Measurements".toList, []⟩, toyText "version" (some "0.3.3"), toyText "unit" (some "cm"),
    toyText "pm_system" (some "998"), ⟨some "personal", [], none, personal⟩, ⟨some "body-measurements", [], none, body⟩]⟩

/-- Personal data. -/
def toyPersonal : List Node :=
  [toyText "customer" (some "C"), toyText "birth-date" (some "1980-02-29"), toyText "gender" (some "female"), toyText "email" none]

/-- Measurements. -/
def toyBody : List Node :=
  [⟨some "m", [("value", "46".toList), ("name", "height_knee".toList)], none, []⟩,
   ⟨some "m", [("name", "@a".toList), ("value", "height_knee".toList), ("full_name", "A".toList)], none, []⟩]

example : ((readVit Char.isAlphanum toySympify (fun t => t.map Char.toUpper) (toyVit toyPersonal toyBody)).map fun f =>
      (f.unit, f.measurements.objects.map VMeas.name, f.measurements.unit.isNone)) =
    .ok (some "cm".toList, ["height_knee".toList, "C_a".toList], true) ∧
    ((readVit Char.isAlphanum toySympify (fun t => t.map Char.toUpper) (toyVit toyPersonal toyBody)).map fun f => f.personal) =
    .ok ⟨[], [], some (.inl ⟨1980, 2, 29⟩), none, .female, "None".toList, [], some (some "C".toList)⟩ := by
  decide +kernel

/-- The personal data in the example of the module itself. -/
example : ((readVit Char.isAlphanum toySympify (fun t => t.map Char.toUpper) (toyVit [toyText "family-name" (some ".."),
      toyText "given-name" (some "..."), toyText "birth-date" (some "1980-02-29"), toyText "gender" (some "female"),
      toyText "email" none] toyBody)).map fun f => f.unit) = .error .attributeError := by decide +kernel

/-- A comment among the measurements. -/
example : ((readVit Char.isAlphanum toySympify (fun t => t.map Char.toUpper) (toyVit toyPersonal
      (toyBody ++ [⟨none, [], some "end".toList, []⟩]))).map fun f => f.unit) = .error .notImplementedError := by decide +kernel

example : ensureGender (fun t => t.map Char.toUpper) (.text "Female".toList) = .ok .female ∧
    ensureGender id (.text "other".toList) = .error .keyError ∧ ensureGender id (.int 4) = .ok .particular := by decide +kernel

example : ensureDate (.text "2020-2-29".toList) = .ok (.inl ⟨2020, 2, 29⟩) ∧
    ensureDate (.text "2019-02-29".toList) = .error .valueError ∧ ensureDate (.text "29/02/2020".toList) = .error .valueError ∧
    ensureDateTime (.text "2020-02-29T10:05:07.5Z".toList) = .ok ⟨⟨2020, 2, 29⟩, 10, 5, 7, 500000⟩ ∧
    ensureDateTime (.text "2020-02-29T10:05:07Z".toList) = .error .valueError := by decide +kernel

example : IsDateTime ⟨⟨2020, 2, 29⟩, 10, 5, 7, 500000⟩ ∧
    isoText ⟨⟨2020, 2, 29⟩, 10, 5, 7, 500000⟩ = "2020-02-29T10:05:07.500000Z".toList ∧
    DateTime.str ⟨⟨2020, 2, 29⟩, 10, 5, 7, 500000⟩ = "2020-02-29 10:05:07.500000".toList :=
  ⟨((parseDateTime_ok "2020-02-29T10:05:07.5Z".toList _).1 (by decide +kernel)).1, by decide +kernel, by decide +kernel⟩

example : (standardAll [⟨"a".toList, "A".toList, []⟩, ⟨"b".toList, [], []⟩, ⟨"a".toList, "A2".toList, []⟩] []).values =
    [⟨"a".toList, "A".toList, []⟩, ⟨"b".toList, [], []⟩] := by decide +kernel

end Patro.Vit
