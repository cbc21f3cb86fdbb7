import Verif.Proof.Xml
import Verif.Spec.Xml
/-!
# C15 - C19, C76: XML adaptors
-/

namespace Patro.Xml

open Patro

variable {V : Type _}

/-- C15. If reading an element succeeds, every declared attribute (the last one declared under its Python name)
holds the decoded text of its XML attribute when the element has it, and the declared default otherwise. -/
theorem initFromXml_attribute (l1 : List (Attr V)) (a : Attr V) (l2 : List (Attr V)) (xml : Dict String Text)
    (o : Obj V) (h : initFromXml (l1 ++ a :: l2) xml = .ok o) (hlast : ∀ b ∈ l2, b.py ≠ a.py) :
    (∀ t, xml.get? a.xml = some t → ∃ v, a.fromXml t = .ok v ∧ o.get? a.py = some v) ∧
    (xml.get? a.xml = none → o.get? a.py = some a.default) := by
  have hp : a.py ∉ l2.map Attr.py := by
    intro hm
    obtain ⟨b, hb, e⟩ := List.mem_map.1 hm
    exact hlast b hb e
  obtain ⟨v, hv, ho⟩ := foldlM_read_get xml l1 a l2 [] o hp h
  constructor
  · intro t ht
    simp only [readValue, ht] at hv
    exact ⟨v, hv, ho⟩
  · intro hn
    simp only [readValue, hn] at hv
    cases hv
    exact ho

/-- C15. Reading succeeds exactly when every declared attribute that is present decodes; otherwise it raises the
error of the first declared attribute that does not decode. -/
theorem initFromXml_succeeds_iff (attrs : List (Attr V)) (xml : Dict String Text) :
    ((∃ o, initFromXml attrs xml = .ok o) ↔
      ∀ a ∈ attrs, ∀ t, xml.get? a.xml = some t → ∃ v, a.fromXml t = .ok v) ∧
    (∀ e, initFromXml attrs xml = .error e →
      ∃ l1 a l2 t, attrs = l1 ++ a :: l2 ∧ xml.get? a.xml = some t ∧ a.fromXml t = .error e ∧
        ∀ b ∈ l1, ∀ t', xml.get? b.xml = some t' → ∃ v, b.fromXml t' = .ok v) := by
  have conv : ∀ a : Attr V, (∃ v, readValue xml a = .ok v) ↔
      ∀ t, xml.get? a.xml = some t → ∃ v, a.fromXml t = .ok v := by
    intro a
    unfold readValue
    cases xml.get? a.xml with
    | none => simp
    | some t => simp
  constructor
  · constructor
    · rintro ⟨o, ho⟩ a ha
      rw [← conv]
      by_contra hne
      have : ∃ e, initFromXml attrs xml = .error e := by
        unfold initFromXml
        clear ho
        generalize ([] : Obj V) = o₀
        induction attrs generalizing o₀ with
        | nil => cases ha
        | cons b l ih =>
          rw [List.foldlM_cons, readAttr_eq]
          cases hv : readValue xml b with
          | error e => exact ⟨e, rfl⟩
          | ok v =>
            rcases List.mem_cons.1 ha with rfl | ha
            · exact absurd ⟨v, hv⟩ hne
            · exact ih ha _
      obtain ⟨e, he⟩ := this
      rw [ho] at he
      cases he
    · intro h
      exact foldlM_read_ok xml attrs [] (fun a ha => (conv a).2 (h a ha))
  · intro e he
    obtain ⟨l1, a, l2, h1, h2, h3⟩ := foldlM_read_error xml attrs [] e he
    unfold readValue at h2
    cases hx : xml.get? a.xml with
    | none => rw [hx] at h2; cases h2
    | some t =>
      rw [hx] at h2
      exact ⟨l1, a, l2, t, h1, hx, h2, fun b hb => (conv b).1 (h3 b hb)⟩

/-- C15. XML attributes that are not declared have no influence. -/
theorem initFromXml_undeclared (attrs : List (Attr V)) (xml xml' : Dict String Text)
    (h : ∀ a ∈ attrs, xml.get? a.xml = xml'.get? a.xml) : initFromXml attrs xml = initFromXml attrs xml' := by
  unfold initFromXml
  generalize ([] : Obj V) = o
  induction attrs generalizing o with
  | nil => rfl
  | cons a l ih =>
    have ha := h a List.mem_cons_self
    have hl := fun b hb => h b (List.mem_cons_of_mem _ hb)
    rw [List.foldlM_cons, List.foldlM_cons]
    have : readAttr xml o a = readAttr xml' o a := by simp only [readAttr, ha]
    rw [this]
    cases readAttr xml' o a with
    | error e => rfl
    | ok o' => exact ih hl o'

/-- C16. Writing an object and reading the element back, when the declared attributes have distinct XML names and
distinct Python names and each value is decoded from what its codec writes: every attribute comes back with its
value, and an attribute that is `None` comes back with its default (thus unchanged if the default is `None`). -/
theorem xml_round_trip (attrs : List (Attr V)) (o : Obj V)
    (hxml : (attrs.map Attr.xml).Nodup) (hpy : (attrs.map Attr.py).Nodup)
    (hset : ∀ a ∈ attrs, ∃ v, o.get? a.py = some v)
    (hcodec : ∀ a ∈ attrs, ∀ v, o.get? a.py = some (some v) → a.fromXml (a.toXml v) = .ok (some v)) :
    ∃ x o', toXml attrs o [] = .ok x ∧ initFromXml attrs x = .ok o' ∧
      ∀ a ∈ attrs, (∀ v, o.get? a.py = some (some v) → o'.get? a.py = some (some v)) ∧
        (o.get? a.py = some none → o'.get? a.py = some a.default) := by
  obtain ⟨x, hx, hget⟩ := foldlM_write o attrs [] hset
  have hget' : ∀ a ∈ attrs, x.get? a.xml = written o a := by
    intro a ha
    rw [hget a.xml, findSome?_unique attrs a (written o) ha hxml]
    simp
  have hread : ∀ a ∈ attrs, ∃ v, readValue x a = .ok v := by
    intro a ha
    obtain ⟨v, hv⟩ := hset a ha
    unfold readValue
    rw [hget' a ha]
    unfold written
    rw [hv]
    cases v with
    | none => exact ⟨_, rfl⟩
    | some v => exact ⟨_, hcodec a ha v hv⟩
  obtain ⟨o', ho'⟩ := foldlM_read_ok x attrs [] hread
  refine ⟨x, o', ?_, ho', ?_⟩
  · unfold toXml; rw [hx]; rfl
  · intro a ha
    obtain ⟨l1, l2, rfl⟩ := List.append_of_mem ha
    have hlast : a.py ∉ l2.map Attr.py := by
      rw [List.map_append, List.map_cons, List.nodup_append] at hpy
      exact (List.nodup_cons.1 hpy.2.1).1
    obtain ⟨v, hv, hov⟩ := foldlM_read_get x l1 a l2 [] o' hlast ho'
    unfold readValue at hv
    rw [hget' a ha] at hv
    unfold written at hv
    constructor
    · intro w hw
      rw [hw] at hv
      simp only at hv
      rw [hcodec a ha w hw] at hv
      cases hv
      exact hov
    · intro hn
      rw [hn] at hv
      simp only at hv
      cases hv
      exact hov

/-- C16. Keyword arguments given to `to_xml` override the attributes written from the object, and add nothing
else. -/
theorem toXml_kwargs (attrs : List (Attr V)) (o : Obj V) (kwargs x0 x : Dict String Text)
    (hk : (kwargs.map Prod.fst).Nodup)
    (h0 : toXml attrs o [] = .ok x0) (h : toXml attrs o kwargs = .ok x) (k : String) :
    (∀ t, kwargs.get? k = some t → x.get? k = some t) ∧ (kwargs.get? k = none → x.get? k = x0.get? k) := by
  unfold toXml at h h0
  cases hx : attrs.foldlM (writeAttr o) [] with
  | error e => rw [hx] at h; cases h
  | ok y =>
    rw [hx] at h h0
    cases h
    cases h0
    have hrev : Dict.get? kwargs.reverse k = Dict.get? kwargs k := by
      clear hx
      have aux : ∀ (l : Dict String Text), (l.map Prod.fst).Nodup → ∀ v, (k, v) ∈ l → l.get? k = some v := by
        intro l
        induction l with
        | nil => intro _ v hv; cases hv
        | cons c l ih =>
          obtain ⟨k1, v1⟩ := c
          intro hn v hv
          simp only [List.map_cons, List.nodup_cons] at hn
          rcases List.mem_cons.1 hv with e | hv
          · cases e; simp [Dict.get?]
          · have : k1 ≠ k := by
              rintro rfl
              exact hn.1 (List.mem_map_of_mem (f := Prod.fst) hv)
            simp only [Dict.get?, this, if_false]
            exact ih hn.2 v hv
      cases hg : Dict.get? kwargs k with
      | some v =>
        apply aux
        · rw [List.map_reverse]; exact List.nodup_reverse.2 hk
        · exact List.mem_reverse.2 (Dict.mem_of_get? hg)
      | none =>
        rw [Dict.get?_eq_none_iff] at hg ⊢
        intro hm
        apply hg
        unfold Dict.keys at hm ⊢
        rw [List.map_reverse, List.mem_reverse] at hm
        exact hm
    constructor
    · intro t ht
      rw [Dict.get?_update, hrev, ht]; rfl
    · intro hn
      rw [Dict.get?_update, hrev, hn]; rfl

/-- C16. An object on which an attribute was never set, such as one built without any argument, cannot be
written. -/
theorem toXml_unset (attrs : List (Attr V)) (a : Attr V) (ha : a ∈ attrs) (kwargs : Dict String Text) :
    toXml attrs [] kwargs = .error .attributeError := by
  cases attrs with
  | nil => cases ha
  | cons b l => rfl

/-- C17. The boolean decoder accepts exactly `true`, `1`, `false` and `0`. -/
theorem boolFromXml_spec (t : Text) :
    (boolFromXml t = .ok true ↔ t = "true".toList ∨ t = "1".toList) ∧
    (boolFromXml t = .ok false ↔ t = "false".toList ∨ t = "0".toList) ∧
    (boolFromXml t = .error .valueError ↔
      t ≠ "true".toList ∧ t ≠ "1".toList ∧ t ≠ "false".toList ∧ t ≠ "0".toList) := by
  by_cases h1 : t = "true".toList
  · subst h1; decide
  by_cases h2 : t = "1".toList
  · subst h2; decide
  by_cases h3 : t = "false".toList
  · subst h3; decide
  by_cases h4 : t = "0".toList
  · subst h4; decide
  have h : boolFromXml t = .error .valueError := by
    unfold boolFromXml
    rw [if_neg (by simp only [h1, h2, or_self, not_false_eq_true]),
      if_neg (by simp only [h3, h4, or_self, not_false_eq_true])]
  rw [h]
  simp only [h1, h2, h3, h4, or_self, reduceCtorEq, ne_eq, not_false_eq_true, and_self]

/-- C17. Booleans round trip. -/
theorem bool_round_trip (b : Bool) : boolFromXml (boolToXml b) = .ok b := by
  cases b <;> decide

/-- C17. Integers round trip through their decimal text. -/
theorem int_round_trip (i : Int) : intFromText (intToText i) = .ok i := by
  have nosp : ∀ n : Nat, ∀ c ∈ natToText n, isSpace c = false := by
    intro n c hc
    obtain ⟨d, hd, rfl⟩ := natToText_digits n c hc
    exact isSpace_ofNat d hd
  cases i with
  | ofNat n =>
    unfold intFromText intToText
    rw [strip_of_noSpace _ (nosp n)]
    have hd := natToText_digits n
    have hp := parseDigits_natToText n
    cases ht : natToText n with
    | nil => exact absurd ht (natToText_ne_nil n)
    | cons c r =>
      obtain ⟨d, hd', hc⟩ := hd c (by rw [ht]; exact List.mem_cons_self)
      obtain ⟨h1, h2⟩ := ne_sign_ofNat d hd'
      rw [← hc] at h1 h2
      rw [ht] at hp
      split
      · rename_i heq; injection heq with e; exact absurd e h1
      · rename_i heq; injection heq with e; exact absurd e h2
      · simp only [hp]; rfl
  | negSucc n =>
    unfold intFromText intToText
    have : ∀ c ∈ '-' :: natToText (n + 1), isSpace c = false := by
      intro c hc
      rcases List.mem_cons.1 hc with rfl | hc
      · decide
      · exact nosp _ c hc
    rw [strip_of_noSpace _ this]
    simp only [parseDigits_natToText]
    rfl

/-- C17. The integer decoder ignores surrounding white space and accepts a sign. -/
theorem intFromText_spaces (n : Nat) (s1 s2 : Text) (h1 : ∀ c ∈ s1, isSpace c = true)
    (h2 : ∀ c ∈ s2, isSpace c = true) :
    intFromText (s1 ++ '+' :: natToText n ++ s2) = .ok (n : Int) := by
  have drop : ∀ (s t : Text) (c : Char), (∀ c ∈ s, isSpace c = true) → isSpace c = false →
      (s ++ c :: t).dropWhile isSpace = c :: t := by
    intro s t c hs hc
    induction s with
    | nil => rw [List.nil_append, List.dropWhile_cons_of_neg (by simp [hc])]
    | cons x s ih =>
      rw [List.cons_append, List.dropWhile_cons_of_pos (hs x List.mem_cons_self)]
      exact ih (fun c hc => hs c (List.mem_cons_of_mem _ hc))
  have hst : strip (s1 ++ '+' :: natToText n ++ s2) = '+' :: natToText n := by
    unfold strip
    rw [List.append_assoc, List.cons_append, drop s1 _ '+' h1 (by decide)]
    have hne : ('+' :: natToText n) ≠ [] := by simp
    obtain ⟨init, last, hl⟩ : ∃ init last, '+' :: natToText n = init ++ [last] :=
      ⟨_, _, (List.dropLast_append_getLast hne).symm⟩
    have hlast : isSpace last = false := by
      have hm : last ∈ '+' :: natToText n := by rw [hl]; simp
      rcases List.mem_cons.1 hm with e | hm
      · rw [e]; decide
      · obtain ⟨d, hd, rfl⟩ := natToText_digits n last hm
        exact isSpace_ofNat d hd
    rw [← List.cons_append, hl]
    rw [List.reverse_append, List.reverse_append, List.reverse_singleton]
    show (List.dropWhile isSpace (s2.reverse ++ last :: init.reverse)).reverse = _
    rw [drop s2.reverse _ last (fun c hc => h2 c (List.mem_reverse.1 hc)) hlast]
    simp
  unfold intFromText
  rw [hst]
  simp only [parseDigits_natToText]
  rfl

section FloatList

variable {F : Type _} (parse : Text → Except PyErr F) (print : F → Text)

/-- C18. A non-empty list round trips, for numbers `float(str(x)) = x` whose text has no space, no comma and is
not `none`. -/
theorem floatList_round_trip (l : List F) (hne : l ≠ []) (hcodec : ∀ x ∈ l, parse (print x) = .ok x)
    (hsp : ∀ x ∈ l, ' ' ∉ print x ∧ ',' ∉ print x ∧ print x ≠ "none".toList) :
    floatListFromXml parse (floatListToXml print l) = .ok (some l) := by
  have hw : ∀ w ∈ l.map print, ' ' ∉ w := by
    intro w hw
    obtain ⟨x, hx, rfl⟩ := List.mem_map.1 hw
    exact (hsp x hx).1
  cases l with
  | nil => exact absurd rfl hne
  | cons x l =>
    cases l with
    | nil =>
      obtain ⟨h1, h2, h3⟩ := hsp x List.mem_cons_self
      unfold floatListFromXml floatListToXml
      simp only [List.map_cons, List.map_nil, join]
      rw [if_neg h3, if_neg h1, if_neg h2, hcodec x List.mem_cons_self]
      rfl
    | cons y l =>
      have hspace : ' ' ∈ floatListToXml print (x :: y :: l) := by
        simp [floatListToXml, join]
      have hnone : floatListToXml print (x :: y :: l) ≠ "none".toList := by
        intro e
        rw [e] at hspace
        revert hspace
        decide
      unfold floatListFromXml
      rw [if_neg hnone, if_pos hspace]
      have : split ' ' (floatListToXml print (x :: y :: l)) = (x :: y :: l).map print :=
        split_join ' ' _ (by simp) hw
      rw [this, mapM_parse parse print _ hcodec]
      rfl

/-- C18. A comma separated list without spaces is also read. -/
theorem floatList_comma (l : List F) (hlen : 2 ≤ l.length) (hcodec : ∀ x ∈ l, parse (print x) = .ok x)
    (hsp : ∀ x ∈ l, ' ' ∉ print x ∧ ',' ∉ print x) :
    floatListFromXml parse (join ',' (l.map print)) = .ok (some l) := by
  have hw : ∀ w ∈ l.map print, ',' ∉ w := by
    intro w hw
    obtain ⟨x, hx, rfl⟩ := List.mem_map.1 hw
    exact (hsp x hx).2
  have hw' : ∀ w ∈ l.map print, ' ' ∉ w := by
    intro w hw
    obtain ⟨x, hx, rfl⟩ := List.mem_map.1 hw
    exact (hsp x hx).1
  have hnosp : ' ' ∉ join ',' (l.map print) := join_no_char ',' ' ' _ (by decide) hw'
  have hne : l.map print ≠ [] := by
    intro e
    rw [List.map_eq_nil_iff] at e
    subst e
    simp at hlen
  have hcomma : ',' ∈ join ',' (l.map print) := by
    match l, hlen with
    | x :: y :: l, _ => simp [join]
  have hnone : join ',' (l.map print) ≠ "none".toList := by
    intro e
    rw [e] at hcomma
    revert hcomma
    decide
  unfold floatListFromXml
  rw [if_neg hnone, if_neg hnosp, if_pos hcomma, split_join ',' _ hne hw, mapM_parse parse print _ hcodec]
  rfl

/-- C18. The empty list is written as the empty text, which does not read back: `float('')` raises. -/
theorem floatList_empty (hempty : parse [] = .error .valueError) :
    floatListToXml print ([] : List F) = [] ∧
    floatListFromXml parse (floatListToXml print ([] : List F)) = .error .valueError := by
  refine ⟨rfl, ?_⟩
  unfold floatListFromXml floatListToXml
  simp [join, hempty]

/-- C18. The common form `x, y` (comma and space) is refused: it is split at the space, and `float('x,')`
raises. -/
theorem floatList_comma_space (x y : F) (hsp : ' ' ∉ print x ∧ ' ' ∉ print y)
    (hbad : parse (print x ++ [',']) = .error .valueError) :
    floatListFromXml parse (print x ++ [','] ++ ' ' :: print y) = .error .valueError := by
  have hspace : ' ' ∈ print x ++ [','] ++ ' ' :: print y := by simp
  have hnone : print x ++ [','] ++ ' ' :: print y ≠ "none".toList := by
    intro e
    rw [e] at hspace
    revert hspace
    decide
  have hnot : ' ' ∉ print x ++ [','] := by simp [hsp.1]
  unfold floatListFromXml
  rw [if_neg hnone, if_pos hspace, split_append ' ' _ _ hnot, List.mapM_cons, hbad]
  rfl

end FloatList

/-- C19 is false: an object built from an XML text element has the empty text, whatever the element. -/
theorem textObj_ofXml_text (attrs : List (Attr V)) (e : Element) (o : TextObj V)
    (h : TextObj.ofXml attrs e none = .ok o) : o.text = [] := by
  unfold TextObj.ofXml at h
  cases hx : initFromXml attrs e.attrib with
  | error err => rw [hx] at h; cases h
  | ok x => rw [hx] at h; cases h; rfl

/-- C19, what holds: the text given as keyword argument is kept and written. Missing: the text of the element
read, see `textObj_ofXml_text`. -/
theorem textObj_kwargs_text_partial (attrs : List (Attr V)) (kwargs : Dict String (Option V)) (t : Text)
    (o : TextObj V) (h : TextObj.ofKwargs attrs kwargs (some t) = .ok o) (xk : Dict String Text) (e : Element)
    (he : o.toXml attrs xk = .ok e) : o.text = t ∧ e.text = some t := by
  have ht : o.text = t := by
    unfold TextObj.ofKwargs at h
    simp only [Option.isNone_some, Bool.and_false, Bool.false_eq_true, if_false] at h
    cases hx : initFromKwargs attrs kwargs with
    | error err => rw [hx] at h; cases h
    | ok x => rw [hx] at h; cases h; rfl
  refine ⟨ht, ?_⟩
  unfold TextObj.toXml at he
  cases hx : Xml.toXml attrs o.attrs xk with
  | error err => rw [hx] at he; cases he
  | ok x => rw [hx] at he; cases he; rw [← ht]

/-- C19. An object which is made without a text has an empty one; its attributes are those of the keyword arguments, and it has no attribute when it
is made without any argument. -/
theorem textObj_kwargs (attrs : List (Attr V)) (kwargs : Dict String (Option V)) :
    TextObj.ofKwargs attrs kwargs none = (if kwargs = [] then .ok { attrs := [], text := [] } else
      (initFromKwargs attrs kwargs).map fun o => { attrs := o, text := [] }) ∧
    ∀ t, TextObj.ofKwargs attrs kwargs (some t) = (initFromKwargs attrs kwargs).map fun o => { attrs := o, text := t } := by
  constructor
  · cases kwargs with
    | nil => rfl
    | cons x kwargs =>
      rw [if_neg (by simp)]
      unfold TextObj.ofKwargs
      simp only [List.isEmpty_cons, Bool.false_and, Bool.false_eq_true, if_false]
      cases initFromKwargs attrs (x :: kwargs) <;> rfl
  · intro t
    unfold TextObj.ofKwargs
    simp only [Option.isNone_some, Bool.and_false, Bool.false_eq_true, if_false]
    cases initFromKwargs attrs kwargs <;> rfl

/-! ## Inheritance -/

theorem attributes_of_inherits {A : Type _} {c d : Cls A} (h : Inherits c d) :
    ∀ a ∈ d.attributes, a ∈ c.attributes := by
  induction h with
  | @base own bases mro b hb =>
    intro a ha
    rw [Cls.attributes]
    exact List.mem_append_left _ (mem_register_of_mem bases b hb a ha)
  | trans _ _ ih1 ih2 => exact fun a ha => ih1 a (ih2 a ha)

theorem register_mro_subset {A : Type _} {c : Cls A} (h : WellFormed c) :
    ∀ own bases mro, c = .mk own bases mro → ∀ a ∈ registerFromSuperClass mro, a ∈ c.attributes := by
  induction h with
  | @mk own bases mro _ _ hinh _ ihm =>
    rintro _ _ _ ⟨⟩ a ha
    obtain ⟨o, b, m, hmem, hor⟩ := mem_register mro a ha
    apply attributes_of_inherits (hinh _ hmem)
    rcases hor with h | h
    · exact ihm _ hmem o b m rfl a h
    · exact h

/-- C76. The attributes of a class are those declared in its body and those of its bases (hence of all its
ancestors), and no others. -/
theorem attributes_mem_iff {A : Type _} (c : Cls A) (hwf : WellFormed c) (a : A) :
    a ∈ c.attributes ↔ a ∈ c.own ∨ ∃ d, Inherits c d ∧ a ∈ d.own := by
  constructor
  · induction hwf with
    | @mk own bases mro hb hm hinh ihb ihm =>
      intro ha
      rw [Cls.attributes, List.mem_append] at ha
      rcases ha with ha | ha
      · right
        obtain ⟨o, b, m, hmem, hor⟩ := mem_register bases a ha
        have ha' : a ∈ (Cls.mk o b m).attributes := by
          rcases hor with h | h
          · exact register_mro_subset (hb _ hmem) o b m rfl a h
          · exact h
        rcases ihb _ hmem ha' with h | ⟨d, hd, h⟩
        · exact ⟨_, Inherits.base hmem, h⟩
        · exact ⟨d, Inherits.trans (Inherits.base hmem) hd, h⟩
      · left; exact ha
  · rintro (h | ⟨d, hd, h⟩)
    · obtain ⟨own, bases, mro⟩ := c
      rw [Cls.attributes]
      exact List.mem_append_right _ h
    · apply attributes_of_inherits hd
      obtain ⟨own, bases, mro⟩ := d
      rw [Cls.attributes]
      exact List.mem_append_right _ h

/-- C76. The declaration that takes effect for a Python name: the one of the class body if any, otherwise the one
in effect in the LAST base class that knows the name (Python's own attribute lookup would take the first). -/
theorem effective_attribute (own : List (Attr V)) (bs : List (Cls (Attr V))) (b : Cls (Attr V))
    (mro : List (Cls (Attr V))) (hwf : WellFormed (Cls.mk own (bs ++ [b]) mro)) (p : String) :
    (∀ a, effective p own = some a → effective p (Cls.mk own (bs ++ [b]) mro).attributes = some a) ∧
    (∀ a, effective p own = none → effective p b.attributes = some a →
      effective p (Cls.mk own (bs ++ [b]) mro).attributes = some a) ∧
    (effective p own = none → effective p b.attributes = none →
      effective p (Cls.mk own (bs ++ [b]) mro).attributes = effective p (Cls.mk [] bs mro).attributes) := by
  obtain ⟨bo, bb, bm⟩ := b
  have hb : WellFormed (Cls.mk bo bb bm) := by
    cases hwf with
    | mk h _ _ => exact h _ (by simp)
  have hattr : (Cls.mk own (bs ++ [Cls.mk bo bb bm]) mro).attributes
      = registerFromSuperClass bs ++ registerFromSuperClass bm ++ (Cls.mk bo bb bm).attributes ++ own := by
    rw [Cls.attributes, registerFromSuperClass_append]
    simp [registerFromSuperClass]
  have happ : ∀ l1 l2 : List (Attr V), effective p (l1 ++ l2) = (effective p l2).or (effective p l1) := by
    intro l1 l2
    unfold effective
    rw [List.reverse_append, List.find?_append]
  rw [hattr, happ, happ, happ]
  refine ⟨?_, ?_, ?_⟩
  · intro a h; rw [h]; rfl
  · intro a h1 h2; rw [h1, h2]; rfl
  · intro h1 h2
    have h3 : effective p (registerFromSuperClass bm) = none := by
      unfold effective at h2 ⊢
      rw [List.find?_eq_none] at h2 ⊢
      intro x hx
      apply h2
      rw [List.mem_reverse] at hx ⊢
      exact register_mro_subset hb bo bb bm rfl x hx
    rw [h1, h2, h3]
    simp [Cls.attributes]

/-! ## Concrete cases -/

/-- Two attributes: an integer `id` and a boolean `visible` (default true) stored as `visibleFlag`. -/
def exampleAttrs : List (Attr (Int ⊕ Bool)) :=
  [{ py := "id", xml := "id", default := none,
     fromXml := fun t => (intFromText t).map (fun i => some (.inl i)),
     toXml := fun v => match v with | .inl i => intToText i | .inr b => boolToXml b,
     fromPy := .ok },
   { py := "visible", xml := "visibleFlag", default := some (.inr true),
     fromXml := fun t => (boolFromXml t).map (fun b => some (.inr b)),
     toXml := fun v => match v with | .inl i => intToText i | .inr b => boolToXml b,
     fromPy := .ok }]

example : initFromXml exampleAttrs [("id", "42".toList), ("other", "x".toList)]
    = .ok [("id", some (.inl 42)), ("visible", some (.inr true))] := by decide

example : initFromXml exampleAttrs [("id", "-1_000".toList), ("visibleFlag", "0".toList)]
    = .ok [("id", some (.inl (-1000))), ("visible", some (.inr false))] := by decide

example : initFromXml exampleAttrs [("id", "4x".toList)] = .error .valueError := by decide

/-- The hypotheses of `xml_round_trip` hold for this object. -/
example : ∃ x o', toXml exampleAttrs [("id", some (.inl 7)), ("visible", none)] [] = .ok x ∧
    initFromXml exampleAttrs x = .ok o' ∧ o' = [("id", some (.inl 7)), ("visible", some (.inr true))] :=
  ⟨[("id", "7".toList)], _, by decide +kernel, by decide +kernel, rfl⟩

example : TextObj.ofXml exampleAttrs { attrib := [], text := some "label".toList } none
    = .ok { attrs := [("id", none), ("visible", some (.inr true))], text := [] } := rfl

/-- Naturals with an artificial codec meet the hypotheses of the list codec. -/
example : floatListFromXml (fun t => (intFromText t)) (floatListToXml intToText [1, -20, 3])
    = .ok (some [1, -20, 3]) := by decide +kernel

/-- A diamond-free hierarchy in which a subclass redeclares `id`. -/
example : ((Cls.mk [2, 3] [Cls.mk [0, 1] [] []] [Cls.mk [0, 1] [] []]).attributes : List Nat) = [0, 1, 2, 3] := by
  decide

end Patro.Xml
