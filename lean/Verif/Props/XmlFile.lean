import Verif.Model.XmlFile
import Verif.Props.Save
/-!
# Properties C237 and C238: what is read from the disk
-/

namespace Patro.Save

open Xml (Text)
open Valentina (Pat Scope Operation Built Portable OffsetsReadBack Same SameScope)

/-! ## C238 -/

/-- C238. The data are parsed when they are given, whatever the path and the disk are: bytes as they are, a text without the spaces at its ends, in
UTF-8. -/
theorem parse_data {X : Type} (fromstring : Bytes → Except PyErr X) (disk : Disk) (path : Option Text) :
    (∀ b, parse fromstring disk path (some (.bytes b)) = fromstring b) ∧
    ∀ (a t c : Text), (∀ x ∈ a ++ c, Xml.isSpace x = true) → (∀ x ∈ t.head?.toList ++ t.getLast?.toList, Xml.isSpace x = false) →
      parse fromstring disk path (some (.text (a ++ t ++ c))) = fromstring (String.ofList t).toUTF8.toList := by
  refine ⟨fun b => rfl, fun a t c h1 h2 => ?_⟩
  have key : Xml.strip (a ++ t ++ c) = t := by
    have ha : ∀ (a t : Text), (∀ x ∈ a, Xml.isSpace x = true) → (∀ x ∈ t.head?.toList, Xml.isSpace x = false) →
        (a ++ t).dropWhile Xml.isSpace = t := by
      intro a t h1 h2
      induction a with
      | nil =>
        cases t with
        | nil => rfl
        | cons x t => simp only [List.nil_append, List.dropWhile_cons, h2 x (by simp), Bool.false_eq_true, if_false]
      | cons x a ih =>
        rw [List.cons_append, List.dropWhile_cons, if_pos (h1 x (by simp))]
        exact ih fun y hy => h1 y (by simp [hy])
    unfold Xml.strip
    cases t with
    | nil =>
      rw [List.append_nil]
      have : (a ++ c).dropWhile Xml.isSpace = [] := by
        have := ha (a ++ c) [] h1 (by simp)
        rwa [List.append_nil] at this
      rw [this]
      rfl
    | cons x t =>
      rw [List.append_assoc, ha a _ (fun y hy => h1 y (by simp [hy])) (by
        intro y hy
        have : y = x := by simpa using hy
        rw [this]
        exact h2 x (by simp)), List.reverse_append]
      rw [ha c.reverse _ (fun y hy => h1 y (by simp at hy; simp [hy])) (by
        intro y hy
        rw [List.head?_reverse] at hy
        exact h2 y (by simp only [List.mem_append]; exact .inr hy))]
      simp
  unfold parse source
  simp only [bind, Except.bind, key, utf8]

/-- C238. Without data the bytes of the file are parsed; a file which is not on the disk raises `OSError`. -/
theorem parse_file {X : Type} (fromstring : Bytes → Except PyErr X) (disk : Disk) (path : Text) :
    (∀ b, disk.get? path = some b → parse fromstring disk (some path) none = fromstring b) ∧
    (disk.get? path = none → parse fromstring disk (some path) none = .error .osError) := by
  unfold parse source strPath
  refine ⟨fun b h => ?_, fun h => ?_⟩ <;> simp only [h] <;> rfl

/-- C238 is false of an object made without path and without data: the file called `None` is read if there is one. -/
theorem parse_none_wrong {X : Type} (fromstring : Bytes → Except PyErr X) (disk : Disk) :
    parse fromstring disk none none = parse fromstring disk (some "None".toList) none := rfl

/-! ## C237 -/

variable {F : Type} (env : Valentina.Env F)

/-- The outcome of a load: a pattern like `p`. -/
def LoadsLike (p : Pat F) (r : Int × Except PyErr (Pat F)) : Prop :=
  ∃ c p', r = (c, .ok p') ∧ p'.unit = p.unit ∧ List.Forall₂ SameScope p.scopes p'.scopes

/-- C237, what holds: a pattern that is saved is read back from the file by a new process. If the program is stopped during the save, a new
process reads what it would have read before, or the new pattern, or raises an exception: never a part of the pattern. The parser has to refuse a
beginning of the document or find all of it. -/
theorem saved_and_loaded_partial (p : Pat F) (u : Text) (hu : p.unit = some u) (hu0 : u ≠ [])
    (hb : ∀ sc ∈ p.scopes, ∃ s, Built env s ∧ s.ops = sc.ops) (hp : ∀ sc ∈ p.scopes, ∀ o ∈ sc.ops, Portable sc.ops o)
    (hoff : ∀ sc ∈ p.scopes, OffsetsReadBack env sc.ops) (hn : ∀ sc ∈ p.scopes, ∃ n, sc.name = some n)
    (hid : ((p.scopes.flatMap Scope.ops).map Operation.id).Pairwise (· < ·)) (counter : Int)
    (hc : ∀ sc ∈ p.scopes, ∀ o ∈ sc.ops, counter < o.id) (eval : List (Operation F) → Except PyErr Unit)
    (heval : ∀ sc ∈ p.scopes, ∀ ops', List.Forall₂ Same sc.ops ops' → eval ops' = .ok ()) (vitPath : Option Text)
    (vit : Text → Except PyErr Unit) (hvit : ∀ t, vitPath = some t → vit t = .ok ())
    (tostring : Valentina.Document → Bytes) (fromstring : Bytes → Except PyErr Valentina.Document)
    (hparse : ∀ doc, Valentina.writeFile env vitPath p = .ok doc → fromstring (tostring doc) = .ok doc ∧
      ∀ b, b <+: tostring doc → fromstring b = .ok doc ∨ ∃ e, fromstring b = .error e)
    (w : World) (disk : Disk) (path : Text) (hopen : w.canOpen disk path = .ok ()) :
    (saveValentina env tostring w disk path vitPath p).2 = .ok () ∧
    (∃ d, (saveValentina env tostring w disk path vitPath p).1.getLast? = some d ∧
      LoadsLike p (loadValentina env fromstring vit eval counter d path)) ∧
    ∀ d ∈ (saveValentina env tostring w disk path vitPath p).1,
      loadValentina env fromstring vit eval counter d path = loadValentina env fromstring vit eval counter disk path ∨
      LoadsLike p (loadValentina env fromstring vit eval counter d path) ∨
      ∃ e, loadValentina env fromstring vit eval counter d path = (counter, .error e) := by
  obtain ⟨doc, c, p', h1, h2, h3, h4⟩ :=
    Valentina.pattern_round_trip_partial p u hu hu0 hb hp hoff hn hid counter hc eval heval vitPath vit hvit
  obtain ⟨k1, k2⟩ := valentina_saved env tostring w disk path vitPath p
  obtain ⟨-, k3, d, k4, k5⟩ := k2 doc h1 hopen
  obtain ⟨q1, q2⟩ := hparse doc h1
  have load : ∀ d b, Dict.get? d path = some b → ∀ x, fromstring b = .ok x →
      loadValentina env fromstring vit eval counter d path = Valentina.readFile env vit eval counter x := by
    intro d b hd x hx
    unfold loadValentina
    rw [(parse_file fromstring d path).1 b hd, hx]
  have like : LoadsLike p (Valentina.readFile env vit eval counter doc) := ⟨c, p', h2, h3, h4⟩
  refine ⟨k1.2 ⟨⟨doc, h1⟩, hopen⟩, ⟨d, k4, ?_⟩, fun d hd => ?_⟩
  · rw [load d _ k5 doc q1]
    exact like
  · rcases k3 d hd with h | ⟨b, hb, hp⟩
    · refine .inl ?_
      unfold loadValentina parse source strPath
      rw [h]
    · rcases q2 b hp with hx | ⟨e, hx⟩
      · rw [load d b hb doc hx]
        exact .inr (.inl like)
      · refine .inr (.inr ⟨e, ?_⟩)
        unfold loadValentina
        rw [(parse_file fromstring d path).1 b hb, hx]

/-- C237 is false of a program that is stopped during the save: at some moment neither the old pattern nor the new one can be read, whatever was
on the disk. -/
theorem saved_and_lost_wrong (tostring : Valentina.Document → Bytes) (fromstring : Bytes → Except PyErr Valentina.Document) (e : PyErr)
    (hempty : fromstring [] = .error e) (w : World) (disk : Disk) (path : Text) (vitPath : Option Text) (p : Pat F)
    (h : (saveValentina env tostring w disk path vitPath p).2 = .ok ()) (vit : Text → Except PyErr Unit)
    (eval : List (Operation F) → Except PyErr Unit) (counter : Int) :
    ∃ d ∈ (saveValentina env tostring w disk path vitPath p).1, loadValentina env fromstring vit eval counter d path = (counter, .error e) := by
  obtain ⟨d, h1, h2⟩ := torn_wrong env tostring w disk path vitPath p h
  refine ⟨d, h1, ?_⟩
  unfold loadValentina
  rw [(parse_file fromstring d path).1 [] h2, hempty]

open Valentina in
/-- The hypotheses of `saved_and_loaded_partial` are met: a pattern with a point, a second point and a line, on a disk with another file. -/
example : ∃ fromstring, LoadsLike ⟨some "cm".toList, [⟨some "front".toList, (toySketch 3).ops⟩]⟩
    (loadValentina toyEnv fromstring (fun _ => .ok ()) (fun _ => .ok ()) 3 [("b".toList, [7]), ("a".toList, [1, 2])] "a".toList) := by
  obtain ⟨doc, hdoc⟩ : ∃ doc, writeFile toyEnv none ⟨some "cm".toList, [⟨some "front".toList, (toySketch 3).ops⟩]⟩ = .ok doc := by
    obtain ⟨doc, -, -, h, -⟩ := pattern_round_trip_partial (env := toyEnv) ⟨some "cm".toList, [⟨some "front".toList, (toySketch 3).ops⟩]⟩
      "cm".toList rfl (by decide) (by simpa using ⟨_, toySketch_built 3, rfl⟩) (by simpa using toySketch_portable)
      (by simpa using toySketch_offsets) (by simp) (by rw [toySketch_ops]; decide) 3 (by rw [toySketch_ops]; simp) (fun _ => .ok ()) (by simp)
      none (fun _ => .ok ()) (by simp)
    exact ⟨doc, h⟩
  refine ⟨fun b => if b = [1, 2] then .ok doc else .error .valueError, ?_⟩
  obtain ⟨-, ⟨d, h1, h2⟩, -⟩ := saved_and_loaded_partial toyEnv ⟨some "cm".toList, [⟨some "front".toList, (toySketch 3).ops⟩]⟩
    "cm".toList rfl (by decide) (by simpa using ⟨_, toySketch_built 3, rfl⟩) (by simpa using toySketch_portable)
    (by simpa using toySketch_offsets) (by simp) (by rw [toySketch_ops]; decide) 3 (by rw [toySketch_ops]; simp) (fun _ => .ok ()) (by simp)
    none (fun _ => .ok ()) (by simp) (fun _ => [1, 2]) (fun b => if b = [1, 2] then .ok doc else .error .valueError)
    (by
      intro doc' h
      rw [hdoc] at h
      cases h
      refine ⟨rfl, fun b _ => ?_⟩
      by_cases hb : b = [1, 2]
      · exact .inl (if_pos hb)
      · exact .inr ⟨_, if_neg hb⟩)
    plainWorld [("b".toList, [7])] "a".toList rfl
  have e : saveValentina toyEnv (fun _ => [1, 2]) plainWorld [("b".toList, [7])] "a".toList none
      ⟨some "cm".toList, [⟨some "front".toList, (toySketch 3).ops⟩]⟩ = ([[("b".toList, [7])], [("b".toList, [7]), ("a".toList, [])],
        [("b".toList, [7]), ("a".toList, [1])], [("b".toList, [7]), ("a".toList, [1, 2])]], .ok ()) := by
    unfold saveValentina
    rw [hdoc]
    rfl
  rw [e] at h1
  cases h1
  exact h2

example : parse (fun b => .ok b) [] none (some (.text "  <a/>\n".toList)) = .ok [60, 97, 47, 62] := by decide +kernel

example : parse (fun b => .ok b) [("None".toList, [60])] none none = .ok [60] := rfl

end Patro.Save
