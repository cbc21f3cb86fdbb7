import Verif.Spec.Save
import Verif.Props.ValentinaDetails
/-!
# Property C235: what a save leaves on the disk
-/

namespace Patro.Save

open Xml (Text)

theorem appendAll_states (disk : Disk) (path : Text) (old : Bytes) (l : List Bytes) :
    (∀ d ∈ appendAll disk path old l, ∃ b, d = disk.set path b ∧ b <+: old ++ l.flatten) ∧
    (disk.set path old :: appendAll disk path old l).getLast? = some (disk.set path (old ++ l.flatten)) := by
  induction l generalizing old with
  | nil => simp [appendAll]
  | cons b l ih =>
    obtain ⟨h1, h2⟩ := ih (old ++ b)
    refine ⟨?_, ?_⟩
    · intro d hd
      rw [appendAll] at hd
      rcases List.mem_cons.1 hd with rfl | hd
      · exact ⟨old ++ b, rfl, by simp⟩
      · obtain ⟨b', h3, h4⟩ := h1 d hd
        exact ⟨b', h3, by simpa using h4⟩
    · rw [appendAll, List.getLast?_cons_cons, h2]
      simp

/-- The outcomes of `openWrite`. -/
theorem openWrite_failed (w : World) (disk : Disk) (path : Text) (content : Except PyErr Bytes) (e : PyErr)
    (h : w.canOpen disk path = .error e) : openWrite w disk path content = ([disk], .error e) := by
  unfold openWrite
  rw [h]

theorem openWrite_saved (w : World) (disk : Disk) (path : Text) (b : Bytes) (h : w.canOpen disk path = .ok ()) :
    (openWrite w disk path (.ok b)).2 = .ok () ∧ OthersKept disk path (openWrite w disk path (.ok b)).1 ∧
      OldOrBeginning disk path b (openWrite w disk path (.ok b)).1 ∧ Saved path b (openWrite w disk path (.ok b)).1 ∧
      ∃ d ∈ (openWrite w disk path (.ok b)).1, d.get? path = some [] := by
  unfold openWrite
  rw [h]
  obtain ⟨h1, h2⟩ := appendAll_states disk path [] (w.pieces b)
  rw [w.whole] at h1 h2
  have key : ∀ d ∈ disk :: disk.set path [] :: appendAll disk path [] (w.pieces b), d = disk ∨ ∃ b', d = disk.set path b' ∧ b' <+: b := by
    intro d hd
    rcases List.mem_cons.1 hd with rfl | hd
    · exact .inl rfl
    · rcases List.mem_cons.1 hd with rfl | hd
      · exact .inr ⟨[], rfl, List.nil_prefix⟩
      · exact .inr (by simpa using h1 d hd)
  refine ⟨rfl, ?_, ?_, ?_, ?_⟩
  · intro d hd q hq
    rcases key d hd with rfl | ⟨b', rfl, -⟩
    · rfl
    · rw [Dict.get?_set_ne]
      exact fun hc => hq hc.symm
  · intro d hd
    rcases key d hd with rfl | ⟨b', rfl, h3⟩
    · exact .inl rfl
    · exact .inr ⟨b', Dict.get?_set_self .., h3⟩
  · refine ⟨disk.set path b, ?_, Dict.get?_set_self ..⟩
    rw [List.getLast?_cons_cons]
    simpa using h2
  · exact ⟨disk.set path [], by simp, Dict.get?_set_self ..⟩

variable {F : Type} (env : Valentina.Env F)

/-- C235. A pattern is saved exactly when its tree can be built and the file can be opened. Then, at every moment, the other files are as they were
and the file has its old content or a beginning of the new one; at the end it has all of it. -/
theorem valentina_saved (tostring : Valentina.Document → Bytes) (w : World) (disk : Disk) (path : Text) (vit : Option Text)
    (pattern : Valentina.Pat F) :
    ((saveValentina env tostring w disk path vit pattern).2 = .ok () ↔
      (∃ document, Valentina.writeFile env vit pattern = .ok document) ∧ w.canOpen disk path = .ok ()) ∧
    ∀ document, Valentina.writeFile env vit pattern = .ok document → w.canOpen disk path = .ok () →
      OthersKept disk path (saveValentina env tostring w disk path vit pattern).1 ∧
      OldOrBeginning disk path (tostring document) (saveValentina env tostring w disk path vit pattern).1 ∧
      Saved path (tostring document) (saveValentina env tostring w disk path vit pattern).1 := by
  unfold saveValentina
  cases Valentina.writeFile env vit pattern with
  | error e => simp
  | ok doc =>
    refine ⟨?_, ?_⟩
    · cases h : w.canOpen disk path with
      | error e => simp [openWrite_failed w disk path _ e h]
      | ok u => simp [(openWrite_saved w disk path (tostring doc) h).1]
    · intro doc' hd h
      cases hd
      obtain ⟨-, h1, h2, h3, -⟩ := openWrite_saved w disk path (tostring doc) h
      exact ⟨h1, h2, h3⟩

/-- C235. A pattern that is not saved leaves the disk as it was, at every moment. -/
theorem valentina_failed (tostring : Valentina.Document → Bytes) (w : World) (disk : Disk) (path : Text) (vit : Option Text)
    (pattern : Valentina.Pat F) (e : PyErr) (h : (saveValentina env tostring w disk path vit pattern).2 = .error e) :
    Untouched disk (saveValentina env tostring w disk path vit pattern).1 := by
  unfold saveValentina at h ⊢
  cases hw : Valentina.writeFile env vit pattern with
  | error e => simp [Untouched]
  | ok doc =>
    rw [hw] at h
    simp only at h ⊢
    cases hc : w.canOpen disk path with
    | error e => rw [openWrite_failed w disk path _ e hc]; simp [Untouched]
    | ok u =>
      rw [(openWrite_saved w disk path (tostring doc) hc).1] at h
      cases h

/-- C235 is false of a save that is interrupted: whatever the file was, there is a moment when it is empty. -/
theorem torn_wrong (tostring : Valentina.Document → Bytes) (w : World) (disk : Disk) (path : Text) (vit : Option Text)
    (pattern : Valentina.Pat F) (h : (saveValentina env tostring w disk path vit pattern).2 = .ok ()) :
    ∃ d ∈ (saveValentina env tostring w disk path vit pattern).1, d.get? path = some [] := by
  obtain ⟨⟨doc, h1⟩, h2⟩ := (valentina_saved env tostring w disk path vit pattern).1.1 h
  unfold saveValentina
  rw [h1]
  exact (openWrite_saved w disk path (tostring doc) h2).2.2.2.2

/-- C235. The same of the elements of an SVG file: all of them are made before the file is opened. -/
theorem svg_saved {E X : Type} (toXml : E → Except PyErr X) (tostring : Option X → List X → Bytes) (w : World) (disk : Disk) (path : Text)
    (group : Option E) (elements : List E) :
    (∀ e, (saveSvg toXml tostring w disk path group elements).2 = .error e →
      Untouched disk (saveSvg toXml tostring w disk path group elements).1) ∧
    ((saveSvg toXml tostring w disk path group elements).2 = .ok () ↔
      (∀ x ∈ group.toList ++ elements, ∃ y, toXml x = .ok y) ∧ w.canOpen disk path = .ok ()) ∧
    ((saveSvg toXml tostring w disk path group elements).2 = .ok () → ∃ g l,
      List.Forall₂ (fun x y => toXml x = .ok y) (group.toList ++ elements) (g.toList ++ l) ∧ (g.isSome ↔ group.isSome) ∧
      OthersKept disk path (saveSvg toXml tostring w disk path group elements).1 ∧
      OldOrBeginning disk path (tostring g l) (saveSvg toXml tostring w disk path group elements).1 ∧
      Saved path (tostring g l) (saveSvg toXml tostring w disk path group elements).1) := by
  have made : ∀ (l : List E) (r : List X), l.mapM toXml = .ok r → List.Forall₂ (fun x y => toXml x = .ok y) l r := fun l r h =>
    Valentina.mapM_ok h
  have fails : ∀ (l : List E) (e : PyErr), l.mapM toXml = .error e → ¬ ∀ x ∈ l, ∃ y, toXml x = .ok y := by
    intro l
    induction l with
    | nil => intro e h; cases h
    | cons a l ih =>
      intro e h hall
      obtain ⟨y, hy⟩ := hall a List.mem_cons_self
      rw [List.mapM_cons, hy] at h
      simp only [bind, Except.bind] at h
      cases hl : l.mapM toXml with
      | error e' => exact ih e' hl fun x hx => hall x (List.mem_cons_of_mem _ hx)
      | ok r => rw [hl] at h; cases h
  have all : ∀ (l : List E) (r : List X), List.Forall₂ (fun x y => toXml x = .ok y) l r → ∀ x ∈ l, ∃ y, toXml x = .ok y := by
    intro l r h x hx
    obtain ⟨y, -, hy⟩ := Valentina.forall₂_mem_left h hx
    exact ⟨y, hy⟩
  unfold saveSvg
  cases hg : group.toList.mapM toXml with
  | error e =>
    have := fails _ _ hg
    refine ⟨by simp [Untouched], ?_, by simp⟩
    simp only [reduceCtorEq, false_iff, not_and]
    intro h
    exact absurd (fun x hx => h x (List.mem_append_left _ hx)) this
  | ok g =>
    simp only
    cases hl : elements.mapM toXml with
    | error e =>
      have := fails _ _ hl
      refine ⟨by simp [Untouched], ?_, by simp⟩
      simp only [reduceCtorEq, false_iff, not_and]
      intro h
      exact absurd (fun x hx => h x (List.mem_append_right _ hx)) this
    | ok l =>
      simp only
      have hg' := made _ _ hg
      have hl' := made _ _ hl
      have hall : ∀ x ∈ group.toList ++ elements, ∃ y, toXml x = .ok y := by
        intro x hx
        rcases List.mem_append.1 hx with hx | hx
        · exact all _ _ hg' x hx
        · exact all _ _ hl' x hx
      cases hc : w.canOpen disk path with
      | error e => simp [openWrite_failed w disk path _ e hc, Untouched]
      | ok u =>
        obtain ⟨h1, h2, h3, h4, -⟩ := openWrite_saved w disk path (tostring g.head? l) hc
        rw [h1]
        refine ⟨by simp, by simpa using hall, fun _ => ⟨g.head?, l, ?_, ?_, h2, h3, h4⟩⟩
        · cases group with
          | none =>
            cases hg'
            simpa using hl'
          | some x =>
            rcases hg' with _ | ⟨h5, h6⟩
            cases h6
            exact .cons h5 hl'
        · cases group with
          | none => cases hg'; simp
          | some x =>
            rcases hg' with _ | ⟨h5, h6⟩
            simp

/-- C235. A TeX document is saved exactly when its file can be opened and its text can be encoded, and then all that was said of a pattern holds. -/
theorem tex_saved (encode : Text → Except PyErr Bytes) (w : World) (disk : Disk) (d : Tex.Document) :
    ((saveTex encode w disk d).2 = .ok () ↔ w.canOpen disk d.texFilename = .ok () ∧ ∃ t b, d.str = .ok t ∧ encode t = .ok b) ∧
    ∀ t b, d.str = .ok t → encode t = .ok b → w.canOpen disk d.texFilename = .ok () →
      OthersKept disk d.texFilename (saveTex encode w disk d).1 ∧ OldOrBeginning disk d.texFilename b (saveTex encode w disk d).1 ∧
      Saved d.texFilename b (saveTex encode w disk d).1 := by
  unfold saveTex
  refine ⟨?_, ?_⟩
  · cases hc : w.canOpen disk d.texFilename with
    | error e => simp [openWrite_failed w disk d.texFilename _ e hc]
    | ok u =>
      simp only [bind, Except.bind, true_and]
      cases d.str with
      | error e => simp [openWrite, hc]
      | ok t =>
        simp only [Except.ok.injEq, exists_and_left, exists_eq_left']
        cases hb : encode t with
        | error e => simp [openWrite, hc]
        | ok b => simp [(openWrite_saved w disk d.texFilename b hc).1]
  · intro t b h1 h2 h3
    simp only [bind, Except.bind, h1, h2]
    obtain ⟨-, k1, k2, k3, -⟩ := openWrite_saved w disk d.texFilename b h3
    exact ⟨k1, k2, k3⟩

/-- C235 is false of a TeX document whose text cannot be encoded: the file, whatever it was, is empty at the end. -/
theorem tex_failed_wrong (encode : Text → Except PyErr Bytes) (w : World) (disk : Disk) (d : Tex.Document) (t : Text) (e : PyErr)
    (hs : d.str = .ok t) (he : encode t = .error e) (hc : w.canOpen disk d.texFilename = .ok ()) :
    (saveTex encode w disk d).2 = .error e ∧ Saved d.texFilename [] (saveTex encode w disk d).1 := by
  unfold saveTex
  simp only [bind, Except.bind, hs, he, openWrite, hc]
  exact ⟨trivial, disk.set d.texFilename [], rfl, Dict.get?_set_self ..⟩

/-- A world where the files can be opened and the bytes are written one by one. -/
def plainWorld : World := ⟨fun _ _ => .ok (), fun b => b.map fun x => [x], fun b => by induction b <;> simp_all⟩

/-- The bytes of an ASCII text. -/
def ascii (t : Text) : Except PyErr Bytes := t.mapM fun c => if c.toNat < 128 then .ok (UInt8.ofNat c.toNat) else .error .valueError

/-- A document is saved in four states. -/
example : (saveSvg (E := UInt8) (X := UInt8) .ok (fun _ l => l) plainWorld [("a".toList, [9])] "a".toList none [1, 2]) =
    ([[("a".toList, [9])], [("a".toList, [])], [("a".toList, [1])], [("a".toList, [1, 2])]], .ok ()) := rfl

/-- The hypotheses of `valentina_saved`, `torn_wrong` and `tex_failed_wrong` are met. -/
example : (saveValentina Valentina.toyEnv (fun _ => [1]) plainWorld [] "a".toList none ⟨some "cm".toList, []⟩).2 = .ok () := rfl

example : ∃ t, (Tex.Document.new "é".toList "article".toList).str = .ok t := ⟨_, rfl⟩

example : (saveTex ascii plainWorld [("a.tex".toList, [9])] (Tex.Document.new "a".toList "é".toList)) =
    ([[("a.tex".toList, [9])], [("a.tex".toList, [])]], .error .valueError) := by decide +kernel

end Patro.Save
