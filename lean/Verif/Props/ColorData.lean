import Verif.Proof.ColorData
import Verif.Props.Color
import Mathlib.Data.Fin.VecNotation
/-!
# Property C236: the colours of the library
-/

namespace Patro.Colour

open Xml (Text)

/-- The digits, as characters. -/
def digitChars : List Char := ['0','1','2','3','4','5','6','7','8','9','a','b','c','d','e','f','A','B','C','D','E','F']

/-- A text is `#` and six digits. -/
def isColorText : Text → Bool
  | ['#', a, b, c, d, e, f] => [a, b, c, d, e, f].all digitChars.contains
  | _ => false

theorem isHex_exists (x : Char) (h : digitChars.contains x = true) : ∃ d, IsHex x d := by
  rw [List.contains_iff_mem] at h
  have key : ∀ x ∈ digitChars, (∃ d : Fin 16, lowerDigits[d]? = some x) ∨ ∃ d : Fin 16, upperDigits[d]? = some x := by
    decide +kernel
  rcases key x h with ⟨d, hd⟩ | ⟨d, hd⟩
  · exact ⟨d, .inl hd⟩
  · exact ⟨d, .inr hd⟩

theorem isColorText_spec (t : Text) (h : isColorText t = true) : ∃ d, IsColorText t d := by
  unfold isColorText at h
  split at h
  · rename_i a b c d e f
    simp only [List.all_cons, List.all_nil, Bool.and_true, Bool.and_eq_true] at h
    obtain ⟨h1, h2, h3, h4, h5, h6⟩ := h
    obtain ⟨d1, k1⟩ := isHex_exists _ h1
    obtain ⟨d2, k2⟩ := isHex_exists _ h2
    obtain ⟨d3, k3⟩ := isHex_exists _ h3
    obtain ⟨d4, k4⟩ := isHex_exists _ h4
    obtain ⟨d5, k5⟩ := isHex_exists _ h5
    obtain ⟨d6, k6⟩ := isHex_exists _ h6
    refine ⟨![d1, d2, d3, d4, d5, d6], ![a, b, c, d, e, f], by simp [List.ofFn_succ], ?_⟩
    intro i
    match i with
    | 0 => exact k1
    | 1 => exact k2
    | 2 => exact k3
    | 3 => exact k4
    | 4 => exact k5
    | 5 => exact k6
  · cases h

theorem isHex_lower {x : Char} {d : Fin 16} (h : IsHex x d) : x.toLower = lowerDigits.getD d '0' := by
  have key : ∀ d : Fin 16, lowerDigits[d]?.map Char.toLower = some (lowerDigits.getD d '0') ∧
      upperDigits[d]?.map Char.toLower = some (lowerDigits.getD d '0') := by
    decide
  rcases h with h | h
  · have := (key d).1
    rw [h] at this
    simpa using this
  · have := (key d).2
    rw [h] at this
    simpa using this

theorem hexText_lower {t : Text} {d : Fin 6 → Fin 16} (h : IsColorText t d) : hexText d = lower t := by
  obtain ⟨c, rfl, hc⟩ := h
  unfold hexText lower
  simp only [List.map_cons, List.map_ofFn, List.cons.injEq]
  refine ⟨by decide, ?_⟩
  congr 1
  funext i
  exact (isHex_lower (hc i)).symm

/-- All the items of the tables, in the order in which they are loaded. -/
def allChars : List (Text × Text) :=
  baseColorsChars ++ tableauColorsChars ++ xkcdColorsChars ++ cssColorsChars ++ qmlColorsChars ++ valentinaChars

theorem all_chars : texts baseColors ++ texts tableauColors ++ texts xkcdColors ++ texts cssColors ++ texts qmlColors ++ valentinaChars =
    allChars := by
  rw [baseColors_chars, tableauColors_chars, xkcdColors_chars, cssColors_chars, qmlColors_chars, allChars]

theorem all_isColorText : allChars.all (fun item => isColorText item.2) = true := by decide +kernel

theorem flatten_chars :
    ([baseColors, tableauColors, xkcdColors, cssColors, qmlColors].map texts ++ [valentinaChars]).flatten = allChars := by
  rw [← all_chars]
  simp only [List.map_cons, List.map_nil, List.cons_append, List.nil_append, List.flatten_cons, List.flatten_nil, List.append_nil,
    List.append_assoc]

theorem items_chars : ∀ item ∈ ([baseColors, tableauColors, xkcdColors, cssColors, qmlColors].map texts ++ [valentinaChars]).flatten,
    ∃ d, IsColorText item.2 d := by
  rw [flatten_chars]
  exact fun item hi => isColorText_spec _ (List.all_eq_true.1 all_isColorText item hi)

theorem bind_of {α β : Type} {x : Except PyErr α} {v : α} (h : x = .ok v) (f : α → Except PyErr β) : (x >>= f) = f v := by
  rw [h]
  rfl

theorem colors_of {v : List (Text × Text)} (h : valentinaColors = .ok v) :
    colors = DataBase.load [] ([baseColors, tableauColors, xkcdColors, cssColors, qmlColors].map texts ++ [v]) := by
  unfold colors
  exact bind_of h _

/-- C236. The import of the colours succeeds. A name is in the database exactly when it is, with underscores instead of spaces, in one of the six
tables, and its colour is the one of the first table which has it. -/
theorem colors_loaded : ∃ db, colors = .ok db ∧ ∃ valentina, valentinaColors = .ok valentina ∧
    ∀ name, (db.get? name).map Color.str = (firstDefinition
      (texts baseColors ++ texts tableauColors ++ texts xkcdColors ++ texts cssColors ++ texts qmlColors ++ valentina) name).map lower := by
  obtain ⟨db, h1, h2⟩ := load_first _ items_chars
  refine ⟨db, ?_, valentinaChars, valentina_chars, fun name => ?_⟩
  · rw [colors_of valentina_chars, h1]
  · have h3 := h2 name
    rw [flatten_chars] at h3
    rw [all_chars]
    cases hf : firstDefinition allChars name with
    | none =>
      rw [hf] at h3
      rw [h3]
      rfl
    | some t =>
      rw [hf] at h3
      obtain ⟨c, d, k1, k2, k3, -⟩ := h3
      rw [k1]
      simp only [Option.map_some, Option.some.injEq]
      rw [str_digits k3, hexText_lower k2]

/-- The colour of the database for the names of a table, when it is known. -/
theorem colors_table {db : DataBase} (h : colors = .ok db) (name : Text) :
    (db.get? name).map Color.str = (firstDefinition allChars name).map lower := by
  obtain ⟨db', h1, v, h2, h3⟩ := colors_loaded
  rw [h] at h1
  cases h1
  rw [valentina_chars] at h2
  cases h2
  rw [h3 name, all_chars]

/-- The twelve colours, as characters. -/
def sameChars : List (Text × Text) := [
  (['b','l','a','c','k'], ['#','0','0','0','0','0','0']),
  (['b','l','u','e'], ['#','0','0','0','0','f','f']),
  (['c','o','r','n','f','l','o','w','e','r','b','l','u','e'], ['#','6','4','9','5','e','d']),
  (['d','a','r','k','B','l','u','e'], ['#','0','0','0','0','8','b']),
  (['d','a','r','k','G','r','e','e','n'], ['#','0','0','6','4','0','0']),
  (['d','a','r','k','R','e','d'], ['#','8','b','0','0','0','0']),
  (['d','a','r','k','v','i','o','l','e','t'], ['#','9','4','0','0','d','3']),
  (['d','e','e','p','p','i','n','k'], ['#','f','f','1','4','9','3']),
  (['d','e','e','p','s','k','y','b','l','u','e'], ['#','0','0','b','f','f','f']),
  (['l','i','g','h','t','s','a','l','m','o','n'], ['#','f','f','a','0','7','a']),
  (['m','e','d','i','u','m','s','e','a','g','r','e','e','n'], ['#','3','c','b','3','7','1']),
  (['y','e','l','l','o','w'], ['#','f','f','f','f','0','0'])]

/-- The five colours, as characters. -/
def otherChars : List (Text × Text × Text) := [
  (['g','o','l','d','e','n','r','o','d'], ['#','d','a','a','5','2','0'], ['#','f','a','c','2','0','5']),
  (['g','r','e','e','n'], ['#','0','0','8','0','0','0'], ['#','0','0','f','f','0','0']),
  (['l','i','m','e'], ['#','0','0','f','f','0','0'], ['#','a','a','f','f','3','2']),
  (['o','r','a','n','g','e'], ['#','f','f','a','5','0','0'], ['#','f','f','7','f','0','e']),
  (['v','i','o','l','e','t'], ['#','e','e','8','2','e','e'], ['#','9','a','0','e','e','a'])]

theorem same_chars : ∀ item ∈ sameChars, item.1 ∈ valentinaChars.map (·.1) ∧ (lower item.1, item.2) ∈ qmlColorsChars ∧
    item.1.head? ≠ some '#' ∧ (firstDefinition allChars item.1).map lower = some item.2 := by decide +kernel

theorem other_chars : ∀ item ∈ otherChars, item.1 ∈ valentinaChars.map (·.1) ∧ (lower item.1, item.2.1) ∈ qmlColorsChars ∧
    item.1.head? ≠ some '#' ∧ (firstDefinition allChars item.1).map lower = some item.2.2 ∧ item.2.2 ≠ item.2.1 := by decide +kernel

theorem mem_valentinaNames {name : Text} (h : name ∈ valentinaChars.map (·.1)) : String.ofList name ∈ valentinaNames := by
  rw [valentinaNames_chars]
  obtain ⟨item, h1, rfl⟩ := List.mem_map.1 h
  exact List.mem_map.2 ⟨item, h1, rfl⟩

/-- C236, what holds: the colours of Valentina are in the database, and twelve of them are those of Qt. -/
theorem valentina_colors_partial (db : DataBase) (h : colors = .ok db) :
    ∀ item ∈ [("black", "#000000"), ("blue", "#0000ff"), ("cornflowerblue", "#6495ed"), ("darkBlue", "#00008b"), ("darkGreen", "#006400"),
        ("darkRed", "#8b0000"), ("darkviolet", "#9400d3"), ("deeppink", "#ff1493"), ("deepskyblue", "#00bfff"), ("lightsalmon", "#ffa07a"),
        ("mediumseagreen", "#3cb371"), ("yellow", "#ffff00")],
      item.1 ∈ valentinaNames ∧ (lower item.1.toList, item.2.toList) ∈ texts qmlColors ∧
        ∃ c, db.ensureColor (some (.text item.1.toList)) = .ok (some c) ∧ c.str = item.2.toList := by
  intro item hi
  change item ∈ strings sameChars at hi
  obtain ⟨chars, hc, rfl⟩ := List.mem_map.1 hi
  obtain ⟨k1, k2, k3, k4⟩ := same_chars chars hc
  simp only [String.toList_ofList]
  refine ⟨mem_valentinaNames k1, qmlColors_chars ▸ k2, ?_⟩
  have := colors_table h chars.1
  rw [k4] at this
  cases hg : db.get? chars.1 with
  | none => rw [hg] at this; cases this
  | some c =>
    rw [hg] at this
    refine ⟨c, ?_, by simpa using this⟩
    unfold DataBase.ensureColor
    simp only [k3, if_false, Dict.getItem, hg]
    rfl

/-- C236 is false of five of the colours of Valentina: the name is that of another colour in an earlier table. A line which is `green` in
Valentina is not drawn with the same colour. -/
theorem valentina_colors_wrong (db : DataBase) (h : colors = .ok db) :
    ∀ item ∈ [("goldenrod", "#daa520", "#fac205"), ("green", "#008000", "#00ff00"), ("lime", "#00ff00", "#aaff32"),
        ("orange", "#ffa500", "#ff7f0e"), ("violet", "#ee82ee", "#9a0eea")],
      item.1 ∈ valentinaNames ∧ (lower item.1.toList, item.2.1.toList) ∈ texts qmlColors ∧
        ∃ c, db.ensureColor (some (.text item.1.toList)) = .ok (some c) ∧ c.str = item.2.2.toList ∧ c.str ≠ item.2.1.toList := by
  intro item hi
  change item ∈ otherChars.map fun item => (String.ofList item.1, String.ofList item.2.1, String.ofList item.2.2) at hi
  obtain ⟨chars, hc, rfl⟩ := List.mem_map.1 hi
  obtain ⟨k1, k2, k3, k4, k5⟩ := other_chars chars hc
  simp only [String.toList_ofList]
  refine ⟨mem_valentinaNames k1, qmlColors_chars ▸ k2, ?_⟩
  have := colors_table h chars.1
  rw [k4] at this
  cases hg : db.get? chars.1 with
  | none => rw [hg] at this; cases this
  | some c =>
    rw [hg] at this
    have hs : c.str = chars.2.2 := by simpa using this
    refine ⟨c, ?_, hs, by rw [hs]; exact k5⟩
    unfold DataBase.ensureColor
    simp only [k3, if_false, Dict.getItem, hg]
    rfl

/-- The two lists have all the colours of Valentina. -/
example : ∀ name ∈ valentinaNames, name ∈ ["black", "blue", "cornflowerblue", "darkBlue", "darkGreen", "darkRed", "darkviolet", "deeppink",
    "deepskyblue", "lightsalmon", "mediumseagreen", "yellow"] ∨ name ∈ ["goldenrod", "green", "lime", "orange", "violet"] := by decide

end Patro.Colour
