import Verif.Model.ColorData
import Verif.Spec.Color
/-!
# The tables of colours as lists of characters

Generated from `Verif.Model.ColorData`: the kernel compares characters faster than texts.
-/

namespace Patro.Colour

open Xml (Text)

/-- The texts of characters. -/
def strings (l : List (Text × Text)) : List (String × String) := l.map fun item => (String.ofList item.1, String.ofList item.2)

theorem texts_strings (l : List (Text × Text)) : texts (strings l) = l := by
  unfold texts strings
  rw [List.map_map]
  conv_rhs => rw [← List.map_id l]
  congr 1
  funext item
  simp

theorem texts_append (l l' : List (String × String)) : texts (l ++ l') = texts l ++ texts l' := List.map_append

/-- `baseColors`. -/
def baseColorsChars : List (Text × Text) := [
  (['b','l','a','c','k'], ['#','0','0','0','0','0','0']),
  (['b','l','u','e'], ['#','0','0','0','0','f','f']),
  (['g','r','e','e','n'], ['#','0','0','f','f','0','0']),
  (['c','y','a','n'], ['#','0','0','f','f','f','f']),
  (['r','e','d'], ['#','f','f','0','0','0','0']),
  (['m','a','g','e','n','t','a'], ['#','f','f','0','0','f','f']),
  (['y','e','l','l','o','w'], ['#','f','f','f','f','0','0']),
  (['w','h','i','t','e'], ['#','f','f','f','f','f','f'])]

theorem baseColors_chars : texts baseColors = baseColorsChars := by
  have h : baseColors = strings baseColorsChars := rfl
  rw [h, texts_strings]

/-- `tableauColors`. -/
def tableauColorsChars : List (Text × Text) := [
  (['b','l','u','e'], ['#','1','f','7','7','b','4']),
  (['b','r','o','w','n'], ['#','8','c','5','6','4','b']),
  (['c','y','a','n'], ['#','1','7','b','e','c','f']),
  (['g','r','a','y'], ['#','7','f','7','f','7','f']),
  (['g','r','e','e','n'], ['#','2','c','a','0','2','c']),
  (['o','l','i','v','e'], ['#','b','c','b','d','2','2']),
  (['o','r','a','n','g','e'], ['#','f','f','7','f','0','e']),
  (['p','i','n','k'], ['#','e','3','7','7','c','2']),
  (['p','u','r','p','l','e'], ['#','9','4','6','7','b','d']),
  (['r','e','d'], ['#','d','6','2','7','2','8'])]

theorem tableauColors_chars : texts tableauColors = tableauColorsChars := by
  have h : tableauColors = strings tableauColorsChars := rfl
  rw [h, texts_strings]

/-- `xkcdColors1`. -/
def xkcdColors1Chars : List (Text × Text) := [
  (['r','o','b','i','n','\'','s',' ','e','g','g',' ','b','l','u','e'], ['#','9','8','e','f','f','9']),
  (['r','o','b','i','n','\'','s',' ','e','g','g'], ['#','6','d','e','d','f','d']),
  (['a','c','i','d',' ','g','r','e','e','n'], ['#','8','f','f','e','0','9']),
  (['a','d','o','b','e'], ['#','b','d','6','c','4','8']),
  (['a','l','g','a','e',' ','g','r','e','e','n'], ['#','2','1','c','3','6','f']),
  (['a','l','g','a','e'], ['#','5','4','a','c','6','8']),
  (['a','l','m','o','s','t',' ','b','l','a','c','k'], ['#','0','7','0','d','0','d']),
  (['a','m','b','e','r'], ['#','f','e','b','3','0','8']),
  (['a','m','e','t','h','y','s','t'], ['#','9','b','5','f','c','0']),
  (['a','p','p','l','e',' ','g','r','e','e','n'], ['#','7','6','c','d','2','6']),
  (['a','p','p','l','e'], ['#','6','e','c','b','3','c']),
  (['a','p','r','i','c','o','t'], ['#','f','f','b','1','6','d']),
  (['a','q','u','a',' ','b','l','u','e'], ['#','0','2','d','8','e','9']),
  (['a','q','u','a',' ','g','r','e','e','n'], ['#','1','2','e','1','9','3']),
  (['a','q','u','a',' ','m','a','r','i','n','e'], ['#','2','e','e','8','b','b']),
  (['a','q','u','a'], ['#','1','3','e','a','c','9']),
  (['a','q','u','a','m','a','r','i','n','e'], ['#','0','4','d','8','b','2']),
  (['a','r','m','y',' ','g','r','e','e','n'], ['#','4','b','5','d','1','6']),
  (['a','s','p','a','r','a','g','u','s'], ['#','7','7','a','b','5','6']),
  (['a','u','b','e','r','g','i','n','e'], ['#','3','d','0','7','3','4']),
  (['a','u','b','u','r','n'], ['#','9','a','3','0','0','1']),
  (['a','v','o','c','a','d','o',' ','g','r','e','e','n'], ['#','8','7','a','9','2','2']),
  (['a','v','o','c','a','d','o'], ['#','9','0','b','1','3','4']),
  (['a','z','u','l'], ['#','1','d','5','d','e','c']),
  (['a','z','u','r','e'], ['#','0','6','9','a','f','3']),
  (['b','a','b','y',' ','b','l','u','e'], ['#','a','2','c','f','f','e']),
  (['b','a','b','y',' ','g','r','e','e','n'], ['#','8','c','f','f','9','e']),
  (['b','a','b','y',' ','p','i','n','k'], ['#','f','f','b','7','c','e']),
  (['b','a','b','y',' ','p','o','o'], ['#','a','b','9','0','0','4']),
  (['b','a','b','y',' ','p','o','o','p',' ','g','r','e','e','n'], ['#','8','f','9','8','0','5']),
  (['b','a','b','y',' ','p','o','o','p'], ['#','9','3','7','c','0','0']),
  (['b','a','b','y',' ','p','u','k','e',' ','g','r','e','e','n'], ['#','b','6','c','4','0','6']),
  (['b','a','b','y',' ','p','u','r','p','l','e'], ['#','c','a','9','b','f','7']),
  (['b','a','b','y',' ','s','h','i','t',' ','b','r','o','w','n'], ['#','a','d','9','0','0','d']),
  (['b','a','b','y',' ','s','h','i','t',' ','g','r','e','e','n'], ['#','8','8','9','7','1','7']),
  (['b','a','n','a','n','a',' ','y','e','l','l','o','w'], ['#','f','a','f','e','4','b']),
  (['b','a','n','a','n','a'], ['#','f','f','f','f','7','e']),
  (['b','a','r','b','i','e',' ','p','i','n','k'], ['#','f','e','4','6','a','5']),
  (['b','a','r','f',' ','g','r','e','e','n'], ['#','9','4','a','c','0','2']),
  (['b','a','r','n','e','y',' ','p','u','r','p','l','e'], ['#','a','0','0','4','9','8']),
  (['b','a','r','n','e','y'], ['#','a','c','1','d','b','8']),
  (['b','a','t','t','l','e','s','h','i','p',' ','g','r','e','y'], ['#','6','b','7','c','8','5']),
  (['b','e','i','g','e'], ['#','e','6','d','a','a','6']),
  (['b','e','r','r','y'], ['#','9','9','0','f','4','b']),
  (['b','i','l','e'], ['#','b','5','c','3','0','6']),
  (['b','l','a','c','k'], ['#','0','0','0','0','0','0']),
  (['b','l','a','n','d'], ['#','a','f','a','8','8','b']),
  (['b','l','o','o','d',' ','o','r','a','n','g','e'], ['#','f','e','4','b','0','3']),
  (['b','l','o','o','d',' ','r','e','d'], ['#','9','8','0','0','0','2']),
  (['b','l','o','o','d'], ['#','7','7','0','0','0','1']),
  (['b','l','u','e',' ','b','l','u','e'], ['#','2','2','4','2','c','7']),
  (['b','l','u','e',' ','g','r','e','e','n'], ['#','1','3','7','e','6','d']),
  (['b','l','u','e',' ','g','r','e','y'], ['#','6','0','7','c','8','e']),
  (['b','l','u','e',' ','p','u','r','p','l','e'], ['#','5','7','2','9','c','e']),
  (['b','l','u','e',' ','v','i','o','l','e','t'], ['#','5','d','0','6','e','9']),
  (['b','l','u','e',' ','w','i','t','h',' ','a',' ','h','i','n','t',' ','o','f',' ','p','u','r','p','l','e'], ['#','5','3','3','c','c','6']),
  (['b','l','u','e'], ['#','0','3','4','3','d','f']),
  (['b','l','u','e','/','g','r','e','e','n'], ['#','0','f','9','b','8','e']),
  (['b','l','u','e','/','g','r','e','y'], ['#','7','5','8','d','a','3']),
  (['b','l','u','e','/','p','u','r','p','l','e'], ['#','5','a','0','6','e','f']),
  (['b','l','u','e','b','e','r','r','y'], ['#','4','6','4','1','9','6']),
  (['b','l','u','e','g','r','e','e','n'], ['#','0','1','7','a','7','9']),
  (['b','l','u','e','g','r','e','y'], ['#','8','5','a','3','b','2']),
  (['b','l','u','e','y',' ','g','r','e','e','n'], ['#','2','b','b','1','7','9']),
  (['b','l','u','e','y',' ','g','r','e','y'], ['#','8','9','a','0','b','0']),
  (['b','l','u','e','y',' ','p','u','r','p','l','e'], ['#','6','2','4','1','c','7']),
  (['b','l','u','i','s','h',' ','g','r','e','e','n'], ['#','1','0','a','6','7','4']),
  (['b','l','u','i','s','h',' ','g','r','e','y'], ['#','7','4','8','b','9','7']),
  (['b','l','u','i','s','h',' ','p','u','r','p','l','e'], ['#','7','0','3','b','e','7']),
  (['b','l','u','i','s','h'], ['#','2','9','7','6','b','b']),
  (['b','l','u','r','p','l','e'], ['#','5','5','3','9','c','c']),
  (['b','l','u','s','h',' ','p','i','n','k'], ['#','f','e','8','2','8','c']),
  (['b','l','u','s','h'], ['#','f','2','9','e','8','e']),
  (['b','o','o','g','e','r',' ','g','r','e','e','n'], ['#','9','6','b','4','0','3']),
  (['b','o','o','g','e','r'], ['#','9','b','b','5','3','c']),
  (['b','o','r','d','e','a','u','x'], ['#','7','b','0','0','2','c']),
  (['b','o','r','i','n','g',' ','g','r','e','e','n'], ['#','6','3','b','3','6','5']),
  (['b','o','t','t','l','e',' ','g','r','e','e','n'], ['#','0','4','4','a','0','5']),
  (['b','r','i','c','k',' ','o','r','a','n','g','e'], ['#','c','1','4','a','0','9']),
  (['b','r','i','c','k',' ','r','e','d'], ['#','8','f','1','4','0','2']),
  (['b','r','i','c','k'], ['#','a','0','3','6','2','3']),
  (['b','r','i','g','h','t',' ','a','q','u','a'], ['#','0','b','f','9','e','a']),
  (['b','r','i','g','h','t',' ','b','l','u','e'], ['#','0','1','6','5','f','c']),
  (['b','r','i','g','h','t',' ','c','y','a','n'], ['#','4','1','f','d','f','e']),
  (['b','r','i','g','h','t',' ','g','r','e','e','n'], ['#','0','1','f','f','0','7']),
  (['b','r','i','g','h','t',' ','l','a','v','e','n','d','e','r'], ['#','c','7','6','0','f','f']),
  (['b','r','i','g','h','t',' ','l','i','g','h','t',' ','b','l','u','e'], ['#','2','6','f','7','f','d']),
  (['b','r','i','g','h','t',' ','l','i','g','h','t',' ','g','r','e','e','n'], ['#','2','d','f','e','5','4']),
  (['b','r','i','g','h','t',' ','l','i','l','a','c'], ['#','c','9','5','e','f','b']),
  (['b','r','i','g','h','t',' ','l','i','m','e',' ','g','r','e','e','n'], ['#','6','5','f','e','0','8']),
  (['b','r','i','g','h','t',' ','l','i','m','e'], ['#','8','7','f','d','0','5']),
  (['b','r','i','g','h','t',' ','m','a','g','e','n','t','a'], ['#','f','f','0','8','e','8']),
  (['b','r','i','g','h','t',' ','o','l','i','v','e'], ['#','9','c','b','b','0','4']),
  (['b','r','i','g','h','t',' ','o','r','a','n','g','e'], ['#','f','f','5','b','0','0']),
  (['b','r','i','g','h','t',' ','p','i','n','k'], ['#','f','e','0','1','b','1']),
  (['b','r','i','g','h','t',' ','p','u','r','p','l','e'], ['#','b','e','0','3','f','d']),
  (['b','r','i','g','h','t',' ','r','e','d'], ['#','f','f','0','0','0','d']),
  (['b','r','i','g','h','t',' ','s','e','a',' ','g','r','e','e','n'], ['#','0','5','f','f','a','6']),
  (['b','r','i','g','h','t',' ','s','k','y',' ','b','l','u','e'], ['#','0','2','c','c','f','e']),
  (['b','r','i','g','h','t',' ','t','e','a','l'], ['#','0','1','f','9','c','6'])]

theorem xkcdColors1_chars : texts xkcdColors1 = xkcdColors1Chars := by
  have h : xkcdColors1 = strings xkcdColors1Chars := rfl
  rw [h, texts_strings]

/-- `xkcdColors2`. -/
def xkcdColors2Chars : List (Text × Text) := [
  (['b','r','i','g','h','t',' ','t','u','r','q','u','o','i','s','e'], ['#','0','f','f','e','f','9']),
  (['b','r','i','g','h','t',' ','v','i','o','l','e','t'], ['#','a','d','0','a','f','d']),
  (['b','r','i','g','h','t',' ','y','e','l','l','o','w',' ','g','r','e','e','n'], ['#','9','d','f','f','0','0']),
  (['b','r','i','g','h','t',' ','y','e','l','l','o','w'], ['#','f','f','f','d','0','1']),
  (['b','r','i','t','i','s','h',' ','r','a','c','i','n','g',' ','g','r','e','e','n'], ['#','0','5','4','8','0','d']),
  (['b','r','o','n','z','e'], ['#','a','8','7','9','0','0']),
  (['b','r','o','w','n',' ','g','r','e','e','n'], ['#','7','0','6','c','1','1']),
  (['b','r','o','w','n',' ','g','r','e','y'], ['#','8','d','8','4','6','8']),
  (['b','r','o','w','n',' ','o','r','a','n','g','e'], ['#','b','9','6','9','0','2']),
  (['b','r','o','w','n',' ','r','e','d'], ['#','9','2','2','b','0','5']),
  (['b','r','o','w','n',' ','y','e','l','l','o','w'], ['#','b','2','9','7','0','5']),
  (['b','r','o','w','n'], ['#','6','5','3','7','0','0']),
  (['b','r','o','w','n','i','s','h',' ','g','r','e','e','n'], ['#','6','a','6','e','0','9']),
  (['b','r','o','w','n','i','s','h',' ','g','r','e','y'], ['#','8','6','7','7','5','f']),
  (['b','r','o','w','n','i','s','h',' ','o','r','a','n','g','e'], ['#','c','b','7','7','2','3']),
  (['b','r','o','w','n','i','s','h',' ','p','i','n','k'], ['#','c','2','7','e','7','9']),
  (['b','r','o','w','n','i','s','h',' ','p','u','r','p','l','e'], ['#','7','6','4','2','4','e']),
  (['b','r','o','w','n','i','s','h',' ','r','e','d'], ['#','9','e','3','6','2','3']),
  (['b','r','o','w','n','i','s','h',' ','y','e','l','l','o','w'], ['#','c','9','b','0','0','3']),
  (['b','r','o','w','n','i','s','h'], ['#','9','c','6','d','5','7']),
  (['b','r','o','w','n','y',' ','g','r','e','e','n'], ['#','6','f','6','c','0','a']),
  (['b','r','o','w','n','y',' ','o','r','a','n','g','e'], ['#','c','a','6','b','0','2']),
  (['b','r','u','i','s','e'], ['#','7','e','4','0','7','1']),
  (['b','u','b','b','l','e',' ','g','u','m',' ','p','i','n','k'], ['#','f','f','6','9','a','f']),
  (['b','u','b','b','l','e','g','u','m',' ','p','i','n','k'], ['#','f','e','8','3','c','c']),
  (['b','u','b','b','l','e','g','u','m'], ['#','f','f','6','c','b','5']),
  (['b','u','f','f'], ['#','f','e','f','6','9','e']),
  (['b','u','r','g','u','n','d','y'], ['#','6','1','0','0','2','3']),
  (['b','u','r','n','t',' ','o','r','a','n','g','e'], ['#','c','0','4','e','0','1']),
  (['b','u','r','n','t',' ','r','e','d'], ['#','9','f','2','3','0','5']),
  (['b','u','r','n','t',' ','s','i','e','n','a'], ['#','b','7','5','2','0','3']),
  (['b','u','r','n','t',' ','s','i','e','n','n','a'], ['#','b','0','4','e','0','f']),
  (['b','u','r','n','t',' ','u','m','b','e','r'], ['#','a','0','4','5','0','e']),
  (['b','u','r','n','t',' ','y','e','l','l','o','w'], ['#','d','5','a','b','0','9']),
  (['b','u','r','p','l','e'], ['#','6','8','3','2','e','3']),
  (['b','u','t','t','e','r',' ','y','e','l','l','o','w'], ['#','f','f','f','d','7','4']),
  (['b','u','t','t','e','r'], ['#','f','f','f','f','8','1']),
  (['b','u','t','t','e','r','s','c','o','t','c','h'], ['#','f','d','b','1','4','7']),
  (['c','a','d','e','t',' ','b','l','u','e'], ['#','4','e','7','4','9','6']),
  (['c','a','m','e','l'], ['#','c','6','9','f','5','9']),
  (['c','a','m','o',' ','g','r','e','e','n'], ['#','5','2','6','5','2','5']),
  (['c','a','m','o'], ['#','7','f','8','f','4','e']),
  (['c','a','m','o','u','f','l','a','g','e',' ','g','r','e','e','n'], ['#','4','b','6','1','1','3']),
  (['c','a','n','a','r','y',' ','y','e','l','l','o','w'], ['#','f','f','f','e','4','0']),
  (['c','a','n','a','r','y'], ['#','f','d','f','f','6','3']),
  (['c','a','n','d','y',' ','p','i','n','k'], ['#','f','f','6','3','e','9']),
  (['c','a','r','a','m','e','l'], ['#','a','f','6','f','0','9']),
  (['c','a','r','m','i','n','e'], ['#','9','d','0','2','1','6']),
  (['c','a','r','n','a','t','i','o','n',' ','p','i','n','k'], ['#','f','f','7','f','a','7']),
  (['c','a','r','n','a','t','i','o','n'], ['#','f','d','7','9','8','f']),
  (['c','a','r','o','l','i','n','a',' ','b','l','u','e'], ['#','8','a','b','8','f','e']),
  (['c','e','l','a','d','o','n'], ['#','b','e','f','d','b','7']),
  (['c','e','l','e','r','y'], ['#','c','1','f','d','9','5']),
  (['c','e','m','e','n','t'], ['#','a','5','a','3','9','1']),
  (['c','e','r','i','s','e'], ['#','d','e','0','c','6','2']),
  (['c','e','r','u','l','e','a','n',' ','b','l','u','e'], ['#','0','5','6','e','e','e']),
  (['c','e','r','u','l','e','a','n'], ['#','0','4','8','5','d','1']),
  (['c','h','a','r','c','o','a','l',' ','g','r','e','y'], ['#','3','c','4','1','4','2']),
  (['c','h','a','r','c','o','a','l'], ['#','3','4','3','8','3','7']),
  (['c','h','a','r','t','r','e','u','s','e'], ['#','c','1','f','8','0','a']),
  (['c','h','e','r','r','y',' ','r','e','d'], ['#','f','7','0','2','2','a']),
  (['c','h','e','r','r','y'], ['#','c','f','0','2','3','4']),
  (['c','h','e','s','t','n','u','t'], ['#','7','4','2','8','0','2']),
  (['c','h','o','c','o','l','a','t','e',' ','b','r','o','w','n'], ['#','4','1','1','9','0','0']),
  (['c','h','o','c','o','l','a','t','e'], ['#','3','d','1','c','0','2']),
  (['c','i','n','n','a','m','o','n'], ['#','a','c','4','f','0','6']),
  (['c','l','a','r','e','t'], ['#','6','8','0','0','1','8']),
  (['c','l','a','y',' ','b','r','o','w','n'], ['#','b','2','7','1','3','d']),
  (['c','l','a','y'], ['#','b','6','6','a','5','0']),
  (['c','l','e','a','r',' ','b','l','u','e'], ['#','2','4','7','a','f','d']),
  (['c','l','o','u','d','y',' ','b','l','u','e'], ['#','a','c','c','2','d','9']),
  (['c','o','b','a','l','t',' ','b','l','u','e'], ['#','0','3','0','a','a','7']),
  (['c','o','b','a','l','t'], ['#','1','e','4','8','8','f']),
  (['c','o','c','o','a'], ['#','8','7','5','f','4','2']),
  (['c','o','f','f','e','e'], ['#','a','6','8','1','4','c']),
  (['c','o','o','l',' ','b','l','u','e'], ['#','4','9','8','4','b','8']),
  (['c','o','o','l',' ','g','r','e','e','n'], ['#','3','3','b','8','6','4']),
  (['c','o','o','l',' ','g','r','e','y'], ['#','9','5','a','3','a','6']),
  (['c','o','p','p','e','r'], ['#','b','6','6','3','2','5']),
  (['c','o','r','a','l',' ','p','i','n','k'], ['#','f','f','6','1','6','3']),
  (['c','o','r','a','l'], ['#','f','c','5','a','5','0']),
  (['c','o','r','n','f','l','o','w','e','r',' ','b','l','u','e'], ['#','5','1','7','0','d','7']),
  (['c','o','r','n','f','l','o','w','e','r'], ['#','6','a','7','9','f','7']),
  (['c','r','a','n','b','e','r','r','y'], ['#','9','e','0','0','3','a']),
  (['c','r','e','a','m'], ['#','f','f','f','f','c','2']),
  (['c','r','e','m','e'], ['#','f','f','f','f','b','6']),
  (['c','r','i','m','s','o','n'], ['#','8','c','0','0','0','f']),
  (['c','u','s','t','a','r','d'], ['#','f','f','f','d','7','8']),
  (['c','y','a','n'], ['#','0','0','f','f','f','f']),
  (['d','a','n','d','e','l','i','o','n'], ['#','f','e','d','f','0','8']),
  (['d','a','r','k',' ','a','q','u','a'], ['#','0','5','6','9','6','b']),
  (['d','a','r','k',' ','a','q','u','a','m','a','r','i','n','e'], ['#','0','1','7','3','7','1']),
  (['d','a','r','k',' ','b','e','i','g','e'], ['#','a','c','9','3','6','2']),
  (['d','a','r','k',' ','b','l','u','e',' ','g','r','e','e','n'], ['#','0','0','5','2','4','9']),
  (['d','a','r','k',' ','b','l','u','e',' ','g','r','e','y'], ['#','1','f','3','b','4','d']),
  (['d','a','r','k',' ','b','l','u','e'], ['#','0','0','0','3','5','b']),
  (['d','a','r','k',' ','b','r','o','w','n'], ['#','3','4','1','c','0','2']),
  (['d','a','r','k',' ','c','o','r','a','l'], ['#','c','f','5','2','4','e']),
  (['d','a','r','k',' ','c','r','e','a','m'], ['#','f','f','f','3','9','a']),
  (['d','a','r','k',' ','c','y','a','n'], ['#','0','a','8','8','8','a'])]

theorem xkcdColors2_chars : texts xkcdColors2 = xkcdColors2Chars := by
  have h : xkcdColors2 = strings xkcdColors2Chars := rfl
  rw [h, texts_strings]

/-- `xkcdColors3`. -/
def xkcdColors3Chars : List (Text × Text) := [
  (['d','a','r','k',' ','f','o','r','e','s','t',' ','g','r','e','e','n'], ['#','0','0','2','d','0','4']),
  (['d','a','r','k',' ','f','u','c','h','s','i','a'], ['#','9','d','0','7','5','9']),
  (['d','a','r','k',' ','g','o','l','d'], ['#','b','5','9','4','1','0']),
  (['d','a','r','k',' ','g','r','a','s','s',' ','g','r','e','e','n'], ['#','3','8','8','0','0','4']),
  (['d','a','r','k',' ','g','r','e','e','n',' ','b','l','u','e'], ['#','1','f','6','3','5','7']),
  (['d','a','r','k',' ','g','r','e','e','n'], ['#','0','3','3','5','0','0']),
  (['d','a','r','k',' ','g','r','e','y',' ','b','l','u','e'], ['#','2','9','4','6','5','b']),
  (['d','a','r','k',' ','g','r','e','y'], ['#','3','6','3','7','3','7']),
  (['d','a','r','k',' ','h','o','t',' ','p','i','n','k'], ['#','d','9','0','1','6','6']),
  (['d','a','r','k',' ','i','n','d','i','g','o'], ['#','1','f','0','9','5','4']),
  (['d','a','r','k',' ','k','h','a','k','i'], ['#','9','b','8','f','5','5']),
  (['d','a','r','k',' ','l','a','v','e','n','d','e','r'], ['#','8','5','6','7','9','8']),
  (['d','a','r','k',' ','l','i','l','a','c'], ['#','9','c','6','d','a','5']),
  (['d','a','r','k',' ','l','i','m','e',' ','g','r','e','e','n'], ['#','7','e','b','d','0','1']),
  (['d','a','r','k',' ','l','i','m','e'], ['#','8','4','b','7','0','1']),
  (['d','a','r','k',' ','m','a','g','e','n','t','a'], ['#','9','6','0','0','5','6']),
  (['d','a','r','k',' ','m','a','r','o','o','n'], ['#','3','c','0','0','0','8']),
  (['d','a','r','k',' ','m','a','u','v','e'], ['#','8','7','4','c','6','2']),
  (['d','a','r','k',' ','m','i','n','t',' ','g','r','e','e','n'], ['#','2','0','c','0','7','3']),
  (['d','a','r','k',' ','m','i','n','t'], ['#','4','8','c','0','7','2']),
  (['d','a','r','k',' ','m','u','s','t','a','r','d'], ['#','a','8','8','9','0','5']),
  (['d','a','r','k',' ','n','a','v','y',' ','b','l','u','e'], ['#','0','0','0','2','2','e']),
  (['d','a','r','k',' ','n','a','v','y'], ['#','0','0','0','4','3','5']),
  (['d','a','r','k',' ','o','l','i','v','e',' ','g','r','e','e','n'], ['#','3','c','4','d','0','3']),
  (['d','a','r','k',' ','o','l','i','v','e'], ['#','3','7','3','e','0','2']),
  (['d','a','r','k',' ','o','r','a','n','g','e'], ['#','c','6','5','1','0','2']),
  (['d','a','r','k',' ','p','a','s','t','e','l',' ','g','r','e','e','n'], ['#','5','6','a','e','5','7']),
  (['d','a','r','k',' ','p','e','a','c','h'], ['#','d','e','7','e','5','d']),
  (['d','a','r','k',' ','p','e','r','i','w','i','n','k','l','e'], ['#','6','6','5','f','d','1']),
  (['d','a','r','k',' ','p','i','n','k'], ['#','c','b','4','1','6','b']),
  (['d','a','r','k',' ','p','l','u','m'], ['#','3','f','0','1','2','c']),
  (['d','a','r','k',' ','p','u','r','p','l','e'], ['#','3','5','0','6','3','e']),
  (['d','a','r','k',' ','r','e','d'], ['#','8','4','0','0','0','0']),
  (['d','a','r','k',' ','r','o','s','e'], ['#','b','5','4','8','5','d']),
  (['d','a','r','k',' ','r','o','y','a','l',' ','b','l','u','e'], ['#','0','2','0','6','6','f']),
  (['d','a','r','k',' ','s','a','g','e'], ['#','5','9','8','5','5','6']),
  (['d','a','r','k',' ','s','a','l','m','o','n'], ['#','c','8','5','a','5','3']),
  (['d','a','r','k',' ','s','a','n','d'], ['#','a','8','8','f','5','9']),
  (['d','a','r','k',' ','s','e','a',' ','g','r','e','e','n'], ['#','1','1','8','7','5','d']),
  (['d','a','r','k',' ','s','e','a','f','o','a','m',' ','g','r','e','e','n'], ['#','3','e','a','f','7','6']),
  (['d','a','r','k',' ','s','e','a','f','o','a','m'], ['#','1','f','b','5','7','a']),
  (['d','a','r','k',' ','s','k','y',' ','b','l','u','e'], ['#','4','4','8','e','e','4']),
  (['d','a','r','k',' ','s','l','a','t','e',' ','b','l','u','e'], ['#','2','1','4','7','6','1']),
  (['d','a','r','k',' ','t','a','n'], ['#','a','f','8','8','4','a']),
  (['d','a','r','k',' ','t','a','u','p','e'], ['#','7','f','6','8','4','e']),
  (['d','a','r','k',' ','t','e','a','l'], ['#','0','1','4','d','4','e']),
  (['d','a','r','k',' ','t','u','r','q','u','o','i','s','e'], ['#','0','4','5','c','5','a']),
  (['d','a','r','k',' ','v','i','o','l','e','t'], ['#','3','4','0','1','3','f']),
  (['d','a','r','k',' ','y','e','l','l','o','w',' ','g','r','e','e','n'], ['#','7','2','8','f','0','2']),
  (['d','a','r','k',' ','y','e','l','l','o','w'], ['#','d','5','b','6','0','a']),
  (['d','a','r','k'], ['#','1','b','2','4','3','1']),
  (['d','a','r','k','b','l','u','e'], ['#','0','3','0','7','6','4']),
  (['d','a','r','k','g','r','e','e','n'], ['#','0','5','4','9','0','7']),
  (['d','a','r','k','i','s','h',' ','b','l','u','e'], ['#','0','1','4','1','8','2']),
  (['d','a','r','k','i','s','h',' ','g','r','e','e','n'], ['#','2','8','7','c','3','7']),
  (['d','a','r','k','i','s','h',' ','p','i','n','k'], ['#','d','a','4','6','7','d']),
  (['d','a','r','k','i','s','h',' ','p','u','r','p','l','e'], ['#','7','5','1','9','7','3']),
  (['d','a','r','k','i','s','h',' ','r','e','d'], ['#','a','9','0','3','0','8']),
  (['d','e','e','p',' ','a','q','u','a'], ['#','0','8','7','8','7','f']),
  (['d','e','e','p',' ','b','l','u','e'], ['#','0','4','0','2','7','3']),
  (['d','e','e','p',' ','b','r','o','w','n'], ['#','4','1','0','2','0','0']),
  (['d','e','e','p',' ','g','r','e','e','n'], ['#','0','2','5','9','0','f']),
  (['d','e','e','p',' ','l','a','v','e','n','d','e','r'], ['#','8','d','5','e','b','7']),
  (['d','e','e','p',' ','l','i','l','a','c'], ['#','9','6','6','e','b','d']),
  (['d','e','e','p',' ','m','a','g','e','n','t','a'], ['#','a','0','0','2','5','c']),
  (['d','e','e','p',' ','o','r','a','n','g','e'], ['#','d','c','4','d','0','1']),
  (['d','e','e','p',' ','p','i','n','k'], ['#','c','b','0','1','6','2']),
  (['d','e','e','p',' ','p','u','r','p','l','e'], ['#','3','6','0','1','3','f']),
  (['d','e','e','p',' ','r','e','d'], ['#','9','a','0','2','0','0']),
  (['d','e','e','p',' ','r','o','s','e'], ['#','c','7','4','7','6','7']),
  (['d','e','e','p',' ','s','e','a',' ','b','l','u','e'], ['#','0','1','5','4','8','2']),
  (['d','e','e','p',' ','s','k','y',' ','b','l','u','e'], ['#','0','d','7','5','f','8']),
  (['d','e','e','p',' ','t','e','a','l'], ['#','0','0','5','5','5','a']),
  (['d','e','e','p',' ','t','u','r','q','u','o','i','s','e'], ['#','0','1','7','3','7','4']),
  (['d','e','e','p',' ','v','i','o','l','e','t'], ['#','4','9','0','6','4','8']),
  (['d','e','n','i','m',' ','b','l','u','e'], ['#','3','b','5','b','9','2']),
  (['d','e','n','i','m'], ['#','3','b','6','3','8','c']),
  (['d','e','s','e','r','t'], ['#','c','c','a','d','6','0']),
  (['d','i','a','r','r','h','e','a'], ['#','9','f','8','3','0','3']),
  (['d','i','r','t',' ','b','r','o','w','n'], ['#','8','3','6','5','3','9']),
  (['d','i','r','t'], ['#','8','a','6','e','4','5']),
  (['d','i','r','t','y',' ','b','l','u','e'], ['#','3','f','8','2','9','d']),
  (['d','i','r','t','y',' ','g','r','e','e','n'], ['#','6','6','7','e','2','c']),
  (['d','i','r','t','y',' ','o','r','a','n','g','e'], ['#','c','8','7','6','0','6']),
  (['d','i','r','t','y',' ','p','i','n','k'], ['#','c','a','7','b','8','0']),
  (['d','i','r','t','y',' ','p','u','r','p','l','e'], ['#','7','3','4','a','6','5']),
  (['d','i','r','t','y',' ','y','e','l','l','o','w'], ['#','c','d','c','5','0','a']),
  (['d','o','d','g','e','r',' ','b','l','u','e'], ['#','3','e','8','2','f','c']),
  (['d','r','a','b',' ','g','r','e','e','n'], ['#','7','4','9','5','5','1']),
  (['d','r','a','b'], ['#','8','2','8','3','4','4']),
  (['d','r','i','e','d',' ','b','l','o','o','d'], ['#','4','b','0','1','0','1']),
  (['d','u','c','k',' ','e','g','g',' ','b','l','u','e'], ['#','c','3','f','b','f','4']),
  (['d','u','l','l',' ','b','l','u','e'], ['#','4','9','7','5','9','c']),
  (['d','u','l','l',' ','b','r','o','w','n'], ['#','8','7','6','e','4','b']),
  (['d','u','l','l',' ','g','r','e','e','n'], ['#','7','4','a','6','6','2']),
  (['d','u','l','l',' ','o','r','a','n','g','e'], ['#','d','8','8','6','3','b']),
  (['d','u','l','l',' ','p','i','n','k'], ['#','d','5','8','6','9','d']),
  (['d','u','l','l',' ','p','u','r','p','l','e'], ['#','8','4','5','9','7','e']),
  (['d','u','l','l',' ','r','e','d'], ['#','b','b','3','f','3','f']),
  (['d','u','l','l',' ','t','e','a','l'], ['#','5','f','9','e','8','f'])]

theorem xkcdColors3_chars : texts xkcdColors3 = xkcdColors3Chars := by
  have h : xkcdColors3 = strings xkcdColors3Chars := rfl
  rw [h, texts_strings]

/-- `xkcdColors4`. -/
def xkcdColors4Chars : List (Text × Text) := [
  (['d','u','l','l',' ','y','e','l','l','o','w'], ['#','e','e','d','c','5','b']),
  (['d','u','s','k',' ','b','l','u','e'], ['#','2','6','5','3','8','d']),
  (['d','u','s','k'], ['#','4','e','5','4','8','1']),
  (['d','u','s','k','y',' ','b','l','u','e'], ['#','4','7','5','f','9','4']),
  (['d','u','s','k','y',' ','p','i','n','k'], ['#','c','c','7','a','8','b']),
  (['d','u','s','k','y',' ','p','u','r','p','l','e'], ['#','8','9','5','b','7','b']),
  (['d','u','s','k','y',' ','r','o','s','e'], ['#','b','a','6','8','7','3']),
  (['d','u','s','t'], ['#','b','2','9','9','6','e']),
  (['d','u','s','t','y',' ','b','l','u','e'], ['#','5','a','8','6','a','d']),
  (['d','u','s','t','y',' ','g','r','e','e','n'], ['#','7','6','a','9','7','3']),
  (['d','u','s','t','y',' ','l','a','v','e','n','d','e','r'], ['#','a','c','8','6','a','8']),
  (['d','u','s','t','y',' ','o','r','a','n','g','e'], ['#','f','0','8','3','3','a']),
  (['d','u','s','t','y',' ','p','i','n','k'], ['#','d','5','8','a','9','4']),
  (['d','u','s','t','y',' ','p','u','r','p','l','e'], ['#','8','2','5','f','8','7']),
  (['d','u','s','t','y',' ','r','e','d'], ['#','b','9','4','8','4','e']),
  (['d','u','s','t','y',' ','r','o','s','e'], ['#','c','0','7','3','7','a']),
  (['d','u','s','t','y',' ','t','e','a','l'], ['#','4','c','9','0','8','5']),
  (['e','a','r','t','h'], ['#','a','2','6','5','3','e']),
  (['e','a','s','t','e','r',' ','g','r','e','e','n'], ['#','8','c','f','d','7','e']),
  (['e','a','s','t','e','r',' ','p','u','r','p','l','e'], ['#','c','0','7','1','f','e']),
  (['e','c','r','u'], ['#','f','e','f','f','c','a']),
  (['e','g','g',' ','s','h','e','l','l'], ['#','f','f','f','c','c','4']),
  (['e','g','g','p','l','a','n','t',' ','p','u','r','p','l','e'], ['#','4','3','0','5','4','1']),
  (['e','g','g','p','l','a','n','t'], ['#','3','8','0','8','3','5']),
  (['e','g','g','s','h','e','l','l',' ','b','l','u','e'], ['#','c','4','f','f','f','7']),
  (['e','g','g','s','h','e','l','l'], ['#','f','f','f','f','d','4']),
  (['e','l','e','c','t','r','i','c',' ','b','l','u','e'], ['#','0','6','5','2','f','f']),
  (['e','l','e','c','t','r','i','c',' ','g','r','e','e','n'], ['#','2','1','f','c','0','d']),
  (['e','l','e','c','t','r','i','c',' ','l','i','m','e'], ['#','a','8','f','f','0','4']),
  (['e','l','e','c','t','r','i','c',' ','p','i','n','k'], ['#','f','f','0','4','9','0']),
  (['e','l','e','c','t','r','i','c',' ','p','u','r','p','l','e'], ['#','a','a','2','3','f','f']),
  (['e','m','e','r','a','l','d',' ','g','r','e','e','n'], ['#','0','2','8','f','1','e']),
  (['e','m','e','r','a','l','d'], ['#','0','1','a','0','4','9']),
  (['e','v','e','r','g','r','e','e','n'], ['#','0','5','4','7','2','a']),
  (['f','a','d','e','d',' ','b','l','u','e'], ['#','6','5','8','c','b','b']),
  (['f','a','d','e','d',' ','g','r','e','e','n'], ['#','7','b','b','2','7','4']),
  (['f','a','d','e','d',' ','o','r','a','n','g','e'], ['#','f','0','9','4','4','d']),
  (['f','a','d','e','d',' ','p','i','n','k'], ['#','d','e','9','d','a','c']),
  (['f','a','d','e','d',' ','p','u','r','p','l','e'], ['#','9','1','6','e','9','9']),
  (['f','a','d','e','d',' ','r','e','d'], ['#','d','3','4','9','4','e']),
  (['f','a','d','e','d',' ','y','e','l','l','o','w'], ['#','f','e','f','f','7','f']),
  (['f','a','w','n'], ['#','c','f','a','f','7','b']),
  (['f','e','r','n',' ','g','r','e','e','n'], ['#','5','4','8','d','4','4']),
  (['f','e','r','n'], ['#','6','3','a','9','5','0']),
  (['f','i','r','e',' ','e','n','g','i','n','e',' ','r','e','d'], ['#','f','e','0','0','0','2']),
  (['f','l','a','t',' ','b','l','u','e'], ['#','3','c','7','3','a','8']),
  (['f','l','a','t',' ','g','r','e','e','n'], ['#','6','9','9','d','4','c']),
  (['f','l','u','o','r','e','s','c','e','n','t',' ','g','r','e','e','n'], ['#','0','8','f','f','0','8']),
  (['f','l','u','r','o',' ','g','r','e','e','n'], ['#','0','a','f','f','0','2']),
  (['f','o','a','m',' ','g','r','e','e','n'], ['#','9','0','f','d','a','9']),
  (['f','o','r','e','s','t',' ','g','r','e','e','n'], ['#','0','6','4','7','0','c']),
  (['f','o','r','e','s','t'], ['#','0','b','5','5','0','9']),
  (['f','o','r','r','e','s','t',' ','g','r','e','e','n'], ['#','1','5','4','4','0','6']),
  (['f','r','e','n','c','h',' ','b','l','u','e'], ['#','4','3','6','b','a','d']),
  (['f','r','e','s','h',' ','g','r','e','e','n'], ['#','6','9','d','8','4','f']),
  (['f','r','o','g',' ','g','r','e','e','n'], ['#','5','8','b','c','0','8']),
  (['f','u','c','h','s','i','a'], ['#','e','d','0','d','d','9']),
  (['g','o','l','d'], ['#','d','b','b','4','0','c']),
  (['g','o','l','d','e','n',' ','b','r','o','w','n'], ['#','b','2','7','a','0','1']),
  (['g','o','l','d','e','n',' ','r','o','d'], ['#','f','9','b','c','0','8']),
  (['g','o','l','d','e','n',' ','y','e','l','l','o','w'], ['#','f','e','c','6','1','5']),
  (['g','o','l','d','e','n'], ['#','f','5','b','f','0','3']),
  (['g','o','l','d','e','n','r','o','d'], ['#','f','a','c','2','0','5']),
  (['g','r','a','p','e',' ','p','u','r','p','l','e'], ['#','5','d','1','4','5','1']),
  (['g','r','a','p','e'], ['#','6','c','3','4','6','1']),
  (['g','r','a','p','e','f','r','u','i','t'], ['#','f','d','5','9','5','6']),
  (['g','r','a','s','s',' ','g','r','e','e','n'], ['#','3','f','9','b','0','b']),
  (['g','r','a','s','s'], ['#','5','c','a','c','2','d']),
  (['g','r','a','s','s','y',' ','g','r','e','e','n'], ['#','4','1','9','c','0','3']),
  (['g','r','e','e','n',' ','a','p','p','l','e'], ['#','5','e','d','c','1','f']),
  (['g','r','e','e','n',' ','b','l','u','e'], ['#','0','6','b','4','8','b']),
  (['g','r','e','e','n',' ','b','r','o','w','n'], ['#','5','4','4','e','0','3']),
  (['g','r','e','e','n',' ','g','r','e','y'], ['#','7','7','9','2','6','f']),
  (['g','r','e','e','n',' ','t','e','a','l'], ['#','0','c','b','5','7','7']),
  (['g','r','e','e','n',' ','y','e','l','l','o','w'], ['#','c','9','f','f','2','7']),
  (['g','r','e','e','n'], ['#','1','5','b','0','1','a']),
  (['g','r','e','e','n','/','b','l','u','e'], ['#','0','1','c','0','8','d']),
  (['g','r','e','e','n','/','y','e','l','l','o','w'], ['#','b','5','c','e','0','8']),
  (['g','r','e','e','n','b','l','u','e'], ['#','2','3','c','4','8','b']),
  (['g','r','e','e','n','i','s','h',' ','b','e','i','g','e'], ['#','c','9','d','1','7','9']),
  (['g','r','e','e','n','i','s','h',' ','b','l','u','e'], ['#','0','b','8','b','8','7']),
  (['g','r','e','e','n','i','s','h',' ','b','r','o','w','n'], ['#','6','9','6','1','1','2']),
  (['g','r','e','e','n','i','s','h',' ','c','y','a','n'], ['#','2','a','f','e','b','7']),
  (['g','r','e','e','n','i','s','h',' ','g','r','e','y'], ['#','9','6','a','e','8','d']),
  (['g','r','e','e','n','i','s','h',' ','t','a','n'], ['#','b','c','c','b','7','a']),
  (['g','r','e','e','n','i','s','h',' ','t','e','a','l'], ['#','3','2','b','f','8','4']),
  (['g','r','e','e','n','i','s','h',' ','t','u','r','q','u','o','i','s','e'], ['#','0','0','f','b','b','0']),
  (['g','r','e','e','n','i','s','h',' ','y','e','l','l','o','w'], ['#','c','d','f','d','0','2']),
  (['g','r','e','e','n','i','s','h'], ['#','4','0','a','3','6','8']),
  (['g','r','e','e','n','y',' ','b','l','u','e'], ['#','4','2','b','3','9','5']),
  (['g','r','e','e','n','y',' ','b','r','o','w','n'], ['#','6','9','6','0','0','6']),
  (['g','r','e','e','n','y',' ','g','r','e','y'], ['#','7','e','a','0','7','a']),
  (['g','r','e','e','n','y',' ','y','e','l','l','o','w'], ['#','c','6','f','8','0','8']),
  (['g','r','e','y',' ','b','l','u','e'], ['#','6','b','8','b','a','4']),
  (['g','r','e','y',' ','b','r','o','w','n'], ['#','7','f','7','0','5','3']),
  (['g','r','e','y',' ','g','r','e','e','n'], ['#','7','8','9','b','7','3']),
  (['g','r','e','y',' ','p','i','n','k'], ['#','c','3','9','0','9','b']),
  (['g','r','e','y',' ','p','u','r','p','l','e'], ['#','8','2','6','d','8','c']),
  (['g','r','e','y',' ','t','e','a','l'], ['#','5','e','9','b','8','a']),
  (['g','r','e','y'], ['#','9','2','9','5','9','1'])]

theorem xkcdColors4_chars : texts xkcdColors4 = xkcdColors4Chars := by
  have h : xkcdColors4 = strings xkcdColors4Chars := rfl
  rw [h, texts_strings]

/-- `xkcdColors5`. -/
def xkcdColors5Chars : List (Text × Text) := [
  (['g','r','e','y','/','b','l','u','e'], ['#','6','4','7','d','8','e']),
  (['g','r','e','y','/','g','r','e','e','n'], ['#','8','6','a','1','7','d']),
  (['g','r','e','y','b','l','u','e'], ['#','7','7','a','1','b','5']),
  (['g','r','e','y','i','s','h',' ','b','l','u','e'], ['#','5','e','8','1','9','d']),
  (['g','r','e','y','i','s','h',' ','b','r','o','w','n'], ['#','7','a','6','a','4','f']),
  (['g','r','e','y','i','s','h',' ','g','r','e','e','n'], ['#','8','2','a','6','7','d']),
  (['g','r','e','y','i','s','h',' ','p','i','n','k'], ['#','c','8','8','d','9','4']),
  (['g','r','e','y','i','s','h',' ','p','u','r','p','l','e'], ['#','8','8','7','1','9','1']),
  (['g','r','e','y','i','s','h',' ','t','e','a','l'], ['#','7','1','9','f','9','1']),
  (['g','r','e','y','i','s','h'], ['#','a','8','a','4','9','5']),
  (['g','r','o','s','s',' ','g','r','e','e','n'], ['#','a','0','b','f','1','6']),
  (['g','u','n','m','e','t','a','l'], ['#','5','3','6','2','6','7']),
  (['h','a','z','e','l'], ['#','8','e','7','6','1','8']),
  (['h','e','a','t','h','e','r'], ['#','a','4','8','4','a','c']),
  (['h','e','l','i','o','t','r','o','p','e'], ['#','d','9','4','f','f','5']),
  (['h','i','g','h','l','i','g','h','t','e','r',' ','g','r','e','e','n'], ['#','1','b','f','c','0','6']),
  (['h','o','s','p','i','t','a','l',' ','g','r','e','e','n'], ['#','9','b','e','5','a','a']),
  (['h','o','t',' ','g','r','e','e','n'], ['#','2','5','f','f','2','9']),
  (['h','o','t',' ','m','a','g','e','n','t','a'], ['#','f','5','0','4','c','9']),
  (['h','o','t',' ','p','i','n','k'], ['#','f','f','0','2','8','d']),
  (['h','o','t',' ','p','u','r','p','l','e'], ['#','c','b','0','0','f','5']),
  (['h','u','n','t','e','r',' ','g','r','e','e','n'], ['#','0','b','4','0','0','8']),
  (['i','c','e',' ','b','l','u','e'], ['#','d','7','f','f','f','e']),
  (['i','c','e'], ['#','d','6','f','f','f','a']),
  (['i','c','k','y',' ','g','r','e','e','n'], ['#','8','f','a','e','2','2']),
  (['i','n','d','i','a','n',' ','r','e','d'], ['#','8','5','0','e','0','4']),
  (['i','n','d','i','g','o',' ','b','l','u','e'], ['#','3','a','1','8','b','1']),
  (['i','n','d','i','g','o'], ['#','3','8','0','2','8','2']),
  (['i','r','i','s'], ['#','6','2','5','8','c','4']),
  (['i','r','i','s','h',' ','g','r','e','e','n'], ['#','0','1','9','5','2','9']),
  (['i','v','o','r','y'], ['#','f','f','f','f','c','b']),
  (['j','a','d','e',' ','g','r','e','e','n'], ['#','2','b','a','f','6','a']),
  (['j','a','d','e'], ['#','1','f','a','7','7','4']),
  (['j','u','n','g','l','e',' ','g','r','e','e','n'], ['#','0','4','8','2','4','3']),
  (['k','e','l','l','e','y',' ','g','r','e','e','n'], ['#','0','0','9','3','3','7']),
  (['k','e','l','l','y',' ','g','r','e','e','n'], ['#','0','2','a','b','2','e']),
  (['k','e','r','m','i','t',' ','g','r','e','e','n'], ['#','5','c','b','2','0','0']),
  (['k','e','y',' ','l','i','m','e'], ['#','a','e','f','f','6','e']),
  (['k','h','a','k','i',' ','g','r','e','e','n'], ['#','7','2','8','6','3','9']),
  (['k','h','a','k','i'], ['#','a','a','a','6','6','2']),
  (['k','i','w','i',' ','g','r','e','e','n'], ['#','8','e','e','5','3','f']),
  (['k','i','w','i'], ['#','9','c','e','f','4','3']),
  (['l','a','v','e','n','d','e','r',' ','b','l','u','e'], ['#','8','b','8','8','f','8']),
  (['l','a','v','e','n','d','e','r',' ','p','i','n','k'], ['#','d','d','8','5','d','7']),
  (['l','a','v','e','n','d','e','r'], ['#','c','7','9','f','e','f']),
  (['l','a','w','n',' ','g','r','e','e','n'], ['#','4','d','a','4','0','9']),
  (['l','e','a','f',' ','g','r','e','e','n'], ['#','5','c','a','9','0','4']),
  (['l','e','a','f'], ['#','7','1','a','a','3','4']),
  (['l','e','a','f','y',' ','g','r','e','e','n'], ['#','5','1','b','7','3','b']),
  (['l','e','a','t','h','e','r'], ['#','a','c','7','4','3','4']),
  (['l','e','m','o','n',' ','g','r','e','e','n'], ['#','a','d','f','8','0','2']),
  (['l','e','m','o','n',' ','l','i','m','e'], ['#','b','f','f','e','2','8']),
  (['l','e','m','o','n',' ','y','e','l','l','o','w'], ['#','f','d','f','f','3','8']),
  (['l','e','m','o','n'], ['#','f','d','f','f','5','2']),
  (['l','i','c','h','e','n'], ['#','8','f','b','6','7','b']),
  (['l','i','g','h','t',' ','a','q','u','a'], ['#','8','c','f','f','d','b']),
  (['l','i','g','h','t',' ','a','q','u','a','m','a','r','i','n','e'], ['#','7','b','f','d','c','7']),
  (['l','i','g','h','t',' ','b','e','i','g','e'], ['#','f','f','f','e','b','6']),
  (['l','i','g','h','t',' ','b','l','u','e',' ','g','r','e','e','n'], ['#','7','e','f','b','b','3']),
  (['l','i','g','h','t',' ','b','l','u','e',' ','g','r','e','y'], ['#','b','7','c','9','e','2']),
  (['l','i','g','h','t',' ','b','l','u','e'], ['#','9','5','d','0','f','c']),
  (['l','i','g','h','t',' ','b','l','u','i','s','h',' ','g','r','e','e','n'], ['#','7','6','f','d','a','8']),
  (['l','i','g','h','t',' ','b','r','i','g','h','t',' ','g','r','e','e','n'], ['#','5','3','f','e','5','c']),
  (['l','i','g','h','t',' ','b','r','o','w','n'], ['#','a','d','8','1','5','0']),
  (['l','i','g','h','t',' ','b','u','r','g','u','n','d','y'], ['#','a','8','4','1','5','b']),
  (['l','i','g','h','t',' ','c','y','a','n'], ['#','a','c','f','f','f','c']),
  (['l','i','g','h','t',' ','e','g','g','p','l','a','n','t'], ['#','8','9','4','5','8','5']),
  (['l','i','g','h','t',' ','f','o','r','e','s','t',' ','g','r','e','e','n'], ['#','4','f','9','1','5','3']),
  (['l','i','g','h','t',' ','g','o','l','d'], ['#','f','d','d','c','5','c']),
  (['l','i','g','h','t',' ','g','r','a','s','s',' ','g','r','e','e','n'], ['#','9','a','f','7','6','4']),
  (['l','i','g','h','t',' ','g','r','e','e','n',' ','b','l','u','e'], ['#','5','6','f','c','a','2']),
  (['l','i','g','h','t',' ','g','r','e','e','n'], ['#','9','6','f','9','7','b']),
  (['l','i','g','h','t',' ','g','r','e','e','n','i','s','h',' ','b','l','u','e'], ['#','6','3','f','7','b','4']),
  (['l','i','g','h','t',' ','g','r','e','y',' ','b','l','u','e'], ['#','9','d','b','c','d','4']),
  (['l','i','g','h','t',' ','g','r','e','y',' ','g','r','e','e','n'], ['#','b','7','e','1','a','1']),
  (['l','i','g','h','t',' ','g','r','e','y'], ['#','d','8','d','c','d','6']),
  (['l','i','g','h','t',' ','i','n','d','i','g','o'], ['#','6','d','5','a','c','f']),
  (['l','i','g','h','t',' ','k','h','a','k','i'], ['#','e','6','f','2','a','2']),
  (['l','i','g','h','t',' ','l','a','v','e','n','d','a','r'], ['#','e','f','c','0','f','e']),
  (['l','i','g','h','t',' ','l','a','v','e','n','d','e','r'], ['#','d','f','c','5','f','e']),
  (['l','i','g','h','t',' ','l','i','g','h','t',' ','b','l','u','e'], ['#','c','a','f','f','f','b']),
  (['l','i','g','h','t',' ','l','i','g','h','t',' ','g','r','e','e','n'], ['#','c','8','f','f','b','0']),
  (['l','i','g','h','t',' ','l','i','l','a','c'], ['#','e','d','c','8','f','f']),
  (['l','i','g','h','t',' ','l','i','m','e',' ','g','r','e','e','n'], ['#','b','9','f','f','6','6']),
  (['l','i','g','h','t',' ','l','i','m','e'], ['#','a','e','f','d','6','c']),
  (['l','i','g','h','t',' ','m','a','g','e','n','t','a'], ['#','f','a','5','f','f','7']),
  (['l','i','g','h','t',' ','m','a','r','o','o','n'], ['#','a','2','4','8','5','7']),
  (['l','i','g','h','t',' ','m','a','u','v','e'], ['#','c','2','9','2','a','1']),
  (['l','i','g','h','t',' ','m','i','n','t',' ','g','r','e','e','n'], ['#','a','6','f','b','b','2']),
  (['l','i','g','h','t',' ','m','i','n','t'], ['#','b','6','f','f','b','b']),
  (['l','i','g','h','t',' ','m','o','s','s',' ','g','r','e','e','n'], ['#','a','6','c','8','7','5']),
  (['l','i','g','h','t',' ','m','u','s','t','a','r','d'], ['#','f','7','d','5','6','0']),
  (['l','i','g','h','t',' ','n','a','v','y',' ','b','l','u','e'], ['#','2','e','5','a','8','8']),
  (['l','i','g','h','t',' ','n','a','v','y'], ['#','1','5','5','0','8','4']),
  (['l','i','g','h','t',' ','n','e','o','n',' ','g','r','e','e','n'], ['#','4','e','f','d','5','4']),
  (['l','i','g','h','t',' ','o','l','i','v','e',' ','g','r','e','e','n'], ['#','a','4','b','e','5','c']),
  (['l','i','g','h','t',' ','o','l','i','v','e'], ['#','a','c','b','f','6','9']),
  (['l','i','g','h','t',' ','o','r','a','n','g','e'], ['#','f','d','a','a','4','8']),
  (['l','i','g','h','t',' ','p','a','s','t','e','l',' ','g','r','e','e','n'], ['#','b','2','f','b','a','5']),
  (['l','i','g','h','t',' ','p','e','a',' ','g','r','e','e','n'], ['#','c','4','f','e','8','2'])]

theorem xkcdColors5_chars : texts xkcdColors5 = xkcdColors5Chars := by
  have h : xkcdColors5 = strings xkcdColors5Chars := rfl
  rw [h, texts_strings]

/-- `xkcdColors6`. -/
def xkcdColors6Chars : List (Text × Text) := [
  (['l','i','g','h','t',' ','p','e','a','c','h'], ['#','f','f','d','8','b','1']),
  (['l','i','g','h','t',' ','p','e','r','i','w','i','n','k','l','e'], ['#','c','1','c','6','f','c']),
  (['l','i','g','h','t',' ','p','i','n','k'], ['#','f','f','d','1','d','f']),
  (['l','i','g','h','t',' ','p','l','u','m'], ['#','9','d','5','7','8','3']),
  (['l','i','g','h','t',' ','p','u','r','p','l','e'], ['#','b','f','7','7','f','6']),
  (['l','i','g','h','t',' ','r','e','d'], ['#','f','f','4','7','4','c']),
  (['l','i','g','h','t',' ','r','o','s','e'], ['#','f','f','c','5','c','b']),
  (['l','i','g','h','t',' ','r','o','y','a','l',' ','b','l','u','e'], ['#','3','a','2','e','f','e']),
  (['l','i','g','h','t',' ','s','a','g','e'], ['#','b','c','e','c','a','c']),
  (['l','i','g','h','t',' ','s','a','l','m','o','n'], ['#','f','e','a','9','9','3']),
  (['l','i','g','h','t',' ','s','e','a',' ','g','r','e','e','n'], ['#','9','8','f','6','b','0']),
  (['l','i','g','h','t',' ','s','e','a','f','o','a','m',' ','g','r','e','e','n'], ['#','a','7','f','f','b','5']),
  (['l','i','g','h','t',' ','s','e','a','f','o','a','m'], ['#','a','0','f','e','b','f']),
  (['l','i','g','h','t',' ','s','k','y',' ','b','l','u','e'], ['#','c','6','f','c','f','f']),
  (['l','i','g','h','t',' ','t','a','n'], ['#','f','b','e','e','a','c']),
  (['l','i','g','h','t',' ','t','e','a','l'], ['#','9','0','e','4','c','1']),
  (['l','i','g','h','t',' ','t','u','r','q','u','o','i','s','e'], ['#','7','e','f','4','c','c']),
  (['l','i','g','h','t',' ','u','r','p','l','e'], ['#','b','3','6','f','f','6']),
  (['l','i','g','h','t',' ','v','i','o','l','e','t'], ['#','d','6','b','4','f','c']),
  (['l','i','g','h','t',' ','y','e','l','l','o','w',' ','g','r','e','e','n'], ['#','c','c','f','d','7','f']),
  (['l','i','g','h','t',' ','y','e','l','l','o','w'], ['#','f','f','f','e','7','a']),
  (['l','i','g','h','t',' ','y','e','l','l','o','w','i','s','h',' ','g','r','e','e','n'], ['#','c','2','f','f','8','9']),
  (['l','i','g','h','t','b','l','u','e'], ['#','7','b','c','8','f','6']),
  (['l','i','g','h','t','e','r',' ','g','r','e','e','n'], ['#','7','5','f','d','6','3']),
  (['l','i','g','h','t','e','r',' ','p','u','r','p','l','e'], ['#','a','5','5','a','f','4']),
  (['l','i','g','h','t','g','r','e','e','n'], ['#','7','6','f','f','7','b']),
  (['l','i','g','h','t','i','s','h',' ','b','l','u','e'], ['#','3','d','7','a','f','d']),
  (['l','i','g','h','t','i','s','h',' ','g','r','e','e','n'], ['#','6','1','e','1','6','0']),
  (['l','i','g','h','t','i','s','h',' ','p','u','r','p','l','e'], ['#','a','5','5','2','e','6']),
  (['l','i','g','h','t','i','s','h',' ','r','e','d'], ['#','f','e','2','f','4','a']),
  (['l','i','l','a','c'], ['#','c','e','a','2','f','d']),
  (['l','i','l','i','a','c'], ['#','c','4','8','e','f','d']),
  (['l','i','m','e',' ','g','r','e','e','n'], ['#','8','9','f','e','0','5']),
  (['l','i','m','e',' ','y','e','l','l','o','w'], ['#','d','0','f','e','1','d']),
  (['l','i','m','e'], ['#','a','a','f','f','3','2']),
  (['l','i','p','s','t','i','c','k',' ','r','e','d'], ['#','c','0','0','2','2','f']),
  (['l','i','p','s','t','i','c','k'], ['#','d','5','1','7','4','e']),
  (['m','a','c','a','r','o','n','i',' ','a','n','d',' ','c','h','e','e','s','e'], ['#','e','f','b','4','3','5']),
  (['m','a','g','e','n','t','a'], ['#','c','2','0','0','7','8']),
  (['m','a','h','o','g','a','n','y'], ['#','4','a','0','1','0','0']),
  (['m','a','i','z','e'], ['#','f','4','d','0','5','4']),
  (['m','a','n','g','o'], ['#','f','f','a','6','2','b']),
  (['m','a','n','i','l','l','a'], ['#','f','f','f','a','8','6']),
  (['m','a','r','i','g','o','l','d'], ['#','f','c','c','0','0','6']),
  (['m','a','r','i','n','e',' ','b','l','u','e'], ['#','0','1','3','8','6','a']),
  (['m','a','r','i','n','e'], ['#','0','4','2','e','6','0']),
  (['m','a','r','o','o','n'], ['#','6','5','0','0','2','1']),
  (['m','a','u','v','e'], ['#','a','e','7','1','8','1']),
  (['m','e','d','i','u','m',' ','b','l','u','e'], ['#','2','c','6','f','b','b']),
  (['m','e','d','i','u','m',' ','b','r','o','w','n'], ['#','7','f','5','1','1','2']),
  (['m','e','d','i','u','m',' ','g','r','e','e','n'], ['#','3','9','a','d','4','8']),
  (['m','e','d','i','u','m',' ','g','r','e','y'], ['#','7','d','7','f','7','c']),
  (['m','e','d','i','u','m',' ','p','i','n','k'], ['#','f','3','6','1','9','6']),
  (['m','e','d','i','u','m',' ','p','u','r','p','l','e'], ['#','9','e','4','3','a','2']),
  (['m','e','l','o','n'], ['#','f','f','7','8','5','5']),
  (['m','e','r','l','o','t'], ['#','7','3','0','0','3','9']),
  (['m','e','t','a','l','l','i','c',' ','b','l','u','e'], ['#','4','f','7','3','8','e']),
  (['m','i','d',' ','b','l','u','e'], ['#','2','7','6','a','b','3']),
  (['m','i','d',' ','g','r','e','e','n'], ['#','5','0','a','7','4','7']),
  (['m','i','d','n','i','g','h','t',' ','b','l','u','e'], ['#','0','2','0','0','3','5']),
  (['m','i','d','n','i','g','h','t',' ','p','u','r','p','l','e'], ['#','2','8','0','1','3','7']),
  (['m','i','d','n','i','g','h','t'], ['#','0','3','0','1','2','d']),
  (['m','i','l','i','t','a','r','y',' ','g','r','e','e','n'], ['#','6','6','7','c','3','e']),
  (['m','i','l','k',' ','c','h','o','c','o','l','a','t','e'], ['#','7','f','4','e','1','e']),
  (['m','i','n','t',' ','g','r','e','e','n'], ['#','8','f','f','f','9','f']),
  (['m','i','n','t'], ['#','9','f','f','e','b','0']),
  (['m','i','n','t','y',' ','g','r','e','e','n'], ['#','0','b','f','7','7','d']),
  (['m','o','c','h','a'], ['#','9','d','7','6','5','1']),
  (['m','o','s','s',' ','g','r','e','e','n'], ['#','6','5','8','b','3','8']),
  (['m','o','s','s'], ['#','7','6','9','9','5','8']),
  (['m','o','s','s','y',' ','g','r','e','e','n'], ['#','6','3','8','b','2','7']),
  (['m','u','d',' ','b','r','o','w','n'], ['#','6','0','4','6','0','f']),
  (['m','u','d',' ','g','r','e','e','n'], ['#','6','0','6','6','0','2']),
  (['m','u','d'], ['#','7','3','5','c','1','2']),
  (['m','u','d','d','y',' ','b','r','o','w','n'], ['#','8','8','6','8','0','6']),
  (['m','u','d','d','y',' ','g','r','e','e','n'], ['#','6','5','7','4','3','2']),
  (['m','u','d','d','y',' ','y','e','l','l','o','w'], ['#','b','f','a','c','0','5']),
  (['m','u','l','b','e','r','r','y'], ['#','9','2','0','a','4','e']),
  (['m','u','r','k','y',' ','g','r','e','e','n'], ['#','6','c','7','a','0','e']),
  (['m','u','s','h','r','o','o','m'], ['#','b','a','9','e','8','8']),
  (['m','u','s','t','a','r','d',' ','b','r','o','w','n'], ['#','a','c','7','e','0','4']),
  (['m','u','s','t','a','r','d',' ','g','r','e','e','n'], ['#','a','8','b','5','0','4']),
  (['m','u','s','t','a','r','d',' ','y','e','l','l','o','w'], ['#','d','2','b','d','0','a']),
  (['m','u','s','t','a','r','d'], ['#','c','e','b','3','0','1']),
  (['m','u','t','e','d',' ','b','l','u','e'], ['#','3','b','7','1','9','f']),
  (['m','u','t','e','d',' ','g','r','e','e','n'], ['#','5','f','a','0','5','2']),
  (['m','u','t','e','d',' ','p','i','n','k'], ['#','d','1','7','6','8','f']),
  (['m','u','t','e','d',' ','p','u','r','p','l','e'], ['#','8','0','5','b','8','7']),
  (['n','a','s','t','y',' ','g','r','e','e','n'], ['#','7','0','b','2','3','f']),
  (['n','a','v','y',' ','b','l','u','e'], ['#','0','0','1','1','4','6']),
  (['n','a','v','y',' ','g','r','e','e','n'], ['#','3','5','5','3','0','a']),
  (['n','a','v','y'], ['#','0','1','1','5','3','e']),
  (['n','e','o','n',' ','b','l','u','e'], ['#','0','4','d','9','f','f']),
  (['n','e','o','n',' ','g','r','e','e','n'], ['#','0','c','f','f','0','c']),
  (['n','e','o','n',' ','p','i','n','k'], ['#','f','e','0','1','9','a']),
  (['n','e','o','n',' ','p','u','r','p','l','e'], ['#','b','c','1','3','f','e']),
  (['n','e','o','n',' ','r','e','d'], ['#','f','f','0','7','3','a']),
  (['n','e','o','n',' ','y','e','l','l','o','w'], ['#','c','f','f','f','0','4']),
  (['n','i','c','e',' ','b','l','u','e'], ['#','1','0','7','a','b','0']),
  (['n','i','g','h','t',' ','b','l','u','e'], ['#','0','4','0','3','4','8'])]

theorem xkcdColors6_chars : texts xkcdColors6 = xkcdColors6Chars := by
  have h : xkcdColors6 = strings xkcdColors6Chars := rfl
  rw [h, texts_strings]

/-- `xkcdColors7`. -/
def xkcdColors7Chars : List (Text × Text) := [
  (['o','c','e','a','n',' ','b','l','u','e'], ['#','0','3','7','1','9','c']),
  (['o','c','e','a','n',' ','g','r','e','e','n'], ['#','3','d','9','9','7','3']),
  (['o','c','e','a','n'], ['#','0','1','7','b','9','2']),
  (['o','c','h','e','r'], ['#','b','f','9','b','0','c']),
  (['o','c','h','r','e'], ['#','b','f','9','0','0','5']),
  (['o','c','r','e'], ['#','c','6','9','c','0','4']),
  (['o','f','f',' ','b','l','u','e'], ['#','5','6','8','4','a','e']),
  (['o','f','f',' ','g','r','e','e','n'], ['#','6','b','a','3','5','3']),
  (['o','f','f',' ','w','h','i','t','e'], ['#','f','f','f','f','e','4']),
  (['o','f','f',' ','y','e','l','l','o','w'], ['#','f','1','f','3','3','f']),
  (['o','l','d',' ','p','i','n','k'], ['#','c','7','7','9','8','6']),
  (['o','l','d',' ','r','o','s','e'], ['#','c','8','7','f','8','9']),
  (['o','l','i','v','e',' ','b','r','o','w','n'], ['#','6','4','5','4','0','3']),
  (['o','l','i','v','e',' ','d','r','a','b'], ['#','6','f','7','6','3','2']),
  (['o','l','i','v','e',' ','g','r','e','e','n'], ['#','6','7','7','a','0','4']),
  (['o','l','i','v','e',' ','y','e','l','l','o','w'], ['#','c','2','b','7','0','9']),
  (['o','l','i','v','e'], ['#','6','e','7','5','0','e']),
  (['o','r','a','n','g','e',' ','b','r','o','w','n'], ['#','b','e','6','4','0','0']),
  (['o','r','a','n','g','e',' ','p','i','n','k'], ['#','f','f','6','f','5','2']),
  (['o','r','a','n','g','e',' ','r','e','d'], ['#','f','d','4','1','1','e']),
  (['o','r','a','n','g','e',' ','y','e','l','l','o','w'], ['#','f','f','a','d','0','1']),
  (['o','r','a','n','g','e'], ['#','f','9','7','3','0','6']),
  (['o','r','a','n','g','e','i','s','h'], ['#','f','d','8','d','4','9']),
  (['o','r','a','n','g','e','r','e','d'], ['#','f','e','4','2','0','f']),
  (['o','r','a','n','g','e','y',' ','b','r','o','w','n'], ['#','b','1','6','0','0','2']),
  (['o','r','a','n','g','e','y',' ','r','e','d'], ['#','f','a','4','2','2','4']),
  (['o','r','a','n','g','e','y',' ','y','e','l','l','o','w'], ['#','f','d','b','9','1','5']),
  (['o','r','a','n','g','i','s','h',' ','b','r','o','w','n'], ['#','b','2','5','f','0','3']),
  (['o','r','a','n','g','i','s','h',' ','r','e','d'], ['#','f','4','3','6','0','5']),
  (['o','r','a','n','g','i','s','h'], ['#','f','c','8','2','4','a']),
  (['o','r','c','h','i','d'], ['#','c','8','7','5','c','4']),
  (['p','a','l','e',' ','a','q','u','a'], ['#','b','8','f','f','e','b']),
  (['p','a','l','e',' ','b','l','u','e'], ['#','d','0','f','e','f','e']),
  (['p','a','l','e',' ','b','r','o','w','n'], ['#','b','1','9','1','6','e']),
  (['p','a','l','e',' ','c','y','a','n'], ['#','b','7','f','f','f','a']),
  (['p','a','l','e',' ','g','o','l','d'], ['#','f','d','d','e','6','c']),
  (['p','a','l','e',' ','g','r','e','e','n'], ['#','c','7','f','d','b','5']),
  (['p','a','l','e',' ','g','r','e','y'], ['#','f','d','f','d','f','e']),
  (['p','a','l','e',' ','l','a','v','e','n','d','e','r'], ['#','e','e','c','f','f','e']),
  (['p','a','l','e',' ','l','i','g','h','t',' ','g','r','e','e','n'], ['#','b','1','f','c','9','9']),
  (['p','a','l','e',' ','l','i','l','a','c'], ['#','e','4','c','b','f','f']),
  (['p','a','l','e',' ','l','i','m','e',' ','g','r','e','e','n'], ['#','b','1','f','f','6','5']),
  (['p','a','l','e',' ','l','i','m','e'], ['#','b','e','f','d','7','3']),
  (['p','a','l','e',' ','m','a','g','e','n','t','a'], ['#','d','7','6','7','a','d']),
  (['p','a','l','e',' ','m','a','u','v','e'], ['#','f','e','d','0','f','c']),
  (['p','a','l','e',' ','o','l','i','v','e',' ','g','r','e','e','n'], ['#','b','1','d','2','7','b']),
  (['p','a','l','e',' ','o','l','i','v','e'], ['#','b','9','c','c','8','1']),
  (['p','a','l','e',' ','o','r','a','n','g','e'], ['#','f','f','a','7','5','6']),
  (['p','a','l','e',' ','p','e','a','c','h'], ['#','f','f','e','5','a','d']),
  (['p','a','l','e',' ','p','i','n','k'], ['#','f','f','c','f','d','c']),
  (['p','a','l','e',' ','p','u','r','p','l','e'], ['#','b','7','9','0','d','4']),
  (['p','a','l','e',' ','r','e','d'], ['#','d','9','5','4','4','d']),
  (['p','a','l','e',' ','r','o','s','e'], ['#','f','d','c','1','c','5']),
  (['p','a','l','e',' ','s','a','l','m','o','n'], ['#','f','f','b','1','9','a']),
  (['p','a','l','e',' ','s','k','y',' ','b','l','u','e'], ['#','b','d','f','6','f','e']),
  (['p','a','l','e',' ','t','e','a','l'], ['#','8','2','c','b','b','2']),
  (['p','a','l','e',' ','t','u','r','q','u','o','i','s','e'], ['#','a','5','f','b','d','5']),
  (['p','a','l','e',' ','v','i','o','l','e','t'], ['#','c','e','a','e','f','a']),
  (['p','a','l','e',' ','y','e','l','l','o','w'], ['#','f','f','f','f','8','4']),
  (['p','a','l','e'], ['#','f','f','f','9','d','0']),
  (['p','a','r','c','h','m','e','n','t'], ['#','f','e','f','c','a','f']),
  (['p','a','s','t','e','l',' ','b','l','u','e'], ['#','a','2','b','f','f','e']),
  (['p','a','s','t','e','l',' ','g','r','e','e','n'], ['#','b','0','f','f','9','d']),
  (['p','a','s','t','e','l',' ','o','r','a','n','g','e'], ['#','f','f','9','6','4','f']),
  (['p','a','s','t','e','l',' ','p','i','n','k'], ['#','f','f','b','a','c','d']),
  (['p','a','s','t','e','l',' ','p','u','r','p','l','e'], ['#','c','a','a','0','f','f']),
  (['p','a','s','t','e','l',' ','r','e','d'], ['#','d','b','5','8','5','6']),
  (['p','a','s','t','e','l',' ','y','e','l','l','o','w'], ['#','f','f','f','e','7','1']),
  (['p','e','a',' ','g','r','e','e','n'], ['#','8','e','a','b','1','2']),
  (['p','e','a',' ','s','o','u','p',' ','g','r','e','e','n'], ['#','9','4','a','6','1','7']),
  (['p','e','a',' ','s','o','u','p'], ['#','9','2','9','9','0','1']),
  (['p','e','a'], ['#','a','4','b','f','2','0']),
  (['p','e','a','c','h'], ['#','f','f','b','0','7','c']),
  (['p','e','a','c','h','y',' ','p','i','n','k'], ['#','f','f','9','a','8','a']),
  (['p','e','a','c','o','c','k',' ','b','l','u','e'], ['#','0','1','6','7','9','5']),
  (['p','e','a','r'], ['#','c','b','f','8','5','f']),
  (['p','e','r','i','w','i','n','k','l','e',' ','b','l','u','e'], ['#','8','f','9','9','f','b']),
  (['p','e','r','i','w','i','n','k','l','e'], ['#','8','e','8','2','f','e']),
  (['p','e','r','r','y','w','i','n','k','l','e'], ['#','8','f','8','c','e','7']),
  (['p','e','t','r','o','l'], ['#','0','0','5','f','6','a']),
  (['p','i','g',' ','p','i','n','k'], ['#','e','7','8','e','a','5']),
  (['p','i','n','e',' ','g','r','e','e','n'], ['#','0','a','4','8','1','e']),
  (['p','i','n','e'], ['#','2','b','5','d','3','4']),
  (['p','i','n','k',' ','p','u','r','p','l','e'], ['#','d','b','4','b','d','a']),
  (['p','i','n','k',' ','r','e','d'], ['#','f','5','0','5','4','f']),
  (['p','i','n','k'], ['#','f','f','8','1','c','0']),
  (['p','i','n','k','/','p','u','r','p','l','e'], ['#','e','f','1','d','e','7']),
  (['p','i','n','k','i','s','h',' ','b','r','o','w','n'], ['#','b','1','7','2','6','1']),
  (['p','i','n','k','i','s','h',' ','g','r','e','y'], ['#','c','8','a','c','a','9']),
  (['p','i','n','k','i','s','h',' ','o','r','a','n','g','e'], ['#','f','f','7','2','4','c']),
  (['p','i','n','k','i','s','h',' ','p','u','r','p','l','e'], ['#','d','6','4','8','d','7']),
  (['p','i','n','k','i','s','h',' ','r','e','d'], ['#','f','1','0','c','4','5']),
  (['p','i','n','k','i','s','h',' ','t','a','n'], ['#','d','9','9','b','8','2']),
  (['p','i','n','k','i','s','h'], ['#','d','4','6','a','7','e']),
  (['p','i','n','k','y',' ','p','u','r','p','l','e'], ['#','c','9','4','c','b','e']),
  (['p','i','n','k','y',' ','r','e','d'], ['#','f','c','2','6','4','7']),
  (['p','i','n','k','y'], ['#','f','c','8','6','a','a']),
  (['p','i','s','s',' ','y','e','l','l','o','w'], ['#','d','d','d','6','1','8']),
  (['p','i','s','t','a','c','h','i','o'], ['#','c','0','f','a','8','b']),
  (['p','l','u','m',' ','p','u','r','p','l','e'], ['#','4','e','0','5','5','0'])]

theorem xkcdColors7_chars : texts xkcdColors7 = xkcdColors7Chars := by
  have h : xkcdColors7 = strings xkcdColors7Chars := rfl
  rw [h, texts_strings]

/-- `xkcdColors8`. -/
def xkcdColors8Chars : List (Text × Text) := [
  (['p','l','u','m'], ['#','5','8','0','f','4','1']),
  (['p','o','i','s','o','n',' ','g','r','e','e','n'], ['#','4','0','f','d','1','4']),
  (['p','o','o',' ','b','r','o','w','n'], ['#','8','8','5','f','0','1']),
  (['p','o','o'], ['#','8','f','7','3','0','3']),
  (['p','o','o','p',' ','b','r','o','w','n'], ['#','7','a','5','9','0','1']),
  (['p','o','o','p',' ','g','r','e','e','n'], ['#','6','f','7','c','0','0']),
  (['p','o','o','p'], ['#','7','f','5','e','0','0']),
  (['p','o','w','d','e','r',' ','b','l','u','e'], ['#','b','1','d','1','f','c']),
  (['p','o','w','d','e','r',' ','p','i','n','k'], ['#','f','f','b','2','d','0']),
  (['p','r','i','m','a','r','y',' ','b','l','u','e'], ['#','0','8','0','4','f','9']),
  (['p','r','u','s','s','i','a','n',' ','b','l','u','e'], ['#','0','0','4','5','7','7']),
  (['p','u','c','e'], ['#','a','5','7','e','5','2']),
  (['p','u','k','e',' ','b','r','o','w','n'], ['#','9','4','7','7','0','6']),
  (['p','u','k','e',' ','g','r','e','e','n'], ['#','9','a','a','e','0','7']),
  (['p','u','k','e',' ','y','e','l','l','o','w'], ['#','c','2','b','e','0','e']),
  (['p','u','k','e'], ['#','a','5','a','5','0','2']),
  (['p','u','m','p','k','i','n',' ','o','r','a','n','g','e'], ['#','f','b','7','d','0','7']),
  (['p','u','m','p','k','i','n'], ['#','e','1','7','7','0','1']),
  (['p','u','r','e',' ','b','l','u','e'], ['#','0','2','0','3','e','2']),
  (['p','u','r','p','l','e',' ','b','l','u','e'], ['#','6','3','2','d','e','9']),
  (['p','u','r','p','l','e',' ','b','r','o','w','n'], ['#','6','7','3','a','3','f']),
  (['p','u','r','p','l','e',' ','g','r','e','y'], ['#','8','6','6','f','8','5']),
  (['p','u','r','p','l','e',' ','p','i','n','k'], ['#','e','0','3','f','d','8']),
  (['p','u','r','p','l','e',' ','r','e','d'], ['#','9','9','0','1','4','7']),
  (['p','u','r','p','l','e'], ['#','7','e','1','e','9','c']),
  (['p','u','r','p','l','e','/','b','l','u','e'], ['#','5','d','2','1','d','0']),
  (['p','u','r','p','l','e','/','p','i','n','k'], ['#','d','7','2','5','d','e']),
  (['p','u','r','p','l','e','i','s','h',' ','b','l','u','e'], ['#','6','1','4','0','e','f']),
  (['p','u','r','p','l','e','i','s','h',' ','p','i','n','k'], ['#','d','f','4','e','c','8']),
  (['p','u','r','p','l','e','i','s','h'], ['#','9','8','5','6','8','d']),
  (['p','u','r','p','l','e','y',' ','b','l','u','e'], ['#','5','f','3','4','e','7']),
  (['p','u','r','p','l','e','y',' ','g','r','e','y'], ['#','9','4','7','e','9','4']),
  (['p','u','r','p','l','e','y',' ','p','i','n','k'], ['#','c','8','3','c','b','9']),
  (['p','u','r','p','l','e','y'], ['#','8','7','5','6','e','4']),
  (['p','u','r','p','l','i','s','h',' ','b','l','u','e'], ['#','6','0','1','e','f','9']),
  (['p','u','r','p','l','i','s','h',' ','b','r','o','w','n'], ['#','6','b','4','2','4','7']),
  (['p','u','r','p','l','i','s','h',' ','g','r','e','y'], ['#','7','a','6','8','7','f']),
  (['p','u','r','p','l','i','s','h',' ','p','i','n','k'], ['#','c','e','5','d','a','e']),
  (['p','u','r','p','l','i','s','h',' ','r','e','d'], ['#','b','0','0','5','4','b']),
  (['p','u','r','p','l','i','s','h'], ['#','9','4','5','6','8','c']),
  (['p','u','r','p','l','y',' ','b','l','u','e'], ['#','6','6','1','a','e','e']),
  (['p','u','r','p','l','y',' ','p','i','n','k'], ['#','f','0','7','5','e','6']),
  (['p','u','r','p','l','y'], ['#','9','8','3','f','b','2']),
  (['p','u','t','t','y'], ['#','b','e','a','e','8','a']),
  (['r','a','c','i','n','g',' ','g','r','e','e','n'], ['#','0','1','4','6','0','0']),
  (['r','a','d','i','o','a','c','t','i','v','e',' ','g','r','e','e','n'], ['#','2','c','f','a','1','f']),
  (['r','a','s','p','b','e','r','r','y'], ['#','b','0','0','1','4','9']),
  (['r','a','w',' ','s','i','e','n','n','a'], ['#','9','a','6','2','0','0']),
  (['r','a','w',' ','u','m','b','e','r'], ['#','a','7','5','e','0','9']),
  (['r','e','a','l','l','y',' ','l','i','g','h','t',' ','b','l','u','e'], ['#','d','4','f','f','f','f']),
  (['r','e','d',' ','b','r','o','w','n'], ['#','8','b','2','e','1','6']),
  (['r','e','d',' ','o','r','a','n','g','e'], ['#','f','d','3','c','0','6']),
  (['r','e','d',' ','p','i','n','k'], ['#','f','a','2','a','5','5']),
  (['r','e','d',' ','p','u','r','p','l','e'], ['#','8','2','0','7','4','7']),
  (['r','e','d',' ','v','i','o','l','e','t'], ['#','9','e','0','1','6','8']),
  (['r','e','d',' ','w','i','n','e'], ['#','8','c','0','0','3','4']),
  (['r','e','d'], ['#','e','5','0','0','0','0']),
  (['r','e','d','d','i','s','h',' ','b','r','o','w','n'], ['#','7','f','2','b','0','a']),
  (['r','e','d','d','i','s','h',' ','g','r','e','y'], ['#','9','9','7','5','7','0']),
  (['r','e','d','d','i','s','h',' ','o','r','a','n','g','e'], ['#','f','8','4','8','1','c']),
  (['r','e','d','d','i','s','h',' ','p','i','n','k'], ['#','f','e','2','c','5','4']),
  (['r','e','d','d','i','s','h',' ','p','u','r','p','l','e'], ['#','9','1','0','9','5','1']),
  (['r','e','d','d','i','s','h'], ['#','c','4','4','2','4','0']),
  (['r','e','d','d','y',' ','b','r','o','w','n'], ['#','6','e','1','0','0','5']),
  (['r','i','c','h',' ','b','l','u','e'], ['#','0','2','1','b','f','9']),
  (['r','i','c','h',' ','p','u','r','p','l','e'], ['#','7','2','0','0','5','8']),
  (['r','o','b','i','n',' ','e','g','g',' ','b','l','u','e'], ['#','8','a','f','1','f','e']),
  (['r','o','s','a'], ['#','f','e','8','6','a','4']),
  (['r','o','s','e',' ','p','i','n','k'], ['#','f','7','8','7','9','a']),
  (['r','o','s','e',' ','r','e','d'], ['#','b','e','0','1','3','c']),
  (['r','o','s','e'], ['#','c','f','6','2','7','5']),
  (['r','o','s','y',' ','p','i','n','k'], ['#','f','6','6','8','8','e']),
  (['r','o','u','g','e'], ['#','a','b','1','2','3','9']),
  (['r','o','y','a','l',' ','b','l','u','e'], ['#','0','5','0','4','a','a']),
  (['r','o','y','a','l',' ','p','u','r','p','l','e'], ['#','4','b','0','0','6','e']),
  (['r','o','y','a','l'], ['#','0','c','1','7','9','3']),
  (['r','u','b','y'], ['#','c','a','0','1','4','7']),
  (['r','u','s','s','e','t'], ['#','a','1','3','9','0','5']),
  (['r','u','s','t',' ','b','r','o','w','n'], ['#','8','b','3','1','0','3']),
  (['r','u','s','t',' ','o','r','a','n','g','e'], ['#','c','4','5','5','0','8']),
  (['r','u','s','t',' ','r','e','d'], ['#','a','a','2','7','0','4']),
  (['r','u','s','t'], ['#','a','8','3','c','0','9']),
  (['r','u','s','t','y',' ','o','r','a','n','g','e'], ['#','c','d','5','9','0','9']),
  (['r','u','s','t','y',' ','r','e','d'], ['#','a','f','2','f','0','d']),
  (['s','a','f','f','r','o','n'], ['#','f','e','b','2','0','9']),
  (['s','a','g','e',' ','g','r','e','e','n'], ['#','8','8','b','3','7','8']),
  (['s','a','g','e'], ['#','8','7','a','e','7','3']),
  (['s','a','l','m','o','n',' ','p','i','n','k'], ['#','f','e','7','b','7','c']),
  (['s','a','l','m','o','n'], ['#','f','f','7','9','6','c']),
  (['s','a','n','d',' ','b','r','o','w','n'], ['#','c','b','a','5','6','0']),
  (['s','a','n','d',' ','y','e','l','l','o','w'], ['#','f','c','e','1','6','6']),
  (['s','a','n','d'], ['#','e','2','c','a','7','6']),
  (['s','a','n','d','s','t','o','n','e'], ['#','c','9','a','e','7','4']),
  (['s','a','n','d','y',' ','b','r','o','w','n'], ['#','c','4','a','6','6','1']),
  (['s','a','n','d','y',' ','y','e','l','l','o','w'], ['#','f','d','e','e','7','3']),
  (['s','a','n','d','y'], ['#','f','1','d','a','7','a']),
  (['s','a','p',' ','g','r','e','e','n'], ['#','5','c','8','b','1','5']),
  (['s','a','p','p','h','i','r','e'], ['#','2','1','3','8','a','b']),
  (['s','c','a','r','l','e','t'], ['#','b','e','0','1','1','9']),
  (['s','e','a',' ','b','l','u','e'], ['#','0','4','7','4','9','5'])]

theorem xkcdColors8_chars : texts xkcdColors8 = xkcdColors8Chars := by
  have h : xkcdColors8 = strings xkcdColors8Chars := rfl
  rw [h, texts_strings]

/-- `xkcdColors9`. -/
def xkcdColors9Chars : List (Text × Text) := [
  (['s','e','a',' ','g','r','e','e','n'], ['#','5','3','f','c','a','1']),
  (['s','e','a'], ['#','3','c','9','9','9','2']),
  (['s','e','a','f','o','a','m',' ','b','l','u','e'], ['#','7','8','d','1','b','6']),
  (['s','e','a','f','o','a','m',' ','g','r','e','e','n'], ['#','7','a','f','9','a','b']),
  (['s','e','a','f','o','a','m'], ['#','8','0','f','9','a','d']),
  (['s','e','a','w','e','e','d',' ','g','r','e','e','n'], ['#','3','5','a','d','6','b']),
  (['s','e','a','w','e','e','d'], ['#','1','8','d','1','7','b']),
  (['s','e','p','i','a'], ['#','9','8','5','e','2','b']),
  (['s','h','a','m','r','o','c','k',' ','g','r','e','e','n'], ['#','0','2','c','1','4','d']),
  (['s','h','a','m','r','o','c','k'], ['#','0','1','b','4','4','c']),
  (['s','h','i','t',' ','b','r','o','w','n'], ['#','7','b','5','8','0','4']),
  (['s','h','i','t',' ','g','r','e','e','n'], ['#','7','5','8','0','0','0']),
  (['s','h','i','t'], ['#','7','f','5','f','0','0']),
  (['s','h','o','c','k','i','n','g',' ','p','i','n','k'], ['#','f','e','0','2','a','2']),
  (['s','i','c','k',' ','g','r','e','e','n'], ['#','9','d','b','9','2','c']),
  (['s','i','c','k','l','y',' ','g','r','e','e','n'], ['#','9','4','b','2','1','c']),
  (['s','i','c','k','l','y',' ','y','e','l','l','o','w'], ['#','d','0','e','4','2','9']),
  (['s','i','e','n','n','a'], ['#','a','9','5','6','1','e']),
  (['s','i','l','v','e','r'], ['#','c','5','c','9','c','7']),
  (['s','k','y',' ','b','l','u','e'], ['#','7','5','b','b','f','d']),
  (['s','k','y'], ['#','8','2','c','a','f','c']),
  (['s','l','a','t','e',' ','b','l','u','e'], ['#','5','b','7','c','9','9']),
  (['s','l','a','t','e',' ','g','r','e','e','n'], ['#','6','5','8','d','6','d']),
  (['s','l','a','t','e',' ','g','r','e','y'], ['#','5','9','6','5','6','d']),
  (['s','l','a','t','e'], ['#','5','1','6','5','7','2']),
  (['s','l','i','m','e',' ','g','r','e','e','n'], ['#','9','9','c','c','0','4']),
  (['s','n','o','t',' ','g','r','e','e','n'], ['#','9','d','c','1','0','0']),
  (['s','n','o','t'], ['#','a','c','b','b','0','d']),
  (['s','o','f','t',' ','b','l','u','e'], ['#','6','4','8','8','e','a']),
  (['s','o','f','t',' ','g','r','e','e','n'], ['#','6','f','c','2','7','6']),
  (['s','o','f','t',' ','p','i','n','k'], ['#','f','d','b','0','c','0']),
  (['s','o','f','t',' ','p','u','r','p','l','e'], ['#','a','6','6','f','b','5']),
  (['s','p','e','a','r','m','i','n','t'], ['#','1','e','f','8','7','6']),
  (['s','p','r','i','n','g',' ','g','r','e','e','n'], ['#','a','9','f','9','7','1']),
  (['s','p','r','u','c','e'], ['#','0','a','5','f','3','8']),
  (['s','q','u','a','s','h'], ['#','f','2','a','b','1','5']),
  (['s','t','e','e','l',' ','b','l','u','e'], ['#','5','a','7','d','9','a']),
  (['s','t','e','e','l',' ','g','r','e','y'], ['#','6','f','8','2','8','a']),
  (['s','t','e','e','l'], ['#','7','3','8','5','9','5']),
  (['s','t','o','n','e'], ['#','a','d','a','5','8','7']),
  (['s','t','o','r','m','y',' ','b','l','u','e'], ['#','5','0','7','b','9','c']),
  (['s','t','r','a','w'], ['#','f','c','f','6','7','9']),
  (['s','t','r','a','w','b','e','r','r','y'], ['#','f','b','2','9','4','3']),
  (['s','t','r','o','n','g',' ','b','l','u','e'], ['#','0','c','0','6','f','7']),
  (['s','t','r','o','n','g',' ','p','i','n','k'], ['#','f','f','0','7','8','9']),
  (['s','u','n',' ','y','e','l','l','o','w'], ['#','f','f','d','f','2','2']),
  (['s','u','n','f','l','o','w','e','r',' ','y','e','l','l','o','w'], ['#','f','f','d','a','0','3']),
  (['s','u','n','f','l','o','w','e','r'], ['#','f','f','c','5','1','2']),
  (['s','u','n','n','y',' ','y','e','l','l','o','w'], ['#','f','f','f','9','1','7']),
  (['s','u','n','s','h','i','n','e',' ','y','e','l','l','o','w'], ['#','f','f','f','d','3','7']),
  (['s','w','a','m','p',' ','g','r','e','e','n'], ['#','7','4','8','5','0','0']),
  (['s','w','a','m','p'], ['#','6','9','8','3','3','9']),
  (['t','a','n',' ','b','r','o','w','n'], ['#','a','b','7','e','4','c']),
  (['t','a','n',' ','g','r','e','e','n'], ['#','a','9','b','e','7','0']),
  (['t','a','n'], ['#','d','1','b','2','6','f']),
  (['t','a','n','g','e','r','i','n','e'], ['#','f','f','9','4','0','8']),
  (['t','a','u','p','e'], ['#','b','9','a','2','8','1']),
  (['t','e','a',' ','g','r','e','e','n'], ['#','b','d','f','8','a','3']),
  (['t','e','a'], ['#','6','5','a','b','7','c']),
  (['t','e','a','l',' ','b','l','u','e'], ['#','0','1','8','8','9','f']),
  (['t','e','a','l',' ','g','r','e','e','n'], ['#','2','5','a','3','6','f']),
  (['t','e','a','l'], ['#','0','2','9','3','8','6']),
  (['t','e','a','l','i','s','h',' ','g','r','e','e','n'], ['#','0','c','d','c','7','3']),
  (['t','e','a','l','i','s','h'], ['#','2','4','b','c','a','8']),
  (['t','e','r','r','a',' ','c','o','t','t','a'], ['#','c','9','6','4','3','b']),
  (['t','e','r','r','a','c','o','t','a'], ['#','c','b','6','8','4','3']),
  (['t','e','r','r','a','c','o','t','t','a'], ['#','c','a','6','6','4','1']),
  (['t','i','f','f','a','n','y',' ','b','l','u','e'], ['#','7','b','f','2','d','a']),
  (['t','o','m','a','t','o',' ','r','e','d'], ['#','e','c','2','d','0','1']),
  (['t','o','m','a','t','o'], ['#','e','f','4','0','2','6']),
  (['t','o','p','a','z'], ['#','1','3','b','b','a','f']),
  (['t','o','u','p','e'], ['#','c','7','a','c','7','d']),
  (['t','o','x','i','c',' ','g','r','e','e','n'], ['#','6','1','d','e','2','a']),
  (['t','r','e','e',' ','g','r','e','e','n'], ['#','2','a','7','e','1','9']),
  (['t','r','u','e',' ','b','l','u','e'], ['#','0','1','0','f','c','c']),
  (['t','r','u','e',' ','g','r','e','e','n'], ['#','0','8','9','4','0','4']),
  (['t','u','r','q','u','o','i','s','e',' ','b','l','u','e'], ['#','0','6','b','1','c','4']),
  (['t','u','r','q','u','o','i','s','e',' ','g','r','e','e','n'], ['#','0','4','f','4','8','9']),
  (['t','u','r','q','u','o','i','s','e'], ['#','0','6','c','2','a','c']),
  (['t','u','r','t','l','e',' ','g','r','e','e','n'], ['#','7','5','b','8','4','f']),
  (['t','w','i','l','i','g','h','t',' ','b','l','u','e'], ['#','0','a','4','3','7','a']),
  (['t','w','i','l','i','g','h','t'], ['#','4','e','5','1','8','b']),
  (['u','g','l','y',' ','b','l','u','e'], ['#','3','1','6','6','8','a']),
  (['u','g','l','y',' ','b','r','o','w','n'], ['#','7','d','7','1','0','3']),
  (['u','g','l','y',' ','g','r','e','e','n'], ['#','7','a','9','7','0','3']),
  (['u','g','l','y',' ','p','i','n','k'], ['#','c','d','7','5','8','4']),
  (['u','g','l','y',' ','p','u','r','p','l','e'], ['#','a','4','4','2','a','0']),
  (['u','g','l','y',' ','y','e','l','l','o','w'], ['#','d','0','c','1','0','1']),
  (['u','l','t','r','a','m','a','r','i','n','e',' ','b','l','u','e'], ['#','1','8','0','5','d','b']),
  (['u','l','t','r','a','m','a','r','i','n','e'], ['#','2','0','0','0','b','1']),
  (['u','m','b','e','r'], ['#','b','2','6','4','0','0']),
  (['v','e','l','v','e','t'], ['#','7','5','0','8','5','1']),
  (['v','e','r','m','i','l','l','i','o','n'], ['#','f','4','3','2','0','c']),
  (['v','e','r','y',' ','d','a','r','k',' ','b','l','u','e'], ['#','0','0','0','1','3','3']),
  (['v','e','r','y',' ','d','a','r','k',' ','b','r','o','w','n'], ['#','1','d','0','2','0','0']),
  (['v','e','r','y',' ','d','a','r','k',' ','g','r','e','e','n'], ['#','0','6','2','e','0','3']),
  (['v','e','r','y',' ','d','a','r','k',' ','p','u','r','p','l','e'], ['#','2','a','0','1','3','4']),
  (['v','e','r','y',' ','l','i','g','h','t',' ','b','l','u','e'], ['#','d','5','f','f','f','f']),
  (['v','e','r','y',' ','l','i','g','h','t',' ','b','r','o','w','n'], ['#','d','3','b','6','8','3']),
  (['v','e','r','y',' ','l','i','g','h','t',' ','g','r','e','e','n'], ['#','d','1','f','f','b','d'])]

theorem xkcdColors9_chars : texts xkcdColors9 = xkcdColors9Chars := by
  have h : xkcdColors9 = strings xkcdColors9Chars := rfl
  rw [h, texts_strings]

/-- `xkcdColors10`. -/
def xkcdColors10Chars : List (Text × Text) := [
  (['v','e','r','y',' ','l','i','g','h','t',' ','p','i','n','k'], ['#','f','f','f','4','f','2']),
  (['v','e','r','y',' ','l','i','g','h','t',' ','p','u','r','p','l','e'], ['#','f','6','c','e','f','c']),
  (['v','e','r','y',' ','p','a','l','e',' ','b','l','u','e'], ['#','d','6','f','f','f','e']),
  (['v','e','r','y',' ','p','a','l','e',' ','g','r','e','e','n'], ['#','c','f','f','d','b','c']),
  (['v','i','b','r','a','n','t',' ','b','l','u','e'], ['#','0','3','3','9','f','8']),
  (['v','i','b','r','a','n','t',' ','g','r','e','e','n'], ['#','0','a','d','d','0','8']),
  (['v','i','b','r','a','n','t',' ','p','u','r','p','l','e'], ['#','a','d','0','3','d','e']),
  (['v','i','o','l','e','t',' ','b','l','u','e'], ['#','5','1','0','a','c','9']),
  (['v','i','o','l','e','t',' ','p','i','n','k'], ['#','f','b','5','f','f','c']),
  (['v','i','o','l','e','t',' ','r','e','d'], ['#','a','5','0','0','5','5']),
  (['v','i','o','l','e','t'], ['#','9','a','0','e','e','a']),
  (['v','i','r','i','d','i','a','n'], ['#','1','e','9','1','6','7']),
  (['v','i','v','i','d',' ','b','l','u','e'], ['#','1','5','2','e','f','f']),
  (['v','i','v','i','d',' ','g','r','e','e','n'], ['#','2','f','e','f','1','0']),
  (['v','i','v','i','d',' ','p','u','r','p','l','e'], ['#','9','9','0','0','f','a']),
  (['v','o','m','i','t',' ','g','r','e','e','n'], ['#','8','9','a','2','0','3']),
  (['v','o','m','i','t',' ','y','e','l','l','o','w'], ['#','c','7','c','1','0','c']),
  (['v','o','m','i','t'], ['#','a','2','a','4','1','5']),
  (['w','a','r','m',' ','b','l','u','e'], ['#','4','b','5','7','d','b']),
  (['w','a','r','m',' ','b','r','o','w','n'], ['#','9','6','4','e','0','2']),
  (['w','a','r','m',' ','g','r','e','y'], ['#','9','7','8','a','8','4']),
  (['w','a','r','m',' ','p','i','n','k'], ['#','f','b','5','5','8','1']),
  (['w','a','r','m',' ','p','u','r','p','l','e'], ['#','9','5','2','e','8','f']),
  (['w','a','s','h','e','d',' ','o','u','t',' ','g','r','e','e','n'], ['#','b','c','f','5','a','6']),
  (['w','a','t','e','r',' ','b','l','u','e'], ['#','0','e','8','7','c','c']),
  (['w','a','t','e','r','m','e','l','o','n'], ['#','f','d','4','6','5','9']),
  (['w','e','i','r','d',' ','g','r','e','e','n'], ['#','3','a','e','5','7','f']),
  (['w','h','e','a','t'], ['#','f','b','d','d','7','e']),
  (['w','h','i','t','e'], ['#','f','f','f','f','f','f']),
  (['w','i','n','d','o','w','s',' ','b','l','u','e'], ['#','3','7','7','8','b','f']),
  (['w','i','n','e',' ','r','e','d'], ['#','7','b','0','3','2','3']),
  (['w','i','n','e'], ['#','8','0','0','1','3','f']),
  (['w','i','n','t','e','r','g','r','e','e','n'], ['#','2','0','f','9','8','6']),
  (['w','i','s','t','e','r','i','a'], ['#','a','8','7','d','c','2']),
  (['y','e','l','l','o','w',' ','b','r','o','w','n'], ['#','b','7','9','4','0','0']),
  (['y','e','l','l','o','w',' ','g','r','e','e','n'], ['#','c','0','f','b','2','d']),
  (['y','e','l','l','o','w',' ','o','c','h','r','e'], ['#','c','b','9','d','0','6']),
  (['y','e','l','l','o','w',' ','o','r','a','n','g','e'], ['#','f','c','b','0','0','1']),
  (['y','e','l','l','o','w',' ','t','a','n'], ['#','f','f','e','3','6','e']),
  (['y','e','l','l','o','w'], ['#','f','f','f','f','1','4']),
  (['y','e','l','l','o','w','/','g','r','e','e','n'], ['#','c','8','f','d','3','d']),
  (['y','e','l','l','o','w','g','r','e','e','n'], ['#','b','b','f','9','0','f']),
  (['y','e','l','l','o','w','i','s','h',' ','b','r','o','w','n'], ['#','9','b','7','a','0','1']),
  (['y','e','l','l','o','w','i','s','h',' ','g','r','e','e','n'], ['#','b','0','d','d','1','6']),
  (['y','e','l','l','o','w','i','s','h',' ','o','r','a','n','g','e'], ['#','f','f','a','b','0','f']),
  (['y','e','l','l','o','w','i','s','h',' ','t','a','n'], ['#','f','c','f','c','8','1']),
  (['y','e','l','l','o','w','i','s','h'], ['#','f','a','e','e','6','6']),
  (['y','e','l','l','o','w','y',' ','b','r','o','w','n'], ['#','a','e','8','b','0','c']),
  (['y','e','l','l','o','w','y',' ','g','r','e','e','n'], ['#','b','f','f','1','2','8'])]

theorem xkcdColors10_chars : texts xkcdColors10 = xkcdColors10Chars := by
  have h : xkcdColors10 = strings xkcdColors10Chars := rfl
  rw [h, texts_strings]

/-- `cssColors1`. -/
def cssColors1Chars : List (Text × Text) := [
  (['a','l','i','c','e','b','l','u','e'], ['#','F','0','F','8','F','F']),
  (['a','n','t','i','q','u','e','w','h','i','t','e'], ['#','F','A','E','B','D','7']),
  (['a','q','u','a'], ['#','0','0','F','F','F','F']),
  (['a','q','u','a','m','a','r','i','n','e'], ['#','7','F','F','F','D','4']),
  (['a','z','u','r','e'], ['#','F','0','F','F','F','F']),
  (['b','e','i','g','e'], ['#','F','5','F','5','D','C']),
  (['b','i','s','q','u','e'], ['#','F','F','E','4','C','4']),
  (['b','l','a','c','k'], ['#','0','0','0','0','0','0']),
  (['b','l','a','n','c','h','e','d','a','l','m','o','n','d'], ['#','F','F','E','B','C','D']),
  (['b','l','u','e'], ['#','0','0','0','0','F','F']),
  (['b','l','u','e','v','i','o','l','e','t'], ['#','8','A','2','B','E','2']),
  (['b','r','o','w','n'], ['#','A','5','2','A','2','A']),
  (['b','u','r','l','y','w','o','o','d'], ['#','D','E','B','8','8','7']),
  (['c','a','d','e','t','b','l','u','e'], ['#','5','F','9','E','A','0']),
  (['c','h','a','r','t','r','e','u','s','e'], ['#','7','F','F','F','0','0']),
  (['c','h','o','c','o','l','a','t','e'], ['#','D','2','6','9','1','E']),
  (['c','o','r','a','l'], ['#','F','F','7','F','5','0']),
  (['c','o','r','n','f','l','o','w','e','r','b','l','u','e'], ['#','6','4','9','5','E','D']),
  (['c','o','r','n','s','i','l','k'], ['#','F','F','F','8','D','C']),
  (['c','r','i','m','s','o','n'], ['#','D','C','1','4','3','C']),
  (['c','y','a','n'], ['#','0','0','F','F','F','F']),
  (['d','a','r','k','b','l','u','e'], ['#','0','0','0','0','8','B']),
  (['d','a','r','k','c','y','a','n'], ['#','0','0','8','B','8','B']),
  (['d','a','r','k','g','o','l','d','e','n','r','o','d'], ['#','B','8','8','6','0','B']),
  (['d','a','r','k','g','r','a','y'], ['#','A','9','A','9','A','9']),
  (['d','a','r','k','g','r','e','e','n'], ['#','0','0','6','4','0','0']),
  (['d','a','r','k','g','r','e','y'], ['#','A','9','A','9','A','9']),
  (['d','a','r','k','k','h','a','k','i'], ['#','B','D','B','7','6','B']),
  (['d','a','r','k','m','a','g','e','n','t','a'], ['#','8','B','0','0','8','B']),
  (['d','a','r','k','o','l','i','v','e','g','r','e','e','n'], ['#','5','5','6','B','2','F']),
  (['d','a','r','k','o','r','a','n','g','e'], ['#','F','F','8','C','0','0']),
  (['d','a','r','k','o','r','c','h','i','d'], ['#','9','9','3','2','C','C']),
  (['d','a','r','k','r','e','d'], ['#','8','B','0','0','0','0']),
  (['d','a','r','k','s','a','l','m','o','n'], ['#','E','9','9','6','7','A']),
  (['d','a','r','k','s','e','a','g','r','e','e','n'], ['#','8','F','B','C','8','F']),
  (['d','a','r','k','s','l','a','t','e','b','l','u','e'], ['#','4','8','3','D','8','B']),
  (['d','a','r','k','s','l','a','t','e','g','r','a','y'], ['#','2','F','4','F','4','F']),
  (['d','a','r','k','s','l','a','t','e','g','r','e','y'], ['#','2','F','4','F','4','F']),
  (['d','a','r','k','t','u','r','q','u','o','i','s','e'], ['#','0','0','C','E','D','1']),
  (['d','a','r','k','v','i','o','l','e','t'], ['#','9','4','0','0','D','3']),
  (['d','e','e','p','p','i','n','k'], ['#','F','F','1','4','9','3']),
  (['d','e','e','p','s','k','y','b','l','u','e'], ['#','0','0','B','F','F','F']),
  (['d','i','m','g','r','a','y'], ['#','6','9','6','9','6','9']),
  (['d','i','m','g','r','e','y'], ['#','6','9','6','9','6','9']),
  (['d','o','d','g','e','r','b','l','u','e'], ['#','1','E','9','0','F','F']),
  (['f','i','r','e','b','r','i','c','k'], ['#','B','2','2','2','2','2']),
  (['f','l','o','r','a','l','w','h','i','t','e'], ['#','F','F','F','A','F','0']),
  (['f','o','r','e','s','t','g','r','e','e','n'], ['#','2','2','8','B','2','2']),
  (['f','u','c','h','s','i','a'], ['#','F','F','0','0','F','F']),
  (['g','a','i','n','s','b','o','r','o'], ['#','D','C','D','C','D','C']),
  (['g','h','o','s','t','w','h','i','t','e'], ['#','F','8','F','8','F','F']),
  (['g','o','l','d'], ['#','F','F','D','7','0','0']),
  (['g','o','l','d','e','n','r','o','d'], ['#','D','A','A','5','2','0']),
  (['g','r','a','y'], ['#','8','0','8','0','8','0']),
  (['g','r','e','e','n'], ['#','0','0','8','0','0','0']),
  (['g','r','e','e','n','y','e','l','l','o','w'], ['#','A','D','F','F','2','F']),
  (['g','r','e','y'], ['#','8','0','8','0','8','0']),
  (['h','o','n','e','y','d','e','w'], ['#','F','0','F','F','F','0']),
  (['h','o','t','p','i','n','k'], ['#','F','F','6','9','B','4']),
  (['i','n','d','i','a','n','r','e','d'], ['#','C','D','5','C','5','C']),
  (['i','n','d','i','g','o'], ['#','4','B','0','0','8','2']),
  (['i','v','o','r','y'], ['#','F','F','F','F','F','0']),
  (['k','h','a','k','i'], ['#','F','0','E','6','8','C']),
  (['l','a','v','e','n','d','e','r'], ['#','E','6','E','6','F','A']),
  (['l','a','v','e','n','d','e','r','b','l','u','s','h'], ['#','F','F','F','0','F','5']),
  (['l','a','w','n','g','r','e','e','n'], ['#','7','C','F','C','0','0']),
  (['l','e','m','o','n','c','h','i','f','f','o','n'], ['#','F','F','F','A','C','D']),
  (['l','i','g','h','t','b','l','u','e'], ['#','A','D','D','8','E','6']),
  (['l','i','g','h','t','c','o','r','a','l'], ['#','F','0','8','0','8','0']),
  (['l','i','g','h','t','c','y','a','n'], ['#','E','0','F','F','F','F']),
  (['l','i','g','h','t','g','o','l','d','e','n','r','o','d','y','e','l','l','o','w'], ['#','F','A','F','A','D','2']),
  (['l','i','g','h','t','g','r','a','y'], ['#','D','3','D','3','D','3']),
  (['l','i','g','h','t','g','r','e','e','n'], ['#','9','0','E','E','9','0']),
  (['l','i','g','h','t','g','r','e','y'], ['#','D','3','D','3','D','3']),
  (['l','i','g','h','t','p','i','n','k'], ['#','F','F','B','6','C','1']),
  (['l','i','g','h','t','s','a','l','m','o','n'], ['#','F','F','A','0','7','A']),
  (['l','i','g','h','t','s','e','a','g','r','e','e','n'], ['#','2','0','B','2','A','A']),
  (['l','i','g','h','t','s','k','y','b','l','u','e'], ['#','8','7','C','E','F','A']),
  (['l','i','g','h','t','s','l','a','t','e','g','r','a','y'], ['#','7','7','8','8','9','9']),
  (['l','i','g','h','t','s','l','a','t','e','g','r','e','y'], ['#','7','7','8','8','9','9']),
  (['l','i','g','h','t','s','t','e','e','l','b','l','u','e'], ['#','B','0','C','4','D','E']),
  (['l','i','g','h','t','y','e','l','l','o','w'], ['#','F','F','F','F','E','0']),
  (['l','i','m','e'], ['#','0','0','F','F','0','0']),
  (['l','i','m','e','g','r','e','e','n'], ['#','3','2','C','D','3','2']),
  (['l','i','n','e','n'], ['#','F','A','F','0','E','6']),
  (['m','a','g','e','n','t','a'], ['#','F','F','0','0','F','F']),
  (['m','a','r','o','o','n'], ['#','8','0','0','0','0','0']),
  (['m','e','d','i','u','m','a','q','u','a','m','a','r','i','n','e'], ['#','6','6','C','D','A','A']),
  (['m','e','d','i','u','m','b','l','u','e'], ['#','0','0','0','0','C','D']),
  (['m','e','d','i','u','m','o','r','c','h','i','d'], ['#','B','A','5','5','D','3']),
  (['m','e','d','i','u','m','p','u','r','p','l','e'], ['#','9','3','7','0','D','B']),
  (['m','e','d','i','u','m','s','e','a','g','r','e','e','n'], ['#','3','C','B','3','7','1']),
  (['m','e','d','i','u','m','s','l','a','t','e','b','l','u','e'], ['#','7','B','6','8','E','E']),
  (['m','e','d','i','u','m','s','p','r','i','n','g','g','r','e','e','n'], ['#','0','0','F','A','9','A']),
  (['m','e','d','i','u','m','t','u','r','q','u','o','i','s','e'], ['#','4','8','D','1','C','C']),
  (['m','e','d','i','u','m','v','i','o','l','e','t','r','e','d'], ['#','C','7','1','5','8','5']),
  (['m','i','d','n','i','g','h','t','b','l','u','e'], ['#','1','9','1','9','7','0']),
  (['m','i','n','t','c','r','e','a','m'], ['#','F','5','F','F','F','A']),
  (['m','i','s','t','y','r','o','s','e'], ['#','F','F','E','4','E','1']),
  (['m','o','c','c','a','s','i','n'], ['#','F','F','E','4','B','5'])]

theorem cssColors1_chars : texts cssColors1 = cssColors1Chars := by
  have h : cssColors1 = strings cssColors1Chars := rfl
  rw [h, texts_strings]

/-- `cssColors2`. -/
def cssColors2Chars : List (Text × Text) := [
  (['n','a','v','a','j','o','w','h','i','t','e'], ['#','F','F','D','E','A','D']),
  (['n','a','v','y'], ['#','0','0','0','0','8','0']),
  (['o','l','d','l','a','c','e'], ['#','F','D','F','5','E','6']),
  (['o','l','i','v','e'], ['#','8','0','8','0','0','0']),
  (['o','l','i','v','e','d','r','a','b'], ['#','6','B','8','E','2','3']),
  (['o','r','a','n','g','e'], ['#','F','F','A','5','0','0']),
  (['o','r','a','n','g','e','r','e','d'], ['#','F','F','4','5','0','0']),
  (['o','r','c','h','i','d'], ['#','D','A','7','0','D','6']),
  (['p','a','l','e','g','o','l','d','e','n','r','o','d'], ['#','E','E','E','8','A','A']),
  (['p','a','l','e','g','r','e','e','n'], ['#','9','8','F','B','9','8']),
  (['p','a','l','e','t','u','r','q','u','o','i','s','e'], ['#','A','F','E','E','E','E']),
  (['p','a','l','e','v','i','o','l','e','t','r','e','d'], ['#','D','B','7','0','9','3']),
  (['p','a','p','a','y','a','w','h','i','p'], ['#','F','F','E','F','D','5']),
  (['p','e','a','c','h','p','u','f','f'], ['#','F','F','D','A','B','9']),
  (['p','e','r','u'], ['#','C','D','8','5','3','F']),
  (['p','i','n','k'], ['#','F','F','C','0','C','B']),
  (['p','l','u','m'], ['#','D','D','A','0','D','D']),
  (['p','o','w','d','e','r','b','l','u','e'], ['#','B','0','E','0','E','6']),
  (['p','u','r','p','l','e'], ['#','8','0','0','0','8','0']),
  (['r','e','b','e','c','c','a','p','u','r','p','l','e'], ['#','6','6','3','3','9','9']),
  (['r','e','d'], ['#','F','F','0','0','0','0']),
  (['r','o','s','y','b','r','o','w','n'], ['#','B','C','8','F','8','F']),
  (['r','o','y','a','l','b','l','u','e'], ['#','4','1','6','9','E','1']),
  (['s','a','d','d','l','e','b','r','o','w','n'], ['#','8','B','4','5','1','3']),
  (['s','a','l','m','o','n'], ['#','F','A','8','0','7','2']),
  (['s','a','n','d','y','b','r','o','w','n'], ['#','F','4','A','4','6','0']),
  (['s','e','a','g','r','e','e','n'], ['#','2','E','8','B','5','7']),
  (['s','e','a','s','h','e','l','l'], ['#','F','F','F','5','E','E']),
  (['s','i','e','n','n','a'], ['#','A','0','5','2','2','D']),
  (['s','i','l','v','e','r'], ['#','C','0','C','0','C','0']),
  (['s','k','y','b','l','u','e'], ['#','8','7','C','E','E','B']),
  (['s','l','a','t','e','b','l','u','e'], ['#','6','A','5','A','C','D']),
  (['s','l','a','t','e','g','r','a','y'], ['#','7','0','8','0','9','0']),
  (['s','l','a','t','e','g','r','e','y'], ['#','7','0','8','0','9','0']),
  (['s','n','o','w'], ['#','F','F','F','A','F','A']),
  (['s','p','r','i','n','g','g','r','e','e','n'], ['#','0','0','F','F','7','F']),
  (['s','t','e','e','l','b','l','u','e'], ['#','4','6','8','2','B','4']),
  (['t','a','n'], ['#','D','2','B','4','8','C']),
  (['t','e','a','l'], ['#','0','0','8','0','8','0']),
  (['t','h','i','s','t','l','e'], ['#','D','8','B','F','D','8']),
  (['t','o','m','a','t','o'], ['#','F','F','6','3','4','7']),
  (['t','u','r','q','u','o','i','s','e'], ['#','4','0','E','0','D','0']),
  (['v','i','o','l','e','t'], ['#','E','E','8','2','E','E']),
  (['w','h','e','a','t'], ['#','F','5','D','E','B','3']),
  (['w','h','i','t','e'], ['#','F','F','F','F','F','F']),
  (['w','h','i','t','e','s','m','o','k','e'], ['#','F','5','F','5','F','5']),
  (['y','e','l','l','o','w'], ['#','F','F','F','F','0','0']),
  (['y','e','l','l','o','w','g','r','e','e','n'], ['#','9','A','C','D','3','2'])]

theorem cssColors2_chars : texts cssColors2 = cssColors2Chars := by
  have h : cssColors2 = strings cssColors2Chars := rfl
  rw [h, texts_strings]

/-- `qmlColors1`. -/
def qmlColors1Chars : List (Text × Text) := [
  (['a','l','i','c','e','b','l','u','e'], ['#','f','0','f','8','f','f']),
  (['a','n','t','i','q','u','e','w','h','i','t','e'], ['#','f','a','e','b','d','7']),
  (['a','q','u','a'], ['#','0','0','f','f','f','f']),
  (['a','q','u','a','m','a','r','i','n','e'], ['#','7','f','f','f','d','4']),
  (['a','z','u','r','e'], ['#','f','0','f','f','f','f']),
  (['b','e','i','g','e'], ['#','f','5','f','5','d','c']),
  (['b','i','s','q','u','e'], ['#','f','f','e','4','c','4']),
  (['b','l','a','c','k'], ['#','0','0','0','0','0','0']),
  (['b','l','a','n','c','h','e','d','a','l','m','o','n','d'], ['#','f','f','e','b','c','d']),
  (['b','l','u','e'], ['#','0','0','0','0','f','f']),
  (['b','l','u','e','v','i','o','l','e','t'], ['#','8','a','2','b','e','2']),
  (['b','r','o','w','n'], ['#','a','5','2','a','2','a']),
  (['b','u','r','l','y','w','o','o','d'], ['#','d','e','b','8','8','7']),
  (['c','a','d','e','t','b','l','u','e'], ['#','5','f','9','e','a','0']),
  (['c','h','a','r','t','r','e','u','s','e'], ['#','7','f','f','f','0','0']),
  (['c','h','o','c','o','l','a','t','e'], ['#','d','2','6','9','1','e']),
  (['c','o','r','a','l'], ['#','f','f','7','f','5','0']),
  (['c','o','r','n','f','l','o','w','e','r','b','l','u','e'], ['#','6','4','9','5','e','d']),
  (['c','o','r','n','s','i','l','k'], ['#','f','f','f','8','d','c']),
  (['c','r','i','m','s','o','n'], ['#','d','c','1','4','3','c']),
  (['c','y','a','n'], ['#','0','0','f','f','f','f']),
  (['d','a','r','k','b','l','u','e'], ['#','0','0','0','0','8','b']),
  (['d','a','r','k','c','y','a','n'], ['#','0','0','8','b','8','b']),
  (['d','a','r','k','g','o','l','d','e','n','r','o','d'], ['#','b','8','8','6','0','b']),
  (['d','a','r','k','g','r','a','y'], ['#','a','9','a','9','a','9']),
  (['d','a','r','k','g','r','e','e','n'], ['#','0','0','6','4','0','0']),
  (['d','a','r','k','g','r','e','y'], ['#','a','9','a','9','a','9']),
  (['d','a','r','k','k','h','a','k','i'], ['#','b','d','b','7','6','b']),
  (['d','a','r','k','m','a','g','e','n','t','a'], ['#','8','b','0','0','8','b']),
  (['d','a','r','k','o','l','i','v','e','g','r','e','e','n'], ['#','5','5','6','b','2','f']),
  (['d','a','r','k','o','r','a','n','g','e'], ['#','f','f','8','c','0','0']),
  (['d','a','r','k','o','r','c','h','i','d'], ['#','9','9','3','2','c','c']),
  (['d','a','r','k','r','e','d'], ['#','8','b','0','0','0','0']),
  (['d','a','r','k','s','a','l','m','o','n'], ['#','e','9','9','6','7','a']),
  (['d','a','r','k','s','e','a','g','r','e','e','n'], ['#','8','f','b','c','8','f']),
  (['d','a','r','k','s','l','a','t','e','b','l','u','e'], ['#','4','8','3','d','8','b']),
  (['d','a','r','k','s','l','a','t','e','g','r','a','y'], ['#','2','f','4','f','4','f']),
  (['d','a','r','k','s','l','a','t','e','g','r','e','y'], ['#','2','f','4','f','4','f']),
  (['d','a','r','k','t','u','r','q','u','o','i','s','e'], ['#','0','0','c','e','d','1']),
  (['d','a','r','k','v','i','o','l','e','t'], ['#','9','4','0','0','d','3']),
  (['d','e','e','p','p','i','n','k'], ['#','f','f','1','4','9','3']),
  (['d','e','e','p','s','k','y','b','l','u','e'], ['#','0','0','b','f','f','f']),
  (['d','i','m','g','r','a','y'], ['#','6','9','6','9','6','9']),
  (['d','i','m','g','r','e','y'], ['#','6','9','6','9','6','9']),
  (['d','o','d','g','e','r','b','l','u','e'], ['#','1','e','9','0','f','f']),
  (['f','i','r','e','b','r','i','c','k'], ['#','b','2','2','2','2','2']),
  (['f','l','o','r','a','l','w','h','i','t','e'], ['#','f','f','f','a','f','0']),
  (['f','o','r','e','s','t','g','r','e','e','n'], ['#','2','2','8','b','2','2']),
  (['f','u','c','h','s','i','a'], ['#','f','f','0','0','f','f']),
  (['g','a','i','n','s','b','o','r','o'], ['#','d','c','d','c','d','c']),
  (['g','h','o','s','t','w','h','i','t','e'], ['#','f','8','f','8','f','f']),
  (['g','o','l','d'], ['#','f','f','d','7','0','0']),
  (['g','o','l','d','e','n','r','o','d'], ['#','d','a','a','5','2','0']),
  (['g','r','a','y'], ['#','8','0','8','0','8','0']),
  (['g','r','e','e','n'], ['#','0','0','8','0','0','0']),
  (['g','r','e','e','n','y','e','l','l','o','w'], ['#','a','d','f','f','2','f']),
  (['g','r','e','y'], ['#','8','0','8','0','8','0']),
  (['h','o','n','e','y','d','e','w'], ['#','f','0','f','f','f','0']),
  (['h','o','t','p','i','n','k'], ['#','f','f','6','9','b','4']),
  (['i','n','d','i','a','n','r','e','d'], ['#','c','d','5','c','5','c']),
  (['i','n','d','i','g','o'], ['#','4','b','0','0','8','2']),
  (['i','v','o','r','y'], ['#','f','f','f','f','f','0']),
  (['k','h','a','k','i'], ['#','f','0','e','6','8','c']),
  (['l','a','v','e','n','d','e','r'], ['#','e','6','e','6','f','a']),
  (['l','a','v','e','n','d','e','r','b','l','u','s','h'], ['#','f','f','f','0','f','5']),
  (['l','a','w','n','g','r','e','e','n'], ['#','7','c','f','c','0','0']),
  (['l','e','m','o','n','c','h','i','f','f','o','n'], ['#','f','f','f','a','c','d']),
  (['l','i','g','h','t','b','l','u','e'], ['#','a','d','d','8','e','6']),
  (['l','i','g','h','t','c','o','r','a','l'], ['#','f','0','8','0','8','0']),
  (['l','i','g','h','t','c','y','a','n'], ['#','e','0','f','f','f','f']),
  (['l','i','g','h','t','g','o','l','d','e','n','r','o','d','y','e','l','l','o','w'], ['#','f','a','f','a','d','2']),
  (['l','i','g','h','t','g','r','a','y'], ['#','d','3','d','3','d','3']),
  (['l','i','g','h','t','g','r','e','e','n'], ['#','9','0','e','e','9','0']),
  (['l','i','g','h','t','g','r','e','y'], ['#','d','3','d','3','d','3']),
  (['l','i','g','h','t','p','i','n','k'], ['#','f','f','b','6','c','1']),
  (['l','i','g','h','t','s','a','l','m','o','n'], ['#','f','f','a','0','7','a']),
  (['l','i','g','h','t','s','e','a','g','r','e','e','n'], ['#','2','0','b','2','a','a']),
  (['l','i','g','h','t','s','k','y','b','l','u','e'], ['#','8','7','c','e','f','a']),
  (['l','i','g','h','t','s','l','a','t','e','g','r','a','y'], ['#','7','7','8','8','9','9']),
  (['l','i','g','h','t','s','l','a','t','e','g','r','e','y'], ['#','7','7','8','8','9','9']),
  (['l','i','g','h','t','s','t','e','e','l','b','l','u','e'], ['#','b','0','c','4','d','e']),
  (['l','i','g','h','t','y','e','l','l','o','w'], ['#','f','f','f','f','e','0']),
  (['l','i','m','e'], ['#','0','0','f','f','0','0']),
  (['l','i','m','e','g','r','e','e','n'], ['#','3','2','c','d','3','2']),
  (['l','i','n','e','n'], ['#','f','a','f','0','e','6']),
  (['m','a','g','e','n','t','a'], ['#','f','f','0','0','f','f']),
  (['m','a','r','o','o','n'], ['#','8','0','0','0','0','0']),
  (['m','e','d','i','u','m','a','q','u','a','m','a','r','i','n','e'], ['#','6','6','c','d','a','a']),
  (['m','e','d','i','u','m','b','l','u','e'], ['#','0','0','0','0','c','d']),
  (['m','e','d','i','u','m','o','r','c','h','i','d'], ['#','b','a','5','5','d','3']),
  (['m','e','d','i','u','m','p','u','r','p','l','e'], ['#','9','3','7','0','d','b']),
  (['m','e','d','i','u','m','s','e','a','g','r','e','e','n'], ['#','3','c','b','3','7','1']),
  (['m','e','d','i','u','m','s','l','a','t','e','b','l','u','e'], ['#','7','b','6','8','e','e']),
  (['m','e','d','i','u','m','s','p','r','i','n','g','g','r','e','e','n'], ['#','0','0','f','a','9','a']),
  (['m','e','d','i','u','m','t','u','r','q','u','o','i','s','e'], ['#','4','8','d','1','c','c']),
  (['m','e','d','i','u','m','v','i','o','l','e','t','r','e','d'], ['#','c','7','1','5','8','5']),
  (['m','i','d','n','i','g','h','t','b','l','u','e'], ['#','1','9','1','9','7','0']),
  (['m','i','n','t','c','r','e','a','m'], ['#','f','5','f','f','f','a']),
  (['m','i','s','t','y','r','o','s','e'], ['#','f','f','e','4','e','1']),
  (['m','o','c','c','a','s','i','n'], ['#','f','f','e','4','b','5'])]

theorem qmlColors1_chars : texts qmlColors1 = qmlColors1Chars := by
  have h : qmlColors1 = strings qmlColors1Chars := rfl
  rw [h, texts_strings]

/-- `qmlColors2`. -/
def qmlColors2Chars : List (Text × Text) := [
  (['n','a','v','a','j','o','w','h','i','t','e'], ['#','f','f','d','e','a','d']),
  (['n','a','v','y'], ['#','0','0','0','0','8','0']),
  (['o','l','d','l','a','c','e'], ['#','f','d','f','5','e','6']),
  (['o','l','i','v','e'], ['#','8','0','8','0','0','0']),
  (['o','l','i','v','e','d','r','a','b'], ['#','6','b','8','e','2','3']),
  (['o','r','a','n','g','e'], ['#','f','f','a','5','0','0']),
  (['o','r','a','n','g','e','r','e','d'], ['#','f','f','4','5','0','0']),
  (['o','r','c','h','i','d'], ['#','d','a','7','0','d','6']),
  (['p','a','l','e','g','o','l','d','e','n','r','o','d'], ['#','e','e','e','8','a','a']),
  (['p','a','l','e','g','r','e','e','n'], ['#','9','8','f','b','9','8']),
  (['p','a','l','e','t','u','r','q','u','o','i','s','e'], ['#','a','f','e','e','e','e']),
  (['p','a','l','e','v','i','o','l','e','t','r','e','d'], ['#','d','b','7','0','9','3']),
  (['p','a','p','a','y','a','w','h','i','p'], ['#','f','f','e','f','d','5']),
  (['p','e','a','c','h','p','u','f','f'], ['#','f','f','d','a','b','9']),
  (['p','e','r','u'], ['#','c','d','8','5','3','f']),
  (['p','i','n','k'], ['#','f','f','c','0','c','b']),
  (['p','l','u','m'], ['#','d','d','a','0','d','d']),
  (['p','o','w','d','e','r','b','l','u','e'], ['#','b','0','e','0','e','6']),
  (['p','u','r','p','l','e'], ['#','8','0','0','0','8','0']),
  (['r','e','d'], ['#','f','f','0','0','0','0']),
  (['r','o','s','y','b','r','o','w','n'], ['#','b','c','8','f','8','f']),
  (['r','o','y','a','l','b','l','u','e'], ['#','4','1','6','9','e','1']),
  (['s','a','d','d','l','e','b','r','o','w','n'], ['#','8','b','4','5','1','3']),
  (['s','a','l','m','o','n'], ['#','f','a','8','0','7','2']),
  (['s','a','n','d','y','b','r','o','w','n'], ['#','f','4','a','4','6','0']),
  (['s','e','a','g','r','e','e','n'], ['#','2','e','8','b','5','7']),
  (['s','e','a','s','h','e','l','l'], ['#','f','f','f','5','e','e']),
  (['s','i','e','n','n','a'], ['#','a','0','5','2','2','d']),
  (['s','i','l','v','e','r'], ['#','c','0','c','0','c','0']),
  (['s','k','y','b','l','u','e'], ['#','8','7','c','e','e','b']),
  (['s','l','a','t','e','b','l','u','e'], ['#','6','a','5','a','c','d']),
  (['s','l','a','t','e','g','r','a','y'], ['#','7','0','8','0','9','0']),
  (['s','l','a','t','e','g','r','e','y'], ['#','7','0','8','0','9','0']),
  (['s','n','o','w'], ['#','f','f','f','a','f','a']),
  (['s','p','r','i','n','g','g','r','e','e','n'], ['#','0','0','f','f','7','f']),
  (['s','t','e','e','l','b','l','u','e'], ['#','4','6','8','2','b','4']),
  (['t','a','n'], ['#','d','2','b','4','8','c']),
  (['t','e','a','l'], ['#','0','0','8','0','8','0']),
  (['t','h','i','s','t','l','e'], ['#','d','8','b','f','d','8']),
  (['t','o','m','a','t','o'], ['#','f','f','6','3','4','7']),
  (['t','u','r','q','u','o','i','s','e'], ['#','4','0','e','0','d','0']),
  (['v','i','o','l','e','t'], ['#','e','e','8','2','e','e']),
  (['w','h','e','a','t'], ['#','f','5','d','e','b','3']),
  (['w','h','i','t','e'], ['#','f','f','f','f','f','f']),
  (['w','h','i','t','e','s','m','o','k','e'], ['#','f','5','f','5','f','5']),
  (['y','e','l','l','o','w'], ['#','f','f','f','f','0','0']),
  (['y','e','l','l','o','w','g','r','e','e','n'], ['#','9','a','c','d','3','2'])]

theorem qmlColors2_chars : texts qmlColors2 = qmlColors2Chars := by
  have h : qmlColors2 = strings qmlColors2Chars := rfl
  rw [h, texts_strings]

/-- `XKCD_COLORS`. -/
def xkcdColorsChars : List (Text × Text) :=
  xkcdColors1Chars ++ xkcdColors2Chars ++ xkcdColors3Chars ++ xkcdColors4Chars ++ xkcdColors5Chars ++ xkcdColors6Chars ++ xkcdColors7Chars ++
    xkcdColors8Chars ++ xkcdColors9Chars ++ xkcdColors10Chars

theorem xkcdColors_chars : texts xkcdColors = xkcdColorsChars := by
  unfold xkcdColors xkcdColorsChars
  simp only [texts_append, xkcdColors1_chars, xkcdColors2_chars, xkcdColors3_chars, xkcdColors4_chars, xkcdColors5_chars, xkcdColors6_chars,
    xkcdColors7_chars, xkcdColors8_chars, xkcdColors9_chars, xkcdColors10_chars]

/-- `CSS4_COLORS`. -/
def cssColorsChars : List (Text × Text) := cssColors1Chars ++ cssColors2Chars

theorem cssColors_chars : texts cssColors = cssColorsChars := by
  unfold cssColors cssColorsChars
  simp only [texts_append, cssColors1_chars, cssColors2_chars]

/-- `QML_COLORS`. -/
def qmlColorsChars : List (Text × Text) := qmlColors1Chars ++ qmlColors2Chars

theorem qmlColors_chars : texts qmlColors = qmlColorsChars := by
  unfold qmlColors qmlColorsChars
  simp only [texts_append, qmlColors1_chars, qmlColors2_chars]

/-- The names of the colours of Valentina. -/
def valentinaChars : List (Text × Text) := [
  (['b','l','a','c','k'], ['#','0','0','0','0','0','0']),
  (['b','l','u','e'], ['#','0','0','0','0','f','f']),
  (['c','o','r','n','f','l','o','w','e','r','b','l','u','e'], ['#','6','4','9','5','e','d']),
  (['d','a','r','k','B','l','u','e'], ['#','0','0','0','0','8','b']),
  (['d','a','r','k','G','r','e','e','n'], ['#','0','0','6','4','0','0']),
  (['d','a','r','k','R','e','d'], ['#','8','b','0','0','0','0']),
  (['d','a','r','k','v','i','o','l','e','t'], ['#','9','4','0','0','d','3']),
  (['d','e','e','p','p','i','n','k'], ['#','f','f','1','4','9','3']),
  (['d','e','e','p','s','k','y','b','l','u','e'], ['#','0','0','b','f','f','f']),
  (['g','o','l','d','e','n','r','o','d'], ['#','d','a','a','5','2','0']),
  (['g','r','e','e','n'], ['#','0','0','8','0','0','0']),
  (['l','i','g','h','t','s','a','l','m','o','n'], ['#','f','f','a','0','7','a']),
  (['l','i','m','e'], ['#','0','0','f','f','0','0']),
  (['m','e','d','i','u','m','s','e','a','g','r','e','e','n'], ['#','3','c','b','3','7','1']),
  (['o','r','a','n','g','e'], ['#','f','f','a','5','0','0']),
  (['v','i','o','l','e','t'], ['#','e','e','8','2','e','e']),
  (['y','e','l','l','o','w'], ['#','f','f','f','f','0','0'])]

theorem valentinaNames_chars : valentinaNames = valentinaChars.map fun item => String.ofList item.1 := rfl

theorem valentina_chars : valentinaColors = .ok valentinaChars := by
  unfold valentinaColors
  rw [qmlColors_chars, valentinaNames_chars, List.mapM_map]
  simp only [Function.comp_def, String.toList_ofList]
  decide +kernel

end Patro.Colour
