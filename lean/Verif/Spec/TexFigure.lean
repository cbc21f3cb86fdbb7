import Verif.Model.Tex
import Verif.Model.Paper
/-!
# What the figures of a TeX document are expected to be
-/

namespace Patro.Tex

open Xml (Text)

/-- The text of a centred picture with options and lines. -/
def centred (options : Text) (content : List Text) : Text :=
  "\\begin{center}\n\\begin{tikzpicture}[".toList ++ options ++ "]\n".toList ++ content.flatten ++ "\\end{tikzpicture}\n\\end{center}\n".toList

section

variable {K : Type} [Field K] (number repr : K → Text)

omit [Field K] in
/-- A point in a picture. -/
def tikzPoint (x y : K) : Text := "(".toList ++ number x ++ ",".toList ++ number y ++ ")".toList

/-- The picture of a tile, at ten millimetres by unit: the large grey numbers of its row and its column, counted from one, one unit above and
to the right of its lower left corner, the border of the tile, outside of which nothing more is shown, and a painting. -/
def tilePicture (t : Paper.Tile K) (painting : List Text) : Text :=
  centred "x=10mm,y=10mm".toList
    (["\\fontsize{128}{128}\\selectfont % \\fontsize{size}{baselineskip}\n".toList,
      "\\color{gray!50}\n".toList,
      "\\draw[] ".toList ++ tikzPoint repr (t.interval.xInf + 1) (t.interval.yInf + 1) ++ " node[anchor=south west] {".toList ++
        Xml.natToText (t.row + 1) ++ ", ".toList ++ Xml.natToText (t.column + 1) ++ "};\n".toList,
      "\\fontsize{14}{16}\\selectfont % \\fontsize{size}{baselineskip}\n".toList,
      "\\color{black}\n".toList,
      "\\draw[clip] ".toList ++ tikzPoint number t.interval.xInf t.interval.yInf ++ " -- ".toList ++
        tikzPoint number t.interval.xSup t.interval.yInf ++ " -- ".toList ++ tikzPoint number t.interval.xSup t.interval.ySup ++ " -- ".toList ++
        tikzPoint number t.interval.xInf t.interval.ySup ++ " -- cycle;\n".toList] ++ painting)

end

end Patro.Tex
