import Verif.Props.IterTools
import Verif.Props.Graph
import Verif.Props.Counter
import Verif.Props.Singleton
import Verif.Props.MathFunctions
import Verif.Props.Xml
import Verif.Props.Calculator
import Verif.Props.Measurement
import Verif.Props.Vector
import Verif.Props.Pattern
import Verif.Props.Line
import Verif.Props.Shapes
import Verif.Props.Polygon
import Verif.Props.Hull
import Verif.Props.PolygonTools
import Verif.Props.Simplify
import Verif.Props.Transformation
import Verif.Props.Conic
import Verif.Props.SketchGeometry
import Verif.Props.Bezier
import Verif.Props.BezierReal
import Verif.Props.BezierLength
import Verif.Props.Spline
import Verif.Props.SplineBezier
import Verif.Props.Path
import Verif.Props.PathBulge
import Verif.Props.SvgPath
import Verif.Props.SvgTransform
import Verif.Props.SvgState
import Verif.Props.Dxf
import Verif.Props.Scene
import Verif.Props.Units
import Verif.Props.Paper
import Verif.Props.Color
import Verif.Props.Textile
import Verif.Props.Tex
import Verif.Props.Style
import Verif.Props.Ellipse
import Verif.Props.EllipseDistance
import Verif.Props.EllipseBezier
import Verif.Props.SvgArc
import Verif.Props.CircleObject
import Verif.Props.PolygonMoment
import Verif.Props.Primitive
import Verif.Props.SceneGeometry
import Verif.Props.ScenePath
import Verif.Props.Painters
import Verif.Props.Valentina
import Verif.Props.Vit
import Verif.Props.Detail
import Verif.Props.ToPython
import Verif.Props.DxfImport
import Verif.Props.ArrowHead
import Verif.Props.QtPainter
import Verif.Props.QtView
import Verif.Props.CalcFunctions
import Verif.Props.VectorObject
import Verif.Props.ValentinaDetails
import Verif.Props.CalculatorCalls
import Verif.Props.DxfRoundTrip
import Verif.Props.LineTools
import Verif.Props.Roots
import Verif.Props.PolygonRest
import Verif.Props.BezierIntersect
import Verif.Props.TexFigure
import Verif.Props.MeasurementFile
import Verif.Props.Common
import Verif.Props.Printed
import Verif.Props.PathEdit
import Verif.Props.Platform
import Verif.Props.TransformationNew
import Verif.Props.BezierClip
import Verif.Props.SketchAgain
import Verif.Props.ValPlaces
import Verif.Props.PrintedText
import Verif.Props.ValPrinted
import Verif.Props.ValDrawn
import Verif.Props.Catalogue
import Verif.Props.Formula
import Verif.Props.ValFormulas
import Verif.Props.ValVit
import Verif.Props.SketchEval
import Verif.Props.ValEval
import Verif.Props.Application
import Verif.Props.ValRead
import Verif.Props.Save
import Verif.Props.ColorData
import Verif.Props.XmlFile
import Verif.Props.Viewer
import Verif.Props.FormulaText
import Verif.Props.PathShapes
import Verif.Props.PolygonHull
import Verif.Props.RegularObject
import Verif.Props.SplineObject
import Verif.Props.SplineHull
import Verif.Props.SplineLine
import Verif.Props.UniformSpline
import Verif.Props.UniformBSpline
