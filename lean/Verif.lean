import Verif.Py
import Verif.Props.Create
import Verif.Props.Pixel
import Verif.Props.Palette
import Verif.Props.File
import Verif.Props.Blt
import Verif.Props.Lines
import Verif.Props.Rect
import Verif.Props.LinePath
import Verif.Props.Line4
import Verif.Props.Nibbles
import Verif.Props.CircleGen
import Verif.Props.Circle
import Verif.Props.Vertical
import Verif.Props.Horizontal
import Verif.Props.Region
import Verif.Props.Invert
import Verif.Props.Iterate
import Verif.Props.FlipXY
import Verif.Props.Crop
import Verif.Props.Upgrade
import Verif.Props.Resize
import Verif.Props.Paste
import Verif.Props.Colors
import Verif.Props.Guards
import Verif.Props.Helpers
import Verif.Props.Filters
import Verif.Props.Compare
import Verif.Props.Histogram
import Verif.Props.Pattern
import Verif.Props.Text
import Verif.Props.CircRegion
import Verif.Props.CircFlip
import Verif.Props.CircHori
import Verif.Props.CircTurn
import Verif.Props.CircGrad
import Verif.Props.Erase
import Verif.Props.Tone
import Verif.Props.Files
import Verif.Props.Strokes
import Verif.Props.Thick
import Verif.Props.EllipseGen
import Verif.Props.Ellipse
import Verif.Props.Verts
import Verif.Model.Shapes
import Verif.Model.Smaller
import Verif.Props.Smaller
import Verif.Model.Float
import Verif.Lemmas.Float
import Verif.Props.Float
import Verif.Model.Hilbert
import Verif.Props.Hilbert
import Verif.Model.Koch
import Verif.Props.Koch
import Verif.Model.Fractal
import Verif.Props.Fractal
import Verif.Model.MathLib
import Verif.Props.Vectors
import Verif.Props.Stats
import Verif.Props.Fft
import Verif.Props.Interp
import Verif.Model.Solids
import Verif.Props.Solids
import Verif.Props.Rounds
import Verif.Props.SurfPlot
import Verif.Props.PolyFill
import Verif.Model.Curves
import Verif.Props.Curves
import Verif.Props.RegPoly
import Verif.Props.Pie
import Verif.Props.Hist2D
import Verif.Model.Edges
import Verif.Props.Edges
import Verif.Model.Pals
import Verif.Model.Gradient
import Verif.Props.Pals
import Verif.Props.Gradient
import Verif.Model.Dots
import Verif.Model.Lens
import Verif.Props.Dots
import Verif.Props.Lens
import Verif.Model.Plane
import Verif.Props.Plane
import Verif.Model.Param
import Verif.Props.Param
import Verif.Model.Escape
import Verif.Props.Escape
import Verif.Model.Attract
import Verif.Props.Attract
import Verif.Model.Utils
import Verif.Props.Utils
import Verif.Model.CurveFiles
import Verif.Props.CurveFiles
import Verif.Model.Names
import Verif.Props.Names
import Verif.Model.FractalFiles
import Verif.Props.FractalFiles
import Verif.Model.Misc
import Verif.Props.Misc
import Verif.Props.Sphere
import Verif.Props.Newton
import Verif.Model.Fonts
import Verif.Props.Fonts
import Verif.Model.Penta
import Verif.Props.Penta
import Verif.Model.Levels
import Verif.Props.Levels
import Verif.Props.Marks
import Verif.Model.HSL
import Verif.Props.HSL
import Verif.Props.Laws
import Verif.Props.Clip
import Verif.Props.HoriExact
import Verif.Props.CopyExact
import Verif.Props.FilesExact
import Verif.Props.DiagEdge
import Verif.Props.Domains
import Verif.Props.SurfExact
import Verif.Props.RegPolyExact
import Verif.Props.EdgesExact
import Verif.Props.PalsExact
import Verif.Props.FarLeft
import Verif.Props.DiagWide
import Verif.Props.DiagHead
import Verif.Props.PensFar
import Verif.Props.SolidsExact
import Verif.Props.FloatCurves
import Verif.Props.FloatAttract
import Verif.Props.FloatEscape
import Verif.Props.Superellipse
import Verif.Props.Environ
import Verif.Props.Overlay
import Verif.Props.OverlayLaws
import Verif.Props.OverlayTone
import Verif.Props.Legible
import Verif.Props.TextLaws
import Verif.Props.Rest
import Verif.Props.Solid3D
import Verif.Props.MarksFar
import Verif.Props.OverlayTurn
import Verif.Props.OverlayBig
import Verif.Props.Chains
import Verif.Props.Pipeline
import Verif.Props.Beyond
import Verif.Props.AwayTrue
import Verif.Props.AxesFar
import Verif.Props.DiagLines
import Verif.Props.FlakeRows
import Verif.Props.CurveBack
import Verif.Props.Stencils
import Verif.Props.Foreign
import Verif.Props.Truncated
import Verif.Props.Abort
import Verif.Props.AbortMore
import Verif.Props.Negative
import Verif.Props.AbortPal
import Verif.Props.AbortText
import Verif.Props.Padding
import Verif.Props.PaddingMore
import Verif.Props.FarBelow
import Verif.Props.Session
import Verif.Props.NegativeExact
import Verif.Props.Retry
import Verif.Props.SessionMore
import Verif.Props.RetryEnds
import Verif.Props.RetryAll
import Verif.Props.RetryPerm
import Verif.Props.SessionAll
import Verif.Props.RetryExact
