import Verif.Model.Actions
import Verif.Model.Bilinear
import Verif.Model.Calc
import Verif.Model.CommandLine
import Verif.Model.Compositing
import Verif.Model.CosineImage
import Verif.Model.CylindricalF
import Verif.Model.Execute
import Verif.Model.Extrema
import Verif.Model.Factories
import Verif.Model.Fits
import Verif.Model.Grammar
import Verif.Model.Grid
import Verif.Model.LinearAlgebra
import Verif.Model.Locations
import Verif.Model.MapCommand
import Verif.Model.MapFactory
import Verif.Model.MapParameters
import Verif.Model.Mathematics
import Verif.Model.MuImage
import Verif.Model.Num
import Verif.Model.OblateSpheroid
import Verif.Model.Parser
import Verif.Model.PhotoClauses
import Verif.Model.PhotoImage
import Verif.Model.Pipeline
import Verif.Model.Program
import Verif.Model.Progress
import Verif.Model.Projection
import Verif.Model.RootFind
import Verif.Model.Scanner
import Verif.Model.Sky
import Verif.Model.Sources
import Verif.Model.Utility
import Verif.Model.Validate
import Verif.Model.ViewSettings
import Verif.Model.ViewingGeometry
import Verif.Model.VirtualImage
import Verif.Spec.Computed
import Verif.Spec.Cylindrical
import Verif.Spec.Expr
import Verif.Spec.Extremum
import Verif.Spec.Grid
import Verif.Spec.Header
import Verif.Spec.InputDoc
import Verif.Spec.InputFile
import Verif.Spec.InputMeaning
import Verif.Spec.InputValid
import Verif.Spec.Libm
import Verif.Spec.LibmRoot
import Verif.Spec.Locations
import Verif.Spec.Map
import Verif.Spec.Orthographic
import Verif.Spec.Planes
import Verif.Spec.Program
import Verif.Spec.ProgramData
import Verif.Spec.Projection
import Verif.Spec.RootFind
import Verif.Spec.Spheroid
import Verif.Lemmas.Accuracy
import Verif.Lemmas.Calc
import Verif.Lemmas.Conformal
import Verif.Lemmas.CylindricalF
import Verif.Lemmas.DblOrder
import Verif.Lemmas.Execute
import Verif.Lemmas.Extrema
import Verif.Lemmas.FpError
import Verif.Lemmas.Grammar
import Verif.Lemmas.GrammarDoc
import Verif.Lemmas.Grid
import Verif.Lemmas.Header
import Verif.Lemmas.InputAccepted
import Verif.Lemmas.InputClauses
import Verif.Lemmas.InputCommands
import Verif.Lemmas.InputComplete
import Verif.Lemmas.InputHeads
import Verif.Lemmas.InputLookups
import Verif.Lemmas.InputMaps
import Verif.Lemmas.InputMeaning
import Verif.Lemmas.InputParams
import Verif.Lemmas.InputPlanes
import Verif.Lemmas.InputRefused
import Verif.Lemmas.InputRefusedMaps
import Verif.Lemmas.InputSound
import Verif.Lemmas.InputTrees
import Verif.Lemmas.InputValues
import Verif.Lemmas.Lexer
import Verif.Lemmas.Libm
import Verif.Lemmas.LinearAlgebra
import Verif.Lemmas.Locations
import Verif.Lemmas.MapFactory
import Verif.Lemmas.MapParameters
import Verif.Lemmas.MapType
import Verif.Lemmas.MuAccuracy
import Verif.Lemmas.Num
import Verif.Lemmas.PhotoImage
import Verif.Lemmas.PhotoRead
import Verif.Lemmas.Planes
import Verif.Lemmas.Program
import Verif.Lemmas.ProgramData
import Verif.Lemmas.ProgramTotal
import Verif.Lemmas.Projection
import Verif.Lemmas.RadiusAccuracy
import Verif.Lemmas.Rounding
import Verif.Lemmas.Scanner
import Verif.Lemmas.ScannerExpr
import Verif.Lemmas.ScannerItems
import Verif.Lemmas.ScannerText
import Verif.Lemmas.Utility
import Verif.Props.Bilinear
import Verif.Props.Calc
import Verif.Props.CommandLine
import Verif.Props.Compositing
import Verif.Props.Conformal
import Verif.Props.CosineImage
import Verif.Props.CylinderPlanes
import Verif.Props.CylindricalF
import Verif.Props.Distortion
import Verif.Props.Execute
import Verif.Props.ExecuteValues
import Verif.Props.Extrema
import Verif.Props.Factories
import Verif.Props.Fits
import Verif.Props.Flattening
import Verif.Props.Grammar
import Verif.Props.Grid
import Verif.Props.GridOrtho
import Verif.Props.GridPlaced
import Verif.Props.GridPolar
import Verif.Props.InputAccepted
import Verif.Props.InputFile
import Verif.Props.InputMeaning
import Verif.Props.InputOptions
import Verif.Props.Intersection
import Verif.Props.LinearAlgebra
import Verif.Props.Locations
import Verif.Props.MapCommand
import Verif.Props.MapFactory
import Verif.Props.MapParameters
import Verif.Props.Mathematics
import Verif.Props.MuImage
import Verif.Props.OblateSpheroid
import Verif.Props.OpticalAxis
import Verif.Props.Orthographic
import Verif.Props.Parser
import Verif.Props.PhotoClauses
import Verif.Props.PhotoImage
import Verif.Props.PhysicalValues
import Verif.Props.Pipeline
import Verif.Props.PolarOrtho
import Verif.Props.Positions
import Verif.Props.Program
import Verif.Props.ProgramData
import Verif.Props.ProgramMosaic
import Verif.Props.ProgramPhotos
import Verif.Props.ProgramTotal
import Verif.Props.Progress
import Verif.Props.Projection
import Verif.Props.RootFind
import Verif.Props.Rotation
import Verif.Props.Scanner
import Verif.Props.Sky
import Verif.Props.SourceValues
import Verif.Props.Sources
import Verif.Props.Surface
import Verif.Props.Utility
import Verif.Props.Validate
import Verif.Props.ViewSettings
import Verif.Props.VirtualImage
import Verif.Props.Visibility
