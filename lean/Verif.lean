import Verif.Model.Args
import Verif.Model.Astm
import Verif.Model.Bootstrap
import Verif.Model.Brdf2Brdf
import Verif.Model.Brdf2Data
import Verif.Model.Brdf2DataMain
import Verif.Model.Brdf2Gnuplot
import Verif.Model.Brdf2GnuplotMain
import Verif.Model.CppExport
import Verif.Model.Data2Brdf
import Verif.Model.Data2BrdfRational
import Verif.Model.Data2Data
import Verif.Model.Data2DataMain
import Verif.Model.Data2MomentsMain
import Verif.Model.Data2Stats
import Verif.Model.Distance
import Verif.Model.Fit2Stat
import Verif.Model.Fit2StatMain
import Verif.Model.Function
import Verif.Model.FunctionFile
import Verif.Model.FunctionTree
import Verif.Model.GeomChecked
import Verif.Model.Geometry
import Verif.Model.Grid
import Verif.Model.Lobes
import Verif.Model.Merl
import Verif.Model.Metrics
import Verif.Model.Moments
import Verif.Model.NonlinearFit
import Verif.Model.NonlinearFitRun
import Verif.Model.OrthoBasis
import Verif.Model.Output
import Verif.Model.ParamNames
import Verif.Model.PluginObjects
import Verif.Model.Plugins
import Verif.Model.PythonArgs
import Verif.Model.PythonData
import Verif.Model.PythonFile
import Verif.Model.PythonFit
import Verif.Model.PythonFunction
import Verif.Model.Quadprog
import Verif.Model.QuadprogParallel
import Verif.Model.Rational
import Verif.Model.RationalBasis
import Verif.Model.RationalFit
import Verif.Model.RationalStream
import Verif.Model.Rbf
import Verif.Model.RetroYoo
import Verif.Model.Segment
import Verif.Model.ShaderExport
import Verif.Model.Slice
import Verif.Model.Storage
import Verif.Model.TextLoad
import Verif.Model.TextSave
import Verif.Model.Timer
import Verif.Model.Utia
import Verif.Model.XmlCmd
import Verif.Proofs.ArgsWeight
import Verif.Proofs.Bootstrap
import Verif.Proofs.Composition
import Verif.Proofs.CppParse
import Verif.Proofs.CppRun
import Verif.Proofs.Decimal
import Verif.Proofs.FittedRational
import Verif.Proofs.FunctionFile
import Verif.Proofs.FunctionFileLobes
import Verif.Proofs.FunctionSame
import Verif.Proofs.Half
import Verif.Proofs.IdealSolvers
import Verif.Proofs.Interrupted
import Verif.Proofs.Iso
import Verif.Proofs.Lobe
import Verif.Proofs.NonlinearFitRun
import Verif.Proofs.PythonFunction
import Verif.Proofs.Riemann
import Verif.Proofs.Round
import Verif.Proofs.SMap
import Verif.Proofs.ShaderBalance
import Verif.Proofs.ShaderBeckmann
import Verif.Proofs.ShaderBodies
import Verif.Proofs.ShaderDeclares
import Verif.Proofs.ShaderEval
import Verif.Proofs.ShaderLex
import Verif.Proofs.ShaderLink
import Verif.Proofs.ShaderObjects
import Verif.Proofs.ShaderParse
import Verif.Proofs.ShaderProgram
import Verif.Proofs.ShaderPrograms
import Verif.Proofs.ShaderSingle
import Verif.Proofs.ShaderSum
import Verif.Proofs.ShaderTree
import Verif.Proofs.ShaderValues
import Verif.Proofs.Slots
import Verif.Proofs.Spectral
import Verif.Proofs.Trig
import Verif.Proofs.Unit
import Verif.Props.ArgsAccess
import Verif.Props.ArgsCmd
import Verif.Props.Astm
import Verif.Props.AstmFile
import Verif.Props.Binary
import Verif.Props.Bootstrap
import Verif.Props.BootstrapExamples
import Verif.Props.BootstrapFile
import Verif.Props.BootstrapForget
import Verif.Props.BootstrapStart
import Verif.Props.Bounds
import Verif.Props.Brdf2Brdf
import Verif.Props.Brdf2BrdfFlow
import Verif.Props.Brdf2Data
import Verif.Props.Brdf2DataMain
import Verif.Props.Brdf2Gnuplot
import Verif.Props.Brdf2GnuplotFile
import Verif.Props.Brdf2GnuplotMain
import Verif.Props.ChannelDomain
import Verif.Props.CommandLine
import Verif.Props.CppExport
import Verif.Props.CppLimits
import Verif.Props.Data2Brdf
import Verif.Props.Data2BrdfExample
import Verif.Props.Data2BrdfFile
import Verif.Props.Data2BrdfQuadprog
import Verif.Props.Data2BrdfRational
import Verif.Props.Data2BrdfRationalExample
import Verif.Props.Data2BrdfSizes
import Verif.Props.Data2Data
import Verif.Props.Data2DataExample
import Verif.Props.Data2DataMain
import Verif.Props.Data2DataRun
import Verif.Props.Data2DataSplat
import Verif.Props.Data2MomentsExample
import Verif.Props.Data2MomentsFile
import Verif.Props.Data2MomentsMain
import Verif.Props.Data2MomentsMerl
import Verif.Props.Data2Stats
import Verif.Props.Data2StatsMerl
import Verif.Props.Data2StatsRun
import Verif.Props.Distance
import Verif.Props.Fit2Stat
import Verif.Props.Fit2StatFile
import Verif.Props.Fit2StatLimits
import Verif.Props.Fit2StatMain
import Verif.Props.FitExport
import Verif.Props.FitExportExample
import Verif.Props.FitPlot
import Verif.Props.FitPlotExample
import Verif.Props.FitStat
import Verif.Props.FitStatExample
import Verif.Props.FitterOptions
import Verif.Props.Fresnel
import Verif.Props.Function
import Verif.Props.FunctionFile
import Verif.Props.FunctionFileExamples
import Verif.Props.FunctionFileFlow
import Verif.Props.FunctionFileLimits
import Verif.Props.FunctionFileLoad
import Verif.Props.FunctionJac
import Verif.Props.FunctionTree
import Verif.Props.FunctionTreeText
import Verif.Props.GenerationsData
import Verif.Props.GenerationsExamples
import Verif.Props.GenerationsFunction
import Verif.Props.GenerationsLimits
import Verif.Props.GenerationsRational
import Verif.Props.GeomConvert
import Verif.Props.GeomDefined
import Verif.Props.GeomIsotropic
import Verif.Props.GeomIsotropic2
import Verif.Props.GeomLossy
import Verif.Props.GeomRetro
import Verif.Props.GeomRotation
import Verif.Props.GeomRoundTrip
import Verif.Props.GeomUnit
import Verif.Props.Grid
import Verif.Props.Header
import Verif.Props.Interrupted
import Verif.Props.InterruptedExample
import Verif.Props.InterruptedFunction
import Verif.Props.InterruptedLobes
import Verif.Props.InterruptedMerl
import Verif.Props.InterruptedRational
import Verif.Props.Isotropy
import Verif.Props.IsotropyLimits
import Verif.Props.JoinedFiles
import Verif.Props.JoinedText
import Verif.Props.JoinedUse
import Verif.Props.LobeComposition
import Verif.Props.LobeExamples
import Verif.Props.LobesJac
import Verif.Props.LobesLawful
import Verif.Props.Merl
import Verif.Props.MerlStats
import Verif.Props.Metrics
import Verif.Props.Microfacet
import Verif.Props.Moments
import Verif.Props.MomentsIntegral
import Verif.Props.MomentsLimits
import Verif.Props.NonNegative
import Verif.Props.NonNegativeLimits
import Verif.Props.NonlinearFit
import Verif.Props.NonlinearFitCeres
import Verif.Props.NonlinearFitCeresRun
import Verif.Props.NonlinearFitEigen
import Verif.Props.NonlinearFitLobes
import Verif.Props.NonlinearFitRun
import Verif.Props.NonlinearFitRunLimits
import Verif.Props.NonlinearFitSolvers
import Verif.Props.OrthoBasis
import Verif.Props.OutputConvert
import Verif.Props.ParamNames
import Verif.Props.PlotLines
import Verif.Props.PlotLinesExample
import Verif.Props.Plugins
import Verif.Props.PolarPlot
import Verif.Props.PythonArgs
import Verif.Props.PythonData
import Verif.Props.PythonFile
import Verif.Props.PythonFit
import Verif.Props.PythonFitCeres
import Verif.Props.PythonFitLimits
import Verif.Props.PythonFunction
import Verif.Props.PythonVec
import Verif.Props.Quadprog
import Verif.Props.QuadprogFit
import Verif.Props.QuadprogParallel
import Verif.Props.Rational
import Verif.Props.RationalBasis
import Verif.Props.RationalFile
import Verif.Props.RationalFit
import Verif.Props.RationalFitExamples
import Verif.Props.RationalFitLeast
import Verif.Props.Rbf
import Verif.Props.Reciprocity
import Verif.Props.ReciprocityLimits
import Verif.Props.ReciprocityTree
import Verif.Props.RetroYoo
import Verif.Props.Samplewise
import Verif.Props.SamplewiseExample
import Verif.Props.SamplewiseExport
import Verif.Props.Segment
import Verif.Props.SgdFile
import Verif.Props.Shader
import Verif.Props.ShaderBeckmann
import Verif.Props.ShaderExamples
import Verif.Props.ShaderLimits
import Verif.Props.ShaderMoment
import Verif.Props.ShaderNever
import Verif.Props.ShaderWrong
import Verif.Props.ShaderWrongExamples
import Verif.Props.Slice
import Verif.Props.SliceLimits
import Verif.Props.Smith
import Verif.Props.StatsJoined
import Verif.Props.StatsJoinedExample
import Verif.Props.StatsOrder
import Verif.Props.StatsOrderExample
import Verif.Props.TextLoad
import Verif.Props.TextSave
import Verif.Props.Timer
import Verif.Props.Utia
import Verif.Props.XmlCmd
import Verif.Props.XmlExample
import Verif.Props.XmlOptions
import Verif.Spec.Astm
import Verif.Spec.Bootstrap
import Verif.Spec.Brdf2Data
import Verif.Spec.Brdf2DataMain
import Verif.Spec.Brdf2Gnuplot
import Verif.Spec.Brdf2GnuplotMain
import Verif.Spec.CommandLine
import Verif.Spec.Cpp
import Verif.Spec.Data2Brdf
import Verif.Spec.Data2DataMain
import Verif.Spec.Data2MomentsMain
import Verif.Spec.Data2Stats
import Verif.Spec.Decimal
import Verif.Spec.Distance
import Verif.Spec.Fit2Stat
import Verif.Spec.Fit2StatMain
import Verif.Spec.FitterOptions
import Verif.Spec.Function
import Verif.Spec.FunctionFile
import Verif.Spec.FunctionTree
import Verif.Spec.Generations
import Verif.Spec.Geometry
import Verif.Spec.Glsl
import Verif.Spec.Header
import Verif.Spec.Isotropy
import Verif.Spec.Joined
import Verif.Spec.Metrics
import Verif.Spec.Moments
import Verif.Spec.NonNegative
import Verif.Spec.NonlinearFit
import Verif.Spec.NonlinearFitRun
import Verif.Spec.OrthoBasis
import Verif.Spec.PlotLines
import Verif.Spec.PythonArgs
import Verif.Spec.PythonFit
import Verif.Spec.PythonFunction
import Verif.Spec.Quadprog
import Verif.Spec.Rational
import Verif.Spec.RationalFit
import Verif.Spec.Reciprocity
import Verif.Spec.Samplewise
import Verif.Spec.Shader
import Verif.Spec.Slice
import Verif.Spec.TextFile
import Verif.Spec.XmlCmd
