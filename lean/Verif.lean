import Verif.Binary64
import Verif.Cases.Analyses
import Verif.Cases.Data
import Verif.Cases.Files
import Verif.Cases.Grids
import Verif.Cases.Plots
import Verif.Cases.Refusals
import Verif.Cases.Relations
import Verif.Cases.Sessions
import Verif.Cases.Tools
import Verif.Core
import Verif.Float
import Verif.Model.Analysis
import Verif.Model.Colour
import Verif.Model.Compare
import Verif.Model.Construct
import Verif.Model.Convert
import Verif.Model.CsvFiles
import Verif.Model.CsvNumber
import Verif.Model.CsvText
import Verif.Model.Data
import Verif.Model.Dispatch
import Verif.Model.Failure
import Verif.Model.Grid
import Verif.Model.GridCalls
import Verif.Model.GridObject
import Verif.Model.Hdf5
import Verif.Model.Info
import Verif.Model.Plot
import Verif.Model.Python
import Verif.Model.Rotation
import Verif.Model.SaveFig
import Verif.Model.Selector
import Verif.Model.Session
import Verif.Model.Tools
import Verif.Model.VecGrid
import Verif.Model.Writes
import Verif.Proofs.Accuracy
import Verif.Proofs.Ahead
import Verif.Proofs.Cart
import Verif.Proofs.Collapse
import Verif.Proofs.ColumnAccuracy
import Verif.Proofs.Cyl
import Verif.Proofs.LookAhead
import Verif.Proofs.Outlier
import Verif.Proofs.Samples
import Verif.Proofs.Session
import Verif.Proofs.Slots
import Verif.Proofs.Store
import Verif.Proofs.Sums
import Verif.Proofs.Variance
import Verif.Props.Accumulate
import Verif.Props.Accuracy
import Verif.Props.Answers
import Verif.Props.AnswersConverted
import Verif.Props.Axes
import Verif.Props.Buffer
import Verif.Props.CartLookup
import Verif.Props.Circulation
import Verif.Props.Clock
import Verif.Props.Collapse
import Verif.Props.Colour
import Verif.Props.ColumnAccuracy
import Verif.Props.ColumnMeans
import Verif.Props.Compare
import Verif.Props.Concentration
import Verif.Props.Consist
import Verif.Props.Construct
import Verif.Props.Csv
import Verif.Props.CsvMark
import Verif.Props.CsvMulti
import Verif.Props.CsvMultiVel
import Verif.Props.CsvNumber
import Verif.Props.CsvReturn
import Verif.Props.CsvSteps
import Verif.Props.CsvText
import Verif.Props.CylBinary64
import Verif.Props.Cylinder
import Verif.Props.Dispatch
import Verif.Props.DispatchCases
import Verif.Props.Dispersion
import Verif.Props.Drift
import Verif.Props.EndToEnd
import Verif.Props.EndToEndCsv
import Verif.Props.Failure
import Verif.Props.Fields
import Verif.Props.FileNames
import Verif.Props.Folder
import Verif.Props.Follow
import Verif.Props.Granular
import Verif.Props.GridCalls
import Verif.Props.GridObject
import Verif.Props.Hdf5
import Verif.Props.Heat
import Verif.Props.HistAccuracy
import Verif.Props.HistPool
import Verif.Props.HistUnits
import Verif.Props.Histogram
import Verif.Props.HomAccuracy
import Verif.Props.Homogeneity
import Verif.Props.Info
import Verif.Props.Interpolate
import Verif.Props.Items
import Verif.Props.Lacey
import Verif.Props.LaceyAccuracy
import Verif.Props.LaceyThreshold
import Verif.Props.LastStep
import Verif.Props.Listing
import Verif.Props.LookupAccuracy
import Verif.Props.Maps
import Verif.Props.Maths
import Verif.Props.Mirror
import Verif.Props.Msd
import Verif.Props.MsdAccuracy
import Verif.Props.MsdCurve
import Verif.Props.Narrow
import Verif.Props.Nothing
import Verif.Props.Occupancy
import Verif.Props.OccupancyAccuracy
import Verif.Props.Options
import Verif.Props.Outlier
import Verif.Props.Parallel
import Verif.Props.Plot
import Verif.Props.PlotArgs
import Verif.Props.Pooling
import Verif.Props.Quiver
import Verif.Props.QuiverColour
import Verif.Props.QuiverNode
import Verif.Props.RadiusPick
import Verif.Props.Reading
import Verif.Props.Recorded
import Verif.Props.RecordedAccuracy
import Verif.Props.Rotation
import Verif.Props.Routes
import Verif.Props.SaveFig
import Verif.Props.Search
import Verif.Props.Selector
import Verif.Props.Session
import Verif.Props.Shape
import Verif.Props.Showcase
import Verif.Props.Slice
import Verif.Props.Sorting
import Verif.Props.Sources
import Verif.Props.Spread
import Verif.Props.Statics
import Verif.Props.StatsText
import Verif.Props.Threshold
import Verif.Props.Totals
import Verif.Props.Trips
import Verif.Props.TwoBoundary
import Verif.Props.UnitPlot
import Verif.Props.Units
import Verif.Props.UsedGrid
import Verif.Props.VecGrid
import Verif.Props.Velocity
import Verif.Props.VelocityFit
import Verif.Props.Vtk
import Verif.Props.Whole
import Verif.Props.Wraps
import Verif.Props.Writes
import Verif.Props.WritesUse
import Verif.RealArith
import Verif.Rounding
import Verif.Spec
import Verif.SpecData
