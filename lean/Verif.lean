import Verif.Model.Accumulate
import Verif.Model.Aggregate
import Verif.Model.Capture
import Verif.Model.Ccd
import Verif.Model.Chunk
import Verif.Model.ChunkFl
import Verif.Model.Cli
import Verif.Model.Clipping
import Verif.Model.Collection
import Verif.Model.Convert
import Verif.Model.Coords
import Verif.Model.Dataset
import Verif.Model.Disk
import Verif.Model.Double
import Verif.Model.DoubleArea
import Verif.Model.DoubleTimes
import Verif.Model.Driver
import Verif.Model.Ellipse
import Verif.Model.EventArea
import Verif.Model.Examples
import Verif.Model.Frames
import Verif.Model.Guide
import Verif.Model.Ids
import Verif.Model.Imagery
import Verif.Model.InMemory
import Verif.Model.Labels
import Verif.Model.LassoGrid
import Verif.Model.LassoStats
import Verif.Model.Lcfa
import Verif.Model.Logging
import Verif.Model.LonLat2D
import Verif.Model.Lut
import Verif.Model.Meta
import Verif.Model.Names
import Verif.Model.OpenOptions
import Verif.Model.Opening
import Verif.Model.PixelFile
import Verif.Model.Plot
import Verif.Model.Regular
import Verif.Model.SampleEnergy
import Verif.Model.SampleEnergyFl
import Verif.Model.Scaling
import Verif.Model.Select
import Verif.Model.Session
import Verif.Model.SessionFl
import Verif.Model.Setup
import Verif.Model.Single
import Verif.Model.Split
import Verif.Model.Store
import Verif.Model.Template
import Verif.Model.Tiles
import Verif.Model.Traversal
import Verif.Model.Values
import Verif.Model.Whole
import Verif.Model.Writing
import Verif.Proofs.Area
import Verif.Proofs.Chunks
import Verif.Proofs.Consistency
import Verif.Proofs.ConvexClip
import Verif.Proofs.ConvexMean
import Verif.Proofs.Dataset
import Verif.Proofs.Dict
import Verif.Proofs.Imagery
import Verif.Proofs.Lookup
import Verif.Proofs.Lut
import Verif.Proofs.Mesh
import Verif.Proofs.Pixel
import Verif.Proofs.Py
import Verif.Proofs.Reduce
import Verif.Proofs.Refine
import Verif.Proofs.RoundBits
import Verif.Proofs.Rounding
import Verif.Proofs.Traversal
import Verif.Props.Accumulate
import Verif.Props.AggAgree
import Verif.Props.Aggregate
import Verif.Props.Agreement
import Verif.Props.AnyBounds
import Verif.Props.AnyDivision
import Verif.Props.Arrange
import Verif.Props.Bounds
import Verif.Props.Call
import Verif.Props.Capture
import Verif.Props.Ccd
import Verif.Props.Centroids
import Verif.Props.Chunk
import Verif.Props.ChunkFl
import Verif.Props.Cli
import Verif.Props.Clipping
import Verif.Props.CoarseFiles
import Verif.Props.CoarseFrames
import Verif.Props.CoarseGrids
import Verif.Props.Collection
import Verif.Props.CommandLine
import Verif.Props.Convert
import Verif.Props.Convex
import Verif.Props.ConvexPixels
import Verif.Props.Coords
import Verif.Props.DarkPixels
import Verif.Props.Dataset
import Verif.Props.Depends
import Verif.Props.Disk
import Verif.Props.Double
import Verif.Props.DoubleArea
import Verif.Props.DoubleTimes
import Verif.Props.Driver
import Verif.Props.Ellipse
import Verif.Props.EventArea
import Verif.Props.Exact
import Verif.Props.Examples
import Verif.Props.Extents
import Verif.Props.Failure
import Verif.Props.FileAgreement
import Verif.Props.FileBounds
import Verif.Props.FileCentroids
import Verif.Props.FileSums
import Verif.Props.Files
import Verif.Props.FineFiles
import Verif.Props.FineGrids
import Verif.Props.FrameCentroids
import Verif.Props.FrameSums
import Verif.Props.Frames
import Verif.Props.FramesAgg
import Verif.Props.FromFiles
import Verif.Props.Gridding
import Verif.Props.Guide
import Verif.Props.Ids
import Verif.Props.Imagery
import Verif.Props.InMemory
import Verif.Props.Labels
import Verif.Props.LassoGrid
import Verif.Props.LassoStats
import Verif.Props.Lcfa
import Verif.Props.LeastShown
import Verif.Props.Lightning
import Verif.Props.Logging
import Verif.Props.LonLat2D
import Verif.Props.LongFiles
import Verif.Props.LongFlashes
import Verif.Props.Lut
import Verif.Props.Meta
import Verif.Props.MoreAny
import Verif.Props.MoreFiles
import Verif.Props.Names
import Verif.Props.Near
import Verif.Props.OnePixel
import Verif.Props.OpenOptions
import Verif.Props.Packed
import Verif.Props.PixelFile
import Verif.Props.Pixels
import Verif.Props.Plot
import Verif.Props.Program
import Verif.Props.Refinement
import Verif.Props.Regular
import Verif.Props.Replay
import Verif.Props.Rounding
import Verif.Props.SampleEnergy
import Verif.Props.SampleEnergyFl
import Verif.Props.Samples
import Verif.Props.SearchFl
import Verif.Props.Select
import Verif.Props.Session
import Verif.Props.SessionFl
import Verif.Props.SessionFlCases
import Verif.Props.Setup
import Verif.Props.Sharp
import Verif.Props.Single
import Verif.Props.SmallTiles
import Verif.Props.Split
import Verif.Props.Steps
import Verif.Props.Stored
import Verif.Props.Template
import Verif.Props.Tiles
import Verif.Props.Tiling
import Verif.Props.Traversal
import Verif.Props.Units
import Verif.Props.Values
import Verif.Props.Whole
import Verif.Props.Writing
import Verif.Py.Array
import Verif.Py.Basic
import Verif.Spec.ConvexClip
import Verif.Spec.Dataset
import Verif.Spec.Geometry
import Verif.Spec.Lcfa
import Verif.Spec.Lut
import Verif.Spec.Rounding
import Verif.Spec.Tree
