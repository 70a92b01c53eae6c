import Verif.Model.Out
import Verif.Model.Vec
import Verif.Model.Bbox
import Verif.Model.Face
import Verif.Props.Vec
import Verif.Props.Bbox
import Verif.Props.Face
import Verif.Lemmas.Convex
import Verif.Lemmas.Fan
import Verif.Props.Convex
import Verif.Props.Mesh
import Verif.Props.Mesh3ds
import Verif.Model.Text
import Verif.Lemmas.Text
import Verif.Lemmas.Dec
import Verif.Lemmas.Round
import Verif.Props.Num
import Verif.Lemmas.Off
import Verif.Props.Off
import Verif.Lemmas.ObjSeen
import Verif.Lemmas.ObjMap
import Verif.Lemmas.Obj
import Verif.Lemmas.ObjCanon
import Verif.Props.Obj
import Verif.Model.Fs
import Verif.Model.Handlers
import Verif.Model.T3ds
import Verif.Model.SceneTree
import Verif.Model.Scene
import Verif.Spec.Handlers
import Verif.Props.Handlers
import Verif.Props.Scene
import Verif.Props.T3ds
import Verif.Model.Poly
import Verif.Model.FacePrint
import Verif.Spec.Poly
import Verif.Lemmas.Poly
import Verif.Props.FacePrint
import Verif.Model.BrickPrint
import Verif.Spec.Brick
import Verif.Lemmas.Brick
import Verif.Lemmas.BrickAdd
import Verif.Lemmas.RectCgal
import Verif.Props.BrickPrint
import Verif.Model.Raster
import Verif.Spec.Raster
import Verif.Lemmas.Raster
import Verif.Props.Raster
import Verif.Props.RasterAccess
import Verif.Props.RasterMore
import Verif.Model.Surf
import Verif.Spec.Surf
import Verif.Lemmas.Surf
import Verif.Props.Surf
import Verif.Lemmas.SurfJoin
import Verif.Lemmas.SurfArea
import Verif.Lemmas.SurfDemo
import Verif.Props.Prune
import Verif.Model.Node
import Verif.Spec.Node
import Verif.Props.Node
import Verif.Props.NodeBox
import Verif.Model.Measure
import Verif.Props.Extrem
import Verif.Props.Measure
import Verif.Props.Centroid
import Verif.Model.Tools
import Verif.Props.Adjacency
import Verif.Props.Project
import Verif.Props.SaveAll
import Verif.Props.Gis
import Verif.Props.Cli
import Verif.Model.Convert
import Verif.Spec.Convert
import Verif.Props.Convert
import Verif.Model.Edges
import Verif.Props.Edges
import Verif.Spec.Value
import Verif.Model.Value
import Verif.Props.Value
import Verif.Model.Alias
import Verif.Props.Alias
import Verif.Model.Query
import Verif.Props.Query
import Verif.Model.RasterText
import Verif.Props.RasterText
import Verif.Model.Camera
import Verif.Props.Camera
import Verif.Props.Grammar
import Verif.Props.OffExact
import Verif.Props.NumMore
import Verif.Props.OffMore
import Verif.Props.ObjExact
import Verif.Model.ObjHandler
import Verif.Props.FileWrite
import Verif.Props.Extension
import Verif.Props.FaceMore
import Verif.Props.Scene3ds
import Verif.Props.SceneObj
import Verif.Props.SaveMore
import Verif.Props.CliRun
import Verif.Model.Union
import Verif.Spec.Union
import Verif.Props.Union
import Verif.Model.Float
import Verif.Lemmas.Float
import Verif.Model.RasterDbl
import Verif.Lemmas.RasterDbl
import Verif.Props.RasterDbl
import Verif.Model.VecDbl
import Verif.Lemmas.VecDbl
import Verif.Props.VecDbl
import Verif.Props.NormalDbl
import Verif.Model.ConvexDbl
import Verif.Lemmas.Approx
import Verif.Props.ConvexDbl
import Verif.Model.Mesh3dsDbl
import Verif.Lemmas.Float32
import Verif.Props.Mesh3dsDbl
import Verif.Lemmas.Cut
import Verif.Props.Cut
import Verif.Model.MeshPrint
import Verif.Props.MeshPrint
import Verif.Model.Crash
import Verif.Props.Crash
import Verif.Lemmas.ObjCut
import Verif.Props.ObjCut
import Verif.Props.BrickAsk
import Verif.Model.Parallel
import Verif.Props.Parallel
import Verif.Props.BrickExact
import Verif.Props.BrickHeight
import Verif.Props.MeshBox
import Verif.Props.BrickOrder
import Verif.Props.NodeHistory
import Verif.Props.RasterMean
import Verif.Props.Rerun
import Verif.Props.NodePrint
import Verif.Props.RasterShift
import Verif.Props.DirRead
import Verif.Props.Indexes
import Verif.Props.Shift
import Verif.Props.Lift
import Verif.Model.NodePrint
import Verif.Spec.Overhead
import Verif.Props.Overhead
import Verif.Props.EndToEnd
import Verif.Props.Convey
import Verif.Props.Order
import Verif.Props.Picture
import Verif.Props.Visible
import Verif.Lemmas.Docopt
import Verif.Lemmas.Argv
import Verif.Props.CommandLine
import Verif.Props.CommandFormat
import Verif.Props.Complete
import Verif.Model.Console
import Verif.Props.Console
import Verif.Props.Usage
import Verif.Props.Done
import Verif.Props.Again
import Verif.Props.Turning
import Verif.Props.Messages
import Verif.Props.Locality
import Verif.Props.Batch
import Verif.Props.Repeat
import Verif.Model.Process
import Verif.Props.Process
import Verif.Props.Together
import Verif.Props.Resume
import Verif.Props.CityDirectory
import Verif.Props.NumDbl
import Verif.Props.ConvexOnce
import Verif.Props.PruneExact
import Verif.Props.SaveSame
import Verif.Props.EdgesExact
import Verif.Props.GrammarSame
import Verif.Model.FootText
import Verif.Props.FootText
import Verif.Props.Converted
import Verif.Props.CrashMixed
import Verif.Props.Scene3dsExact
import Verif.Props.OffNames
import Verif.Props.ObjNames
import Verif.Props.FoundInObj
import Verif.Model.Memory
import Verif.Props.Memory
import Verif.Props.Leaks
import Verif.Props.Owned
import Verif.Props.Owner
import Verif.Props.Ownership
import Verif.Props.GridTriangles
import Verif.Props.RobustNormal
import Verif.Props.RobustTriangles
import Verif.Props.SceneWords
import Verif.Props.ReadAgain
import Verif.Props.Cases
import Verif.Conform.Shadow
import Verif.Conform.Files
import Verif.Conform.Formats
import Verif.Conform.Projection
import Verif.Conform.Run
import Verif.Conform.Normals
import Verif.Props.PowerLoss
import Verif.Props.Exact
import Verif.Props.What
import Verif.Props.WhatObj
