import Verif.Num.Cmp
import Verif.Num.Error
import Verif.Num.F64
import Verif.Num.F64Lemmas
import Verif.Num.KernelDecide
import Verif.Num.Ops
import Verif.Num.Real
import Verif.Num.Round
import Verif.Model.App
import Verif.Model.AssetJson
import Verif.Model.Decode
import Verif.Model.DefaultDownloads
import Verif.Model.Download
import Verif.Model.Encode
import Verif.Model.Fault
import Verif.Model.Fixed
import Verif.Model.Import
import Verif.Model.Json
import Verif.Model.Kurbo
import Verif.Model.Overlay
import Verif.Model.Player
import Verif.Model.PolyStarJson
import Verif.Model.Render
import Verif.Model.Scene
import Verif.Model.SceneList
import Verif.Model.Schema
import Verif.Model.Stats
import Verif.Model.Styles
import Verif.Model.TestScenes
import Verif.Model.TigerJson
import Verif.Model.Touch
import Verif.Model.Value
import Verif.Model.Vello
import Verif.Model.Viewer
import Verif.Spec.Accuracy
import Verif.Spec.App
import Verif.Spec.Attributes
import Verif.Spec.Calls
import Verif.Spec.Chain
import Verif.Spec.CommonParent
import Verif.Spec.Continuity
import Verif.Spec.Coordinates
import Verif.Spec.Covered
import Verif.Spec.Cut
import Verif.Spec.Dimming
import Verif.Spec.DocDraws
import Verif.Spec.DocPaths
import Verif.Spec.DocShows
import Verif.Spec.DocStars
import Verif.Spec.DoublePrecision
import Verif.Spec.Download
import Verif.Spec.Easing
import Verif.Spec.EasingAccuracy
import Verif.Spec.Elsewhere
import Verif.Spec.Ended
import Verif.Spec.Equivariance
import Verif.Spec.ExampleDoc
import Verif.Spec.ExampleJson
import Verif.Spec.Examples
import Verif.Spec.Fade
import Verif.Spec.Figures
import Verif.Spec.Finish
import Verif.Spec.Forget
import Verif.Spec.Format
import Verif.Spec.FormatOf
import Verif.Spec.Gradients
import Verif.Spec.HandleForms
import Verif.Spec.Hidden
import Verif.Spec.Ignored
import Verif.Spec.Import
import Verif.Spec.ImportShapes
import Verif.Spec.Inserted
import Verif.Spec.Json
import Verif.Spec.JsonSteps
import Verif.Spec.Keyframes
import Verif.Spec.LumaMatte
import Verif.Spec.MatteNames
import Verif.Spec.MoveLayers
import Verif.Spec.Names
import Verif.Spec.NormalMatte
import Verif.Spec.Overlay
import Verif.Spec.Overlooked
import Verif.Spec.Paint
import Verif.Spec.PaintNear
import Verif.Spec.PathMorph
import Verif.Spec.Paths
import Verif.Spec.Picture
import Verif.Spec.Playback
import Verif.Spec.PlayedAs
import Verif.Spec.Player
import Verif.Spec.Precompose
import Verif.Spec.Regroup
import Verif.Spec.Remove
import Verif.Spec.Render
import Verif.Spec.Reorder
import Verif.Spec.Retime
import Verif.Spec.RetimeDoc
import Verif.Spec.Scene
import Verif.Spec.SceneList
import Verif.Spec.Shapes
import Verif.Spec.Sources
import Verif.Spec.Spelled
import Verif.Spec.Split
import Verif.Spec.StarAccuracy
import Verif.Spec.Stars
import Verif.Spec.Stats
import Verif.Spec.Steady
import Verif.Spec.Still
import Verif.Spec.Styles
import Verif.Spec.Tame
import Verif.Spec.Timeline
import Verif.Spec.Touch
import Verif.Spec.Transforms
import Verif.Spec.TrimCurve
import Verif.Spec.TrimPath
import Verif.Spec.Unsupported
import Verif.Spec.UnusedHandles
import Verif.Spec.ValuesOnly
import Verif.Spec.Viewer
import Verif.Proofs.Accuracy
import Verif.Proofs.AgreeImport
import Verif.Proofs.AgreeSymm
import Verif.Proofs.Ancestors
import Verif.Proofs.App
import Verif.Proofs.ArcLength
import Verif.Proofs.Batch
import Verif.Proofs.Calls
import Verif.Proofs.Chain
import Verif.Proofs.ChainCalls
import Verif.Proofs.ChainDoc
import Verif.Proofs.CommonParent
import Verif.Proofs.Continuity
import Verif.Proofs.Coordinates
import Verif.Proofs.CoordinatesDoc
import Verif.Proofs.Covered
import Verif.Proofs.Cut
import Verif.Proofs.Dimming
import Verif.Proofs.DocConverse
import Verif.Proofs.DocDraws
import Verif.Proofs.DocLayers
import Verif.Proofs.DocShows
import Verif.Proofs.DoublePrecision
import Verif.Proofs.Download
import Verif.Proofs.Easing
import Verif.Proofs.EasingAccuracy
import Verif.Proofs.Elsewhere
import Verif.Proofs.ElsewhereDoc
import Verif.Proofs.Ended
import Verif.Proofs.Equivariance
import Verif.Proofs.Fade
import Verif.Proofs.FadePicture
import Verif.Proofs.Finish
import Verif.Proofs.Fold
import Verif.Proofs.Forget
import Verif.Proofs.Format
import Verif.Proofs.GradientPlayback
import Verif.Proofs.Gradients
import Verif.Proofs.HandleForms
import Verif.Proofs.Hidden
import Verif.Proofs.Ignored
import Verif.Proofs.Import
import Verif.Proofs.ImportFails
import Verif.Proofs.ImportShapes
import Verif.Proofs.ImportSites
import Verif.Proofs.ImportValues
import Verif.Proofs.ImportedGeometry
import Verif.Proofs.Inserted
import Verif.Proofs.InsertedAll
import Verif.Proofs.InsertedDoc
import Verif.Proofs.InsertedGradients
import Verif.Proofs.InsertedPaths
import Verif.Proofs.JsonKeys
import Verif.Proofs.JsonSteps
import Verif.Proofs.LayerSets
import Verif.Proofs.Layers
import Verif.Proofs.LumaMatte
import Verif.Proofs.MatteNames
import Verif.Proofs.ModerateValues
import Verif.Proofs.MoveLayers
import Verif.Proofs.Names
import Verif.Proofs.NanTween
import Verif.Proofs.Nest
import Verif.Proofs.NoPanic
import Verif.Proofs.NormalMatte
import Verif.Proofs.Outlines
import Verif.Proofs.Overlay
import Verif.Proofs.Overlooked
import Verif.Proofs.Paint
import Verif.Proofs.PaintNear
import Verif.Proofs.ParsedPaths
import Verif.Proofs.PathMorph
import Verif.Proofs.Paths
import Verif.Proofs.Picture
import Verif.Proofs.Playback
import Verif.Proofs.PlayedAs
import Verif.Proofs.PlayedAs64
import Verif.Proofs.Player
import Verif.Proofs.PlayerFrame
import Verif.Proofs.Precompose
import Verif.Proofs.Regroup
import Verif.Proofs.Remove
import Verif.Proofs.RenderLayer
import Verif.Proofs.Reorder
import Verif.Proofs.Retime
import Verif.Proofs.RetimeDoc
import Verif.Proofs.RoundTrip
import Verif.Proofs.RoundTripDoc
import Verif.Proofs.Same
import Verif.Proofs.SameAt
import Verif.Proofs.SameDoc
import Verif.Proofs.SceneList
import Verif.Proofs.Search
import Verif.Proofs.ShapeTree
import Verif.Proofs.Sources
import Verif.Proofs.SourcesMeant
import Verif.Proofs.Spelled
import Verif.Proofs.Split
import Verif.Proofs.StarAccuracy
import Verif.Proofs.Stats
import Verif.Proofs.Steady
import Verif.Proofs.Still
import Verif.Proofs.Styles
import Verif.Proofs.Tame
import Verif.Proofs.TameDraws
import Verif.Proofs.TameGradients
import Verif.Proofs.Termination
import Verif.Proofs.TestScenes
import Verif.Proofs.Timeline
import Verif.Proofs.Touch
import Verif.Proofs.TransformFormula
import Verif.Proofs.Trim
import Verif.Proofs.TrimCurve
import Verif.Proofs.TrimPath
import Verif.Proofs.UnusedHandles
import Verif.Proofs.ValuesOnly
import Verif.Proofs.Viewer
import Verif.Proofs.Weight
import Verif.Props.Accuracy
import Verif.Props.App
import Verif.Props.Attributes
import Verif.Props.Balance
import Verif.Props.Calls
import Verif.Props.Chain
import Verif.Props.CommonParent
import Verif.Props.Compositing
import Verif.Props.Continuity
import Verif.Props.Coordinates
import Verif.Props.Covered
import Verif.Props.Cut
import Verif.Props.Dimming
import Verif.Props.DocDraws
import Verif.Props.DocShows
import Verif.Props.DoublePrecision
import Verif.Props.Download
import Verif.Props.Easing
import Verif.Props.EasingAccuracy
import Verif.Props.Elsewhere
import Verif.Props.Ended
import Verif.Props.Equivariance
import Verif.Props.Fade
import Verif.Props.Figures
import Verif.Props.Finish
import Verif.Props.Folding
import Verif.Props.Format
import Verif.Props.GradientPlayback
import Verif.Props.Gradients
import Verif.Props.HandleForms
import Verif.Props.Ignored
import Verif.Props.ImportFails
import Verif.Props.ImportLayers
import Verif.Props.ImportShapes
import Verif.Props.ImportValues
import Verif.Props.ImportedRender
import Verif.Props.Inserted
import Verif.Props.JsonSteps
import Verif.Props.Keyframes
import Verif.Props.KeyframesIEEE
import Verif.Props.LayerAttributes
import Verif.Props.LayerOrder
import Verif.Props.MaskOrder
import Verif.Props.MatteNames
import Verif.Props.ModifierValues
import Verif.Props.Modifiers
import Verif.Props.MoveLayers
import Verif.Props.Names
import Verif.Props.NoPanic
import Verif.Props.NormalMatte
import Verif.Props.Overlay
import Verif.Props.Overlooked
import Verif.Props.Paint
import Verif.Props.PaintNear
import Verif.Props.Parse
import Verif.Props.PathMorph
import Verif.Props.Paths
import Verif.Props.Picture
import Verif.Props.Placement
import Verif.Props.Playback
import Verif.Props.PlayedAs
import Verif.Props.PlayedAs64
import Verif.Props.Player
import Verif.Props.Precompose
import Verif.Props.Regroup
import Verif.Props.Remove
import Verif.Props.Reorder
import Verif.Props.Rests
import Verif.Props.Retime
import Verif.Props.RetimeDoc
import Verif.Props.SceneList
import Verif.Props.ShapeTree
import Verif.Props.Sources
import Verif.Props.Spelled
import Verif.Props.Split
import Verif.Props.StarAccuracy
import Verif.Props.Stars
import Verif.Props.Stats
import Verif.Props.Steady
import Verif.Props.Styles
import Verif.Props.Tame
import Verif.Props.Termination
import Verif.Props.TestScenes
import Verif.Props.Timeline
import Verif.Props.Touch
import Verif.Props.TransformFormula
import Verif.Props.Transforms
import Verif.Props.Trim
import Verif.Props.TrimCurve
import Verif.Props.TrimPath
import Verif.Props.UnusedHandles
import Verif.Props.ValuesOnly
import Verif.Props.Vello
import Verif.Props.Viewer
