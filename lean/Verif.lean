import Verif.Base.C
import Verif.Rational.Model
import Verif.Rational.Lemmas
import Verif.Rational.Props
import Verif.Filter.Model
import Verif.Filter.Lemmas
import Verif.Reorder.Model
import Verif.Reorder.Spec
import Verif.Reorder.Lemmas
import Verif.Reorder.LemmasMulti
import Verif.Reorder.LemmasWeave
import Verif.Reorder.PropsBasic
import Verif.Reorder.PropsEdit
import Verif.Reorder.PropsWeave
import Verif.Audio.Model
import Verif.Audio.Spec
import Verif.Audio.Lemmas
import Verif.Audio.LemmasShuffle
import Verif.Audio.PropsTrim
import Verif.Audio.PropsSplice
import Verif.Audio.PropsLoop
import Verif.Audio.PropsShuffle
import Verif.Audio.PropsLength
import Verif.Base.Heap
import Verif.Base.Sum
import Verif.Map.Model
import Verif.Map.Spec
import Verif.Map.Lemmas
import Verif.Map.LemmasOps
import Verif.Map.LemmasRefine
import Verif.Map.PropsDict
import Verif.Map.PropsRead
import Verif.Cache.Model
import Verif.Cache.NodeModel
import Verif.Cache.Spec
import Verif.Cache.Lemmas
import Verif.Cache.LemmasOps
import Verif.Cache.LemmasStep
import Verif.Cache.LemmasHistory
import Verif.Cache.LemmasNode
import Verif.Cache.Props
import Verif.Cache.PropsNode
import Verif.Memory.Model
import Verif.Memory.Spec
import Verif.Memory.Lemmas
import Verif.Memory.Props
import Verif.Memory.RaceModel
import Verif.Memory.RaceSpec
import Verif.Memory.RaceLemmas
import Verif.Memory.RaceProps
import Verif.Frame.Model
import Verif.Frame.Spec
import Verif.Frame.Lemmas
import Verif.Frame.LemmasWorld
import Verif.Frame.LemmasStep
import Verif.Frame.LemmasProps
import Verif.Frame.Props
import Verif.Format.Model
import Verif.Format.Spec
import Verif.Format.Lemmas
import Verif.Format.Props
import Verif.Format.LemmasName
import Verif.Format.PropsName
import Verif.Format.LemmasReg
import Verif.Format.PropsReg
import Verif.Plugin.Model
import Verif.Plugin.Spec
import Verif.Plugin.Lemmas
import Verif.Plugin.LemmasInvoke
import Verif.Plugin.LemmasCore
import Verif.Plugin.Props
import Verif.Plugin.PropsCore
import Verif.Plugin.LemmasManifest
import Verif.Plugin.PropsManifest
import Verif.Log.Model
import Verif.Log.Spec
import Verif.Log.Lemmas
import Verif.Log.LemmasInv
import Verif.Log.Props
import Verif.Pool.Model
import Verif.Pool.Acc
import Verif.Pool.AccStep
import Verif.Pool.Eff
import Verif.Pool.Eff2
import Verif.Pool.Serial
import Verif.Pool.Spec
import Verif.Pool.Trace
import Verif.Pool.Trace2
import Verif.Pool.Trace3
import Verif.Pool.Trace4
import Verif.Pool.Calls
import Verif.Pool.Progress
import Verif.Pool.Prog
import Verif.Pool.Det
import Verif.Pool.Exec
import Verif.Pool.Props
import Verif.Pool.PropsDet
import Verif.Pool.Alive
import Verif.Pool.Term
import Verif.Pool.Term2
import Verif.Pool.PropsTerm
import Verif.Life.Model
import Verif.Life.Inv
import Verif.Life.Heap
import Verif.Life.Spec
import Verif.Life.Step
import Verif.Life.Trace
import Verif.Life.Term
import Verif.Life.Bound
import Verif.Life.Chain
import Verif.Life.Props
import Verif.Pipe.Model
import Verif.Pipe.Inv
import Verif.Pipe.Step
import Verif.Pipe.Spec
import Verif.Pipe.Finish
import Verif.Pipe.Props
import Verif.Json.Spec
import Verif.Json.Model
import Verif.Json.Lemmas
import Verif.Json.LemmasValue
import Verif.Json.LemmasMap
import Verif.Json.SpecMap
import Verif.Json.LemmasMeans
import Verif.Json.LemmasFile
import Verif.Json.Props
import Verif.Wave.Model
import Verif.Wave.Spec
import Verif.Wave.Lemmas
import Verif.Wave.LemmasFile
import Verif.Wave.LemmasHeader
import Verif.Wave.Props
import Verif.Video.Model
import Verif.Video.Spec
import Verif.Video.Lemmas
import Verif.Video.LemmasY4m
import Verif.Video.LemmasTime
import Verif.Video.Props
import Verif.Expr.Basic
import Verif.Expr.Parse
import Verif.Expr.Code
import Verif.Expr.LemmasCode
import Verif.Expr.LemmasRun
import Verif.Expr.Spec
import Verif.Expr.LemmasParse
import Verif.Expr.Opt
import Verif.Expr.Rational
import Verif.Expr.Props
import Verif.Expr.Real
import Verif.Expr.LemmasLocal
import Verif.Expr.LemmasStrength
import Verif.Expr.LemmasNumbered
import Verif.Expr.Frag
import Verif.Expr.FragNumbered
import Verif.Expr.LemmasAlg
import Verif.Expr.PropsOpt
import Verif.Pix.Mem
import Verif.Pix.Model
import Verif.Pix.Spec
import Verif.Pix.LemmasMem
import Verif.Pix.LemmasFrame
import Verif.Pix.LemmasClip
import Verif.Pix.LemmasCrop
import Verif.Pix.LemmasBorder
import Verif.Pix.LemmasFlip
import Verif.Pix.LemmasField
import Verif.Pix.LemmasTurn
import Verif.Pix.LemmasStack
import Verif.Pix.LemmasCreate
import Verif.Pix.Example
import Verif.Pix.PropsCrop
import Verif.Pix.PropsFlip
import Verif.Pix.PropsStack
import Verif.Pix.LemmasShuffle
import Verif.Pix.PropsShuffle
import Verif.Pix.PropsField
import Verif.FProps.Model
import Verif.FProps.Spec
import Verif.FProps.Lemmas
import Verif.FProps.PropsSet
import Verif.FProps.LemmasGlob
import Verif.FProps.PropsRemove
import Verif.FProps.PropsCopy
import Verif.FProps.ModelClip
import Verif.FProps.PropsClip
import Verif.Point.Mem
import Verif.Point.Spec
import Verif.Point.Lemmas
import Verif.Point.LemmasClip
import Verif.Point.Example
import Verif.Merge.Kernel
import Verif.Merge.Model
import Verif.Merge.Spec
import Verif.Merge.LemmasKernel
import Verif.Merge.LemmasFrame
import Verif.Merge.PropsMerge
import Verif.Merge.PropsPremul
import Verif.Merge.PropsMasked
import Verif.Merge.PropsDiff
import Verif.Merge.PropsFull
import Verif.Lut.Model
import Verif.Lut.Spec
import Verif.Lut.Lemmas
import Verif.Lut.LemmasFrame
import Verif.Lut.PropsLut
import Verif.Lut.PropsLut2
import Verif.Pixel.Model
import Verif.Pixel.Spec
import Verif.Pixel.Lemmas
import Verif.Pixel.Props
import Verif.Generic.Model
import Verif.Generic.Spec
import Verif.Generic.Lemmas
import Verif.Generic.LemmasOp
import Verif.Generic.Lemmas3
import Verif.Generic.LemmasMedian
import Verif.Generic.Props
import Verif.Generic.PropsMore
import Verif.Generic.ConvModel
import Verif.Generic.ConvSpec
import Verif.Generic.ConvLemmas
import Verif.Generic.ConvCell
import Verif.Generic.ConvArgs
import Verif.Generic.ConvProps
import Verif.Levels.Model
import Verif.Levels.Spec
import Verif.Levels.Lemmas
import Verif.Levels.Props
import Verif.Average.Model
import Verif.Average.Spec
import Verif.Average.Lemmas
import Verif.Average.Props
import Verif.Stats.Model
import Verif.Stats.Spec
import Verif.Stats.Lemmas
import Verif.Stats.Props
import Verif.Blur.Model
import Verif.Blur.Spec
import Verif.Blur.LemmasDiv
import Verif.Blur.LemmasRow
import Verif.Blur.LemmasPlane
import Verif.Blur.LemmasFrame
import Verif.Blur.LemmasGraph
import Verif.Blur.LemmasThree
import Verif.Blur.Props
import Verif.Half.Model
import Verif.Half.Spec
import Verif.Half.Lemmas
import Verif.Half.LemmasConv
import Verif.Half.Props
import Verif.Work.Model
import Verif.Work.Spec
import Verif.Work.Basic
import Verif.Work.Inv
import Verif.Work.View
import Verif.Work.Step
import Verif.Work.Step2
import Verif.Work.Step3
import Verif.Work.Live
import Verif.Work.Bound
import Verif.Work.Exec
import Verif.Work.Props
import Verif.Work.PropsEx
import Verif.Gain.Model
import Verif.Gain.Spec
import Verif.Gain.Lemmas
import Verif.Gain.LemmasLoop
import Verif.Gain.PropsGain
import Verif.Gain.LemmasMix
import Verif.Gain.PropsMix
import Verif.Gain.PropsMixC
import Verif.Text.Model
import Verif.Text.Spec
import Verif.Text.LemmasLines
import Verif.Text.LemmasDraw
import Verif.Text.LemmasPage
import Verif.Text.Props
import Verif.Text.PropsC
import Verif.Blank.Model
import Verif.Blank.Spec
import Verif.Blank.Lemmas
import Verif.Blank.LemmasCreate
import Verif.Blank.Props
import Verif.Blank.PropsFps
import Verif.Eval.Model
import Verif.Eval.Spec
import Verif.Eval.Lemmas
import Verif.Eval.Props
import Verif.Resample.Model
import Verif.Resample.Spec
import Verif.Resample.Lemmas
import Verif.Resample.LemmasFrame
import Verif.Resample.LemmasPipe
import Verif.Resample.LemmasBank
import Verif.Resample.LemmasArgs
import Verif.Resample.PropsFormat
import Verif.Resample.PropsRate
import Verif.Resample.PropsMix
import Verif.Resample.PropsMix2
import Verif.Pem.Model
import Verif.Pem.Spec
import Verif.Pem.Lemmas
import Verif.Pem.Props
import Verif.Fourcc.Model
import Verif.Fourcc.Spec
import Verif.Fourcc.Lemmas
import Verif.Fourcc.Props
import Verif.ExprFilter.Model
import Verif.ExprFilter.Spec
import Verif.ExprFilter.Lemmas
import Verif.ExprFilter.Props
import Verif.ExprFilter.Jit
import Verif.ExprFilter.JitProps
