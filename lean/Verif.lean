import Verif.Props.BitStream
import Verif.Props.Util
import Verif.Props.Headers
import Verif.Props.SeqHeader
import Verif.Props.Obu
import Verif.Props.Parser
import Verif.Props.Symbol
import Verif.Props.Cdfs
import Verif.Props.Tiles
import Verif.Props.FrameStreaming
import Verif.Props.FrameSize
import Verif.Props.Segmentation
import Verif.Props.Filters
import Verif.Props.FrameModes
import Verif.Props.FilmGrain
import Verif.Props.FrameHeader
import Verif.Props.HeaderSemantics
import Verif.Props.KeyFrame
import Verif.Props.TileGroup
import Verif.Props.Partition
import Verif.Props.Transform
import Verif.Props.QuantMatrix
import Verif.Props.Reconstruct
import Verif.Props.Rd
import Verif.Props.Scan
import Verif.Props.CdfLayout
import Verif.Props.Coeffs
import Verif.Props.LoopFilter
import Verif.Props.CdefDir
import Verif.Props.Cdef
import Verif.Props.CdefFrame
import Verif.Props.CdefIdx
import Verif.Props.CoeffCtx
import Verif.Props.TransformPlan
import Verif.Props.RefFrames
import Verif.Props.Upscale
import Verif.Props.LoopRestoration
import Verif.Props.ReadLr
import Verif.Props.Output
import Verif.Props.TxSize
import Verif.Props.Residual
import Verif.Props.TxBlock
import Verif.Props.ModeInfo
import Verif.Props.BlockRec
import Verif.Props.IntraInfo
import Verif.Props.Mv
import Verif.Props.MvStack
import Verif.Props.InterInfo
import Verif.Props.InterCand
import Verif.Props.MvScan
import Verif.Props.MvPairs
import Verif.Props.Intra
import Verif.Props.IntraBlock
import Verif.Props.IntraDir
import Verif.Props.Palette
import Verif.Props.TxFrame
import Verif.Props.IntraTight
import Verif.Props.InterScale
import Verif.Props.Inter
import Verif.Props.InterBlock
import Verif.Props.InterCalls
import Verif.Props.Warp
import Verif.Props.Wedge
import Verif.Props.Cover
import Verif.Props.InterTight
import Verif.Model.Block
import Verif.Props.Block
import Verif.Props.BlockComplete
import Verif.Props.TileStart
import Verif.Model.Decoder
import Verif.Lemmas.Stream
import Verif.Props.Decoder
import Verif.Lemmas.Movable
import Verif.Lemmas.FrameMovable
import Verif.Lemmas.SeqMovable
import Verif.Props.StreamComplete
import Verif.Props.BlockSound
import Verif.Props.StreamSound
import Verif.Props.Marks
import Verif.Lemmas.StreamIf
import Verif.Props.StreamPixels
import Verif.Props.GroupEnd
import Verif.Props.TileDeltas
import Verif.Props.Remember
import Verif.Props.Wiring
import Verif.Props.RandomAccess
import Verif.Props.SplitMass
import Verif.Props.InEffect
import Verif.Props.LoneGroup
import Verif.Props.StreamFails
import Verif.Props.Endless
import Verif.Props.Fuel
import Verif.Props.Overflow
import Verif.Props.PaletteMap
import Verif.Props.PaletteColors
import Verif.Props.DistWeights
import Verif.Spec.TileCoding
import Verif.Props.TileCoding
import Verif.Props.KeyHeader
import Verif.Props.HeaderStream
import Verif.Props.SequenceAv1
import Verif.Props.SequenceAv1Stream
import Verif.Props.SequenceAv1Frames
