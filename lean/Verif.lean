import Verif.Props.BoolCoder
import Verif.Props.Tree
import Verif.Props.Header
import Verif.Props.MotionVector
import Verif.Props.Tokens
import Verif.Props.Macroblock
import Verif.Props.ModeBits
import Verif.Props.CoefficientBits
import Verif.Props.HeaderBits
import Verif.Props.FrameBytes
import Verif.Props.Arithmetic
import Verif.Props.WholeFrame
import Verif.Props.ReadFrame
import Verif.Props.SameFrame
import Verif.Props.Emitted
import Verif.Props.Container
import Verif.Props.Frame
import Verif.Props.Decoder
import Verif.Props.DecoderExamples
import Verif.Props.StateUpdates
import Verif.Props.Reassembly
import Verif.Props.Pacer
import Verif.Props.ReceiverExamples
import Verif.Props.SystemExamples
import Verif.Props.Ivf
import Verif.Props.Grid
import Verif.Props.Inter
import Verif.Props.Intra
import Verif.Props.Quantizer
import Verif.Props.Transform
import Verif.Props.LoopFilter
import Verif.Model.Render
import Verif.Spec.Render
import Verif.Proof.Render
import Verif.Proof.RenderFrame
import Verif.Proof.RenderFilter
import Verif.Props.Render
import Verif.Props.Choices
import Verif.Props.Trellis
import Verif.Props.Search
import Verif.Model.Encode
import Verif.Model.Session
import Verif.Proof.Encode
import Verif.Proof.Length
import Verif.Props.Encode
import Verif.Props.Session
import Verif.Props.SecondPass
import Verif.Props.Length
import Verif.Model.Player
import Verif.Spec.Player
import Verif.Props.Player
import Verif.Model.Poller
import Verif.Props.Poller
import Verif.Model.Pool
import Verif.Spec.Pool
import Verif.Props.Pool
import Verif.Model.Terminate
import Verif.Spec.Terminate
import Verif.Props.Terminate
import Verif.Model.Y4m
import Verif.Proof.Y4m
import Verif.Proof.Y4mHeader
import Verif.Props.Y4m
import Verif.Model.Conceal
import Verif.Proof.Parametric
import Verif.Proof.Conceal
import Verif.Proof.ZeroData
import Verif.Props.Conceal
import Verif.Spec.Broadcast
import Verif.Proof.Beginning
import Verif.Props.Beginning
import Verif.Proof.Broadcast
import Verif.Props.Broadcast
import Verif.Proof.Delivery
import Verif.Props.Delivery
import Verif.Props.ZeroTail
import Verif.Spec.Forget
import Verif.Props.Forget
import Verif.Model.Reencode
import Verif.Proof.Reencode
import Verif.Spec.Reencode
import Verif.Props.Reencode
import Verif.Proof.Fidelity
import Verif.Spec.Fidelity
import Verif.Proof.FidelityFrame
import Verif.Proof.FilterReach
import Verif.Props.Fidelity
import Verif.Spec.Faithful
import Verif.Props.Faithful
import Verif.Model.Convert
import Verif.Spec.Convert
import Verif.Props.Convert
import Verif.Model.Bundle
import Verif.Spec.Bundle
import Verif.Props.Bundle
import Verif.Model.Camera
import Verif.Spec.Camera
import Verif.Proof.Camera
import Verif.Props.Camera
import Verif.Model.Webcam
import Verif.Props.Webcam
import Verif.Props.Viewer
import Verif.Model.Costs
import Verif.Spec.Price
import Verif.Proof.Costs
import Verif.Proof.CostTokens
import Verif.Proof.CostBlocks
import Verif.Proof.CostTrellis
import Verif.Props.Costs
import Verif.Model.ZeroOut
import Verif.Spec.ZeroOut
import Verif.Proof.ZeroOut
import Verif.Props.ZeroOut
import Verif.Model.IvfTools
import Verif.Props.IvfTools
import Verif.Model.Sse
import Verif.Model.SseBlocks
import Verif.Model.SseTransform
import Verif.Model.SseInter
import Verif.Model.SseIntra
import Verif.Model.SseFilter
import Verif.Model.SseRender
import Verif.Model.SseEncode
import Verif.Spec.SseRender
import Verif.Spec.Vectors
import Verif.Proof.Sse
import Verif.Proof.SseBlocks
import Verif.Proof.SseTransform
import Verif.Proof.SseInter
import Verif.Proof.SseIntra
import Verif.Proof.SseFilter
import Verif.Proof.SseFilterTurn
import Verif.Proof.SseFilterPlanes
import Verif.Proof.SseFilterVertical
import Verif.Props.SseBlocks
import Verif.Props.SseTransform
import Verif.Props.SseInter
import Verif.Props.SseIntra
import Verif.Props.SseFilter
import Verif.Proof.SseRender
import Verif.Proof.SseEncode
import Verif.Props.SseRender
import Verif.Props.Estimate
import Verif.Props.CompareStates
import Verif.Props.Optional
import Verif.Props.Descriptor
import Verif.Props.SenderThreads
import Verif.Props.Averages
import Verif.Props.Recycled
import Verif.Props.Counts
import Verif.Props.Mapped
import Verif.Props.Address
import Verif.Props.Memory
import Verif.Props.SafeCopy
import Verif.Props.Forged
import Verif.Props.Ssim
import Verif.Props.Dissect
import Verif.Props.Resume
import Verif.Props.SelfTest
import Verif.Props.ResumeBundle
import Verif.Props.SegmentDrift
import Verif.Props.StateFile
