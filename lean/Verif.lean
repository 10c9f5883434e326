import Verif.Spec.Bits
import Verif.Spec.Jpeg
import Verif.Proof.Bits
import Verif.Proof.Jpeg
import Verif.Model.Integration1
import Verif.Proof.Pixel
import Verif.Props.Pixel
import Verif.Proof.Pipe
import Verif.Proof.History
import Verif.Proof.Int1
import Verif.Props.Pipeline
import Verif.Model.Fifo
import Verif.Proof.Fifo
import Verif.Model.Converter
import Verif.Model.Integration2
import Verif.Model.VBits
import Verif.Model.Integration3
import Verif.Spec.Words
import Verif.Model.Core
import Verif.Proof.Converter
import Verif.Proof.VBits
import Verif.Proof.Int2
import Verif.Proof.Int3
import Verif.Proof.Core
import Verif.Props.Core
import Verif.Proof.Live
import Verif.Props.Liveness
import Verif.Spec.Bytes
import Verif.Model.Fix0xFF
import Verif.Model.Fix0xFF2
import Verif.Proof.Stuff
import Verif.Props.Stuff
import Verif.Model.Markers
import Verif.Model.ForceEnd
import Verif.Proof.Markers
import Verif.Props.Markers
import Verif.Model.Beta
import Verif.Proof.Beta
import Verif.Proof.Fresh
import Verif.Props.Beta
import Verif.Props.Micro
import Verif.Props.BetaLive
import Verif.Model.B64B32_2
import Verif.Props.Unpack
import Verif.Model.B64B32
import Verif.Props.Unpack64
import Verif.Model.B16B64
import Verif.Props.Pack64
import Verif.Model.B16B40
import Verif.Props.Pack40
import Verif.Props.Frames
import Verif.Props.AnyFrames
import Verif.Model.AxiStream
import Verif.Props.Stream
import Verif.Spec.Bus
import Verif.Spec.CoreRegs
import Verif.Spec.DmaRegs
import Verif.Model.LiteBus
import Verif.Model.CoreAxiLite
import Verif.Model.DmaAxiLite
import Verif.Model.AxiBridge
import Verif.Proof.Lite
import Verif.Props.Lite
import Verif.Props.LiteLive
import Verif.Props.DmaLite
import Verif.Props.Bridge
import Verif.Model.AddressGenerator
import Verif.Model.Delayer
import Verif.Model.Reverser
import Verif.Model.Constraints
import Verif.Model.Debug
import Verif.Spec.Driver
import Verif.Model.Driver
import Verif.Model.AxiHp
import Verif.Props.Small
import Verif.Props.Driver
import Verif.Props.Reader
import Verif.Props.Writer
import Verif.Props.Stream32
import Verif.Props.Forced
import Verif.Props.FullAxi
import Verif.Props.Lvds
import Verif.Spec.Dht
import Verif.Model.Lj92
import Verif.Proof.Lj92
import Verif.Proof.Lj92Huff
import Verif.Proof.Lj92Scan
import Verif.Proof.Lj92Open
import Verif.Props.Decoder
import Verif.Props.HpLive
import Verif.Props.FullAxiStatus
import Verif.Props.DmaLive
import Verif.Model.Config
import Verif.Proof.Dyn
import Verif.Props.Config
import Verif.Spec.Raw12
import Verif.Model.HostTool
import Verif.Props.Host
import Verif.Props.HostCheck
import Verif.Spec.Pred6
import Verif.Model.Lj92Enc
import Verif.Model.Lj92Pred6
import Verif.Proof.Lj92Wr
import Verif.Proof.Lj92Body
import Verif.Proof.Lj92Tree
import Verif.Proof.Lj92Merge
import Verif.Proof.Lj92Adjust
import Verif.Proof.Lj92Table
import Verif.Proof.Lj92Create
import Verif.Proof.Lj92Encode
import Verif.Proof.Lj92Pred6
import Verif.Props.Encoder
import Verif.Props.EncoderLimit
import Verif.Props.Budget
import Verif.Proof.Speed
import Verif.Props.Speed
import Verif.Spec.Predictors
import Verif.Proof.Lj92Preds
import Verif.Props.Predictors
import Verif.Props.MicroFrame
import Verif.Props.MicroLive
import Verif.Props.MicroCfg
import Verif.Netlist.Attr
import Verif.Netlist.Basic
import Verif.Netlist.Beta
import Verif.Netlist.Int1
import Verif.Netlist.Int2
import Verif.Netlist.Int3
import Verif.Netlist.Back
import Verif.Netlist.Top
import Verif.Props.Netlist
import Verif.Netlist.BetaAxis
import Verif.Netlist.BetaFifo
import Verif.Netlist.BetaLvds
import Verif.Props.NetStream
import Verif.Props.AnyFramesNet
import Verif.Props.NetLvds
import Verif.Props.NetLvdsAll
import Verif.Props.LvdsLive
import Verif.Props.LvdsFrames
import Verif.Proof.PackFrames
import Verif.Proof.Receiver40
import Verif.Spec.Receiver40
import Verif.Proof.Drain
import Verif.Props.Drain
import Verif.Proof.Waits
import Verif.Props.Waits
import Verif.Proof.BackEnd
import Verif.Props.LightFrame
import Verif.Props.NetLight
import Verif.Netlist.BetaFull
import Verif.Netlist.FullParts
import Verif.Netlist.FullParts2
import Verif.Props.FullAxiErr
import Verif.Props.NetFull
import Verif.Props.FullLive
import Verif.Model.MicroAxis
import Verif.Netlist.MicroAxis
import Verif.Netlist.MLite
import Verif.Netlist.MInt1
import Verif.Netlist.MInt2
import Verif.Netlist.MInt3
import Verif.Netlist.MBack
import Verif.Netlist.MTop
import Verif.Props.NetMicro
import Verif.Model.Stream64
import Verif.Netlist.I3Axis
import Verif.Netlist.I3Int1
import Verif.Netlist.I3Int2
import Verif.Netlist.I3Int3
import Verif.Props.NetInt3
import Verif.Model.Lj92Mem
import Verif.Spec.Segments
import Verif.Proof.Lj92Mem
import Verif.Proof.Lj92MemAny
import Verif.Proof.Lj92MemLegal
import Verif.Proof.Lj92MemHead
import Verif.Props.DecoderMem
import Verif.Netlist.Alone.AxiLite
import Verif.Netlist.Alone.Delayer
import Verif.Netlist.Alone.Reverser
import Verif.Netlist.Alone.DebugModule
import Verif.Netlist.Alone.AddressGenerator
import Verif.Netlist.Alone.B64B32_2
import Verif.Netlist.Alone.B16B40
import Verif.Netlist.Alone.CoreAxiLite
import Verif.Netlist.Alone.AxihpFifo
import Verif.Netlist.Alone.AxihpReader
import Verif.Netlist.Alone.AxihpWriter
import Verif.Netlist.Alone.Small
import Verif.Netlist.Alone.CoreLite
import Verif.Netlist.Alone.Burst
import Verif.Props.NetSmall
import Verif.Props.NetBurst
import Verif.Model.HostMain
import Verif.Spec.HostRun
import Verif.Proof.HostLogic
import Verif.Proof.HostInside
import Verif.Proof.HostFlow
import Verif.Proof.HostExam
import Verif.Proof.HostLimits
import Verif.Props.HostMain
import Verif.Props.HostLimits
import Verif.Model.Lj92EncMem
import Verif.Proof.Lj92EncMem
import Verif.Proof.Lj92EncSafe
import Verif.Proof.Lj92EncScan
import Verif.Props.EncoderMem
import Verif.Netlist.Alone.Blocks
import Verif.Netlist.Alone.Blocks2
import Verif.Props.NetBlocks
import Verif.Netlist.I3
import Verif.Netlist.I2
import Verif.Netlist.I3Top
import Verif.Model.CoreTop
import Verif.Props.NetCore3
import Verif.Proof.Int2Run
import Verif.Props.Pieces
import Verif.Props.NetPieces
import Verif.Props.NetMicroCore
import Verif.Props.NetPipe
import Verif.Check.Traces
import Verif.Props.Size
import Verif.Props.LiteAxi
import Verif.Props.AnyFramesFifo
import Verif.Props.Segments
import Verif.Props.SegmentsMem
import Verif.Props.CutFile
import Verif.Props.LvdsForced
import Verif.Props.FullFrames
import Verif.Props.SlowHuff
import Verif.Props.ToFile
import Verif.Props.StreamToFile
import Verif.Props.AnyToFile
import Verif.Props.SlowAny
