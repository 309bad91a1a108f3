import Verif.Basic
import Verif.Gsm.Tlv
import Verif.Llc.Crc
import Verif.Spec.Crc
import Verif.Llc.CrcLemmas
import Verif.Llc.Pdu
import Verif.Llc.PduLemmas
import Verif.Props.LlcCrc
import Verif.Props.LlcPdu
import Verif.Llc.Xid
import Verif.Spec.LlcXid
import Verif.Props.LlcXid
import Verif.Llc.Entity
import Verif.Spec.LlcUi
import Verif.Llc.EntityLemmas
import Verif.Props.LlcEntity
import Verif.Props.LlcMgmt
import Verif.Props.LlcXidExchange
import Verif.Props.LlcSafe
import Verif.Bits
import Verif.Rlc.Window
import Verif.Rlc.WindowDl
import Verif.Rlc.Dec
import Verif.Rlc.TbfDl
import Verif.Spec.RlcDl
import Verif.Rlc.WindowDlLemmas
import Verif.Props.RlcDlWindow
import Verif.Rlc.Enc
import Verif.Spec.RlcBlock
import Verif.Rlc.EncLemmas
import Verif.Rlc.BlockLemmas
import Verif.Props.RlcSegment
import Verif.Props.RlcParse
import Verif.Props.RlcDelivery
import Verif.Rlc.WindowUl
import Verif.Spec.RlcUl
import Verif.Rlc.WindowUlLemmas
import Verif.Rlc.WindowUlInv
import Verif.Props.RlcUlWindow
import Verif.Rlc.Codel
import Verif.Spec.Codel
import Verif.Props.RlcCodel
import Verif.Rlc.LlcQueue
import Verif.Spec.LlcQueue
import Verif.Rlc.LlcQueueLemmas
import Verif.Props.RlcLlcQueue
import Verif.Rlc.Countdown
import Verif.Spec.Countdown
import Verif.Rlc.CountdownLemmas
import Verif.Props.RlcCountdown
import Verif.Rlc.FrameNumber
import Verif.Spec.FrameNumber
import Verif.Props.RlcFrameNumber
import Verif.Rlc.CodingScheme
import Verif.Spec.CodingScheme
import Verif.Props.RlcCodingScheme
import Verif.Rlc.OctetCount
import Verif.Props.RlcOctetCount
import Verif.Rlc.PollTree
import Verif.Spec.Poll
import Verif.Props.RlcPoll
import Verif.Rlc.UlTbf
import Verif.Spec.UlTbf
import Verif.Rlc.UlTbfLemmas
import Verif.Props.RlcUlTbf
import Verif.Sndcp.Segment
import Verif.Spec.Sndcp
import Verif.Sndcp.SegmentLemmas
import Verif.Sndcp.ReassembleLemmas
import Verif.Sndcp.ReassembleInv
import Verif.Props.SndcpSegment
import Verif.Sndcp.Xid
import Verif.Spec.SndcpXid
import Verif.Sndcp.XidNsapi
import Verif.Sndcp.XidLemmas
import Verif.Props.SndcpXid
import Verif.Sndcp.Comp
import Verif.Sndcp.CompLemmas
import Verif.Props.SndcpComp
import Verif.Sndcp.Entity
import Verif.Spec.SndcpEntity
import Verif.Sndcp.EntityLemmas
import Verif.Props.SndcpEntity
import Verif.Common.Qos
import Verif.Spec.Qos
import Verif.Props.Qos
import Verif.Props.QosProfile
import Verif.Sm.Pdu
import Verif.Spec.Sm
import Verif.Props.SmPdu
import Verif.Sm.Entity
import Verif.Sm.EntityLemmas
import Verif.Props.SmEntity
import Verif.Props.SmData
import Verif.Gmm.Timer
import Verif.Gmm.Pdu
import Verif.Gmm.Entity
import Verif.Gmm.EntityLemmas
import Verif.Spec.Gmm
import Verif.Spec.GmmMsg
import Verif.Props.GmmTimer
import Verif.Props.GmmProc
import Verif.Props.GmmLink
import Verif.Props.GmmAnswer
import Verif.Props.GmmPdu
import Verif.Props.GmmSig
import Verif.Gmm.Closed
import Verif.Gmm.Stack
import Verif.Rlc.Directory
import Verif.Props.GmmTimers
import Verif.Props.GmmDetach
import Verif.Props.RlcDirectory
import Verif.Props.GmmStack
import Verif.Props.GmmTlli
import Verif.Props.GmmAuth
import Verif.Props.GmmRelease
import Verif.Csn1.Dec
import Verif.Csn1.Tables
import Verif.Csn1.Check
import Verif.Csn1.CheckLemmas
import Verif.Csn1.Sound
import Verif.Csn1.Msg
import Verif.Csn1.Frame
import Verif.Spec.RlcControl
import Verif.Csn1.MsgLemmas
import Verif.Csn1.Step
import Verif.Csn1.Si13
import Verif.Csn1.Si13Lemmas
import Verif.Props.CsnConfine
import Verif.Props.CsnSi13
import Verif.Csn1.Fwd
import Verif.Spec.Ccch
import Verif.Rlc.Ccch
import Verif.Rlc.CcchLemmas
import Verif.Csn1.IaLemmas
import Verif.Props.RlcCcch
import Verif.Props.RlcImmAss
import Verif.Rlc.Ctx
import Verif.Rlc.CtxLemmas
import Verif.Rlc.CtxStep
import Verif.Spec.Sched
import Verif.Rlc.SchedLemmas
import Verif.Rlc.CtxSafe
import Verif.Props.RlcSched
import Verif.Rlc.CtxMoves
import Verif.Spec.CtxMsg
import Verif.Rlc.CtxEvents
import Verif.Rlc.CtxKeeps
import Verif.Props.RlcCtx
import Verif.Csn1.Enc
import Verif.Spec.CsnLayout
import Verif.Spec.CsnMsg
import Verif.Spec.CsnSent
import Verif.Csn1.LayLemmas
import Verif.Csn1.LayDec
import Verif.Csn1.LayEnc
import Verif.Csn1.LayMsg
import Verif.Csn1.Sent
import Verif.Csn1.SentLemmas
import Verif.Props.CsnEnc
import Verif.Csn1.Recv
import Verif.Csn1.RecvRules
import Verif.Csn1.RecvLemmas
import Verif.Csn1.RecvMsgs
import Verif.Csn1.LayTop
import Verif.Csn1.RecvRead
import Verif.Spec.CsnRecv
import Verif.Props.CsnRecv
import Verif.Props.CsnTaken
import Verif.Sndcp.V42bis
import Verif.Sndcp.V42Bits
import Verif.Sndcp.V42Dict
import Verif.Sndcp.V42Send
import Verif.Sndcp.V42Sim
import Verif.Sndcp.V42Enc
import Verif.Sndcp.V42Dec
import Verif.Sndcp.V42Safe
import Verif.Props.SndcpV42
import Verif.Sndcp.Slhc
import Verif.Sndcp.SlhcHdr
import Verif.Sndcp.SlhcRing
import Verif.Sndcp.SlhcSim
import Verif.Sndcp.SlhcStep
import Verif.Sndcp.SlhcSafe
import Verif.Spec.IpPacket
import Verif.Sndcp.SlhcSpec
import Verif.Props.SndcpSlhc
import Verif.Spec.Egprs
import Verif.Rlc.Egprs
import Verif.Rlc.EgprsBits
import Verif.Rlc.EgprsTx
import Verif.Props.RlcEgprs
import Verif.Prim.Own
import Verif.Spec.PrimOwn
import Verif.Props.PrimOwn
import Verif.Spec.EndToEnd
import Verif.Props.EndToEnd
import Verif.Rlc.UlTx
import Verif.Spec.UlLink
import Verif.Rlc.UlLinkInv
import Verif.Props.UlLink
import Verif.Props.EndToEndLossy
import Verif.Rlc.UlSender
import Verif.Spec.UlSession
import Verif.Props.UlSession
import Verif.Rlc.DlRx
import Verif.Spec.DlLink
import Verif.Rlc.DlLinkInv
import Verif.Props.DlLink
import Verif.Props.DlLinkPackets
import Verif.Spec.Si13
import Verif.Spec.GmmNet
import Verif.Props.GmmNet
import Verif.Props.GmmRefuse
import Verif.Gmm.Layer
import Verif.Props.GmmLayer
import Verif.Props.GmmEnable
import Verif.Gmm.OverLlc
import Verif.Props.GmmOverLlc
import Verif.Sm.OverGmm
import Verif.Props.GmmOwn
import Verif.Props.SmOverGmm
import Verif.Props.SmReach
import Verif.Sm.Phone
import Verif.Props.Phone
import Verif.Props.PhoneEnd
import Verif.Sm.Device
import Verif.Props.Device
import Verif.Props.SndcpPackets
import Verif.Rlc.Wire
import Verif.Spec.RlcAir
import Verif.Props.RlcWire
import Verif.Props.RlcWireUl
import Verif.Rlc.DataApi
import Verif.Csn1.ChReq
import Verif.Spec.ChReq
import Verif.Props.ChReq
import Verif.Csn1.EncDl
import Verif.Spec.DlHeader
import Verif.Csn1.LayDl
import Verif.Props.CsnEncDl
import Verif.Spec.RlcData
import Verif.Props.RlcData
import Verif.Spec.LlcTable9
import Verif.Spec.LlcXidUse
import Verif.Props.LlcXidUse
import Verif.Props.LlcGiven
import Verif.Spec.DlLife
import Verif.Rlc.DlLife
import Verif.Props.DlLife
import Verif.Spec.RaCap
import Verif.Csn1.RaCap
import Verif.Csn1.RaLay
import Verif.Csn1.RaDec
import Verif.Csn1.RaEnc
import Verif.Csn1.RaShort
import Verif.Props.RaCap
import Verif.Props.RlcCodelStart
import Verif.Llc.Ciph
import Verif.Props.LlcCiph
import Verif.Props.SmMany
import Verif.Props.SmTold
import Verif.Props.GmmUnknownIe
import Verif.Props.SmUnknownIe
import Verif.Props.GmmStale
import Verif.Props.RlcEgprsFill
import Verif.Props.GmmReady
import Verif.Props.RlcWindowShow
import Verif.Props.GmmRefuseKeep
import Verif.Props.GmmRejected
import Verif.Props.GmmNetDetach
import Verif.Props.SmNetDeact
import Verif.Props.GmmSilentEnd
