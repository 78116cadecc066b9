import Verif.Core.Bytes
import Verif.Dis.HeaderLemmas
import Verif.Dis.Env
import Verif.Dis.EntityInfoLemmas
import Verif.Dis.Warfare
import Verif.Dis.Logistics
import Verif.Dis.SimanR
import Verif.Dis.Emission
import Verif.Dis.Iff
import Verif.Dis.Radio
import Verif.Dis.EntityMgmt
import Verif.Dis.Lengths
import Verif.Dis.Lossless
import Verif.Dis.WfDec
import Verif.Props.Header
import Verif.Props.Records
import Verif.Props.Bodies
import Verif.Props.BodyBugs
import Verif.Props.Packets
import Verif.Props.Enums
import Verif.Props.Text
import Verif.Core.Float
import Verif.Cdis.Bits
import Verif.Cdis.VarInt
import Verif.Cdis.Records
import Verif.Cdis.Records2
import Verif.Cdis.Siman
import Verif.Cdis.Warfare
import Verif.Cdis.Radio
import Verif.Cdis.Emission
import Verif.Cdis.Iff
import Verif.Cdis.Pdu
import Verif.Props.CdisInts
import Verif.Props.CdisRecords
import Verif.Core.Many
import Verif.Props.CdisLengths
import Verif.Props.CdisPdu
import Verif.Core.Ieee
import Verif.Core.IeeeLemmas
import Verif.Codec.Records
import Verif.Codec.Bodies
import Verif.Codec.State
import Verif.Codec.Emission
import Verif.Codec.Pdu
import Verif.Core.IeeeMore
import Verif.Codec.History
import Verif.Codec.Window
import Verif.Props.CodecEncode
import Verif.Props.CodecDecode
import Verif.Props.CodecStateless
import Verif.Props.CodecPipeline
import Verif.Props.CodecEmission
import Verif.Props.CodecIsolation
import Verif.Codec.Quant
import Verif.Props.Quantise
import Verif.Props.Quantise2
import Verif.Props.Quantise3
import Verif.Gateway.Codec
import Verif.Gateway.Stats
import Verif.Gateway.Config
import Verif.Props.GatewayEncode
import Verif.Props.GatewayDecode
import Verif.Props.GatewayStats
import Verif.Props.GatewayConfig
import Verif.Gateway.System
import Verif.Props.GatewaySystem
import Verif.Props.GatewayLive
import Verif.Props.GatewayOverload
import Verif.Props.GatewayWhole
import Verif.Core.Krfl
import Verif.Props.Wire
import Verif.Props.GatewayWitness
import Verif.Dis.Scan
import Verif.Props.Framing
import Verif.Core.Takes
import Verif.Dis.ReadsRecords
import Verif.Props.Relay
import Verif.Props.Classes
import Verif.Props.Reading
import Verif.Props.CodecLossless
import Verif.Props.CodecTime
import Verif.Props.CodecScalars
import Verif.Props.GatewaySite
import Verif.Props.Through8
import Verif.Props.Through9
import Verif.Props.CdisFlags
import Verif.Props.CdisUncompressed
import Verif.Props.Interaction
import Verif.Props.Marking
import Verif.Props.CdisEmission
import Verif.Dis.Geodesy
import Verif.Dis.GeodesyApprox
import Verif.Dis.GeodesyNewton
import Verif.Dis.GeodesyPlanar
import Verif.Props.Geodesy
import Verif.Props.Position
import Verif.Props.Interior
import Verif.Props.Altitude
import Verif.Props.Corners
import Verif.Props.Lossy
import Verif.Props.Lossy2
import Verif.Props.Builders
import Verif.Props.Wire2
import Verif.Props.Panics
import Verif.Dis.Utf8
import Verif.Dis.Write
import Verif.Props.Writing
import Verif.Props.GatewayCrash
import Verif.Cdis.Sizes
import Verif.Dis.Weights
import Verif.Props.GatewaySizes
import Verif.Props.CdisMarking
import Verif.Props.MarkingText
import Verif.Codec.Again
import Verif.Codec.Times
import Verif.Props.Hops
import Verif.Props.Drift
import Verif.Dis.Weights2
import Verif.Cdis.Sizes2
import Verif.Props.Compression
import Verif.Props.Rate
import Verif.Props.Memory
import Verif.Props.Restart
import Verif.Props.Tracking
import Verif.Props.Unique
import Verif.Props.Settings
import Verif.Gateway.Socket
import Verif.Props.GatewaySockets
import Verif.Props.Names
import Verif.Conformance.Dis
import Verif.Conformance.Bodies
import Verif.Conformance.Cdis
import Verif.Conformance.Codec
import Verif.Props.Version
import Verif.Props.Exercises
import Verif.Props.Senders
import Verif.Props.Datagrams
import Verif.Props.RateGateway
import Verif.Props.Times
import Verif.Cdis.Gives
import Verif.Props.Reread
import Verif.Props.Onward
import Verif.Props.OnwardDatagram
