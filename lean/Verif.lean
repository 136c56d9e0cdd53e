import Verif.Props.Varint
import Verif.Props.Records
import Verif.Props.Fields
import Verif.Props.Messages
import Verif.Props.Envelope
import Verif.Props.VersionRange
import Verif.Props.Chunk
import Verif.Props.SliceWriter
import Verif.Props.Pools
import Verif.Props.TunnelPorts
import Verif.Props.TunnelSessions
import Verif.Props.TunnelControl
import Verif.Props.TunnelBackChan
import Verif.Props.ConnPoolMain
import Verif.Props.PoolRegistry
import Verif.Props.WasmConn
import Verif.Props.WasmMetrics
import Verif.Props.WasmStream
import Verif.Props.WasmPairs
import Verif.Props.AdsCache
import Verif.Props.AdsProto
import Verif.Props.Balance
import Verif.Props.BalanceMain
import Verif.Props.BalancePick
import Verif.Props.FilterChain
import Verif.Props.RouteTarget
import Verif.Props.AdsResultOrder
import Verif.Props.AdsResultLive
import Verif.Props.AdsResultFalse
import Verif.Props.Matchers
import Verif.Props.CertVerify
import Verif.Props.DotnLaws
import Verif.Props.Unified
import Verif.Props.Multi
import Verif.Props.MultiClose
import Verif.Props.MultiFalse
import Verif.Props.Wire
import Verif.Props.WriteAccept
import Verif.Props.ParseSafe
import Verif.Props.Active
import Verif.Props.OutTcp
import Verif.Props.OutHttp
import Verif.Props.ConnPoolFailed
import Verif.Ads.Init
import Verif.Props.AdsProtoMore
import Verif.Props.BalanceLoad
import Verif.Props.BalanceShare
import Verif.Props.SecMore
import Verif.Props.AdsResultMore
import Verif.Props.WasmPlugin
import Verif.Props.WasmPluginLife
import Verif.Props.PluginMgr
import Verif.Sec.Ca
import Verif.Props.Ca
import Verif.Net.TlsWrap
import Verif.Net.Dial
import Verif.Net.ConnState
import Verif.Props.TlsWrap
import Verif.Props.Dial
import Verif.Props.ConnState
import Verif.Kafka.Generator
import Verif.Kafka.LayoutSpec
import Verif.Kafka.GeneratorLemmas
import Verif.Kafka.Gen.Spec
import Verif.Kafka.Gen.Names
import Verif.Props.Generator
import Verif.Props.Shipped
import Verif.Exp.Pii
import Verif.Exp.PiiFilter
import Verif.Props.Pii
import Verif.Props.PiiFilter
import Verif.Exp.NioKey
import Verif.Exp.NioConn
import Verif.Exp.NioOpen
import Verif.Props.NioKey
import Verif.Props.NioRead
import Verif.Props.NioWrite
import Verif.Props.NioOpen
import Verif.Heimdall.Text
import Verif.Heimdall.Auth
import Verif.Heimdall.Token
import Verif.Heimdall.Pod
import Verif.Heimdall.Env
import Verif.Heimdall.Cert
import Verif.Props.HeimdallAuth
import Verif.Props.HeimdallToken
import Verif.Props.HeimdallPod
import Verif.Props.HeimdallEnv
import Verif.Props.HeimdallCert
import Verif.Net.Proxy
import Verif.Net.Track
import Verif.Ads.ListenerProps
import Verif.Bifrost.Endpoints
import Verif.Props.Proxy
import Verif.Props.Track
import Verif.Props.ListenerProps
import Verif.Props.Bifrost
import Verif.Wasm.StatTags
import Verif.Props.StatTags
import Verif.Wasm.Http
import Verif.Props.WasmHttp
import Verif.Wasm.Middleware
import Verif.Props.Middleware
import Verif.Wasm.FlatNode
import Verif.Props.FlatNode
import Verif.Wasm.HostProps
import Verif.Props.HostProps
import Verif.Wasm.Ticker
import Verif.Props.Ticker
import Verif.Wasm.Vm
import Verif.Props.Vm
import Verif.Wasm.Context
import Verif.Props.Context
import Verif.Net.Server
import Verif.Props.Server
import Verif.Sec.CaConfig
import Verif.Props.CaConfig
import Verif.Net.Handler
import Verif.Props.Handler
import Verif.Net.GrpcDial
import Verif.Props.GrpcDial
import Verif.Sec.Citadel
import Verif.Props.Citadel
import Verif.Kafka.Gzip
import Verif.Props.Gzip
import Verif.Exp.Python
import Verif.Props.Python
import Verif.Exp.JavaLog
import Verif.Props.JavaLog
import Verif.Kafka.JsonSpec
import Verif.Kafka.Json
import Verif.Kafka.JsonLemmas
import Verif.Props.Json
import Verif.Props.Equal
import Verif.Bifrost.Ports
import Verif.Wasm.MwHandler
import Verif.Props.BifrostPorts
import Verif.Props.MwHandler
import Verif.Kafka.Section
import Verif.Props.Section
import Verif.Kafka.RecordVia
import Verif.Kafka.GzipSource
import Verif.Props.GzRecord
import Verif.Pool.Timed
import Verif.Pool.Create
import Verif.Props.PoolTimed
import Verif.Props.PoolCreate
import Verif.Props.RouteMore
import Verif.Props.AdsSplit
import Verif.Wasm.Life
import Verif.Props.WasmLife
import Verif.Tunnel.Client
import Verif.Props.TunnelClient
import Verif.Tunnel.Keepalive
import Verif.Props.TunnelKeepalive
import Verif.Tunnel.Message
import Verif.Props.TunnelMessage
import Verif.Props.PiiPatterns
import Verif.Wasm.Headers
import Verif.Props.WasmHeaders
import Verif.Wasm.InstCtx
import Verif.Props.InstCtx
import Verif.Net.HttpServer
import Verif.Props.HttpServer
import Verif.Heimdall.Webhook
import Verif.Props.HeimdallWebhook
import Verif.Sec.DotnClone
import Verif.Props.DotnClone
import Verif.Ads.Stream
import Verif.Props.AdsStream
import Verif.Exp.JavaIo
import Verif.Props.JavaIo
import Verif.Exp.JavaSel
import Verif.Props.JavaSel
import Verif.Exp.Spring
import Verif.Props.Spring
import Verif.Exp.PyReq
import Verif.Props.PyReq
import Verif.Kafka.Runes
import Verif.Props.Runes
import Verif.Ads.Counters
import Verif.Props.Counters
import Verif.Sec.ParseDn
import Verif.Props.ParseDn
import Verif.Exp.Transports
import Verif.Props.Transports
import Verif.Bifrost.ClientCmd
import Verif.Props.ClientCmd
import Verif.Net.Ip
import Verif.Props.Ip
import Verif.Exp.TcpMeta
import Verif.Props.IpRoute
import Verif.Props.TcpMeta
import Verif.Props.TcpMetaCode
import Verif.Props.TcpMetaWho
import Verif.Wasm.HostAbi
import Verif.Props.HostAbi
import Verif.Net.MetricsServer
import Verif.Props.MetricsServer
import Verif.Props.TcpMetaMore
import Verif.Props.IpText
import Verif.Ads.ClientProps
import Verif.Props.ClientProps
import Verif.Props.StatTagsMore
import Verif.Ads.Picks
import Verif.Props.Picks
import Verif.Props.BalanceArith
import Verif.Sec.CertNames
import Verif.Props.CertNames
import Verif.Kafka.LoadSpec
import Verif.Props.LoadSpec
import Verif.Kafka.GenAll
import Verif.Props.GenAll
import Verif.Exp.JavaAddr
import Verif.Props.JavaAddr
import Verif.Sec.CitadelMtls
import Verif.Props.CitadelMtls
import Verif.Bifrost.Flags
import Verif.Props.BifrostFlags
import Verif.Exp.Echo
import Verif.Props.Echo
import Verif.Bifrost.ServerCmd
import Verif.Props.BifrostServer
