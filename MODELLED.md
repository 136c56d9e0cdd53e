# Source files and the modules that model them
Generated by tools/modtab.py from the citations in the model (every definition cites the lines it models; a file being listed does not mean that every line of it is modelled: what is simplified is said at the definitions).
The generated message structs (components/kafka-protocol-go/pkg/protocol/messages) are modelled by Kafka/Schema and the tables Kafka/Gen.

| source | modules under lean/Verif |
|---|---|
| components/bifrost/cmd/bifrost/main.go | Bifrost/Flags |
| components/bifrost/pkg/commands/client.go | Bifrost/ClientCmd, Bifrost/Flags |
| components/bifrost/pkg/commands/server.go | Bifrost/Flags, Bifrost/Ports, Bifrost/ServerCmd |
| components/bifrost/pkg/controllers/configmap.go | Bifrost/Endpoints, Bifrost/Ports |
| components/bifrost/pkg/controllers/endpoints.go | Bifrost/Endpoints |
| components/echo-server/main.go | Exp/Echo |
| components/heimdall/pkg/cert/certificate.go | Heimdall/Cert |
| components/heimdall/pkg/cert/renewer.go | Heimdall/Cert |
| components/heimdall/pkg/cert/webhook_certifier.go | Heimdall/Cert, Heimdall/Webhook |
| components/heimdall/pkg/controllers/workloadgroup.go | Heimdall/Token, Heimdall/Webhook |
| components/heimdall/pkg/k8sutil/meta.go | Heimdall/Pod |
| components/heimdall/pkg/predicates/labelselector.go | Heimdall/Webhook |
| components/heimdall/pkg/server/jwt.go | Heimdall/Auth |
| components/heimdall/pkg/server/server.go | Heimdall/Auth |
| components/heimdall/pkg/webhooks/pod_mutator.go | Heimdall/Pod |
| components/kafka-protocol-go/assets/templates/struct_processor.tmpl | Kafka/Generator, Kafka/Json, Kafka/Schema |
| components/kafka-protocol-go/cmd/gen/context.go | Kafka/Generator |
| components/kafka-protocol-go/cmd/gen/main.go | Kafka/GenAll, Kafka/Generator |
| components/kafka-protocol-go/internal/protocol/messagespec.go | Kafka/Generator |
| components/kafka-protocol-go/internal/protocol/protocol.go | Kafka/LoadSpec |
| components/kafka-protocol-go/internal/protocol/versions.go | Kafka/VersionRange |
| components/kafka-protocol-go/pkg/compression/gzip/gzip.go | Kafka/Batch, Kafka/Gzip, Kafka/RecordVia |
| components/kafka-protocol-go/pkg/compression/lz4/lz4.go | Kafka/Gzip |
| components/kafka-protocol-go/pkg/compression/snappy/snappy.go | Kafka/Batch, Kafka/Gzip, Kafka/Section |
| components/kafka-protocol-go/pkg/compression/zstd/zstd.go | Kafka/Gzip |
| components/kafka-protocol-go/pkg/crc32c/crc32c.go | Kafka/Batch |
| components/kafka-protocol-go/pkg/pools/pool.go | Kafka/Pools |
| components/kafka-protocol-go/pkg/protocol/types/bool.go | Kafka/Fields, Kafka/Schema |
| components/kafka-protocol-go/pkg/protocol/types/bytes/chunkreader.go | Kafka/Batch, Kafka/Chunk, Kafka/Record, Kafka/RecordVia, Kafka/Runes |
| components/kafka-protocol-go/pkg/protocol/types/bytes/slicewriter.go | Kafka/Schema, Kafka/Section, Kafka/SliceWriter |
| components/kafka-protocol-go/pkg/protocol/types/fields/array.go | Kafka/Fields, Kafka/Json |
| components/kafka-protocol-go/pkg/protocol/types/fields/arrayofstruct.go | Kafka/Fields, Kafka/Json |
| components/kafka-protocol-go/pkg/protocol/types/fields/batchrecord.go | Kafka/Codec, Kafka/Json, Kafka/Record, Kafka/RecordVia |
| components/kafka-protocol-go/pkg/protocol/types/fields/bool.go | Kafka/Fields, Kafka/Schema |
| components/kafka-protocol-go/pkg/protocol/types/fields/bytes.go | Kafka/Fields, Kafka/Schema |
| components/kafka-protocol-go/pkg/protocol/types/fields/context.go | Kafka/Fields |
| components/kafka-protocol-go/pkg/protocol/types/fields/float64.go | Kafka/Fields |
| components/kafka-protocol-go/pkg/protocol/types/fields/int16.go | Kafka/Fields |
| components/kafka-protocol-go/pkg/protocol/types/fields/int32.go | Kafka/Fields |
| components/kafka-protocol-go/pkg/protocol/types/fields/int64.go | Kafka/Fields |
| components/kafka-protocol-go/pkg/protocol/types/fields/int8.go | Kafka/Fields, Kafka/Schema |
| components/kafka-protocol-go/pkg/protocol/types/fields/recordbatch.go | Kafka/Batch, Kafka/Codec, Kafka/Json, Kafka/Record, Kafka/RecordVia, Kafka/Schema, Kafka/Section |
| components/kafka-protocol-go/pkg/protocol/types/fields/recordbatches.go | Kafka/Batch, Kafka/Fields, Kafka/Json, Kafka/Section |
| components/kafka-protocol-go/pkg/protocol/types/fields/recordheader.go | Kafka/Json, Kafka/Record, Kafka/RecordVia |
| components/kafka-protocol-go/pkg/protocol/types/fields/records.go | Kafka/Fields, Kafka/Schema, Kafka/Section |
| components/kafka-protocol-go/pkg/protocol/types/fields/string.go | Kafka/Fields, Kafka/Json, Kafka/Schema |
| components/kafka-protocol-go/pkg/protocol/types/fields/taggedfields.go | Kafka/Fields, Kafka/Json |
| components/kafka-protocol-go/pkg/protocol/types/fields/uint16.go | Kafka/Fields |
| components/kafka-protocol-go/pkg/protocol/types/fields/util.go | Kafka/Json |
| components/kafka-protocol-go/pkg/protocol/types/fields/uuid.go | Kafka/Fields, Kafka/Schema |
| components/kafka-protocol-go/pkg/protocol/types/float.go | Kafka/Codec |
| components/kafka-protocol-go/pkg/protocol/types/int.go | Base, Kafka/Codec, Kafka/RecordVia |
| components/kafka-protocol-go/pkg/protocol/types/varint/varint.go | Kafka/RecordVia, Kafka/Varint |
| components/kafka-protocol-go/pkg/request/header.go | Kafka/Envelope |
| components/kafka-protocol-go/pkg/request/request.go | Kafka/Envelope |
| components/kafka-protocol-go/pkg/response/response.go | Kafka/Envelope |
| components/kafka-protocol-go/pkg/serialization/reader.go | Kafka/Batch, Kafka/Record, Kafka/RecordVia |
| experimental/java/examples/nio-java/src/main/java/com/ciscoopen/app/NaspSelectorProvider.java | Exp/JavaSel, Exp/NioKey |
| experimental/java/examples/nio-java/src/main/java/com/ciscoopen/app/NaspServerSocketChannel.java | Exp/JavaSel |
| experimental/java/examples/nio-java/src/main/java/com/ciscoopen/app/NaspSocket.java | Exp/JavaAddr |
| experimental/java/examples/nio-java/src/main/java/com/ciscoopen/app/NaspSocketChannel.java | Exp/JavaIo, Exp/JavaSel |
| experimental/java/examples/nio-java/src/main/java/com/ciscoopen/app/NaspSocketInputStream.java | Exp/JavaIo |
| experimental/java/examples/nio-java/src/main/java/com/ciscoopen/app/NaspSocketOutputStream.java | Exp/JavaIo |
| experimental/java/examples/tcp-java/src/main/java/com/ciscoopen/app/WrappedInputStream.java | Exp/JavaIo |
| experimental/java/examples/tcp-java/src/main/java/com/ciscoopen/app/WrappedOutputStream.java | Exp/JavaIo |
| experimental/java/log.go | Exp/JavaLog |
| experimental/java/main.go | Exp/JavaAddr, Exp/JavaIo, Exp/JavaSel, Exp/NioConn, Exp/NioKey, Exp/NioOpen, Exp/Spring, Exp/Transports |
| experimental/kafka-message-pii-filter/main.go | Exp/PiiFilter |
| experimental/kafka-message-pii-filter/pii/pii.go | Exp/Pii, Exp/PiiFilter |
| experimental/mobile/main.go | Exp/Transports |
| experimental/python/nasp/nasp.go | Exp/PyReq, Exp/Python |
| experimental/spring/spring-boot-nasp/src/main/java/com/cisco/nasp/spring/NaspServerHttpRequest.java | Exp/Spring |
| experimental/spring/spring-boot-nasp/src/main/java/com/cisco/nasp/spring/NaspServerHttpResponse.java | Exp/Spring |
| experimental/wasm-tcp-metadata/src/lib.rs | Exp/TcpMeta |
| pkg/ads/api.go | Ads/Stream |
| pkg/ads/api_http_client.go | Ads/Init, Ads/Picks, Ads/Result, Ads/Route, Net/Ip |
| pkg/ads/api_listener_properties.go | Ads/Init, Ads/Result, Ads/Route, Net/Ip, Net/Server |
| pkg/ads/api_result.go | Ads/Picks, Ads/Result |
| pkg/ads/api_tcp_client.go | Ads/Balance, Ads/ClientProps, Ads/Init, Ads/Picks, Ads/Result, Ads/Route |
| pkg/ads/cert_validation.go | Sec/Cert |
| pkg/ads/client.go | Ads/Client, Ads/Init, Ads/Result, Ads/Route, Ads/Stream |
| pkg/ads/cluster.go | Ads/Balance, Ads/Client, Ads/Counters, Ads/Route |
| pkg/ads/clusterloadassignments.go | Ads/Active, Ads/ClientProps, Ads/Counters, Net/Ip |
| pkg/ads/common.go | Ads/Cache |
| pkg/ads/internal/cluster/cluster.go | Ads/Balance, Ads/Route |
| pkg/ads/internal/cluster/stats.go | Ads/Balance, Ads/Counters |
| pkg/ads/internal/endpoint/endpoint.go | Ads/Balance, Ads/Client, Net/Ip |
| pkg/ads/internal/endpoint/stats.go | Ads/Active, Ads/Balance, Ads/Counters |
| pkg/ads/internal/listener/listener.go | Ads/Client, Ads/Route, Net/Ip |
| pkg/ads/internal/loadbalancer/lb.go | Ads/Balance |
| pkg/ads/internal/loadbalancer/lb_random.go | Ads/Balance |
| pkg/ads/internal/loadbalancer/lb_wlr.go | Ads/Balance, Net/Ip |
| pkg/ads/internal/loadbalancer/lb_wrr.go | Ads/Balance, Net/Ip |
| pkg/ads/internal/route/route.go | Ads/Route |
| pkg/ads/internal/util/util.go | Ads/ClientProps, Ads/Counters, Ads/Route |
| pkg/ads/internal/virtualhost/virtualhost.go | Ads/Route |
| pkg/ads/listener.go | Ads/Client, Net/Ip |
| pkg/ads/nametable.go | Ads/Route |
| pkg/ads/route_config.go | Ads/Counters |
| pkg/ca/istio/config.go | Sec/CaConfig |
| pkg/ca/istio/istio_ca.go | Net/Ip, Sec/Ca, Sec/CaConfig, Sec/Citadel |
| pkg/ca/istio/istio_ca_client.go | Sec/Citadel, Sec/CitadelMtls |
| pkg/ca/selfsigned/selfsigned.go | Sec/Ca |
| pkg/dotn/dotn.go | Sec/Dotn, Sec/DotnClone |
| pkg/dotn/dotn_concurrent.go | Sec/DotnClone |
| pkg/environment/istio.go | Bifrost/Flags, Exp/TcpMeta, Heimdall/Env |
| pkg/istio/discovery/connection_wrappers.go | Ads/Active |
| pkg/istio/discovery/xds.go | Ads/ClientProps, Ads/ListenerProps, Ads/Picks, Net/Server |
| pkg/istio/fb/FlatNode.go | Wasm/FlatNode |
| pkg/istio/fb/KeyVal.go | Wasm/FlatNode |
| pkg/istio/http/transport.go | Ads/Active, Ads/ClientProps, Net/OutHttp |
| pkg/istio/istio.go | Bifrost/Flags, Exp/TcpMeta, Exp/Transports, Net/GrpcDial, Net/Handler, Net/HttpServer, Net/MetricsServer, Net/Server, Sec/CaConfig |
| pkg/istio/istio_middleware.go | Wasm/FlatNode, Wasm/Middleware |
| pkg/istio/istio_passthrough_handler.go | Net/Handler |
| pkg/istio/tcp/dialer.go | Ads/Active, Ads/ClientProps, Net/OutTcp |
| pkg/k8s/labels/labels.go | Sec/Labels |
| pkg/k8s/service/endpoint.go | Sec/CaConfig |
| pkg/network/cert.go | Sec/CertNames |
| pkg/network/connection.go | Ads/Active, Net/ConnState, Net/Dial |
| pkg/network/connection_state.go | Net/ConnState, Net/Dial, Net/TlsWrap |
| pkg/network/connection_state_tracker.go | Net/Track |
| pkg/network/dialer.go | Ads/Active, Net/Dial, Net/Ip, Net/OutHttp, Net/OutTcp |
| pkg/network/http.go | Net/Dial, Net/HttpServer, Net/OutHttp |
| pkg/network/listener/multi_listener.go | Net/MetricsServer, Net/Multi |
| pkg/network/listener/multi_listener_address.go | Net/Track |
| pkg/network/listener/unified_tls_listener.go | Net/HttpServer, Net/Server, Net/Unified |
| pkg/network/pool/channel.go | Net/OutTcp, Pool/Channel, Pool/Create, Pool/Registry, Pool/Timed |
| pkg/network/pool/conn.go | Pool/Channel, Pool/Create, Pool/Timed |
| pkg/network/pool/syncmap_registry.go | Net/OutTcp, Pool/Registry |
| pkg/network/proxy/proxy.go | Net/Proxy |
| pkg/network/tls.go | Net/OutHttp, Net/TlsWrap |
| pkg/network/tunnel/api/message.go | Tunnel/BackChan, Tunnel/Message |
| pkg/network/tunnel/auth/k8stoken.go | Tunnel/Control |
| pkg/network/tunnel/client/client.go | Tunnel/Client |
| pkg/network/tunnel/client/conn.go | Tunnel/Client |
| pkg/network/tunnel/client/port.go | Net/MetricsServer, Tunnel/Client |
| pkg/network/tunnel/client/session.go | Tunnel/BackChan, Tunnel/Client, Tunnel/Message |
| pkg/network/tunnel/client/stream.go | Net/MetricsServer, Tunnel/Client |
| pkg/network/tunnel/common/messagehandler.go | Tunnel/Client, Tunnel/Message, Tunnel/Sessions |
| pkg/network/tunnel/common/messagehandler_registry.go | Tunnel/Message |
| pkg/network/tunnel/server/port.go | Bifrost/Ports |
| pkg/network/tunnel/server/port_provider.go | Tunnel/PortProvider |
| pkg/network/tunnel/server/server.go | Bifrost/Ports, Tunnel/Sessions |
| pkg/network/tunnel/server/session.go | Bifrost/Ports, Tunnel/BackChan, Tunnel/Control, Tunnel/Keepalive, Tunnel/Message, Tunnel/Sessions |
| pkg/network/tunnel/server/stream.go | Tunnel/Keepalive |
| pkg/proxywasm/api/vm.go | Wasm/Vm |
| pkg/proxywasm/common_properties.go | Wasm/Ticker |
| pkg/proxywasm/context.go | Wasm/Context, Wasm/HostProps |
| pkg/proxywasm/data_store.go | Wasm/Vm |
| pkg/proxywasm/default.go | Wasm/HostAbi |
| pkg/proxywasm/envoy_tags.go | Wasm/StatTags |
| pkg/proxywasm/filter.go | Wasm/Context, Wasm/InstCtx, Wasm/Life, Wasm/Stream |
| pkg/proxywasm/grpc/dialer.go | Ads/Active, Net/GrpcDial, Wasm/Http |
| pkg/proxywasm/grpc/wrappers.go | Wasm/Headers, Wasm/Http |
| pkg/proxywasm/header.go | Wasm/Headers, Wasm/Middleware |
| pkg/proxywasm/host.go | Wasm/Context, Wasm/Headers, Wasm/HostAbi, Wasm/HostProps, Wasm/Http, Wasm/Ticker |
| pkg/proxywasm/http/handler.go | Wasm/Http |
| pkg/proxywasm/http/middleware.go | Wasm/Middleware, Wasm/MwHandler |
| pkg/proxywasm/http/transport.go | Wasm/Http |
| pkg/proxywasm/http/wrappers.go | Wasm/Headers, Wasm/Http, Wasm/Middleware |
| pkg/proxywasm/metrics.go | Wasm/Metrics |
| pkg/proxywasm/middleware/envoy_middleware.go | Net/Ip, Sec/CertNames, Wasm/Middleware |
| pkg/proxywasm/plugin.go | Wasm/Context, Wasm/InstCtx, Wasm/Life, Wasm/Plugin, Wasm/Ticker |
| pkg/proxywasm/plugin_manager.go | Wasm/Context, Wasm/Plugin |
| pkg/proxywasm/properties.go | Exp/TcpMeta, Wasm/HostProps, Wasm/Middleware, Wasm/Pairs |
| pkg/proxywasm/stream.go | Wasm/Http, Wasm/Life, Wasm/Stream |
| pkg/proxywasm/tcp/conn.go | Exp/TcpMeta, Wasm/Conn |
| pkg/proxywasm/utils.go | Wasm/Life, Wasm/Pairs, Wasm/Stream, Wasm/Ticker |
| pkg/proxywasm/vm.go | Wasm/Plugin, Wasm/Vm |
| pkg/proxywasm/vm_store.go | Wasm/Vm |
| pkg/tls/verify/san.go | Sec/Ca, Sec/Match |
| pkg/tls/verify/util.go | Net/Server, Sec/Ca, Sec/ParseDn |
| pkg/tls/verify/verify.go | Sec/Cert |
| pkg/util/string_matcher.go | Sec/Match |

## Source files no definition cites
* components/bifrost/deploy/charts: embed.go
* components/bifrost/pkg/k8s: labels.go
* components/heimdall/cmd/server: main.go
* components/heimdall/cmd/webhook: main.go
* components/heimdall/deploy/charts: embed.go
* components/heimdall/pkg/k8sutil: cluster.go
* components/heimdall/pkg/predicates: namespace.go
* components/kafka-protocol-go/assets: assets.go
* components/kafka-protocol-go/assets/templates: message_factory.tmpl
* components/kafka-protocol-go/internal/util: util.go
* components/kafka-protocol-go/pkg/assets/test: assets.go
* components/kafka-protocol-go/pkg/protocol: message.go
* components/kafka-protocol-go/pkg/protocol/types/bytes: bytes.go
* components/kafka-protocol-go/pkg/response: header.go
* components/kafka-protocol-go/pkg/serialization: writer.go
* examples/grpc: main.go
* examples/grpc/client: main.go
* examples/grpc/pb: hello.pb.go, hello_grpc.pb.go
* examples/http: main.go
* examples/tcp: main.go
* examples/tcpproxy: main.go
* experimental/java/examples/nio-java/src/main/java/com/ciscoopen/app: MyServer.java, NaspLogSink.java, NaspServerSocket.java
* experimental/java/examples/nio-java/src/test/java/com/ciscoopen/app: NioScalabilityTest.java
* experimental/java/examples/tcp-java/src/main/java/com/ciscoopen/app: MyServer.java, ServerThread.java, WrappedClientSocket.java, WrappedServerSocket.java, WrappedSocket.java
* experimental/mobile/examples/android-nasp/app/src/androidTest/java/com/example/androidnasp: ExampleInstrumentedTest.java
* experimental/mobile/examples/android-nasp/app/src/main/java/com/example/androidnasp: FirstFragment.java, MainActivity.java, NaspHTTPTransport.java, SecondFragment.java
* experimental/mobile/examples/android-nasp/app/src/test/java/com/example/androidnasp: ExampleUnitTest.java
* experimental/mobile/examples/cli-nasp/cli-nasp: cli.swift
* experimental/mobile/examples/ios-nasp/ios-nasp: ContentView.swift, ios_naspApp.swift
* experimental/mobile/examples/ios-nasp/ios-naspTests: ios_naspTests.swift
* experimental/mobile/examples/ios-nasp/ios-naspUITests: ios_istioUITests.swift, ios_istioUITestsLaunchTests.swift
* experimental/spring/spring-boot-nasp-example/src/main/java/com/cisco/nasp/spring/example: Application.java, HelloController.java
* experimental/spring/spring-boot-nasp/src/main/java/com/cisco/nasp/spring: NaspConfiguration.java, NaspHttpHandler.java, NaspWebServer.java, NaspWebServerFactory.java
* experimental/wasm-tcp-metadata/src: node_info_generated.rs
* pkg/ads/config: clientconfig.go
* pkg/ads/e2etest: assets.go
* pkg/ads/internal/apiresult: api_result.go
* pkg/ads/internal/routeconfig: routeconfig.go
* pkg/ca: api.go
* pkg/istio: wasmer_runtime_disabled.go, wasmer_runtime_enabled.go, wasmtime_runtime_disabled.go, wasmtime_runtime_enabled.go
* pkg/istio/discovery: api.go
* pkg/istio/filters: embed.go
* pkg/network/listener: wrapped_listener.go
* pkg/network/pool: pool.go
* pkg/network/tunnel/api: api.go
* pkg/network/tunnel/auth: k8suser.go
* pkg/proxywasm: runtime.go
* pkg/proxywasm/api: api.go, filter.go, header.go, plugin.go, runtime.go, stream.go, wasm.go
* pkg/proxywasm/tcp: listener.go
* pkg/proxywasm/testdata: embed.go
* pkg/proxywasm/testdata/filters/multichunk: main.go
* pkg/proxywasm/testdata/filters/ontick: main.go
* pkg/util: util.go
