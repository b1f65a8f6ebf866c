import Verif.Base
import Verif.Varint
import Verif.VarintProps
import Verif.Packet
import Verif.PacketProps
import Verif.StreamState
import Verif.StreamStateProps
import Verif.ReadStream
import Verif.ReadStreamProps
import Verif.WriteStream
import Verif.WriteStreamProps
import Verif.Framing
import Verif.FramingProps
import Verif.Services
import Verif.ServicesProps
import Verif.DiscoveryProps
import Verif.IoLoop
import Verif.IoLoopProps
import Verif.Executor
import Verif.ExecutorProps
import Verif.ExecutorSafety
import Verif.Process
import Verif.ProcessProps
import Verif.Ring
import Verif.RingProps
import Verif.Sharder
import Verif.SharderProps
import Verif.Leb
import Verif.LebProps
import Verif.Sections
import Verif.SectionsProps
import Verif.SnapLayout
import Verif.SnapLayoutProps
import Verif.Server
import Verif.ServerProps
import Verif.ServerIsolation
import Verif.Auth
import Verif.AuthProps
import Verif.AuthDecision
import Verif.Nonce
import Verif.WebActions
import Verif.WebActionsProps
import Verif.Files
import Verif.FilesProps
import Verif.Entry
import Verif.EntryProps
import Verif.Debugger
import Verif.DebuggerProps
import Verif.CallStack
import Verif.CallStackProps
import Verif.WebParams
import Verif.Lifecycle
import Verif.LifecycleProps
import Verif.LifecycleMore
import Verif.ImageFile
import Verif.ImageFileProps
import Verif.ImageFileMore
import Verif.Manifest
import Verif.ManifestProps
import Verif.Storage
import Verif.StorageProps
import Verif.StorageMore
import Verif.Seccomp
import Verif.SeccompProps
import Verif.Rt
import Verif.RtProps
import Verif.RtMore
import Verif.RtSys
import Verif.AbiLib
import Verif.AbiLibProps
import Verif.AbiLibIo
import Verif.AbiLibMore
import Verif.AbiLibPoll
import Verif.AbiLibMisc
import Verif.AbiLibFull
import Verif.Suspend
import Verif.Resolver
import Verif.ResolverProps
import Verif.CopyRange
import Verif.Restart
import Verif.RestartProps
import Verif.OriginState
import Verif.OriginStateProps
import Verif.Origin
import Verif.OriginProps
import Verif.OriginIds
import Verif.OriginProto
import Verif.OriginStop
import Verif.Respond
import Verif.RespondProps
import Verif.Upload
import Verif.UploadProps
import Verif.Source
import Verif.SourceProps
import Verif.Access
import Verif.AccessProps
import Verif.Monitor
import Verif.MonitorProps
import Verif.ReqContext
import Verif.ReqContextProps
import Verif.ScopeAlias
import Verif.ScopeAliasProps
import Verif.CallSvc
import Verif.CallSvcProps
import Verif.Grpc
import Verif.GrpcProps
import Verif.Daemon
import Verif.DaemonProps
import Verif.Websocket
import Verif.WebsocketProps
import Verif.RequestId
import Verif.Creds
import Verif.CredsProps
import Verif.Prepare
import Verif.CopyDebug
import Verif.Container
import Verif.WebRoute
import Verif.WebRouteProps
import Verif.AbiLibFd
import Verif.ExecLoop
import Verif.ExecLoopProps
import Verif.ExecLoopInv
import Verif.ExecLoopHist
import Verif.ExecLoopProc
import Verif.ExecLoopThms
import Verif.ExecLoopBudget
import Verif.ExecLoopDeath
import Verif.ExecLoopRefute
import Verif.ExecStat
import Verif.Tight
import Verif.AbiLibTight
import Verif.Requests
import Verif.RequestsProps
import Verif.RequestsAll
import Verif.RequestsThms
import Verif.Loader
import Verif.LoaderProps
import Verif.LoaderThms
import Verif.LoaderFail
import Verif.LoaderState
import Verif.GateH
import Verif.GateHProps
import Verif.Trace
import Verif.TraceProps
import Verif.Client
import Verif.ClientProps
import Verif.Token
import Verif.TokenProps
import Verif.Download
import Verif.DownloadProps
import Verif.LocalCmd
import Verif.LocalCmdProps
import Verif.Accept
import Verif.AcceptProps
import Verif.SvcStart
import Verif.SvcStartProps
import Verif.Startup
import Verif.StartupProps
import Verif.StartupThms
import Verif.StartupStop
import Verif.Repl
import Verif.ProgFile
import Verif.ProgFileProps
import Verif.ProgFileThms
import Verif.ImgRes
import Verif.ImgResProps
import Verif.WebMon
import Verif.WebMonProps
import Verif.DbgText
import Verif.ContRes
import Verif.ContResProps
import Verif.RtDaemon
import Verif.Dash
import Verif.UserGroup
import Verif.ErrTab
import Verif.PacketCheck
import Verif.Wasm
import Verif.LibBytes
import Verif.LibWasm
import Verif.LibWasmProps
import Verif.LibResume
import Verif.Start
import Verif.StartProps
import Verif.WebResp
import Verif.WebRespProps
import Verif.WebRespUser
import Verif.Log
import Verif.LogProps
import Verif.InstIds
import Verif.InstIdsProps
import Verif.Locks
import Verif.LocksProps
import Verif.InstRace
import Verif.InstRaceProps
import Verif.BufAlias
import Verif.BufAliasProps
import Verif.DaemonWeb
import Verif.DaemonWebProps
import Verif.DebugLog
import Verif.DebugLogInv
import Verif.DebugLogProps
import Verif.Breakpoints
import Verif.BreakpointsProps
import Verif.ExecWire
import Verif.ExecWireProps
import Verif.BusFiles
import Verif.BusFilesProps
import Verif.Shutdown
import Verif.ShutdownProps
import Verif.ClientPipes
import Verif.ClientPipesProps
import Verif.CallRun
import Verif.CallRunProps
import Verif.DaemonMain
import Verif.DaemonMainProps
import Verif.Outcome
import Verif.OutcomeProps
