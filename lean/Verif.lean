import Verif.Model.Accept
import Verif.Model.Alive
import Verif.Model.AliveMem
import Verif.Model.CInt
import Verif.Model.Chan0
import Verif.Model.ChanCreate
import Verif.Model.ChanNotify
import Verif.Model.ChannelNumbers
import Verif.Model.ChannelPool
import Verif.Model.ChannelSearch
import Verif.Model.CloseAgain
import Verif.Model.Conf
import Verif.Model.ConnActions
import Verif.Model.ConnClose
import Verif.Model.ConnNew
import Verif.Model.Connect
import Verif.Model.Containers
import Verif.Model.CtxExit
import Verif.Model.CtxStart
import Verif.Model.DeliverRefs
import Verif.Model.Digest
import Verif.Model.Environ
import Verif.Model.External
import Verif.Model.FaultText
import Verif.Model.Feeder
import Verif.Model.FeederRefs
import Verif.Model.FileTest
import Verif.Model.Frame
import Verif.Model.FrameOps
import Verif.Model.GenCode
import Verif.Model.GenDispatch
import Verif.Model.GenFiles
import Verif.Model.GenResult
import Verif.Model.GenValues
import Verif.Model.GetNext
import Verif.Model.GetReply
import Verif.Model.GreetCache
import Verif.Model.Greetings
import Verif.Model.Handshake
import Verif.Model.HashWait
import Verif.Model.Idle
import Verif.Model.IoSet
import Verif.Model.Itoa
import Verif.Model.Link
import Verif.Model.LinkMany
import Verif.Model.ListenConf
import Verif.Model.ListenNew
import Verif.Model.ListenShut
import Verif.Model.ListenWait
import Verif.Model.Log
import Verif.Model.LuaHandlers
import Verif.Model.LuaLocks
import Verif.Model.LuaParams
import Verif.Model.LuaQueue
import Verif.Model.MaskChecks
import Verif.Model.MgmtText
import Verif.Model.Mime
import Verif.Model.OnClose
import Verif.Model.Parse
import Verif.Model.Peers
import Verif.Model.PoolEvents
import Verif.Model.PoolRefs
import Verif.Model.PoolTasks
import Verif.Model.PortShare
import Verif.Model.Profiles
import Verif.Model.Proxy
import Verif.Model.Pull
import Verif.Model.PullAnswer
import Verif.Model.PullRefs
import Verif.Model.PyAnswers
import Verif.Model.PyClose
import Verif.Model.PyEvents
import Verif.Model.PyException
import Verif.Model.PyFrames
import Verif.Model.PyPools
import Verif.Model.PyProfiles
import Verif.Model.PyRefs
import Verif.Model.PyTls
import Verif.Model.Queue
import Verif.Model.QueueRefs
import Verif.Model.Reader
import Verif.Model.Reconnect
import Verif.Model.Records
import Verif.Model.RefCount
import Verif.Model.Replies
import Verif.Model.RepliesSent
import Verif.Model.Sasl
import Verif.Model.SaslChoose
import Verif.Model.SaslNames
import Verif.Model.SaslOverlap
import Verif.Model.SaslSync
import Verif.Model.SearchPath
import Verif.Model.SendBuffer
import Verif.Model.SendClose
import Verif.Model.SendLimit
import Verif.Model.SendRaw
import Verif.Model.SendStop
import Verif.Model.Sender
import Verif.Model.Sequencer
import Verif.Model.Serialize
import Verif.Model.ServerName
import Verif.Model.SockLimit
import Verif.Model.SocketPipe
import Verif.Model.Start
import Verif.Model.Strtod
import Verif.Model.ThreadPool
import Verif.Model.Time
import Verif.Model.Timeouts
import Verif.Model.Tls
import Verif.Model.TlsObj
import Verif.Model.TunnelRoute
import Verif.Model.UserData
import Verif.Model.VerifyCert
import Verif.Model.WaitAgain
import Verif.Model.WaitMem
import Verif.Model.WaitReply
import Verif.Model.WaitSent
import Verif.Model.Watch
import Verif.Model.WebSocketListen
import Verif.Model.WebSocketNew
import Verif.Model.Window
import Verif.Model.XmlRpc
import Verif.Model.XmlRpcBoot
import Verif.Model.XmlRpcInvoke
import Verif.Model.XmlRpcOwn
import Verif.Model.XmlRpcPool
import Verif.Model.XmlRpcReply
import Verif.Model.XmlRpcSlots
import Verif.Model.XmlRpcStruct
import Verif.Proof.Flow
import Verif.Proof.Header
import Verif.Proof.Itoa
import Verif.Proof.Link
import Verif.Proof.LinkCarry
import Verif.Proof.LinkMany
import Verif.Proof.LinkManyRun
import Verif.Proof.LinkRead
import Verif.Proof.LinkRun
import Verif.Proof.LinkSide
import Verif.Proof.Mime
import Verif.Proof.MimeRoundTrip
import Verif.Proof.ParseSafe
import Verif.Proof.Peers
import Verif.Proof.Reader
import Verif.Proof.Reassembly
import Verif.Proof.RecvFlow
import Verif.Proof.Replies
import Verif.Proof.RepliesAny
import Verif.Proof.Segments
import Verif.Proof.SendBuffer
import Verif.Proof.Stream
import Verif.Proof.XmlEq
import Verif.Proof.XmlRpc
import Verif.Props.Accept
import Verif.Props.Alive
import Verif.Props.AliveMem
import Verif.Props.C135
import Verif.Props.C136
import Verif.Props.C137
import Verif.Props.C138
import Verif.Props.C139
import Verif.Props.C140
import Verif.Props.C141
import Verif.Props.C142
import Verif.Props.C143
import Verif.Props.C144
import Verif.Props.C145
import Verif.Props.C146
import Verif.Props.C147
import Verif.Props.C148
import Verif.Props.C149
import Verif.Props.C150
import Verif.Props.C151
import Verif.Props.C152
import Verif.Props.C153
import Verif.Props.C154
import Verif.Props.C155
import Verif.Props.C156
import Verif.Props.C157
import Verif.Props.C158
import Verif.Props.C159
import Verif.Props.C160
import Verif.Props.C161
import Verif.Props.Chan0
import Verif.Props.ChanCreate
import Verif.Props.ChanNotify
import Verif.Props.ChannelNumbers
import Verif.Props.ChannelPool
import Verif.Props.ChannelSearch
import Verif.Props.CloseAgain
import Verif.Props.Conf
import Verif.Props.ConnActions
import Verif.Props.ConnClose
import Verif.Props.ConnNew
import Verif.Props.Connect
import Verif.Props.Containers
import Verif.Props.CtxExit
import Verif.Props.CtxStart
import Verif.Props.DeliverRefs
import Verif.Props.Digest
import Verif.Props.External
import Verif.Props.FaultText
import Verif.Props.Feeder
import Verif.Props.FeederRefs
import Verif.Props.Frame
import Verif.Props.FrameOps
import Verif.Props.GetReply
import Verif.Props.GreetCache
import Verif.Props.GreetExchange
import Verif.Props.Greetings
import Verif.Props.Handshake
import Verif.Props.HashWait
import Verif.Props.Idle
import Verif.Props.IoSet
import Verif.Props.Itoa
import Verif.Props.Link
import Verif.Props.LinkMany
import Verif.Props.ListenNew
import Verif.Props.ListenShut
import Verif.Props.ListenWait
import Verif.Props.Log
import Verif.Props.MgmtText
import Verif.Props.Mime
import Verif.Props.OnClose
import Verif.Props.ParseSafe
import Verif.Props.Peers
import Verif.Props.PoolEvents
import Verif.Props.PoolExit
import Verif.Props.PoolRefs
import Verif.Props.PoolTasks
import Verif.Props.PortShare
import Verif.Props.Profiles
import Verif.Props.Proxy
import Verif.Props.Pull
import Verif.Props.PullAnswer
import Verif.Props.PullRefs
import Verif.Props.Queue
import Verif.Props.Reader
import Verif.Props.Reconnect
import Verif.Props.Records
import Verif.Props.Recv
import Verif.Props.RefCount
import Verif.Props.Replies
import Verif.Props.RepliesSent
import Verif.Props.Sasl
import Verif.Props.SaslChoose
import Verif.Props.SaslSync
import Verif.Props.SearchPath
import Verif.Props.Send
import Verif.Props.SendClose
import Verif.Props.SendRaw
import Verif.Props.SendStop
import Verif.Props.Sequencer
import Verif.Props.Serialize
import Verif.Props.ServerName
import Verif.Props.SockLimit
import Verif.Props.Start
import Verif.Props.ThreadPool
import Verif.Props.Time
import Verif.Props.Timeouts
import Verif.Props.Tls
import Verif.Props.TlsObj
import Verif.Props.TunnelRoute
import Verif.Props.UserData
import Verif.Props.VerifyCert
import Verif.Props.WaitAgain
import Verif.Props.WaitMem
import Verif.Props.WaitReply
import Verif.Props.WaitSent
import Verif.Props.Watch
import Verif.Props.WebSocketListen
import Verif.Props.WebSocketNew
import Verif.Props.XmlRpc
import Verif.Props.XmlRpcBoot
import Verif.Props.XmlRpcInvoke
import Verif.Props.XmlRpcOwn
import Verif.Props.XmlRpcPool
import Verif.Props.XmlRpcReply
import Verif.Props.XmlRpcService
import Verif.Props.XmlRpcSlots
import Verif.Props.XmlRpcStruct
import Verif.Spec.Accept
import Verif.Spec.Alive
import Verif.Spec.AliveMem
import Verif.Spec.Chan0
import Verif.Spec.ChanCreate
import Verif.Spec.ChanNotify
import Verif.Spec.ChannelPool
import Verif.Spec.CloseAgain
import Verif.Spec.Conf
import Verif.Spec.ConnActions
import Verif.Spec.ConnClose
import Verif.Spec.ConnNew
import Verif.Spec.Connect
import Verif.Spec.Containers
import Verif.Spec.CtxExit
import Verif.Spec.CtxStart
import Verif.Spec.Decimal
import Verif.Spec.DeliverRefs
import Verif.Spec.Digest
import Verif.Spec.Environ
import Verif.Spec.External
import Verif.Spec.FaultText
import Verif.Spec.Feeder
import Verif.Spec.FileTest
import Verif.Spec.Flow
import Verif.Spec.GenCode
import Verif.Spec.GenDispatch
import Verif.Spec.GenFiles
import Verif.Spec.GenResult
import Verif.Spec.GenValues
import Verif.Spec.GetReply
import Verif.Spec.GreetCache
import Verif.Spec.Greetings
import Verif.Spec.Handshake
import Verif.Spec.HashWait
import Verif.Spec.Idle
import Verif.Spec.IoSet
import Verif.Spec.Link
import Verif.Spec.LinkMany
import Verif.Spec.ListenConf
import Verif.Spec.ListenNew
import Verif.Spec.ListenWait
import Verif.Spec.Log
import Verif.Spec.LuaHandlers
import Verif.Spec.LuaLocks
import Verif.Spec.LuaParams
import Verif.Spec.LuaQueue
import Verif.Spec.MaskChecks
import Verif.Spec.MgmtText
import Verif.Spec.Mime
import Verif.Spec.OnClose
import Verif.Spec.Peers
import Verif.Spec.PoolEvents
import Verif.Spec.PoolRefs
import Verif.Spec.PoolTasks
import Verif.Spec.PortShare
import Verif.Spec.Profiles
import Verif.Spec.Proxy
import Verif.Spec.Pull
import Verif.Spec.PullAnswer
import Verif.Spec.PullRefs
import Verif.Spec.PyAnswers
import Verif.Spec.PyClose
import Verif.Spec.PyEvents
import Verif.Spec.PyException
import Verif.Spec.PyFrames
import Verif.Spec.PyPools
import Verif.Spec.PyProfiles
import Verif.Spec.PyRefs
import Verif.Spec.PyTls
import Verif.Spec.Queue
import Verif.Spec.QueueRefs
import Verif.Spec.Reader
import Verif.Spec.Reconnect
import Verif.Spec.Records
import Verif.Spec.RecvFlow
import Verif.Spec.RefCount
import Verif.Spec.Replies
import Verif.Spec.RepliesSent
import Verif.Spec.Sasl
import Verif.Spec.SaslChoose
import Verif.Spec.SaslNames
import Verif.Spec.SaslOverlap
import Verif.Spec.SaslSync
import Verif.Spec.SearchPath
import Verif.Spec.Segments
import Verif.Spec.SendClose
import Verif.Spec.SendRaw
import Verif.Spec.Sequencer
import Verif.Spec.ServerName
import Verif.Spec.SocketPipe
import Verif.Spec.Start
import Verif.Spec.Stream
import Verif.Spec.Strtod
import Verif.Spec.Time
import Verif.Spec.Timeouts
import Verif.Spec.Tls
import Verif.Spec.TlsObj
import Verif.Spec.TunnelRoute
import Verif.Spec.UserData
import Verif.Spec.VerifyCert
import Verif.Spec.WaitAgain
import Verif.Spec.WaitMem
import Verif.Spec.WaitSent
import Verif.Spec.Watch
import Verif.Spec.WebSocketNew
import Verif.Spec.XmlRpc
import Verif.Spec.XmlRpcBoot
import Verif.Spec.XmlRpcInvoke
import Verif.Spec.XmlRpcOwn
import Verif.Spec.XmlRpcPool
import Verif.Spec.XmlRpcReply
import Verif.Spec.XmlRpcStruct
import Verif.Audit
