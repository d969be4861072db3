import Verif.Props.Codec
import Verif.Props.Limits
import Verif.Props.Nonce
import Verif.Props.Replay
import Verif.Props.Keys
import Verif.Props.Once
import Verif.Props.PacketDeadline
import Verif.Props.Serve
import Verif.Props.Robust
import Verif.Props.Session
import Verif.Props.Shutdown
import Verif.Props.Manager
import Verif.Props.Reencode
import Verif.Props.Handshake
import Verif.Props.Sign
import Verif.Props.Client
import Verif.Props.UDP
import Verif.Props.Counter
import Verif.Props.Conversation
import Verif.Props.FetcherCache
import Verif.Props.Dns
import Verif.Model.ProtocolFetcher
import Verif.Props.ProtocolFetcher
import Verif.Model.Loops
import Verif.Model.Pool
import Verif.Model.Borrow
import Verif.Spec.Borrow
import Verif.Proofs.Borrow
import Verif.Props.Borrow
import Verif.Spec.Pool
import Verif.Proofs.Loops
import Verif.Proofs.Pool
import Verif.Proofs.PoolLock
import Verif.Proofs.PoolWait
import Verif.Props.Pool
import Verif.Model.KeySources
import Verif.Model.Deadlines
import Verif.Props.KeySources
import Verif.Props.Deadlines
import Verif.Props.Silence
import Verif.Props.PoolClose
import Verif.Proofs.Closing
import Verif.Proofs.CloseReturns
import Verif.Proofs.Persist
import Verif.Props.Closing
import Verif.Props.Draft
import Verif.Proofs.Leak
import Verif.Props.Leak
import Verif.Props.LeakClient
import Verif.Proofs.Solo
import Verif.Props.Capacity
import Verif.Model.Lifecycle
import Verif.Proofs.Lifecycle
import Verif.Props.Lifecycle
import Verif.Spec.Trace
import Verif.Proofs.Trace
import Verif.Proofs.Agreement
import Verif.Spec.EndToEnd
import Verif.Proofs.Quota
import Verif.Props.EndToEnd
import Verif.Props.Replace
import Verif.Proofs.Single
import Verif.Props.Amplify
import Verif.Props.InStep
import Verif.Props.CutWrite
import Verif.Props.LostSession
import Verif.Props.ChatRegistry
import Verif.Props.CloseIdle
import Verif.Props.PoolLag
import Verif.Props.SharedClient
import Verif.Model.ChatUser
import Verif.Proofs.ChatUser
import Verif.Proofs.ChatUserInv
import Verif.Props.ChatUser
import Verif.Props.ChatScreen
import Verif.Props.ChatPeers
import Verif.Props.ChatOpen
import Verif.Props.ChatNews
import Verif.Props.Flow
import Verif.Props.FlowContent
import Verif.Props.Memory
import Verif.Props.StdIO
import Verif.Props.FlowDial
import Verif.Props.System
import Verif.Tests.Repository
import Verif.Props.URL
import Verif.Props.Errors
import Verif.Props.Lossy
import Verif.Props.Ephemeral
import Verif.Props.Order
import Verif.Props.Handler
import Verif.Props.Reported
import Verif.Props.Flag
import Verif.Props.Panic
import Verif.Props.Reserved
import Verif.Props.Options
import Verif.Props.SharedClose
import Verif.Props.DoH
import Verif.Props.PoolHolder
import Verif.Props.Prompt
import Verif.Props.Publish
import Verif.Props.ChatStart
import Verif.Props.Documented
import Verif.Props.QuickStart
import Verif.Props.RemoteAddr
import Verif.Props.WaitGroup
import Verif.Props.ServerLog
import Verif.Props.Production
import Verif.Props.PoolRestart
import Verif.Props.IdleLog
import Verif.Props.LostDatagram
import Verif.Props.Rotation
import Verif.Props.UDPClientLife
import Verif.Props.LongTermKey
import Verif.Props.PoolKept
import Verif.Props.Veil
import Verif.Props.Names
import Verif.Props.VeilClient
import Verif.Props.Costs
import Verif.Props.LogView
import Verif.Props.Spared
import Verif.Props.Silent
import Verif.Props.TooLong
import Verif.Props.Unasked
import Verif.Props.FlowReads
import Verif.Props.EofWithData
import Verif.Props.PoolDial
import Verif.Props.SlowPeer
import Verif.Props.NonceUsed
import Verif.Model.SlowServer
import Verif.Props.SlowServer
import Verif.Props.ReaderContract
import Verif.Props.LateStart
import Verif.Props.SharedManager
import Verif.Props.KeepAlive
import Verif.Props.PoolCloseBusy
import Verif.Props.PoolClosed
import Verif.Props.PoolSessions
import Verif.Audit
