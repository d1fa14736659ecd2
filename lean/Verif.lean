import Verif.Go.Basic
import Verif.Go.Cursor
import Verif.Spec.Wire
import Verif.Go.Bridge
import Verif.Model.Primitive
import Verif.Lemmas.Primitive
import Verif.Props.Primitive
import Verif.Model.Header
import Verif.Spec.Header
import Verif.Lemmas.Header
import Verif.Props.Header
import Verif.Go.Map
import Verif.Go.Sort
import Verif.Model.Group
import Verif.Lemmas.Assign
import Verif.Spec.Group
import Verif.Lemmas.Group
import Verif.Props.Group
import Verif.Spec.Crc
import Verif.Go.Crc
import Verif.Spec.Record
import Verif.Model.Record
import Verif.Lemmas.Record
import Verif.Props.Record
import Verif.Model.Message
import Verif.Lemmas.Message
import Verif.Props.Message
import Verif.Go.Reader
import Verif.Model.Fetch
import Verif.Lemmas.FetchRead
import Verif.Lemmas.Fetch
import Verif.Spec.Fetch
import Verif.Lemmas.FetchKeep
import Verif.Lemmas.FetchHead
import Verif.Lemmas.FetchPacked
import Verif.Lemmas.FetchSeen
import Verif.Props.Fetch
import Verif.Props.Ignored
import Verif.Spec.Request
import Verif.Model.Request
import Verif.Model.Request2
import Verif.Lemmas.Request
import Verif.Props.Request
import Verif.Lemmas.Request2
import Verif.Props.Request2
import Verif.Props.Request3
import Verif.Spec.Error
import Verif.Spec.Response
import Verif.Spec.Response2
import Verif.Spec.Response3
import Verif.Model.Error
import Verif.Model.Response
import Verif.Model.Metadata
import Verif.Model.Response2
import Verif.Model.Response3
import Verif.Model.Parse
import Verif.Model.Broker
import Verif.Lemmas.Response
import Verif.Props.Error
import Verif.Props.Metadata
import Verif.Props.Response
import Verif.Props.Response2
import Verif.Props.Response3
import Verif.Props.Frame
import Verif.Props.Cuts
import Verif.Props.Unread
import Verif.Props.Always
import Verif.Props.Late
import Verif.Props.Always2
import Verif.Props.Always3
import Verif.Props.Always4
import Verif.Props.Always5
import Verif.Props.Always6
import Verif.Props.Always7
import Verif.Props.Broker
import Verif.Props.Broker2
import Verif.Model.Transmit
import Verif.Model.Brokers
import Verif.Props.Transmit
import Verif.Props.Brokers
import Verif.Props.Brokers2
import Verif.Model.Consumer
import Verif.Props.Consumer
import Verif.Props.Consumer2
import Verif.Model.GroupConsumer
import Verif.Props.GroupConsumer
import Verif.Model.Producer
import Verif.Props.Producer
import Verif.Props.Producer2
import Verif.Props.Stuck
import Verif.Spec.Names
import Verif.Model.Names
import Verif.Props.Names
import Verif.Model.Config
import Verif.Props.Config
import Verif.Model.Builders
import Verif.Props.Builders
import Verif.Props.Builders2
import Verif.Model.Client
import Verif.Props.Client
import Verif.Props.Broker3
import Verif.Props.Opened
import Verif.Props.Error2
import Verif.Props.Dispatch
import Verif.Props.Consumer3
import Verif.Model.Position
import Verif.Props.Position
import Verif.Props.Exact
import Verif.Model.MultiConsumer
import Verif.Props.MultiConsumer
import Verif.Model.Tools
import Verif.Props.Tools
import Verif.Props.Tools2
import Verif.Props.Tools3
import Verif.Model.ReadBack
import Verif.Props.ReadBack
import Verif.Props.ReadBack2
import Verif.Props.RepoTests
import Verif.Model.Close
import Verif.Props.Close
import Verif.Model.Keyed
import Verif.Props.Keyed
import Verif.Model.Rejoin
import Verif.Model.Reply
import Verif.Props.Rejoin
import Verif.Props.Reply
import Verif.Model.Ask
import Verif.Props.Ask
import Verif.Spec.Log
import Verif.Props.Flow
import Verif.Props.Damaged
import Verif.Props.Learned
import Verif.Props.Restart
import Verif.Model.Auth
import Verif.Spec.Base64
import Verif.Props.Auth
import Verif.Model.Http
import Verif.Props.Http
import Verif.Model.Flush
import Verif.Props.Flush
import Verif.Model.Secure
import Verif.Props.Secure
import Verif.Model.Bootstrap
import Verif.Props.Bootstrap
import Verif.Model.Pending
import Verif.Props.Pending
import Verif.Model.AdminTools
import Verif.Props.AdminTools
import Verif.Model.Configs
import Verif.Props.Configs
import Verif.Model.Follow
import Verif.Props.Follow
import Verif.Model.OwnCommit
import Verif.Props.OwnCommit
import Verif.Model.ConsoleTools
import Verif.Props.ConsoleTools
import Verif.Props.Chunking
import Verif.Props.CutPacked
import Verif.Props.Ends
import Verif.Props.FlushPacked
import Verif.Model.Timers
import Verif.Props.Timers
import Verif.Props.InTime
import Verif.Model.Settings
import Verif.Props.Settings
import Verif.Model.Locks
import Verif.Props.Locks
import Verif.Model.Maps
import Verif.Props.Maps
import Verif.Spec.Coordinator
import Verif.Model.Generation
import Verif.Props.Generation
import Verif.Model.Holdings
import Verif.Props.Holdings
import Verif.Props.Leftover
import Verif.Model.Listing
import Verif.Model.AclTools
import Verif.Props.Listing
import Verif.Props.AclTools
import Verif.Model.ConsumerHold
import Verif.Model.MakeConsumers
import Verif.Props.ConsumerHold
import Verif.Props.MakeConsumers
import Verif.Lemmas.FetchLegacy
import Verif.Props.OldFormat
import Verif.Props.Always8
import Verif.Props.Always9
import Verif.Model.GroupTools
import Verif.Props.GroupTools
import Verif.Props.OldSplit
import Verif.Props.AclEscapes
import Verif.Props.SizeSplit
import Verif.Props.Always10
import Verif.Props.Lost
import Verif.Props.Reuse
import Verif.Props.Logged
import Verif.Props.Pace
import Verif.Props.Progress
import Verif.Props.Starting
import Verif.Props.Leaving
import Verif.Props.Starting2
import Verif.Props.ShortAuth
import Verif.Props.Sizes
import Verif.Props.Storage
import Verif.Props.Zero
import Verif.Props.Rejoin2
import Verif.Props.Deadline
import Verif.Props.Timed
import Verif.Props.Stamp
import Verif.Props.Asking
import Verif.Props.Written
import Verif.Props.Again
import Verif.Props.Limit
import Verif.Props.Murmur
import Verif.Props.Mixed
import Verif.Props.SizeCut
import Verif.Props.ClosedProducer
import Verif.Props.NilFilter
import Verif.Props.HeadCut
import Verif.Props.LeaderGone
import Verif.Props.FirstTwo
import Verif.Props.SplitLength
import Verif.Props.ResetEvery
import Verif.Props.ToolsEvery
import Verif.Props.StaleHeader
import Verif.Props.StaleAcls
import Verif.Props.StaleAcls2
import Verif.Props.OldAcls
import Verif.Props.OldPartitions
import Verif.Props.TwoTopics
import Verif.Props.ConfigMessage
import Verif.Props.OldProduce
import Verif.Props.PlusPlus
import Verif.Props.Described
