import Verif.Model.Keys
import Verif.Model.Cbc
import Verif.Model.Proto
import Verif.Model.Store
import Verif.Model.Groups
import Verif.Model.PreKeys
import Verif.Model.Misc
import Verif.Props.Agreement
import Verif.Props.Bytes
import Verif.Props.KeyGen
import Verif.Props.Text
import Verif.Props.Cbc
import Verif.Props.Provision
import Verif.Props.Wire
import Verif.Props.Parse
import Verif.Props.Window
import Verif.Props.Auth
import Verif.Props.Serialise
import Verif.Props.Stores
import Verif.Props.PreKeyFlow
import Verif.Props.Ratchet
import Verif.Props.Archive
import Verif.Props.Bounds
import Verif.Props.Sending
import Verif.Props.PreKeyWrap
import Verif.Props.Concurrent
import Verif.Props.Crash
import Verif.Props.Groups
import Verif.Props.Groups2
import Verif.Props.Conversation
import Verif.Props.Buffers
import Verif.Props.Field
import Verif.Props.Scalar
import Verif.Props.Schedule
import Verif.Props.Setup
import Verif.Props.Fields
import Verif.Props.Sign
import Verif.Props.Point
import Verif.Proofs.Json
import Verif.Model.JsonTypes
import Verif.Props.Json
import Verif.Props.Damage
import Verif.Props.Accept
import Verif.Props.ByteStore
import Verif.Props.Secrecy
import Verif.Props.GroupSecrecy
import Verif.Props.Hostile
import Verif.Props.Rewrap
import Verif.Props.Random
import Verif.Props.Renewal
import Verif.Props.Recovery
import Verif.Props.GroupStores
import Verif.Props.Live
import Verif.Props.Crowd
import Verif.Props.Threads
import Verif.Props.TalkCrash
import Verif.Props.GroupTalk
import Verif.Props.GroupThreads
import Verif.Props.Cabinet
import Verif.Props.Authentic
import Verif.Props.Reformat
import Verif.Model.Logging
import Verif.Model.Async
import Verif.Spec.LogSpec
import Verif.Props.Logging
import Verif.Props.LogSecrets
import Verif.Props.Async
import Verif.Props.Robust
import Verif.Proofs.JsonBare
import Verif.Props.Nulls
import Verif.Props.GroupRobust
import Verif.Props.GroupAuth
import Verif.Spec.GroupTalkCrash
import Verif.Model.GroupCrash
import Verif.Props.GroupTalkCrash
import Verif.Props.Provenance
import Verif.Props.Lives
import Verif.Props.Reuse
import Verif.Model.GroupDeeds
import Verif.Props.GroupReuse
import Verif.Model.Whole
import Verif.Props.Whole
import Verif.Props.Once
import Verif.Props.Install
import Verif.Props.Bind
import Verif.Props.Handles
import Verif.Props.Joined
import Verif.Props.Steps
import Verif.Props.Work
import Verif.Props.LiveRobust
import Verif.Props.KeyAgree
import Verif.Props.Fingerprint
