import Verif.Props.Codec
import Verif.Props.Basic
import Verif.Props.Object
import Verif.Props.Import
import Verif.Props.Database
import Verif.Props.Request
import Verif.Props.Remote
import Verif.Props.History
import Verif.Props.Post
import Verif.Props.Transport
import Verif.Props.Device
import Verif.Props.Discovery
import Verif.Props.EndToEnd
import Verif.Props.Observers
import Verif.Props.Crash
import Verif.Props.Locks
import Verif.Props.Property
import Verif.Props.Builder
import Verif.Props.Interfaces
import Verif.Props.Memory
import Verif.Props.Handlers
import Verif.Props.MonoLight
import Verif.Props.Tools
import Verif.Props.RemoteNode
import Verif.Props.Network
import Verif.Props.NetworkList
import Verif.Props.NetworkDiscovery
import Verif.Props.Exchange
import Verif.Props.Servers
import Verif.Props.Atomic
import Verif.Props.Faults
import Verif.Props.Linear
import Verif.Spec.Answered
import Verif.Props.Answered
import Verif.Props.AnsweredFails
import Verif.Props.FromBytes
import Verif.Props.OwnDatabase
import Verif.Spec.OwnDatabase
import Verif.Spec.Session
import Verif.Spec.Concurrent
import Verif.Props.Session
import Verif.Props.Concurrent
import Verif.Props.WireProperty
import Verif.Spec.PropertyType
import Verif.Props.PropertyType
import Verif.Spec.Threads
import Verif.Props.Threads
import Verif.Spec.ThreadsCrash
import Verif.Props.ThreadsCrash
import Verif.Spec.Sequential
import Verif.Props.Sequential
import Verif.Model.Shared
import Verif.Spec.Shared
import Verif.Props.Shared
import Verif.Model.Sockets
import Verif.Spec.Sockets
import Verif.Props.Sockets
import Verif.Props.LogLevels
import Verif.Props.Waits
import Verif.Model.Logging
import Verif.Spec.Logging
import Verif.Props.Logging
import Verif.Model.Panics
import Verif.Spec.Panics
import Verif.Props.Panics
import Verif.Model.Descriptors
import Verif.Spec.Descriptors
import Verif.Props.Descriptors
import Verif.Model.Timed
import Verif.Spec.Timed
import Verif.Props.Timed
import Verif.Spec.Carried
import Verif.Props.Carried
import Verif.Spec.Told
import Verif.Spec.Known
import Verif.Spec.Chatter
import Verif.Props.Told
import Verif.Props.Known
import Verif.Props.Chatter
import Verif.Props.Chorus
import Verif.Props.Noise
import Verif.Instances.Codec
import Verif.Instances.Object
import Verif.Instances.Request
import Verif.Instances.Post
import Verif.Instances.Calls
