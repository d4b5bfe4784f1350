import Verif.Props.Packet
import Verif.Props.Registry
import Verif.Props.Serde
import Verif.Props.Trx
import Verif.Props.Codecs
import Verif.Props.Hid
import Verif.Props.Trace
import Verif.Props.Handlers
import Verif.Props.Replies
import Verif.Props.Server
import Verif.Props.Replay
import Verif.Props.View
import Verif.Props.Constants
import Verif.Props.Device
import Verif.Props.Alias
import Verif.Props.Text
import Verif.Props.Listing
import Verif.Props.Online
import Verif.Props.Session
import Verif.Props.Protocol
import Verif.Props.Fits
import Verif.Props.Log
import Verif.Props.LogServer
import Verif.Props.LogView
import Verif.Props.LogDevice
import Verif.Props.Handshake
import Verif.Props.Orders
import Verif.Props.Tags
import Verif.Props.Record
import Verif.Props.Course
import Verif.Props.Cli
import Verif.Props.TraceFile
import Verif.Props.Unnoticed
import Verif.Props.RepoTests
import Verif.Props.Encode
import Verif.Props.Afresh
import Verif.Props.Grouping
import Verif.Props.Load
import Verif.Props.Loss
import Verif.Props.Stack
import Verif.Props.Repeat
import Verif.Props.Toolchain
import Verif.Props.Sending
import Verif.Props.Packages
import Verif.Props.Damage
import Verif.Props.ViewAll
import Verif.Props.Repeats
import Verif.Props.Unambiguous
import Verif.Props.SerdeExact
import Verif.Props.TransportExact
import Verif.Props.ErrText
import Verif.Props.LogTextTrace
import Verif.Props.LogTextFrames
import Verif.Props.LogText
import Verif.Props.CliText
import Verif.Props.CliMore
import Verif.Props.Single
import Verif.Props.Any
import Verif.Props.Memory
import Verif.Props.Together
import Verif.Props.Emulator
import Verif.Props.Gadget
import Verif.Props.FindOut
import Verif.Props.Playback
import Verif.Props.PlaybackView
import Verif.Props.Effects
import Verif.Props.Voice
import Verif.Props.Order
import Verif.Props.Fewest
import Verif.Props.Writers
import Verif.Props.Lossy
import Verif.Props.OldLog
import Verif.Props.Damaged
import Verif.Props.Recover
import Verif.Props.Callers
import Verif.Props.Confirmed
import Verif.Props.Readers
import Verif.Props.Listeners
import Verif.Props.ReadersLock
import Verif.Props.Racers
import Verif.Props.RacersFiner
import Verif.Props.RacersParts
import Verif.Props.RacersOrder
