import Verif.Props.Aead
import Verif.Props.KeySchedule
import Verif.Props.Crypter
import Verif.Props.Handshake
import Verif.Props.Frame
import Verif.Props.Options
import Verif.Props.Context
import Verif.Props.Proxy
import Verif.Props.ProxyExact
import Verif.Props.Race
import Verif.Props.Adversary
import Verif.Props.Orderly
import Verif.Props.Failure
import Verif.Props.UpdateExact
import Verif.Props.AeadSmall
import Verif.Props.Peer
import Verif.Props.EndToEnd
import Verif.Props.Ends
import Verif.Props.Threads
import Verif.Props.Limits
import Verif.Props.Destroy
import Verif.Props.Senders
import Verif.Props.FrameEmpty
import Verif.Props.Heap
import Verif.Props.Amount
import Verif.Props.Sizes
import Verif.Props.Group
import Verif.Props.HandshakeExact
import Verif.Props.Undefined
import Verif.Props.Wire
import Verif.Props.Text
import Verif.Props.Schema
import Verif.Props.Relay
import Verif.Props.NoMemory
import Verif.Props.Reference
import Verif.Props.Lapse
import Verif.Props.RaceExact
import Verif.Spec.HappensBefore
import Verif.Lemmas.HappensBefore
import Verif.Props.HappensBefore
import Verif.Props.Alike
import Verif.Props.Roomy
import Verif.Props.Handover
import Verif.Props.Secrets
import Verif.Props.Status
import Verif.Props.Reflect
import Verif.Props.Again
import Verif.Props.Hostile
import Verif.Props.Channel
import Verif.Props.CryptoStatus
import Verif.Props.Callback
import Verif.Props.InPlace
import Verif.Props.Current
import Verif.Props.HashTable
import Verif.Props.NoChacha
import Verif.Props.Forms
import Verif.Props.AeadUndefined
import Verif.Props.KeyNonce
import Verif.Props.Padding
import Verif.Props.ProxyThreads
import Verif.Props.Blame
import Verif.Props.Says
import Verif.Props.ErrQueue
import Verif.Props.Size64
import Verif.Props.IntCast
import Verif.Props.Views
import Verif.Props.Groups
import Verif.Props.NullCopy
import Verif.Props.NullCopyFrame
import Verif.Spec.Std
import Verif.Conform.Lib
import Verif.Conform.Aead
import Verif.Conform.AesGcmVectors
import Verif.Conform.ChachaVectors
import Verif.Conform.Data
import Verif.Conform.Keys
import Verif.Conform.Record
import Verif.Conform.RecordFaults
import Verif.Conform.RecordUpdates
import Verif.Props.HandlerCalls
import Verif.Conform.Handler
import Verif.Conform.Handshaker
import Verif.Conform.Frame
import Verif.Model.Helpers
import Verif.Props.Helpers
import Verif.Spec.AeadSays
import Verif.Lemmas.AeadSays
import Verif.Props.AeadSays
import Verif.Spec.RecordSays
import Verif.Props.RecordSays
import Verif.Spec.FrameSays
import Verif.Props.FrameSays
