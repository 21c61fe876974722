import Verif.Basic
import Verif.Model.Config
import Verif.Model.Network
import Verif.Model.Plugin
import Verif.Model.Frag
import Verif.Model.Wolf
import Verif.Model.ConnCore
import Verif.Model.PmtudM
import Verif.Model.Msg
import Verif.Model.Flow
import Verif.Model.SslCtxM
import Verif.Model.Api
import Verif.Model.Client
import Verif.Model.Threads
import Verif.Spec.Threads
import Verif.Model.Utils
import Verif.Model.Stats
import Verif.Model.Conc
import Verif.Spec.Enums
import Verif.Spec.History
import Verif.Proofs.Frame
import Verif.Proofs.Inv
import Verif.Proofs.PmRange
import Verif.Proofs.Micro
import Verif.Proofs.Mss
import Verif.Proofs.Str
import Verif.Proofs.Trav1
import Verif.Proofs.Trav2
import Verif.Proofs.LogExt
import Verif.Proofs.Trav3
import Verif.Proofs.Trav4
import Verif.Proofs.Trav5
import Verif.Proofs.Tools
import Verif.Props.Demo
import Verif.Props.Trace
import Verif.Spec.Wire
import Verif.Proofs.Send
import Verif.Props.Trace2
import Verif.Props.Data
import Verif.Proofs.Sizes
import Verif.Proofs.Recv
import Verif.Spec.Tcp
import Verif.Props.MssP
import Verif.Props.Plugins
import Verif.Props.RoundTrip
import Verif.Proofs.Reasm
import Verif.Proofs.FragInv
import Verif.Proofs.Slot
import Verif.Spec.Frag
import Verif.Props.Reassembly
import Verif.Props.Reassembly2
import Verif.Proofs.Fine
import Verif.Proofs.Locate
import Verif.Spec.Net
import Verif.Props.Wire
import Verif.Props.Wire2
import Verif.Props.Wire3
import Verif.Props.Wire4
import Verif.Proofs.Ids
import Verif.Props.Session
import Verif.Spec.Sent
import Verif.Proofs.SentMsg
import Verif.Props.Sent
import Verif.Proofs.Creds
import Verif.Props.ConfigP
import Verif.Props.Tables
import Verif.Props.ConcP
import Verif.Props.Control
import Verif.Props.AuthP
import Verif.Proofs.Recv2
import Verif.Props.Push
import Verif.Props.Timer
import Verif.Props.PmtudP
import Verif.Props.PathP
import Verif.Props.Rotation
import Verif.Props.Veto
import Verif.Props.Life
import Verif.Proofs.NoMsg
import Verif.Props.Screen
import Verif.Props.Handshake
import Verif.Spec.Connect
import Verif.Proofs.Connect
import Verif.Props.Connect
import Verif.Props.Login
import Verif.Props.Settings
import Verif.Spec.Receive
import Verif.Props.Receive
import Verif.Props.Receive2
import Verif.Props.Reassembly3
import Verif.Model.Heap
import Verif.Spec.Heap
import Verif.Proofs.HeapP
import Verif.Proofs.HeapP2
import Verif.Proofs.HeapP3
import Verif.Proofs.HeapP4
import Verif.Proofs.HeapP5
import Verif.Proofs.HeapP6
import Verif.Props.Memory
import Verif.Spec.Timer
import Verif.Props.NudgeTime
import Verif.Model.CtxLife
import Verif.Spec.Ctx
import Verif.Props.CtxP
import Verif.Props.EndToEnd
import Verif.Props.Stream
import Verif.Model.Getters
import Verif.Props.Getters
import Verif.Props.SendResult
import Verif.Props.AllocP
import Verif.Spec.Nested
import Verif.Proofs.ReenterId
import Verif.Proofs.Nested
import Verif.Proofs.Nested2
import Verif.Proofs.Nested3
import Verif.Props.ReenterP
import Verif.Model.Reenter
import Verif.Spec.Link
import Verif.Proofs.Link
import Verif.Proofs.Link2
import Verif.Proofs.Link3
import Verif.Props.LinkP
import Verif.Props.Diagnosis
import Verif.Props.Spread
import Verif.Spec.Reneg
import Verif.Proofs.Calm
import Verif.Proofs.Calm2
import Verif.Props.Reneg
import Verif.Props.Survive
import Verif.Spec.Budget
import Verif.Props.Budget
import Verif.Props.Report
import Verif.Props.Across
import Verif.Model.Null
import Verif.Spec.Null
import Verif.Props.Null
import Verif.Props.Secret
import Verif.Props.Traffic
import Verif.Props.Tunnel
import Verif.Props.Stale
import Verif.Props.ThreadsP
import Verif.Model.ConcIds
import Verif.Model.ConcStop
import Verif.Props.ConcIdsP
import Verif.Props.ConcStopP
import Verif.Props.Record
import Verif.Props.Inside
import Verif.Spec.Quiet
import Verif.Proofs.Quiet
import Verif.Props.QuietP
import Verif.Model.ConcCall
import Verif.Model.ConcFrag
import Verif.Model.ConcSess
import Verif.Model.ConcTime
import Verif.Model.ConcReneg
import Verif.Props.ConcCallP
import Verif.Props.ConcFragP
import Verif.Props.ConcSessP
import Verif.Props.CopyP
import Verif.Props.ConcTimeP
import Verif.Props.MtuText
import Verif.Props.ConcRenegP
