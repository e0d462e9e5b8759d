import Verif.Props.Escape
import Verif.Props.Redundancy
import Verif.Props.Crc
import Verif.Props.Frames
import Verif.Props.Bcd
import Verif.Props.Text
import Verif.Model.Connection
import Verif.Props.Requests
import Verif.Props.Responses
import Verif.Props.Security
import Verif.Props.State
import Verif.Props.Connection
import Verif.Props.Transport
import Verif.Props.Parameters
import Verif.Props.Schemas
import Verif.Props.Client
import Verif.Props.Wire
import Verif.Props.Link
import Verif.Props.History
import Verif.Props.Codes
import Verif.Props.Integration
import Verif.Props.Distinct
import Verif.Model.Repr
import Verif.Model.Log
import Verif.Spec.Log
import Verif.Props.Repr
import Verif.Props.Log
import Verif.Props.Trail
import Verif.Props.CallLog
import Verif.Spec.Device
import Verif.Spec.Damage
import Verif.Props.Device
import Verif.Lemmas.Damage
import Verif.Props.Damage
import Verif.Props.Garbled
import Verif.Props.EndToEnd
import Verif.Props.Program
import Verif.Props.Lifecycle
import Verif.Model.Tasks
import Verif.Spec.Tasks
import Verif.Props.Tasks
import Verif.Props.Threads
import Verif.Props.Own
import Verif.Props.ProgramLog
import Verif.Props.HeapStep
import Verif.Props.Heap
import Verif.Lemmas.Aes
import Verif.Conformance
import Verif.Props.Float
import Verif.Props.Work
import Verif.Props.ReadBack
import Verif.Props.JsonText
import Verif.Model.Assign
import Verif.Spec.Assign
import Verif.Props.Assign
import Verif.Spec.Crash
import Verif.Props.Crash
import Verif.Model.Texts
import Verif.Spec.Texts
import Verif.Props.Texts
import Verif.Spec.Blind
import Verif.Props.Blind
import Verif.Props.Unused
import Verif.Model.Equal
import Verif.Spec.Equal
import Verif.Lemmas.Equal
import Verif.Props.Equal
import Verif.Model.Edited
import Verif.Spec.Edited
import Verif.Lemmas.Edited
import Verif.Props.Edited
import Verif.Spec.Timing
import Verif.Spec.Interrupt
import Verif.Model.Args
import Verif.Spec.Args
import Verif.Props.Timing
import Verif.Props.Interrupt
import Verif.Props.Args
import Verif.Model.Cut
import Verif.Spec.Cut
import Verif.Props.Cut
import Verif.Model.Compare
import Verif.Spec.Compare
import Verif.Props.Compare
import Verif.Spec.Arrival
import Verif.Props.Arrival
import Verif.Model.AnyConn
import Verif.Spec.AnyConn
import Verif.Props.AnyConn
import Verif.Spec.Shown
import Verif.Props.Shown
import Verif.Spec.Aes
import Verif.Lemmas.AesFips
import Verif.Props.Aes
import Verif.Model.Chain
import Verif.Spec.Chain
import Verif.Props.Chain
import Verif.Model.Lock
import Verif.Spec.Lock
import Verif.Props.Lock
import Verif.Props.LockCalls
import Verif.Props.JsonGrammar
import Verif.Spec.PageLog
import Verif.Props.PageLog
import Verif.Props.SendExact
import Verif.Props.Served
import Verif.Spec.Retry
import Verif.Spec.Moments
import Verif.Props.Retry
import Verif.Props.Moments
