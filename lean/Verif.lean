import Verif.Props.Wire
import Verif.Props.Fragment
import Verif.Props.Reassembly
import Verif.Props.Crypto
import Verif.Props.Messages
import Verif.Props.Profile
import Verif.Props.Data3
import Verif.Props.Data4
import Verif.Props.Data4Safe
import Verif.Props.Ake
import Verif.Props.Dake
import Verif.Props.DakeSafe
import Verif.Props.Smp
import Verif.Props.Smp4
import Verif.Props.Session
import Verif.Props.SessionUse
import Verif.Props.SessionData
import Verif.Props.SessionLife
import Verif.Props.SessionConsent
import Verif.Props.SessionExchange
import Verif.Props.SessionExchange3
import Verif.Props.SessionFragments
import Verif.Props.Account
import Verif.Props.SessionSmp
import Verif.Props.SessionEnd
import Verif.Props.SessionIsolation
import Verif.Spec.SessionInjects
import Verif.Props.SessionInjects
import Verif.Lemmas.PrimeQ
import Verif.Spec.SessionCrash
import Verif.Lemmas.SessionPoints
import Verif.Lemmas.SessionCrash
import Verif.Props.SessionCrash
import Verif.Spec.SessionList
import Verif.Props.SessionList
import Verif.Spec.SessionCalls
import Verif.Lemmas.SessionCalls
import Verif.Props.SessionCalls
import Verif.Spec.SessionFail
import Verif.Lemmas.SessionFail
import Verif.Props.SessionFail
import Verif.Spec.Regex
import Verif.Lemmas.Regex
import Verif.Props.Regex
import Verif.Lemmas.SmpAnswer
import Verif.Props.SessionSize
import Verif.Spec.SessionForged
import Verif.Props.SessionForged
import Verif.Lemmas.SessionCrossToy
import Verif.Props.SessionCross
import Verif.Props.SessionCross3
import Verif.Spec.Schedule
import Verif.Lemmas.Schedule
import Verif.Props.Schedule
import Verif.Spec.SessionAbort
import Verif.Lemmas.SessionAbortToy
import Verif.Props.SessionAbort
import Verif.Spec.Hiding
import Verif.Lemmas.Hiding
import Verif.Props.Hiding
import Verif.Spec.Soundness
import Verif.Lemmas.Soundness
import Verif.Props.Soundness
import Verif.Props.Deniable
import Verif.Props.DeniableKex
import Verif.Props.Work
import Verif.Spec.ForwardSecrecy
import Verif.Props.ForwardSecrecy
import Verif.Spec.KeyLog3
import Verif.Props.KeyLog3
import Verif.Spec.SmpBinding
import Verif.Lemmas.SmpIds
import Verif.Props.SmpBinding
import Verif.Spec.Healing
import Verif.Props.Healing
import Verif.Spec.SmpLeak
import Verif.Props.SmpLeak
import Verif.Props.Healing3
import Verif.Spec.LastReveal
import Verif.Props.LastReveal
import Verif.Spec.Forgery3
import Verif.Props.Forgery3
import Verif.Spec.Replay
import Verif.Lemmas.ReplayToy
import Verif.Props.Replay
import Verif.Spec.Covered
import Verif.Props.Covered
import Verif.Props.Downgrade
import Verif.Spec.Relabel
import Verif.Lemmas.RelabelToy
import Verif.Props.Relabel
import Verif.Spec.Transcript
import Verif.Props.Transcript
import Verif.Spec.Order
import Verif.Props.Order
import Verif.Props.OrderParts
import Verif.Props.OrderAccount
import Verif.Props.Secrecy
import Verif.Props.SecrecyTalk
import Verif.Props.SecrecyAke
import Verif.Spec.Agreement3
import Verif.Props.Agreement3
import Verif.Spec.Vouching
import Verif.Props.Vouching
import Verif.Props.Signature
