import Verif.Props.Bcd
import Verif.Props.Addr
import Verif.Props.Assoc
import Verif.Props.Lai
import Verif.Props.IuRegistry
import Verif.Props.IuSafe
import Verif.Props.IuFlow
import Verif.Props.IuRelease
import Verif.Props.IuLink
import Verif.Props.IuInit
import Verif.Props.Ie
import Verif.Props.Dispatch
import Verif.Props.Factory
import Verif.Props.FactoryRx
import Verif.Props.FactoryMsgs
import Verif.Props.FactorySec
import Verif.Props.FactoryRab
import Verif.Props.FactoryEmpty
import Verif.Props.FactoryMem
import Verif.Props.Rua
import Verif.Props.CauseStr
import Verif.Props.Vty
import Verif.Props.IuBufs
import Verif.Props.AsnIes
import Verif.Props.Aper
import Verif.Props.Linked
import Verif.Props.Generate
import Verif.Props.Compose
import Verif.Props.Hnb
import Verif.Props.HnbMem
import Verif.Props.AsnToStruct
import Verif.Props.AsnTables
import Verif.Props.AsnSpec
import Verif.Props.AsnNames
import Verif.Props.AsnTypes
import Verif.Props.HnbOut
import Verif.Props.HnbRecv
import Verif.Props.Events
import Verif.Props.Ends
import Verif.Props.HnbClient
import Verif.Props.HnbPaging
import Verif.Props.HnbReset
import Verif.Props.Asn
import Verif.Props.Size
import Verif.Props.Leak
import Verif.Props.Session
import Verif.Props.Parallel
import Verif.Props.RabParams
import Verif.Props.Conditional
import Verif.Props.Dialogue
import Verif.Props.IuMem
import Verif.Props.IuL2
import Verif.Props.IuReset
import Verif.Props.Vectors
import Verif.Props.Relay
import Verif.Props.Origin
import Verif.Props.Scarce
import Verif.Props.ScarceSec
import Verif.Props.ScarceRab
import Verif.Props.ScarceIu
import Verif.Props.ImsiChars
import Verif.Props.ScarceRec
import Verif.Props.ScarceAll
import Verif.Props.IuAmount
import Verif.Props.HnbAmount
import Verif.Spec.IuSays
import Verif.Proofs.IuSays
import Verif.Props.IuSays
import Verif.Spec.IuHears
import Verif.Proofs.IuHears
import Verif.Props.IuHears
