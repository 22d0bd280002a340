import Verif.Props.Lock
import Verif.Props.Cbc
import Verif.Props.CbcBuf
import Verif.Props.Gcm
import Verif.Props.Hmac
import Verif.Props.Rsa
import Verif.Props.EcSig
import Verif.Props.Ops
import Verif.Props.Codec
import Verif.Props.StoreName
import Verif.Props.DhDer
import Verif.Props.AttrGet
import Verif.Props.AttrFlags
import Verif.Props.AttrData
import Verif.Props.EcDer
import Verif.Props.Lists
import Verif.Props.KeyGen
import Verif.Props.SessClose
import Verif.Props.Pin
import Verif.Props.Objs
import Verif.Props.Private
import Verif.Props.Find
import Verif.Props.ReadOnly
import Verif.Props.InUse
import Verif.Props.Usage
import Verif.Props.Visible
import Verif.Props.SignVerify
import Verif.Props.Restart
import Verif.Props.Reload
import Verif.Props.Crash
import Verif.Props.AtRest
import Verif.Props.Leftover
import Verif.Props.Pair
import Verif.Props.InitParam
import Verif.Props.Isolated
import Verif.Props.History
import Verif.Props.Conc
import Verif.Props.ConcPin
import Verif.Props.ConcTries
import Verif.Props.StreamHist
import Verif.Props.Lives
import Verif.Props.Wrap
import Verif.Props.Races
import Verif.Props.Typed
import Verif.Props.Derive
import Verif.Props.Agree
import Verif.Props.Copy
import Verif.Props.Rest
import Verif.Props.Lockout
import Verif.Props.Sess
import Verif.Props.Threads
import Verif.Props.Begun
import Verif.Props.Fault
import Verif.Props.Safe
import Verif.Props.Template
import Verif.Props.ConcAuth
import Verif.Props.ConcLogin
import Verif.Props.ConcObj
import Verif.Props.Origin
import Verif.Props.ConcSess
import Verif.Props.ConcInit
import Verif.Props.KeyKept
import Verif.Props.Lasting
import Verif.Props.Durable
import Verif.Props.Alloc
import Verif.Props.Trace
import Verif.Props.AllocOp
import Verif.Props.Codes
import Verif.Props.Sealed
import Verif.Props.Label
import Verif.Props.Search
import Verif.Props.Erase
import Verif.Props.Stale
import Verif.Props.PublicKey
import Verif.Props.Counters
import Verif.Props.Starve
import Verif.Props.Each
import Verif.Props.Access
import Verif.Props.Orderly
import Verif.Props.ConcMake
import Verif.Props.Ledger
import Verif.Props.LedgerRestart
import Verif.Props.Listing
import Verif.Props.Import
import Verif.Props.ImportPair
import Verif.Props.ConcReset
import Verif.Props.ConcLast
import Verif.Props.Silent
import Verif.Props.ConcSet
import Verif.Props.SilentTok
import Verif.Props.LastSet
import Verif.Props.Sought
import Verif.Props.Enduring
import Verif.Props.Imported
import Verif.Props.TokenPair
import Verif.Props.ImportedPair
import Verif.Props.PairShown
import Verif.Props.OrderlyAgree
import Verif.Props.OneSlip
import Verif.Props.FaultGen
import Verif.Props.BufHist
import Verif.Props.Buffers
import Verif.Props.OneMessage
import Verif.Props.SizeHist
import Verif.Props.VerifyHist
import Verif.Props.Single
import Verif.Props.SingleCbc
import Verif.Props.SignHist
