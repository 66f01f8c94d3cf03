import Verif.Model.Basic
import Verif.Model.Win
import Verif.Model.Utils
import Verif.Model.Info
import Verif.Model.Reply
import Verif.Model.Msg
import Verif.Model.Ntlm
import Verif.Model.Net
import Verif.Model.Client
import Verif.Model.Uri
import Verif.Spec.Stream
import Verif.Lemmas.Codec
import Verif.Lemmas.Net
import Verif.Lemmas.Fields
import Verif.Lemmas.Client
import Verif.Props.Transport
import Verif.Spec.Log
import Verif.Spec.Smb
import Verif.Spec.Ops
import Verif.Lemmas.Trace
import Verif.Lemmas.Frames
import Verif.Lemmas.Mids
import Verif.Props.Session
import Verif.Lemmas.Demo
import Verif.Props.Ids
import Verif.Spec.Header
import Verif.Lemmas.Text
import Verif.Lemmas.Parse
import Verif.Lemmas.Header
import Verif.Lemmas.Bits
import Verif.Props.Codec
import Verif.Spec.Text
import Verif.Spec.Requests
import Verif.Lemmas.Wide
import Verif.Lemmas.Bodies
import Verif.Lemmas.Login
import Verif.Props.Requests
import Verif.Lemmas.Open
import Verif.Lemmas.Recv
import Verif.Lemmas.Sim
import Verif.Props.Streams
import Verif.Spec.Servers
import Verif.Lemmas.Answer
import Verif.Lemmas.Decode
import Verif.Lemmas.DemoReplies
import Verif.Lemmas.Masks
import Verif.Props.Decode
import Verif.Props.Replies
import Verif.Props.Setup
import Verif.Spec.Replies
import Verif.Lemmas.Flow
import Verif.Lemmas.Step
import Verif.Spec.Login
import Verif.Lemmas.Short
import Verif.Props.Login
import Verif.Lemmas.Determined
import Verif.Lemmas.Ends
import Verif.Props.Connect
import Verif.Props.Endings
import Verif.Spec.Connect
import Verif.Lemmas.Drop
import Verif.Lemmas.Notify
import Verif.Lemmas.OddText
import Verif.Lemmas.Transact
import Verif.Props.Notify
import Verif.Spec.Notify
import Verif.Lemmas.Collect
import Verif.Lemmas.Entries
import Verif.Lemmas.Gather
import Verif.Lemmas.Trans2
import Verif.Props.Entries
import Verif.Props.Reassembly
import Verif.Spec.Entries
import Verif.Spec.Reassembly
import Verif.Lemmas.Panic
import Verif.Props.Panic
import Verif.Spec.Panic
import Verif.Lemmas.DemoFiles
import Verif.Lemmas.Download
import Verif.Props.Download
import Verif.Spec.Download
import Verif.Lemmas.Listing
import Verif.Props.Listing
import Verif.Spec.Listing
import Verif.Lemmas.Ntlm
import Verif.Props.Ntlm
import Verif.Spec.Ntlm
import Verif.Lemmas.Regex
import Verif.Lemmas.Uri
import Verif.Lemmas.UriSplit
import Verif.Props.Uri
import Verif.Spec.Uri
import Verif.Model.Crypto
import Verif.Props.Tests
import Verif.Lemmas.Crash
import Verif.Props.Crash
import Verif.Spec.Crash
import Verif.Props.CrashDownload
import Verif.Props.CrashListing
import Verif.Spec.CrashListing
import Verif.Model.Display
import Verif.Props.Display
import Verif.Spec.Status
import Verif.Props.LoginHeaders
import Verif.Spec.LoginHeaders
import Verif.Props.Service
import Verif.Props.Store
import Verif.Spec.Service
import Verif.Lemmas.Through
import Verif.Props.Consumed
import Verif.Props.InStep
import Verif.Spec.InStep
import Verif.Props.Door
import Verif.Props.Gate
import Verif.Spec.Door
import Verif.Props.Secrets
import Verif.Lemmas.Said
import Verif.Props.Said
import Verif.Spec.Told
import Verif.Props.Only
import Verif.Lemmas.Cause
import Verif.Lemmas.CauseBody
import Verif.Lemmas.CauseSearch
import Verif.Props.Cause
import Verif.Spec.Cause
import Verif.Lemmas.LoginCause
import Verif.Props.LoginCause
import Verif.Spec.LoginCause
import Verif.Lemmas.Alike
import Verif.Props.Alike
import Verif.Spec.Alike
import Verif.Lemmas.Blind
import Verif.Lemmas.Debug
import Verif.Model.Debug
import Verif.Props.Password
import Verif.Spec.Blind
import Verif.Lemmas.Size
import Verif.Props.Size
import Verif.Spec.Size
import Verif.Lemmas.Turns
import Verif.Props.Turns
import Verif.Spec.Turns
import Verif.Model.Alloc
import Verif.Props.Alloc
import Verif.Props.Failure
import Verif.Props.Endless
import Verif.Props.Disk
import Verif.Spec.Disk
import Verif.Props.Standard
import Verif.Spec.Standard
import Verif.Model.Flags
import Verif.Props.Flags
import Verif.Spec.Flags
import Verif.Props.Searches
import Verif.Props.Limits
import Verif.Props.Sizes
import Verif.Lemmas.Des
import Verif.Props.Replay
import Verif.Props.Shared
import Verif.Spec.Shared
import Verif.Props.Watch
import Verif.Spec.Watch
import Verif.Props.Terms
import Verif.Spec.Terms
import Verif.Props.Wild
import Verif.Spec.Wild
import Verif.Props.Lends
import Verif.Spec.Lends
import Verif.Props.Heard
import Verif.Spec.Heard
import Verif.Props.Names
import Verif.Spec.Names
import Verif.Props.Copy
import Verif.Spec.Copy
import Verif.Props.Strange
import Verif.Spec.Strange
import Verif.Props.Dead
import Verif.Spec.Dead
import Verif.Props.Between
import Verif.Spec.Between
import Verif.Props.Numbers
import Verif.Spec.Numbers
import Verif.Lemmas.Contents
import Verif.Props.Contents
import Verif.Spec.Contents
import Verif.Props.Late
import Verif.Spec.Late
import Verif.Props.Fetch
import Verif.Spec.Fetch
import Verif.Props.Terminated
import Verif.Props.Ceiling
import Verif.Props.Wrapped
import Verif.Props.Pages
import Verif.Lemmas.Logged
import Verif.Model.Logged
import Verif.Props.Logged
import Verif.Spec.Logged
import Verif.Lemmas.Account
import Verif.Props.SessionRequest
import Verif.Props.Cut
import Verif.Lemmas.LoggedContents
import Verif.Props.LoggedContents
import Verif.Props.Oem
import Verif.Spec.Oem
import Verif.Props.LoginSizes
import Verif.Spec.LoginSizes
import Verif.Props.LogText
import Verif.Props.NtlmParts
import Verif.Spec.NtlmParts
import Verif.Props.Upper
import Verif.Lemmas.LoggedCuts
import Verif.Props.LoggedCuts
import Verif.Lemmas.Anytime
import Verif.Props.Anytime
import Verif.Spec.Anytime
import Verif.Lemmas.Late
import Verif.Props.Belated
import Verif.Lemmas.Blame
import Verif.Props.Blame
import Verif.Spec.Blame
import Verif.Props.BlameText
import Verif.Props.Noise
import Verif.Props.LateLogin
import Verif.Props.DeadLogin
import Verif.Props.Fresh
import Verif.Spec.Fresh
import Verif.Props.NumbersLogin
import Verif.Props.Adaptive
import Verif.Spec.Follows
import Verif.Props.GateOpen
import Verif.Props.SharedReads
import Verif.Props.OpenDisk
