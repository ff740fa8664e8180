import Verif.Props.Glob
import Verif.Props.Auth
import Verif.Props.Middleware
import Verif.Props.Cache
import Verif.Props.Csrf
import Verif.Props.Mux
import Verif.Props.OAuth
import Verif.Props.Cors
import Verif.Props.Security
import Verif.Props.Pattern
import Verif.Props.Priority
import Verif.Props.Url
import Verif.Props.Route
import Verif.Props.Router
import Verif.Props.Complete
import Verif.Props.Fold
import Verif.Props.Response
import Verif.Props.Sse
import Verif.Props.Compress
import Verif.Props.Cookies
import Verif.Props.Pool
import Verif.Props.Stars
import Verif.Props.Readme
import Verif.Props.Flow
import Verif.Props.Assets
import Verif.Props.Guard
import Verif.Props.Serve
import Verif.Props.Dump
import Verif.Props.Build
import Verif.Props.Mixup
import Verif.Props.Stack
import Verif.Props.Sent
import Verif.Props.Race
import Verif.Props.Report
import Verif.Props.Config
import Verif.Props.Shadow
import Verif.Props.Once
import Verif.Props.Scope
import Verif.Props.Token
import Verif.Props.Events
import Verif.Props.Exact
import Verif.Props.Variables
import Verif.Props.Links
import Verif.Props.Browser
import Verif.Props.Hidden
import Verif.Props.Debug
import Verif.Props.Example
import Verif.Props.ExampleAuth
import Verif.Props.Stream
import Verif.Props.Takeover
import Verif.Props.Memo
import Verif.Props.Escape
import Verif.Props.Context
import Verif.Props.HighPriority
import Verif.Props.Construct
import Verif.Props.Reuse
import Verif.Props.Account
import Verif.Props.Head
import Verif.Props.App
import Verif.Props.Sharp
import Verif.Props.SharpResp
import Verif.Props.MuxSame
import Verif.Props.Nonce
import Verif.Props.Fields
import Verif.Props.Login
import Verif.Props.LoginFlow
import Verif.Props.Nested
import Verif.Props.Crash
import Verif.Props.Providers
import Verif.Props.SubRouter
import Verif.Props.Shared
import Verif.Props.Expose
import Verif.Props.Passing
import Verif.Props.Resume
import Verif.Props.Address
import Verif.Props.Interim
import Verif.Props.TailPriority
import Verif.Props.Silent
import Verif.Props.Cost
import Verif.Props.Chars
import Verif.Props.Corners
import Verif.Props.Names
import Verif.Props.Purpose
import Verif.Props.AnyCache
import Verif.Props.Refuse
import Verif.Props.Tabs
import Verif.Props.Stray
import Verif.Props.OnErrors
import Verif.Props.Long
import Verif.Props.LongApp
import Verif.Props.LongLogin
import Verif.Props.LoginWrapped
import Verif.Props.ShadowChain
import Verif.Props.ShadowText
import Verif.Props.ShadowServed
import Verif.Props.OrderLong
import Verif.Props.Many
import Verif.Props.Handled
import Verif.Props.SimpleRoutes
import Verif.Props.SimpleApp
import Verif.Props.Starts
import Verif.Audit
