import Verif.Model.Trie

/-!
# The router (`router/router.go`)
-/

namespace Gofre.Path

/-- `ParseURLPath` and `Match` for one request, as called by `ServeHTTP`
(`router/router.go:78-86`); `buf` is the segment buffer, `fuel` bounds the main loop of `Match`
(`none` = not finished yet). -/
def lookup (x : Ext) (ci : Bool) (m : Matcher) (path : Str) (buf : List USeg) (fuel : Nat) : Option MRes :=
  match parseURLPath path buf with
  | none => some .panic
  | some segs => matchM (matchUrl x ci path) m segs fuel

/-- `PathVar` (`router/path/matching_context.go:53-89`) for a request whose path was split into
`segs` and whose match gave `p` and `labels`; `none` = the slice expression panics. -/
def pathVarText (path : Str) (p : Pattern) (labels : List MT) (segs : List USeg) (name : Str) : Option Str :=
  match pathVar p labels segs name with
  | none => some []
  | some u => sliceU path u

/-- ASCII part of `unicode.ToUpper`. -/
def upperByte (c : UInt8) : UInt8 := if 97 ≤ c ∧ c ≤ 122 then c - 32 else c

/-- `strings.ToUpper`: byte by byte for ASCII text, otherwise not modelled. -/
def toUpper (other : Str → Str) (s : Str) : Str := if s.all (· < 128) then s.map upperByte else other s

/-- `Router` (`router/router.go:24-28`).  The map is a function from method names. -/
structure Router where
  ci : Bool
  matchers : Str → Option Matcher

/-- `NewRouter` (`router/router.go:33-42`), and with `false` `NewRouterWithDefaultConfig` (`router/router.go:30-32`). -/
def newRouter (ci : Bool) : Router := ⟨ci, fun _ => none⟩

/-- Outcome of `Handle`: the router afterwards and whether it panicked, or no return. -/
inductive HandleRes
  | returned (r : Router)
  | panicked (r : Router)
  | hangs

/-- `Handle` (`router/router.go:46-62`); `h` identifies the handler. -/
def handle (x : Ext) (other : Str → Str) (srt : List Node → List Node) (r : Router) (method pat : Str) (h : Nat) : HandleRes :=
  match parsePattern x r.ci pat with
  | .error => .panicked r
  | .panic => .panicked r
  | .hangs => .hangs
  | .ok p =>
    match addPattern x r.ci srt ((r.matchers (toUpper other method)).getD {}) { p with attachment := h } with
    | (m, err) =>
      let r' : Router := { r with matchers := fun k => if k = toUpper other method then some m else r.matchers k }
      if err then .panicked r' else .returned r'

/-- How a handler behaves: it fails, panics, returns no response, or returns a response whose
`Write` succeeds or fails. -/
inductive Behaviour
  | fails
  | panics
  | noResponse
  | responds (writeFails : Bool)
  deriving DecidableEq, Repr

/-- What can be observed of a request. -/
inductive Event
  | status (code : Nat)
  | ran (h : Nat)
  | wrote (h : Nat)
  | logged
  | panic
  deriving DecidableEq, Repr

/-- The part of `ServeHTTP` after matching (`router/router.go:86-103`). -/
def finish (behave : Nat → Behaviour) : MRes → List Event
  | .panic => [.panic]
  | .none => [.status 404]
  | .found p _ =>
    .ran p.attachment ::
      match behave p.attachment with
      | .panics => [.panic]
      | .fails => [.logged, .status 500]
      | .noResponse => [.panic]
      | .responds false => [.wrote p.attachment]
      | .responds true => [.wrote p.attachment, .logged]

/-- `ServeHTTP` (`router/router.go:66-104`). -/
def serveHTTP (x : Ext) (other : Str → Str) (r : Router) (behave : Nat → Behaviour) (method path : Str) (buf : List USeg)
    (fuel : Nat) : Option (List Event) :=
  match parseURLPath path buf with
  | none => some [.panic]
  | some segs =>
    match r.matchers (toUpper other method) with
    | none => some [.status 404]
    | some m => (matchM (matchUrl x r.ci path) m segs fuel).map (finish behave)

end Gofre.Path
