import Verif.Model.Handler

/-!
# What browsers read

Written from the Fetch standard (CORS protocol, CORS-preflight fetch) and RFC 6797, not from the code.
-/

namespace Gofre.Spec

/-- A visible ASCII text without commas: what method and header names are made of. -/
def NameText (s : Str) : Prop := s ≠ [] ∧ ∀ b ∈ s, 33 ≤ b ∧ b ≤ 126 ∧ b ≠ 44

instance (s : Str) : Decidable (NameText s) := by unfold NameText; infer_instance

/-- The text in small letters. -/
def small (s : Str) : Str := s.map fun b => if 65 ≤ b ∧ b ≤ 90 then b + 32 else b

/-- Space and tab. -/
def blank (b : UInt8) : Bool := b == 32 || b == 9

/-- The text without blanks around it. -/
def unblank (s : Str) : Str := ((s.dropWhile blank).reverse.dropWhile blank).reverse

/-- The members of a comma-separated header value. -/
def members (v : Str) : List Str := ((splitOn 44 v).map unblank).filter (· ≠ [])

/-- The members of a header, none when it is absent. -/
def membersOf (hd : Map Str) (k : Str) : List Str :=
  match Map.get? hd k with
  | some v => members v
  | none => []

/-- A cross-origin request that a script wants to make: from where, with which method, which header names that need permission, and whether
with cookies. -/
structure Wish where
  origin : Str
  method : Str
  names : List Str
  credentials : Bool

/-- The CORS check: the script may read the response. -/
def Readable (w : Wish) (hd : Map Str) : Prop :=
  ∃ v, Map.get? hd b!"Access-Control-Allow-Origin" = some v ∧
    ((v = b!"*" ∧ w.credentials = false) ∨
      (v = w.origin ∧ (w.credentials = true → Map.get? hd b!"Access-Control-Allow-Credentials" = some b!"true")))

/-- The answer to a preflight lets the browser send the request: the CORS check, the method by its exact spelling (or one of the three that
need no permission), every header name whatever its letters; `*` stands for all but `Authorization` when no cookies are sent. -/
def Granted (w : Wish) (hd : Map Str) : Prop :=
  Readable w hd ∧
  (w.method ∈ [b!"GET", b!"HEAD", b!"POST"] ∨ w.method ∈ membersOf hd b!"Access-Control-Allow-Methods" ∨
    (w.credentials = false ∧ b!"*" ∈ membersOf hd b!"Access-Control-Allow-Methods")) ∧
  ∀ n ∈ w.names, (∃ a ∈ membersOf hd b!"Access-Control-Allow-Headers", small a = small n) ∨
    (w.credentials = false ∧ small n ≠ b!"authorization" ∧ b!"*" ∈ membersOf hd b!"Access-Control-Allow-Headers")

/-- The preflight for a wish. -/
structure Asks (w : Wish) (r : Req) : Prop where
  method : r.method = b!"OPTIONS"
  origin : Map.get? r.headers b!"Origin" = some [w.origin]
  wanted : Map.get? r.headers b!"Access-Control-Request-Method" = some [w.method]
  names : Map.get? r.headers b!"Access-Control-Request-Headers" = if w.names = [] then none else some [joinWith 44 w.names]

/-- The wished request itself; scripts cannot set `Access-Control-Request-Method`. -/
structure Sends (w : Wish) (r : Req) : Prop where
  method : r.method = w.method
  origin : Map.get? r.headers b!"Origin" = some [w.origin]
  plain : Map.get? r.headers b!"Access-Control-Request-Method" = none

/-- The value of a text of decimal digits. -/
def decimal (s : Str) : Option Nat :=
  if s ≠ [] ∧ s.all (fun b => 48 ≤ b && b ≤ 57) then some (s.foldl (fun n b => n * 10 + (b.toNat - 48)) 0) else none

/-- The directives of a `Strict-Transport-Security` value. -/
def directives (v : Str) : List Str := (splitOn 59 v).map fun d => small (unblank d)

/-- The `max-age` found by a browser; without it the header is ignored. -/
def stsAge (v : Str) : Option Nat :=
  (directives v).findSome? fun d => if b!"max-age=".isPrefixOf d then decimal (d.drop 8) else none

end Gofre.Spec
