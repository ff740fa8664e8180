import Verif.Spec.Pattern
import Verif.Spec.Priority
import Verif.Spec.Url
import Verif.Model.Router

/-!
# Which requests a pattern describes
-/

namespace Gofre.Spec
open Gofre.Path (Segment MT Ext Pattern)

/-- The text `u` of one request segment is described by the pattern segment `s`. -/
def Fit (x : Ext) (ci : Bool) (s : Segment) (u : Str) : Prop :=
  match s.kind with
  | .literal => u = s.val ∨ (ci = true ∧ x.eqFold u s.val = true)
  | .constraint => ∃ src, s.re = some src ∧ x.reMatch src u = true
  | .regex => Glob (sameLetter ci) s.val u
  | .capture => True
  | .single => True
  | .multiple => True
  | .unknown => False

/-- The segments `ss` laid over the request segments `us` in order: `bs` are the parts covered
by each.  A segment other than `**` covers exactly one, a final `**` at least one. -/
structure Layout (x : Ext) (ci : Bool) (ss : List Segment) (us : List Str) (bs : List (List Str)) : Prop where
  parts : All2 (fun s b => (s.kind ≠ .multiple → b.length = 1) ∧ ∀ u ∈ b, Fit x ci s u) ss bs
  joined : bs.flatten = us
  last : ∀ s, ss.getLast? = some s → s.kind = .multiple → bs.getLast? ≠ some []

/-- The pattern segments describe the request segments. -/
def Describes (x : Ext) (ci : Bool) (ss : List Segment) (us : List Str) : Prop := ∃ bs, Layout x ci ss us bs

/-- The text covered by the first variable called `name`. -/
def valueIn (name : Str) : List Segment → List (List Str) → Option Str
  | s :: ss, b :: bs =>
    if (s.kind = .capture ∨ s.kind = .constraint) ∧ s.varName = name then b.head? else valueIn name ss bs
  | _, _ => none

/-- Facts about the library functions: `strings.EqualFold` is an equivalence, and on ASCII text
it ignores exactly the case of letters. -/
structure FoldLaws (eqFold : Str → Str → Bool) : Prop where
  refl : ∀ a, eqFold a a = true
  symm : ∀ a b, eqFold a b = true → eqFold b a = true
  trans : ∀ a b c, eqFold a b = true → eqFold b c = true → eqFold a c = true
  ascii : ∀ a b, (∀ c ∈ a, c < 128) → (∀ c ∈ b, c < 128) → eqFold a b = true → All2 (sameLetter true) a b

/-- The segment is not a constraint whose expression starts with a brace (in case-insensitive mode `(?i)` is in front of it). -/
def Unbraced (ci : Bool) (s : Segment) : Prop := s.kind = .constraint → ci = false → ∀ src, s.re = some src → src.head? ≠ some 123

/-- Patterns without the texts on which sharing nodes goes wrong: constraints whose expression
starts with a brace, and in case-insensitive mode wildcards with non-ASCII text. -/
def Plain (ci : Bool) (s : Segment) : Prop :=
  Unbraced ci s ∧
  (s.kind = .regex → ci = true → ∀ c ∈ s.val, c < 128)

/-- The request text `u` does not end like what follows a `*` in the wildcard `v` (unless at most
one character follows): the situation in which comparing them is safe, see C03. -/
def WildSafe (ci : Bool) (v u : Str) : Prop :=
  ¬ ∃ a d e b c, v = a ++ 42 :: d :: e :: b ∧ u.getLast? = some c ∧ (d = 63 ∨ sameLetter ci c d)

/-- `Registered x ci srt ps m`: the matcher `m` is the result of registering patterns on a new
matcher; `ps` are those that were not refused, last one first. -/
inductive Registered (x : Ext) (ci : Bool) (srt : List Gofre.Path.Node → List Gofre.Path.Node) :
    List Pattern → Gofre.Path.Matcher → Prop
  | new : Registered x ci srt [] {}
  | added {ps m m' p} (raw : Str) (h : Nat) : Registered x ci srt ps m → Gofre.Path.parsePattern x ci raw = .ok p →
      Gofre.Path.addPattern x ci srt m { p with attachment := h } = (m', false) →
      Registered x ci srt ({ p with attachment := h } :: ps) m'
  | refused {ps m m' p} (raw : Str) (h : Nat) : Registered x ci srt ps m → Gofre.Path.parsePattern x ci raw = .ok p →
      Gofre.Path.addPattern x ci srt m { p with attachment := h } = (m', true) →
      Registered x ci srt ps m'

end Gofre.Spec

namespace Gofre.Spec
open Gofre.Path

/-- A route handed to the router: method, pattern text, handler. -/
structure Route where
  method : Str
  pat : Str
  handler : Nat

/-- `Built x other srt ci es r`: the router `r` is the result of calls to `Handle` on a new router;
`es` are those that returned, last one first (a panicking call may have been recovered). -/
inductive Built (x : Ext) (other : Str → Str) (srt : List Node → List Node) (ci : Bool) : List Route → Router → Prop
  | new : Built x other srt ci [] (newRouter ci)
  | returned {es r r'} (e : Route) : Built x other srt ci es r → handle x other srt r e.method e.pat e.handler = .returned r' →
      Built x other srt ci (e :: es) r'
  | panicked {es r r'} (e : Route) : Built x other srt ci es r → handle x other srt r e.method e.pat e.handler = .panicked r' →
      Built x other srt ci es r'

/-- The same method name up to the case of ASCII letters. -/
def SameMethod (a b : Str) : Prop := All2 (sameLetter true) a b

/-- ASCII text, as required of a method by HTTP. -/
def Ascii (s : Str) : Prop := ∀ c ∈ s, c < 128

/-- What is observed after handler `h` ran, depending on what it does. -/
inductive AfterRun (h : Nat) : Behaviour → List Event → Prop
  | failed : AfterRun h .fails [.logged, .status 500]
  | written : AfterRun h (.responds false) [.wrote h]
  | writeFailed : AfterRun h (.responds true) [.wrote h, .logged]
  | panicked : AfterRun h .panics [.panic]
  | nothing : AfterRun h .noResponse [.panic]

end Gofre.Spec

namespace Gofre.Spec
open Gofre.Path

/-- At the first position where the kinds differ, those of `ks` are the more specific ones. -/
def MoreSpecific (ks ks' : List MT) : Prop :=
  ∀ (i : Nat) (k k' : MT), ks.take i = ks'.take i → ks[i]? = some k → ks'[i]? = some k' → rank k ≤ rank k'

/-- The pattern has no `**` except possibly at its end. -/
def StarsLast (ss : List Segment) : Prop := ∀ a s b, ss = a ++ s :: b → s.kind = .multiple → b = []

end Gofre.Spec

namespace Gofre.Spec
open Gofre.Path

/-- The situation in which the wildcard `v` is compared with `u` exactly (see C02 and C03): the
comparison does not crash, and a final `*` of the wildcard is not needed to stand for nothing. -/
def WildExact (ci : Bool) (v u : Str) : Prop :=
  WildSafe ci v u ∧ ∀ q, v = q ++ [42] → ¬ Glob (sameLetter ci) q u

/-- The wildcards of the patterns are compared exactly with the request segments; in
case-insensitive mode all literal text is ASCII. -/
structure Faithful (ci : Bool) (ps : List Pattern) (us : List Str) : Prop where
  wild : ∀ p ∈ ps, ∀ s ∈ p.segments, s.kind = .regex → ∀ u ∈ us, WildExact ci s.val u
  pats : ci = true → ∀ p ∈ ps, ∀ s ∈ p.segments, s.kind = .literal → Ascii s.val
  request : ci = true → ∀ u ∈ us, Ascii u

/-- At most one of the wildcards of the patterns describes a request segment, up to repetition. -/
def Settled (x : Ext) (ci : Bool) (ps : List Pattern) (us : List Str) : Prop :=
  ∀ p ∈ ps, ∀ q ∈ ps, ∀ s ∈ p.segments, ∀ t ∈ q.segments, s.kind = .regex → t.kind = .regex → ∀ u ∈ us, Fit x ci s u → Fit x ci t u →
    s.val = t.val ∨ (ci = true ∧ x.eqFold s.val t.val = true)

end Gofre.Spec

namespace Gofre.Spec
open Gofre.Path

/-- Two segments that differ at most in the name of the variable and, in case-insensitive mode, in
the case of letters. -/
def SameSegment (x : Ext) (ci : Bool) (s t : Segment) : Prop :=
  s.kind = t.kind ∧
  (s.kind = .literal ∨ s.kind = .regex → s.val = t.val ∨ (ci = true ∧ x.eqFold s.val t.val = true)) ∧
  (s.kind = .constraint → s.re = t.re)

/-- Patterns that are the same up to the names of variables and, in case-insensitive mode, the case of letters. -/
def SameShape (x : Ext) (ci : Bool) (ss ts : List Segment) : Prop := All2 (SameSegment x ci) ss ts

end Gofre.Spec

namespace Gofre.Spec
open Gofre.Path

/-- The segments `ss` laid over the request segments `us`, as in `Describes` except that a final
`**` may cover nothing as well. -/
def Begins (x : Ext) (ci : Bool) (ss : List Segment) (us : List Str) : Prop :=
  ∃ bs, All2 (fun s b => (s.kind ≠ .multiple → b.length = 1) ∧ ∀ u ∈ b, Fit x ci s u) ss bs ∧ bs.flatten = us

/-- Wherever a `**` inside one of the patterns can be reached, the rest of that pattern describes
an end of the remaining request. -/
def StarsContinue (x : Ext) (ci : Bool) (ps : List Pattern) (us : List Str) : Prop :=
  ∀ p ∈ ps, ∀ a s b, p.segments = a ++ s :: b → s.kind = .multiple → b ≠ [] → ∀ vs ws, us = vs ++ ws → ws ≠ [] →
    Begins x ci a vs → ∃ vs' ws', ws = vs' ++ ws' ∧ Describes x ci b ws'

/-- No proper beginning of one of the patterns that ends with a segment other than `**` describes
the whole request. -/
def NoneInside (x : Ext) (ci : Bool) (ps : List Pattern) (us : List Str) : Prop :=
  ∀ p ∈ ps, ∀ a s b, p.segments = a ++ s :: b → s.kind ≠ .multiple → b ≠ [] → ¬ Describes x ci (a ++ [s]) us

end Gofre.Spec
