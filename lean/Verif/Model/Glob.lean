import Verif.Bytes

/-!
# Character wildcards inside one segment (`router/path/pattern.go`)
-/

namespace Gofre.Glob

/-- The byte `?`. -/
abbrev qm : UInt8 := 63
/-- The byte `*`. -/
abbrev star : UInt8 := 42

/-- `unicode.ToUpper(rune(b))` for a single byte `b`, i.e. for a code point below 256
(used at `router/path/pattern.go:199`).  The result may lie outside Latin-1
(`µ` ↦ U+039C, `ÿ` ↦ U+0178). -/
def toUpperRune (b : UInt8) : Nat :=
  let n := b.toNat
  if 97 ≤ n ∧ n ≤ 122 then n - 32
  else if n = 181 then 924
  else if (224 ≤ n ∧ n ≤ 246) ∨ (248 ≤ n ∧ n ≤ 254) then n - 32
  else if n = 255 then 376
  else n

/-- The closure `runesMatches` (`router/path/pattern.go:194-203`). -/
def runesMatches (ci : Bool) (uc pc : UInt8) : Bool :=
  if pc = qm then true
  else if ci then toUpperRune uc == toUpperRune pc
  else uc == pc

/-- Local variables of the loop (`router/path/pattern.go:205-209`).  The two checkpoint
variables are always `-1` together or set together, hence one `Option`. -/
structure St where
  p : Nat
  u : Nat
  restore : Bool
  cp : Option (Nat × Nat)
  deriving DecidableEq, Repr

/-- What the function can do: return a boolean or panic (index out of range). -/
inductive Res
  | ret (b : Bool)
  | panic
  deriving DecidableEq, Repr

/-- One loop iteration either finishes or continues. -/
inductive Step
  | done (r : Res)
  | next (s : St)
  deriving DecidableEq, Repr

/-- The scan `for i := pIndex+1; ...` that skips consecutive stars
(`router/path/pattern.go:235-240`): index of the last star of the run starting at `p`
if a non-star follows, otherwise `p` itself. `l` is the pattern after position `i`. -/
def skipStars (p : Nat) : Str → Nat → Nat
  | [], _ => p
  | c :: l, i => if c ≠ star then i - 1 else skipStars p l (i + 1)

/-- The scan `for ; uIndex < urlPathSegmentLen; uIndex++` for the first url byte
accepted by `pc` (`router/path/pattern.go:250-259`); `l` is the url from index `u`. -/
def scan (ci : Bool) (pc : UInt8) : Str → Nat → Option Nat
  | [], _ => none
  | c :: l, u => if runesMatches ci c pc then some u else scan ci pc l (u + 1)

/-- The body of the loop after the restore logic (`router/path/pattern.go:227-267`),
at pattern index `p` and url index `u`, with checkpoint `cp`. -/
def body (ci : Bool) (url pat : Str) (p u : Nat) (cp : Option (Nat × Nat)) : Step :=
  match url[u]? with
  | none => .done .panic
  | some uc =>
    match pat[p]? with
    | none => .done .panic
    | some pc =>
      if pc = qm then .next ⟨p + 1, u + 1, false, cp⟩
      else if pc = star then
        let p' := skipStars p (pat.drop (p + 1)) (p + 1)
        if p' = pat.length - 1 then .done (.ret true)
        else
          match pat[p' + 1]? with
          | none => .done .panic
          | some pc' =>
            match scan ci pc' (url.drop u) u with
            | some u' => .next ⟨p' + 1, u', false, some (p', u')⟩
            | none => .next ⟨p', url.length, false, none⟩
      else if runesMatches ci uc pc then .next ⟨p + 1, u + 1, false, cp⟩
      else .next ⟨p, u, true, cp⟩

/-- One iteration of the loop (`router/path/pattern.go:210-268`). -/
def step (ci : Bool) (url pat : Str) (s : St) : Step :=
  if s.p = pat.length ∧ s.u = url.length then .done (.ret true)
  else if s.restore = true ∨ s.p = pat.length ∨ s.u = url.length then
    match s.cp with
    | none => .done (.ret false)
    | some (pc, uc) => body ci url pat pc (uc + 1) s.cp
  else body ci url pat s.p s.u s.cp

/-- Iterate the loop with fuel; `none` means the fuel ran out. -/
def loop (ci : Bool) (url pat : Str) : Nat → St → Option Res
  | 0, _ => none
  | f + 1, s =>
    match step ci url pat s with
    | .done r => some r
    | .next s' => loop ci url pat f s'

/-- A number of iterations that always suffices (`Props.C04`). -/
def fuelFor (url pat : Str) : Nat :=
  ((pat.length + 1) * (url.length + 2) + 1) * (2 * pat.length + 3)

/-- `regexSegmentMatch` (`router/path/pattern.go:180-270`), including the initial
length test (lines 184-192).  `none` = still running after `fuelFor` iterations,
which `Props.C04` shows impossible. -/
def regexSegmentMatch (ci : Bool) (url pat : Str) : Option Res :=
  if ¬ (star ∈ pat) ∧ url.length ≠ pat.length then some (.ret false)
  else loop ci url pat (fuelFor url pat) ⟨0, 0, false, none⟩

end Gofre.Glob
