import Verif.Bytes

/-!
# Static assets (`gofre.go:125-133`)

The route of the assets calls `http.StripPrefix` around `http.FileServer`.  Both are library
code and modelled up to the name the file system is asked for: what `serveFile` does with the
opened file (directories, missing files, ranges) is not.
-/

namespace Gofre.Assets

/-- `strings.TrimPrefix`. -/
def trimPrefix (pre s : Str) : Str := if pre.isPrefixOf s then s.drop pre.length else s

/-- `http.StripPrefix` (used at `gofre.go:132`): the new `URL.Path` and `URL.RawPath`, or `none`
for the answer 404. -/
def stripPrefix (pre path raw : Str) : Option (Str × Str) :=
  if pre = [] then some (path, raw)
  else
    let p := trimPrefix pre path
    let rp := trimPrefix pre raw
    if p.length < path.length ∧ (raw = [] ∨ rp.length < raw.length) then some (p, rp) else none

/-- What the file server does: answer 404, redirect `…/index.html` to its directory, or ask the
file system for a name, given by its pieces. -/
inductive Asset
  | notFound
  | redirect
  | file (name : List Str)
  deriving DecidableEq, Repr

/-- One piece of a path in `path.Clean` of a rooted path: empty pieces and dots vanish, two dots
remove the piece before (newest first). -/
def cleanPush (st : List Str) (v : Str) : List Str :=
  if v = [] ∨ v = b!"." then st else if v = b!".." then st.tail else v :: st

/-- The pieces of `path.Clean` of a rooted path. -/
def cleanRooted (p : Str) : List Str := ((splitOn slash p).foldl cleanPush []).reverse

/-- `FileServer` behind `StripPrefix` (used at `gofre.go:132`), for a request with these
`URL.Path` and `URL.RawPath`. -/
def serveAsset (pre path raw : Str) : Asset :=
  match stripPrefix pre path raw with
  | none => .notFound
  | some (p, _) =>
    let u := if p.head? = some slash then p else slash :: p
    if b!"/index.html".isSuffixOf u then .redirect else .file (cleanRooted u)

end Gofre.Assets
