import Verif.Bytes

/-!
# Configuration of a MuxHandler (`gofre.go:30-151`)

`T` is the type of templates, `L` that of log functions.  `Config` and `ResourcesConfig` are handled through pointers, so they
live in a store.
-/

namespace Gofre.Config
variable {T L : Type}

/-- `ResourcesConfig` (`gofre.go:32-41`); `none` is a nil template. -/
structure Res (T : Type) where
  templates : Str := []
  assetsDir : Str := []
  assetsMapping : Str := []
  template : Option T := none

/-- `Config` (`gofre.go:64-73`); `resources` is a pointer or nil, `errLog` a function or nil. -/
structure Cfg (L : Type) where
  ci : Bool := false
  contextPath : Str := []
  resources : Option Nat := none
  errLog : Option L := none

/-- What the pointers point to. -/
structure Store (T L : Type) where
  cfgs : Nat → Cfg L
  ress : Nat → Res T

/-- Assignment through a pointer to a `Config`. -/
def Store.setCfg (s : Store T L) (p : Nat) (c : Cfg L) : Store T L := { s with cfgs := fun q => if q = p then c else s.cfgs q }

/-- Assignment through a pointer to a `ResourcesConfig`. -/
def Store.setRes (s : Store T L) (p : Nat) (r : Res T) : Store T L := { s with ress := fun q => if q = p then r else s.ress q }

/-- `(*ResourcesConfig).setDefaults` (`gofre.go:43-61`) and whether it returns no error; `parse` is
`defaultTemplateFunc` (`gofre.go:24-28`), `none` an error. -/
def Res.setDefaults (parse : Str → Option T) (r : Res T) : Res T × Bool :=
  let r := if r.templates = [] then { r with templates := b!"resources/templates/*.html" } else r
  let r := if r.assetsDir = [] then { r with assetsDir := b!"./resources/assets" } else r
  let r := if r.assetsMapping = [] then { r with assetsMapping := b!"assets" } else r
  match r.template with
  | some _ => (r, true)
  | none =>
    match parse r.templates with
    | none => (r, false)
    | some t => ({ r with template := some t }, true)

/-- `(*Config).setDefaults` (`gofre.go:75-90`) of the `Config` at `p`; `logDefault` is the function made at
`gofre.go:80-82`. -/
def setDefaults (parse : Str → Option T) (logDefault : L) (s : Store T L) (p : Nat) : Store T L × Bool :=
  let c := s.cfgs p
  let c := if c.contextPath = [] then { c with contextPath := b!"/" } else c
  let c := if c.errLog.isNone then { c with errLog := some logDefault } else c
  let s := s.setCfg p c
  match c.resources with
  | none => (s, true)
  | some q =>
    let r := (s.ress q).setDefaults parse
    (s.setRes q r.1, r.2)

/-- What `NewMuxHandler` keeps of the configuration (`gofre.go:120-138`): the values the router is made with, those of the
route of the assets (`none` without resources), and the pointer. -/
structure Made (L : Type) where
  ci : Bool
  errLog : Option L
  assets : Option (Str × Str × Str)
  webConfig : Nat

/-- `NewMuxHandler` (`gofre.go:120-138`); `none` is an error. -/
def newMuxHandler (parse : Str → Option T) (logDefault : L) (s : Store T L) (p : Nat) : Store T L × Option (Made L) :=
  match setDefaults parse logDefault s p with
  | (s, false) => (s, none)
  | (s, true) =>
    let c := s.cfgs p
    (s, some ⟨c.ci, c.errLog, c.resources.map fun q => (c.contextPath, (s.ress q).assetsMapping, (s.ress q).assetsDir), p⟩)

/-- `Config` (`gofre.go:141-143`): the struct is copied, not what it points to. -/
def Made.config (m : Made L) (s : Store T L) : Cfg L := s.cfgs m.webConfig

/-- `ExecutableTemplate` (`gofre.go:146-151`). -/
def Made.executableTemplate (m : Made L) (s : Store T L) : Option T :=
  match (s.cfgs m.webConfig).resources with
  | none => none
  | some q => (s.ress q).template

/-- Assignments to the value `Config()` returned: to the copy itself, or to what its `ResourcesConfig` points to. -/
inductive Change (T L : Type)
  | copy (f : Cfg L → Cfg L)
  | resources (f : Res T → Res T)

/-- Their effect on the store, where `c` is the copy. -/
def applyChange : Cfg L × Store T L → Change T L → Cfg L × Store T L
  | (c, s), .copy f => (f c, s)
  | (c, s), .resources f =>
    match c.resources with
    | none => (c, s)
    | some q => (c, s.setRes q (f (s.ress q)))

end Gofre.Config
