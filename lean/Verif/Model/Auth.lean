import Verif.Bytes

/-!
# Permissions, roles, groups and users (`auth/auth.go`)
-/

namespace Gofre.Auth

/-- `type Permission struct` (`auth/auth.go:70-73`); `Access` is a `uint32` (line 23). -/
structure Permission where
  scope : Str
  access : UInt32
  deriving DecidableEq, Repr

/-- The loop of `AccessAll` (`auth/auth.go:38-44`): `i` runs over powers of two below
`accessUnknown = 1 << 9`. -/
def accessAllLoop : Nat → UInt32 → UInt32 → UInt32
  | 0, _, all => all
  | f + 1, i, all => if i < 512 then accessAllLoop f (i <<< 1) (all ||| i) else all

/-- `AccessAll` (`auth/auth.go:38-44`); the loop makes nine iterations. -/
def accessAll : UInt32 := accessAllLoop 10 1 0

/-- `AllPermissions` (`auth/auth.go:75-80`). -/
def allPermissions : Permission := ⟨b!"*", accessAll⟩

/-- `NewPermission` (`auth/auth.go:82-93`).  The range loop goes over runes; a `/` byte is
always its own rune, so counting bytes is the same. `none` is the error. -/
def newPermission (scope : Str) (access : UInt32) : Option Permission :=
  if 2 < scope.count slash then none else some ⟨scope, access⟩

/-- The comparison loop of `Implies` (`auth/auth.go:109-122`): `s` is the last own part
taken, `ps` the own parts not yet taken, then the parts of the other permission. -/
def impliesLoop : Str → List Str → List Str → Bool
  | _, _, [] => true
  | s, ps, si :: ips =>
    let s' := ps.headD s
    let ps' := ps.tail
    if s' ≠ b!"*" ∧ s' ≠ si then false else impliesLoop s' ps' ips

/-- `Permission.Implies` (`auth/auth.go:97-123`); `ScopeSeparator` is `/` (line 46). -/
def implies (p q : Permission) : Bool :=
  let ps := splitOn slash p.scope
  let ips := splitOn slash q.scope
  if ips.length < ps.length then false
  else if p.access &&& q.access ≠ q.access then false
  else impliesLoop [] ps ips

/-- `Permission.String` (`auth/auth.go:125-127`). -/
def Permission.print (p : Permission) : Str := p.scope ++ 58 :: itoa p.access.toNat

/-- Index of the last `:` (`auth/auth.go:221-227`; the loop runs from the end). -/
def lastColon : Str → Option Nat
  | [] => none
  | c :: l =>
    match lastColon l with
    | some i => some (i + 1)
    | none => if c = 58 then some 0 else none

/-- `strconv.ParseUint(s, 10, 32)`: non-empty, digits only, below `2^32`. -/
def parseUint32 (s : Str) : Option UInt32 :=
  match parseDigits s with
  | none => none
  | some n => if n < 2 ^ 32 then some (UInt32.ofNat n) else none

/-- `ParsePermission` (`auth/auth.go:220-239`). -/
def parsePermission (s : Str) : Option Permission :=
  match lastColon s with
  | none => none
  | some index =>
    if index = s.length - 1 then none
    else
      match parseUint32 (s.drop (index + 1)) with
      | none => none
      | some access => newPermission (s.take index) access

/-- `type Role struct` (`auth/auth.go:131-136`). -/
structure Role where
  name : Str
  allowed : List Permission
  denied : List Permission
  deriving DecidableEq, Repr

/-- The two loops of `Role.HasPermission` (`auth/auth.go:139-151`). -/
def anyImplies : List Permission → Permission → Bool
  | [], _ => false
  | p :: ps, q => if implies p q then true else anyImplies ps q

/-- `Role.HasPermission` (`auth/auth.go:139-151`). -/
def Role.hasPermission (r : Role) (q : Permission) : Bool :=
  if anyImplies r.denied q then false else anyImplies r.allowed q

/-- `type Group struct` (`auth/auth.go:154-157`). -/
structure Group where
  name : Str
  roles : List Role
  deriving DecidableEq, Repr

/-- `Group.HasRole` (`auth/auth.go:160-167`). -/
def hasRoleLoop (n : Str) : List Role → Bool
  | [] => false
  | r :: rs => if n = r.name then true else hasRoleLoop n rs

/-- `Group.HasRole` (`auth/auth.go:160-167`). -/
def Group.hasRole (g : Group) (n : Str) : Bool := hasRoleLoop n g.roles

/-- The loop of `Group.HasPermission` (`auth/auth.go:170-177`). -/
def hasPermissionLoop (q : Permission) : List Role → Bool
  | [] => false
  | r :: rs => if r.hasPermission q then true else hasPermissionLoop q rs

/-- `Group.HasPermission` (`auth/auth.go:170-177`). -/
def Group.hasPermission (g : Group) (q : Permission) : Bool := hasPermissionLoop q g.roles

/-- `type User struct` (`auth/auth.go:180-191`), without the fields not used by the checks. -/
structure User where
  id : Str
  groups : List Group
  deriving DecidableEq, Repr

/-- `User.HasRole` (`auth/auth.go:197-204`). -/
def userHasRoleLoop (n : Str) : List Group → Bool
  | [] => false
  | g :: gs => if g.hasRole n then true else userHasRoleLoop n gs

/-- `User.HasRole` (`auth/auth.go:197-204`). -/
def User.hasRole (u : User) (n : Str) : Bool := userHasRoleLoop n u.groups

/-- The loop of `User.HasPermission` (`auth/auth.go:206-213`). -/
def userHasPermissionLoop (q : Permission) : List Group → Bool
  | [] => false
  | g :: gs => if g.hasPermission q then true else userHasPermissionLoop q gs

/-- `User.HasPermission` (`auth/auth.go:206-213`). -/
def User.hasPermission (u : User) (q : Permission) : Bool := userHasPermissionLoop q u.groups

end Gofre.Auth
