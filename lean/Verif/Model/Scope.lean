import Verif.Model.GoStr

/-! # Package scope (scope/util.go) -/

namespace Goidc.Scope

/-- scope/util.go:9 -/
def openID : GoStr := b!"openid"
/-- scope/util.go:10 -/
def email : GoStr := b!"email"
/-- scope/util.go:11 -/
def offlineAccess : GoStr := b!"offline_access"

/-- scope/util.go:14-16 `Split` -/
def split (scope : GoStr) : List GoStr := Goidc.split 32 scope

/-- scope/util.go:24-29: the second loop of `IncludeAll` over the target scopes, with the existence
map of lines 20-23 represented by the list of its keys. -/
def includeAllLoop (existing : List GoStr) : List GoStr → Bool × GoStr
  | [] => (true, [])
  | s :: rest => if existing.contains s then includeAllLoop existing rest else (false, s)

/-- scope/util.go:18-30 `IncludeAll` -/
def includeAll (scopes : GoStr) (target : List GoStr) : Bool × GoStr :=
  includeAllLoop (split scopes) target

/-- scope/util.go:32-41 `Remove` -/
def remove (scopes target : GoStr) : GoStr :=
  join 32 ((split scopes).filter (fun s => s != target))

/-- scope/util.go:45-50: the loop of `Include`. -/
def includeLoop (target : GoStr) : List GoStr → Bool
  | [] => false
  | s :: rest => if s = target then true else includeLoop target rest

/-- scope/util.go:43-51 `Include` -/
def includes (scopes target : GoStr) : Bool := includeLoop target (split scopes)

/-- scope/util.go:57-61 `Sort` -/
def sort (origin : GoStr) : GoStr := join 32 (sortStrings (split origin))

/-- scope/util.go:53-55 `Same` -/
def same (scope1 scope2 : GoStr) : Bool := sort scope1 == sort scope2

/-- scope/util.go:63-65 -/
def includeOpenID (scopes : GoStr) : Bool := includes scopes openID
/-- scope/util.go:67-69 -/
def includeOfflineAccess (scopes : GoStr) : Bool := includes scopes offlineAccess
/-- scope/util.go:71-73 -/
def removeOpenID (scopes : GoStr) : GoStr := remove scopes openID
/-- scope/util.go:75-77 -/
def removeOfflineAccess (scopes : GoStr) : GoStr := remove scopes offlineAccess

end Goidc.Scope
