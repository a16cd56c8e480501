import Verif.Base.Basic

/-!
# Fan redundancy

Models `dbus/dbuspassiveredundancy.cpp`. The set `failed` is only inserted into, erased from and searched, so it is a
list of paths. Iteration order of the `std::unordered_map`s is arbitrary: the subtree answer is a list in any order.
-/

namespace Verif

/-- Answer of `GetAll` for one redundancy object, dbus/dbuspassiveredundancy.cpp:157-179: `none` inside is a missing property (then `operator[]` yields an empty
`std::string`, on which `get<vector>` throws). -/
structure RedundancyProps where
  status : Option String
  collection : Option (List String)

/-- The test on the status, dbus/dbuspassiveredundancy.cpp:98 and 173 -/
def statusFailed (status : String) : Bool := containsSub status "Failed"

/-- The callback of the match, dbus/dbuspassiveredundancy.cpp:55-109. `status = none` is a message that cannot be read or
has no `Status`; `collection = none` is a failing `Get`. -/
def redundancySignal (failed : List String) (status : Option String) (collection : Option (List String)) : List String :=
  match status with
  | none => failed
  | some status =>
    match collection with
    | none => failed
    | some data =>
      if statusFailed status then data ++ failed
      else failed.filter (fun p => !data.contains p)

/-- The loop of `populateFailures`, dbus/dbuspassiveredundancy.cpp:148-182: one entry per object and owner, `none` for a
failing `GetAll`, at which the function returns. -/
def populateLoop (failed : List String) : List (Option RedundancyProps) → Res (List String)
  | [] => .ok failed
  | none :: _ => .ok failed
  | some p :: rest =>
    if !statusFailed (p.status.getD "") then populateLoop failed rest
    else
      match p.collection with
      | none => .error (.exc "bad_variant_access")
      | some c => populateLoop (c ++ failed) rest

/-- Constructor, dbus/dbuspassiveredundancy.cpp:50-113, with `populateFailures` 115-183; `none` is a failing mapper call. -/
def redundancyInit (subtree : Option (List (Option RedundancyProps))) : Res (List String) :=
  match subtree with
  | none => .ok []
  | some l => populateLoop [] l

end Verif
