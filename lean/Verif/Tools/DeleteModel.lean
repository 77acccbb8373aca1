import Verif.Core.EnvModel
/-! Model of /repo/tools/env_delete_item.cpp l.22-31: the loop over the ids of the command line.

The environment is the one that was loaded; loading and saving it (l.20, l.33) are not part of this model. -/
namespace Envire
namespace Delete
open Env

/-- the loop l.22-31; the list tells for each word whether the item was not found (l.27) -/
def deleteItems (s : Env) : List Uid → Res (Env × List Bool)
  | [] => .ok (s, [])
  | id :: ids =>
    match s.getItem id with
    | none => (deleteItems s ids).bind fun r => .ok (r.1, true :: r.2)
    | some o =>
      match s.step (.detach o true) with
      | .ok s1 => (deleteItems s1 ids).bind fun r => .ok (r.1, false :: r.2)
      | .throw s1 => .throw (s1, [])
      | .fault f => .fault f

end Delete
end Envire
