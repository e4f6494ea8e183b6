import Verif.Model.Solver
import Verif.Model.Sorter
import Verif.Model.Utils
import Verif.Model.Database

/-! `srg/__main__.py`. -/

namespace TDS

/-- `python -m srg` (/repo/srg/__main__.py:12-25) with arguments `argv` (without the program
name): the matrices printed after the banner.  Unpacking anything but four values is a
`ValueError`, as is an argument that is not an integer. -/
def main (argv : List Str) : Res (List Mat) := do
  match ← argv.mapM parseInt with
  | [v, k, l, u] => do
    Utils.assertSrg v k l u
    let s ← seed v k l u
    let ans ← solve s
    Sorter.sort ans
  | _ => .error .valueErr

end TDS
