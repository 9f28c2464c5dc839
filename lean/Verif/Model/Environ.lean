import Verif.Model.Files
/-! Model of BITMAPlib.py 1470-1500: the change that `saveBMP` makes to the variable `PATH`. Texts are lists of characters; `sep` is
`os.path.pathsep` and `dir` the absolute path of the directory above the package. -/

namespace Verif.Model
open Verif Spec

/-- `str.split(sep)` for one character -/
def pySplit (sep : Char) : List Char → List (List Char)
  | [] => [[]]
  | c :: cs =>
    if c = sep then [] :: pySplit sep cs
    else match pySplit sep cs with
      | [] => [[c]]
      | e :: es => (c :: e) :: es

/-- `sep.join(list)` -/
def pyJoin (sep : Char) : List (List Char) → List Char
  | [] => []
  | [e] => e
  | e :: es => e ++ sep :: pyJoin sep es

/-- The variables of the process, `os.environ` -/
abbrev Environ := String → Option (List Char)

/-- BITMAPlib.py 1470-1482 `ensurePaintWrapperInPath` -/
def ensurePaintWrapperInPath (sep : Char) (dir : List Char) (env : Environ) : Environ :=
  let entries := pySplit sep ((env "PATH").getD [])
  if dir ∉ entries then
    let entries := dir :: entries
    fun v => if v = "PATH" then some (pyJoin sep entries) else env v
  else env

/-- BITMAPlib.py 1485-1500 `saveBMP` with both of its effects -/
def saveBMPenv (sep : Char) (dir : List Char) (env : Environ) (fs : Files) (file : String) (bmp : Bytes) : Environ × Files :=
  (ensurePaintWrapperInPath sep dir env, writeFile fs file bmp)

end Verif.Model
