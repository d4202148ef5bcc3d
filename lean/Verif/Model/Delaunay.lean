import Verif.Model.Vec

/-!
# Converting sensitivity files for ParaView
-/

namespace HV
namespace Delaunay

/-- Paths and file names are lists of characters here. -/
abbrev Chars := List Char

/-- `s.split(sep)[0]` for a separator that is not empty. -/
def splitFirst (sep : Chars) : Chars → Chars
  | [] => []
  | c :: s => if sep.isPrefixOf (c :: s) then [] else c :: splitFirst sep s

/-- `p.split(os.sep)[-1]` on POSIX. -/
def lastPart (p : Chars) : Chars := (p.reverse.takeWhile (· ≠ '/')).reverse

/-- `os.path.dirname` of POSIX (`posixpath.py`). -/
def dirname (p : Chars) : Chars :=
  let head := (p.reverse.dropWhile (· ≠ '/')).reverse
  if head.all (· = '/') then head else (head.reverse.dropWhile (· = '/')).reverse

/-- `os.path.join` of POSIX with two arguments. -/
def join (a b : Chars) : Chars :=
  if b.head? = some '/' then b else if a = [] ∨ a.getLast? = some '/' then a ++ b else a ++ '/' :: b

/-- The files of the tool chain by path. -/
abbrev Disk (α : Type) := Chars → Option α

/-- `SaveData`. -/
def Disk.write {α : Type} (d : Disk α) (p : Chars) (x : α) : Disk α := fun q => if q = p then some x else d q

/-- `utilities.py:817-819`: the file `csv_to_delaunay` writes. -/
def savefilename (filepath : Chars) : Chars := join (dirname filepath) (splitFirst ".csv".toList (lastPart filepath) ++ ".vtu".toList)

/-- `utilities.py:806-836` `csv_to_delaunay`.  `conv` is what the filters of ParaView make of the contents of the file. -/
def csvToDelaunay {α : Type} (conv : α → Res α) (disk : Disk α) (filepath : Chars) : Res (Disk α) :=
  match disk filepath with
  | none => .error .exc
  | some x => do
    let y ← conv x
    return disk.write (savefilename filepath) y

/-- `utilities.py:843`: `glob.glob(os.path.join(directory, "*.csv"))` for a directory without the special characters of glob, the entries of which are
`names` in the order of the operating system. -/
def csvFiles (directory : Chars) (names : List Chars) : List Chars :=
  (names.filter fun n => ".csv".toList.isSuffixOf n && n.head? ≠ some '.').map (join directory)

/-- `utilities.py:839-850` `convert_all_csv_to_delaunay`; the error stands for `sys.exit()`. -/
def convertAll {α : Type} (conv : α → Res α) (disk : Disk α) (directory : Chars) (names : List Chars) : Res (Disk α) :=
  let files := csvFiles directory names
  if files.length = 0 then .error .exc else files.foldlM (csvToDelaunay conv) disk

end Delaunay
end HV
