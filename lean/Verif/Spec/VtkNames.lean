import Mathlib.Data.List.Basic
/-! What the names of output files have to provide. Independent of the model. -/
namespace Verif.Spec.VtkNames

/-- The place of a reference of the form `./x` in a file of the given folder (whose text ends with `/`); `none` for other references. -/
def resolve (folder : List Char) : List Char → Option (List Char)
  | '.' :: '/' :: rest => some (folder ++ rest)
  | _ => none

/-- The folder of a file: everything up to the last `/`. -/
def folderOf (path : List Char) : List Char := (path.reverse.dropWhile (· ≠ '/')).reverse

/-- Alphabetical order of names by the codes of characters: at the first difference the smaller character comes first, and a proper beginning comes
before the whole. -/
inductive Before : List Char → List Char → Prop
  | nil (c : Char) (l : List Char) : Before [] (c :: l)
  | head {c d : Char} (h : c.toNat < d.toNat) (l m : List Char) : Before (c :: l) (d :: m)
  | tail (c : Char) {l m : List Char} (h : Before l m) : Before (c :: l) (c :: m)

end Verif.Spec.VtkNames
