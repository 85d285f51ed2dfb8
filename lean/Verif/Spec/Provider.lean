import Verif.Spec.Cli
/-!
# Specification vocabulary for the MAUS provider and the check of `.tree` files
-/

namespace Verif

/-- there is no such path, because an existing directory on the way has no such entry -/
def FsNode.IsMissing (fs : FsNode) (p : FsPath) : Prop :=
  ∃ dir name rest, p = dir ++ name :: rest ∧ fs.isDir dir = true ∧ fs.exists (dir ++ [name]) = false

/-- the names of the entries of a directory -/
def FsNode.HasEntry (fs : FsNode) (dir : FsPath) (name : PyStr) : Prop := fs.isDir dir = true ∧ fs.exists (dir ++ [name]) = true

/-- `name` matches `*.tree` -/
def IsTreeFileName (name : PyStr) : Prop := ∃ stem, name = stem ++ ".tree".toList

/-- the place that is meant by the path `rel` below the base path: an absolute path means itself, whatever the base path; a relative path
starts at the base path, and a relative base path starts at the working directory -/
def placeBelow (cwd : FsPath) (base rel : PurePath) : FsPath :=
  match rel.absolute, base.absolute with
  | true, _ => rel.parts
  | false, true => base.parts ++ rel.parts
  | false, false => cwd ++ base.parts ++ rel.parts

end Verif
