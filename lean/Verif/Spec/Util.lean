import Verif.Model.Util

/-!
# Specification: installing a tree of files
-/

namespace Rfsed.Spec
open Util
variable {β : Type}

/-- names that are not copied (NFS leftovers) -/
def Skipped (name : String) : Prop := ∃ rest, name = ".nfs" ++ rest

open Classical in
mutual
/-- what a tree has at a relative path -/
noncomputable def treeAt : SrcTree β → Path → Option (Node β)
  | .file c, [] => some (.file c)
  | .file _, _ :: _ => none
  | .dir _, [] => some .dir
  | .dir g, n :: r => entryAt g n r
/-- what a list of directory entries has below the name `n` -/
noncomputable def entryAt : SrcList β → String → Path → Option (Node β)
  | .nil, _, _ => none
  | .cons m t rest, n, r => if m = n ∧ ¬ Skipped m then treeAt t r else entryAt rest n r
end

mutual
/-- names within a directory are distinct -/
def Distinct : SrcTree β → Prop
  | .file _ => True
  | .dir g => DistinctEntries g
def DistinctEntries : SrcList β → Prop
  | .nil => True
  | .cons m t rest => m ∉ names rest ∧ Distinct t ∧ DistinctEntries rest
def names : SrcList β → List String
  | .nil => []
  | .cons m _ rest => m :: names rest
end

/-- a file system: the root is a directory and everything lies in a directory -/
def Proper (fs : FS β) : Prop := fs [] = some .dir ∧ ∀ p n, fs (p ++ [n]) ≠ none → fs p = some .dir

/-- the directories a process remembers having created are (still) there -/
def Fresh (s : Proc β) : Prop := ∀ p, s.created p → s.fs p = some .dir

/-- no directory stands where the tree has a file, no file where it has a directory -/
def Fits (fs : FS β) (t : SrcTree β) (dst : Path) : Prop :=
  (∀ r c, treeAt t r = some (.file c) → fs (dst ++ r) ≠ some .dir) ∧
  (∀ r, treeAt t r = some .dir → ∀ c, fs (dst ++ r) ≠ some (.file c)) ∧
  ∀ p c, p <+: dst → fs p ≠ some (.file c)

/-- `fs'` is `fs` with the tree written to `dst` (whose parent directories are created) -/
def Written (fs fs' : FS β) (t : SrcTree β) (dst : Path) : Prop :=
  (∀ r n, treeAt t r = some n → fs' (dst ++ r) = some n) ∧
  (∀ p, p <+: dst → fs' p = some .dir) ∧
  ∀ p, ¬ p <+: dst → (∀ r, p = dst ++ r → treeAt t r = none) → fs' p = fs p

/-- some path holds a file in a tree -/
def HasFile (t : SrcTree β) : Prop := ∃ r c, treeAt t r = some (.file c)

open Classical in
/-- the file system once a directory has been removed with all that is in it -/
noncomputable def removed (fs : FS β) (path : Path) : FS β := fun p => if path <+: p then none else fs p

/-! ### Installing over whatever is there -/

open Classical in
/-- where a file meant for `p` goes: to `p`, or under its own name into a directory standing at `p` -/
noncomputable def place (fs : FS β) (p : Path) : Path :=
  if fs p = some .dir then p ++ [p.getLastD ""] else p

/-- something is in the way of a tree going to `dst`: a file on the way to `dst`, a file where the
tree has a directory, or a directory where a file would have to go -/
def InTheWay (fs : FS β) (t : SrcTree β) (dst : Path) : Prop :=
  (∃ p c, p <+: dst ∧ fs p = some (.file c)) ∨
  (∃ r c, treeAt t r = some .dir ∧ fs (dst ++ r) = some (.file c)) ∨
  ∃ r c, treeAt t r = some (.file c) ∧ fs (place fs (dst ++ r)) = some .dir

/-- everything of the tree has arrived at `dst` -/
def Arrived (fs fs' : FS β) (t : SrcTree β) (dst : Path) : Prop :=
  (∀ p, p <+: dst → fs' p = some .dir) ∧
  (∀ r, treeAt t r = some .dir → fs' (dst ++ r) = some .dir) ∧
  ∀ r c, treeAt t r = some (.file c) → fs' (place fs (dst ++ r)) = some (.file c)

/-- the only differences between `fs` and `fs'`: new directories on the way to `dst`, new directories
of the tree, and files of the tree where there was nothing or another file -/
def OnlyFrom (fs fs' : FS β) (t : SrcTree β) (dst : Path) : Prop :=
  ∀ p, fs' p ≠ fs p →
    (fs p = none ∧ fs' p = some .dir ∧ (p <+: dst ∨ ∃ r, p = dst ++ r ∧ treeAt t r = some .dir)) ∨
    (fs p ≠ some .dir ∧ ∃ r c, p = place fs (dst ++ r) ∧ treeAt t r = some (.file c) ∧
      fs' p = some (.file c))

end Rfsed.Spec
