import Verif.Base.Str
/-!
# The directory part of a path (POSIX)
-/
namespace ReqIF.Spec

/-- `DirectoryPart p d`: the file `p` is looked for in directory `d`; `[]` is the current
directory.  One or more slashes stand between the directory and the name; the slashes
belong to the directory only if there is nothing before them. -/
inductive DirectoryPart : Str → Str → Prop
  | here {name : Str} : '/' ∉ name → DirectoryPart name []
  | root {slashes name : Str} : slashes ≠ [] → (∀ c ∈ slashes, c = '/') → '/' ∉ name → DirectoryPart (slashes ++ name) slashes
  | below {d slashes name : Str} {c : Char} : c ≠ '/' → slashes ≠ [] → (∀ c ∈ slashes, c = '/') → '/' ∉ name →
      DirectoryPart (d ++ [c] ++ slashes ++ name) (d ++ [c])

end ReqIF.Spec
