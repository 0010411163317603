import Verif.Model.Svg

/-!
# Looking at an SVG tree
-/

namespace Clubs.Spec

open Clubs

mutual
/-- all elements of a tree, in document order -/
def elems : Svg → List Svg
  | .node t a k => .node t a k :: elemsList k
/-- all elements of a list of trees -/
def elemsList : List Svg → List Svg
  | [] => []
  | c :: cs => elems c ++ elemsList cs
end

/-- the ids that occur in a tree, with repetitions -/
def ids (s : Svg) : List Str := (elems s).filterMap fun e => e.attrs.id

end Clubs.Spec
