import Verif.Base
/-! # `qsort`

The C library's `qsort` is modelled by insertion sort for a comparison function. Insertion sort is
stable; where the comparison can return 0 for distinct elements the order among them is unspecified
in C, and the property theorems do not rely on it. -/

namespace CM

/-- Insert into a sorted list, before the first element that is not smaller. -/
def insertBy {α} (cmp : α → α → Int) (x : α) : List α → List α
  | [] => [x]
  | y :: ys => if cmp x y ≤ 0 then x :: y :: ys else y :: insertBy cmp x ys

/-- Insertion sort. -/
def isort {α} (cmp : α → α → Int) : List α → List α
  | [] => []
  | x :: xs => insertBy cmp x (isort cmp xs)

end CM
