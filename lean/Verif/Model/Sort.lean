/-!
# Stable sorting

`slice::sort_by_key` is a stable sort. All stable sorts return the same list, so the model uses
insertion sort.
-/

namespace PptRs

/-- Inserts before the first element whose key is not smaller. -/
def insertByKey {α : Type} (key : α → Nat) (x : α) : List α → List α
  | [] => [x]
  | y :: ys => if key x ≤ key y then x :: y :: ys else y :: insertByKey key x ys

/-- `slice::sort_by_key`. -/
def sortByKey {α : Type} (key : α → Nat) : List α → List α
  | [] => []
  | x :: xs => insertByKey key x (sortByKey key xs)

end PptRs
