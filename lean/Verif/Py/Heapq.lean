import Verif.Py.Basic

/-!
# CPython's `heapq`

`heappush`, `heappop` and their helpers, transcribed from CPython's `Lib/heapq.py`.  The element
comparison `lt` may raise (Python tuples containing unorderable objects do), hence the `Py` monad.
`heapq` itself is not part of the repository; it is used in
`simulator/timeline_builders/snapshot_and_application_events.py`, `damage_builder.py` and
`rotation_builder.py`.
-/

namespace Ama.Heapq

variable {α : Type}

/-- The loop of `heapq._siftdown(heap, startpos = 0, pos)`, `newitem` being the item that was at
`pos` on entry.  (Both call sites that the repository reaches use `startpos = 0`.) -/
def siftdownLoop (lt : α → α → Py Bool) (newitem : α) (heap : List α) (pos : ℕ) : Py (List α) :=
  if h : 0 < pos then do
    let parentpos := (pos - 1) / 2
    let parent ← pyIdx heap parentpos
    if ← lt newitem parent then
      siftdownLoop lt newitem (heap.set pos parent) parentpos
    else
      return heap.set pos newitem
  else
    return heap.set pos newitem
termination_by pos
decreasing_by omega

/-- `heapq._siftdown(heap, 0, pos)` -/
def siftdown (lt : α → α → Py Bool) (heap : List α) (pos : ℕ) : Py (List α) := do
  let newitem ← pyIdx heap pos
  siftdownLoop lt newitem heap pos

/-- The loop of `heapq._siftup(heap, 0)`: bubble the smaller child up until hitting a leaf; returns
the heap and the position of the leaf. -/
def siftupLoop (lt : α → α → Py Bool) (heap : List α) (pos : ℕ) : Py (List α × ℕ) :=
  let childpos := 2 * pos + 1
  if h : childpos < heap.length then do
    let rightpos := childpos + 1
    let left ← pyIdx heap childpos
    let childpos ←
      if rightpos < heap.length then do
        let right ← pyIdx heap rightpos
        if ← lt left right then pure childpos else pure rightpos
      else pure childpos
    let child ← pyIdx heap childpos
    if _h2 : 2 * pos + 1 ≤ childpos ∧ pos < heap.length then
      siftupLoop lt (heap.set pos child) childpos
    else
      .error .indexError
  else
    return (heap, pos)
termination_by heap.length - pos
decreasing_by simp only [List.length_set]; omega

/-- `heapq._siftup(heap, 0)` -/
def siftup (lt : α → α → Py Bool) (heap : List α) : Py (List α) := do
  let newitem ← pyIdx heap 0
  let (heap', pos) ← siftupLoop lt heap 0
  siftdownLoop lt newitem (heap'.set pos newitem) pos

/-- `heapq.heappush(heap, item)` -/
def heappush (lt : α → α → Py Bool) (heap : List α) (item : α) : Py (List α) :=
  siftdown lt (heap ++ [item]) heap.length

/-- `heapq.heappop(heap)`: returns the popped item and the remaining heap; `IndexError` if empty. -/
def heappop (lt : α → α → Py Bool) (heap : List α) : Py (α × List α) :=
  match heap.getLast? with
  | none => .error .indexError
  | some lastelt =>
    match heap.dropLast with
    | [] => .ok (lastelt, [])
    | returnitem :: rest => do
      let heap' ← siftup lt (lastelt :: rest)
      return (returnitem, heap')

end Ama.Heapq
