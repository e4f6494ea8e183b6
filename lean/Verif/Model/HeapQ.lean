import Verif.Model.Gauss

/-! Model of the part of Python's `heapq` used by /repo/srg/gauss_elim.py:24,28,36,39,59,64
(`heappop` and `merge`), and of `_gauss_elim` and `_elim` written against it.

The functions are those of the pure Python `Lib/heapq.py` of CPython 3.11.  The C version that
CPython loads in place of `heappop`, `heapreplace` and `heapify` performs the same comparisons and
assignments; `merge` has no C version. -/

namespace TDS.HeapQ

variable {α : Type} [Inhabited α] (lt : α → α → Bool)

/-- Loop of `_siftdown` (lines 207-220 of heapq.py), `x` being `newitem`. -/
def siftdownLoop (start : Nat) (x : α) (h : List α) (pos : Nat) : List α :=
  if start < pos then
    let parent := h.getD ((pos - 1) / 2) default
    if lt x parent then siftdownLoop start x (h.set pos parent) ((pos - 1) / 2)
    else h.set pos x
  else h.set pos x
termination_by pos

/-- `_siftdown(heap, startpos, pos)` (lines 207-220). -/
def siftdown (h : List α) (start pos : Nat) : List α :=
  siftdownLoop lt start (h.getD pos default) h pos

/-- The index of the smaller child of `pos`, the right one on a tie
(heapq.heappop as called at /repo/srg/gauss_elim.py:24). -/
def smallChild (h : List α) (pos : Nat) : Nat :=
  if decide (2 * pos + 2 < h.length) &&
      !lt (h.getD (2 * pos + 1) default) (h.getD (2 * pos + 2) default)
  then 2 * pos + 2 else 2 * pos + 1

theorem smallChild_eq (h : List α) (pos : Nat) :
    (smallChild lt h pos = 2 * pos + 1 ∨ smallChild lt h pos = 2 * pos + 2) := by
  unfold smallChild; split <;> simp

theorem smallChild_lt {h : List α} {pos : Nat} (hc : 2 * pos + 1 < h.length) :
    smallChild lt h pos < h.length := by
  unfold smallChild; split
  · next hh => simp at hh; omega
  · exact hc

/-- Loop of `_siftup` (lines 266-274): bubble the smaller child up until a leaf is reached. -/
def sink (h : List α) (pos : Nat) : List α × Nat :=
  if _hc : 2 * pos + 1 < h.length then
    sink (h.set pos (h.getD (smallChild lt h pos) default)) (smallChild lt h pos)
  else (h, pos)
termination_by h.length - pos
decreasing_by
  have h1 := smallChild_eq lt h pos
  have h2 := smallChild_lt lt _hc
  simp only [List.length_set]
  omega

/-- `_siftup(heap, pos)` (lines 260-278). -/
def siftup (h : List α) (pos : Nat) : List α :=
  let x := h.getD pos default
  let r := sink lt h pos
  siftdown lt (r.1.set r.2 x) pos r.2

/-- `heapify(x)` (lines 170-179). -/
def heapify (h : List α) : List α :=
  (List.range (h.length / 2)).reverse.foldl (siftup lt) h

/-- `heappop(heap)` (lines 137-145): the item and the new content of the heap. -/
def heappop (h : List α) : Res (α × List α) :=
  match h with
  | [] => .error .index
  | [x] => .ok (x, [])
  | x :: y :: t =>
    .ok (x, siftup lt (((x :: y :: t).dropLast).set 0 ((x :: y :: t).getLast (by simp))) 0)

/-- `heapreplace(heap, item)` (lines 147-161), the new content of the heap. -/
def heapreplace (h : List α) (item : α) : List α := siftup lt (h.set 0 item) 0

/-- One `[value, order, next]` of `merge`; `rest` is what the iterator still holds
(heapq.merge as called at /repo/srg/gauss_elim.py:38, 41, 60). -/
structure Node (α : Type) where
  value : α
  order : Nat
  rest : List α

instance : Inhabited (Node α) := ⟨⟨default, 0, []⟩⟩

/-- Comparison of two `[value, order, next]` lists.  Two of them never have the same order, so the
third component is not looked at (heapq.merge as called at /repo/srg/gauss_elim.py:38, 41, 60). -/
def nodeLt [DecidableEq α] (a b : Node α) : Bool :=
  if a.value = b.value then decide (a.order < b.order) else lt a.value b.value

/-- The first loop of `merge` (lines 349-354): one node per iterable that is not empty. -/
def mergeInit (ls : List (List α)) : List (Node α) :=
  ls.zipIdx.filterMap (fun p => match p.1 with
    | [] => none
    | x :: xs => some ⟨x, p.2, xs⟩)

/-- The loops of `merge` (lines 356-370), with a step budget. -/
def mergeLoop [DecidableEq α] : Nat → List (Node α) → Res (List α)
  | _, [] => .ok []
  | _, [s] => .ok (s.value :: s.rest)
  | 0, _ :: _ :: _ => .error .fuel
  | n + 1, s :: t :: h =>
    match s.rest with
    | [] => do
      let r ← heappop (nodeLt lt) (s :: t :: h)
      let out ← mergeLoop n r.2
      .ok (s.value :: out)
    | y :: ys => do
      let out ← mergeLoop n (heapreplace (nodeLt lt) (s :: t :: h) ⟨y, s.order, ys⟩)
      .ok (s.value :: out)

/-- `list(heapq.merge(*ls))` (/repo/srg/gauss_elim.py:38, 41, 60). -/
def merge [DecidableEq α] (ls : List (List α)) : Res (List α) :=
  mergeLoop lt (ls.flatten.length) (heapify (nodeLt lt) (mergeInit ls))

end TDS.HeapQ

namespace TDS.Gauss

instance : Inhabited Entry := ⟨⟨0, 0, 0⟩⟩

/-- Python tuple comparison `a < b` (/repo/srg/gauss_elim.py:24, 38, 41, 60). -/
def Entry.lt (a b : Entry) : Bool := !b.le a

/-- A `heapq` library: what `_gauss_elim` and `_elim` use of it (/repo/srg/gauss_elim.py:24, 28, 38, 41, 60, 65). -/
structure HeapLib where
  pop : List Entry → Res (Entry × List Entry)
  merge : List (List Entry) → Res (List Entry)

/-- CPython's (/repo/srg/gauss_elim.py:3). -/
def cpython : HeapLib := ⟨HeapQ.heappop Entry.lt, HeapQ.merge Entry.lt⟩

/-- The `while hd` loop of `_gauss_elim` (/repo/srg/gauss_elim.py:27-32), `n` bounding the number of
rounds by the length of `hd`; returns `reducible` and `same`. -/
def classify (L : HeapLib) (m : Entry) :
    Nat → List Entry → List Entry → List Entry → Res (List Entry × List Entry)
  | _, [], red, same => .ok (red, same)
  | 0, _ :: _, _, _ => .error .fuel
  | n + 1, h :: t, red, same => do
    let (e, hd) ← L.pop (h :: t)
    if isReducible m e then
      classify L m n hd (red ++ [⟨e.k - m.k, e.i, e.v - m.v⟩]) same
    else
      classify L m n hd red (same ++ [e])

/-- `_gauss_elim` (/repo/srg/gauss_elim.py:14-42), line by line. -/
def gaussStepL (L : HeapLib) (hd : List Entry) : Res (Bool × List Entry) := do
  let (m, hd) ← L.pop hd
  pyAssert (decide (m.k > 0))
  let (reducible, same) ← classify L m hd.length hd [] []
  if reducible.isEmpty then
    let out ← L.merge [[m], same]
    .ok (false, out)
  else
    let out ← L.merge [[m], removeZeroKeys reducible, same]
    .ok (true, out)

/-- The `while hd` loop of `_elim` (/repo/srg/gauss_elim.py:56-66). -/
def elimLoopL (L : HeapLib) : Nat → List Entry → List Entry → Res (List Entry)
  | _, hs, [] => .ok hs
  | 0, _, _ :: _ => .error .fuel
  | n + 1, hs, h :: t => do
    let (simplified, hd) ← gaussStepL L (h :: t)
    if simplified then
      let temp ← L.merge [hs, hd]
      elimLoopL L n [] temp
    else
      let (m, hd) ← L.pop hd
      elimLoopL L n (hs ++ [m]) hd

/-- `_elim` (/repo/srg/gauss_elim.py:45-68) on top of a `heapq` library. -/
def elimListL (L : HeapLib) (hd : List Entry) : Res (List Entry) :=
  let hd := removeZeroKeys hd
  if hd.length ≤ 1 then .ok hd
  else elimLoopL L (elimFuel hd) [] (ssort hd)

end TDS.Gauss
