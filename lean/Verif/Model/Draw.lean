import Verif.Model.Database
import Verif.Model.Utils
import Verif.Model.Sorter

/-! `draw` of `srg/database/__init__.py`, the script `exp.py`, and `compose` of `srg/pprint.py`. -/

namespace TDS

namespace Draw

/-- A `networkx.Graph`: nodes in the order of insertion, and each edge once (/repo/srg/database/__init__.py:54). -/
structure Graph where
  nodes : List Nat
  edges : List (Nat × Nat)
deriving DecidableEq, Repr

/-- `graph.add_node(n)` (/repo/srg/database/__init__.py:55). -/
def addNode (g : Graph) (n : Nat) : Graph :=
  if n ∈ g.nodes then g else { g with nodes := g.nodes ++ [n] }

/-- `graph.add_edge(r, c)`: adds the end points if they are new; edges have no direction and are
stored once (/repo/srg/database/__init__.py:61). -/
def addEdge (g : Graph) (e : Nat × Nat) : Graph :=
  let g := addNode (addNode g e.1) e.2
  if e ∈ g.edges ∨ (e.2, e.1) ∈ g.edges then g else { g with edges := g.edges ++ [e] }

/-- `zip(*matrix.nonzero())`: the positions of nonzero entries, row by row (/repo/srg/database/__init__.py:60). -/
def nonzero (m : Mat) : List (Nat × Nat) :=
  (List.range m.length).flatMap (fun r =>
    (npWhere (fun x => decide (x ≠ 0)) (m.getD r [])).map (fun c => (r, c)))

/-- The graph of one figure (/repo/srg/database/__init__.py:53-61): nodes `range(v)`, then edges. -/
def graph (v : Int) (m : Mat) : Graph :=
  (nonzero m).foldl addEdge ((List.range v.toNat).foldl addNode ⟨[], []⟩)

/-- The name of the `i`-th file (/repo/srg/database/__init__.py:65-67). -/
def pngName (v k l u : Int) (i : Nat) : Str :=
  "srg_".toList ++ intStr v ++ '_' :: intStr k ++ '_' :: intStr l ++ '_' :: intStr u ++
    '_' :: intStr i ++ ".png".toList

/-- A figure: the file, the nodes that are labelled (/repo/srg/database/__init__.py:53-58, before the
edges are added), and the graph. -/
structure Figure where
  file : Str
  labels : List Nat
  graph : Graph
deriving DecidableEq, Repr

/-- `draw` (/repo/srg/database/__init__.py:45-67): the figures saved, in order.  The layout in a circle
and the drawing itself are not represented. -/
def draw (ms : Database.Modules) (v k l u : Int) : Res (List Figure) := do
  let matrices ← Database.getSolutions ms v k l u
  .ok (matrices.mapIdx (fun i m => ⟨pngName v k l u i, List.range v.toNat, graph v m⟩))

/-- The script /repo/exp.py:10-21 for the lists `pp.solutions` and `pn.solutions`: the arrays
`u0`, `u1` and `v`.  (The two comparisons in its last lines have no effect.) -/
def experiment (argsort : Vec → List Nat) (pp pn : List Mat) : Res (Mat × Mat × Mat) :=
  match pp with
  | [s0, s1] => do
    let t0 ← Utils.complement s0
    let t1 ← Utils.complement s1
    let u0 ← Sorter.maximize argsort t0
    let u1 ← Sorter.maximize argsort t1
    let v ← pyGet pn 0
    .ok (u0, u1, v)
  | _ => .error .valueErr

end Draw

/-- `functools.reduce` without initial value: TypeError on an empty sequence (/repo/srg/pprint.py:12). -/
def pyReduce {α : Type} (f : α → α → α) : List α → Res α
  | [] => .error .typeErr
  | x :: t => .ok (t.foldl f x)

/-- `compose` (/repo/srg/pprint.py:7-12), for functions of one argument. -/
def compose {α : Type} (fs : List (α → α)) : Res (α → α) :=
  pyReduce (fun f g x => f (g x)) fs

end TDS
