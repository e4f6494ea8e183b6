import Verif.Model.Data
import Verif.Model.Data28

/-! An exhaustive search for adjacency matrices, written for evaluation by the kernel.

The columns of the rows found so far are packed into numbers: eight bits for each row, the last row
lowest, and eight for the number of ones.  Every strongly regular array with rows justified to the
left as in `Spec.LeftJustified` is found. -/

namespace TDS.Fast

/-- Evaluates its first argument. -/
noncomputable def force (x : Nat) (f : Nat → Bool) : Bool :=
  @Nat.rec (fun _ => Bool) (f 0) (fun n _ => f (Nat.succ n)) x

/-- All rows: `need` and `slack` are what has to be covered by ones and by zeros, `pc` is the last
column if it got a zero. -/
noncomputable def rowGo (G : Nat) (K : List Nat → Bool) (post : List Nat) :
    Nat → Nat → Nat → List Nat → Bool :=
  @List.rec Nat (fun _ => Nat → Nat → Nat → List Nat → Bool)
    (fun _ _ _ acc => K acc)
    (fun c _ ih slack need pc acc =>
      @Bool.rec (fun _ => Bool) false
        (@Bool.rec (fun _ => Bool)
          (force (Nat.sub need c) fun need' =>
            @Bool.rec (fun _ => Bool) true (ih slack need' 0 (Nat.succ (Nat.mul c 256) :: acc))
              (Nat.beq (Nat.land need' G) G))
          true
          (Nat.beq pc c))
        (force (Nat.sub slack c) fun slack' =>
          @Bool.rec (fun _ => Bool) true (ih slack' need c (Nat.mul c 256 :: acc))
            (Nat.beq (Nat.land slack' G) G)))
    post

/-- Reversal, with evaluated entries. -/
noncomputable def frev (K : List Nat → Bool) (l : List Nat) : List Nat → Bool :=
  @List.rec Nat (fun _ => List Nat → Bool) (fun a => K a)
    (fun c _ ih a => force c fun c' => ih (c' :: a)) l

/-- Sum of a list. -/
noncomputable def total (l : List Nat) : Nat :=
  @List.rec Nat (fun _ => Nat) 0 (fun c _ ih => Nat.add c ih) l

/-- The part of the new row left of the diagonal. -/
noncomputable def preGo (cur : Nat) (K : Nat → List Nat → Bool) (rpre : List Nat) :
    Nat → Nat → List Nat → Bool :=
  @List.rec Nat (fun _ => Nat → Nat → List Nat → Bool)
    (fun _ base acc => K base acc)
    (fun p _ ih mask base acc =>
      force (Nat.mul mask 256) fun mask' =>
        @Bool.rec (fun _ => Bool)
          (force (Nat.add base p) fun base' => ih mask' base' (Nat.succ (Nat.mul p 256) :: acc))
          (ih mask' base (Nat.mul p 256 :: acc))
          (Nat.beq (Nat.land cur mask) 0))
    rpre

/-- What the new row has to cover in total. -/
noncomputable def target (k l u top cur : Nat) : Nat :=
  Nat.add (Nat.mul k top) (Nat.add (Nat.mul l (Nat.sub cur top))
    (Nat.mul u (Nat.sub (Nat.div (Nat.sub top 1) 255) (Nat.sub cur top))))

/-- `d` more rows; `rpre` and `rpost` are the columns before and from the diagonal on, reversed. -/
noncomputable def search (k l u : Nat) (leaf : List Nat → List Nat → Bool) (d : Nat) :
    Nat → Nat → List Nat → List Nat → Bool :=
  @Nat.rec (fun _ => Nat → Nat → List Nat → List Nat → Bool)
    (fun _ _ rpre rpost => leaf rpre rpost)
    (fun _ ih G top rpre rpost =>
      frev (fun post => @List.rec Nat (fun _ => Bool) true (fun cur post _ =>
        preGo cur (fun base pre' =>
          force (Nat.sub (Nat.add (target k l u top cur) G) base) fun need =>
          @Bool.rec (fun _ => Bool) true
            (force (Nat.sub (Nat.add (total post) (Nat.mul 2 G)) need) fun slack =>
              @Bool.rec (fun _ => Bool) true
                (frev (fun rpre' =>
                  force (Nat.mul top 256) fun top' =>
                  force (Nat.add (Nat.mul G 256) 128) fun G' =>
                  force (Nat.mul cur 256) fun cur' =>
                  rowGo G (fun rpost' => ih G' top' (cur' :: rpre') rpost') post slack need 0 [])
                  pre' [])
                (Nat.beq (Nat.land slack G) G))
            (Nat.beq (Nat.land need G) G)) rpre 1 0 []) post) rpost [])
    d

/-- Bits of a stored row, eight apart. -/
noncomputable def spread (v : Nat) : Nat → Nat :=
  @Nat.rec (fun _ => Nat → Nat) (fun _ => 1)
    (fun _ ih r => Nat.add (Nat.mul (ih (Nat.div r 2)) 256) (Nat.mod r 2)) v

/-- Equality of lists. -/
noncomputable def eqList (a : List Nat) : List Nat → Bool :=
  @List.rec Nat (fun _ => List Nat → Bool)
    (fun b => @List.rec Nat (fun _ => Bool) true (fun _ _ _ => false) b)
    (fun x _ ih b => @List.rec Nat (fun _ => Bool) false
      (fun y t _ => @Bool.rec (fun _ => Bool) false (ih t) (Nat.beq x y)) b) a

/-- The stored list contains the matrix with these columns. -/
noncomputable def stored (v : Nat) (L : List (List Nat)) (rpre : List Nat) : Bool :=
  @List.rec (List Nat) (fun _ => Bool) false
    (fun rows _ ih => @Bool.rec (fun _ => Bool) ih true
      (eqList rpre (rows.map (spread v)).reverse)) L

/-- A number to distribute the partial matrices over several theorems. -/
noncomputable def key (m : Nat) (l : List Nat) : Nat :=
  @List.rec Nat (fun _ => Nat) 0 (fun c _ ih => Nat.mod (Nat.add (Nat.mul 3 ih) c) m) l

/-- A number with bit 7 of `d + 1` groups of eight bits set. -/
noncomputable def ones (d : Nat) : Nat :=
  @Nat.rec (fun _ => Nat) 128 (fun _ ih => Nat.add (Nat.mul ih 256) 128) d

/-- Part `i` of `m` of the search: `d` rows, and from there the partial matrices with key `i`. -/
noncomputable def part (v k l u d m i : Nat) (L : List (List Nat)) : Bool :=
  force (ones d) fun G => force (Nat.pow 256 d) fun top =>
    search k l u (fun rpre rpost => @Bool.rec (fun _ => Bool) true
      (search k l u (fun rpre _ => stored v L rpre) (Nat.sub v d) G top rpre rpost)
      (Nat.beq (key m rpost) i)) d 128 1 [] (List.replicate v 1)

end TDS.Fast
