import Verif.Model.Unique
import Verif.Props.Elim
import Mathlib.Data.List.Sort

/-! C21, C37: column compression and sorting of equations. -/

namespace TDS

/-! ### C21 -/

namespace Unique

/-- The positions of `uniqueLoc`, for codes at positions `i, i+1, …`. -/
def locs : Nat → Vec → List Nat
  | _, [] => []
  | i, [_] => [i]
  | i, a :: b :: t => if a = b then i :: (locs (i + 1) (b :: t)).tail else i :: locs (i + 1) (b :: t)

theorem locs_head (i : Nat) (enc : Vec) (h : enc ≠ []) : ∃ t, locs i enc = i :: t := by
  match enc with
  | [] => exact absurd rfl h
  | [_] => exact ⟨_, rfl⟩
  | a :: b :: t =>
    unfold locs
    split
    · exact ⟨_, rfl⟩
    · exact ⟨_, rfl⟩

/-- Codes of an `int64` array. -/
def InRange (enc : Vec) : Prop := ∀ a ∈ enc, -2 ^ 63 ≤ a ∧ a < 2 ^ 63

theorem i64_diff {a b : Int} (ha : -2 ^ 63 ≤ a ∧ a < 2 ^ 63) (hb : -2 ^ 63 ≤ b ∧ b < 2 ^ 63) :
    i64 (b - a) = 0 ↔ a = b := by
  unfold i64
  constructor
  · intro h
    have h1 := Int.dvd_of_bmod_eq_zero h
    obtain ⟨c, hc⟩ := h1
    have : c = 0 := by omega
    subst this; omega
  · rintro rfl
    simp

theorem uniqueLoc_from (i : Nat) (enc : Vec) (hne : enc ≠ []) (h : InRange enc) :
    i :: (whereFrom (fun x => x != 0) i ((npDiff enc).map i64)).map (· + 1) = locs i enc := by
  induction enc generalizing i with
  | nil => exact absurd rfl hne
  | cons a t ih =>
    cases t with
    | nil => rfl
    | cons b t =>
      have hab := i64_diff (h a (by simp)) (h b (by simp))
      have ih := ih (i + 1) (by simp) (fun x hx => h x (List.mem_cons_of_mem _ hx))
      simp only [npDiff, List.map_cons, whereFrom, locs]
      by_cases he : a = b
      · rw [if_pos he, ← ih]
        simp [hab.2 he]
      · rw [if_neg he, ← ih]
        have : i64 (b - a) ≠ 0 := fun hc => he (hab.1 hc)
        simp [this]

theorem uniqueLoc_eq {enc : Vec} (hne : enc ≠ []) (h : InRange enc) :
    uniqueLoc enc = locs 0 enc := uniqueLoc_from 0 enc hne h

theorem locs_sorted (i : Nat) (enc : Vec) : (locs i enc).Pairwise (· < ·) ∧
    ∀ x ∈ locs i enc, i ≤ x ∧ x < i + enc.length := by
  match enc with
  | [] => simp [locs]
  | [_] => simp [locs]
  | a :: b :: t =>
    obtain ⟨h1, h2⟩ := locs_sorted (i + 1) (b :: t)
    have h3 : ∀ x ∈ locs (i + 1) (b :: t), i < x ∧ x < i + (a :: b :: t).length := by
      intro x hx
      have := h2 x hx
      simp only [List.length_cons] at this ⊢
      omega
    unfold locs
    split
    · refine ⟨List.pairwise_cons.2 ⟨fun x hx => (h3 x (List.mem_of_mem_tail hx)).1, h1.tail⟩, ?_⟩
      intro x hx
      rcases List.mem_cons.1 hx with rfl | hx
      · simp
      · have := h3 x (List.mem_of_mem_tail hx); omega
    · refine ⟨List.pairwise_cons.2 ⟨fun x hx => (h3 x hx).1, h1⟩, ?_⟩
      intro x hx
      rcases List.mem_cons.1 hx with rfl | hx
      · simp
      · have := h3 x hx; omega

/-- The row rebuilt from kept positions: the value at each position repeated up to the next. -/
def fillRow (f : Nat → Int) : List Nat → Nat → Vec
  | [], _ => []
  | [i], n => List.replicate (n - i) (f i)
  | i :: j :: t, n => List.replicate (j - i) (f i) ++ fillRow f (j :: t) n

theorem fillRow_locs (f : Nat → Int) (i : Nat) (enc : Vec)
    (h : ∀ j, j + 1 < enc.length → enc.getD j 0 = enc.getD (j + 1) 0 → f (i + j) = f (i + j + 1)) :
    fillRow f (locs i enc) (i + enc.length) = (List.range' i enc.length).map f := by
  match enc with
  | [] => simp [locs, fillRow]
  | [_] => simp [locs, fillRow]
  | a :: b :: t =>
    have ih := fillRow_locs f (i + 1) (b :: t) (by
      intro j hj he
      have := h (j + 1) (by simpa using hj) (by simpa using he)
      rw [show i + 1 + j = i + (j + 1) by omega]
      exact this)
    obtain ⟨tl, htl⟩ := locs_head (i + 1) (b :: t) (by simp)
    have hsort := locs_sorted (i + 1) (b :: t)
    rw [htl] at ih hsort
    have hlen : i + (a :: b :: t).length = i + 1 + (b :: t).length := by
      simp only [List.length_cons]; omega
    have hrng : (List.range' i (a :: b :: t).length).map f =
        f i :: (List.range' (i + 1) (b :: t).length).map f := by
      rw [List.length_cons, List.range'_succ, List.map_cons]
    rw [hlen, hrng, ← ih]
    unfold locs
    by_cases he : a = b
    · rw [if_pos he, htl, List.tail_cons]
      have hf : f i = f (i + 1) := by
        have := h 0 (by simp) (by simpa using he)
        simpa using this
      cases tl with
      | nil =>
        simp only [fillRow]
        rw [hf, show i + 1 + (b :: t).length - i = i + 1 + (b :: t).length - (i + 1) + 1 by
          simp only [List.length_cons]; omega, List.replicate_succ]
      | cons j tl =>
        have hj := (List.pairwise_cons.1 hsort.1).1 j (by simp)
        simp only [fillRow]
        rw [hf, show j - i = j - (i + 1) + 1 by omega, List.replicate_succ]
        rfl
    · rw [if_neg he, htl]
      simp only [fillRow]
      rw [show i + 1 - i = 1 by omega]
      rfl

/-- Multiplicities of kept positions. -/
def gaps : List Nat → Nat → Vec
  | [], _ => []
  | [i], n => [(n : Int) - i]
  | i :: j :: t, n => ((j : Int) - i) :: gaps (j :: t) n

theorem gaps_length (l : List Nat) (n : Nat) : (gaps l n).length = l.length := by
  match l with
  | [] => rfl
  | [_] => rfl
  | i :: j :: t => simp [gaps, gaps_length (j :: t) n]

theorem npDiff_sum_cast (i : Nat) (t : List Nat) :
    (npDiff ((i :: t).map (fun (x : Nat) => (x : Int)))).sum =
      ((i :: t).getLast (by simp) : Int) - i := by
  induction t generalizing i with
  | nil => simp [npDiff]
  | cons j t ih =>
    have := ih j
    simp only [List.map_cons, npDiff, List.sum_cons] at this ⊢
    rw [this, List.getLast_cons (List.cons_ne_nil j t)]
    omega

theorem gaps_eq (i : Nat) (t : List Nat) (n : Nat) :
    gaps (i :: t) n = npDiff ((i :: t).map (fun (x : Nat) => (x : Int))) ++
      [(n : Int) - i - (npDiff ((i :: t).map (fun (x : Nat) => (x : Int)))).sum] := by
  induction t generalizing i with
  | nil => simp [gaps, npDiff]
  | cons j t ih =>
    unfold gaps
    rw [ih j]
    have h1 := npDiff_sum_cast i (j :: t)
    have h2 := npDiff_sum_cast j t
    rw [List.getLast_cons (by simp)] at h1
    simp only [List.map_cons, npDiff, List.cons_append, List.sum_cons] at h1 h2 ⊢
    rw [show (n : Int) - j - (npDiff ((j : Int) :: t.map (fun (x : Nat) => (x : Int)))).sum =
      (n : Int) - i - (((j : Int) - i) +
        (npDiff ((j : Int) :: t.map (fun (x : Nat) => (x : Int)))).sum) by omega]

theorem gaps_pos (l : List Nat) (n : Nat) (hs : l.Pairwise (· < ·)) (hn : ∀ x ∈ l, x < n) :
    ∀ g ∈ gaps l n, 0 < g := by
  match l with
  | [] => simp [gaps]
  | [i] => have := hn i (by simp); simp [gaps]; omega
  | i :: j :: t =>
    have h1 := List.pairwise_cons.1 hs
    have := h1.1 j (by simp)
    intro g hg
    unfold gaps at hg
    rcases List.mem_cons.1 hg with rfl | hg
    · omega
    · exact gaps_pos (j :: t) n h1.2 (fun x hx => hn x (List.mem_cons_of_mem _ hx)) g hg

theorem expandLoop_ok (A : Mat) (c : Nat) (bounds : Vec) (hc : c + bounds.length ≤ ncols A)
    (hb : ∀ x ∈ bounds, 0 ≤ x) :
    expandLoop A c bounds = .ok ((bounds.zipIdx c).map (fun p =>
      (col A p.2).map (fun a => List.replicate p.1.toNat a))) := by
  induction bounds generalizing c with
  | nil => rfl
  | cons b t ih =>
    simp only [List.length_cons] at hc
    unfold expandLoop
    have := hb b (by simp)
    rw [if_neg (by omega), if_neg (by omega),
      ih (c + 1) (by omega) (fun x hx => hb x (List.mem_cons_of_mem _ hx))]
    rfl

theorem fillRow_gaps (g : Nat → Int) (l : List Nat) (n c : Nat) (hs : l.Pairwise (· < ·))
    (hn : ∀ x ∈ l, x < n) :
    (((gaps l n).zipIdx c).map (fun p =>
      List.replicate p.1.toNat ((List.replicate c 0 ++ l.map g).getD p.2 0))).flatten =
      fillRow g l n := by
  match l with
  | [] => rfl
  | [i] =>
    have := hn i (by simp)
    simp only [gaps, List.zipIdx_cons, List.zipIdx_nil, List.map_cons, List.map_nil,
      List.flatten_cons, List.flatten_nil, List.append_nil, fillRow]
    rw [List.getD_append_right _ _ _ _ (by simp)]
    simp only [List.length_replicate, Nat.sub_self, List.getD_cons_zero]
    congr 1; omega
  | i :: j :: t =>
    have h1 := List.pairwise_cons.1 hs
    have hij := h1.1 j (by simp)
    have ih := fillRow_gaps g (j :: t) n (c + 1) h1.2
      (fun x hx => hn x (List.mem_cons_of_mem _ hx))
    unfold gaps fillRow
    rw [List.zipIdx_cons, List.map_cons, List.flatten_cons, ← ih]
    congr 1
    · rw [List.getD_append_right _ _ _ _ (by simp)]
      simp only [List.length_replicate, Nat.sub_self, List.map_cons, List.getD_cons_zero]
      congr 1; omega
    · congr 1
      apply List.map_congr_left
      intro p hp
      congr 1
      have hp2 := List.le_snd_of_mem_zipIdx hp
      rw [List.getD_append_right _ _ _ _ (by simp; omega),
        List.getD_append_right _ _ _ _ (by simp; omega)]
      simp only [List.length_replicate]
      rw [show p.2 - c = (p.2 - (c + 1)) + 1 by omega]
      rw [List.map_cons, List.getD_cons_succ]

end Unique

/-- **C21.**  On a 0/1 matrix with 1..64 rows and at least one column, `reduce` succeeds; the kept
positions start at 0 and increase, each position starts a maximal run of equal columns, the
multiplicities are positive and sum to the number of columns, and `expand` restores the matrix. -/
theorem C21_round_trip {A : Mat} {C : Nat} (hne : A ≠ []) (hR : A.length ≤ 64) (hC : 0 < C)
    (hrect : ∀ r ∈ A, r.length = C) (hbin : ∀ r ∈ A, Spec.Bin r) :
    ∃ A' bounds loc, Unique.reduce A = .ok (A', bounds, loc) ∧
      Unique.expand A' bounds = .ok A ∧
      loc.head? = some 0 ∧ loc.Pairwise (· < ·) ∧ (∀ j ∈ loc, j < C) ∧
      bounds.length = loc.length ∧ (∀ x ∈ bounds, 0 < x) ∧ bounds.sum = C ∧
      A' = A.map (fun r => loc.map (fun j => r.getD j 0)) := by
  obtain ⟨enc, henc, hlen, hcodes⟩ := C22_codes hne hR hrect hbin
  have hnc : ncols A = C := by
    cases A with
    | nil => exact absurd rfl hne
    | cons r t => exact hrect r (by simp)
  have hencne : enc ≠ [] := by
    intro h; rw [h] at hlen; simp at hlen; omega
  have hrange : Unique.InRange enc := by
    have : enc = (List.range (ncols A)).map (fun j => Unique.colKey (col A j)) := by
      unfold Unique.encode at henc
      rw [if_neg (by rw [List.length_eq_zero_iff]; exact hne)] at henc
      simpa using henc.symm
    intro a ha
    rw [this] at ha
    obtain ⟨j, -, rfl⟩ := List.mem_map.1 ha
    have hb : Bin (col A j) := by
      intro x hx
      obtain ⟨r, hr, rfl⟩ := List.mem_map.1 hx
      by_cases hj : j < r.length
      · rw [List.getD_eq_getElem _ _ hj]; exact hbin r hr _ (List.getElem_mem _)
      · left; rw [List.getD_eq_default _ _ (by omega)]
    rw [Gauss.colKey_eq_rowKey, Gauss.rowKey_eq (by simpa [col] using hne) hb]
    unfold i64
    have h1 := Int.le_bmod (x := bval (col A j)) (m := 18446744073709551616) (by decide)
    have h2 := Int.bmod_lt (x := bval (col A j)) (m := 18446744073709551616) (by decide)
    constructor
    · refine le_trans ?_ h1; decide
    · refine lt_of_lt_of_le h2 ?_; decide
  have hloc := Unique.uniqueLoc_eq hencne hrange
  obtain ⟨tl, htl⟩ := Unique.locs_head 0 enc hencne
  have hsort := Unique.locs_sorted 0 enc
  simp only [hlen, Nat.zero_add, Nat.zero_le, true_and] at hsort
  have hgeq := Unique.gaps_eq 0 tl C
  rw [← htl] at hgeq
  simp only [Nat.cast_zero, Int.sub_zero] at hgeq
  have hred : Unique.reduce A = .ok (A.map (fun r => (Unique.locs 0 enc).map (fun j => r.getD j 0)),
      Unique.gaps (Unique.locs 0 enc) C, Unique.locs 0 enc) := by
    unfold Unique.reduce
    rw [henc, ok_bind]
    simp only [hloc, hlen]
    rw [if_neg (by omega), hgeq]
  have hgsum : (Unique.gaps (Unique.locs 0 enc) C).sum = C := by
    rw [hgeq, List.sum_append]
    simp only [List.sum_cons, List.sum_nil]
    omega
  have hgpos := Unique.gaps_pos _ C hsort.1 hsort.2
  have hglen := Unique.gaps_length (Unique.locs 0 enc) C
  refine ⟨_, _, _, hred, ?_, by rw [htl]; rfl, hsort.1, hsort.2, hglen, hgpos, hgsum, rfl⟩
  have hnc' : ncols (A.map (fun r => (Unique.locs 0 enc).map (fun j => r.getD j 0))) =
      (Unique.locs 0 enc).length := by
    cases A with
    | nil => exact absurd rfl hne
    | cons r t => simp [ncols]
  unfold Unique.expand
  rw [Unique.expandLoop_ok _ _ _ (by rw [hnc', hglen, Nat.zero_add]) (fun x hx => (hgpos x hx).le),
    ok_bind]
  have hgne : Unique.gaps (Unique.locs 0 enc) C ≠ [] := by
    rw [Ne, ← List.length_eq_zero_iff, hglen, htl]; simp
  obtain ⟨g0, gt, hg⟩ := List.exists_cons_of_ne_nil hgne
  split
  · next h0 => rw [hg] at h0; simp at h0
  · congr 1
    apply List.ext_getElem
    · simp
    · intro i hi hi'
      rw [List.getElem_map, List.getElem_range]
      set f : Nat → Int := fun j => (A[i]).getD j 0 with hf
      have key := Unique.fillRow_locs f 0 enc (by
        intro j hj he
        have hjC : j + 1 < C := by rw [← hlen]; exact hj
        have := (hcodes j (by omega) (j + 1) hjC).1 he
        rw [Nat.zero_add]
        exact this A[i] (List.getElem_mem _))
      rw [hlen, Nat.zero_add] at key
      have h2 := Unique.fillRow_gaps f (Unique.locs 0 enc) C 0 hsort.1 hsort.2
      rw [key] at h2
      have h3 : (List.range' 0 C).map f = A[i] := by
        apply List.ext_getElem
        · rw [List.length_map, List.length_range', hrect _ (List.getElem_mem _)]
        · intro j hj hj'
          rw [List.getElem_map, List.getElem_range', hf]
          simp only [Nat.zero_add, Nat.one_mul]
          rw [List.getD_eq_getElem _ _ hj']
      rw [h3] at h2
      rw [← h2, List.map_map]
      congr 1
      apply List.map_congr_left
      intro p hp
      simp only [Function.comp]
      have hi2 : i < ((col (A.map (fun r => (Unique.locs 0 enc).map (fun j => r.getD j 0))) p.2).map
          (fun a => List.replicate p.1.toNat a)).length := by
        rw [List.length_map, col, List.length_map, List.length_map]
        exact hi'
      rw [List.getD_eq_getElem _ _ hi2, List.getElem_map]
      congr 1
      unfold col
      rw [List.getElem_map, List.getElem_map]
      rfl

example : Unique.reduce [[1, 1, 1, 1, 0, 0, 0], [1, 1, 0, 0, 1, 1, 0], [1, 1, 1, 1, 1, 1, 1]] =
      .ok ([[1, 1, 0, 0], [1, 0, 1, 0], [1, 1, 1, 1]], [2, 2, 2, 1], [0, 2, 4, 6]) ∧
    Unique.expand [[1, 1, 0, 0], [1, 0, 1, 0], [1, 1, 1, 1]] [2, 2, 2, 1] =
      .ok [[1, 1, 1, 1, 0, 0, 0], [1, 1, 0, 0, 1, 1, 0], [1, 1, 1, 1, 1, 1, 1]] := by
  decide +kernel

/-- **C21**, the bound on the rows is needed: at 65 rows different columns get the same code and
`expand` does not restore the matrix. -/
theorem C21_false_at_65 : ∃ A : Mat, A.length = 65 ∧ (∀ r ∈ A, r.length = 2) ∧
    (∀ r ∈ A, Spec.Bin r) ∧ (Unique.reduce A >>= fun p => Unique.expand p.1 p.2.1) ≠ .ok A := by
  refine ⟨[1, 0] :: List.replicate 64 [0, 0], by simp, ?_, ?_, by decide +kernel⟩
  · intro r hr
    rcases List.mem_cons.1 hr with rfl | hr
    · rfl
    · rw [List.eq_of_mem_replicate hr]; rfl
  · intro r hr a ha
    rcases List.mem_cons.1 hr with rfl | hr
    · revert ha; revert a; decide
    · rw [List.eq_of_mem_replicate hr] at ha; revert ha; revert a; decide

/-! ### C37 -/

/-- A (stable) `argsort`: the contract is satisfiable. -/
def stableArgsort (a : Vec) : List Nat :=
  (List.range a.length).insertionSort (fun i j => a.getD i 0 ≤ a.getD j 0)

theorem isArgsort_stable : IsArgsort stableArgsort := by
  constructor
  · intro a; exact List.perm_insertionSort _ _
  · intro a
    rw [List.pairwise_map]
    have : Std.Total (fun i j : Nat => a.getD i 0 ≤ a.getD j 0) := ⟨fun i j => le_total _ _⟩
    have : IsTrans Nat (fun i j : Nat => a.getD i 0 ≤ a.getD j 0) := ⟨fun i j k => le_trans⟩
    exact List.pairwise_insertionSort (fun i j : Nat => a.getD i 0 ≤ a.getD j 0) _

theorem zip_map_map {α β γ : Type} (l : List γ) (f : γ → α) (g : γ → β) :
    (l.map f).zip (l.map g) = l.map (fun x => (f x, g x)) := by
  induction l with
  | nil => rfl
  | cons a t ih => simp [ih]

/-- **C37.**  For any tie-breaking of `argsort`: `sort` rearranges the equations jointly so that
the right-hand sides ascend, and the solution set is unchanged. -/
theorem C37_sort {argsort : Vec → List Nat} (ha : IsArgsort argsort) {A : Mat} {b : Vec}
    (hl : A.length = b.length) :
    ∃ A' b', Gauss.sort argsort A b = .ok (A', b') ∧ b'.Pairwise (· ≤ ·) ∧
      A'.length = b'.length ∧ (A'.zip b').Perm (A.zip b) ∧
      ∀ x, Spec.Solves A' b' x ↔ Spec.Solves A b x := by
  refine ⟨_, _, by unfold Gauss.sort; rw [if_neg (by omega), if_pos hl], ha.sorted b, by simp, ?_⟩
  have hperm : (((argsort b).map (fun i => A.getD i [])).zip
      ((argsort b).map (fun i => b.getD i 0))).Perm (A.zip b) := by
    rw [zip_map_map]
    have h1 := (ha.perm b).map (fun i => (A.getD i [], b.getD i 0))
    refine h1.trans (List.Perm.of_eq ?_)
    apply List.ext_getElem
    · simp [hl]
    · intro i hi hi'
      simp only [List.length_map, List.length_range] at hi
      rw [List.getElem_map, List.getElem_range, List.getElem_zip,
        List.getD_eq_getElem _ _ (by omega), List.getD_eq_getElem _ _ hi]
  refine ⟨hperm, ?_⟩
  have hgen : ∀ (A : Mat) (b : Vec), A.length = b.length → ∀ x, Spec.Solves A b x ↔
      ∀ p ∈ A.zip b, Spec.meet p.1 x = p.2 := by
    intro A b hl x
    unfold Spec.Solves
    constructor
    · rintro h p hp
      obtain ⟨r, hr, rfl⟩ := List.getElem_of_mem hp
      have hr1 : r < A.length := by
        rw [List.length_zip] at hr; exact lt_of_lt_of_le hr (Nat.min_le_left _ _)
      have := h r hr1
      rw [List.getElem_zip]
      rw [List.getD_eq_getElem _ _ hr1, List.getD_eq_getElem _ _ (hl ▸ hr1)] at this
      exact this
    · intro h r hr
      have hm : (A[r], b[r]'(hl ▸ hr)) ∈ A.zip b := by
        rw [List.mem_iff_getElem]
        exact ⟨r, by rw [List.length_zip]; omega, by simp⟩
      rw [List.getD_eq_getElem _ _ hr, List.getD_eq_getElem _ _ (hl ▸ hr)]
      exact h _ hm
  intro x
  rw [hgen _ _ (by simp), hgen A b hl]
  exact ⟨fun h p hp => h p (hperm.mem_iff.2 hp), fun h p hp => h p (hperm.mem_iff.1 hp)⟩

example : Gauss.sort stableArgsort [[1, 1], [0, 1]] [5, 3] = .ok ([[0, 1], [1, 1]], [3, 5]) := by
  decide +kernel

end TDS
