import Verif.Proof.Fast
import Mathlib.Tactic.Positivity

/-! Packed columns, and what the exhaustive search finds. -/

namespace TDS.Fast

open Finset

/-- Number with the given base-256 digits. -/
def pack (N : Nat) (g : Nat → Nat) : Nat := ∑ i ∈ range N, g i * 256 ^ i

theorem pack_zero (g : Nat → Nat) : pack 0 g = 0 := by simp [pack]

theorem pack_succ (N : Nat) (g : Nat → Nat) :
    pack (N + 1) g = 2 ^ 8 * pack N (fun i => g (i + 1)) + g 0 := by
  unfold pack
  rw [Finset.sum_range_succ', Finset.mul_sum]
  congr 1
  · apply Finset.sum_congr rfl
    intro i _
    rw [pow_succ]; ring
  · simp

theorem and_low : ∀ f < 128, (128 + f) &&& 128 = 128 := by decide

theorem pack_guard : ∀ (N : Nat) (f : Nat → Nat), (∀ i, f i < 128) →
    pack N (fun i => 128 + f i) &&& pack N (fun _ => 128) = pack N (fun _ => 128)
  | 0, f, _ => by simp [pack]
  | N + 1, f, h => by
    rw [pack_succ, pack_succ]
    apply Nat.eq_of_testBit_eq
    intro j
    have ih := congrArg (fun n => n.testBit (j - 8))
      (pack_guard N (fun i => f (i + 1)) (fun i => h (i + 1)))
    have h0 := congrArg (fun n => n.testBit j) (and_low (f 0) (h 0))
    simp only [Nat.testBit_and] at ih h0
    rw [Nat.testBit_and, Nat.testBit_two_pow_mul_add _ (by have := h 0; omega),
      Nat.testBit_two_pow_mul_add _ (by omega)]
    by_cases hj : j < 8
    · rw [if_pos hj, if_pos hj]; exact h0
    · rw [if_neg hj, if_neg hj]; exact ih

theorem pack_testBit : ∀ (N : Nat) (g : Nat → Nat), (∀ i, g i < 256) → ∀ j,
    (pack N g).testBit (8 * j) = (decide (j < N) && (g j).testBit 0)
  | 0, g, _, j => by simp [pack]
  | N + 1, g, h, j => by
    rw [pack_succ, Nat.testBit_two_pow_mul_add _ (by have := h 0; omega)]
    cases j with
    | zero => simp
    | succ j =>
      rw [if_neg (by omega), show 8 * (j + 1) - 8 = 8 * j by omega,
        pack_testBit N (fun i => g (i + 1)) (fun i => h (i + 1)) j]
      simp

theorem pack_add (N : Nat) (f g : Nat → Nat) :
    pack N f + pack N g = pack N (fun i => f i + g i) := by
  unfold pack
  rw [← Finset.sum_add_distrib]
  apply Finset.sum_congr rfl
  intro i _
  ring

/-- Packed column with bits `B`, for `n` rows. -/
def col (B : Nat → Nat) : Nat → Nat
  | 0 => 1
  | n + 1 => col B n * 256 + B n

/-- Digits of a packed column. -/
def dig (n : Nat) (B : Nat → Nat) (i : Nat) : Nat :=
  if i = n then 1 else if i < n then B (n - 1 - i) else 0

theorem col_eq_pack (B : Nat → Nat) : ∀ n, col B n = pack (n + 1) (dig n B)
  | 0 => by simp [col, pack, dig]
  | n + 1 => by
    rw [pack_succ, col, col_eq_pack B n]
    have e1 : (fun i => dig (n + 1) B (i + 1)) = dig n B := by
      funext i
      simp only [dig, Nat.add_right_cancel_iff, Nat.add_lt_add_iff_right]
      rw [show n + 1 - 1 - (i + 1) = n - 1 - i by omega]
    have e2 : dig (n + 1) B 0 = B n := by simp [dig]
    rw [e1, e2, mul_comm, show (2 : Nat) ^ 8 = 256 by decide]

/-- The same as a sum. -/
theorem col_eq_sum (B : Nat → Nat) (n : Nat) :
    col B n = 256 ^ n + ∑ i ∈ range n, B i * 256 ^ (n - 1 - i) := by
  induction n with
  | zero => simp [col]
  | succ n ih =>
    rw [col, ih, Finset.sum_range_succ, add_mul, Finset.sum_mul, pow_succ, add_assoc]
    congr 2
    · apply Finset.sum_congr rfl
      intro i hi
      rw [Finset.mem_range] at hi
      rw [show n + 1 - 1 - i = (n - 1 - i) + 1 by omega, pow_succ, mul_assoc]
    · simp

theorem dig_le {n : Nat} {B : Nat → Nat} (h : ∀ i, B i ≤ 1) (i : Nat) : dig n B i ≤ 1 := by
  unfold dig
  split
  · omega
  · split
    · exact h _
    · omega

theorem col_bit {n : Nat} {B : Nat → Nat} (h : ∀ i, B i ≤ 1) {j : Nat} (hj : j < n) :
    (col B n).testBit (8 * (n - 1 - j)) = decide (B j = 1) := by
  rw [col_eq_pack, pack_testBit _ _ (fun i => by have := dig_le h (n := n) i; omega)]
  have e : dig n B (n - 1 - j) = B j := by
    unfold dig
    rw [if_neg (by omega), if_pos (by omega), show n - 1 - (n - 1 - j) = j by omega]
  have := h j
  rw [decide_eq_true (by omega), Bool.true_and, e]
  obtain e | e : B j = 0 ∨ B j = 1 := by omega
  all_goals rw [e]; decide

theorem col_mask {n : Nat} {B : Nat → Nat} (h : ∀ i, B i ≤ 1) {j : Nat} (hj : j < n) :
    Nat.land (col B n) (1 * 256 ^ j) = 0 ↔ B (n - 1 - j) = 0 := by
  have e : 1 * 256 ^ j = 2 ^ (8 * (n - 1 - (n - 1 - j))) := by
    rw [one_mul, pow_mul, show (2 : Nat) ^ 8 = 256 by decide, show n - 1 - (n - 1 - j) = j by omega]
  rw [e]
  show col B n &&& 2 ^ (8 * (n - 1 - (n - 1 - j))) = 0 ↔ _
  rw [Nat.and_two_pow, col_bit h (by omega)]
  have := h (n - 1 - j)
  obtain e | e : B (n - 1 - j) = 0 ∨ B (n - 1 - j) = 1 := by omega
  all_goals rw [e]; simp

theorem col_inj {n : Nat} {B B' : Nat → Nat} (h : ∀ i, B i ≤ 1) (h' : ∀ i, B' i ≤ 1)
    (e : col B n = col B' n) : ∀ i < n, B i = B' i := by
  intro i hi
  have h1 := col_bit h hi
  rw [e, col_bit h' hi, decide_eq_decide] at h1
  have := h i
  have := h' i
  omega

theorem col_pos (n : Nat) (B : Nat → Nat) : 0 < col B n := by
  rw [col_eq_sum]
  have : 0 < 256 ^ n := by positivity
  omega

theorem sel_pack (n : Nat) (b : Bool) (B : Nat → Nat → Nat) :
    ∀ (ps : List (Nat × Bool)) , (∀ p ∈ ps, ∃ j, p.1 = col (B j) n) → (∀ j i, B j i ≤ 1) →
      ∃ f : Nat → Nat, sel b ps = pack (n + 1) f ∧ ∀ i, f i ≤ ps.length
  | [], _, _ => ⟨fun _ => 0, by simp [sel, pack], fun _ => le_refl _⟩
  | p :: t, h, hB => by
    obtain ⟨f, h1, h2⟩ := sel_pack n b B t (fun q hq => h q (List.mem_cons_of_mem _ hq)) hB
    obtain ⟨j, hj⟩ := h p (by simp)
    by_cases hb : p.2 = b
    · refine ⟨fun i => dig n (B j) i + f i, ?_, ?_⟩
      · rw [← pack_add, ← h1, ← col_eq_pack, ← hj]
        simp [sel, hb]
      · intro i
        have := dig_le (hB j) (n := n) i
        have := h2 i
        rw [List.length_cons]
        show dig n (B j) i + f i ≤ _
        omega
    · refine ⟨f, ?_, ?_⟩
      · rw [← h1]; simp [sel, hb]
      · intro i
        have := h2 i
        rw [List.length_cons]
        omega

/-- The guard bits. -/
def guardBits (n : Nat) : Nat := pack (n + 1) (fun _ => 128)

theorem guardBits_succ (n : Nat) : guardBits (n + 1) = guardBits n * 256 + 128 := by
  unfold guardBits
  rw [pack_succ, mul_comm, show (2 : Nat) ^ 8 = 256 by decide]

theorem sel_guard {n : Nat} (b : Bool) (B : Nat → Nat → Nat)
    {ps : List (Nat × Bool)} (h : ∀ p ∈ ps, ∃ j, p.1 = col (B j) n) (hB : ∀ j i, B j i ≤ 1)
    (hl : ps.length < 128) : Nat.land (guardBits n + sel b ps) (guardBits n) = guardBits n := by
  obtain ⟨f, h1, h2⟩ := sel_pack n b B ps h hB
  unfold guardBits
  rw [h1, pack_add]
  exact pack_guard _ _ (fun i => by have := h2 i; omega)

theorem geom (n : Nat) : (256 ^ n - 1) / 255 = ∑ i ∈ range n, 256 ^ (n - 1 - i) := by
  have : ∀ n, 256 ^ n = 1 + 255 * ∑ i ∈ range n, 256 ^ (n - 1 - i) := by
    intro n
    rw [Finset.sum_range_reflect (fun i => 256 ^ i)]
    induction n with
    | zero => simp
    | succ n ih => rw [Finset.sum_range_succ, mul_add, ← add_assoc, ← ih, pow_succ]; ring
  rw [this, Nat.add_sub_cancel_left, Nat.mul_div_cancel_left _ (by omega)]

/-- A strongly regular array of natural numbers whose rows are justified to the left. -/
structure Canon (v k l u : Nat) (B : Nat → Nat → Nat) : Prop where
  bin : ∀ i j, B i j ≤ 1
  diag : ∀ i < v, B i i = 0
  sym : ∀ i < v, ∀ j < v, B i j = B j i
  deg : ∀ i < v, ∑ t ∈ range v, B i t = k
  inter : ∀ i < v, ∀ j < v, i ≠ j →
    ∑ t ∈ range v, B i t * B j t = if B i j = 1 then l else u
  left : ∀ n i, n < i → i + 1 < v → (∀ r < n, B r i = B r (i + 1)) → B n (i + 1) ≤ B n i

variable {v k l u : Nat} {B : Nat → Nat → Nat}

/-- Column `j` of the first `n` rows. -/
def cl (B : Nat → Nat → Nat) (n j : Nat) : Nat := col (fun i => B i j) n

/-- Columns with the bits of row `n`. -/
def pairs (B : Nat → Nat → Nat) (n a b : Nat) : List (Nat × Bool) :=
  (List.range' a (b - a)).map (fun j => (cl B n j, decide (B n j = 1)))

theorem pairs_fst (n a b : Nat) :
    (pairs B n a b).map Prod.fst = (List.range' a (b - a)).map (cl B n) := by
  unfold pairs
  rw [List.map_map]
  rfl

theorem upd_pairs (h : Canon v k l u B) (n a b : Nat) :
    upd (pairs B n a b) = (List.range' a (b - a)).map (cl B (n + 1)) := by
  unfold pairs upd
  rw [List.map_map]
  apply List.map_congr_left
  intro j _
  have := h.bin n j
  show (if decide (B n j = 1) = true then cl B n j * 256 + 1 else cl B n j * 256) = _
  unfold cl
  rw [col]
  obtain e | e : B n j = 0 ∨ B n j = 1 := by omega
  all_goals simp [e]

theorem sum_range'_eq (f : Nat → Nat) (a : Nat) : ∀ m,
    ((List.range' a m).map f).sum = ∑ j ∈ Ico a (a + m), f j
  | 0 => by simp
  | m + 1 => by
    rw [List.range'_concat, List.map_append, List.sum_append, sum_range'_eq f a m,
      ← add_assoc, Finset.sum_Ico_succ_top (by omega)]
    simp

theorem sel_pairs (h : Canon v k l u B) {n a b : Nat} (hab : a ≤ b) :
    sel true (pairs B n a b) = ∑ j ∈ Ico a b, B n j * cl B n j := by
  unfold sel pairs
  rw [List.map_map, sum_range'_eq, show a + (b - a) = b by omega]
  apply Finset.sum_congr rfl
  intro j _
  have := h.bin n j
  obtain e | e : B n j = 0 ∨ B n j = 1 := by omega
  all_goals simp [e]

theorem total_row (h : Canon v k l u B) {n : Nat} (hn : n < v) :
    ∑ j ∈ range v, B n j * cl B n j = target k l u (256 ^ n) (cl B n n) := by
  have e1 : ∀ j, B n j * cl B n j =
      B n j * 256 ^ n + ∑ i ∈ range n, B i j * B n j * 256 ^ (n - 1 - i) := by
    intro j
    unfold cl
    rw [col_eq_sum, mul_add, Finset.mul_sum]
    congr 1
    apply Finset.sum_congr rfl
    intro i _
    ring
  rw [Finset.sum_congr rfl (fun j _ => e1 j), Finset.sum_add_distrib, ← Finset.sum_mul,
    h.deg n hn, Finset.sum_comm]
  have e2 : ∀ i ∈ range n, ∑ j ∈ range v, B i j * B n j * 256 ^ (n - 1 - i) =
      (if B i n = 1 then l else u) * 256 ^ (n - 1 - i) := by
    intro i hi
    rw [Finset.mem_range] at hi
    rw [← Finset.sum_mul, h.inter i (by omega) n hn (by omega)]
  rw [Finset.sum_congr rfl e2]
  show _ = k * 256 ^ n + (l * (cl B n n - 256 ^ n) +
    u * ((256 ^ n - 1) / 255 - (cl B n n - 256 ^ n)))
  rw [geom]
  have e3 : cl B n n - 256 ^ n = ∑ i ∈ range n, B i n * 256 ^ (n - 1 - i) := by
    unfold cl
    rw [col_eq_sum]
    exact Nat.add_sub_cancel_left ..
  have e4 : ∑ i ∈ range n, 256 ^ (n - 1 - i) - (cl B n n - 256 ^ n) =
      ∑ i ∈ range n, (1 - B i n) * 256 ^ (n - 1 - i) := by
    rw [e3]
    apply Nat.sub_eq_of_eq_add
    rw [← Finset.sum_add_distrib]
    apply Finset.sum_congr rfl
    intro i _
    rw [← add_mul]
    have := h.bin i n
    rw [show 1 - B i n + B i n = 1 by omega, one_mul]
  rw [e4, e3, Finset.mul_sum, Finset.mul_sum, ← Finset.sum_add_distrib]
  congr 1
  apply Finset.sum_congr rfl
  intro i _
  have := h.bin i n
  obtain e | e : B i n = 0 ∨ B i n = 1 := by omega
  all_goals simp [e]

theorem just_pairs (h : Canon v k l u B) {n : Nat} : ∀ (m a pc : Nat), a + m = v → n < a →
    (pc = 0 ∨ (n < a - 1 ∧ pc = cl B n (a - 1) ∧ B n (a - 1) = 0)) →
    Just pc (pairs B n a v)
  | 0, a, pc, ha, _, _ => by
    unfold pairs
    rw [show v - a = 0 by omega]
    trivial
  | m + 1, a, pc, ha, hn, hp => by
    have e : pairs B n a v = (cl B n a, decide (B n a = 1)) :: pairs B n (a + 1) v := by
      unfold pairs
      rw [show v - a = m + 1 by omega, show v - (a + 1) = m by omega, List.range'_succ]
      rfl
    rw [e]
    refine ⟨?_, ?_⟩
    · intro hb hpc
      rw [decide_eq_true_eq] at hb
      rcases hp with hp | ⟨h1, h2, h3⟩
      · have := col_pos n (fun i => B i a)
        unfold cl at hpc
        omega
      · rw [h2] at hpc
        have h4 := col_inj (fun i => h.bin i (a - 1)) (fun i => h.bin i a) hpc
        have h5 := h.left n (a - 1) h1 (by omega) (by
          intro r hr
          rw [show a - 1 + 1 = a by omega]
          exact h4 r hr)
        rw [show a - 1 + 1 = a by omega] at h5
        omega
    · apply just_pairs h m (a + 1) _ (by omega) (by omega)
      by_cases hb : B n a = 1
      · left; simp [hb]
      · right
        have := h.bin n a
        refine ⟨by omega, ?_, by rw [Nat.add_sub_cancel]; omega⟩
        simp [hb]

theorem search_sound (h : Canon v k l u B) (hv : v ≤ 66) (leaf : List Nat → List Nat → Bool) :
    ∀ (d n : Nat), n + d ≤ v →
    search k l u leaf d (guardBits n) (256 ^ n) ((List.range n).map (cl B n)).reverse
      ((List.range' n (v - n)).map (cl B n)).reverse = true →
    leaf ((List.range (n + d)).map (cl B (n + d))).reverse
      ((List.range' (n + d) (v - (n + d))).map (cl B (n + d))).reverse = true
  | 0, n, _, hs => hs
  | d + 1, n, hd, hs => by
    have hpre : ((List.range n).map (cl B n)).reverse = ((pairs B n 0 n).reverse).map Prod.fst := by
      rw [List.map_reverse, pairs_fst, List.range_eq_range', Nat.sub_zero]
    have hpost : ((List.range' n (v - n)).map (cl B n)) =
        cl B n n :: (pairs B n (n + 1) v).map Prod.fst := by
      rw [pairs_fst, show v - n = (v - (n + 1)) + 1 by omega, List.range'_succ]
      rfl
    have hmem : ∀ rs, rs <:+ pairs B n (n + 1) v → ∀ p ∈ rs, ∃ j, p.1 = col (fun i => B i j) n := by
      intro rs hr p hp
      have := hr.mem hp
      unfold pairs at this
      obtain ⟨j, -, rfl⟩ := List.mem_map.1 this
      exact ⟨j, rfl⟩
    have hlen : (pairs B n (n + 1) v).length < 128 := by
      unfold pairs
      rw [List.length_map, List.length_range']
      omega
    have hl0 : (pairs B n 0 n).length = n := by simp [pairs]
    have := search_succ hs (by rw [List.reverse_reverse]; exact hpost) hpre
      (by
        intro i hi
        rw [List.length_reverse, hl0] at hi
        unfold cl
        rw [col_mask (fun j => h.bin j n) hi]
        simp only [List.getElem_reverse, pairs, List.getElem_map, List.getElem_range',
          decide_eq_false_iff_not, List.length_map, List.length_range']
        rw [show 0 + 1 * (n - 0 - 1 - i) = n - 1 - i by omega,
          h.sym (n - 1 - i) (by omega) n (by omega)]
        have := h.bin n (n - 1 - i)
        omega)
      (by
        have e : sel true (pairs B n 0 n).reverse = sel true (pairs B n 0 n) := by
          unfold sel
          rw [List.map_reverse, List.sum_reverse]
        rw [e, ← total_row h (by omega), sel_pairs h (by omega), sel_pairs h (by omega),
          Finset.range_eq_Ico, ← Finset.sum_Ico_consecutive _ (Nat.zero_le n) (show n ≤ v by omega),
          Finset.sum_eq_sum_Ico_succ_bot (show n < v by omega), h.diag n (by omega), zero_mul,
          zero_add])
      (fun rs hr b => sel_guard b (fun j i => B i j) (hmem rs hr)
        (fun j i => h.bin i j) (lt_of_le_of_lt hr.length_le hlen))
      (just_pairs h (v - (n + 1)) (n + 1) 0 (by omega) (by omega) (Or.inl rfl))
    have := search_sound h hv leaf d (n + 1) (by omega) (by
      have eu : upd (pairs B n 0 n).reverse = (upd (pairs B n 0 n)).reverse := by
        unfold upd
        rw [List.map_reverse]
      rw [eu, upd_pairs h, upd_pairs h, Nat.sub_zero, ← List.range_eq_range',
        ← guardBits_succ, ← pow_succ] at this
      have e : (List.range (n + 1)).map (cl B (n + 1)) =
          (List.range n).map (cl B (n + 1)) ++ [cl B n n * 256] := by
        have e' : cl B (n + 1) n = cl B n n * 256 := by
          unfold cl
          rw [col, h.diag n (by omega), add_zero]
        rw [List.range_succ, List.map_append, List.map_singleton, e']
      rw [e, List.reverse_append]
      exact this)
    rw [show n + 1 + d = n + (d + 1) by omega] at this
    exact this

end TDS.Fast
