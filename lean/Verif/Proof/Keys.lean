import Verif.Model.Gauss
import Verif.Model.Small
import Verif.Proof.Basic

/-! Binary keys of 0/1 rows. -/

namespace TDS

/-- All entries are 0 or 1. -/
def Bin (r : Vec) : Prop := ∀ a ∈ r, a = 0 ∨ a = 1

theorem Bin.tail {a : Int} {r : Vec} (h : Bin (a :: r)) : Bin r :=
  fun b hb => h b (List.mem_cons_of_mem _ hb)
theorem Bin.head {a : Int} {r : Vec} (h : Bin (a :: r)) : a = 0 ∨ a = 1 := h a (by simp)
theorem Bin.nonneg {r : Vec} (h : Bin r) : ∀ a ∈ r, 0 ≤ a := by
  intro a ha; rcases h a ha with h | h <;> omega
theorem Bin.nil : Bin [] := by intro a ha; simp at ha
theorem Bin.getD {r : Vec} (h : Bin r) (j : Nat) : r.getD j 0 = 0 ∨ r.getD j 0 = 1 := by
  by_cases hj : j < r.length
  · rw [List.getD_eq_getElem _ _ hj]; exact h _ (List.getElem_mem hj)
  · left; rw [List.getD_eq_default]; omega

/-- Bits of `k`, least significant first. -/
def revRow : Nat → Nat → Vec
  | 0, _ => []
  | n + 1, k => ((k % 2 : Nat) : Int) :: revRow n (k / 2)

/-- Bits of `k` as a row of width `C`, most significant first. -/
def rowOf (C k : Nat) : Vec := (revRow C k).reverse

@[simp] theorem revRow_length (n k : Nat) : (revRow n k).length = n := by
  induction n generalizing k with
  | zero => rfl
  | succ n ih => simp [revRow, ih]

@[simp] theorem rowOf_length (n k : Nat) : (rowOf n k).length = n := by simp [rowOf]

theorem revRow_bin (n k : Nat) : Bin (revRow n k) := by
  induction n generalizing k with
  | zero => exact Bin.nil
  | succ n ih =>
    intro a ha
    simp only [revRow, List.mem_cons] at ha
    rcases ha with rfl | ha
    · omega
    · exact ih _ a ha

theorem rowOf_bin (n k : Nat) : Bin (rowOf n k) := by
  intro a ha; exact revRow_bin n k a (by simpa [rowOf] using ha)

theorem revRow_add (n k a : Nat) : revRow n (k + a * 2 ^ n) = revRow n k := by
  induction n generalizing k with
  | zero => rfl
  | succ n ih =>
    simp only [revRow]
    have e : a * 2 ^ (n + 1) = 2 * (a * 2 ^ n) := by rw [Nat.pow_succ]; ring
    rw [e]
    have h1 : (k + 2 * (a * 2 ^ n)) % 2 = k % 2 := by omega
    have h2 : (k + 2 * (a * 2 ^ n)) / 2 = k / 2 + a * 2 ^ n := by omega
    rw [h1, h2, ih]

theorem revRow_snoc (n k : Nat) :
    revRow (n + 1) k = revRow n k ++ [((k / 2 ^ n % 2 : Nat) : Int)] := by
  induction n generalizing k with
  | zero => simp [revRow]
  | succ n ih =>
    rw [revRow, ih (k / 2)]
    have : k / 2 / 2 ^ n = k / 2 ^ (n + 1) := by
      rw [Nat.div_div_eq_div_mul, Nat.pow_succ, Nat.mul_comm]
    rw [this]; rfl

theorem rowOf_cons (n a k : Nat) (ha : a = 0 ∨ a = 1) (hk : k < 2 ^ n) :
    rowOf (n + 1) (a * 2 ^ n + k) = (a : Int) :: rowOf n k := by
  unfold rowOf
  rw [revRow_snoc, Nat.add_comm, revRow_add]
  have : (k + a * 2 ^ n) / 2 ^ n % 2 = a := by
    rw [Nat.add_mul_div_right _ _ (Nat.two_pow_pos n), Nat.div_eq_of_lt hk]; omega
  rw [this]; simp

/-- Value of a 0/1 row read as a binary number, first entry most significant. -/
def bval : Vec → Nat
  | [] => 0
  | a :: t => a.toNat * 2 ^ t.length + bval t

theorem bval_lt {r : Vec} (h : Bin r) : bval r < 2 ^ r.length := by
  induction r with
  | nil => simp [bval]
  | cons a t ih =>
    have := ih h.tail
    simp only [bval, List.length_cons, Nat.pow_succ]
    rcases h.head with rfl | rfl <;> simp <;> omega

theorem rowOf_bval {r : Vec} (h : Bin r) : rowOf r.length (bval r) = r := by
  induction r with
  | nil => rfl
  | cons a t ih =>
    simp only [bval, List.length_cons]
    rw [rowOf_cons _ _ _ (by rcases h.head with rfl | rfl <;> simp) (bval_lt h.tail), ih h.tail]
    rcases h.head with rfl | rfl <;> simp

theorem bval_injective {r s : Vec} (hr : Bin r) (hs : Bin s) (hl : r.length = s.length)
    (h : bval r = bval s) : r = s := by
  rw [← rowOf_bval hr, ← rowOf_bval hs, hl, h]

theorem bval_rowOf (n k : Nat) (hk : k < 2 ^ n) : bval (rowOf n k) = k := by
  induction n generalizing k with
  | zero => simp at hk; subst hk; rfl
  | succ n ih =>
    have e : k = (k / 2 ^ n) * 2 ^ n + k % 2 ^ n := (Nat.div_add_mod' k (2 ^ n)).symm
    have hlt : k % 2 ^ n < 2 ^ n := Nat.mod_lt _ (Nat.two_pow_pos n)
    have hd : k / 2 ^ n < 2 := by
      rw [Nat.div_lt_iff_lt_mul (Nat.two_pow_pos n)]; rw [Nat.pow_succ] at hk; omega
    have h3 : rowOf (n + 1) k = ((k / 2 ^ n : Nat) : Int) :: rowOf n (k % 2 ^ n) := by
      conv_lhs => rw [e]
      exact rowOf_cons _ _ _ (Nat.le_one_iff_eq_zero_or_eq_one.1 (Nat.lt_succ_iff.1 hd)) hlt
    rw [h3]
    simp only [bval, ih _ hlt, rowOf_length, Int.toNat_natCast]
    exact e.symm

theorem rowOf_injective {n k k' : Nat} (hk : k < 2 ^ n) (hk' : k' < 2 ^ n)
    (h : rowOf n k = rowOf n k') : k = k' := by
  rw [← bval_rowOf n k hk, ← bval_rowOf n k' hk', h]

/-! ### rowKey / colKey -/

namespace Gauss

theorem colKey_eq_rowKey (c : Vec) : Unique.colKey c = rowKey c := rfl

theorem rowKey_singleton (a : Int) : rowKey [a] = a := by simp [rowKey]

theorem rowKey_cons (a : Int) (t : Vec) (ht : t ≠ []) :
    rowKey (a :: t) = i64 (rowKey t + i64 (a * 2 ^ t.length)) := by
  obtain ⟨b, t', rfl⟩ := List.exists_cons_of_ne_nil ht
  unfold rowKey
  simp only [List.length_cons, Nat.add_sub_cancel]
  rw [List.range_succ_eq_map]
  simp only [List.reverse_cons, List.foldl_append, List.foldl_cons, List.foldl_nil,
    List.getD_cons_zero, Nat.sub_zero, ← List.map_reverse, List.foldl_map, List.getD_cons_succ]
  congr 2
  congr 1
  funext s c
  congr 5
  omega

theorem i64_add_i64 (x y : Int) : i64 (i64 x + i64 y) = i64 (x + y) := by
  simp [i64]

theorem rowKey_eq {r : Vec} (hne : r ≠ []) (hb : Bin r) : rowKey r = i64 (bval r) := by
  induction r with
  | nil => exact absurd rfl hne
  | cons a t ih =>
    by_cases ht : t = []
    · subst ht
      rw [rowKey_singleton]
      rcases hb.head with rfl | rfl <;> simp [bval] <;> decide
    · rw [rowKey_cons _ _ ht, ih ht hb.tail, i64_add_i64]
      congr 1
      simp only [bval]
      push_cast
      rcases hb.head with rfl | rfl <;> simp; ring

theorem rowKey_of_le {r : Vec} (hne : r ≠ []) (hb : Bin r) (hl : r.length ≤ 63) :
    rowKey r = bval r := by
  rw [rowKey_eq hne hb]
  have h1 := bval_lt hb
  have h2 : 2 ^ r.length ≤ 2 ^ 63 := Nat.pow_le_pow_right (by decide) hl
  apply i64_of_range
  · omega
  · have : bval r < 2 ^ 63 := by omega
    norm_num at this
    omega

theorem rowKey_injective {r s : Vec} (hr : Bin r) (hs : Bin s) (hl : r.length = s.length)
    (h64 : r.length ≤ 64) (h : rowKey r = rowKey s) : r = s := by
  by_cases hne : r = []
  · subst hne; symm; simpa using hl.symm
  · have hne' : s ≠ [] := by
      intro h'; subst h'; exact hne (by simpa using hl)
    rw [rowKey_eq hne hr, rowKey_eq hne' hs] at h
    apply bval_injective hr hs hl
    have h1 := bval_lt hr
    have h2 := bval_lt hs
    have h3 : 2 ^ r.length ≤ 2 ^ 64 := Nat.pow_le_pow_right (by decide) h64
    rw [← hl] at h2
    have h4 : bval r < 18446744073709551616 := by norm_num at h3; omega
    have h5 : bval s < 18446744073709551616 := by norm_num at h3; omega
    unfold i64 at h
    rw [Int.bmod_def, Int.bmod_def] at h
    omega

/-! ### covers -/

theorem covers_iff (m k : Int) : covers m k = true ↔ m.toNat &&& k.toNat = m.toNat := by
  simp [covers]

theorem land_sub {m k : Nat} (h : m &&& k = m) :
    m % 2 ≤ k % 2 ∧ (m / 2 &&& k / 2) = m / 2 := by
  constructor
  · have := congrArg (fun z => z % 2) h
    have h2 : (m &&& k) % 2 = (m % 2) &&& (k % 2) := by
      have := Nat.and_mod_two_pow (a := m) (b := k) (n := 1)
      simpa using this
    simp only [h2] at this
    rcases Nat.mod_two_eq_zero_or_one m with h0 | h0 <;>
      rcases Nat.mod_two_eq_zero_or_one k with h1 | h1 <;> simp_all
  · have := congrArg (· / 2) h
    simpa [Nat.and_div_two] using this

theorem revRow_sub {n m k : Nat} (h : m &&& k = m) :
    revRow n (k - m) = List.zipWith (· - ·) (revRow n k) (revRow n m) := by
  induction n generalizing m k with
  | zero => rfl
  | succ n ih =>
    obtain ⟨h1, h2⟩ := land_sub h
    have hle : m / 2 ≤ k / 2 := by
      calc m / 2 = m / 2 &&& k / 2 := h2.symm
        _ ≤ k / 2 := Nat.and_le_right
    simp only [revRow, List.zipWith_cons_cons]
    have e1 : (k - m) % 2 = k % 2 - m % 2 := by omega
    have e2 : (k - m) / 2 = k / 2 - m / 2 := by omega
    rw [e1, e2, ih h2]
    congr 1
    omega

theorem zipWith_reverse {r s : Vec} (f : Int → Int → Int) (h : r.length = s.length) :
    List.zipWith f r.reverse s.reverse = (List.zipWith f r s).reverse := by
  rw [List.reverse_zipWith h]

theorem rowOf_sub {n m k : Nat} (h : m &&& k = m) :
    rowOf n (k - m) = List.zipWith (· - ·) (rowOf n k) (rowOf n m) := by
  unfold rowOf
  rw [revRow_sub h, zipWith_reverse _ (by simp)]

theorem dot_rowOf_sub {n m k : Nat} (h : m &&& k = m) (x : Vec) :
    dot (rowOf n (k - m)) x = dot (rowOf n k) x - dot (rowOf n m) x := by
  rw [rowOf_sub h, dot_sub_left (by simp)]

theorem getD_zipWith_sub {r s : Vec} (h : r.length = s.length) (j : Nat) :
    (List.zipWith (· - ·) r s).getD j 0 = r.getD j 0 - s.getD j 0 := by
  induction r generalizing s j with
  | nil => cases s with
    | nil => simp
    | cons _ _ => simp at h
  | cons a r ih => cases s with
    | nil => simp at h
    | cons b s =>
      simp only [List.length_cons, Nat.add_right_cancel_iff] at h
      cases j with
      | zero => simp
      | succ j => simpa using ih h j

theorem getD_rowOf_sub {n m k : Nat} (h : m &&& k = m) (j : Nat) :
    (rowOf n (k - m)).getD j 0 = (rowOf n k).getD j 0 - (rowOf n m).getD j 0 := by
  rw [rowOf_sub h, getD_zipWith_sub (by simp)]

/-! ### dec2bin -/

/-- Binary digits of a natural number, least significant first. -/
def natBitsLoop : Nat → Nat → Vec
  | 0, _ => []
  | n + 1, a => if a = 0 then [] else (a % 2 : Nat) :: natBitsLoop n (a / 2)

/-- Binary digits of a nonnegative `int64`. -/
def natBits (a : Int) : Vec := (natBitsLoop 64 a.toNat).reverse

theorem dec2binLoop_nat (n k : Nat) (hk : k < 2 ^ n) :
    dec2binLoop n (k : Int) = .ok (natBitsLoop n k) := by
  induction n generalizing k with
  | zero => simp at hk; subst hk; rfl
  | succ n ih =>
    unfold dec2binLoop natBitsLoop
    by_cases h0 : k = 0
    · subst h0; rfl
    · rw [if_neg h0, if_neg (by omega)]
      have : ((k : Int) / 2) = ((k / 2 : Nat) : Int) := by omega
      rw [this, ih (k / 2) (by rw [Nat.pow_succ] at hk; omega)]
      rfl

theorem dec2bin_nonneg {a : Int} (h0 : 0 ≤ a) (h64 : a.toNat < 2 ^ 64) :
    dec2bin a = .ok (natBits a) := by
  obtain ⟨k, rfl⟩ : ∃ k : Nat, a = k := ⟨a.toNat, by omega⟩
  unfold dec2bin natBits
  rw [dec2binLoop_nat 64 k (by simpa using h64)]
  rfl

/-- On a negative number the loop of `_dec2bin` never ends. -/
theorem dec2binLoop_neg (n : Nat) {a : Int} (h : a < 0) : dec2binLoop n a = .error .fuel := by
  induction n generalizing a with
  | zero => unfold dec2binLoop; rw [if_neg (by omega)]
  | succ n ih =>
    unfold dec2binLoop
    rw [if_neg (by omega), ih (by omega)]
    rfl

theorem natBits_ne_nil {a : Int} (h : 0 < a) : natBits a ≠ [] := by
  unfold natBits natBitsLoop
  rw [if_neg (by omega)]
  simp

theorem natBitsLoop_eq (n f k : Nat) (hk : k < 2 ^ n) (hf : n ≤ f) :
    ∃ z, revRow n k = natBitsLoop f k ++ List.replicate z 0 := by
  induction n generalizing f k with
  | zero =>
    simp at hk; subst hk
    refine ⟨0, ?_⟩
    cases f <;> simp [revRow, natBitsLoop]
  | succ n ih =>
    obtain ⟨f, rfl⟩ : ∃ f', f = f' + 1 := ⟨f - 1, by omega⟩
    simp only [natBitsLoop]
    split
    · next h0 =>
      subst h0
      refine ⟨n + 1, ?_⟩
      have : ∀ n, revRow n 0 = List.replicate n 0 := by
        intro n; induction n with
        | zero => rfl
        | succ n ih => simp [revRow, ih, List.replicate_succ]
      rw [this]; simp
    · obtain ⟨z, hz⟩ := ih f (k / 2) (by rw [Nat.pow_succ] at hk; omega) (by omega)
      exact ⟨z, by simp [revRow, hz]⟩

/-- Left-padding the binary digits of a key gives its row. -/
theorem padLeft_natBits {C : Nat} (hC : C ≤ 64) {k : Int} (hk : k.toNat < 2 ^ C) :
    padLeft C (natBits k) = rowOf C k.toNat ∧ (natBits k).length ≤ C := by
  obtain ⟨z, hz⟩ := natBitsLoop_eq C 64 k.toNat hk hC
  have hlen : C = (natBitsLoop 64 k.toNat).length + z := by
    have := congrArg List.length hz
    simpa using this
  unfold padLeft natBits rowOf
  rw [hz]
  refine ⟨?_, by simp; omega⟩
  simp only [List.length_reverse, List.reverse_append, List.reverse_replicate]
  congr 2
  omega

theorem natBitsLoop_length_le (n f k : Nat) (h : (natBitsLoop f k).length ≤ n) (hk : k < 2 ^ f) :
    k < 2 ^ n := by
  induction f generalizing n k with
  | zero => simp at hk; subst hk; exact Nat.two_pow_pos n
  | succ f ih =>
    simp only [natBitsLoop] at h
    split at h
    · next h0 => subst h0; exact Nat.two_pow_pos n
    · simp only [List.length_cons] at h
      obtain ⟨n, rfl⟩ : ∃ n', n = n' + 1 := ⟨n - 1, by omega⟩
      have := ih n (k / 2) (by omega) (by rw [Nat.pow_succ] at hk; omega)
      rw [Nat.pow_succ]; omega

theorem natBits_length_top {C : Nat} (hC : C + 1 ≤ 64) {k : Int} (hk : k.toNat < 2 ^ (C + 1))
    (htop : 2 ^ C ≤ k.toNat) : (natBits k).length = C + 1 := by
  have h1 := (padLeft_natBits hC hk).2
  by_contra hne
  have h2 : (natBits k).length ≤ C := by omega
  have h3 := natBitsLoop_length_le C 64 k.toNat (by simpa [natBits] using h2) (by
    have : 2 ^ (C + 1) ≤ 2 ^ 64 := Nat.pow_le_pow_right (by decide) hC
    omega)
  omega

end Gauss

end TDS
