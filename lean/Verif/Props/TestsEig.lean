import Mathlib.Analysis.Matrix.Spectrum
import Verif.Model.TestsEig
import Verif.Props.Classify
import Verif.Props.Eig
import Verif.Props.Tests

/-! C52: what `test_determinant` accepts. -/

namespace Spec

/-- `eigvals` returns the eigenvalues of every symmetric matrix, with multiplicities, in some
order. -/
def IsEigvals (eigvals : Matrix → List ℝ) : Prop :=
  ∀ v m, Square v m → Symmetric v m →
    (realMat v m).charpoly = ((eigvals m).map fun x => Polynomial.X - Polynomial.C x).prod

end Spec

namespace TDS

variable {v : Nat} {k l u : Int} {m : Mat}

theorem det_cast : (Spec.realMat v m).det = (((Spec.intMat v m).det : Int) : ℝ) := by
  have := RingHom.map_det (Int.castRingHom ℝ) (Spec.intMat v m)
  rw [show ((Int.castRingHom ℝ) (Spec.intMat v m).det) = (((Spec.intMat v m).det : Int) : ℝ) from rfl]
    at this
  rw [this]
  congr 1

theorem det_eigvals {eigvals : Mat → List ℝ} (he : Spec.IsEigvals eigvals)
    (h : Spec.IsSRG v k l u m) : (eigvals m).prod = (((Spec.intMat v m).det : Int) : ℝ) := by
  have hs : Spec.Square v m := ⟨h.adj.square, h.adj.part.rect⟩
  have hsy : Spec.Symmetric v m := fun i hi j hj => (isSRG_iff.1 h).2.2.2.1 ⟨i, hi⟩ ⟨j, hj⟩
  have hsp : Spec.IsSpectrum (Spec.realMat v m) ((eigvals m).map fun x => (x, 1)) := by
    refine ⟨?_, ?_⟩
    · intro p hp
      obtain ⟨x, -, rfl⟩ := List.mem_map.1 hp
      simp
    · rw [he v m hs hsy, List.map_map]
      congr 2
      funext x
      simp
  rw [← det_cast, det_of_spectrum hsp, List.map_map]
  congr 1
  simp [Function.comp_def]

/-- Outside the conference case all eigenvalues are integers. -/
theorem eigvals_int {eigvals : Mat → List ℝ} (he : Spec.IsEigvals eigvals)
    (h : Spec.IsSRG v k l u m) (hk : 0 < k) (hkv : k + 1 < v)
    (hc : 2 * k + (v - 1) * (l - u) ≠ 0) : ∀ x ∈ eigvals m, ∃ n : Int, x = n := by
  intro x hx
  have hs : Spec.Square v m := ⟨h.adj.square, h.adj.part.rect⟩
  have hsy : Spec.Symmetric v m := fun i hi j hj => (isSRG_iff.1 h).2.2.2.1 ⟨i, hi⟩ ⟨j, hj⟩
  have h0 : (Spec.realMat v m).charpoly.eval x = 0 := by
    rw [he v m hs hsy, Polynomial.eval_list_prod, List.map_map, List.prod_eq_zero_iff]
    exact List.mem_map.2 ⟨x, hx, by simp⟩
  obtain ⟨d, q, hd, hd2, -, -⟩ := C40_integral h hk hkv hc
  have hpar : ∃ e : Int, l - u + d = 2 * e := by
    have h1 : (l - u + d) * (l - u - d) = -4 * (k - u) := by linear_combination -hd2
    rcases Int.even_or_odd (l - u + d) with ⟨e, h2⟩ | ⟨e, h2⟩
    · exact ⟨e, by omega⟩
    · exfalso
      have h3 : l - u - d = 2 * (e - d) + 1 := by omega
      rw [h2, h3] at h1
      have h4 : (2 * e + 1) * (2 * (e - d) + 1) = 2 * (e * (2 * (e - d) + 1) + (e - d)) + 1 := by
        ring
      omega
  obtain ⟨e, hpe⟩ := hpar
  obtain ⟨f, g, -, -, hcp⟩ := srg_spectrum h hk hkv (D := (d : ℝ)) (by exact_mod_cast hd)
    (by exact_mod_cast hd2)
  have e1 : ((l - u : ℝ) + d) / 2 = (e : Int) := by
    have : ((l - u + d : Int) : ℝ) = ((2 * e : Int) : ℝ) := by rw [hpe]
    push_cast at this
    linarith
  have e2 : ((l - u : ℝ) - d) / 2 = ((e - d : Int) : ℝ) := by
    push_cast
    linarith
  rw [hcp, e1, e2] at h0
  simp only [Polynomial.eval_mul, Polynomial.eval_pow, Polynomial.eval_sub, Polynomial.eval_X,
    Polynomial.eval_C, mul_eq_zero] at h0
  rcases h0 with (h0 | h0) | h0
  · exact ⟨k, by linarith⟩
  · exact ⟨e, by linarith [eq_zero_of_pow_eq_zero h0]⟩
  · exact ⟨e - d, by linarith [eq_zero_of_pow_eq_zero h0]⟩

theorem prod_round {L : List ℝ} (h : ∀ x ∈ L, ∃ n : Int, x = n) :
    (((L.map Utils.pyRound).prod : Int) : ℝ) = L.prod := by
  induction L with
  | nil => simp
  | cons x L ih =>
    obtain ⟨n, rfl⟩ := h x (by simp)
    simp only [List.map_cons, List.prod_cons, pyRound_intCast]
    rw [Int.cast_mul, ih (fun y hy => h y (by simp [hy]))]

theorem i64_eq_iff {x : Int} : i64 x = x ↔ -2 ^ 63 ≤ x ∧ x < 2 ^ 63 := by
  unfold i64
  rw [Int.bmod_def]
  constructor
  · intro h
    split_ifs at h <;> omega
  · intro h
    split_ifs <;> omega

/-- **C52.**  For a list of strongly regular matrices that are neither edgeless nor complete,
`test_determinant` (with exact eigenvalues, in any order) passes exactly if the list is empty, or the
parameters are those of a conference graph, or the determinant fits into 64 bits. -/
theorem C52_determinant {eigvals : Mat → List ℝ} (he : Spec.IsEigvals eigvals) {db : List Mat}
    (h : ∀ m ∈ db, Spec.IsSRG v k l u m) (hk : 0 < k) (hkv : k + 1 < v) {d : Int}
    (hd : Utils.determinant v k l u = .ok d) :
    Tests.testDeterminant eigvals v k l u db = .ok () ↔
      db = [] ∨ 2 * k + (v - 1) * (l - u) = 0 ∨ (-2 ^ 63 ≤ d ∧ d < 2 ^ 63) := by
  unfold Tests.testDeterminant
  rw [hd, ok_bind, forM_ok]
  have hdet : ∀ m ∈ db, (Spec.intMat v m).det = d := by
    intro m hm
    have := C40_determinant (h m hm) hk hkv
    rw [hd] at this
    exact (Except.ok.inj this).symm
  have hconf : Utils.conference v k l u = 2 * k + (v - 1) * (l - u) := rfl
  by_cases hc : 2 * k + ((v : Int) - 1) * (l - u) = 0
  · refine iff_of_true ?_ (Or.inr (Or.inl hc))
    intro m hm
    simp only [hconf, hc, ne_eq, not_true_eq_false, if_false]
    rw [det_eigvals he (h m hm), pyRound_intCast, hdet m hm, if_pos rfl]
  · have key : ∀ m ∈ db, ((eigvals m).map Utils.pyRound).prod = d := by
      intro m hm
      have h1 := prod_round (eigvals_int he (h m hm) hk hkv hc)
      rw [det_eigvals he (h m hm), hdet m hm] at h1
      exact_mod_cast h1
    rw [← i64_eq_iff]
    constructor
    · intro ht
      rcases List.eq_nil_or_concat db with rfl | ⟨L, m, rfl⟩
      · exact Or.inl rfl
      · have := ht m (by simp)
        simp only [hconf, ne_eq, hc, not_false_eq_true, if_true, key m (by simp)] at this
        split_ifs at this with h2
        exact Or.inr (Or.inr h2)
    · rintro (rfl | h2 | h2) m hm
      · simp at hm
      · exact absurd h2 hc
      · simp only [hconf, ne_eq, hc, not_false_eq_true, if_true, key m hm, h2]

/-- The determinant from the eigenvalues, when they are integers. -/
theorem determinant_eq (h : Spec.IsSRG v k l u m) (hk : 0 < k) (hkv : k + 1 < v) {r s : Int}
    {f g : Nat} (hrs : s < r) (hsum : r + s = l - u) (hprod : r * s = u - k) (hfg : f + g + 1 = v)
    (htr : k + f * r + g * s = 0) : Utils.determinant v k l u = .ok (k * r ^ f * s ^ g) := by
  have hD : (r - s) ^ 2 = (l - u) ^ 2 + 4 * (k - u) := by
    rw [← hsum]; linear_combination (-4) * hprod
  obtain ⟨f', g', h1, h2, hcp⟩ := srg_spectrum h hk hkv (D := ((r - s : Int) : ℝ))
    (by exact_mod_cast sub_pos.2 hrs) (by exact_mod_cast hD)
  have e0 : (l - u : ℝ) = r + s := by exact_mod_cast hsum.symm
  have e1 : ((l - u : ℝ) + ((r - s : Int) : ℝ)) / 2 = r := by rw [e0]; push_cast; ring
  have e2 : ((l - u : ℝ) - ((r - s : Int) : ℝ)) / 2 = s := by rw [e0]; push_cast; ring
  rw [e1, e2] at h2 hcp
  have h3 : k + f' * r + g' * s = 0 := by exact_mod_cast h2
  obtain rfl : f' = f := by
    have h4 : ((f' : Int) - f) * (r - s) = 0 := by
      have h5 : (g' : Int) = v - 1 - f' := by omega
      have h6 : (g : Int) = v - 1 - f := by omega
      rw [h5] at h3
      rw [h6] at htr
      linear_combination h3 - htr
    rcases mul_eq_zero.1 h4 with h5 | h5 <;> omega
  obtain rfl : g' = g := by omega
  have hsp : Spec.IsSpectrum (Spec.realMat v m) [((k : ℝ), 1), ((r : ℝ), (f' : Int)), ((s : ℝ), (g' : Int))] := by
    refine ⟨by simp, ?_⟩
    rw [hcp]
    simp [mul_assoc]
  have hdet := det_of_spectrum hsp
  rw [det_cast] at hdet
  rw [C40_determinant h hk hkv]
  congr 1
  have : (((Spec.intMat v m).det : Int) : ℝ) = ((k * r ^ f' * s ^ g' : Int) : ℝ) := by
    rw [hdet]
    simp [mul_assoc]
  exact_mod_cast this

/-- Eigenvalues `r > s` with multiplicities `f` and `g` of the stored parameters outside the
conference case. -/
def storedEig : List ((Nat × Nat × Nat × Nat) × (Int × Int × Nat × Nat)) :=
  [((10, 3, 0, 1), (1, -2, 5, 4)), ((10, 6, 3, 4), (1, -2, 4, 5)), ((12, 6, 0, 6), (0, -6, 10, 1)),
   ((15, 6, 1, 3), (1, -3, 9, 5)), ((15, 8, 4, 4), (2, -2, 5, 9)), ((16, 10, 6, 6), (2, -2, 5, 10)),
   ((16, 5, 0, 2), (1, -3, 10, 5)), ((16, 6, 2, 2), (2, -2, 6, 9)), ((16, 9, 4, 6), (1, -3, 9, 6)),
   ((21, 10, 5, 4), (3, -2, 6, 14)), ((25, 8, 3, 2), (3, -2, 8, 16)), ((26, 10, 3, 4), (2, -3, 13, 12)),
   ((27, 10, 1, 5), (1, -5, 20, 6)), ((28, 12, 6, 4), (4, -2, 7, 20)), ((4, 2, 0, 2), (0, -2, 2, 1))]

theorem storedEig_ok : ∀ p ∈ storedEig, p.2.2.1 < p.2.1 ∧
    p.2.1 + p.2.2.1 = (p.1.2.2.1 : Int) - p.1.2.2.2 ∧ p.2.1 * p.2.2.1 = (p.1.2.2.2 : Int) - p.1.2.1 ∧
    p.2.2.2.1 + p.2.2.2.2 + 1 = p.1.1 ∧
    (p.1.2.1 : Int) + p.2.2.2.1 * p.2.1 + p.2.2.2.2 * p.2.2.1 = 0 ∧
    -2 ^ 63 ≤ (p.1.2.1 : Int) * p.2.1 ^ p.2.2.2.1 * p.2.2.1 ^ p.2.2.2.2 ∧
    (p.1.2.1 : Int) * p.2.1 ^ p.2.2.2.1 * p.2.2.1 ^ p.2.2.2.2 < 2 ^ 63 := by
  decide +kernel

theorem storedEig_all : ∀ e ∈ Database.entries,
    2 * (e.k : Int) + ((e.v : Int) - 1) * ((e.l : Int) - e.u) = 0 ∨
      ∃ p ∈ storedEig, p.1 = (e.v, e.k, e.l, e.u) := by
  decide +kernel

theorem stored_range : ∀ e ∈ Database.entries, 0 < e.k ∧ e.k + 1 < e.v := by decide +kernel

/-- **C52** for the stored lists: `test_determinant` passes for every module of the database that has
a solution. -/
theorem C52_stored {eigvals : Mat → List ℝ} (he : Spec.IsEigvals eigvals) {v k l u : Nat}
    {sols : List Mat} (h : Database.getSolutions Database.modules v k l u = .ok sols)
    (hne : sols ≠ []) : Tests.testDeterminant eigvals v k l u sols = .ok () := by
  have hs : ∀ m ∈ sols, Spec.IsSRG v k l u m := (C41_stored_srg h).2
  obtain ⟨name, rows, hent, -⟩ := get_entry h
  have hr := stored_range _ hent
  simp only at hr
  have hk : (0 : Int) < k := by omega
  have hkv : (k : Int) + 1 < v := by omega
  obtain ⟨m, hm⟩ := List.exists_mem_of_ne_nil sols hne
  rw [C52_determinant he hs hk hkv (C40_determinant (hs m hm) hk hkv)]
  rcases storedEig_all _ hent with hc | ⟨⟨a, r, s, f, g⟩, hp, rfl⟩
  · exact Or.inr (Or.inl hc)
  · obtain ⟨h1, h2, h3, h4, h5, h6, h7⟩ := storedEig_ok _ hp
    have := determinant_eq (hs m hm) hk hkv h1 h2 h3 h4 h5
    rw [C40_determinant (hs m hm) hk hkv] at this
    rw [Except.ok.inj this]
    exact Or.inr (Or.inr ⟨h6, h7⟩)

/-- The two-element subsets of {0, ..., 10}. -/
def pairs11 : List (Nat × Nat) :=
  (List.range 11).flatMap fun i => (List.range i).map fun j => (j, i)

/-- The triangular graph on the two-element subsets of an 11-element set: two subsets are adjacent if
they have one element in common.  Each row is coded as a number. -/
def triangular11 : List Nat := pairs11.map fun p => pairs11.foldl (fun a q =>
  2 * a + if p ≠ q ∧ (p.1 = q.1 ∨ p.1 = q.2 ∨ p.2 = q.1 ∨ p.2 = q.2) then 1 else 0) 0

theorem triangular11_srg : Spec.IsSRG 55 18 9 4 (Database.bitMat 55 triangular11) :=
  Database.check_sound (k := 18) (l := 9) (u := 4) (by decide +kernel)

/-- **C52, wraparound.**  For (55, 18, 9, 4) the product of the eigenvalues does not fit into 64 bits,
and the test rejects every list with a correct solution. -/
theorem C52_wraps {eigvals : Mat → List ℝ} (he : Spec.IsEigvals eigvals) {db : List Mat}
    (h : ∀ m ∈ db, Spec.IsSRG 55 18 9 4 m) (hne : db ≠ []) :
    Tests.testDeterminant eigvals 55 18 9 4 db ≠ .ok () := by
  obtain ⟨m, hm⟩ := List.exists_mem_of_ne_nil db hne
  have hd : Utils.determinant ((55 : Nat) : Int) 18 9 4 = .ok (18 * 7 ^ 10 * (-2) ^ 44) :=
    determinant_eq (h m hm) (by norm_num) (by norm_num) (r := 7) (s := -2) (f := 10) (g := 44)
      (by norm_num) (by norm_num) (by norm_num) (by norm_num) (by norm_num)
  intro ht
  have := (C52_determinant (v := 55) he h (by norm_num) (by norm_num) hd).1 ht
  norm_num [hne] at this

/-- Eigenvalues as assumed exist, so that the theorems above are not vacuous. -/
theorem eigvals_exist : ∃ eigvals : Mat → List ℝ, Spec.IsEigvals eigvals := by
  classical
  refine ⟨fun m => if h : (Spec.realMat m.length m).IsHermitian then List.ofFn h.eigenvalues else [],
    ?_⟩
  intro v m hs hsy
  obtain rfl := hs.rows
  have h : (Spec.realMat m.length m).IsHermitian := by
    ext i j
    simp only [Spec.realMat, Matrix.conjTranspose_apply, Matrix.of_apply, star_trivial]
    rw [hsy j j.2 i i.2]
  simp only [dif_pos h]
  rw [h.charpoly_eq, List.map_ofFn, List.prod_ofFn]
  rfl

/-- Non-vacuity: the test rejects the triangular graph and accepts the Petersen graph. -/
example : ∃ eigvals : Mat → List ℝ, Spec.IsEigvals eigvals ∧
    Tests.testDeterminant eigvals 55 18 9 4 [Database.bitMat 55 triangular11] ≠ .ok () ∧
    ∃ sols, sols ≠ [] ∧ Database.getSolutions Database.modules 10 3 0 1 = .ok sols ∧
      Tests.testDeterminant eigvals 10 3 0 1 sols = .ok () := by
  obtain ⟨eigvals, he⟩ := eigvals_exist
  refine ⟨eigvals, he, C52_wraps he (by simpa using triangular11_srg) (by simp), ?_⟩
  obtain ⟨sols, h1, h2⟩ : ∃ sols, Database.getSolutions Database.modules 10 3 0 1 = .ok sols ∧
      sols ≠ [] := ⟨_, rfl, List.cons_ne_nil _ _⟩
  exact ⟨sols, h2, h1, C52_stored (v := 10) (k := 3) (l := 0) (u := 1) he h1 h2⟩

end TDS
