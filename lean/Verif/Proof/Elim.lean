import Verif.Proof.Gauss

/-! What elimination preserves, and `elim` at the level of matrices. -/

namespace TDS

/-- A partition certificate: some equations of the system, repetitions allowed, whose left-hand
sides add up to the all-ones row and whose right-hand sides add up to at most `q`. -/
def Cert (C : Nat) (S : List (Vec × Int)) (q : Int) : Prop :=
  ∃ T : List (Vec × Int), (∀ p ∈ T, p ∈ S) ∧
    (∀ j < C, (T.map (fun p => p.1.getD j 0)).sum = 1) ∧ (T.map Prod.snd).sum ≤ q

namespace Gauss

/-- The row an entry stands for. -/
def Entry.row (C : Nat) (e : Entry) : Vec := rowOf C e.k.toNat

/-- The equation an entry stands for. -/
def Entry.eqn (C : Nat) (e : Entry) : Vec × Int := (e.row C, e.v)

theorem isReducible_iff {m e : Entry} :
    isReducible m e = true ↔ m.k.toNat &&& e.k.toNat = m.k.toNat ∧ m.v ≤ e.v := by
  simp [isReducible, covers_iff]

theorem toNat_le_of_red {m e : Entry} (h : isReducible m e = true) : m.k.toNat ≤ e.k.toNat := by
  have := (isReducible_iff.1 h).1
  calc m.k.toNat = m.k.toNat &&& e.k.toNat := this.symm
    _ ≤ e.k.toNat := Nat.and_le_right

theorem sub_toNat {m e : Entry} (hm : 0 < m.k) : (e.sub m).k.toNat = e.k.toNat - m.k.toNat := by
  simp only [Entry.sub]; omega

theorem key_eq_of_le {m e : Entry} (hm : 0 < m.k) (h : isReducible m e = true) (hk : e.k ≤ m.k) :
    e.k.toNat = m.k.toNat := by
  have := toNat_le_of_red h
  omega

theorem dot_sub {m e : Entry} (hm : 0 < m.k) (h : isReducible m e = true) (C : Nat) (x : Vec) :
    dot (e.row C) x = dot (m.row C) x + dot ((e.sub m).row C) x := by
  unfold Entry.row
  rw [sub_toNat hm, dot_rowOf_sub (isReducible_iff.1 h).1]; ring

theorem getD_sub {m e : Entry} (hm : 0 < m.k) (h : isReducible m e = true) (C j : Nat) :
    (e.row C).getD j 0 = (m.row C).getD j 0 + ((e.sub m).row C).getD j 0 := by
  unfold Entry.row
  rw [sub_toNat hm, getD_rowOf_sub (isReducible_iff.1 h).1]; ring

theorem row_eq_of_le {m e : Entry} (hm : 0 < m.k) (h : isReducible m e = true) (hk : e.k ≤ m.k)
    (C : Nat) : e.row C = m.row C := by
  unfold Entry.row; rw [key_eq_of_le hm h hk]

theorem row_bin (C : Nat) (e : Entry) : Bin (e.row C) := rowOf_bin _ _
@[simp] theorem row_length (C : Nat) (e : Entry) : (e.row C).length = C := rowOf_length _ _

/-- Keys and values in range. -/
def Ranged (C : Nat) (l : List Entry) : Prop :=
  ∀ e ∈ l, 0 < e.k ∧ e.k.toNat < 2 ^ C ∧ 0 ≤ e.v ∧ e.v ≤ 127

theorem Reds.ranged {C : Nat} {a b : List Entry} (h : Reds a b) (ha : Ranged C a) :
    Ranged C b := by
  induction h with
  | refl => exact ha
  | tail _ hs ih =>
    intro e' he'
    rcases hs.bwd e' he' with h1 | ⟨m, hm, e, he, hr, hpos, rfl, hk⟩
    · exact ih e' h1
    · obtain ⟨m1, m2, m3, m4⟩ := ih m hm
      obtain ⟨e1, e2, e3, e4⟩ := ih e he
      have := sub_toNat (e := e) hpos
      have hv := (isReducible_iff.1 hr).2
      refine ⟨hk, by omega, ?_, ?_⟩ <;> simp only [Entry.sub] <;> omega

/-- Solutions of the system. -/
def Sat (C : Nat) (l : List Entry) (x : Vec) : Prop := ∀ e ∈ l, dot (e.row C) x = e.v
/-- Sub-solutions of the system. -/
def SubSat (C : Nat) (l : List Entry) (x : Vec) : Prop := ∀ e ∈ l, dot (e.row C) x ≤ e.v

theorem Reds.sat {C : Nat} {a b : List Entry} {x : Vec} (h : Reds a b) (ha : Sat C a x) :
    Sat C b x := by
  induction h with
  | refl => exact ha
  | tail _ hs ih =>
    intro e' he'
    rcases hs.bwd e' he' with h1 | ⟨m, hm, e, he, hr, hpos, rfl, hk⟩
    · exact ih e' h1
    · have := dot_sub hpos hr C x
      have h1 := ih m hm
      have h2 := ih e he
      simp only [Entry.sub] at *
      omega

theorem Reds.subSat {C : Nat} {a b : List Entry} {x : Vec} (h : Reds a b) (hb : SubSat C b x) :
    SubSat C a x := by
  induction h using Relation.ReflTransGen.head_induction_on with
  | refl => exact hb
  | head hs _ ih =>
    intro e he
    rcases hs.fwd e he with h1 | ⟨m, hm, hr, hpos, hk | h1⟩
    · exact ih e h1
    · rw [row_eq_of_le hpos hr hk]
      exact (ih m hm).trans (isReducible_iff.1 hr).2
    · have := dot_sub hpos hr C x
      have h2 := ih m hm
      have h3 := ih _ h1
      simp only [Entry.sub] at *
      omega

/-- If the system has some solution, no solution is added. -/
theorem Reds.sat_back {C : Nat} {a b : List Entry} {x x₀ : Vec} (h : Reds a b)
    (h0 : Sat C a x₀) (hb : Sat C b x) : Sat C a x := by
  induction h using Relation.ReflTransGen.head_induction_on with
  | refl => exact hb
  | head hs hrest ih =>
    have h0' := Reds.sat (Relation.ReflTransGen.single hs) h0
    have hx := ih h0'
    intro e he
    rcases hs.fwd e he with h1 | ⟨m, hm, hr, hpos, hk | h1⟩
    · exact hx e h1
    · have e1 := h0 e he
      have e2 := h0' m hm
      rw [row_eq_of_le hpos hr hk] at *
      rw [hx m hm, ← e2, e1]
    · have := dot_sub hpos hr C x
      have h2 := hx m hm
      have h3 := hx _ h1
      simp only [Entry.sub] at *
      omega

theorem Reds.covered {C j : Nat} {a b : List Entry} (h : Reds a b)
    (ha : ∃ e ∈ a, (e.row C).getD j 0 ≠ 0) : ∃ e ∈ b, (e.row C).getD j 0 ≠ 0 := by
  induction h with
  | refl => exact ha
  | tail _ hs ih =>
    obtain ⟨e, he, hne⟩ := ih
    rcases hs.fwd e he with h1 | ⟨m, hm, hr, hpos, hk | h1⟩
    · exact ⟨e, h1, hne⟩
    · exact ⟨m, hm, by rw [← row_eq_of_le hpos hr hk]; exact hne⟩
    · by_cases hmj : (m.row C).getD j 0 = 0
      · exact ⟨_, h1, by have := getD_sub hpos hr C j; omega⟩
      · exact ⟨m, hm, hmj⟩

theorem Reds.coleq {C i j : Nat} {a b : List Entry} (h : Reds a b)
    (hb : ∀ e ∈ b, (e.row C).getD i 0 = (e.row C).getD j 0) :
    ∀ e ∈ a, (e.row C).getD i 0 = (e.row C).getD j 0 := by
  induction h using Relation.ReflTransGen.head_induction_on with
  | refl => exact hb
  | head hs _ ih =>
    intro e he
    rcases hs.fwd e he with h1 | ⟨m, hm, hr, hpos, hk | h1⟩
    · exact ih e h1
    · rw [row_eq_of_le hpos hr hk]; exact ih m hm
    · have h2 := getD_sub hpos hr C i
      have h3 := getD_sub hpos hr C j
      have h4 := ih m hm
      have h5 := ih _ h1
      omega

theorem Reds.cert {C : Nat} {q : Int} {a b : List Entry} (h : Reds a b)
    (ha : Cert C (a.map (Entry.eqn C)) q) : Cert C (b.map (Entry.eqn C)) q := by
  induction h with
  | refl => exact ha
  | @tail b c _ hs ih =>
    obtain ⟨T, hT, hsum, hv⟩ := ih
    have key : ∀ T : List (Vec × Int), (∀ p ∈ T, p ∈ b.map (Entry.eqn C)) →
        ∃ T' : List (Vec × Int), (∀ p ∈ T', p ∈ c.map (Entry.eqn C)) ∧
          (∀ j, (T'.map (fun p => p.1.getD j 0)).sum = (T.map (fun p => p.1.getD j 0)).sum) ∧
          (T'.map Prod.snd).sum ≤ (T.map Prod.snd).sum := by
      intro T
      induction T with
      | nil => intro _; exact ⟨[], by simp⟩
      | cons p T ihT =>
        intro hT
        obtain ⟨T', h1, h2, h3⟩ := ihT (fun p hp => hT p (by simp [hp]))
        obtain ⟨e, he, rfl⟩ := List.mem_map.1 (hT p (by simp))
        rcases hs.fwd e he with h4 | ⟨m, hm, hr, hpos, hk | h4⟩
        · refine ⟨e.eqn C :: T', ?_, ?_, ?_⟩
          · intro p hp
            rcases List.mem_cons.1 hp with rfl | hp
            · exact List.mem_map_of_mem h4
            · exact h1 p hp
          · intro j; simp only [List.map_cons, List.sum_cons, h2]
          · simp only [List.map_cons, List.sum_cons]; omega
        · refine ⟨m.eqn C :: T', ?_, ?_, ?_⟩
          · intro p hp
            rcases List.mem_cons.1 hp with rfl | hp
            · exact List.mem_map_of_mem hm
            · exact h1 p hp
          · intro j
            simp only [List.map_cons, List.sum_cons, Entry.eqn, h2]
            rw [row_eq_of_le hpos hr hk]
          · have := (isReducible_iff.1 hr).2
            simp only [List.map_cons, List.sum_cons, Entry.eqn]; omega
        · refine ⟨m.eqn C :: (e.sub m).eqn C :: T', ?_, ?_, ?_⟩
          · intro p hp
            rcases List.mem_cons.1 hp with rfl | hp
            · exact List.mem_map_of_mem hm
            · rcases List.mem_cons.1 hp with rfl | hp
              · exact List.mem_map_of_mem h4
              · exact h1 p hp
          · intro j
            have := getD_sub hpos hr C j
            simp only [List.map_cons, List.sum_cons, Entry.eqn, h2]
            omega
          · simp only [List.map_cons, List.sum_cons, Entry.eqn, Entry.sub]; omega
    obtain ⟨T', h1, h2, h3⟩ := key T hT
    exact ⟨T', h1, fun j hj => by rw [h2]; exact hsum j hj, h3.trans hv⟩

/-! ### encoding a matrix -/

theorem encode_ok {A : Mat} {b : Vec} {C : Nat} (hC : 0 < C) (hne : A ≠ [])
    (hlen : b.length = A.length) (hrect : ∀ r ∈ A, r.length = C) :
    encode A b = .ok ((A.zip b).zipIdx.map (fun p => ⟨rowKey p.1.1, p.2, p.1.2⟩)) := by
  have : ncols A = C := by
    cases A with
    | nil => exact absurd rfl hne
    | cons r A => exact hrect r (by simp)
  unfold encode
  simp only [hlen, beq_self_eq_true, pyAssert_true, ok_bind]
  rw [this]
  simp [Nat.pos_iff_ne_zero.1 hC]

theorem ne_nil_of_length {r : Vec} {C : Nat} (h : r.length = C) (hC : 0 < C) : r ≠ [] := by
  intro h0; subst h0; simp at h; omega

/-- The entry for a row. -/
def entryOf (p : (Vec × Int) × Nat) : Entry := ⟨rowKey p.1.1, p.2, p.1.2⟩

theorem entryOf_row {p : (Vec × Int) × Nat} {C : Nat} (hC : 0 < C) (hC63 : C ≤ 63)
    (hl : p.1.1.length = C) (hb : Bin p.1.1) :
    (entryOf p).row C = p.1.1 ∧ (entryOf p).k.toNat < 2 ^ C ∧ 0 ≤ (entryOf p).k := by
  have h1 : rowKey p.1.1 = bval p.1.1 := rowKey_of_le (ne_nil_of_length hl hC) hb (by omega)
  have h2 := bval_lt hb
  unfold Entry.row entryOf
  simp only [h1, Int.toNat_natCast]
  refine ⟨?_, by rw [← hl]; exact h2, by omega⟩
  rw [← hl]; exact rowOf_bval hb

/-- The encoded system is the original system. -/
theorem encode_eqns {A : Mat} {b : Vec} {C : Nat} (hC : 0 < C) (hC63 : C ≤ 63)
    (hrect : ∀ r ∈ A, r.length = C) (hbin : ∀ r ∈ A, Bin r) :
    ((A.zip b).zipIdx.map entryOf).map (Entry.eqn C) = A.zip b := by
  rw [List.map_map]
  have : ∀ p ∈ (A.zip b).zipIdx, (Entry.eqn C ∘ entryOf) p = p.1 := by
    intro p hp
    have h1 : p.1 ∈ A.zip b := by
      have := List.mem_zipIdx hp
      simp only [Nat.zero_le, Nat.sub_zero, true_and] at this
      rw [this.2]; exact List.getElem_mem _
    have h2 : p.1.1 ∈ A := (List.of_mem_zip h1).1
    have := entryOf_row (p := p) hC hC63 (hrect _ h2) (hbin _ h2)
    simp only [Function.comp, Entry.eqn, this.1]
    rfl
  rw [List.map_congr_left this]
  exact List.zipIdx_map_fst 0 (A.zip b)

theorem mem_of_mem_zipIdx {α : Type} {l : List α} {p : α × Nat} {n : Nat} (h : p ∈ l.zipIdx n) :
    p.1 ∈ l := by
  have := List.mem_zipIdx h
  rw [this.2.2]; exact List.getElem_mem _

/-! ### decoding -/

theorem foldl_max_eq {l : List Nat} {C a : Nat} (ha : a ≤ C) (hle : ∀ x ∈ l, x ≤ C)
    (hmem : C ∈ l ∨ a = C) : l.foldl max a = C := by
  induction l generalizing a with
  | nil => simpa using hmem
  | cons x l ih =>
    simp only [List.foldl_cons]
    have hx := hle x (by simp)
    refine ih (by omega) (fun y hy => hle y (by simp [hy])) ?_
    rcases hmem with h | h
    · rcases List.mem_cons.1 h with h | h
      · right; omega
      · exact Or.inl h
    · right; omega

theorem top_of_bit {C k : Nat} (hk : k < 2 ^ (C + 1)) (h : (rowOf (C + 1) k).getD 0 0 ≠ 0) :
    2 ^ C ≤ k := by
  by_contra hlt
  have := rowOf_cons C 0 k (Or.inl rfl) (by omega)
  rw [Nat.zero_mul, Nat.zero_add] at this
  rw [this] at h
  simp at h

theorem decode_keys {out : List Entry} {C : Nat} (hC : 0 < C) (hC63 : C ≤ 63)
    (hr : ∀ e ∈ out, 0 < e.k ∧ e.k.toNat < 2 ^ C) (hcov : ∃ e ∈ out, (e.row C).getD 0 0 ≠ 0) :
    decode out = .ok (out.map (Entry.row C), out.map (fun e => i8 e.v)) := by
  obtain ⟨C, rfl⟩ : ∃ C', C = C' + 1 := ⟨C - 1, by omega⟩
  have hwidth : ((out.map (fun e => natBits e.k)).map List.length).foldl max 0 = C + 1 := by
    refine foldl_max_eq (by omega) ?_ ?_
    · intro x hx
      simp only [List.map_map, List.mem_map, Function.comp] at hx
      obtain ⟨e, he, rfl⟩ := hx
      exact (padLeft_natBits (by omega) (hr e he).2).2
    · left
      obtain ⟨e, he, hne⟩ := hcov
      simp only [List.map_map, List.mem_map, Function.comp]
      exact ⟨e, he, natBits_length_top (by omega) (hr e he).2 (top_of_bit (hr e he).2 hne)⟩
  have hne : out ≠ [] := by
    obtain ⟨e, he, -⟩ := hcov
    intro h; subst h; simp at he
  have hrows : out.mapM (fun e => dec2bin e.k) = .ok (out.map (fun e => natBits e.k)) := by
    apply mapM_ok
    intro e he
    have h1 := hr e he
    have h2 : 2 ^ (C + 1) ≤ 2 ^ 64 := Nat.pow_le_pow_right (by decide) (by omega)
    exact dec2bin_nonneg (by omega) (by omega)
  have hnil : (out.map (fun e => natBits e.k)).any List.isEmpty = false := by
    rw [List.any_eq_false]
    intro x hx
    obtain ⟨e, he, rfl⟩ := List.mem_map.1 hx
    simpa using natBits_ne_nil (hr e he).1
  obtain ⟨e0, t, rfl⟩ := List.exists_cons_of_ne_nil hne
  unfold decode
  simp only []
  rw [hrows]
  simp only [ok_bind]
  rw [hwidth, hnil, List.map_map]
  simp only [Bool.and_false, Bool.false_eq_true, if_false]
  congr 2
  apply List.map_congr_left
  intro e he
  exact (padLeft_natBits (by omega) (hr e he).2).1

theorem decode_ok {out : List Entry} {C : Nat} (hC : 0 < C) (hC63 : C ≤ 63) (hr : Ranged C out)
    (hcov : ∃ e ∈ out, (e.row C).getD 0 0 ≠ 0) :
    decode out = .ok (out.map (Entry.row C), out.map Entry.v) := by
  rw [decode_keys hC hC63 (fun e he => ⟨(hr e he).1, (hr e he).2.1⟩) hcov]
  congr 2
  apply List.map_congr_left
  intro e he
  have := hr e he
  exact i8_of_range (by omega) (by omega)

/-! ### elim on matrices -/

theorem zip_map_row_v (C : Nat) (out : List Entry) :
    (out.map (Entry.row C)).zip (out.map Entry.v) = out.map (Entry.eqn C) := by
  rw [List.zip_map']; rfl

theorem entryOf_zipIdx (A : Mat) (b : Vec) (n : Nat) :
    ((A.zip b).zipIdx n).map (fun p => (⟨rowKey p.1.1, p.2, p.1.2⟩ : Entry)) =
      ((A.zip b).zipIdx n).map entryOf := rfl

/-- Hypotheses on a linear system of the code. -/
structure Sys (C : Nat) (A : Mat) (b : Vec) : Prop where
  ne : A ≠ []
  len : b.length = A.length
  rect : ∀ r ∈ A, r.length = C
  bin : ∀ r ∈ A, Bin r
  range : ∀ x ∈ b, 0 ≤ x ∧ x ≤ 127

theorem Sys.ncols {C : Nat} {A : Mat} {b : Vec} (h : Sys C A b) : ncols A = C := by
  obtain ⟨r, A', rfl⟩ := List.exists_cons_of_ne_nil h.ne
  exact h.rect r (by simp)

theorem elim_entries {C : Nat} {A : Mat} {b : Vec} (h : Sys C A b) (hC : 0 < C) (hC63 : C ≤ 63)
    (hcov : ∃ r ∈ A, r.getD 0 0 ≠ 0) :
    ∃ hd out, hd.map (Entry.eqn C) = A.zip b ∧ Reds (removeZeroKeys hd) out ∧ Final out ∧
      Ranged C (removeZeroKeys hd) ∧ Ranged C out ∧
      (∀ e ∈ hd, 0 ≤ e.k ∧ 0 ≤ e.v) ∧
      (∃ e ∈ removeZeroKeys hd, (e.row C).getD 0 0 ≠ 0) ∧
      out.length ≤ (removeZeroKeys hd).length ∧ hd.length = A.length ∧
      elim A b = .ok (out.map (Entry.row C), out.map Entry.v) := by
  have henc := encode_eqns (b := b) hC hC63 h.rect h.bin
  set hd := (A.zip b).zipIdx.map entryOf with hhd
  have hent : ∀ e ∈ hd, 0 ≤ e.k ∧ e.k.toNat < 2 ^ C ∧ 0 ≤ e.v ∧ e.v ≤ 127 := by
    intro e he
    obtain ⟨p, hp, rfl⟩ := List.mem_map.1 he
    have hz := mem_of_mem_zipIdx hp
    have h1 := (List.of_mem_zip hz).1
    have h2 := (List.of_mem_zip hz).2
    have h3 := entryOf_row (p := p) hC hC63 (h.rect _ h1) (h.bin _ h1)
    have h4 := h.range _ h2
    exact ⟨h3.2.2, h3.2.1, h4.1, h4.2⟩
  have hrange : Ranged C (removeZeroKeys hd) := by
    intro e he
    rw [mem_removeZeroKeys] at he
    have := hent e he.1
    exact ⟨he.2, this.2⟩
  have hcov' : ∃ e ∈ removeZeroKeys hd, (e.row C).getD 0 0 ≠ 0 := by
    obtain ⟨r, hr, hne⟩ := hcov
    obtain ⟨i, hi, rfl⟩ := List.getElem_of_mem hr
    have hib : i < b.length := by rw [h.len]; exact hi
    have hmem : (A[i], b[i]) ∈ hd.map (Entry.eqn C) := by
      rw [henc, List.mem_iff_getElem]
      exact ⟨i, by simp; omega, by simp⟩
    obtain ⟨e, he, heq⟩ := List.mem_map.1 hmem
    have hrow : e.row C = A[i] := congrArg Prod.fst heq
    refine ⟨e, ?_, by rw [hrow]; exact hne⟩
    rw [mem_removeZeroKeys]
    refine ⟨he, ?_⟩
    rcases (hent e he).1.lt_or_eq with h0 | h0
    · exact h0
    · exfalso
      rw [← hrow] at hne
      unfold Entry.row at hne
      rw [← h0] at hne
      obtain ⟨C', rfl⟩ : ∃ C', C = C' + 1 := ⟨C - 1, by omega⟩
      have := top_of_bit (Nat.two_pow_pos _) hne
      have := Nat.two_pow_pos C'
      simp at *
  obtain ⟨out, h1, h2, h3, -, h5⟩ := elimList_spec hd
  refine ⟨hd, out, henc, h2, h3, hrange, h2.ranged hrange,
    fun e he => ⟨(hent e he).1, (hent e he).2.2.1⟩, hcov', h5, ?_, ?_⟩
  · simp [hhd, h.len]
  · unfold elim
    rw [encode_ok hC h.ne h.len h.rect, entryOf_zipIdx]
    simp only [ok_bind]
    rw [← hhd, h1]
    simp only [ok_bind]
    exact decode_ok hC hC63 (h2.ranged hrange) (h2.covered hcov')

/-- Elimination at the level of matrices. -/
structure ElimSpec (C : Nat) (A : Mat) (b : Vec) (A' : Mat) (b' : Vec) : Prop where
  sys : Sys C A' b'
  length_le : A'.length ≤ A.length
  sat : ∀ x, (∀ p ∈ A.zip b, dot p.1 x = p.2) → ∀ p ∈ A'.zip b', dot p.1 x = p.2
  sub : ∀ x, (∀ p ∈ A'.zip b', dot p.1 x ≤ p.2) → ∀ p ∈ A.zip b, dot p.1 x ≤ p.2
  sat_back : ∀ x₀ x, (∀ p ∈ A.zip b, dot p.1 x₀ = p.2) → (∀ p ∈ A'.zip b', dot p.1 x = p.2) →
    ∀ p ∈ A.zip b, dot p.1 x = p.2
  cov : ∀ j, (∃ r ∈ A, r.getD j 0 ≠ 0) → ∃ r ∈ A', r.getD j 0 ≠ 0
  coleq : ∀ i j, (∀ r ∈ A', r.getD i 0 = r.getD j 0) → ∀ r ∈ A, r.getD i 0 = r.getD j 0
  cert : ∀ q, Cert C (A.zip b) q → Cert C (A'.zip b') q
  idem : elim A' b' = .ok (A', b')
  final : ∃ out, A' = out.map (Entry.row C) ∧ b' = out.map Entry.v ∧ Final out ∧ Ranged C out

theorem rowOf_zero_dot (C : Nat) (x : Vec) : dot (rowOf C 0) x = 0 := by
  have := dot_rowOf_sub (n := C) (m := 0) (k := 0) (by simp) x
  simp at this; exact this

theorem rowOf_zero_getD (C j : Nat) : (rowOf C 0).getD j 0 = 0 := by
  have := getD_rowOf_sub (n := C) (m := 0) (k := 0) (by simp) j
  simp only [Nat.sub_self, sub_self] at this
  exact this

theorem Final.zipIdx {C : Nat} {out : List Entry} (hf : Final out) (hr : Ranged C out) (n : Nat) :
    Final ((out.zipIdx n).map (fun p => (⟨p.1.k, p.2, p.1.v⟩ : Entry))) := by
  induction out generalizing n with
  | nil => simp [Final]
  | cons a t ih =>
    unfold Final at *
    rw [List.pairwise_cons] at hf
    rw [List.zipIdx_cons, List.map_cons, List.pairwise_cons]
    refine ⟨?_, ih hf.2 (fun e he => hr e (by simp [he])) _⟩
    intro e he
    obtain ⟨p, hp, rfl⟩ := List.mem_map.1 he
    have h1 := hf.1 p.1 (mem_of_mem_zipIdx hp)
    have h2 := List.mem_zipIdx hp
    refine ⟨?_, h1.2⟩
    have h3 := h1.1
    rw [Entry.le_iff] at h3 ⊢
    simp only
    omega

theorem elim_spec {C : Nat} {A : Mat} {b : Vec} (h : Sys C A b) (hC : 0 < C) (hC63 : C ≤ 63)
    (hcov : ∃ r ∈ A, r.getD 0 0 ≠ 0) :
    ∃ A' b', elim A b = .ok (A', b') ∧ ElimSpec C A b A' b' := by
  obtain ⟨hd, out, henc, hreds, hfin, hrin, hrout, hnn, hcov0, hlen, hlhd, hel⟩ :=
    elim_entries h hC hC63 hcov
  have hAmem : ∀ r, r ∈ A ↔ ∃ e ∈ hd, e.row C = r := by
    intro r
    have : A = hd.map (Entry.row C) := by
      have h1 := congrArg (List.map Prod.fst) henc
      rw [List.map_map, List.map_fst_zip (by rw [h.len])] at h1
      exact h1.symm
    rw [this, List.mem_map]
  have hzero : ∀ e ∈ hd, e ∉ removeZeroKeys hd → e.row C = rowOf C 0 := by
    intro e he hn
    rw [mem_removeZeroKeys] at hn
    have := (hnn e he).1
    have : e.k = 0 := by
      by_contra h0; exact hn ⟨he, by omega⟩
    unfold Entry.row; rw [this]; rfl
  have hcovout := hreds.covered hcov0
  have houtne : out ≠ [] := by
    obtain ⟨e, he, -⟩ := hcovout
    intro h; subst h; simp at he
  have hsys : Sys C (out.map (Entry.row C)) (out.map Entry.v) := by
    refine ⟨by simpa using houtne, by simp, ?_, ?_, ?_⟩
    · intro r hr; obtain ⟨e, -, rfl⟩ := List.mem_map.1 hr; simp
    · intro r hr; obtain ⟨e, -, rfl⟩ := List.mem_map.1 hr; exact row_bin C e
    · intro x hx; obtain ⟨e, he, rfl⟩ := List.mem_map.1 hx; exact (hrout e he).2.2
  refine ⟨_, _, hel, hsys, ?_, ?_, ?_, ?_, ?_, ?_, ?_, ?_, out, rfl, rfl, hfin, hrout⟩
  · simp only [List.length_map]
    refine hlen.trans ?_
    rw [← hlhd]; exact List.length_filter_le _ _
  · intro x hx
    rw [zip_map_row_v]
    rw [← henc] at hx
    have hs : Sat C (removeZeroKeys hd) x := by
      intro e he
      exact hx _ (List.mem_map_of_mem (mem_removeZeroKeys.1 he).1)
    intro p hp
    obtain ⟨e, he, rfl⟩ := List.mem_map.1 hp
    exact hreds.sat hs e he
  · intro x hx
    rw [zip_map_row_v] at hx
    rw [← henc]
    have hs : SubSat C out x := by
      intro e he; exact hx _ (List.mem_map_of_mem he)
    have hs' := hreds.subSat hs
    intro p hp
    obtain ⟨e, he, rfl⟩ := List.mem_map.1 hp
    by_cases hz : e ∈ removeZeroKeys hd
    · exact hs' e hz
    · simp only [Entry.eqn]
      rw [hzero e he hz, rowOf_zero_dot]; exact (hnn e he).2
  · intro x₀ x hx₀ hx
    rw [zip_map_row_v] at hx
    rw [← henc] at hx₀ ⊢
    have hs : Sat C out x := by
      intro e he; exact hx _ (List.mem_map_of_mem he)
    have h0 : Sat C (removeZeroKeys hd) x₀ := by
      intro e he; exact hx₀ _ (List.mem_map_of_mem (mem_removeZeroKeys.1 he).1)
    have hs' := hreds.sat_back h0 hs
    intro p hp
    obtain ⟨e, he, rfl⟩ := List.mem_map.1 hp
    by_cases hz : e ∈ removeZeroKeys hd
    · exact hs' e hz
    · have := hx₀ _ (List.mem_map_of_mem he)
      simp only [Entry.eqn] at *
      rw [hzero e he hz, rowOf_zero_dot] at *
      exact this
  · rintro j ⟨r, hr, hne⟩
    obtain ⟨e, he, rfl⟩ := (hAmem r).1 hr
    have hz : e ∈ removeZeroKeys hd := by
      by_contra hz
      rw [hzero e he hz] at hne
      exact hne (rowOf_zero_getD C j)
    obtain ⟨e', he', hne'⟩ := hreds.covered ⟨e, hz, hne⟩
    exact ⟨_, List.mem_map_of_mem he', hne'⟩
  · intro i j hij r hr
    obtain ⟨e, he, rfl⟩ := (hAmem r).1 hr
    by_cases hz : e ∈ removeZeroKeys hd
    · exact hreds.coleq (fun e he => hij _ (List.mem_map_of_mem he)) e hz
    · rw [hzero e he hz, rowOf_zero_getD, rowOf_zero_getD]
  · intro q hq
    rw [zip_map_row_v]
    rw [← henc] at hq
    apply hreds.cert
    obtain ⟨T, hT, hsum, hv⟩ := hq
    have key : ∀ T : List (Vec × Int), (∀ p ∈ T, p ∈ hd.map (Entry.eqn C)) →
        ∃ T' : List (Vec × Int), (∀ p ∈ T', p ∈ (removeZeroKeys hd).map (Entry.eqn C)) ∧
          (∀ j, (T'.map (fun p => p.1.getD j 0)).sum = (T.map (fun p => p.1.getD j 0)).sum) ∧
          (T'.map Prod.snd).sum ≤ (T.map Prod.snd).sum := by
      intro T
      induction T with
      | nil => intro _; exact ⟨[], by simp⟩
      | cons p T ihT =>
        intro hT
        obtain ⟨T', h1, h2, h3⟩ := ihT (fun p hp => hT p (by simp [hp]))
        obtain ⟨e, he, rfl⟩ := List.mem_map.1 (hT p (by simp))
        by_cases hz : e ∈ removeZeroKeys hd
        · refine ⟨e.eqn C :: T', ?_, ?_, ?_⟩
          · intro p hp
            rcases List.mem_cons.1 hp with rfl | hp
            · exact List.mem_map_of_mem hz
            · exact h1 p hp
          · intro j; simp only [List.map_cons, List.sum_cons, h2]
          · simp only [List.map_cons, List.sum_cons]; omega
        · refine ⟨T', h1, ?_, ?_⟩
          · intro j
            simp only [List.map_cons, List.sum_cons, Entry.eqn, h2]
            rw [hzero e he hz, rowOf_zero_getD]; omega
          · have := (hnn e he).2
            simp only [List.map_cons, List.sum_cons, Entry.eqn]; omega
    obtain ⟨T', h1, h2, h3⟩ := key T hT
    exact ⟨T', h1, fun j hj => by rw [h2]; exact hsum j hj, h3.trans hv⟩
  · -- idempotence
    have hcovA : ∃ r ∈ out.map (Entry.row C), r.getD 0 0 ≠ 0 := by
      obtain ⟨e, he, hne⟩ := hcovout
      exact ⟨_, List.mem_map_of_mem he, hne⟩
    unfold elim
    rw [encode_ok hC hsys.ne hsys.len hsys.rect, zip_map_row_v]
    simp only [ok_bind]
    have e1 : ((out.map (Entry.eqn C)).zipIdx.map
        (fun p => (⟨rowKey p.1.1, p.2, p.1.2⟩ : Entry))) =
        out.zipIdx.map (fun p => (⟨p.1.k, p.2, p.1.v⟩ : Entry)) := by
      rw [List.zipIdx_map, List.map_map]
      apply List.map_congr_left
      intro p hp
      have hmem := mem_of_mem_zipIdx hp
      have hrp := hrout _ hmem
      simp only [Function.comp, Prod.map, id, Entry.eqn, Entry.row]
      rw [rowKey_of_le (ne_nil_of_length (rowOf_length C _) hC) (rowOf_bin _ _)
        (by simpa using hC63), bval_rowOf _ _ hrp.2.1]
      congr 1
      omega
    rw [e1]
    have hf' := hfin.zipIdx hrout 0
    rw [elimList_final hf' (by
      intro e he
      obtain ⟨p, hp, rfl⟩ := List.mem_map.1 he
      exact (hrout p.1 (mem_of_mem_zipIdx hp)).1)]
    simp only [ok_bind]
    have hr' : Ranged C (out.zipIdx.map (fun p => (⟨p.1.k, p.2, p.1.v⟩ : Entry))) := by
      intro e he
      obtain ⟨p, hp, rfl⟩ := List.mem_map.1 he
      exact hrout p.1 (mem_of_mem_zipIdx hp)
    rw [decode_ok hC hC63 hr']
    · rw [List.map_map, List.map_map]
      have hm : ∀ (α : Type) (f : Entry → α), (out.zipIdx.map (fun p => f p.1)) = out.map f := by
        intro α f
        have := List.zipIdx_map_fst 0 out
        conv_rhs => rw [← this, List.map_map]
        rfl
      congr 2
      · exact hm _ (Entry.row C)
      · exact hm _ Entry.v
    · obtain ⟨e, he, hne⟩ := hcovout
      obtain ⟨i, hi, rfl⟩ := List.getElem_of_mem he
      refine ⟨⟨out[i].k, i, out[i].v⟩, ?_, hne⟩
      rw [List.mem_map]
      refine ⟨(out[i], i), ?_, rfl⟩
      rw [List.mk_mem_zipIdx_iff_getElem?]
      simp [hi]

end Gauss

end TDS
