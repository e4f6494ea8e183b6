import Verif.Model.Repr
import Mathlib.Data.Nat.Digits.Lemmas
import Mathlib.Data.List.Basic

/-!
C68, the layout: how the numbers of an array are spread over lines.

All numbers are padded to the width of the longest one, so that every line but the last holds the same number of
them.
-/

namespace Spec

/-- A list cut into pieces of `c` items; the last piece may be shorter. -/
def pieces {α : Type} (c : Nat) (l : List α) : List (List α) :=
  (List.range ((l.length + c - 1) / c)).map (fun i => (l.drop (i * c)).take c)

end Spec

namespace TDS

namespace Print

open Database

theorem pieces_short {α : Type} {c : Nat} {l : List α} (h0 : l ≠ []) (h : l.length ≤ c) : Spec.pieces c l = [l] := by
  have h1 : 0 < l.length := List.length_pos_iff.2 h0
  have : (l.length + c - 1) / c = 1 := by
    rw [Nat.div_eq_iff (by omega)]
    omega
  rw [Spec.pieces, this]
  simp [List.take_of_length_le h]

theorem pieces_cons {α : Type} {c : Nat} (hc : 0 < c) {js ws : List α} (hj : js.length = c) (hw : ws ≠ []) :
    Spec.pieces c (js ++ ws) = js :: Spec.pieces c ws := by
  have h1 : 0 < ws.length := List.length_pos_iff.2 hw
  have : ((js ++ ws).length + c - 1) / c = (ws.length + c - 1) / c + 1 := by
    rw [List.length_append, hj, ← Nat.add_div_right _ hc]
    congr 1
    omega
  rw [Spec.pieces, this, List.range_succ_eq_map, List.map_cons, List.map_map]
  congr 1
  · rw [Nat.zero_mul, List.drop_zero, ← hj, List.take_left']
    rfl
  · refine List.map_congr_left (fun i _ => ?_)
    simp only [Function.comp, Nat.succ_eq_add_one, Nat.add_mul, Nat.one_mul]
    rw [Nat.add_comm, ← List.drop_drop, ← hj, List.drop_left' rfl]

/-! ### the width of the numbers -/

theorem natStr_mono {m n : Nat} (h : m ≤ n) : (natStr m).length ≤ (natStr n).length := by
  unfold natStr
  by_cases hm : m = 0
  · rw [if_pos hm]
    by_cases hn : n = 0
    · rw [if_pos hn]
    · rw [if_neg hn]
      simp only [List.length_map, List.length_reverse, List.length_singleton]
      exact List.length_pos_iff.2 (Nat.digits_ne_nil_iff_ne_zero.2 hn)
  · rw [if_neg hm, if_neg (by omega)]
    simp only [List.length_map, List.length_reverse]
    exact Nat.le_length_digits_le 10 m n h

theorem le_foldl_max (a : Vec) : ∀ i : Int, i ≤ a.foldl max i ∧ ∀ x ∈ a, x ≤ a.foldl max i := by
  induction a with
  | nil => intro i; simp
  | cons y a ih =>
    intro i
    obtain ⟨h1, h2⟩ := ih (max i y)
    rw [List.foldl_cons]
    refine ⟨le_trans (le_max_left _ _) h1, fun x hx => ?_⟩
    rcases List.mem_cons.1 hx with rfl | hx
    · exact le_trans (le_max_right _ _) h1
    · exact h2 x hx

theorem foldl_min_le (a : Vec) : ∀ i : Int, a.foldl min i ≤ i ∧ ∀ x ∈ a, a.foldl min i ≤ x := by
  induction a with
  | nil => intro i; simp
  | cons y a ih =>
    intro i
    obtain ⟨h1, h2⟩ := ih (min i y)
    rw [List.foldl_cons]
    refine ⟨le_trans h1 (min_le_left _ _), fun x hx => ?_⟩
    rcases List.mem_cons.1 hx with rfl | hx
    · exact le_trans h1 (min_le_right _ _)
    · exact h2 x hx

/-- No number is longer than the width. -/
theorem length_le_width {a : Vec} {x : Int} (hx : x ∈ a) : (intStr x).length ≤ width a := by
  have h1 := (le_foldl_max a (a.headD 0)).2 x hx
  have h2 := (foldl_min_le a (a.headD 0)).2 x hx
  unfold width
  set M := a.foldl max (a.headD 0)
  set m := a.foldl min (a.headD 0)
  match x, M, m, h1, h2 with
  | .ofNat x, .ofNat M, m, h1, _ =>
    exact le_trans (natStr_mono (Int.ofNat_le.1 h1)) (le_max_left _ _)
  | .ofNat x, .negSucc M, m, h1, _ =>
    exact absurd h1 (not_le.2 (lt_of_lt_of_le (Int.negSucc_lt_zero M) (Int.natCast_nonneg x)))
  | .negSucc x, M, .ofNat m, _, h2 =>
    exact absurd h2 (not_le.2 (lt_of_lt_of_le (Int.negSucc_lt_zero x) (Int.natCast_nonneg m)))
  | .negSucc x, M, .negSucc m, _, h2 =>
    refine le_trans ?_ (le_max_right _ _)
    simp only [intStr, List.length_cons]
    have := natStr_mono (show x + 1 ≤ m + 1 by rw [Int.negSucc_eq, Int.negSucc_eq] at h2; omega)
    omega

theorem foldl_max_mem (a : Vec) : ∀ i : Int, a.foldl max i = i ∨ a.foldl max i ∈ a := by
  induction a with
  | nil => intro i; exact .inl rfl
  | cons y a ih =>
    intro i
    rw [List.foldl_cons]
    rcases ih (max i y) with h | h
    · rw [h]
      rcases max_choice i y with h' | h' <;> rw [h'] <;> simp
    · exact .inr (List.mem_cons_of_mem _ h)

theorem foldl_min_mem (a : Vec) : ∀ i : Int, a.foldl min i = i ∨ a.foldl min i ∈ a := by
  induction a with
  | nil => intro i; exact .inl rfl
  | cons y a ih =>
    intro i
    rw [List.foldl_cons]
    rcases ih (min i y) with h | h
    · rw [h]
      rcases min_choice i y with h' | h' <;> rw [h'] <;> simp
    · exact .inr (List.mem_cons_of_mem _ h)

/-- Some number is as long as the width. -/
theorem exists_width {a : Vec} (ha : a ≠ []) : ∃ x ∈ a, (intStr x).length = width a := by
  obtain ⟨y, t, rfl⟩ := List.exists_cons_of_ne_nil ha
  have h1 : (y :: t).foldl max ((y :: t).headD 0) ∈ y :: t :=
    (foldl_max_mem _ _).elim (fun h => by rw [h]; exact List.mem_cons_self) id
  have h2 : (y :: t).foldl min ((y :: t).headD 0) ∈ y :: t :=
    (foldl_min_mem _ _).elim (fun h => by rw [h]; exact List.mem_cons_self) id
  unfold width
  rcases max_choice (intStr ((y :: t).foldl max ((y :: t).headD 0))).length
    (intStr ((y :: t).foldl min ((y :: t).headD 0))).length with h | h
  · exact ⟨_, h1, h.symm⟩
  · exact ⟨_, h2, h.symm⟩

theorem fmt_length {a : Vec} {x : Int} (hx : x ∈ a) : (fmt (width a) x).length = width a := by
  have := length_le_width hx
  simp only [fmt, blanks, List.length_append, List.length_replicate]
  omega

theorem digitChar_ne (d : Nat) (h : d < 10) : digitChar d ≠ ' ' := by
  interval_cases d <;> decide

theorem natStr_last (n : Nat) : ∃ s c, natStr n = s ++ [c] ∧ c ≠ ' ' := by
  unfold natStr
  split
  · exact ⟨[], '0', rfl, by decide⟩
  · next h =>
    obtain ⟨d, t, e⟩ := List.exists_cons_of_ne_nil (Nat.digits_ne_nil_iff_ne_zero.2 h : Nat.digits 10 n ≠ [])
    refine ⟨t.reverse.map digitChar, digitChar d, by rw [e]; simp, digitChar_ne d ?_⟩
    exact Nat.digits_lt_base (by norm_num) (by rw [e]; exact List.mem_cons_self)

theorem fmt_last (w : Nat) (x : Int) : ∃ s c, fmt w x = s ++ [c] ∧ c ≠ ' ' := by
  unfold fmt
  cases x with
  | ofNat n =>
    obtain ⟨s, c, e, h⟩ := natStr_last n
    exact ⟨blanks (w - (intStr (.ofNat n)).length) ++ s, c, by simp only [intStr]; rw [e]; simp, h⟩
  | negSucc n =>
    obtain ⟨s, c, e, h⟩ := natStr_last (n + 1)
    exact ⟨blanks (w - (intStr (.negSucc n)).length) ++ '-' :: s, c, by simp only [intStr]; rw [e]; simp, h⟩

theorem fmt_ne_nil (w : Nat) (x : Int) : fmt w x ≠ [] := by
  obtain ⟨s, c, e, -⟩ := fmt_last w x
  rw [e]; simp

theorem rstrip_end (s : Str) {c : Char} (hc : c ≠ ' ') (n : Nat) : rstrip (s ++ [c] ++ blanks n) = s ++ [c] := by
  have h : (s ++ [c] ++ blanks n).reverse = blanks n ++ c :: s.reverse := by simp [blanks]
  rw [rstrip, h]
  have : (blanks n ++ c :: s.reverse).dropWhile (fun c => c == ' ') = c :: s.reverse := by
    induction n with
    | zero => simp [blanks, hc]
    | succ n ih => rw [blanks, List.replicate_succ]; simpa [blanks] using ih
  rw [this]; simp

/-! ### filling the lines -/

/-- What the loop writes for the words `ws`, starting from the text `sl.1` and the line `sl.2`. -/
def fill (pre : Str) (w : Nat) (sep : Str) (sl : Str × Str) (ws : List Str) : Str :=
  let sl' := ws.dropLast.foldl (fun sl word =>
    ((extendLine pre w sl word).1, (extendLine pre w sl word).2 ++ sep)) sl
  let r := extendLine pre w sl' (ws.getLastD [])
  r.1 ++ r.2

theorem fill_cons (pre : Str) (w : Nat) (sep : Str) (sl : Str × Str) (x : Str) {ws : List Str} (h : ws ≠ []) :
    fill pre w sep sl (x :: ws) =
      fill pre w sep ((extendLine pre w sl x).1, (extendLine pre w sl x).2 ++ sep) ws := by
  obtain ⟨y, t, rfl⟩ := List.exists_cons_of_ne_nil h
  unfold fill
  simp [List.dropLast_cons_of_ne_nil]

/-- A line with the words `js`, each followed by the separator. -/
def open' (sep : Str) (js : List Str) : Str := js.flatMap (fun x => x ++ sep)

theorem open_length {sep : Str} {W : Nat} {js : List Str} (h : ∀ x ∈ js, x.length = W) :
    (open' sep js).length = js.length * (W + sep.length) := by
  induction js with
  | nil => simp [open']
  | cons x js ih =>
    have h1 := h x List.mem_cons_self
    have h2 := ih (fun y hy => h y (List.mem_cons_of_mem _ hy))
    simp only [open', List.flatMap_cons, List.length_append, List.length_cons] at h2 ⊢
    rw [h1, h2]; ring

theorem open_snoc (sep : Str) (js : List Str) (x : Str) : open' sep js ++ (x ++ sep) = open' sep (js ++ [x]) := by
  simp [open']

theorem open_inter (sep : Str) : ∀ (js : List Str) (x : Str), open' sep js ++ x = sep.intercalate (js ++ [x])
  | [], x => by simp [open', List.intercalate]
  | y :: js, x => by
    have ih := open_inter sep js x
    have hne : js ++ [x] ≠ [] := by simp
    obtain ⟨z, t, e⟩ := List.exists_cons_of_ne_nil hne
    have h1 : open' sep (y :: js) ++ x = y ++ (sep ++ (open' sep js ++ x)) := by simp [open']
    rw [h1, ih, List.cons_append, e]
    simp [List.intercalate]

/-- The words end up in lines of `c`, where `c` is what the width allows, but at least one. -/
theorem fill_spec {pre : Str} {w W c : Nat} {sep e : Str} (hW : 0 < W)
    (hcap : ∀ j, 1 ≤ j → (w < pre.length + j * (W + sep.length) + W ↔ c ≤ j)) (hc : 0 < c)
    (hr : ∀ (js : List Str) (x : Str), (∃ s c, x = s ++ [c] ∧ c ≠ ' ') →
      rstrip (pre ++ open' sep (js ++ [x])) = pre ++ sep.intercalate (js ++ [x]) ++ e) :
    ∀ (ws : List Str), ws ≠ [] → (∀ x ∈ ws, x.length = W ∧ ∃ s c, x = s ++ [c] ∧ c ≠ ' ') →
    ∀ (S : Str) (js : List Str), (∀ x ∈ js, x.length = W ∧ ∃ s c, x = s ++ [c] ∧ c ≠ ' ') → js.length ≤ c →
      fill pre w sep (S, pre ++ open' sep js) ws =
        S ++ pre ++ (e ++ '\n' :: pre).intercalate ((Spec.pieces c (js ++ ws)).map sep.intercalate) := by
  have hbreak : ∀ (js : List Str) (S x : Str), (∀ x ∈ js, x.length = W ∧ ∃ s c, x = s ++ [c] ∧ c ≠ ' ') →
      js.length = c → x.length = W → extendLine pre w (S, pre ++ open' sep js) x =
        (S ++ pre ++ sep.intercalate js ++ e ++ ['\n'], pre ++ x) := by
    intro js S x hjs hjc hx
    have hl := open_length (sep := sep) (fun y hy => (hjs y hy).1)
    have h1 := (hcap js.length (by omega)).2 (by omega)
    have h2 : 0 < js.length * (W + sep.length) := Nat.mul_pos (by omega) (by omega)
    unfold extendLine
    rw [if_pos]
    · obtain ⟨t, z, rfl⟩ := (List.eq_nil_or_concat' js).resolve_left (by rintro rfl; simp at hjc; omega)
      rw [hr t z (hjs z (by simp)).2]
      simp
    · simp only [List.length_append, hl, hx]
      omega
  have hstay : ∀ (js : List Str) (S x : Str), (∀ x ∈ js, x.length = W ∧ ∃ s c, x = s ++ [c] ∧ c ≠ ' ') →
      js.length < c → x.length = W → extendLine pre w (S, pre ++ open' sep js) x =
        (S, pre ++ open' sep js ++ x) := by
    intro js S x hjs hjc hx
    have hl := open_length (sep := sep) (fun y hy => (hjs y hy).1)
    unfold extendLine
    rw [if_neg]
    simp only [List.length_append, hl, hx]
    rintro ⟨h1, h2⟩
    rcases Nat.eq_zero_or_pos js.length with h0 | h0
    · rw [h0] at h2; omega
    · have := (hcap js.length h0).1 (by omega)
      omega
  intro ws
  induction ws with
  | nil => intro h; exact absurd rfl h
  | cons x ws ih =>
    intro _ hws S js hjs hjc
    obtain ⟨hxW, hxe⟩ := hws x List.mem_cons_self
    by_cases hn : ws = []
    · subst hn
      have hf : fill pre w sep (S, pre ++ open' sep js) [x] =
          (extendLine pre w (S, pre ++ open' sep js) x).1 ++ (extendLine pre w (S, pre ++ open' sep js) x).2 := rfl
      rw [hf]
      rcases Nat.lt_or_ge js.length c with h | h
      · rw [hstay js S x hjs h hxW, pieces_short (by simp) (by simp; omega)]
        simp only [List.map_cons, List.map_nil]
        rw [List.append_assoc pre, open_inter]
        simp [List.intercalate]
      · rw [hbreak js S x hjs (by omega) hxW, pieces_cons hc (by omega) (by simp),
          pieces_short (by simp) (by simp; omega)]
        simp [List.intercalate]
    · rw [fill_cons _ _ _ _ _ hn]
      have hws' : ∀ y ∈ ws, y.length = W ∧ ∃ s c, y = s ++ [c] ∧ c ≠ ' ' :=
        fun y hy => hws y (List.mem_cons_of_mem _ hy)
      rcases Nat.lt_or_ge js.length c with h | h
      · rw [hstay js S x hjs h hxW]
        have e1 : pre ++ open' sep js ++ x ++ sep = pre ++ open' sep (js ++ [x]) := by
          rw [← open_snoc]; simp
        simp only [e1]
        rw [ih hn hws' S (js ++ [x]) (by
          intro y hy
          rcases List.mem_append.1 hy with hy | hy
          · exact hjs y hy
          · rw [List.mem_singleton.1 hy]; exact ⟨hxW, hxe⟩) (by simp; omega)]
        simp
      · rw [hbreak js S x hjs (by omega) hxW]
        have e1 : pre ++ x ++ sep = pre ++ open' sep [x] := by simp [open']
        simp only [e1]
        rw [ih hn hws' _ [x] (by
          intro y hy
          rw [List.mem_singleton.1 hy]; exact ⟨hxW, hxe⟩) (by simp; omega),
          pieces_cons (js := js) hc (by omega) (by simp)]
        have hp : Spec.pieces c ([x] ++ ws) ≠ [] := by
          intro h0
          have := congrArg List.length h0
          simp only [Spec.pieces, List.length_map, List.length_range, List.length_nil, List.length_append,
            List.length_singleton] at this
          rw [Nat.div_eq_zero_iff] at this
          omega
        obtain ⟨z, t, e2⟩ := List.exists_cons_of_ne_nil hp
        rw [show x :: ws = [x] ++ ws from rfl, e2]
        simp [List.intercalate]

theorem wrap_fill (pre : Str) (w : Nat) (sep : Str) (ws : List Str) :
    wrap pre w sep ws = '[' :: (fill pre w sep ([], pre) ws).drop pre.length ++ [']'] := rfl

end Print

open Print Database

/-- **C68**, layout: the width is the length of the longest number, and the others are padded on the left. -/
theorem C68_width {a : Vec} (ha : a ≠ []) :
    ((∀ x ∈ a, (intStr x).length ≤ width a) ∧ ∃ x ∈ a, (intStr x).length = width a) ∧
      ∀ x ∈ a, fmt (width a) x = List.replicate (width a - (intStr x).length) ' ' ++ intStr x :=
  ⟨⟨fun _ => length_le_width, exists_width ha⟩, fun _ _ => rfl⟩

/-- **C68**, layout of `str`: every number takes the width `W` of the longest one; a line holds as many as fit into
74 columns with a blank in front of each; further lines are indented by one blank. -/
theorem C68_str {a : Vec} (ha : a ≠ []) : strVec a = "[".toList ++ "\n ".toList.intercalate
    ((Spec.pieces (max 1 (74 / (width a + 1))) (a.map (fmt (width a)))).map " ".toList.intercalate) ++
    "]".toList := by
  have hw : ∀ x ∈ a.map (fmt (width a)), x.length = width a ∧ ∃ s c, x = s ++ [c] ∧ c ≠ ' ' := by
    intro x hx
    obtain ⟨y, hy, rfl⟩ := List.mem_map.1 hx
    exact ⟨fmt_length hy, fmt_last _ _⟩
  obtain ⟨y, t, e⟩ := List.exists_cons_of_ne_nil ha
  have hW : 0 < width a := by
    rw [← fmt_length (a := a) (x := y) (by rw [e]; exact List.mem_cons_self)]
    exact List.length_pos_iff.2 (fmt_ne_nil _ _)
  unfold strVec
  rw [if_neg (by simpa using ha), wrap_fill]
  have := fill_spec (pre := blanks 1) (w := 74) (W := width a) (c := max 1 (74 / (width a + 1))) (sep := [' '])
    (e := []) hW ?_ (by omega) ?_ (a.map (fmt (width a))) (by simpa using ha) hw [] [] (by simp) (by simp)
  · simp only [open', List.flatMap_nil, List.append_nil, List.nil_append] at this
    rw [this]
    simp [blanks]
  · intro j hj
    have h1 : 74 / (width a + 1) ≤ j ↔ 74 < (j + 1) * (width a + 1) := by
      rw [← Nat.lt_succ_iff, Nat.div_lt_iff_lt_mul (by omega)]
    have h2 : (j + 1) * (width a + 1) = j * (width a + 1) + width a + 1 := by ring
    simp only [blanks, List.length_replicate, List.length_singleton]
    omega
  · rintro js x ⟨s, c, rfl, hc⟩
    have := rstrip_end (blanks 1 ++ open' [' '] js ++ s) hc 1
    rw [← open_inter]
    rw [← open_snoc]
    simpa [blanks] using this

/-- **C68**, layout of the list in `repr`: numbers are separated by a comma and a blank; a line holds as many as fit
into 68 columns with the separators; further lines are indented by seven blanks. -/
theorem C68_list {a : Vec} (ha : a ≠ []) : listVec a = "[".toList ++ ",\n       ".toList.intercalate
    ((Spec.pieces (max 1 (68 / (width a + 2))) (a.map (fmt (width a)))).map ", ".toList.intercalate) ++
    "]".toList := by
  have hw : ∀ x ∈ a.map (fmt (width a)), x.length = width a ∧ ∃ s c, x = s ++ [c] ∧ c ≠ ' ' := by
    intro x hx
    obtain ⟨y, hy, rfl⟩ := List.mem_map.1 hx
    exact ⟨fmt_length hy, fmt_last _ _⟩
  obtain ⟨y, t, e⟩ := List.exists_cons_of_ne_nil ha
  have hW : 0 < width a := by
    rw [← fmt_length (a := a) (x := y) (by rw [e]; exact List.mem_cons_self)]
    exact List.length_pos_iff.2 (fmt_ne_nil _ _)
  unfold listVec
  rw [if_neg (by simpa using ha), wrap_fill]
  have := fill_spec (pre := blanks 7) (w := 73) (W := width a) (c := max 1 (68 / (width a + 2))) (sep := [',', ' '])
    (e := [',']) hW ?_ (by omega) ?_ (a.map (fmt (width a))) (by simpa using ha) hw [] [] (by simp) (by simp)
  · simp only [open', List.flatMap_nil, List.append_nil, List.nil_append] at this
    rw [this]
    simp [blanks]
  · intro j hj
    have h1 : 68 / (width a + 2) ≤ j ↔ 68 < (j + 1) * (width a + 2) := by
      rw [← Nat.lt_succ_iff, Nat.div_lt_iff_lt_mul (by omega)]
    have h2 : (j + 1) * (width a + 2) = j * (width a + 2) + width a + 2 := by ring
    simp only [blanks, List.length_replicate, List.length_cons, List.length_nil, Nat.zero_add, Nat.reduceAdd]
    omega
  · rintro js x ⟨s, c, rfl, hc⟩
    have := rstrip_end (blanks 7 ++ open' [',', ' '] js ++ s ++ [c]) (c := ',') (by decide) 1
    rw [← open_inter, ← open_snoc]
    simpa [blanks] using this

namespace Print

theorem lastLine_newline (s t : Str) : lastLine (s ++ '\n' :: t) = lastLine t := by
  have h : ∀ l m : Str, (l ++ '\n' :: m).takeWhile (fun c => c != '\n') = l.takeWhile (fun c => c != '\n') := by
    intro l m
    induction l with
    | nil => simp
    | cons c l ih => simp only [List.cons_append, List.takeWhile_cons, ih]
  rw [lastLine, List.reverse_append, List.reverse_cons, List.append_assoc]
  exact congrArg List.length (h _ _)

theorem lastLine_one {t : Str} (ht : '\n' ∉ t) : lastLine t = t.length := by
  have h : ∀ c ∈ t.reverse, (c != '\n') = true := by
    intro c hc
    have : c ∈ t := by simpa using hc
    simp only [bne_iff_ne, ne_eq]
    rintro rfl
    exact ht this
  have := List.takeWhile_append_of_pos (l₂ := []) h
  rw [List.append_nil] at this
  rw [lastLine, this]; simp

theorem natStr_line (n : Nat) : '\n' ∉ natStr n := by
  unfold natStr
  split
  · decide
  · intro h
    obtain ⟨d, hd, e⟩ := List.mem_map.1 h
    have hd : d < 10 := Nat.digits_lt_base (by norm_num) (List.mem_reverse.1 hd)
    revert e
    interval_cases d <;> decide

theorem fmt_line (w : Nat) (x : Int) : '\n' ∉ fmt w x := by
  have : '\n' ∉ intStr x := by
    cases x with
    | ofNat n => exact natStr_line n
    | negSucc n =>
      simp only [intStr, List.mem_cons, not_or]
      exact ⟨by decide, natStr_line _⟩
  simp [fmt, blanks, this]

/-- The last line of a text made of lines. -/
theorem lastLine_lines (b : Str) {pre post : Str} (hb : '\n' ∉ pre) (hp : '\n' ∉ post) :
    ∀ (L : List Str) (s : Str), '\n' ∉ s → s.length = pre.length → (∀ x ∈ L, '\n' ∉ x) → (h : L ≠ []) →
    lastLine (s ++ (b ++ '\n' :: pre).intercalate L ++ post) = pre.length + (L.getLast h).length + post.length
  | [], _, _, _, _, h => absurd rfl h
  | [x], s, hs, hl, hL, h => by
    have := hL x List.mem_cons_self
    rw [lastLine_one]
    · simp [List.intercalate, hl, Nat.add_assoc]
    · simp [List.intercalate, hs, hp, this]
  | x :: y :: L, s, hs, hl, hL, h => by
    have ih := lastLine_lines b hb hp (y :: L) pre hb rfl (fun z hz => hL z (List.mem_cons_of_mem _ hz)) (by simp)
    rw [List.getLast_cons (by simp), ← ih]
    have e : s ++ (b ++ '\n' :: pre).intercalate (x :: y :: L) ++ post =
        (s ++ x ++ b) ++ '\n' :: (pre ++ (b ++ '\n' :: pre).intercalate (y :: L) ++ post) := by
      simp [List.intercalate]
    rw [e, lastLine_newline]

theorem last_piece {α : Type} {c : Nat} (hc : 0 < c) {l : List α} (hl : l ≠ []) (h : Spec.pieces c l ≠ []) :
    ((Spec.pieces c l).getLast h).length = (l.length - 1) % c + 1 := by
  have h0 : 0 < l.length := List.length_pos_iff.2 hl
  have h1 : (l.length + c - 1) / c = (l.length - 1) / c + 1 := by
    rw [← Nat.add_div_right _ hc]
    congr 1
    omega
  simp only [Spec.pieces, h1, List.getLast_map, List.getLast_range, List.length_take, List.length_drop]
  have h2 := Nat.div_add_mod (l.length - 1) c
  have h3 := Nat.mod_lt (l.length - 1) hc
  rw [Nat.mul_comm] at h2
  simp only [Nat.add_sub_cancel]
  omega

theorem inter_length {sep : Str} {W : Nat} {js : List Str} (h : ∀ x ∈ js, x.length = W) (h0 : js ≠ []) :
    (sep.intercalate js).length + sep.length = js.length * (W + sep.length) := by
  obtain ⟨t, z, rfl⟩ := (List.eq_nil_or_concat' js).resolve_left h0
  rw [← open_inter, List.length_append, open_length (fun x hx => h x (by simp [hx])), h z (by simp),
    List.length_append, List.length_singleton]
  ring

theorem inter_line {sep : Str} (hs : '\n' ∉ sep) {js : List Str} (h : ∀ x ∈ js, '\n' ∉ x) :
    '\n' ∉ sep.intercalate js := by
  rcases List.eq_nil_or_concat' js with rfl | ⟨t, z, rfl⟩
  · simp [List.intercalate]
  · rw [← open_inter, open']
    simp only [List.mem_append, List.mem_flatMap, not_or, not_exists, not_and]
    exact ⟨fun x hx => ⟨h x (by simp [hx]), hs⟩, h z (by simp)⟩

theorem mem_pieces {α : Type} {c : Nat} {l p : List α} (h : p ∈ Spec.pieces c l) {x : α} (hx : x ∈ p) : x ∈ l := by
  obtain ⟨i, -, rfl⟩ := List.mem_map.1 h
  exact List.mem_of_mem_drop (List.mem_of_mem_take hx)

end Print

/-- **C68**, layout of the type: it goes to a line of its own, indented by six blanks, if the numbers on the last line
take more than 56 columns with their separators. -/
theorem C68_dtype {a : Vec} (ha : a ≠ []) : reprVec (some "int8".toList) a =
    "array(".toList ++ listVec a ++ ",".toList ++
      (if 56 < ((a.length - 1) % max 1 (68 / (width a + 2)) + 1) * (width a + 2) then "\n      ".toList else " ".toList) ++
      "dtype=int8)".toList := by
  obtain ⟨y, t, e⟩ := List.exists_cons_of_ne_nil ha
  have hl : lastLine ("array(".toList ++ listVec a ++ ",".toList) =
      7 + ((a.length - 1) % max 1 (68 / (width a + 2)) + 1) * (width a + 2) := by
    rw [C68_list ha]
    generalize hc : max 1 (68 / (width a + 2)) = c
    have hc0 : 0 < c := by omega
    generalize hws : a.map (fmt (width a)) = ws
    have hlen : ws.length = a.length := by rw [← hws]; simp
    have hne : ws ≠ [] := by rw [← hws]; simpa using ha
    have hW : ∀ x ∈ ws, x.length = width a := by
      rw [← hws]
      intro x hx
      obtain ⟨y, hy, rfl⟩ := List.mem_map.1 hx
      exact fmt_length hy
    have hN : ∀ x ∈ ws, '\n' ∉ x := by
      rw [← hws]
      intro x hx
      obtain ⟨y, hy, rfl⟩ := List.mem_map.1 hx
      exact fmt_line _ _
    have hp : Spec.pieces c ws ≠ [] := by
      intro h0
      have h0 := congrArg List.length h0
      have := List.length_pos_iff.2 hne
      simp only [Spec.pieces, List.length_map, List.length_range, List.length_nil] at h0
      rw [Nat.div_eq_zero_iff] at h0
      omega
    have := lastLine_lines [','] (pre := blanks 7) (post := [']', ',']) (by decide) (by decide)
      ((Spec.pieces c ws).map ", ".toList.intercalate) "array([".toList (by decide) (by decide)
      (by
        intro x hx
        obtain ⟨p, hp, rfl⟩ := List.mem_map.1 hx
        exact inter_line (by decide) (fun y hy => hN y (mem_pieces hp hy))) (by simpa using hp)
    have e1 : "array(".toList ++ ("[".toList ++ ",\n       ".toList.intercalate
        ((Spec.pieces c ws).map ", ".toList.intercalate) ++ "]".toList) ++ ",".toList =
        "array([".toList ++ ([','] ++ '\n' :: blanks 7).intercalate
        ((Spec.pieces c ws).map ", ".toList.intercalate) ++ [']', ','] := by
      simp [blanks]
    rw [e1, this, List.getLast_map]
    have hlast := last_piece hc0 hne hp
    have hm : (Spec.pieces c ws).getLast hp ∈ Spec.pieces c ws := List.getLast_mem hp
    have := inter_length (sep := ", ".toList) (js := (Spec.pieces c ws).getLast hp)
      (fun x hx => hW x (mem_pieces hm hx)) (by
        intro h0; rw [h0] at hlast; simp at hlast)
    rw [hlast, hlen] at this
    simp only [blanks, List.length_replicate, List.length_cons, List.length_nil]
    have h2 : (", ".toList).length = 2 := by decide
    rw [h2] at this
    omega
  unfold reprVec
  have ht : tArray = "array(".toList := by decide
  have hd : tDtype ++ "int8".toList ++ [')'] = "dtype=int8)".toList := by decide
  have hk : [','] = ",".toList := by decide
  simp only [ht, hd, hk]
  rw [hl]
  have h11 : ("dtype=int8)".toList).length = 11 := by decide
  rw [h11]
  congr 2
  by_cases h : 56 < ((a.length - 1) % max 1 (68 / (width a + 2)) + 1) * (width a + 2)
  · rw [if_pos h, if_pos (by omega)]
    decide
  · rw [if_neg h, if_neg (by omega)]
    decide

/-- Nineteen numbers of one digit fit with the type; twenty-three leave the last line with one; twenty-two do not. -/
example : reprVec (some "int8".toList) (List.replicate 22 1) =
    "array([1, 1, 1, 1, 1, 1, 1, 1, 1, 1, 1, 1, 1, 1, 1, 1, 1, 1, 1, 1, 1, 1],\n      dtype=int8)".toList := by
  decide +kernel

example : reprVec (some "int8".toList) (List.replicate 23 1) =
    "array([1, 1, 1, 1, 1, 1, 1, 1, 1, 1, 1, 1, 1, 1, 1, 1, 1, 1, 1, 1, 1, 1,\n       1], dtype=int8)".toList := by
  decide +kernel

example : strVec (List.replicate 38 1) = ("[1 1 1 1 1 1 1 1 1 1 1 1 1 1 1 1 1 1 1 1 1 1 1 1 1 1 1 1 1 1 1 1 1 1 1 1 1\n" ++
    " 1]").toList := by
  decide +kernel

end TDS
