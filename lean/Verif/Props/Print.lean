import Verif.Model.Print
import Verif.Props.Database
import Verif.Proof.Bits

/-! # C60: what the command line shows -/

namespace Spec

/-- The number a character stands for, for the digits 0 and 1. -/
def digit (c : Char) : List Int := if c = '0' then [0] else if c = '1' then [1] else []

/-- The digits of a text. -/
def digits (s : List Char) : List Int := s.flatMap digit

/-- Read rows of digits that end with `]`; two such brackets in a row end the matrix. -/
def scan (cur : List Int) : List Char → List (List Int)
  | [] => []
  | c :: t =>
    if c = ']' then (if t.head? = some ']' then [cur] else cur :: scan [] t)
    else scan (cur ++ digit c) t

/-- The 0/1 matrix written in a text. -/
def readText (s : List Char) : List (List Int) := scan [] s

/-- The first three and the last three items. -/
def corner {α : Type} (a : List α) : List α := a.take 3 ++ a.drop (a.length - 3)

/-- The line in front of the answers, with the quotes of `repr`. -/
def answersLine : List Char := "'*********** answers *************'".toList

end Spec

namespace TDS

open Spec

namespace Print

theorem digits_append (s t : Str) : digits (s ++ t) = digits s ++ digits t := by
  simp [digits]

theorem digits_blanks (n : Nat) : digits (blanks n) = [] := by
  induction n with
  | zero => rfl
  | succ n ih =>
    rw [blanks, List.replicate_succ]
    show digit ' ' ++ digits (blanks n) = []
    rw [ih]
    rfl

theorem scan_append (cur : List Int) (s t : Str) (h : ']' ∉ s) :
    scan cur (s ++ t) = scan (cur ++ digits s) t := by
  induction s generalizing cur with
  | nil => simp [digits]
  | cons c s ih =>
    rw [List.mem_cons, not_or] at h
    rw [List.cons_append, scan, if_neg (Ne.symm h.1), ih _ h.2]
    congr 1
    simp [digits]

theorem mem_blanks {n : Nat} {c : Char} (h : c ∈ blanks n) : c = ' ' :=
  List.eq_of_mem_replicate h

theorem rstrip_sub {s : Str} {c : Char} (h : c ∈ rstrip s) : c ∈ s := by
  rw [rstrip, List.mem_reverse] at h
  exact List.mem_reverse.1 (List.dropWhile_subset _ h)

/-- `rstrip` only removes blanks at the end. -/
theorem rstrip_spec (s : Str) : ∃ n, s = rstrip s ++ blanks n := by
  refine ⟨(s.reverse.takeWhile (fun c => c == ' ')).length, ?_⟩
  have h1 : s.reverse = s.reverse.takeWhile (fun c => c == ' ') ++
      s.reverse.dropWhile (fun c => c == ' ') := (List.takeWhile_append_dropWhile).symm
  have h2 : s.reverse.takeWhile (fun c => c == ' ') =
      blanks (s.reverse.takeWhile (fun c => c == ' ')).length := by
    rw [blanks, List.eq_replicate_iff]
    refine ⟨rfl, fun c hc => ?_⟩
    exact eq_of_beq (List.all_eq_true.1 List.all_takeWhile c hc)
  have h3 : s = (s.reverse.dropWhile (fun c => c == ' ')).reverse ++
      (s.reverse.takeWhile (fun c => c == ' ')).reverse := by
    rw [← List.reverse_append, ← h1, List.reverse_reverse]
  have h4 : (s.reverse.takeWhile (fun c => c == ' ')).reverse =
      blanks (s.reverse.takeWhile (fun c => c == ' ')).length := by
    conv_lhs => rw [h2]
    rw [blanks, List.reverse_replicate]
  conv_lhs => rw [h3, h4]
  rfl

theorem digits_rstrip (s : Str) : digits (rstrip s) = digits s := by
  obtain ⟨n, hn⟩ := rstrip_spec s
  conv_rhs => rw [hn]
  rw [digits_append, digits_blanks, List.append_nil]

/-- State while a row is written: no closing bracket so far, the digits so far, and the text so far
starts with the indentation, which is never stripped. -/
structure RowInv (sl : Str × Str) (D : List Int) : Prop where
  c1 : ']' ∉ sl.1
  c2 : ']' ∉ sl.2
  dig : digits (sl.1 ++ sl.2) = D
  pre : (sl.1 = [] ∧ ∃ t, sl.2 = blanks 8 ++ t ∧ t.head? ≠ some ' ') ∨ ∃ t, sl.1 = blanks 8 ++ t

/-- A word: no closing bracket, and it starts with something other than a blank. -/
def Word (w : Str) : Prop := ']' ∉ w ∧ ∃ c t, w = c :: t ∧ c ≠ ' '

theorem rstrip_pre {t : Str} {c : Char} (hc : c ≠ ' ') (p : Str) :
    ∃ t', rstrip (p ++ c :: t) = p ++ t' := by
  have h : (p ++ c :: t).reverse = t.reverse ++ (c :: p.reverse) := by simp
  rw [rstrip, h]
  suffices hs : ∀ a : Str, ∃ b, (a ++ (c :: p.reverse)).dropWhile (fun c => c == ' ') =
      b ++ p.reverse by
    obtain ⟨b, hb⟩ := hs t.reverse
    exact ⟨b.reverse, by rw [hb]; simp⟩
  intro a
  induction a with
  | nil =>
    refine ⟨[c], ?_⟩
    rw [List.nil_append, List.dropWhile_cons_of_neg (by simpa using hc)]
    rfl
  | cons x a ih =>
    rw [List.cons_append, List.dropWhile_cons]
    split
    · exact ih
    · exact ⟨x :: a ++ [c], by simp⟩

theorem extend_inv {sl : Str × Str} {D : List Int} (h : RowInv sl D) {w : Str} (hw : Word w) :
    RowInv (extendLine (blanks 8) 72 sl w) (D ++ digits w) := by
  obtain ⟨s, line⟩ := sl
  obtain ⟨h1, h2, h3, h4⟩ := h
  simp only at h1 h2 h3 h4
  obtain ⟨hw1, c, t, rfl, hc⟩ := hw
  rw [extendLine]
  simp only
  split
  · rename_i hlen
    refine ⟨?_, ?_, ?_, Or.inr ?_⟩
    · simp only [List.mem_append, not_or]
      exact ⟨⟨h1, fun e => h2 (rstrip_sub e)⟩, by simp⟩
    · simp only [List.mem_append, not_or]
      exact ⟨fun e => absurd (mem_blanks e) (by decide), hw1⟩
    · have e1 : digits ['\n'] = [] := by rfl
      rw [digits_append, digits_append, digits_append, digits_rstrip, e1, digits_append,
        digits_blanks, ← h3, digits_append]
      simp
    · rcases h4 with ⟨rfl, t', ht', hne⟩ | ⟨t', ht'⟩
      · cases t' with
        | nil =>
          exact absurd (by rw [ht', List.append_nil]) hlen.2
        | cons c' t' =>
          subst ht'
          obtain ⟨t2, ht2⟩ := rstrip_pre (c := c') (t := t') (by simpa using hne) (blanks 8)
          exact ⟨t2 ++ ['\n'], by rw [ht2]; simp⟩
      · exact ⟨t' ++ rstrip line ++ ['\n'], by rw [ht']; simp⟩
  · refine ⟨h1, ?_, ?_, ?_⟩
    · simp only [List.mem_append, not_or]
      exact ⟨h2, hw1⟩
    · simp only
      rw [← List.append_assoc, digits_append, h3]
    · rcases h4 with ⟨rfl, t', ht', hne⟩ | ⟨t', ht'⟩
      · refine Or.inl ⟨rfl, t' ++ c :: t, by rw [ht', List.append_assoc], ?_⟩
        cases t' with
        | nil => simpa using hc
        | cons => exact hne
      · exact Or.inr ⟨t', ht'⟩

theorem sep_inv {sl : Str × Str} {D : List Int} (h : RowInv sl D) {w : Str} (hw : Word w) :
    RowInv (extendSep (blanks 8) 72 sl w) (D ++ digits w) := by
  obtain ⟨h1, h2, h3, h4⟩ := extend_inv h hw
  refine ⟨h1, ?_, ?_, ?_⟩
  · simp only [extendSep, List.mem_append, not_or]
    exact ⟨h2, by decide⟩
  · have e1 : digits [',', ' '] = [] := by rfl
    simp only [extendSep]
    rw [← List.append_assoc, digits_append, h3, e1, List.append_nil]
  · rcases h4 with ⟨e, t', ht', hne⟩ | ⟨t', ht'⟩
    · refine Or.inl ⟨e, t' ++ [',', ' '], by simp only [extendSep]; rw [ht', List.append_assoc], ?_⟩
      cases t' with
      | nil => decide
      | cons => exact hne
    · exact Or.inr ⟨t', ht'⟩

theorem sep_fold (ws : List Str) (hws : ∀ w ∈ ws, Word w) {sl : Str × Str} {D : List Int}
    (h : RowInv sl D) :
    RowInv (ws.foldl (extendSep (blanks 8) 72) sl) (D ++ ws.flatMap digits) := by
  induction ws generalizing sl D with
  | nil => simpa using h
  | cons w ws ih =>
    have := ih (fun x hx => hws x (List.mem_cons_of_mem _ hx)) (sep_inv h (hws w List.mem_cons_self))
    simpa using this

/-- A row is written as its words, in order, between brackets. -/
theorem rowText_spec {ws : List Str} (hne : ws ≠ []) (hws : ∀ w ∈ ws, Word w) :
    ∃ b, rowText ws = '[' :: b ++ [']'] ∧ ']' ∉ b ∧ digits b = ws.flatMap digits := by
  have h0 : RowInv ([], blanks 8) [] := by
    refine ⟨by simp, fun e => absurd (mem_blanks e) (by decide), ?_, Or.inl ⟨rfl, [], by simp, by simp⟩⟩
    simp [digits_blanks]
  have h1 := sep_fold ws.dropLast (fun w hw => hws w (List.dropLast_subset _ hw)) h0
  have e1 : ws.getLastD [] = ws.getLast hne := by
    rw [List.getLastD_eq_getLast?, List.getLast?_eq_getLast_of_ne_nil hne]
    rfl
  have h2 := extend_inv h1 (hws (ws.getLast hne) (List.getLast_mem hne))
  refine ⟨_, rfl, ?_, ?_⟩
  · intro e
    have e := List.mem_of_mem_drop e
    rw [e1, List.mem_append] at e
    exact e.elim h2.c1 h2.c2
  · rw [e1]
    generalize extendLine (blanks 8) 72 _ _ = r at h2
    have h3 : ∃ t, r.1 ++ r.2 = blanks 8 ++ t := by
      rcases h2.pre with ⟨e, t', ht', -⟩ | ⟨t', ht'⟩
      · exact ⟨t', by rw [e, ht']; rfl⟩
      · exact ⟨t' ++ r.2, by rw [ht', List.append_assoc]⟩
    obtain ⟨t, ht⟩ := h3
    have h4 := h2.dig
    rw [ht, digits_append, digits_blanks] at h4
    rw [ht]
    have h5 : (blanks 8 ++ t).drop 8 = t := rfl
    rw [h5]
    have h6 : digits t = [] ++ digits t := rfl
    rw [h6, h4, List.nil_append]
    conv_rhs => rw [← List.dropLast_append_getLast hne]
    rw [List.flatMap_append]
    simp

/-- What a line of the matrix contributes: a row in brackets, or nothing. -/
def shown (t : Str) : List (List Int) := if t.head? = some '[' then [digits t] else []

/-- A line of the matrix. -/
def Line (t : Str) : Prop := (∃ b, t = '[' :: b ++ [']'] ∧ ']' ∉ b) ∨ t = ['.', '.', '.']

theorem scan_rows (tail : Str) (Ts : List Str) (hT : ∀ t ∈ Ts, Line t) (hne : Ts ≠ [])
    (hlast : (Ts.getLast hne).head? = some '[') :
    scan [] (joinRows Ts ++ ']' :: tail) = Ts.flatMap shown := by
  have hsep : ']' ∉ [',', '\n'] ++ blanks 7 := by decide
  have hsd : digits ([',', '\n'] ++ blanks 7) = [] := by rfl
  induction Ts with
  | nil => exact absurd rfl hne
  | cons T Ts ih =>
    have hh := hT T List.mem_cons_self
    cases Ts with
    | nil =>
      rcases hh with ⟨b, rfl, hb⟩ | rfl
      · rw [joinRows, List.append_assoc, List.singleton_append,
          scan_append [] ('[' :: b) (']' :: ']' :: tail) (by simp [hb])]
        simp [scan, shown, digits, digit]
      · simp at hlast
    | cons T' Ts =>
      have ih' := ih (fun t ht => hT t (List.mem_cons_of_mem _ ht)) (by simp)
        (by simpa using hlast)
      have e : joinRows (T :: T' :: Ts) = T ++ ([',', '\n'] ++ blanks 7) ++ joinRows (T' :: Ts) := by
        rw [joinRows]
        simp
      rw [e, List.flatMap_cons, ← ih']
      rcases hh with ⟨b, rfl, hb⟩ | rfl
      · have e2 : '[' :: b ++ [']'] ++ ([',', '\n'] ++ blanks 7) ++ joinRows (T' :: Ts) ++ ']' :: tail
            = ('[' :: b) ++ (']' :: (([',', '\n'] ++ blanks 7) ++
              (joinRows (T' :: Ts) ++ ']' :: tail))) := by simp
        rw [e2, scan_append [] ('[' :: b) _ (by simp [hb]), scan, if_pos rfl, if_neg (by simp),
          scan_append [] _ _ hsep, hsd]
        simp [shown, digits, digit]
      · rw [List.append_assoc, List.append_assoc, scan_append [] _ _ (by decide),
          scan_append _ _ _ hsep, hsd]
        simp [shown, digits, digit]

theorem fmt_one {x : Int} (h : x = 0 ∨ x = 1) : Word (fmt 1 x) ∧ digits (fmt 1 x) = [x] := by
  rcases h with rfl | rfl
  · exact ⟨⟨by decide, '0', [], by decide, by decide⟩, by decide⟩
  · exact ⟨⟨by decide, '1', [], by decide, by decide⟩, by decide⟩

theorem width_bin {d : Vec} (h : Spec.Bin d) : width d = 1 := by
  have hm : ∀ (f : Int → Int → Int), (∀ x y, (x = 0 ∨ x = 1) → (y = 0 ∨ y = 1) →
      (f x y = 0 ∨ f x y = 1)) → ∀ (d : Vec), Spec.Bin d → ∀ a, (a = 0 ∨ a = 1) →
      (d.foldl f a = 0 ∨ d.foldl f a = 1) := by
    intro f hf d
    induction d with
    | nil => intro _ a ha; exact ha
    | cons x d ih =>
      intro hb a ha
      exact ih (fun y hy => hb y (List.mem_cons_of_mem _ hy)) _
        (hf a x ha (hb x List.mem_cons_self))
  have h0 : d.headD 0 = 0 ∨ d.headD 0 = 1 := by
    cases d with
    | nil => exact Or.inl rfl
    | cons x d => exact h x List.mem_cons_self
  have h1 := hm max (by rintro x y (rfl | rfl) (rfl | rfl) <;> decide) d h _ h0
  have h2 := hm min (by rintro x y (rfl | rfl) (rfl | rfl) <;> decide) d h _ h0
  rw [width]
  rcases h1 with h1 | h1 <;> rcases h2 with h2 | h2 <;> rw [h1, h2] <;> decide

/-- The items of an axis that are shown. -/
def part {α : Type} (big : Bool) (a : List α) : List α := (ends big a).1 ++ (ends big a).2

theorem part_sub {α : Type} {big : Bool} {a : List α} {x : α} (h : x ∈ part big a) : x ∈ a := by
  rw [part, ends] at h
  split at h
  · rcases List.mem_append.1 h with h | h
    · exact List.mem_of_mem_take h
    · exact List.mem_of_mem_drop h
  · simpa using h

theorem ends_ne {α : Type} {big : Bool} {a : List α} (h : a ≠ []) : (ends big a).2 ≠ [] := by
  rw [ends]
  split
  · intro e
    have := congrArg List.length e
    simp only [List.length_drop, List.length_nil] at this
    have : 0 < a.length := List.length_pos_iff.2 h
    omega
  · exact h

theorem rowWords_spec {big : Bool} {r : Vec} (hb : Spec.Bin r) (hr : r ≠ []) :
    rowWords big 1 r ≠ [] ∧ (∀ w ∈ rowWords big 1 r, Word w) ∧
      (rowWords big 1 r).flatMap digits = part big r := by
  have hp : ∀ x ∈ part big r, x = 0 ∨ x = 1 := fun x hx => hb x (part_sub hx)
  have hf : ∀ l : List Int, (∀ x ∈ l, x = 0 ∨ x = 1) → (l.map (fmt 1)).flatMap digits = l := by
    intro l
    induction l with
    | nil => intro _; rfl
    | cons x l ih =>
      intro hl
      rw [List.map_cons, List.flatMap_cons, ih (fun y hy => hl y (List.mem_cons_of_mem _ hy)),
        (fmt_one (hl x List.mem_cons_self)).2]
      rfl
  refine ⟨?_, ?_, ?_⟩
  · have := ends_ne (big := big) hr
    simp [rowWords, this]
  · intro w hw
    simp only [rowWords, List.mem_append] at hw
    rcases hw with (hw | hw) | hw
    · obtain ⟨x, hx, rfl⟩ := List.mem_map.1 hw
      exact (fmt_one (hp x (List.mem_append_left _ hx))).1
    · split at hw
      · rw [List.mem_singleton] at hw
        subst hw
        exact ⟨by decide, '.', ['.', '.'], rfl, by decide⟩
      · simp at hw
    · obtain ⟨x, hx, rfl⟩ := List.mem_map.1 hw
      exact (fmt_one (hp x (List.mem_append_right _ hx))).1
  · rw [rowWords, List.flatMap_append, List.flatMap_append,
      hf _ (fun x hx => hp x (List.mem_append_left _ hx)),
      hf _ (fun x hx => hp x (List.mem_append_right _ hx)), part]
    split <;> simp [digits, digit]

theorem row_line {big : Bool} {r : Vec} (hb : Spec.Bin r) (hr : r ≠ []) :
    Line (rowText (rowWords big 1 r)) ∧ (rowText (rowWords big 1 r)).head? = some '[' ∧
      shown (rowText (rowWords big 1 r)) = [part big r] := by
  obtain ⟨h1, h2, h3⟩ := rowWords_spec (big := big) hb hr
  obtain ⟨b, h4, h5, h6⟩ := rowText_spec h1 h2
  refine ⟨Or.inl ⟨b, h4, h5⟩, by rw [h4]; rfl, ?_⟩
  have h7 : digits ('[' :: b ++ [']']) = digits b := by simp [digits, digit]
  rw [shown, h4, h7, h6, h3]
  simp

theorem isBig_eq {v : Nat} {M : Mat} (hM : Spec.Part v M) (hne : M ≠ []) :
    isBig M = decide (1000 < M.length * v) := by
  have hhd : (M.headD []).length = v := by
    cases M with
    | nil => exact absurd rfl hne
    | cons r M => exact hM.rect r List.mem_cons_self
  rw [isBig, hhd]

theorem width_data {v : Nat} {M : Mat} (hM : Spec.Part v M) (big : Bool) :
    width (data big M) = 1 := by
  refine width_bin ?_
  intro x hx
  obtain ⟨r, hr, hx⟩ := List.mem_flatMap.1 hx
  exact hM.bin r (part_sub hr) x (part_sub hx)

theorem lines_spec {v : Nat} (hv : 0 < v) {M : Mat} (hM : Spec.Part v M) (hne : M ≠ [])
    (big : Bool) : (∀ t ∈ lines big 1 M, Line t) ∧
      (∃ hl, ((lines big 1 M).getLast hl).head? = some '[') ∧
      (lines big 1 M).flatMap shown = (part big M).map (part big) := by
  have hrow : ∀ r ∈ M, r ≠ [] := by
    intro r hr e
    have := hM.rect r hr
    rw [e] at this
    simp at this
    omega
  have h1 : ∀ l : List Vec, (∀ r ∈ l, r ∈ M) →
      (l.map (fun r => rowText (rowWords big 1 r))).flatMap shown = l.map (part big) := by
    intro l
    induction l with
    | nil => intro _; rfl
    | cons r l ih =>
      intro hl
      have hr := hl r List.mem_cons_self
      rw [List.map_cons, List.flatMap_cons, ih (fun y hy => hl y (List.mem_cons_of_mem _ hy)),
        (row_line (hM.bin r hr) (hrow r hr)).2.2]
      rfl
  have hs1 : ∀ r ∈ (ends big M).1, r ∈ M := fun r hr => part_sub (List.mem_append_left _ hr)
  have hs2 : ∀ r ∈ (ends big M).2, r ∈ M := fun r hr => part_sub (List.mem_append_right _ hr)
  have hne2 : (ends big M).2.map (fun r => rowText (rowWords big 1 r)) ≠ [] := by
    simpa using ends_ne (big := big) hne
  refine ⟨?_, ⟨by simp [lines, ends_ne (big := big) hne], ?_⟩, ?_⟩
  · intro t ht
    simp only [lines, List.mem_append] at ht
    rcases ht with (ht | ht) | ht
    · obtain ⟨r, hr, rfl⟩ := List.mem_map.1 ht
      exact (row_line (hM.bin r (hs1 r hr)) (hrow r (hs1 r hr))).1
    · split at ht
      · rw [List.mem_singleton] at ht
        exact Or.inr ht
      · simp at ht
    · obtain ⟨r, hr, rfl⟩ := List.mem_map.1 ht
      exact (row_line (hM.bin r (hs2 r hr)) (hrow r (hs2 r hr))).1
  · simp only [lines]
    rw [List.getLast_append_of_right_ne_nil _ _ hne2, List.getLast_map]
    have := hs2 _ (List.getLast_mem (ends_ne (big := big) hne))
    exact (row_line (hM.bin _ this) (hrow _ this)).2.1
  · simp only [lines]
    rw [List.flatMap_append, List.flatMap_append, h1 _ hs1, h1 _ hs2, part, List.map_append]
    split <;> simp [shown]

/-- Reading the text back gives the items that are shown. -/
theorem read_repr (tail : Str) {v : Nat} (hv : 0 < v) {M : Mat} (hM : Spec.Part v M)
    (hne : M ≠ []) : readText (reprMat tail M) = (part (isBig M) M).map (part (isBig M)) := by
  generalize hb : isBig M = big
  obtain ⟨h1, ⟨hl, h2⟩, h3⟩ := lines_spec hv hM hne big
  have hd : digits ['a', 'r', 'r', 'a', 'y', '(', '['] = [] := by decide
  rw [reprMat, hb, width_data hM, readText, List.append_assoc, scan_append [] _ _ (by decide),
    hd, List.nil_append, scan_rows tail _ h1 hl h2, h3]

theorem part_big {α : Type} {a : List α} (h : 6 < a.length) : part true a = corner a := by
  rw [part, ends, if_pos ⟨rfl, h⟩]
  rfl

theorem ends_big {α : Type} {a : List α} (h : 6 < a.length) :
    ends true a = ((corner a).take 3, (corner a).drop 3) := by
  have h1 : (a.take 3).length = 3 := by rw [List.length_take]; omega
  rw [ends, if_pos ⟨rfl, h⟩, corner, List.take_left' h1, List.drop_left' h1]

theorem rowWords_big {w : Nat} {r : Vec} (h : 6 < r.length) :
    rowWords true w r = ((corner r).take 3).map (fmt w) ++ [['.', '.', '.']] ++
      ((corner r).drop 3).map (fmt w) := by
  rw [rowWords, ends_big h, if_pos ⟨rfl, h⟩]

theorem corner_sub {α : Type} {a : List α} {x : α} (h : x ∈ corner a) : x ∈ a :=
  (List.mem_append.1 h).elim List.mem_of_mem_take List.mem_of_mem_drop

theorem lines_big {v w : Nat} {M : Mat} (hv : 6 < v) (hM : Spec.Part v M) (hl : M.length = v) :
    lines true w M =
      (((corner M).map corner).take 3).map (fun c => rowText ((c.take 3).map (fmt w) ++
        [['.', '.', '.']] ++ (c.drop 3).map (fmt w))) ++ [['.', '.', '.']] ++
      (((corner M).map corner).drop 3).map (fun c => rowText ((c.take 3).map (fmt w) ++
        [['.', '.', '.']] ++ (c.drop 3).map (fmt w))) := by
  have hm : ∀ l : List Vec, (∀ r ∈ l, r ∈ M) →
      l.map (fun r => rowText (rowWords true w r)) = (l.map corner).map (fun c =>
        rowText ((c.take 3).map (fmt w) ++ [['.', '.', '.']] ++ (c.drop 3).map (fmt w))) := by
    intro l hl
    rw [List.map_map]
    refine List.map_congr_left ?_
    intro r hr
    have := hM.rect r (hl r hr)
    rw [Function.comp_apply, rowWords_big (by omega)]
  have h6 : 6 < M.length := by omega
  simp only [lines]
  rw [ends_big h6, if_pos ⟨trivial, h6⟩, hm _ (fun r hr => corner_sub (List.mem_of_mem_take hr)),
    hm _ (fun r hr => corner_sub (List.mem_of_mem_drop hr)), List.map_take, List.map_drop]

end Print

open Print

/-- C60: up to 31 points the text shows the matrix in full. -/
theorem C60_full (tail : Str) {v : Nat} (hv : 0 < v) (hv' : v ≤ 31) {M : Mat} (hM : Spec.Part v M)
    (hl : M.length = v) : readText (reprMat tail M) = M := by
  have hne : M ≠ [] := List.ne_nil_of_length_pos (by omega)
  have hb : isBig M = false := by
    rw [isBig_eq hM hne, hl, decide_eq_false_iff_not, not_lt]
    calc v * v ≤ 31 * 31 := Nat.mul_le_mul hv' hv'
      _ ≤ 1000 := by norm_num
  have hp : ∀ {α : Type} (a : List α), part false a = a := by
    intro α a
    rw [part, ends, if_neg (by simp)]
    rfl
  rw [read_repr tail hv hM hne, hb, hp]
  conv_rhs => rw [← List.map_id M]
  exact List.map_congr_left (fun r _ => hp r)

theorem blank_notMem (x : Int) : ' ' ∉ intStr x :=
  fun h => absurd (intStr_plain x _ h).1 (by decide)

/-- C60: the first line, cut at the blanks, is an argument list for the same parameters. -/
theorem C60_header (v k l u : Int) :
    ((header v k l u).splitOn ' ').mapM parseInt = .ok [v, k, l, u] := by
  have e : header v k l u = [' '].intercalate [intStr v, intStr k, intStr l, intStr u] := by
    simp [header, List.intercalate, List.intersperse]
  rw [e, List.splitOn_intercalate _ (by simp [blank_notMem]) (by simp)]
  simp only [List.mapM_cons, List.mapM_nil, parseInt_intStr]
  rfl

/-- C60: a run with at most 31 points ends without an exception; it prints the parameters, the
banner and then one text per answer, from which the answer can be read. -/
theorem C60_run (tail : Str) {argv : List Str} {v : Nat} {k l u : Int}
    (h : argv.mapM parseInt = .ok [(v : Int), k, l, u]) (hv : 3 ≤ v) (hv' : v ≤ 31) {out : List Mat}
    (ho : main argv = .ok out) :
    ∃ first texts, run tail argv = (first :: answersLine :: texts, none) ∧
      (first.splitOn ' ').mapM parseInt = .ok [(v : Int), k, l, u] ∧ texts.map readText = out := by
  have e : run tail argv = (header v k l u :: banner :: out.map (reprMat tail), none) := by
    rw [run, h]; simp only; rw [ho]
  have hb : banner = answersLine := by decide +kernel
  rw [hb] at e
  refine ⟨_, out.map (reprMat tail), e, C60_header _ _ _ _, ?_⟩
  obtain ⟨s, ans, h1, h2, hp, -⟩ := C38_output h hv (by omega) ho
  have hsh := C03_shape hv (by omega) (show IsOutput v k l u ans from ⟨s, h1, h2⟩)
  rw [List.map_map]
  conv_rhs => rw [← List.map_id out]
  refine List.map_congr_left (fun m hm => ?_)
  have := hsh m (hp.mem_iff.1 hm)
  exact C60_full tail (by omega) hv' this.1 this.2

/-- C60: from 32 points on, the text shows 36 entries. -/
theorem C60_corners (tail : Str) {v : Nat} (hv : 32 ≤ v) {M : Mat} (hM : Spec.Part v M)
    (hl : M.length = v) : readText (reprMat tail M) = (corner M).map corner := by
  have hne : M ≠ [] := List.ne_nil_of_length_pos (by omega)
  have hb : isBig M = true := by
    rw [isBig_eq hM hne, hl, decide_eq_true_eq]
    calc 1000 < 32 * 32 := by norm_num
      _ ≤ v * v := Nat.mul_le_mul hv hv
  rw [read_repr tail (by omega) hM hne, hb, part_big (by omega)]
  refine List.map_congr_left (fun r hr => part_big ?_)
  rw [hM.rect r (corner_sub hr)]
  omega

/-- C60: and it depends on nothing else. -/
theorem C60_hidden (tail : Str) {v : Nat} (hv : 32 ≤ v) {M N : Mat} (hM : Spec.Part v M)
    (hN : Spec.Part v N) (hlM : M.length = v) (hlN : N.length = v)
    (h : (corner M).map corner = (corner N).map corner) : reprMat tail M = reprMat tail N := by
  have hb : ∀ M : Mat, Spec.Part v M → M.length = v → isBig M = true := by
    intro M hM hl
    rw [isBig_eq hM (List.ne_nil_of_length_pos (by omega)), hl, decide_eq_true_eq]
    calc 1000 < 32 * 32 := by norm_num
      _ ≤ v * v := Nat.mul_le_mul hv hv
  rw [reprMat, reprMat, hb M hM hlM, hb N hN hlN, width_data hM, width_data hN,
    lines_big (by omega) hM hlM, lines_big (by omega) hN hlN, h]

/-- Sixteen disjoint edges on 32 points: `f` tells the other end. -/
def matching (f : Nat → Nat) : List Nat := (List.range 32).map (fun i => 2 ^ (31 - f i))

/-- The other end, with the edges 2i, 2i+1. -/
def mate1 (i : Nat) : Nat := if i % 2 = 0 then i + 1 else i - 1

/-- The same with points 10 and 12 swapped. -/
def mate2 (i : Nat) : Nat :=
  if i = 10 then 13 else if i = 13 then 10 else if i = 11 then 12 else if i = 12 then 11 else mate1 i

/-- C60: two different strongly regular matrices that are printed alike. -/
theorem C60_ambiguous (tail : Str) : ∃ M N, M ≠ N ∧ Spec.IsSRG 32 1 0 0 M ∧ Spec.IsSRG 32 1 0 0 N ∧
    reprMat tail M = reprMat tail N := by
  have h1 : Spec.IsSRG 32 1 0 0 (Database.bitMat 32 (matching mate1)) :=
    Database.check_sound (k := 1) (l := 0) (u := 0) (by decide +kernel)
  have h2 : Spec.IsSRG 32 1 0 0 (Database.bitMat 32 (matching mate2)) :=
    Database.check_sound (k := 1) (l := 0) (u := 0) (by decide +kernel)
  exact ⟨_, _, by decide +kernel, h1, h2, C60_hidden tail (le_refl 32) h1.adj.part h2.adj.part
    h1.adj.square h2.adj.square (by decide +kernel)⟩

/-- C60: without four integers nothing is printed; parameters that fail the check are printed. -/
theorem C60_errors (tail : Str) (argv : List Str) :
    (∀ e, argv.mapM parseInt = .error e → run tail argv = ([], some e)) ∧
    (∀ v k l u, argv.mapM parseInt = .ok [v, k, l, u] → (v - k - 1) * u ≠ k * (k - l - 1) →
      ∃ first, run tail argv = ([first], some .assertion) ∧
        (first.splitOn ' ').mapM parseInt = .ok [v, k, l, u]) := by
  refine ⟨fun e h => by rw [run, h], fun v k l u h hne => ⟨_, ?_, C60_header v k l u⟩⟩
  rw [run, h]
  simp only
  rw [main_eq h, Utils.assertSrg, pyAssert, if_neg (by simpa using hne)]
  rfl

end TDS
