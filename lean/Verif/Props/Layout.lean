import Verif.Props.Print

/-! # C60: the exact text of a matrix with at most 31 points -/

namespace Spec

/-- The text of a 0/1 entry. -/
def bit (x : Int) : Char := if x = 1 then '1' else '0'

/-- Entries separated by a comma and a blank. -/
def entries (r : List Int) : List Char := [',', ' '].intercalate (r.map (fun x => [bit x]))

/-- A row: up to 22 entries fit on a line, the others follow on a second line. -/
def rowLines (r : List Int) : List Char :=
  if r.length ≤ 22 then '[' :: entries r ++ [']']
  else '[' :: entries (r.take 22) ++ [',', '\n'] ++ List.replicate 8 ' ' ++
    entries (r.drop 22) ++ [']']

/-- The text of a matrix. -/
def matrixText (tail : List Char) (M : List (List Int)) : List Char :=
  ['a', 'r', 'r', 'a', 'y', '(', '['] ++
    ([',', '\n'] ++ List.replicate 7 ' ').intercalate (M.map rowLines) ++ ']' :: tail

end Spec

namespace TDS

open Spec

namespace Print

theorem fmt_bit {x : Int} (h : x = 0 ∨ x = 1) : fmt 1 x = [bit x] := by
  rcases h with rfl | rfl <;> decide

/-- While everything fits, words are appended with their separators. -/
theorem fold_fits (ws : List Char) : ∀ (s L : Str), L.length + 3 * ws.length ≤ 74 →
    (ws.map (fun c => [c])).foldl (extendSep (blanks 8) 72) (s, L) =
      (s, L ++ ws.flatMap (fun c => [c, ',', ' '])) := by
  induction ws with
  | nil => intro s L _; simp
  | cons c ws ih =>
    intro s L h
    rw [List.length_cons] at h
    have e : extendSep (blanks 8) 72 (s, L) [c] = (s, L ++ [c, ',', ' ']) := by
      simp only [extendSep, extendLine]
      rw [if_neg (by simp; omega)]
      simp
    rw [List.map_cons, List.foldl_cons, e, ih _ _ (by simp; omega)]
    simp

theorem flat_last (ws : List Char) (c : Char) :
    ws.flatMap (fun c => [c, ',', ' ']) ++ [c] =
      [',', ' '].intercalate ((ws ++ [c]).map (fun c => [c])) := by
  induction ws with
  | nil => simp [List.intercalate]
  | cons d ws ih =>
    cases ws with
    | nil => simp [List.intercalate]
    | cons e ws =>
      rw [List.flatMap_cons, List.append_assoc, ih]
      simp [List.intercalate]

theorem rstrip_sep (s : Str) : rstrip (s ++ [',', ' ']) = s ++ [','] := by
  simp [rstrip]

theorem flat_sep (ws : List Char) (h : ws ≠ []) :
    ws.flatMap (fun c => [c, ',', ' ']) = [',', ' '].intercalate (ws.map (fun c => [c])) ++
      [',', ' '] := by
  obtain ⟨ws, c, rfl⟩ := (List.eq_nil_or_concat' ws).resolve_left h
  rw [← flat_last]
  simp

theorem getLastD_map (cs : List Char) (c : Char) :
    ((cs ++ [c]).map (fun c => [c])).getLastD [] = [c] := by
  simp

theorem dropLast_map (cs : List Char) (c : Char) :
    ((cs ++ [c]).map (fun c => [c])).dropLast = cs.map (fun c => [c]) := by
  simp

theorem drop_blanks (s : Str) : (blanks 8 ++ s).drop 8 = s := rfl

theorem rowText_short (cs : List Char) (h0 : cs ≠ []) (h : cs.length ≤ 22) :
    rowText (cs.map (fun c => [c])) =
      '[' :: [',', ' '].intercalate (cs.map (fun c => [c])) ++ [']'] := by
  obtain ⟨ds, c, rfl⟩ := (List.eq_nil_or_concat' cs).resolve_left h0
  rw [List.length_append, List.length_singleton] at h
  have h8 : (blanks 8).length = 8 := rfl
  have hf : (ds.flatMap (fun c => [c, ',', ' '])).length = 3 * ds.length := by
    rw [List.length_flatMap]; simp [mul_comm]
  unfold rowText
  rw [dropLast_map, getLastD_map, fold_fits _ _ _ (by rw [h8]; omega)]
  have e : extendLine (blanks 8) 72 ([], blanks 8 ++ ds.flatMap (fun c => [c, ',', ' '])) [c] =
      ([], blanks 8 ++ (ds.flatMap (fun c => [c, ',', ' ']) ++ [c])) := by
    simp only [extendLine]
    rw [if_neg (by rw [List.length_append, h8, hf]; simp; omega), List.append_assoc]
  simp only [e]
  rw [List.nil_append, drop_blanks, flat_last]

theorem rowText_long (ws es : List Char) (hw : ws.length = 22) (h0 : es ≠ [])
    (h : es.length ≤ 22) :
    rowText ((ws ++ es).map (fun c => [c])) =
      '[' :: [',', ' '].intercalate (ws.map (fun c => [c])) ++ ([',', '\n'] ++ blanks 8) ++
        [',', ' '].intercalate (es.map (fun c => [c])) ++ [']'] := by
  have hwne : ws ≠ [] := by rintro rfl; simp at hw
  have h8 : (blanks 8).length = 8 := rfl
  have hf : ∀ ds : List Char, (ds.flatMap (fun c => [c, ',', ' '])).length = 3 * ds.length := by
    intro ds; rw [List.length_flatMap]; simp [mul_comm]
  have wrap : ∀ e : Char, extendLine (blanks 8) 72
      ([], blanks 8 ++ ws.flatMap (fun c => [c, ',', ' '])) [e] =
      (blanks 8 ++ ([',', ' '].intercalate (ws.map (fun c => [c])) ++ [',', '\n']),
        blanks 8 ++ [e]) := by
    intro e
    simp only [extendLine]
    rw [if_pos (by rw [List.length_append, h8, hf, hw]; simp), flat_sep ws hwne,
      ← List.append_assoc, rstrip_sep]
    simp
  obtain ⟨fs, g, rfl⟩ := (List.eq_nil_or_concat' es).resolve_left h0
  rw [List.length_append, List.length_singleton] at h
  unfold rowText
  rw [← List.append_assoc, dropLast_map, getLastD_map, List.map_append, List.foldl_append,
    fold_fits ws _ _ (by rw [h8]; omega)]
  cases fs with
  | nil =>
    simp only [List.map_nil, List.foldl_nil, wrap]
    rw [List.append_assoc, drop_blanks]
    simp [List.intercalate]
  | cons e fs =>
    rw [List.length_cons] at h
    rw [List.map_cons, List.foldl_cons]
    have e1 : extendSep (blanks 8) 72 ([], blanks 8 ++ ws.flatMap (fun c => [c, ',', ' '])) [e] =
      (blanks 8 ++ ([',', ' '].intercalate (ws.map (fun c => [c])) ++ [',', '\n']),
        blanks 8 ++ [e] ++ [',', ' ']) := by
      rw [extendSep, wrap]
    rw [e1, fold_fits fs _ _ (by simp [h8]; omega)]
    have e2 : ∀ S : Str, extendLine (blanks 8) 72
        (S, blanks 8 ++ [e] ++ [',', ' '] ++ fs.flatMap (fun c => [c, ',', ' '])) [g] =
        (S, blanks 8 ++ ((e :: fs).flatMap (fun c => [c, ',', ' ']) ++ [g])) := by
      intro S
      simp only [extendLine]
      rw [if_neg (by simp only [List.length_append, h8, hf, List.length_cons, List.length_nil]; omega)]
      simp
    simp only [e2]
    rw [flat_last, List.append_assoc, drop_blanks]
    simp

theorem rowWords_small (r : Vec) (h : Spec.Bin r) :
    rowWords false 1 r = (r.map bit).map (fun c => [c]) := by
  simp only [rowWords, ends]
  simp only [Bool.false_eq_true, false_and, if_false, List.map_nil, List.nil_append, List.map_map]
  exact List.map_congr_left (fun x hx => fmt_bit (h x hx))

theorem row_exact {r : Vec} (hb : Spec.Bin r) (h0 : r ≠ []) (h : r.length ≤ 44) :
    rowText (rowWords false 1 r) = rowLines r := by
  rw [rowWords_small r hb, rowLines]
  split
  · next hl =>
    rw [rowText_short _ (by simpa using h0) (by simpa using hl), entries, List.map_map]
    rfl
  · next hl =>
    have e : r.map bit = (r.take 22).map bit ++ (r.drop 22).map bit := by
      rw [← List.map_append, List.take_append_drop]
    rw [e, rowText_long _ _ (by simp; omega) (by simp; omega) (by simp; omega), entries, entries,
      List.map_map, List.map_map]
    simp [blanks, Function.comp_def]

theorem joinRows_eq (Ts : List Str) :
    joinRows Ts = ([',', '\n'] ++ List.replicate 7 ' ').intercalate Ts := by
  induction Ts with
  | nil => rfl
  | cons T Ts ih =>
    cases Ts with
    | nil => simp [joinRows, List.intercalate]
    | cons T' Ts =>
      rw [joinRows, ih]
      · simp [List.intercalate, blanks]
      · simp

end Print

open Print

/-- **C60.**  Up to 31 points the text is exactly this: one row after the other in brackets, rows of
more than 22 entries on two lines. -/
theorem C60_layout (tail : Str) {v : Nat} (hv : 0 < v) (hv' : v ≤ 31) {M : Mat} (hM : Spec.Part v M)
    (hl : M.length = v) : reprMat tail M = matrixText tail M := by
  have hne : M ≠ [] := List.ne_nil_of_length_pos (by omega)
  have hb : isBig M = false := by
    rw [isBig_eq hM hne, hl, decide_eq_false_iff_not, not_lt]
    calc v * v ≤ 31 * 31 := Nat.mul_le_mul hv' hv'
      _ ≤ 1000 := by norm_num
  have hlines : lines false 1 M = M.map rowLines := by
    simp only [lines, ends]
    simp only [Bool.false_eq_true, false_and, if_false, List.map_nil, List.nil_append]
    refine List.map_congr_left (fun r hr => row_exact (hM.bin r hr) ?_ ?_)
    · intro e
      have := hM.rect r hr
      rw [e, List.length_nil] at this
      omega
    · have := hM.rect r hr
      omega
  rw [reprMat, hb, width_data hM, hlines, joinRows_eq, matrixText]

/-- A row of 25 entries. -/
example : rowLines (List.replicate 25 1) = ("[1, 1, 1, 1, 1, 1, 1, 1, 1, 1, 1, 1, 1, 1, 1, 1, 1, 1, " ++
    "1, 1, 1, 1,\n        1, 1, 1]").toList := by decide +kernel

end TDS
