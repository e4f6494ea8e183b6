import Verif.Props.Imports
import Verif.Props.Opt
import Verif.Props.Leaf

/-! # C81, C83: partitions without assertions; what is loaded, and what setup.py provides -/

namespace TDS

open Imports Spec

namespace Imports

variable {tree : List File}

theorem present_all {ext : String → Bool} {n : Name} (h : Present tree (outside ext) n) :
    Present tree (outside (fun _ => true)) n := by
  rcases h with h | ⟨a, t, h1, h2, -⟩
  · exact .inl h
  · exact .inr ⟨a, t, h1, h2, .inr rfl⟩

theorem fold_all {ext : String → Bool} {fuel : Nat}
    (hs : ∀ L n L', load tree ext fuel L n = .ok L' → load tree (fun _ => true) fuel L n = .ok L') (ns : List Name) :
    ∀ L L', ns.foldlM (load tree ext fuel) L = .ok L' → ns.foldlM (load tree (fun _ => true) fuel) L = .ok L' := by
  induction ns with
  | nil => intro L L' h; exact h
  | cons n ns ih =>
    intro L L' h
    rw [List.foldlM_cons] at h ⊢
    cases h1 : load tree ext fuel L n with
    | error e => rw [h1] at h; cases h
    | ok L1 =>
      rw [h1] at h
      rw [hs L n L1 h1]
      exact ih L1 L' h

/-- Further packages do not change what is loaded. -/
theorem load_all {ext : String → Bool} (fuel : Nat) :
    ∀ L n L', load tree ext fuel L n = .ok L' → load tree (fun _ => true) fuel L n = .ok L' := by
  induction fuel with
  | zero => intro L n L' h; cases h
  | succ fuel ih =>
    intro L n L' h
    rw [load_succ] at h ⊢
    by_cases h1 : n ∈ L
    · rw [if_pos h1] at h ⊢
      exact h
    · rw [if_neg h1] at h ⊢
      by_cases h2 : Present tree (outside ext) n
      · rw [if_pos h2] at h
        rw [if_pos (present_all h2)]
        exact fold_all ih _ _ _ h
      · rw [if_neg h2] at h
        cases h

end Imports

/-- **C83.**  The modules that `python -m srg` loads, the last one first. -/
theorem C83_loaded {ext : String → Bool} {L : List Imports.Name}
    (h : importModule checkout ext ["srg", "__main__"] = .ok L) :
    L = [["sys"], ["srg", "sorter"], ["srg", "fork"], ["srg", "bounds"], ["srg", "unique"], ["heapq"],
      ["srg", "gauss_elim"], ["collections"], ["typing"], ["itertools"], ["srg", "solver"], ["srg", "utils"],
      ["click"], ["srg", "pprint"], ["functools"], ["numpy"], ["srg", "srg"], ["srg", "__main__"], ["srg"]] := by
  have h1 := fold_all (load_all _) _ _ _ h
  have h2 : importModule checkout (fun _ => true) ["srg", "__main__"] =
      .ok [["sys"], ["srg", "sorter"], ["srg", "fork"], ["srg", "bounds"], ["srg", "unique"], ["heapq"],
        ["srg", "gauss_elim"], ["collections"], ["typing"], ["itertools"], ["srg", "solver"], ["srg", "utils"],
        ["click"], ["srg", "pprint"], ["functools"], ["numpy"], ["srg", "srg"], ["srg", "__main__"], ["srg"]] := by
    decide +kernel
  exact Except.ok.inj (h1.symm.trans h2)

/-- **C83.**  With what `setup.py` asks for the drawings and `test_sort` work, the command and the other tests do not;
with click they do as well. -/
theorem C83_requires :
    (∀ s ∈ problems, ∃ L, importDraw checkout requires.contains s = .ok L) ∧
    (∃ L, importModule checkout requires.contains ["test_sort"] = .ok L) ∧
    (∀ n ∈ [["srg", "__main__"], ["test_solver"], ["test_database"], ["exp"]],
      importModule checkout requires.contains n = .error .importErr ∧
      ∃ L, importModule checkout ("click" :: requires).contains n = .ok L) := by
  refine ⟨fun s hs => ((C83_database _).2.2.2 s hs).2 (by decide), (C83_tests _).1.2 (by decide), ?_⟩
  have hne : ∀ n, (¬ ∃ L, importModule checkout requires.contains n = .ok L) →
      importModule checkout requires.contains n = .error .importErr :=
    fun n => (C83_import checkout_nodup _ n).2
  intro n hn
  simp only [List.mem_cons, List.not_mem_nil, or_false] at hn
  rcases hn with rfl | rfl | rfl | rfl
  · exact ⟨hne _ (fun h => absurd ((C83_main _).1.1 h) (by decide)), (C83_main _).1.2 (by decide)⟩
  · exact ⟨hne _ (fun h => absurd ((C83_tests _).2.1.1 h) (by decide)), (C83_tests _).2.1.2 (by decide)⟩
  · exact ⟨hne _ (fun h => absurd ((C83_tests _).2.2.1.1 h) (by decide)), (C83_tests _).2.2.1.2 (by decide)⟩
  · exact ⟨hne _ (fun h => absurd ((C83_tests _).2.2.2.1 h) (by decide)), (C83_tests _).2.2.2.2 (by decide)⟩

/-- **C83.**  `cythonize.sh` compiles every file of the package except `__main__`, `pprint` and `sorter`. -/
theorem C83_compiled (tag m : String) :
    ("srg", m, "pyx") ∈ cythonize tag files ↔ ("srg", m, "py") ∈ files ∧ m ∉ ["__main__", "pprint", "sorter"] := by
  have h1 : ∀ p ∈ files, p.2.2 ≠ "pyx" := by decide +kernel
  have h2 : ∀ m ∈ copied, ("srg", m, "py") ∈ files ∧ m ∉ ["__main__", "pprint", "sorter"] := by decide +kernel
  have h3 : ∀ p ∈ files, p.1 = "srg" → p.2.1 ∉ ["__main__", "pprint", "sorter"] → p.2.1 ∈ copied := by decide +kernel
  constructor
  · intro h
    rcases List.mem_append.1 h with h | h
    · exact absurd rfl (h1 _ h)
    · obtain ⟨x, hx, h⟩ := List.mem_flatMap.1 h
      have hm : m = x := by simpa using h
      rw [hm]
      exact h2 x (List.mem_filter.1 hx).1
  · rintro ⟨h, h'⟩
    refine List.mem_append_right _ (List.mem_flatMap.2 ⟨m, List.mem_filter.2 ⟨h3 _ h rfl h', ?_⟩, by simp⟩)
    simpa using h

/-- Non-vacuity: the command is loaded if numpy and click are there. -/
example : ∃ L, importModule checkout (fun s => s == "numpy" || s == "click") ["srg", "__main__"] = .ok L :=
  (C83_main _).1.2 (by decide)

/-- **C81.**  Where an assertion of `partition.enum` fails, the function without assertions fails to unpack no bounds,
yields the negative sum itself for one bound that allows it, and nothing for more bounds. -/
theorem C81_partition :
    (∀ s bounds, Partition.enum s bounds = .error .assertion ↔ s < 0 ∨ bounds = []) ∧
    (∀ s, Partition.enumN s [] = .error .valueErr) ∧
    (∀ s b, s < 0 → Partition.enumN s [b] = .ok (if s ≤ b then [[s]] else [])) ∧
    (∀ s b b' bs, s < 0 → Partition.enumN s (b :: b' :: bs) = .ok []) := by
  refine ⟨?_, fun s => by rw [Partition.enumN], fun s b _ => by rw [Partition.enumN], ?_⟩
  · intro s bounds
    constructor
    · intro h
      by_contra hc
      push Not at hc
      obtain ⟨L, hL, -⟩ := C19_enum s bounds hc.1 hc.2
      rw [hL] at h
      cases h
    · rintro (h | rfl)
      · exact C19_asserts.2 s bounds h
      · exact C19_asserts.1 s
  · intro s b b' bs hs
    have : Fork.pyRange 0 (min b s + 1) = [] := by
      rw [Fork.pyRange, Int.toNat_of_nonpos (by omega)]
      rfl
    rw [Partition.enumN, this]
    rfl

end TDS
