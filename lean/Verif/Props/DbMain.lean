import Verif.Model.DbMain
import Verif.Props.Data
import Verif.Props.Draw
import Verif.Props.Utils

/-! C66: the database command. -/

namespace Spec

/-- The words of the usage in README.md, without the program. -/
def listWord : List Char := ['l', 'i', 's', 't']

def drawWord : List Char := ['d', 'r', 'a', 'w']

end Spec

namespace TDS

open Database

/-- The repair that the program seems to want: `assert_srg` under the name it uses. -/
def repaired : UtilModule := .withFunction Utils.assertSrg

theorem parameters_some {argv : List Str} {v k l u : Int} : parameters argv = some (v, k, l, u) ↔
    ((argv.drop 1).take 4).mapM parseInt = .ok [v, k, l, u] := by
  unfold parameters
  split
  · next h =>
    rw [h]
    simp
  · next h =>
    constructor
    · intro e
      cases e
    · intro e
      exact absurd e (h v k l u)

theorem parameters_none {argv : List Str} : parameters argv = none ↔
    ∀ v k l u, ((argv.drop 1).take 4).mapM parseInt ≠ .ok [v, k, l, u] := by
  constructor
  · intro h v k l u e
    rw [parameters_some.2 e] at h
    cases h
  · intro h
    cases e : parameters argv with
    | none => rfl
    | some p =>
      obtain ⟨v, k, l, u⟩ := p
      exact absurd (parameters_some.1 e) (h v k l u)

theorem list_ne_draw : ("draw".toList = "list".toList) = False := by decide +kernel

/-- Every stored list passes the check of its parameters. -/
theorem stored_passes {v k l u : Int} {sols : List Mat}
    (h : getSolutions modules v k l u = .ok sols) : Utils.assertSrg v k l u = .ok () := by
  rw [C33_get_solutions names_nodup] at h
  obtain ⟨e, he, hm⟩ := List.mem_map.1 h
  simp only [Prod.mk.injEq] at hm
  have key : ∀ e ∈ entries, ∃ v k l u : Int, e.name.toList = moduleName v k l u ∧
      (v - k - 1) * u = k * (k - l - 1) := by
    have : ∀ e ∈ entries, e.name.toList = moduleName e.v e.k e.l e.u ∧
        ((e.v : Int) - e.k - 1) * e.u = e.k * (e.k - e.l - 1) := by decide +kernel
    intro e he
    exact ⟨_, _, _, _, (this e he).1, (this e he).2⟩
  obtain ⟨v', k', l', u', h1, h2⟩ := key e he
  have := C33_injective (hm.1.symm.trans h1)
  simp only [Prod.mk.injEq] at this
  obtain ⟨rfl, rfl, rfl, rfl⟩ := this
  exact (assertSrg_iff _ _ _ _).2 h2

/-- **C66**, as it stands: whatever the arguments, the command shows nothing and stops with an
ImportError; and if only the name of the module is repaired, it stops with an AttributeError
whenever parameters are given. -/
theorem C66_broken (argv : List Str) :
    dbRun .absent modules argv = ⟨false, .nothing, .importError⟩ ∧
    ∀ v k l u, ((argv.drop 1).take 4).mapM parseInt = .ok [v, k, l, u] →
      dbRun .withoutFunction modules argv = ⟨false, .nothing, .attributeError⟩ := by
  refine ⟨rfl, fun v k l u h => ?_⟩
  unfold dbRun
  rw [parameters_some.2 h]

/-- **C66**, without parameters: unless the second to fifth arguments are four integers, the command
word is not looked at, and the hint and the names of the stored lists are shown. -/
theorem C66_names (argv : List Str)
    (h : ∀ v k l u, ((argv.drop 1).take 4).mapM parseInt ≠ .ok [v, k, l, u]) :
    ∃ ns, dbRun repaired modules argv = ⟨true, .names ns, .finished⟩ ∧
      ∀ v k l u, (∃ sols, getSolutions modules v k l u = .ok sols) ↔ moduleName v k l u ∈ ns := by
  refine ⟨listProblems modules, ?_, C41_loadable⟩
  unfold dbRun repaired
  simp only
  rw [parameters_none.2 h]

/-- **C66**, `list`: the matrices of the stored list are shown, all of them strongly regular and no
two equal. -/
theorem C66_list {argv : List Str} {v k l u : Int} {rest : List Str}
    (ha : argv = Spec.listWord :: rest) (h : (rest.take 4).mapM parseInt = .ok [v, k, l, u])
    {sols : List Mat} (hs : getSolutions modules v k l u = .ok sols) :
    dbRun repaired modules argv = ⟨false, .matrices sols, .finished⟩ ∧ sols.Nodup ∧
      ∀ m ∈ sols, Spec.IsSRG v.toNat k l u m := by
  subst ha
  refine ⟨?_, C42_distinct hs, (C41_stored_srg hs).2⟩
  have hp : parameters (Spec.listWord :: rest) = some (v, k, l, u) := parameters_some.2 h
  have hc : command (Spec.listWord :: rest) = "list".toList := by
    show Spec.listWord = _
    decide +kernel
  unfold dbRun repaired
  simp only
  rw [hp]
  simp only
  rw [stored_passes hs]
  simp only
  rw [hc]
  unfold perform
  rw [if_pos rfl, hs]

/-- **C66**, `draw`: a picture of each matrix of the stored list is saved. -/
theorem C66_draw {argv : List Str} {v k l u : Int} {rest : List Str}
    (ha : argv = Spec.drawWord :: rest) (h : (rest.take 4).mapM parseInt = .ok [v, k, l, u])
    {sols : List Mat} (hs : getSolutions modules v k l u = .ok sols) :
    ∃ figs, dbRun repaired modules argv = ⟨false, .figures figs, .finished⟩ ∧
      Draw.draw modules v k l u = .ok figs ∧ figs.length = sols.length := by
  subst ha
  have hd : Draw.draw modules v k l u = .ok (sols.mapIdx (fun i m =>
      ⟨Draw.pngName v k l u i, List.range v.toNat, Draw.graph v m⟩)) := by
    unfold Draw.draw
    rw [hs]
    rfl
  refine ⟨_, ?_, hd, by simp⟩
  have hp : parameters (Spec.drawWord :: rest) = some (v, k, l, u) := parameters_some.2 h
  have hc : command (Spec.drawWord :: rest) = "draw".toList := by
    show Spec.drawWord = _
    decide +kernel
  unfold dbRun repaired
  simp only
  rw [hp]
  simp only
  rw [stored_passes hs]
  simp only
  rw [hc]
  unfold perform
  rw [if_neg (by rw [list_ne_draw]; exact id), if_pos rfl, hd]

/-- **C66**, the failures: nothing is shown if the parameters do not satisfy the counting condition
(whatever the command word), if there is no list for them, or if the command word is neither `list`
nor `draw` (whether or not there is a list). -/
theorem C66_nothing {cmd : Str} {rest : List Str} {v k l u : Int}
    (h : (rest.take 4).mapM parseInt = .ok [v, k, l, u]) :
    ((v - k - 1) * u ≠ k * (k - l - 1) →
      dbRun repaired modules (cmd :: rest) = ⟨false, .nothing, .raised .assertion⟩) ∧
    ((v - k - 1) * u = k * (k - l - 1) → moduleName v k l u ∉ listProblems modules →
      cmd = Spec.listWord ∨ cmd = Spec.drawWord →
      dbRun repaired modules (cmd :: rest) = ⟨false, .nothing, .raised .importErr⟩) ∧
    ((v - k - 1) * u = k * (k - l - 1) → cmd ≠ Spec.listWord → cmd ≠ Spec.drawWord →
      ∃ msg, dbRun repaired modules (cmd :: rest) = ⟨false, .nothing, .systemExit msg⟩ ∧
        cmd <:+: msg) := by
  have hp : parameters (cmd :: rest) = some (v, k, l, u) := parameters_some.2 h
  have hl : Spec.listWord = "list".toList := by decide +kernel
  have hdw : Spec.drawWord = "draw".toList := by decide +kernel
  have hrun : (v - k - 1) * u = k * (k - l - 1) → dbRun repaired modules (cmd :: rest) =
      ⟨false, (perform modules cmd v k l u).1, (perform modules cmd v k l u).2⟩ := by
    intro he
    unfold dbRun repaired
    simp only
    rw [hp]
    simp only
    rw [(assertSrg_iff v k l u).2 he]
    rfl
  refine ⟨fun hne => ?_, fun he hno hc => ?_, fun he h1 h2 => ?_⟩
  · have : Utils.assertSrg v k l u = .error .assertion := by
      unfold Utils.assertSrg pyAssert
      rw [if_neg (by simpa using hne)]
    unfold dbRun repaired
    simp only
    rw [hp]
    simp only
    rw [this]
  · have hg : getSolutions modules v k l u = .error .importErr := by
      have := mt (C41_loadable v k l u).1 hno
      unfold getSolutions at this ⊢
      split
      · next h => rw [h] at this; exact absurd ⟨_, rfl⟩ this
      · rfl
    rw [hrun he]
    unfold perform
    rcases hc with rfl | rfl
    · rw [if_pos hl, hg]
    · rw [if_neg (by rw [hdw, list_ne_draw]; exact id), if_pos hdw, C53_missing hg]
  · rw [hrun he]
    unfold perform
    rw [if_neg (by rw [← hl]; exact h1), if_neg (by rw [← hdw]; exact h2)]
    exact ⟨_, rfl, _, _, rfl⟩

/-- **C66**, further arguments are ignored. -/
theorem C66_extra (util : UtilModule) (ms : Modules) (a b c d e : Str) (rest : List Str) :
    dbRun util ms (a :: b :: c :: d :: e :: rest) = dbRun util ms [a, b, c, d, e] := rfl

/-- Non-vacuity: the three usages of README.md that concern stored lists. -/
example : parameters (["list", "13", "6", "2", "3"].map String.toList) = some (13, 6, 2, 3) ∧
    parameters (["list"].map String.toList) = none ∧ parameters [] = none := by
  decide +kernel

example : dbRun repaired modules (["list", "5", "2", "0", "1"].map String.toList) =
    ⟨false, .matrices [[[0, 1, 1, 0, 0], [1, 0, 0, 1, 0], [1, 0, 0, 0, 1], [0, 1, 0, 0, 1],
      [0, 0, 1, 1, 0]]], .finished⟩ := by decide +kernel

example : dbRun repaired modules (["show", "5", "2", "0", "1"].map String.toList) =
    ⟨false, .nothing, .systemExit
      "command show is not recognized. support list or draw".toList⟩ := by decide +kernel

end TDS
