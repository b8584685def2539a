import Verif.Model.Csv
import Lean.Elab.Tactic
/-!
# Evaluating the CSV parser on the text of a file

The kernel evaluates `String.toList` slowly on a long literal, so the literal is first rewritten, by definition, to
`String.ofList` of its characters.
-/
namespace Csu.Csv
open Csu PyFloat Tables Fhc

/-- the three columns read from the characters of a file -/
def rawTable (text : List Char) : Option (List (Option Rat) × List (Option Rat) × List (Option Rat)) :=
  match parseCsv text with
  | .error _ => none
  | .ok t => match rawColumn t "m", rawColumn t "a", rawColumn t "b" with
    | .ok m, .ok a, .ok b => some (m, a, b)
    | _, _, _ => none

/-- an entry of `Model/Tables.lean` (in thousandths) as a decimal -/
def scaled (x : Option Int) : Option Rat := x.map (fun (n : Int) => (n : Rat) / 1000)

/-- the file with contents `text` holds the table `rows` -/
def Parses (text : String) (rows : List RawRow) : Prop :=
  rawTable text.toList = some (rows.map (fun r => scaled r.m), rows.map (fun r => scaled r.a), rows.map (fun r => scaled r.b))

theorem parses_ofList {text : String} {l : List Char} {rows : List RawRow} (h : text = String.ofList l)
    (h2 : rawTable l = some (rows.map (fun r => scaled r.m), rows.map (fun r => scaled r.a), rows.map (fun r => scaled r.b))) :
    Parses text rows := by
  subst h; unfold Parses; rw [String.toList_ofList]; exact h2

open Lean Elab Term Meta in
/-- the characters of a string constant -/
elab "chars_of% " n:ident : term => do
  let c ← realizeGlobalConstNoOverload n
  let some v := (← getConstInfo c).value? | throwError "no value"
  match v with
  | .lit (.strVal s) => return toExpr s.toList
  | _ => throwError "not a literal"

open Lean Elab Tactic Meta in
/-- close `a = b` by reflexivity, leaving the check to the kernel -/
elab "krfl" : tactic => do
  let g ← getMainGoal
  let some (ty, a, _) := (← instantiateMVars (← g.getType)).eq? | throwError "not an equation"
  let .sort u ← whnf (← inferType ty) | throwError "no sort"
  g.assign (mkApp2 (mkConst ``Eq.refl [u]) ty a)

/-- check that a file parses to a table -/
macro "csv_check " n:ident : tactic =>
  `(tactic| (set_option maxRecDepth 100000 in exact parses_ofList (l := chars_of% $n) rfl (by decide +kernel)))

end Csu.Csv
