import Verif.Model.Fhc
import Mathlib.Data.Nat.Digits.Defs
import Mathlib.Data.Rat.Defs
import Mathlib.Algebra.Order.Field.Rat
/-!
# Specification of the parameter files

What a comma-separated file with the columns `m`, `a`, `b` looks like, and which numbers it holds.  Independent of the parser
of `Model/Csv.lean`.
-/
namespace Csu.CsvSpec
open Csu Tables

/-- a decimal digit as a character -/
def digitChar (d : Fin 10) : Char := ['0', '1', '2', '3', '4', '5', '6', '7', '8', '9'][d]

/-- the number that a list of digits denotes (most significant first) -/
def natOf (ds : List (Fin 10)) : Nat := Nat.ofDigits 10 (ds.reverse.map (fun d => d.val))

/-- A sign as written: none, plus or minus. -/
inductive Sign | none | plus | minus

def Sign.text : Sign → List Char
  | .none => []
  | .plus => ['+']
  | .minus => ['-']

def Sign.val : Sign → Int
  | .none => 1
  | .plus => 1
  | .minus => -1

/-- The exponent of a number: `e` or `E`, a sign, digits. -/
structure Exponent where
  capital : Bool
  sign : Sign
  digits : List (Fin 10)

def Exponent.text (e : Exponent) : List Char :=
  (if e.capital then 'E' else 'e') :: (e.sign.text ++ e.digits.map digitChar)

def Exponent.val (e : Exponent) : Int := e.sign.val * natOf e.digits

/-- a point and digits, or nothing -/
def fracText : Option (List (Fin 10)) → List Char
  | none => []
  | some f => '.' :: f.map digitChar

/-- an exponent, or nothing -/
def expText : Option Exponent → List Char
  | none => []
  | some e => e.text

def expVal : Option Exponent → Int
  | none => 0
  | some e => e.val

/-- A number in decimal notation: `  -012.50e-3  `. -/
structure Decimal where
  before : Nat
  sign : Sign
  whole : List (Fin 10)
  frac : Option (List (Fin 10))
  exp : Option Exponent
  after : Nat

/-- there is a digit, and the exponent has one -/
def Decimal.Valid (D : Decimal) : Prop :=
  (D.whole ≠ [] ∨ D.frac.getD [] ≠ []) ∧ ∀ e, D.exp = some e → e.digits ≠ []

/-- how it is written -/
def Decimal.text (D : Decimal) : List Char :=
  List.replicate D.before ' ' ++ (D.sign.text ++ (D.whole.map digitChar ++
    (fracText D.frac ++ expText D.exp))) ++ List.replicate D.after ' '

/-- the number it denotes -/
def Decimal.value (D : Decimal) : ℚ :=
  D.sign.val * (natOf (D.whole ++ D.frac.getD []) : ℚ) *
    (10 : ℚ) ^ (expVal D.exp - ((D.frac.getD []).length : Int))

/-- the text `s` is a decimal notation of the number `q` -/
def Denotes (s : String) (q : ℚ) : Prop := ∃ D : Decimal, D.Valid ∧ s.toList = D.text ∧ q = D.value

/-- A rectangular file of cells, the first line being the column names. -/
structure Sheet where
  header : List String
  rows : List (List String)

/-- a cell without separators and quotation marks -/
def Plain (s : String) : Prop := ',' ∉ s.toList ∧ '\n' ∉ s.toList ∧ '\r' ∉ s.toList ∧ '"' ∉ s.toList

/-- at least two columns, every row as long as the header, plain cells -/
structure Sheet.Valid (F : Sheet) : Prop where
  wide : 2 ≤ F.header.length
  rect : ∀ r ∈ F.rows, r.length = F.header.length
  plainHeader : ∀ c ∈ F.header, Plain c
  plain : ∀ r ∈ F.rows, ∀ c ∈ r, Plain c

/-- the cells of a line, separated by commas -/
def lineText : List String → List Char
  | [] => []
  | [c] => c.toList
  | c :: d :: cs => c.toList ++ ',' :: lineText (d :: cs)

/-- The file with line ends `eol`. -/
def Sheet.text (F : Sheet) (eol : List Char) : String :=
  String.ofList (((F.header :: F.rows).map (fun r => lineText r ++ eol)).flatten)

/-- line ends of Unix and Windows -/
def LineEnd (eol : List Char) : Prop := eol = ['\n'] ∨ eol = ['\r', '\n']

/-- column `i` (not the first, which names the species) is the one called `label` -/
def Sheet.Column (F : Sheet) (label : String) (i : Nat) : Prop :=
  0 < i ∧ F.header[i]? = some label ∧ ∀ j, j < i → F.header[j]? ≠ some label

/-- three numbers: centre, width, slope -/
structure Numbers where
  m : ℚ
  a : ℚ
  b : ℚ

/-- The text is a sheet whose columns `m`, `a`, `b` hold, in decimal notation and line by line, the numbers `ns`.  The
species names, further columns and the order of the columns are arbitrary. -/
def Holds (text : String) (ns : List Numbers) : Prop :=
  ∃ (F : Sheet) (eol : List Char) (im ia ib : Nat), F.Valid ∧ LineEnd eol ∧ text = F.text eol ∧
    F.Column "m" im ∧ F.Column "a" ia ∧ F.Column "b" ib ∧
    List.Forall₂ (fun r n => Denotes (r.getD im "") n.m ∧ Denotes (r.getD ia "") n.a ∧ Denotes (r.getD ib "") n.b)
      F.rows ns

end Csu.CsvSpec
