import Verif.Model.Publish

/-!
# Specification: how a reader of a link takes it apart, and what a spreadsheet should show
-/

namespace Verif.Publish.Spec

/-- The value of a hexadecimal digit. -/
def hexValue (c : Char) : ℕ := if c.toNat < 58 then c.toNat - 48 else c.toNat - 55

/-- A decoded query value, as bytes: `+` is a space, `%XX` is a byte, the rest stands for itself. -/
def decode : List Char → List (Fin 256)
  | [] => []
  | '%' :: h :: l :: r => Fin.ofNat 256 (16 * hexValue h + hexValue l) :: decode r
  | '+' :: r => 32 :: decode r
  | c :: r => Fin.ofNat 256 c.toNat :: decode r

/-- The bytes of a text in ASCII. -/
def ascii (l : List Char) : List (Fin 256) := l.map fun c => Fin.ofNat 256 c.toNat

/-- The query of an address. -/
def query (url : List Char) : List Char := (url.dropWhile (· ≠ '?')).tail

/-- The parameters of an address: separated by `&`, the name up to the first `=`, the value decoded. -/
def params (url : List Char) : List (List Char × List (Fin 256)) :=
  ((query url).splitOn '&').map fun p => (p.takeWhile (· ≠ '='), decode (p.dropWhile (· ≠ '=')).tail)

/-- Characters of identifiers of spreadsheets: letters, digits, `-` and `_`. -/
def IdChar (c : Char) : Prop := c.isAlphanum = true ∨ c = '-' ∨ c = '_'

/-- The values a table should show: names of columns, then its rows with blanks for what is not a finite number. -/
def shown (S : Service) (t : Table) : List (List Val) :=
  (t.columns.map fun c => S.enter (.text c)) ::
    t.rows.map fun r => r.map fun v => S.enter (if v = .nan ∨ v = .inf ∨ v = .negInf then .none else v)

/-- The service gives new sheets identifiers that are not in use. -/
def Fresh (S : Service) : Prop := ∀ l : List Sheet, S.newId l ∉ l.map Sheet.id

end Verif.Publish.Spec
