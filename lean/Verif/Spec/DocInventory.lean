import Mathlib.Data.List.Basic
import Mathlib.Data.List.DropRight

/-!
# How Sphinx reads an inventory of version 2

<https://sphobjinv.readthedocs.io/en/latest/syntax.html>, cited by the script: lines `name domain:role priority uri dispname`, where the last one may have spaces and a
dash stands for the name.  Spaces are the only white space considered besides the ends of the lines.
-/

set_option autoImplicit false

namespace Caribou.Spec

/-- An entry. -/
structure InventoryItem where
  name : List Char
  role : List Char
  priority : List Char
  uri : List Char
  shown : List Char
deriving DecidableEq

/-- The lines which are ended; the first argument is the current line, backwards. -/
def readLines : List Char → List Char → List (List Char)
  | _, [] => []
  | cur, c :: l => if c = '\n' then cur.reverse :: readLines [] l else readLines (c :: cur) l

/-- A field, and what follows the spaces after it. -/
def readField (l : List Char) : List Char × List Char :=
  (l.takeWhile fun c => decide (c ≠ ' '), (l.dropWhile fun c => decide (c ≠ ' ')).dropWhile fun c => decide (c = ' '))

/-- A line without the spaces at its end; a line without a name or with an incomplete rest is not an entry. -/
def readItem (line : List Char) : Option InventoryItem :=
  let f1 := readField (line.rdropWhile fun c => decide (c = ' '))
  let f2 := readField f1.2
  let f3 := readField f2.2
  let f4 := readField f3.2
  if f1.1 = [] ∨ f2.1 = [] ∨ f3.1 = [] ∨ f4.1 = [] ∨ f4.2 = [] then none
  else some ⟨f1.1, f2.1, f3.1, f4.1, if f4.2 = ['-'] then f1.1 else f4.2⟩

/-- All entries. -/
def readInventory (text : List Char) : List InventoryItem := (readLines [] text).filterMap readItem

end Caribou.Spec
