import Mathlib.Data.List.Basic

/-!
# The inventory of the documentation

`doc/generate_doxygen_intersphinx.py`: the lines of `objects.inv`, before they are compressed.  Texts are lists of characters.  Reading the XML files and
the compression are not modelled.
-/

set_option autoImplicit false

namespace Caribou

/-- The attribute `language` of a compound, for the languages of the repository (Doxygen knows more). -/
inductive DoxLanguage where
  | cpp
  | python
deriving DecidableEq

/-- The text of the attribute. -/
def DoxLanguage.text : DoxLanguage → List Char
  | .cpp => ['C', '+', '+']
  | .python => ['P', 'y', 't', 'h', 'o', 'n']

/-- An element `compounddef` of an XML file of Doxygen: `doc/generate_doxygen_intersphinx.py:25-29`. -/
structure DoxCompound where
  id : List Char
  kind : String
  language : DoxLanguage
  compoundname : List Char

/-- `language.lower().replace('+', 'p')`, `doc/generate_doxygen_intersphinx.py:36`. -/
def sphinxDomain (l : DoxLanguage) : List Char := (l.text.map Char.toLower).map fun c => if c = '+' then 'p' else c

/-- The entry of a compound, `doc/generate_doxygen_intersphinx.py:29-37`. -/
def inventoryEntry (c : DoxCompound) : List Char :=
  let name := c.compoundname.filter fun x => decide (x ≠ ' ')
  let dispname := if c.compoundname = name then ['-'] else c.compoundname
  if c.kind ∈ ["class", "struct"] then
    name ++ ' ' :: (sphinxDomain c.language ++ [':', 'c', 'l', 'a', 's', 's'] ++ ' ' :: (['1'] ++ ' ' :: (c.id ++ ['.', 'h', 't', 'm', 'l'] ++ ' ' :: (dispname ++ ['\n']))))
  else []

/-- `lines` after the loop, `doc/generate_doxygen_intersphinx.py:13-38`, for the compounds of all files in the order of the files. -/
def inventoryLines : List DoxCompound → List Char
  | [] => []
  | c :: l => inventoryEntry c ++ inventoryLines l

end Caribou
