import Verif.Model.FileNames
/-
Which characters are safe in file names, and an instance of the Unicode tables.
-/
namespace Vpin

/-- A character that may be in a file name: a letter or digit, `_` or `.`; in particular none of the ASCII
characters that some system does not allow. -/
def SafeChar (U : Unicode) (c : Char) : Prop := U.alnum c = true ∨ c = '_' ∨ c = '.'

/-- ASCII characters that are not allowed in file names or separate their parts -/
def ForbiddenChars : List Char := ['/', '\\', ':', '*', '?', '"', '<', '>', '|', '\x00', ' ', '\n']

end Vpin
