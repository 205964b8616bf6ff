import Verif.Qt.Basic
/-
  Backslash escaping of vCard values: src/vcardparser/vcardparser.cpp
-/
namespace KC

/-- `addEscapes`, vcardparser.cpp:40-48: four sequential replacements on the whole array. -/
def addEscapes (str : QByteArray) (excludeEscapedComma : Bool) : QByteArray :=
  let s1 := replaceChar (c! '\\') (b! "\\\\") str
  let s2 := if excludeEscapedComma then s1 else replaceChar (c! ',') (b! "\\,") s1
  let s3 := replaceChar (c! '\r') (b! "\\r") s2
  replaceChar (c! '\n') (b! "\\n") s3

/-- `removeEscapes`, vcardparser.cpp:50-61: fast path when there is no backslash, then five sequential replacements. -/
def removeEscapes (str : QByteArray) : QByteArray :=
  if (c! '\\') ∉ str then str
  else
    let s1 := replace2 (c! '\\') (c! 'n') (b! "\n") str
    let s2 := replace2 (c! '\\') (c! 'N') (b! "\n") s1
    let s3 := replace2 (c! '\\') (c! 'r') (b! "\r") s2
    let s4 := replace2 (c! '\\') (c! ',') (b! ",") s3
    replace2 (c! '\\') (c! '\\') (b! "\\") s4

end KC
