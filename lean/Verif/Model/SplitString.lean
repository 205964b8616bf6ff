import Verif.Qt.Basic
/-
  Structured values ("a;b;c"): src/vcardtool.cpp
-/
namespace KC

/-- The loop of `splitString`, vcardtool.cpp:1586-1601. The C++ keeps one mutable string and two indices; here `cur` is the
    text between `start` and `pos`, `rest` the text from `pos` on and `list` the fields appended so far.
    `indexOf(sep, ·)` skipping is the `c ≠ sep` case. A separator preceded by a backslash replaces that backslash
    (`value.replace(pos - 1, 2, sep)`). The character before `start` is the previous separator, which is never a
    backslash for the separators the code uses (`;` and `,`), so looking at the last element of `cur` is
    the C++ test `pos == 0 || value[pos - 1] != '\\'`. -/
def splitGo (sep : UInt16) : (cur rest : QString) → List QString
  | cur, [] => [cur]                                                   -- vcardtool.cpp:1603-1609
  | cur, c :: rest =>
    if c = sep then
      if cur.getLast? = some (qc! '\\') then splitGo sep (cur.dropLast ++ [sep]) rest
      else cur :: splitGo sep [] rest
    else splitGo sep (cur ++ [c]) rest

/-- `VCardTool::splitString`, vcardtool.cpp:1579-1612. -/
def splitString (sep : UInt16) (str : QString) : List QString := splitGo sep [] str

/-- The component escaping the writers use before joining, e.g. vcardtool.cpp:138-144, 225-229, 458-464:
    `.replace(QLatin1Char(';'), QStringLiteral("\;"))`. -/
def escapeSep (sep : UInt16) (s : QString) : QString := replaceChar sep [qc! '\\', sep] s

/-- Escape every component and join, vcardtool.cpp:138-146. -/
def joinEscaped (sep : UInt16) (cs : List QString) : QString := join [sep] (cs.map (escapeSep sep))

end KC
