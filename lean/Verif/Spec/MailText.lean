import Verif.Model.Names
/-
  Specification: the parts of a text with a mail address.
-/
namespace KC.Spec

/-- The inside of a quoted string: anything but a quote; a backslash takes the next character with it. -/
inductive QuotedText : QByteArray → Prop
  | nil : QuotedText []
  | char {b t} : b ∉ [0, c! '\\', c! '"'] → QuotedText t → QuotedText (b :: t)
  | pair {b t} : b ≠ 0 → QuotedText t → QuotedText (c! '\\' :: b :: t)

/-- The inside of a comment: parentheses are balanced. -/
inductive CommentText : QByteArray → Prop
  | nil : CommentText []
  | char {b t} : b ∉ [0, c! '\\', c! '(', c! ')'] → CommentText t → CommentText (b :: t)
  | pair {b t} : b ≠ 0 → CommentText t → CommentText (c! '\\' :: b :: t)
  | nested {s t} : CommentText s → CommentText t → CommentText (c! '(' :: s ++ c! ')' :: t)

/-- The inside of angle brackets: anything but a closing bracket, except in a quoted string. -/
inductive AngleText : QByteArray → Prop
  | nil : AngleText []
  | char {b t} : b ∉ [0, c! '\\', c! '"', c! '>'] → AngleText t → AngleText (b :: t)
  | pair {b t} : b ≠ 0 → AngleText t → AngleText (c! '\\' :: b :: t)
  | quoted {s t} : QuotedText s → AngleText t → AngleText (c! '"' :: s ++ c! '"' :: t)

/-- `MailText w d c a`: the text `w` consists of words, quoted strings, comments and addresses in angle brackets; `d` are the words and quoted strings,
    `c` the insides of the comments, each followed by a space, `a` the insides of the angle brackets. -/
inductive MailText : QByteArray → QByteArray → QByteArray → QByteArray → Prop
  | nil : MailText [] [] [] []
  | char {b t d c a} : b ∉ [0, c! '\\', c! '"', c! '(', c! '<', c! ','] → MailText t d c a → MailText (b :: t) (b :: d) c a
  | pair {b t d c a} : b ≠ 0 → MailText t d c a → MailText (c! '\\' :: b :: t) (c! '\\' :: b :: d) c a
  | quoted {s t d c a} : QuotedText s → MailText t d c a → MailText (c! '"' :: s ++ c! '"' :: t) (c! '"' :: s ++ c! '"' :: d) c a
  | comment {s t d c a} : CommentText s → MailText t d c a → MailText (c! '(' :: s ++ c! ')' :: t) d (s ++ c! ' ' :: c) a
  | angle {s t d c a} : AngleText s → MailText t d c a → MailText (c! '<' :: s ++ c! '>' :: t) d c (s ++ a)

/-- The text ends inside of something: at its end or at a null character, or there directly after a backslash (which is `b`). -/
inductive Broken : QByteArray → QByteArray → Prop
  | end_ : Broken [] []
  | null {t} : Broken (0 :: t) []
  | backslash : Broken [c! '\\'] [c! '\\']
  | backslashNull {t} : Broken (c! '\\' :: 0 :: t) [c! '\\']

/-- A comment that is not closed: more opening than closing parentheses. -/
inductive OpenComment : QByteArray → Prop
  | here {s} : CommentText s → OpenComment s
  | nested {s t} : CommentText s → OpenComment t → OpenComment (s ++ c! '(' :: t)

/-- `MailRest w closed d a`: how a text can go on after the last complete part: it ends, there is a comma and what follows does not count, or a quoted
    string, a comment or an angle bracket is not closed. `d` and `a` are what belongs to the words and to the address. -/
inductive MailRest : QByteArray → Bool → QByteArray → QByteArray → Prop
  | done {t b} : Broken t b → MailRest t true b []
  | comma {t} : MailRest (c! ',' :: t) true [] []
  | quote {s t b} : QuotedText s → Broken t b → MailRest (c! '"' :: s ++ t) false (c! '"' :: s ++ b) []
  | comment {s t b} : OpenComment s → Broken t b → MailRest (c! '(' :: s ++ t) false [] []
  | angle {s t b} : AngleText s → Broken t b → MailRest (c! '<' :: s ++ t) false [] (s ++ b)
  | angleQuote {s u t b} : AngleText s → QuotedText u → Broken t b → MailRest (c! '<' :: s ++ (c! '"' :: u ++ t)) false [] (s ++ (c! '"' :: u ++ b))

/-- The text between quotes, if it is in quotes. -/
def withoutQuotes (s : QString) : QString :=
  if 3 ≤ s.length ∧ s.head? = some (qc! '"') ∧ s.getLast? = some (qc! '"') then s.tail.dropLast else s

/-- Name and address: `Name <address>`, or `address (Name)`; of a text that is not closed the words and the address as they are. -/
def mailMeaning (lower : QString → QString) (closed : Bool) (words comments address : QByteArray) : QString × QString :=
  let d := trimmedB words
  let c := trimmedB comments
  let a := trimmedB address
  if closed = false then (fromUtf8 d, fromUtf8 a)
  else if a ≠ [] then (withoutQuotes (fromUtf8 d), lower (fromUtf8 a))
  else if d ≠ [] then (withoutQuotes (fromUtf8 c), lower (fromUtf8 d))
  else ([], [])

end KC.Spec
