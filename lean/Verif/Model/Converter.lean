import Verif.Model.VCardTool
/-
  Model of the remaining part of src/converter/vcardconverter.cpp and of src/vcarddrag.cpp.
-/
namespace KC

/-- Outcome of reading one contact. -/
inductive OneOutcome where
  | ok (c : Contact)
  | undefined
  | unfinished
deriving DecidableEq

/-- `VCardConverter::parseVCard`, vcardconverter.cpp:76-81. An `Addressee()` made because the list is empty gets the first id, none
    having been drawn by the reader. -/
def parseContact (E : ToolEnv) (ids : IdKind → Nat → QString) (fuel : Nat) (text : QByteArray) : OneOutcome :=
  match parseContacts E ids fuel text with
  | .unfinished => .unfinished
  | .undefined => .undefined
  | .ok [] => .ok (Contact.new (ids .contact 0))
  | .ok (c :: _) => .ok c

/-- `KContacts::adaptIMAttributes`, vcardconverter.cpp:123-137. -/
def adaptIMAttributes (data : QByteArray) : QByteArray :=
  [(b! "X-messaging/aim-All", b! "X-AIM"), (b! "X-messaging/icq-All", b! "X-ICQ"), (b! "X-messaging/xmpp-All", b! "X-JABBER"),
   (b! "X-messaging/msn-All", b! "X-MSN"), (b! "X-messaging/yahoo-All", b! "X-YAHOO"), (b! "X-messaging/gadu-All", b! "X-GADUGADU"),
   (b! "X-messaging/skype-All", b! "X-SKYPE"), (b! "X-messaging/groupwise-All", b! "X-GROUPWISE"), (b! "X-messaging/sms-All", b! "X-SMS"),
   (b! "X-messaging/meanwhile-All", b! "X-MEANWHILE"), (b! "X-messaging/irc-All", b! "X-IRC"),
   (b! "X-messaging/googletalk-All", b! "X-GTALK")].foldl (fun d p => replaceStr p.1 p.2 d) data

/-! ### drag and drop -/

/-- `QMimeData`: formats with their data, in the order in which they were set. -/
abbrev MimeData := List (QString × QByteArray)

/-- `QMimeData::data`. -/
def MimeData.data (md : MimeData) (format : QString) : QByteArray := ((md.find? fun p => p.1 = format).map (·.2)).getD []

/-- `QMimeData::setData`: the data of the format is replaced, or the format is appended. -/
def MimeData.setData (md : MimeData) (format : QString) (d : QByteArray) : MimeData :=
  if md.any fun p => p.1 = format then md.map fun p => if p.1 = format then (format, d) else p else md ++ [(format, d)]

/-- `Addressee::mimeType`, addressee.cpp:2530-2533. -/
def mimeType : QString := q! "text/directory"

/-- `findCompatibleMimeType`, vcarddrag.cpp:17-37; `none` for a null pointer. `inherits` says whether the mime data base knows a type by
    that name and it is derived from "text/directory" (`QMimeDatabase::mimeTypeForName`, `QMimeType::inherits`). -/
def findCompatibleMimeType (inherits : QString → Bool) : Option MimeData → QString
  | none => []
  | some md =>
    if md.any fun p => p.1 = mimeType then mimeType
    else ((md.map (·.1)).find? inherits).getD []

/-- `VCardDrag::canDecode`, vcarddrag.cpp:56-59. -/
def canDecode (inherits : QString → Bool) (md : Option MimeData) : Bool := !(findCompatibleMimeType inherits md).isEmpty

/-- `VCardDrag::populateMimeData(QMimeData *, const QByteArray &)`, vcarddrag.cpp:39-43. -/
def populateBytes (md : MimeData) (content : QByteArray) : Bool × MimeData := (true, md.setData mimeType content)

/-- `VCardDrag::populateMimeData(QMimeData *, const Addressee::List &)`, vcarddrag.cpp:45-54; the default version is 3.0
    (vcardconverter.h:82). -/
def populateContacts (E : ToolEnv) (md : MimeData) (cs : List Contact) : Bool × MimeData :=
  let vcards := createContacts E .v3_0 false cs
  if !vcards.isEmpty then populateBytes md vcards else (false, md)

/-- `VCardDrag::fromMimeData(const QMimeData *, QByteArray &)`, vcarddrag.cpp:61-69: the result, and the content if it was set. -/
def bytesFrom (inherits : QString → Bool) (md : Option MimeData) : Bool × Option QByteArray :=
  let mimeOffer := findCompatibleMimeType inherits md
  if mimeOffer.isEmpty then (false, none)
  else
    let content := (md.getD []).data mimeOffer
    (!content.isEmpty, some content)

/-- Outcome of `VCardDrag::fromMimeData`: the result and the contacts if they were set. -/
inductive DragOutcome where
  | done (result : Bool) (contacts : Option (List Contact))
  | undefined
  | unfinished
deriving DecidableEq

/-- `VCardDrag::fromMimeData(const QMimeData *, Addressee::List &)`, vcarddrag.cpp:71-79. -/
def contactsFrom (E : ToolEnv) (ids : IdKind → Nat → QString) (inherits : QString → Bool) (fuel : Nat) (md : Option MimeData) : DragOutcome :=
  let mimeOffer := findCompatibleMimeType inherits md
  if mimeOffer.isEmpty then .done false none
  else
    match parseContacts E ids fuel ((md.getD []).data mimeOffer) with
    | .unfinished => .unfinished
    | .undefined => .undefined
    | .ok cs => .done (!cs.isEmpty) (some cs)

end KC
