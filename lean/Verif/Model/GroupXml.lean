import Verif.Model.Group
/-
  Contact groups as XML: src/contactgrouptool.cpp. The model is at the level of the tokens Qt's QXmlStreamWriter and
  QXmlStreamReader exchange; the text syntax of XML (escaping, encoding, well-formedness) is Qt's and is not modelled.
-/
namespace KC

/-- A token of a document. `other` is white space, a comment, the XML declaration or anything else that is neither the start nor
    the end of an element. -/
inductive Xml where
  | start (name : QString) (attrs : List (QString × QString))
  | finish (name : QString)
  | other
deriving DecidableEq

/-- A document: the tokens up to its end, or up to the point where Qt's reader reports a syntax error. -/
structure XmlDoc where
  toks : List Xml
  wellFormed : Bool

/-- `QXmlStreamAttributes::value`: empty when there is no such attribute. -/
def attr (attrs : List (QString × QString)) (name : QString) : QString :=
  match attrs with
  | [] => []
  | (n, v) :: t => if n = name then v else attr t name

/-! ### writing -/

/-- `writeContactReference`, contactgrouptool.cpp:91-103. -/
def writeRef (r : ContactRef) : List Xml :=
  [.start (q! "contactReference") ([(q! "uid", r.uid), (q! "gid", r.gid)] ++
      if !r.preferredEmail.isEmpty then [(q! "preferredEmail", r.preferredEmail)] else []),
   .finish (q! "contactReference")]

/-- `writeContactGroupReference`, contactgrouptool.cpp:105-113. -/
def writeGroupRef (r : GroupRef) : List Xml :=
  [.start (q! "contactGroupReference") [(q! "uid", r.uid)], .finish (q! "contactGroupReference")]

/-- `writeData`, contactgrouptool.cpp:115-124. -/
def writeData (d : GroupData) : List Xml :=
  [.start (q! "contactData") [(q! "name", d.name), (q! "email", d.email)], .finish (q! "contactData")]

/-- `writeGroup`, contactgrouptool.cpp:67-89. -/
def writeGroup (g : Group) : List Xml :=
  .start (q! "contactGroup") [(q! "uid", g.id), (q! "name", g.name)] ::
    (g.refs.flatMap writeRef ++ g.groupRefs.flatMap writeGroupRef ++ g.data.flatMap writeData ++ [.finish (q! "contactGroup")])

/-- `write(QList<ContactGroup>)`, contactgrouptool.cpp:50-65. -/
def writeGroupList (l : List Group) : List Xml :=
  .start (q! "contactGroupList") [] :: (l.flatMap writeGroup ++ [.finish (q! "contactGroupList")])

/-! ### reading -/

/-- `readData`, contactgrouptool.cpp:255-270. -/
def readData (a : List (QString × QString)) : Option GroupData :=
  if (attr a (q! "email")).isEmpty then none else some { name := attr a (q! "name"), email := attr a (q! "email") }

/-- `readContactReference`, contactgrouptool.cpp:272-288. -/
def readRef (a : List (QString × QString)) : Option ContactRef :=
  if (attr a (q! "uid")).isEmpty && (attr a (q! "gid")).isEmpty then none
  else some { uid := attr a (q! "uid"), gid := attr a (q! "gid"), preferredEmail := attr a (q! "preferredEmail") }

/-- `readContactGroupReference`, contactgrouptool.cpp:290-302. -/
def readGroupRef (a : List (QString × QString)) : Option GroupRef :=
  if (attr a (q! "uid")).isEmpty then none else some { uid := attr a (q! "uid") }

/-- The loop of `readGroup`, contactgrouptool.cpp:218-252: `none` is `return false`, otherwise the group and the tokens after
    its end. After `raiseError` the reader is at its end. -/
def readMembers (g : Group) : List Xml → Option (Group × List Xml)
  | [] => none
  | .other :: t => readMembers g t
  | .finish n :: t => if n = q! "contactGroup" then some (g, t) else readMembers g t
  | .start n a :: t =>
    if n = q! "contactData" then
      match readData a with
      | none => none
      | some d => readMembers { g with data := g.data ++ [d] } t
    else if n = q! "contactReference" then
      match readRef a with
      | none => none
      | some r => readMembers { g with refs := g.refs ++ [r] } t
    else if n = q! "contactGroupReference" then
      match readGroupRef a with
      | none => none
      | some r => readMembers { g with groupRefs := g.groupRefs ++ [r] } t
    else none

/-- `readGroup`, contactgrouptool.cpp:201-253. -/
def readGroup (g : Group) (a : List (QString × QString)) (t : List Xml) : Option (Group × List Xml) :=
  if (attr a (q! "uid")).isEmpty then none
  else if (attr a (q! "name")).isEmpty then none
  else readMembers { g with id := attr a (q! "uid"), name := attr a (q! "name") } t

/-- The loop of `read(device, group)`, contactgrouptool.cpp:145-161. -/
def readGroupDoc (wellFormed : Bool) (g : Group) : List Xml → Option Group
  | [] => if wellFormed then some g else none
  | .start n a :: t => if n = q! "contactGroup" then (readGroup g a t).map (·.1) else none
  | _ :: t => readGroupDoc wellFormed g t

/-- `convertFromXml(device, group)`, contactgrouptool.cpp:304-317: `none` is `return false`. -/
def groupFromXml (g : Group) (d : XmlDoc) : Option Group := readGroupDoc d.wellFormed g d.toks

theorem readMembers_length {g g' : Group} {t t' : List Xml} (h : readMembers g t = some (g', t')) : t'.length < t.length := by
  induction t generalizing g with
  | nil => simp [readMembers] at h
  | cons x t ih =>
    cases x with
    | other => simp only [readMembers] at h; have := ih h; simp; omega
    | finish n =>
      simp only [readMembers] at h
      split at h
      · cases h; simp
      · have := ih h; simp; omega
    | start n a =>
      simp only [readMembers] at h
      split at h
      · split at h
        · cases h
        · have := ih h; simp; omega
      · split at h
        · split at h
          · cases h
          · have := ih h; simp; omega
        · split at h
          · split at h
            · cases h
            · have := ih h; simp; omega
          · cases h

theorem readGroup_length {g g' : Group} {a} {t t' : List Xml} (h : readGroup g a t = some (g', t')) : t'.length < t.length := by
  unfold readGroup at h
  split at h
  · cases h
  · split at h
    · cases h
    · exact readMembers_length h

/-- The loop of `read(device, groupList)`, contactgrouptool.cpp:163-199. `fresh` is the id of each new `ContactGroup`
    (overwritten by `readGroup`). The result is the return value and the list as left by the call. -/
def readGroupListLoop (wellFormed : Bool) (fresh : QString) (depth : Int) (acc : List Group) (toks : List Xml) : Bool × List Group :=
  match toks with
  | [] => (wellFormed, acc)
  | .other :: t => readGroupListLoop wellFormed fresh depth acc t
  | .finish _ :: t => readGroupListLoop wellFormed fresh (depth - 1) acc t
  | .start n a :: t =>
    if depth + 1 = 1 then
      if n = q! "contactGroupList" then readGroupListLoop wellFormed fresh (depth + 1) acc t else (false, acc)
    else if depth + 1 = 2 then
      if n = q! "contactGroup" then
        match h : readGroup { id := fresh } a t with
        | none => (false, acc)
        | some (g, t') => readGroupListLoop wellFormed fresh depth (acc ++ [g]) t'
      else (false, acc)
    else readGroupListLoop wellFormed fresh (depth + 1) acc t
termination_by toks.length
decreasing_by
  all_goals simp only [List.length_cons]
  all_goals first | omega | (have := readGroup_length h; omega)

/-- `convertFromXml(device, groupList)`, contactgrouptool.cpp:329-342. -/
def groupsFromXml (fresh : QString) (l : List Group) (d : XmlDoc) : Bool × List Group :=
  readGroupListLoop d.wellFormed fresh 0 l d.toks

/-! ### the group given to `convertFromXml(device, group)` after the call, whether it succeeds or not -/

/-- The group as the loop of `readGroup`, contactgrouptool.cpp:218-252, leaves it: `setId`, `setName` and `append` have changed the
    caller's group also when `false` is returned. -/
def leftMembers (g : Group) : List Xml → Group
  | [] => g
  | .other :: t => leftMembers g t
  | .finish n :: t => if n = q! "contactGroup" then g else leftMembers g t
  | .start n a :: t =>
    if n = q! "contactData" then
      match readData a with
      | none => g
      | some d => leftMembers { g with data := g.data ++ [d] } t
    else if n = q! "contactReference" then
      match readRef a with
      | none => g
      | some r => leftMembers { g with refs := g.refs ++ [r] } t
    else if n = q! "contactGroupReference" then
      match readGroupRef a with
      | none => g
      | some r => leftMembers { g with groupRefs := g.groupRefs ++ [r] } t
    else g

/-- The group as `readGroup`, contactgrouptool.cpp:201-253, leaves it. -/
def leftGroup (g : Group) (a : List (QString × QString)) (t : List Xml) : Group :=
  if (attr a (q! "uid")).isEmpty then g
  else if (attr a (q! "name")).isEmpty then g
  else leftMembers { g with id := attr a (q! "uid"), name := attr a (q! "name") } t

/-- The group as the loop of `read(device, group)`, contactgrouptool.cpp:145-161, leaves it. -/
def leftDoc (g : Group) : List Xml → Group
  | [] => g
  | .start n a :: t => if n = q! "contactGroup" then leftGroup g a t else g
  | _ :: t => leftDoc g t

/-- The group after `convertFromXml(device, group)`, contactgrouptool.cpp:304-317, whatever it returns. -/
def groupAfterXml (g : Group) (d : XmlDoc) : Group := leftDoc g d.toks

end KC
