import Verif.Model.Values
/-
  Model of the type labels of src/phonenumber.cpp, src/address.cpp and src/resourcelocatorurl.cpp and of the service lists of src/impp.cpp.
-/
namespace KC

/-- `i18nc(context, text)`; `i18n(text)` is `i18nc` with an empty context. -/
abbrev Translation := QString → QString → QString

/-- `PhoneNumber::typeList`, phonenumber.cpp:152-162. -/
def phoneTypeList : List Nat := [1, 2, 4, 8, 16, 32, 64, 128, 256, 512, 1024, 2048, 4096, 8192, 16384]

/-- `PhoneNumber::typeFlagLabel`, phonenumber.cpp:164-200. -/
def phoneFlagLabel (tr : Translation) (flag : Nat) : QString :=
  if flag = 16384 then tr (q! "Undefined phone type") (q! "Telephone number")
  else if flag = 1 then tr (q! "Home phone") (q! "Home")
  else if flag = 2 then tr (q! "Work phone") (q! "Work")
  else if flag = 4 then tr [] (q! "Messenger")
  else if flag = 8 then tr (q! "Preferred phone") (q! "Preferred")
  else if flag = 16 then tr [] (q! "Voice")
  else if flag = 32 then tr [] (q! "Fax")
  else if flag = 64 then tr (q! "Mobile Phone") (q! "Mobile")
  else if flag = 128 then tr (q! "Video phone") (q! "Video")
  else if flag = 256 then tr [] (q! "Mailbox")
  else if flag = 512 then tr [] (q! "Modem")
  else if flag = 1024 then tr (q! "Car Phone") (q! "Car")
  else if flag = 2048 then tr [] (q! "ISDN")
  else if flag = 4096 then tr [] (q! "PCS")
  else if flag = 8192 then tr [] (q! "Pager")
  else tr (q! "another type of phone") (q! "Other")

/-- `type &= ~mask` on 32 bits. -/
def clearFlags (type mask : Nat) : Nat := type &&& (0xFFFFFFFF ^^^ mask)

/-- The special cases at the beginning of `PhoneNumber::typeLabel(Type)`, phonenumber.cpp:210-225: label, `first`, remaining type. -/
def phoneLabelStart (tr : Translation) (type : Nat) : QString × Bool × Nat :=
  if type &&& 32 ≠ 0 then
    if type &&& 1 ≠ 0 then (tr [] (q! "Home Fax"), false, clearFlags (clearFlags type 32) 1)
    else if type &&& 2 ≠ 0 then (tr [] (q! "Work Fax"), false, clearFlags (clearFlags type 32) 2)
    else ([], true, type)
  else ([], true, type)

/-- The loop body of `PhoneNumber::typeLabel(Type)`, phonenumber.cpp:228-243. -/
def phoneLabelStep (tr : Translation) (type : Nat) (s : QString × Bool) (flag : Nat) : QString × Bool :=
  if type &&& flag ≠ 0 then ((if s.2 then s.1 else s.1 ++ [qc! '/']) ++ phoneFlagLabel tr flag, false) else s

/-- `PhoneNumber::typeLabel(Type)`, phonenumber.cpp:202-246; `PhoneNumber::typeLabel()`, 147-150, calls it with the type of the number. -/
def phoneTypeLabel (tr : Translation) (type : Nat) : QString :=
  if type = 8 then tr [] (q! "Preferred Number")
  else
    let s := phoneLabelStart tr type
    (phoneTypeList.foldl (phoneLabelStep tr s.2.2) (s.1, s.2.1)).1

/-- `PhoneNumber::isPreferred`, phonenumber.cpp:248-251. -/
def PhoneNumber.isPreferred (p : PhoneNumber) : Bool := p.type &&& 8 ≠ 0
/-- `PhoneNumber::supportsSms`, phonenumber.cpp:253-256. -/
def PhoneNumber.supportsSms (p : PhoneNumber) : Bool := p.type &&& 64 ≠ 0

/-- `Address::typeList`, address.cpp:339-348. -/
def addressTypeList : List Nat := [1, 2, 4, 8, 16, 32, 64]

/-- `Address::typeFlagLabel`, address.cpp:350-369. -/
def addressFlagLabel (tr : Translation) (flag : Nat) : QString :=
  if flag = 1 then tr (q! "Address is in home country") (q! "Domestic")
  else if flag = 2 then tr (q! "Address is not in home country") (q! "International")
  else if flag = 4 then tr (q! "Address for delivering letters") (q! "Postal")
  else if flag = 8 then tr (q! "Address for delivering packages") (q! "Parcel")
  else if flag = 16 then tr (q! "Home Address") (q! "Home")
  else if flag = 32 then tr (q! "Work Address") (q! "Work")
  else if flag = 64 then tr [] (q! "Preferred Address")
  else tr (q! "another type of address") (q! "Other")

/-- `Address::typeLabel(Type)`, address.cpp:173-192. -/
def addressTypeLabel (tr : Translation) (type : Nat) : QString :=
  let label := addressTypeList.foldl (fun label flag => if type &&& flag ≠ 0 then label ++ (qc! '/' :: addressFlagLabel tr flag) else label) []
  if label ≠ [] then label.drop 1 else label

/-- `Address::typeLabel()`, address.cpp:194-209. -/
def Address.typeLabel (tr : Translation) (a : Address) : QString :=
  let label := addressTypeList.foldl (fun label flag => if a.type &&& flag ≠ 0 ∧ flag ≠ 64 then label ++ (qc! '/' :: addressTypeLabel tr flag) else label) []
  if label ≠ [] then label.drop 1 else label

/-- `ResourceLocatorUrl::resourceLabel`, resourcelocatorurl.cpp:182-201. -/
def ParamUrl.resourceLabel (tr : Translation) (u : ParamUrl) : QString :=
  if u.type = 1 then tr [] (q! "Home") else if u.type = 2 then tr [] (q! "Work") else if u.type = 4 then tr [] (q! "Profile") else tr [] (q! "Other")

/-! ### Messaging services -/

/-- `QFileInfo::suffix`: behind the last '.', empty without one. -/
def fileSuffix (name : QString) : QString := if qc! '.' ∈ name then (name.reverse.takeWhile (· ≠ qc! '.')).reverse else []
/-- `QFileInfo::baseName`: up to the first '.'. -/
def fileBaseName (name : QString) : QString := name.takeWhile (· ≠ qc! '.')

/-- insertion into a sorted list -/
def insertSorted (x : QString) : List QString → List QString
  | [] => [x]
  | y :: t => if qlt y x then y :: insertSorted x t else x :: y :: t

/-- `std::sort` on strings. Equal strings are identical, so the algorithm does not matter. -/
def sortStrings (l : List QString) : List QString := l.foldr insertSorted []

/-- `std::unique` with `erase`: of a run of equal neighbours the first stays. -/
def uniqueRuns : List QString → List QString
  | [] => []
  | [x] => [x]
  | x :: y :: t => if x = y then uniqueRuns (y :: t) else x :: uniqueRuns (y :: t)

/-- `Impp::serviceTypes`, impp.cpp:201-220. `dirs` lists the file names in the data directories and in the resource directory. -/
def serviceTypes (dirs : List (List QString)) : List QString :=
  uniqueRuns (sortStrings (dirs.flatMap fun files => (files.filter fun f => fileSuffix f = q! "desktop").map fileBaseName))

/-- `Impp::serviceLabel`, impp.cpp:176-192. `readName` is the name given by the desktop file of a service (empty without a file). -/
def serviceLabel (readName : QString → QString) (serviceType : QString) : QString :=
  match serviceType with
  | [] => []
  | c :: t => if readName (c :: t) = [] then upperQ c :: t else readName (c :: t)

end KC
