import Verif.Model.DateTime
import Verif.Model.Setters
import Verif.Model.Names
import Verif.Model.ContactEq
/-
  The checks of autotests/datetimetest.cpp and of the parsing tests in autotests/addresseetest.cpp on the model.
  These are tests of the model, not proofs of properties.
-/
namespace KC.Conformance
set_option maxRecDepth 100000

/-! ### datetimetest.cpp -/

private def read (s : QString) : QDateTime := (parseDateTime s).1
private def at' (h m s : Nat) (zone : Option Int) : QDateTime := some { date := (2016, 1, 20), time := (h, m, s, 0), zone := zone }

/-- shouldParseDateTime -/
example : read (q! "2016-01-20T12:33:30+0200") = at' 12 33 30 (some 7200) := by decide +kernel
example : read (q! "2016-01-20T12:33:30+02") = at' 12 33 30 (some 7200) := by decide +kernel
example : read (q! "20160120T123330+0200") = at' 12 33 30 (some 7200) := by decide +kernel
example : read (q! "2016-01-20T12:33Z") = at' 12 33 0 (some 0) := by decide +kernel
example : read (q! "2016-01-20T12:33-0300") = at' 12 33 0 (some (-10800)) := by decide +kernel
example : parseDateTime (q! "2016-01-20T12:33") = (at' 12 33 0 none, true) := by decide +kernel
example : parseDateTime (q! "2016-01-20") = (at' 0 0 0 none, false) := by decide +kernel
-- the model has no time in an invalid date
example : parseDateTime (q! "T1233Z") = (none, true) := by decide +kernel
example : read (q! "--0120") = some { date := (-1, 1, 20), time := (0, 0, 0, 0), zone := none } := by decide +kernel
example : read (q! "--01-20") = some { date := (-1, 1, 20), time := (0, 0, 0, 0), zone := none } := by decide +kernel

/-- shouldCreateDateTime -/
example : createDateTime (at' 12 33 30 (some 0)) true = q! "20160120T123330Z" := by decide +kernel
example : createDateTime (at' 0 0 0 (some 0)) true = q! "20160120T000000Z" := by decide +kernel
example : createDateTime (at' 12 33 30 none) true = q! "20160120T123330" := by decide +kernel
example : createDateTime (at' 12 33 30 (some (-7200))) true = q! "20160120T123330-0200" := by decide +kernel
example : createDateTime (at' 12 33 30 (some 9000)) true = q! "20160120T123330+0230" := by decide +kernel
example : createDateTime (at' 12 33 30 (some (-7200))) false = q! "2016-01-20T12:33:30-02:00" := by decide +kernel
example : createDateTime none false = [] := by decide +kernel
example : createDateTime (at' 12 33 30 none) false false = q! "2016-01-20" := by decide +kernel
example : createDateTime (at' 12 33 30 none) true false = q! "20160120" := by decide +kernel

/-- shouldCreateDate -/
example : createDate (2016, 1, 20) false = q! "2016-01-20" := by decide +kernel
example : createDate (2016, 1, 20) true = q! "20160120" := by decide +kernel
example : createDate (-1, 1, 20) false = q! "--01-20" := by decide +kernel
example : createDate (-1, 1, 20) true = q! "--0120" := by decide +kernel

/-! ### addresseetest.cpp -/

/-- parseEmailAddress -/
example : parseEmailAddress toLowerQ (q! "foo@kde.org") = some ([], q! "foo@kde.org") := by decide +kernel
example : parseEmailAddress toLowerQ (q! "foo <foo@kde.org>") = some (q! "foo", q! "foo@kde.org") := by decide +kernel
example : parseEmailAddress toLowerQ (q! "\"foo\" <foo@kde.org>") = some (q! "foo", q! "foo@kde.org") := by decide +kernel

/-- fullEmailTest -/
example : ((({ uid := [] } : Contact).setEmails [q! "foo@bar.com"]).setFormattedName (q! "firstname \"nickname\" lastname")).fullEmail none
    = q! "\"firstname \\\"nickname\\\" lastname\" <foo@bar.com>" := by decide +kernel

/-- The word lists are empty here. -/
private def words : NameHelper := ⟨fun _ => false, fun _ => false, fun _ => false, true, toLowerQ⟩

/-- nameFromStringTest -/
example : (({ uid := [] } : Contact).setNameFromString words (q! "Firstname Lastname")).map (fun a => (a.givenName, a.familyName, a.formattedName))
    = some (q! "Firstname", q! "Lastname", q! "Firstname Lastname") := by decide +kernel

/-- customFieldsTest -/
private def a₁ : Contact := (({ uid := [] } : Contact).insertCustom (q! "MyApp") (q! "MyKey") (q! "MyValue")).insertCustom (q! "MyApp") (q! "MyKey") (q! "YourValue")
private def a₃ : Contact := (a₁.insertCustom (q! "MyApp") (q! "AnotherKey") (q! "OtherValue")).insertCustom (q! "OtherApp") (q! "OtherKey") (q! "OurValue")
private def c₃ : Contact := (({ uid := [] } : Contact).insertCustom (q! "ThisApp") (q! "ShouldNotBe") (q! "There")).setCustoms
  [q! "FirstApp-FirstKey:FirstValue", q! "SecondApp-SecondKey:SecondValue", q! "ThirdApp-ThirdKey:ThirdValue"]
example : ({ uid := [] } : Contact).customsList = [] ∧ a₁.customsList.length = 1 ∧ a₁.custom (q! "MyApp") (q! "MyKey") = q! "YourValue" ∧
    a₁.custom (q! "MyApp") (q! "UnknownKey") = [] ∧ a₁.custom (q! "UnknownApp") (q! "MyKey") = [] := by decide +kernel
example : a₃.customsList.length = 3 ∧ a₃.custom (q! "OtherApp") (q! "OtherKey") = q! "OurValue" ∧
    a₃.custom (q! "MyApp") (q! "AnotherKey") = q! "OtherValue" ∧ a₃.custom (q! "MyApp") (q! "MyKey") = q! "YourValue" := by decide +kernel
example : a₃.customs = (((({ uid := [] } : Contact).insertCustom (q! "OtherApp") (q! "OtherKey") (q! "OurValue")).insertCustom (q! "MyApp") (q! "MyKey")
    (q! "YourValue")).insertCustom (q! "MyApp") (q! "AnotherKey") (q! "OtherValue")).customs := by decide +kernel
example : c₃.customsList.length = 3 ∧ c₃.custom (q! "FirstApp") (q! "FirstKey") = q! "FirstValue" ∧
    c₃.custom (q! "SecondApp") (q! "SecondKey") = q! "SecondValue" ∧ c₃.custom (q! "ThirdApp") (q! "ThirdKey") = q! "ThirdValue" ∧
    (c₃.removeCustom (q! "UnknownApp") (q! "FirstKey")).customsList.length = 3 ∧
    (c₃.removeCustom (q! "FirstApp") (q! "UnknownKey")).customsList.length = 3 ∧
    (c₃.removeCustom (q! "FirstApp") (q! "FirstKey")).customsList.length = 2 := by decide +kernel

end KC.Conformance
