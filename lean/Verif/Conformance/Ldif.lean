import Verif.Model.LdifConverter
import Verif.Model.Setters
import Verif.Spec.LdifConverter
/-
  The checks of autotests/ldifconvertertest.cpp on the model. These are tests of the model, not proofs of properties.
-/
namespace KC.Conformance
open Spec
set_option maxRecDepth 100000

/-- `LDIFConverter::LDIFToAddressee` and then a look at the result. -/
def imported (text : QString) (check : List Contact → List Group → Bool) : Bool :=
  match ldifToAddressee sampleLdifEnv (fun n => List.replicate (n + 1) (qc! 'i')) sampleNow text with
  | some (cs, gs) => check cs gs
  | none => false

/-- `LDIFConverter::addresseeAndContactGroupToLDIF` -/
def exported (cs : List Contact) (gs : List Group) : Bool × QString := addresseeAndContactGroupToLDIF sampleLdifEnv (q! "fresh") cs gs []

/-- shouldImportEmail -/
example : imported
    ([q! "dn: cn=laurent,mail=foo@kde.org\n",
     q! "sn: laurent\n",
     q! "cn: laurent\n",
     q! "uid: d1d5cdd4-7d5d-484b-828d-58864d8efe74\n",
     q! "mail: foo@kde.org\n",
     q! "objectclass: top_n",
     q! "objectclass: person\n",
     q! "objectclass: organizationalPerson"].flatten)
    (fun cs gs => cs.map (·.emails.map (·.mail)) == [[q! "foo@kde.org"]] && gs.length == 0) = true := by decide +kernel

/-- shouldImportMultiEmails -/
example : imported
    ([q! "dn: cn=laurent,mail=foo@kde.org\n",
     q! "sn: laurent\n",
     q! "cn: laurent\n",
     q! "uid: d1d5cdd4-7d5d-484b-828d-58864d8efe74\n",
     q! "mail: foo@kde.org\n",
     q! "mail: foo2@kde.org\n",
     q! "objectclass: top_n",
     q! "objectclass: person\n",
     q! "objectclass: organizationalPerson"].flatten)
    (fun cs gs => cs.map (·.emails.map (·.mail)) == [[q! "foo@kde.org", q! "foo2@kde.org"]] && gs.length == 0) = true := by decide +kernel

/-- shouldImportStandardBirthday -/
example : imported
    ([q! "dn: cn=laurent,mail=foo@kde.org\n",
     q! "sn: laurent\n",
     q! "cn: laurent\n",
     q! "uid: d1d5cdd4-7d5d-484b-828d-58864d8efe74\n",
     q! "birthyear: 2015\n",
     q! "birthmonth: 3\n",
     q! "birthday: 19\n",
     q! "mail: foo@kde.org\n",
     q! "objectclass: top_n",
     q! "objectclass: person\n",
     q! "objectclass: organizationalPerson"].flatten)
    (fun cs gs => cs.map (fun c => (c.birthday.map (·.date), c.birthdayWithTime)) == [(some (2015, 3, 19), false)] && gs.length == 0) = true := by decide +kernel

/-- shouldImportStandardBirthdayWithoutYear -/
example : imported
    ([q! "dn: cn=laurent,mail=foo@kde.org\n",
     q! "sn: laurent\n",
     q! "cn: laurent\n",
     q! "uid: d1d5cdd4-7d5d-484b-828d-58864d8efe74\n",
     q! "birthmonth: 3\n",
     q! "birthday: 19\n",
     q! "mail: foo@kde.org\n",
     q! "objectclass: top_n",
     q! "objectclass: person\n",
     q! "objectclass: organizationalPerson"].flatten)
    (fun cs gs => cs.map (fun c => (c.birthday.map (·.date), c.birthdayWithTime)) == [(some (-1, 3, 19), false)] && gs.length == 0) = true := by decide +kernel

/-- shouldImportTheBatsBirthday -/
example : imported
    ([q! "dn: cn=laurent,mail=foo@kde.org\n",
     q! "sn: laurent\n",
     q! "cn: laurent\n",
     q! "uid: d1d5cdd4-7d5d-484b-828d-58864d8efe74\n",
     q! "xbatBirthday: 20150319\n",
     q! "mail: foo@kde.org\n",
     q! "objectclass: top_n",
     q! "objectclass: person\n",
     q! "objectclass: organizationalPerson"].flatten)
    (fun cs gs => cs.map (fun c => (c.birthday.map (·.date), c.birthdayWithTime)) == [(some (2015, 3, 19), false)] && gs.length == 0) = true := by decide +kernel

/-- shouldImportTheBatsEmails -/
example : imported
    ([q! "dn: cn=laurent,mail=foo@kde.org\n",
     q! "sn: laurent\n",
     q! "cn: laurent\n",
     q! "uid: d1d5cdd4-7d5d-484b-828d-58864d8efe74\n",
     q! "mail: foo@kde.org\n",
     q! "othermailbox: foo2@kde.org\n",
     q! "othermailbox: foo3@kde.org\n",
     q! "objectclass: top_n",
     q! "objectclass: person\n",
     q! "objectclass: organizationalPerson"].flatten)
    (fun cs gs => cs.map (·.emails.map (·.mail)) == [[q! "foo@kde.org", q! "foo2@kde.org", q! "foo3@kde.org"]] && gs.length == 0) = true := by decide +kernel

/-- shouldImportTitle -/
example : imported
    ([q! "dn: cn=laurent,mail=foo@kde.org\n",
     q! "sn: laurent\n",
     q! "cn: laurent\n",
     q! "uid: d1d5cdd4-7d5d-484b-828d-58864d8efe74\n",
     q! "title: foo\n",
     q! "mail: foo@kde.org\n",
     q! "objectclass: top_n",
     q! "objectclass: person\n",
     q! "objectclass: organizationalPerson"].flatten)
    (fun cs gs => cs.map (·.titles.map (·.text)) == [[q! "foo"]] && gs.length == 0) = true := by decide +kernel

/-- shouldImportWorkStreet -/
example : imported
    ([q! "dn: cn=laurent,mail=foo@kde.org\n",
     q! "sn: laurent\n",
     q! "cn: laurent\n",
     q! "uid: d1d5cdd4-7d5d-484b-828d-58864d8efe74\n",
     q! "title: foo\n",
     q! "mail: foo@kde.org\n",
     q! "street: work address\n",
     q! "mozillaWorkStreet2: work address next\n",
     q! "objectclass: top_n",
     q! "objectclass: person\n",
     q! "objectclass: organizationalPerson"].flatten)
    (fun cs gs => cs.map (fun c => (c.address (q! "n") 32).street) == [q! "work address\nwork address next"] && gs.length == 0) = true := by decide +kernel

/-- shouldImportContactGroup -/
example : imported
    ([q! "dn: cn=test,mail=\n",
     q! "cn: test\n",
     q! "modifyTimeStamp: 20080526T234914Z\n",
     q! "display-name: Test\n",
     q! "objectclass: top\n",
     q! "objectclass: groupOfNames\n",
     q! "member: cn=Jim Doe,mail=jim.doe@foobar.com\n",
     q! "member: cn=Jane Doe,mail=jane.doe@foobar.com\n",
     q! "member: cn=John Doe,mail=john.doe@foobar.com\n"].flatten)
    (fun cs gs => cs.length == 0 && gs.map (fun g => (g.name, g.count)) == [(q! "Test", 3)]) = true := by decide +kernel

/-- shouldImportMultiEntries -/
example : imported
    ([q! "dn: cn=test1,mail=test1@test.test\n",
     q! "sn: test1\n",
     q! "cn: test1\n",
     q! "uid: jpgdf2NrLQ\n",
     q! "mail: test1@test.test\n",
     q! "modifytimestamp: 20121219T140848Z\n",
     q! "objectclass: top\n",
     q! "objectclass: person\n",
     q! "objectclass: organizationalPerson\n",
     q! "\n",
     q! "dn: cn=test2,mail=test2@test.test\n",
     q! "sn: test2\n",
     q! "cn: test2\n",
     q! "uid: ow2mwdUb6A\n",
     q! "mail: test2@test.test\n",
     q! "objectclass: top\n",
     q! "objectclass: person\n",
     q! "objectclass: organizationalPerson\n"].flatten)
    (fun cs gs => cs.map (·.emails.map (·.mail)) == [[q! "test1@test.test"], [q! "test2@test.test"]] && gs.length == 0) = true := by decide +kernel

/-- shouldImportGroupAndAddress -/
example : imported
    ([q! "dn: cn=laurent,mail=foo@kde.org\n",
     q! "sn: laurent\n",
     q! "cn: laurent\n",
     q! "uid: d1d5cdd4-7d5d-484b-828d-58864d8efe74\n",
     q! "title: foo\n",
     q! "mail: foo@kde.org\n",
     q! "street: work address\n",
     q! "mozillaWorkStreet2: work address next\n",
     q! "objectclass: top_n",
     q! "objectclass: person\n",
     q! "objectclass: organizationalPerson\n",
     q! "\n",
     q! "dn: cn=test,mail=\n",
     q! "cn: test\n",
     q! "modifyTimeStamp: 20080526T234914Z\n",
     q! "display-name: Test\n",
     q! "objectclass: top\n",
     q! "objectclass: groupOfNames\n",
     q! "member: cn=Jim Doe,mail=jim.doe@foobar.com\n",
     q! "member: cn=Jane Doe,mail=jane.doe@foobar.com\n",
     q! "member: cn=John Doe,mail=john.doe@foobar.com\n"].flatten)
    (fun cs gs => cs.length == 1 && gs.length == 1) = true := by decide +kernel

/-- shouldExportEmail -/
example : exported
    [Contact.setUid { (Contact.setEmails (Contact.new (q! "x")) [q! "foo@kde.org"]) with empty := false } (q! "testuid")]
    [] =
    (true, [q! "dn: cn=,mail=foo@kde.org\n",
     q! "objectclass: top\n",
     q! "objectclass: person\n",
     q! "objectclass: organizationalPerson\n",
     q! "uid: testuid\n",
     q! "mail: foo@kde.org\n\n"].flatten) := by decide +kernel

/-- shouldExportMultiEmails -/
example : exported
    [Contact.setUid { (Contact.setEmails (Contact.new (q! "x")) [q! "foo@kde.org", q! "foo2@kde.org", q! "foo3@kde.org"]) with empty := false } (q! "testuid")]
    [] =
    (true, [q! "dn: cn=,mail=foo@kde.org\n",
     q! "objectclass: top\n",
     q! "objectclass: person\n",
     q! "objectclass: organizationalPerson\n",
     q! "uid: testuid\n",
     q! "mail: foo@kde.org\n",
     q! "mozillasecondemail: foo2@kde.org\n",
     q! "othermailbox: foo3@kde.org\n",
     q! "\n"].flatten) := by decide +kernel

/-- shouldExportBirthday -/
example : exported
    [Contact.setUid { (Contact.setEmails (Contact.new (q! "x")) [q! "foo@kde.org"]) with empty := false, birthday := some { date := (2015, 3, 3), time := (0, 0, 0, 0), zone := none } } (q! "testuid")]
    [] =
    (true, [q! "dn: cn=,mail=foo@kde.org\n",
     q! "objectclass: top\n",
     q! "objectclass: person\n",
     q! "objectclass: organizationalPerson\n",
     q! "uid: testuid\n",
     q! "mail: foo@kde.org\n",
     q! "birthyear: 2015\n",
     q! "birthmonth: 3\n",
     q! "birthday: 3\n",
     q! "\n"].flatten) := by decide +kernel

/-- shouldExportBirthdayWithoutYear -/
example : exported
    [Contact.setUid { (Contact.setEmails (Contact.new (q! "x")) [q! "foo@kde.org"]) with empty := false, birthday := some { date := (-1, 3, 3), time := (0, 0, 0, 0), zone := none } } (q! "testuid")]
    [] =
    (true, [q! "dn: cn=,mail=foo@kde.org\n",
     q! "objectclass: top\n",
     q! "objectclass: person\n",
     q! "objectclass: organizationalPerson\n",
     q! "uid: testuid\n",
     q! "mail: foo@kde.org\n",
     q! "birthmonth: 3\n",
     q! "birthday: 3\n",
     q! "\n"].flatten) := by decide +kernel

/-- shouldExportTitle -/
example : exported
    [Contact.setUid { (Contact.setEmails (Contact.new (q! "x")) [q! "foo@kde.org"]) with empty := false, titles := [{ text := q! "foo" }] } (q! "testuid")]
    [] =
    (true, [q! "dn: cn=,mail=foo@kde.org\n",
     q! "objectclass: top\n",
     q! "objectclass: person\n",
     q! "objectclass: organizationalPerson\n",
     q! "uid: testuid\n",
     q! "mail: foo@kde.org\n",
     q! "title: foo\n",
     q! "\n"].flatten) := by decide +kernel

/-- shouldExportMultiEntries -/
example : exported
    [Contact.setUid { (Contact.setEmails (Contact.new (q! "x")) [q! "foo@kde.org"]) with empty := false, titles := [{ text := q! "foo" }] } (q! "testuid"),
     Contact.setUid { (Contact.setEmails (Contact.new (q! "x")) [q! "foo@kde.org"]) with empty := false, birthday := some { date := (2015, 3, 3), time := (0, 0, 0, 0), zone := none } } (q! "testuid")]
    [] =
    (true, [q! "dn: cn=,mail=foo@kde.org\n",
     q! "objectclass: top\n",
     q! "objectclass: person\n",
     q! "objectclass: organizationalPerson\n",
     q! "uid: testuid\n",
     q! "mail: foo@kde.org\n",
     q! "title: foo\n",
     q! "\n",
     q! "dn: cn=,mail=foo@kde.org\n",
     q! "objectclass: top\n",
     q! "objectclass: person\n",
     q! "objectclass: organizationalPerson\n",
     q! "uid: testuid\n",
     q! "mail: foo@kde.org\n",
     q! "birthyear: 2015\n",
     q! "birthmonth: 3\n",
     q! "birthday: 3\n",
     q! "\n"].flatten) := by decide +kernel

/-- shouldExportGroup -/
example : exported
    []
    [((({ id := q! "g" } : Group).apply (.appendData { name := q! "foo", email := q! "foo@kde.org" })).apply (.appendData { name := q! "foo2", email := q! "foo2@kde.org" }))] =
    (true, [q! "objectclass: top\n",
     q! "objectclass: groupOfNames\n",
     q! "member: cn=foo,mail=foo@kde.org\n",
     q! "member: cn=foo2,mail=foo2@kde.org\n",
     q! "\n"].flatten) := by decide +kernel

/-- shouldExportWorkStreet -/
example : exported
    [(Contact.setUid { (Contact.setEmails (Contact.new (q! "x")) [q! "foo@kde.org"]) with empty := false } (q! "testuid")).insertAddress { id := q! "a", type := 32, empty := false, street := q! "work address", postalCode := q! "postal" }]
    [] =
    (true, [q! "dn: cn=,mail=foo@kde.org\n",
     q! "objectclass: top\n",
     q! "objectclass: person\n",
     q! "objectclass: organizationalPerson\n",
     q! "uid: testuid\n",
     q! "mail: foo@kde.org\n",
     q! "postalcode: postal\n",
     q! "streetaddress: work address\n",
     q! "street: work address\n",
     q! "\n"].flatten) := by decide +kernel

/-- shouldExportFullName -/
example : exported
    [Contact.setUid { (Contact.setEmails (Contact.new (q! "x")) [q! "foo@kde.org"]) with empty := false, name := q! "name", nickNames := [{ text := q! "nickname" }], familyName := q! "familyname" } (q! "testuid")]
    [] =
    (true, [q! "dn: cn=,mail=foo@kde.org\n",
     q! "objectclass: top\n",
     q! "objectclass: person\n",
     q! "objectclass: organizationalPerson\n",
     q! "sn: familyname\n",
     q! "uid: testuid\n",
     q! "nickname: nickname\n",
     q! "xmozillanickname: nickname\n",
     q! "mozillanickname: nickname\n",
     q! "mail: foo@kde.org\n",
     q! "\n"].flatten) := by decide +kernel

/-- testGarbage -/
example : (exported [] []).1 = false ∧ (contactGroupsToLDIF [] []).1 = false ∧ (addresseesToLDIF sampleLdifEnv (q! "fresh") [] []).1 = false ∧
    (addresseeToLDIF sampleLdifEnv (q! "fresh") (Contact.new (q! "x")) []).1 = false := by decide +kernel

end KC.Conformance
