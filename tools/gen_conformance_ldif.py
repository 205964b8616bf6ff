import re
src=open('/repo/autotests/ldifconvertertest.cpp').read()
def text(body):
    m=re.search(r'QString str = QStringLiteral\((.*?)\);',body,re.S) or re.search(r'QString expected = QStringLiteral\((.*?)\);',body,re.S)
    return [x for x in re.findall(r'"((?:[^"\\]|\\.)*)"',m.group(1))]
def lit(parts): return '['+',\n     '.join('q! "%s"'%p for p in parts)+'].flatten'
fns={m.group(1):m.group(2) for m in re.finditer(r'void LDifConverterTest::(\w+)\(\)\n\{\n(.*?)\n\}\n',src,re.S)}
out=['''import Verif.Model.LdifConverter
import Verif.Model.Setters
import Verif.Spec.LdifConverter
/-
  The checks of autotests/ldifconvertertest.cpp on the model. These are tests of the model, not proofs of properties.
-/
namespace KC.Conformance
open Spec
set_option maxRecDepth 100000

/-- `LDIFConverter::LDIFToAddressee` and then a look at the result. -/
def imported (text : QString) (check : List Contact → List Group → Bool) : Bool :=
  match ldifToAddressee sampleLdifEnv (fun n => List.replicate (n + 1) (qc! 'i')) sampleNow text with
  | some (cs, gs) => check cs gs
  | none => false

/-- `LDIFConverter::addresseeAndContactGroupToLDIF` -/
def exported (cs : List Contact) (gs : List Group) : Bool × QString := addresseeAndContactGroupToLDIF sampleLdifEnv (q! "fresh") cs gs []
''']
chk={
'shouldImportEmail':'cs.map (·.emails.map (·.mail)) == [[q! "foo@kde.org"]] && gs.length == 0',
'shouldImportMultiEmails':'cs.map (·.emails.map (·.mail)) == [[q! "foo@kde.org", q! "foo2@kde.org"]] && gs.length == 0',
'shouldImportStandardBirthday':'cs.map (fun c => (c.birthday.map (·.date), c.birthdayWithTime)) == [(some (2015, 3, 19), false)] && gs.length == 0',
'shouldImportStandardBirthdayWithoutYear':'cs.map (fun c => (c.birthday.map (·.date), c.birthdayWithTime)) == [(some (-1, 3, 19), false)] && gs.length == 0',
'shouldImportTheBatsBirthday':'cs.map (fun c => (c.birthday.map (·.date), c.birthdayWithTime)) == [(some (2015, 3, 19), false)] && gs.length == 0',
'shouldImportTheBatsEmails':'cs.map (·.emails.map (·.mail)) == [[q! "foo@kde.org", q! "foo2@kde.org", q! "foo3@kde.org"]] && gs.length == 0',
'shouldImportTitle':'cs.map (·.titles.map (·.text)) == [[q! "foo"]] && gs.length == 0',
'shouldImportWorkStreet':'cs.map (fun c => (c.address (q! "n") 32).street) == [q! "work address\\nwork address next"] && gs.length == 0',
'shouldImportContactGroup':'cs.length == 0 && gs.map (fun g => (g.name, g.count)) == [(q! "Test", 3)]',
'shouldImportMultiEntries':'cs.map (·.emails.map (·.mail)) == [[q! "test1@test.test"], [q! "test2@test.test"]] && gs.length == 0',
'shouldImportGroupAndAddress':'cs.length == 1 && gs.length == 1',
}
for f,c in chk.items():
    out.append(f'/-- {f} -/\nexample : imported\n    ({lit(text(fns[f]))})\n    (fun cs gs => {c}) = true := by decide +kernel\n')

C=lambda mails,extra='': 'Contact.setUid { (Contact.setEmails (Contact.new (q! "x")) [%s]) with empty := false%s } (q! "testuid")'%(', '.join('q! "%s"'%m for m in mails),extra)
f1=['foo@kde.org']
bd=lambda y:', birthday := some { date := (%s, 3, 3), time := (0, 0, 0, 0), zone := none }'%y
ti=', titles := [{ text := q! "foo" }]'
exp={
'shouldExportEmail':([C(f1)],'[]'),
'shouldExportMultiEmails':([C(f1+['foo2@kde.org','foo3@kde.org'])],'[]'),
'shouldExportBirthday':([C(f1,bd(2015))],'[]'),
'shouldExportBirthdayWithoutYear':([C(f1,bd(-1))],'[]'),
'shouldExportTitle':([C(f1,ti)],'[]'),
'shouldExportMultiEntries':([C(f1,ti),C(f1,bd(2015))],'[]'),
'shouldExportGroup':([],'[((({ id := q! "g" } : Group).apply (.appendData { name := q! "foo", email := q! "foo@kde.org" })).apply (.appendData { name := q! "foo2", email := q! "foo2@kde.org" }))]'),
'shouldExportWorkStreet':([ '('+C(f1)+').insertAddress { id := q! "a", type := 32, empty := false, street := q! "work address", postalCode := q! "postal" }'],'[]'),
'shouldExportFullName':([C(f1,', name := q! "name", nickNames := [{ text := q! "nickname" }], familyName := q! "familyname"')],'[]'),
}
for f,(cs,gs) in exp.items():
    out.append(f'/-- {f} -/\nexample : exported\n    ['+',\n     '.join(cs)+f']\n    {gs} =\n    (true, {lit(text(fns[f]))}) := by decide +kernel\n')
out.append("""/-- testGarbage -/
example : (exported [] []).1 = false ∧ (contactGroupsToLDIF [] []).1 = false ∧ (addresseesToLDIF sampleLdifEnv (q! "fresh") [] []).1 = false ∧
    (addresseeToLDIF sampleLdifEnv (q! "fresh") (Contact.new (q! "x")) []).1 = false := by decide +kernel
""")
print(sorted(set(fns)-set(chk)))
open('/verif/lean/Verif/Conformance/Ldif.lean','w').write('\n'.join(out)+'\nend KC.Conformance\n')
