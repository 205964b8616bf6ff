import re
src=open('/repo/autotests/addressformattest.cpp',encoding='utf8').read()
def lit(s):
    s=s.replace('\\n','\n')
    u=s.encode('utf-16-le'); n=[u[i]+256*u[i+1] for i in range(0,len(u),2)]
    if all(c<128 for c in n):
        return 'q! "%s"'%s.replace('\n','\\n')
    return '['+', '.join(map(str,n))+']'
out=['''import Verif.Model.ShippedFormats
/-
  The checks of autotests/addressformattest.cpp (testRepostory, testFormatStyles, testFormatScript, testIncompleteAddress) on the model.
  These are tests of the model, not proofs of properties.
-/
namespace KC.Conformance
set_option maxRecDepth 100000

/-- The world of the test: formats of the library, locale en_US. -/
def formatEnv : FormatEnv where
  config := shippedEntry [q! "en_US", q! "en"]
  fromAlpha2 c := some c
  fromName _ := none
  ownCountry := q! "US"
  countryName c := if c = q! "DE" then q! "Germany" else if c = q! "KR" then q! "South Korea" else []
  upper := toUpperQ
  script c := if 0x600 ≤ c.toNat ∧ c.toNat < 0x700 ∧ c.toNat ≠ 0x60c then 1 else if 0x4e00 ≤ c.toNat ∧ c.toNat < 0xa000 then 2
    else if 0xac00 ≤ c.toNat ∧ c.toNat < 0xd7b0 then 3 else 0

/-- `parseFormat` of the test, addressformattest.cpp:31-40. -/
def parseFormat (f u country : QString) : AddressFormat :=
  { elements := parseElements f, required := 0, upper := parseFields u, postalCodeFormat := [], country := country }

/-- testRepostory -/
example :
    let fmt := formatEnv.formatForCountry (q! "CA") false false
    fmt.required = AField.streetAddress.bit ||| AField.locality.bit ||| AField.postalCode.bit ||| AField.region.bit ∧
    fmt.upper = AField.streetAddress.bit ||| AField.locality.bit ||| AField.postalCode.bit ||| AField.region.bit ||| AField.name.bit
      ||| AField.organization.bit ||| AField.country.bit ∧
    fmt.usedFields = AField.streetAddress.bit ||| AField.locality.bit ||| AField.postalCode.bit ||| AField.region.bit ||| AField.name.bit
      ||| AField.organization.bit ||| AField.postOfficeBox.bit ∧
    fmt.elements.length = 14 ∧ fmt.elements[0]? = some (.field .name) ∧ fmt.elements[1]? = some .sep ∧
    fmt.elements[2]? = some (.field .organization) ∧ fmt.elements[3]? = some .sep ∧ fmt.elements[6]? = some (.lit (q! "PO BOX ")) ∧
    fmt.elements[9]? = some (.field .locality) ∧ fmt.elements[10]? = some (.lit (q! " ")) ∧ fmt.elements[11]? = some (.field .region) ∧
    fmt.elements[12]? = some (.lit (q! " ")) ∧ fmt.elements[13]? = some (.field .postalCode) ∧ fmt.postalCodeFormat ≠ [] ∧
    fmt.country = q! "CA" := by
  decide +kernel
''']
styles={'Postal':'postal','MultiLineInternational':'multiLineInternational','MultiLineDomestic':'multiLineDomestic','SingleLineInternational':'singleLineInternational','SingleLineDomestic':'singleLineDomestic','GeoUriQuery':'geoUriQuery'}
cnt=0
for fn in ('testFormatStyles','testFormatScript','testIncompleteAddress'):
    body=src[src.index('void '+fn):]
    body=body[:body.index('\n    }\n')]
    addr={};fmt=None;call=None
    checks=[]
    for line in body.split('\n'):
        line=line.strip()
        m=re.match(r'(?:addr|address)\.set(\w+)\((?:QStringLiteral\("(.*)"\)|QString\(\))\);',line)
        if m: k=m.group(1); addr[k[0].lower()+k[1:]]=m.group(2) or ''; continue
        if re.match(r'address = \{\};',line): addr={}; continue
        m=re.match(r'(?:auto )?fmt = parseFormat\(u"(.*)", u"(.*)", u"(.*)"\);',line)
        if m: fmt=m.groups(); continue
        m=re.match(r'(?:auto )?s = AddressFormatter::format\(\w+, (?:QStringLiteral\("(.*?)"\)|QString\(\)), (?:QStringLiteral\("(.*?)"\)|QString\(\)), fmt, AddressFormatStyle::(\w+)\);',line)
        if m: call=m.groups(); continue
        m=re.match(r'QCOMPARE\(s, Q\w+\("(.*)"\)\);',line)
        if m:
            cnt+=1
            a=', '.join(['id := []']+['%s := %s'%(k,lit(v)) for k,v in addr.items()])
            checks.append('    FormatArgs.text ⟨formatEnv, { %s },\n      %s, %s, parseFormat (%s) (%s) (%s), .%s⟩ =\n      %s'%(a,lit(call[0] or ''),lit(call[1] or ''),lit(fmt[0]),lit(fmt[1]),lit(fmt[2]),styles[call[2]],lit(m.group(1))))
            continue
        if line and not line.startswith('//') and not line.startswith('{') and 'Address addr' not in line and 'Address address' not in line and not line.startswith('void'): print('??',line)
    for i,c in enumerate(checks):
        out.append('/-- %s, check %d -/\nexample :\n%s := by decide +kernel\n'%(fn,i+1,c))
out.append('end KC.Conformance\n')
print(cnt)
open('/verif/lean/Verif/Conformance/Formats.lean','w').write('\n'.join(out).replace('q! ""', '[]'))
