import Verif.Conformance.Env
/-
  Generated by tools/gen_conformance.py from autotests/testroundtrip.qrc and autotests/data: what the project's own round trip test
  expects is what the model computes. Left out: vcard5.vcf (an embedded picture of 20 kB); version 4.0, which that test does not run.
  The last examples are the checks of autotests/importexportvcardtest.cpp.
-/
namespace KC.Conformance
set_option maxRecDepth 100000

/-- autotests/data/vcard1.vcf -/
def vcard1 : QByteArray :=
  [b! "BEGIN:vCard\n",
   b! "VERSION:3.0\n",
   b! "UID:gDVbA6LY3t\n",
   b! "FN:Frank Dawson\n",
   b! "ORG:Lotus Development Corporation\n",
   b! "ADR;TYPE=WORK,POSTAL,PARCEL:;;6544 Battleford Drive\n",
   b! " ;Raleigh;NC;27613-3502;U.S.A.\n",
   b! "TEL;TYPE=VOICE,MSG,WORK:+1-919-676-9515\n",
   b! "TEL;TYPE=FAX,WORK:+1-919-676-9564\n",
   b! "EMAIL;TYPE=INTERNET,PREF:Frank_Dawson@Lotus.com\n",
   b! "EMAIL;TYPE=INTERNET:fdawson@earthlink.net\n",
   b! "URL:http://home.earthlink.net/~fdawson\n",
   b! "END:vCard\n",
   b! "\n"].flatten

/-- autotests/data/vcard1.vcf.2_1ref -/
example : again .v2_1 vcard1 =
  [b! "BEGIN:VCARD\r\n",
   b! "VERSION:2.1\r\n",
   b! "ADR;PARCEL;POSTAL;WORK:;;6544 Battleford Drive;Raleigh;NC;27613-3502;U.S.A.\r\n",
   b! "EMAIL;INTERNET;PREF:Frank_Dawson@Lotus.com\r\n",
   b! "EMAIL;INTERNET:fdawson@earthlink.net\r\n",
   b! "FN:Frank Dawson\r\n",
   b! "N:;;;;\r\n",
   b! "ORG:Lotus Development Corporation\r\n",
   b! "TEL;MSG;VOICE;WORK:+1-919-676-9515\r\n",
   b! "TEL;FAX;WORK:+1-919-676-9564\r\n",
   b! "UID:gDVbA6LY3t\r\n",
   b! "URL:http://home.earthlink.net/~fdawson\r\n",
   b! "END:VCARD\r\n",
   b! "\r\n"].flatten := by decide +kernel

/-- autotests/data/vcard1.vcf.ref -/
example : again .v3_0 vcard1 =
  [b! "BEGIN:VCARD\r\n",
   b! "VERSION:3.0\r\n",
   b! "ADR;TYPE=parcel,postal,work:;;6544 Battleford Drive;Raleigh;NC;27613-3502;U\r\n",
   b! " .S.A.\r\n",
   b! "EMAIL;TYPE=INTERNET,PREF:Frank_Dawson@Lotus.com\r\n",
   b! "EMAIL;TYPE=INTERNET:fdawson@earthlink.net\r\n",
   b! "FN:Frank Dawson\r\n",
   b! "N:;;;;\r\n",
   b! "ORG:Lotus Development Corporation\r\n",
   b! "TEL;TYPE=MSG,VOICE,WORK:+1-919-676-9515\r\n",
   b! "TEL;TYPE=FAX,WORK:+1-919-676-9564\r\n",
   b! "UID:gDVbA6LY3t\r\n",
   b! "URL:http://home.earthlink.net/~fdawson\r\n",
   b! "END:VCARD\r\n",
   b! "\r\n"].flatten := by decide +kernel

/-- autotests/data/vcard2.vcf -/
def vcard2 : QByteArray :=
  [b! "BEGIN:vCard\n",
   b! "VERSION:3.0\n",
   b! "UID:1UgvYejJMs\n",
   b! "FN:Tim Howes\n",
   b! "ORG:Netscape Communications Corp.\n",
   b! "ADR;TYPE=WORK:;;501 E. Middlefield Rd.;Mountain View;\n",
   b! " CA; 94043;U.S.A.\n",
   b! "TEL;TYPE=VOICE,MSG,WORK:+1-415-937-3419\n",
   b! "TEL;TYPE=FAX,WORK:+1-415-528-4164\n",
   b! "EMAIL;TYPE=INTERNET:howes@netscape.com\n",
   b! "END:vCard\n",
   b! "\n"].flatten

/-- autotests/data/vcard2.vcf.2_1ref -/
example : again .v2_1 vcard2 =
  [b! "BEGIN:VCARD\r\n",
   b! "VERSION:2.1\r\n",
   b! "ADR;WORK:;;501 E. Middlefield Rd.;Mountain View;CA; 94043;U.S.A.\r\n",
   b! "EMAIL;INTERNET:howes@netscape.com\r\n",
   b! "FN:Tim Howes\r\n",
   b! "N:;;;;\r\n",
   b! "ORG:Netscape Communications Corp.\r\n",
   b! "TEL;MSG;VOICE;WORK:+1-415-937-3419\r\n",
   b! "TEL;FAX;WORK:+1-415-528-4164\r\n",
   b! "UID:1UgvYejJMs\r\n",
   b! "END:VCARD\r\n",
   b! "\r\n"].flatten := by decide +kernel

/-- autotests/data/vcard2.vcf.ref -/
example : again .v3_0 vcard2 =
  [b! "BEGIN:VCARD\r\n",
   b! "VERSION:3.0\r\n",
   b! "ADR;TYPE=work:;;501 E. Middlefield Rd.;Mountain View;CA; 94043;U.S.A.\r\n",
   b! "EMAIL;TYPE=INTERNET:howes@netscape.com\r\n",
   b! "FN:Tim Howes\r\n",
   b! "N:;;;;\r\n",
   b! "ORG:Netscape Communications Corp.\r\n",
   b! "TEL;TYPE=MSG,VOICE,WORK:+1-415-937-3419\r\n",
   b! "TEL;TYPE=FAX,WORK:+1-415-528-4164\r\n",
   b! "UID:1UgvYejJMs\r\n",
   b! "END:VCARD\r\n",
   b! "\r\n"].flatten := by decide +kernel

/-- autotests/data/vcard3.vcf -/
def vcard3 : QByteArray :=
  [b! "begin:vcard\n",
   b! "uid:ebvq9Wo9rO\n",
   b! "n:geiser;ian\n",
   b! "x-mozilla-html:FALSE\n",
   b! "org:Source eXtreme\n",
   b! "version:2.1\n",
   b! "email;internet:geiseri@yahoo.com\n",
   b! "title:VP of Engineering\n",
   b! "x-mozilla-cpt:;0\n",
   b! "fn:ian geiser\n",
   b! "end:vcard\n",
   b! "\n"].flatten

/-- autotests/data/vcard3.vcf.2_1ref -/
example : again .v2_1 vcard3 =
  [b! "BEGIN:VCARD\r\n",
   b! "VERSION:2.1\r\n",
   b! "EMAIL;INTERNET:geiseri@yahoo.com\r\n",
   b! "FN:ian geiser\r\n",
   b! "N:geiser;ian;;;\r\n",
   b! "ORG:Source eXtreme\r\n",
   b! "TITLE:VP of Engineering\r\n",
   b! "UID:ebvq9Wo9rO\r\n",
   b! "X-mozilla-cpt:;0\r\n",
   b! "X-mozilla-html:FALSE\r\n",
   b! "END:VCARD\r\n",
   b! "\r\n"].flatten := by decide +kernel

/-- autotests/data/vcard3.vcf.ref -/
example : again .v3_0 vcard3 =
  [b! "BEGIN:VCARD\r\n",
   b! "VERSION:3.0\r\n",
   b! "EMAIL;TYPE=internet:geiseri@yahoo.com\r\n",
   b! "FN:ian geiser\r\n",
   b! "N:geiser;ian;;;\r\n",
   b! "ORG:Source eXtreme\r\n",
   b! "TITLE:VP of Engineering\r\n",
   b! "UID:ebvq9Wo9rO\r\n",
   b! "X-mozilla-cpt:;0\r\n",
   b! "X-mozilla-html:FALSE\r\n",
   b! "END:VCARD\r\n",
   b! "\r\n"].flatten := by decide +kernel

/-- autotests/data/vcard4.vcf -/
def vcard4 : QByteArray :=
  [b! "BEGIN:VCARD\n",
   b! "X-EVOLUTION-FILE-AS:Ximian, Inc.\n",
   b! "FN\n",
   b! "N:\n",
   b! "LABEL;QUOTED-PRINTABLE;WORK:401 Park Drive  3 West=0ABoston, MA 02215=0AUSA\n",
   b! "TEL;WORK;VOICE:(617) 236-0442\n",
   b! "TEL;WORK;FAX:(617) 236-8630\n",
   b! "EMAIL;INTERNET:hello@ximian.com\n",
   b! "URL:www.ximian.com/\n",
   b! "ORG:Ximian, Inc.\n",
   b! "NOTE:Welcome to the Ximian Addressbook.\n",
   b! "UID:pas-id-3E136F9B00000000\n",
   b! "END:VCARD\n",
   b! "\n"].flatten

/-- autotests/data/vcard4.vcf.ref -/
example : again .v3_0 vcard4 =
  [b! "BEGIN:VCARD\r\n",
   b! "VERSION:3.0\r\n",
   b! "EMAIL;TYPE=INTERNET:hello@ximian.com\r\n",
   b! "LABEL;TYPE=work:401 Park Drive  3 West\\nBoston\\, MA 02215\\nUSA\r\n",
   b! "N:;;;;\r\n",
   b! "NOTE:Welcome to the Ximian Addressbook.\r\n",
   b! "ORG:Ximian\\, Inc.\r\n",
   b! "TEL;TYPE=VOICE,WORK:(617) 236-0442\r\n",
   b! "TEL;TYPE=FAX,WORK:(617) 236-8630\r\n",
   b! "UID:pas-id-3E136F9B00000000\r\n",
   b! "URL:www.ximian.com/\r\n",
   b! "X-EVOLUTION-FILE-AS:Ximian\\, Inc.\r\n",
   b! "END:VCARD\r\n",
   b! "\r\n"].flatten := by decide +kernel

/-- autotests/data/vcard6.vcf -/
def vcard6 : QByteArray :=
  [b! "BEGIN:VCARD\n",
   b! "CLASS:PUBLIC\n",
   b! "EMAIL;TYPE=PREF:email1@abc.de\n",
   b! "EMAIL:email2@abc.de\n",
   b! "FN:Test User\n",
   b! "N:User;Test;;;\n",
   b! "UID:uJTkVqH5Qt\n",
   b! "VERSION:3.0\n",
   b! "END:VCARD\n",
   b! "\n"].flatten

/-- autotests/data/vcard6.vcf.2_1ref -/
example : again .v2_1 vcard6 =
  [b! "BEGIN:VCARD\r\n",
   b! "VERSION:2.1\r\n",
   b! "EMAIL;PREF:email1@abc.de\r\n",
   b! "EMAIL:email2@abc.de\r\n",
   b! "FN:Test User\r\n",
   b! "N:User;Test;;;\r\n",
   b! "UID:uJTkVqH5Qt\r\n",
   b! "END:VCARD\r\n",
   b! "\r\n"].flatten := by decide +kernel

/-- autotests/data/vcard6.vcf.ref -/
example : again .v3_0 vcard6 =
  [b! "BEGIN:VCARD\r\n",
   b! "VERSION:3.0\r\n",
   b! "CLASS:PUBLIC\r\n",
   b! "EMAIL;TYPE=PREF:email1@abc.de\r\n",
   b! "EMAIL:email2@abc.de\r\n",
   b! "FN:Test User\r\n",
   b! "N:User;Test;;;\r\n",
   b! "UID:uJTkVqH5Qt\r\n",
   b! "END:VCARD\r\n",
   b! "\r\n"].flatten := by decide +kernel

/-- autotests/data/vcard7.vcf -/
def vcard7 : QByteArray :=
  [b! "BEGIN:VCARD\n",
   b! "N:\n",
   b! "LABEL;QUOTED-PRINTABLE;WORK:401 Park Drive  3 West=0ABoston, MA 02215=0AUSA=0A=\n",
   b! "Herecomesyetanotherline\n",
   b! "UID:pas-id-3E136F9B00000000\n",
   b! "END:VCARD\n",
   b! "\n"].flatten

/-- autotests/data/vcard7.vcf.2_1ref -/
example : again .v2_1 vcard7 =
  [b! "BEGIN:VCARD\r\n",
   b! "VERSION:2.1\r\n",
   b! "LABEL;CHARSET=UTF-8;ENCODING=QUOTED-PRINTABLE;WORK:401 Park Drive  3 West\\n\r\n",
   b! " Boston\\, MA 02215\\nUSA\\nHerecomesyetanotherline\r\n",
   b! "N:;;;;\r\n",
   b! "UID:pas-id-3E136F9B00000000\r\n",
   b! "END:VCARD\r\n",
   b! "\r\n"].flatten := by decide +kernel

/-- autotests/data/vcard7.vcf.ref -/
example : again .v3_0 vcard7 =
  [b! "BEGIN:VCARD\r\n",
   b! "VERSION:3.0\r\n",
   b! "LABEL;TYPE=work:401 Park Drive  3 West\\nBoston\\, MA 02215\\nUSA\\nHerecomesye\r\n",
   b! " tanotherline\r\n",
   b! "N:;;;;\r\n",
   b! "UID:pas-id-3E136F9B00000000\r\n",
   b! "END:VCARD\r\n",
   b! "\r\n"].flatten := by decide +kernel

/-- autotests/data/vcard8.vcf -/
def vcard8 : QByteArray :=
  [b! "BEGIN:VCARD\r\n",
   b! "FN:test\r\n",
   b! "N:test;;;;\r\n",
   b! "NOTE:line one\\Nline two\\Nline three\\N\r\n",
   b! "UID:8OD165Pope\r\n",
   b! "VERSION:3.0\r\n",
   b! "END:VCARD\r\n",
   b! "\r\n"].flatten

/-- autotests/data/vcard8.vcf.ref -/
example : again .v3_0 vcard8 =
  [b! "BEGIN:VCARD\r\n",
   b! "VERSION:3.0\r\n",
   b! "FN:test\r\n",
   b! "N:test;;;;\r\n",
   b! "NOTE:line one\\nline two\\nline three\\n\r\n",
   b! "UID:8OD165Pope\r\n",
   b! "END:VCARD\r\n",
   b! "\r\n"].flatten := by decide +kernel

/-- autotests/data/vcard9.vcf -/
def vcard9 : QByteArray :=
  [b! "BEGIN:VCARD\r\n",
   b! "FN:\xce\xb2\xce\xb3\xce\xb4\xce\xb5\xce\xb1\xce\xb2\xce\xb3\xce\xb41\xce\xb2\xce\xb3\xce\xb4\xce\xb5\xce\xb1\xce\xb2\xce\xb3\xce\xb41\xce\xb2\xce\xb3\xce\xb4\xce\xb5\xce\xb1\xce\xb2\xce\xb3\xce\xb41\xce\xb2\xce\xb3\xce\xb4\xce\xb5\xce\xb1\xce\xb2\xce\xb3\xce\xb41\xce\xb2\xce\xb3\r\n",
   b! " \xce\xb4\xce\xb5\xce\xb1\xce\xb2\xce\xb3\xce\xb41\xce\xb2\xce\xb3\xce\xb4\xce\xb5\xce\xb1\xce\xb2\xce\xb3\xce\xb41\xce\xb2\xce\xb3\xce\xb4\xce\xb5\xce\xb1\xce\xb2\xce\xb3\xce\xb41\xce\xb2\xce\xb3\xce\xb4\xce\xb5\xce\xb1\xce\xb2\xce\xb3\xce\xb41\xce\xb2\xce\xb3\xce\xb4\xce\xb5\xce\xb1\r\n",
   b! " \xce\xb2\xce\xb3\xce\xb41\xce\xb2\xce\xb3\xce\xb4\xce\xb5\xce\xb1\xce\xb2\xce\xb3\xce\xb41\xce\xb2\xce\xb3\xce\xb4\xce\xb5\xce\xb1\xce\xb2\xce\xb3\xce\xb41\r\n",
   b! "N:123\xe3\x84\x93\xe3\x84\x95\xe3\x84\x96bcde\xce\xb1\xce\xb2\xce\xb3\xce\xb4\xce\xb1\xce\xb2\xce\xb3\xce\xb4\xce\xb1\xce\xb2\xce\xb3\xce\xb4\xce\xb1\xce\xb2\xce\xb3\xce\xb4\xce\xb1\xce\xb2\xce\xb3\xce\xb4\xce\xb1\xce\xb2\xce\xb3\xce\xb4\xce\xb1\xce\xb2\xe3\x84\xa4\r\n",
   b! " \xe3\x84\x93\xe3\x84\x95\xe3\x84\x96;;;;\r\n",
   b! "NOTE:\xd0\x94\xd0\xbb\xd0\xb8\xd0\xbd\xd0\xbd\xd1\x8b\xd0\xb9 \xd0\xba\xd0\xbe\xd0\xbc\xd0\xbc\xd0\xb5\xd0\xbd\xd1\x82\xd0\xb0\xd1\x80\xd0\xb8\xd0\xb9 \xd0\xbd\xd0\xb0 \xd1\x80\xd1\x83\xd1\x81\xd1\x81\xd0\xba\xd0\xbe\xd0\xbc \xd1\x8f\xd0\xb7\xd1\x8b\xd0\xba\xd0\xb5\\,\r\n",
   b! "  \xd1\x87\xd1\x82\xd0\xbe\xd0\xb1\xd1\x8b \xd0\xb2 \xd1\x80\xd0\xb5\xd0\xb7\xd1\x83\xd0\xbb\xd1\x8c\xd1\x82\xd0\xb0\xd1\x82\xd0\xb5 \xd0\xbf\xd0\xbe\xd0\xbb\xd1\x83\xd1\x87\xd0\xb8\xd0\xbb\xd0\xb0\xd1\x81\xd1\x8c \xd1\x81\xd1\x82\xd1\x80\xd0\xbe\xd0\xba\xd0\xb0 \xd0\xb1\xd0\xbe\xd0\r\n",
   b! " \xbb\xd0\xb5\xd0\xb5 70 \xd1\x81\xd0\xb8\xd0\xbc\xd0\xb2\xd0\xbe\xd0\xbb\xd0\xbe\xd0\xb2.\r\n",
   b! "PRODID:-//ownCloud//NONSGML Contacts 0.3//EN\r\n",
   b! "UID:20140316T155019.877e370c11@martin\r\n",
   b! "VERSION:3.0\r\n",
   b! "END:VCARD\r\n",
   b! "\r\n"].flatten

/-- autotests/data/vcard9.vcf.ref -/
example : again .v3_0 vcard9 =
  [b! "BEGIN:VCARD\r\n",
   b! "VERSION:3.0\r\n",
   b! "FN:\xce\xb2\xce\xb3\xce\xb4\xce\xb5\xce\xb1\xce\xb2\xce\xb3\xce\xb41\xce\xb2\xce\xb3\xce\xb4\xce\xb5\xce\xb1\xce\xb2\xce\xb3\xce\xb41\xce\xb2\xce\xb3\xce\xb4\xce\xb5\xce\xb1\xce\xb2\xce\xb3\xce\xb41\xce\xb2\xce\xb3\xce\xb4\xce\xb5\xce\xb1\xce\xb2\xce\xb3\xce\xb41\xce\xb2\xce\xb3\r\n",
   b! " \xce\xb4\xce\xb5\xce\xb1\xce\xb2\xce\xb3\xce\xb41\xce\xb2\xce\xb3\xce\xb4\xce\xb5\xce\xb1\xce\xb2\xce\xb3\xce\xb41\xce\xb2\xce\xb3\xce\xb4\xce\xb5\xce\xb1\xce\xb2\xce\xb3\xce\xb41\xce\xb2\xce\xb3\xce\xb4\xce\xb5\xce\xb1\xce\xb2\xce\xb3\xce\xb41\xce\xb2\xce\xb3\xce\xb4\xce\xb5\xce\xb1\r\n",
   b! " \xce\xb2\xce\xb3\xce\xb41\xce\xb2\xce\xb3\xce\xb4\xce\xb5\xce\xb1\xce\xb2\xce\xb3\xce\xb41\xce\xb2\xce\xb3\xce\xb4\xce\xb5\xce\xb1\xce\xb2\xce\xb3\xce\xb41\r\n",
   b! "N:123\xe3\x84\x93\xe3\x84\x95\xe3\x84\x96bcde\xce\xb1\xce\xb2\xce\xb3\xce\xb4\xce\xb1\xce\xb2\xce\xb3\xce\xb4\xce\xb1\xce\xb2\xce\xb3\xce\xb4\xce\xb1\xce\xb2\xce\xb3\xce\xb4\xce\xb1\xce\xb2\xce\xb3\xce\xb4\xce\xb1\xce\xb2\xce\xb3\xce\xb4\xce\xb1\xce\xb2\xe3\x84\xa4\r\n",
   b! " \xe3\x84\x93\xe3\x84\x95\xe3\x84\x96;;;;\r\n",
   b! "NOTE:\xd0\x94\xd0\xbb\xd0\xb8\xd0\xbd\xd0\xbd\xd1\x8b\xd0\xb9 \xd0\xba\xd0\xbe\xd0\xbc\xd0\xbc\xd0\xb5\xd0\xbd\xd1\x82\xd0\xb0\xd1\x80\xd0\xb8\xd0\xb9 \xd0\xbd\xd0\xb0 \xd1\x80\xd1\x83\xd1\x81\xd1\x81\xd0\xba\xd0\xbe\xd0\xbc \xd1\x8f\xd0\xb7\xd1\x8b\xd0\xba\xd0\xb5\\,\r\n",
   b! "  \xd1\x87\xd1\x82\xd0\xbe\xd0\xb1\xd1\x8b \xd0\xb2 \xd1\x80\xd0\xb5\xd0\xb7\xd1\x83\xd0\xbb\xd1\x8c\xd1\x82\xd0\xb0\xd1\x82\xd0\xb5 \xd0\xbf\xd0\xbe\xd0\xbb\xd1\x83\xd1\x87\xd0\xb8\xd0\xbb\xd0\xb0\xd1\x81\xd1\x8c \xd1\x81\xd1\x82\xd1\x80\xd0\xbe\xd0\xba\xd0\xb0 \xd0\xb1\xd0\xbe\r\n",
   b! " \xd0\xbb\xd0\xb5\xd0\xb5 70 \xd1\x81\xd0\xb8\xd0\xbc\xd0\xb2\xd0\xbe\xd0\xbb\xd0\xbe\xd0\xb2.\r\n",
   b! "PRODID:-//ownCloud//NONSGML Contacts 0.3//EN\r\n",
   b! "UID:20140316T155019.877e370c11@martin\r\n",
   b! "END:VCARD\r\n",
   b! "\r\n"].flatten := by decide +kernel

/-- autotests/data/vcard10.vcf -/
def vcard10 : QByteArray :=
  [b! "BEGIN:VCARD\r\n",
   b! "VERSION:2.1\r\n",
   b! "UID:bfa5fdc5-fbfc-4ce2-8196-29ca0deb3bd3\r\n",
   b! "ADR;WORK;CHARSET=UTF-8;ENCODING=QUOTED-PRINTABLE:;;=44=44=44=44=44=44=44=44=44=44=44=44=44=44=44=2D=53=74=61=C3=9F=65=20=\r\n",
   b! "=32=0A=30=30=30=30=30=20=44=44=44=44=44=44=44=44=44=44;;;;\r\n",
   b! "ORG:Bike Shop\r\n",
   b! "Note:This one has a funny character at the end in the contact list\r\n",
   b! "END:VCARD\r\n",
   b! "BEGIN:VCARD\r\n",
   b! "VERSION:2.1\r\n",
   b! "UID:f8361311-b25c-4237-a94e-3015d8fe19de\r\n",
   b! "N:;Broken;;;\r\n",
   b! "FN:Field after Address broken\r\n",
   b! "ADR;HOME;CHARSET=UTF-8;ENCODING=QUOTED-PRINTABLE:;;=41=41=41=41=41=41=41=2D=41=C3=A4=41=41=41=41=41=20=\r\n",
   b! "=31=31;=55=72=74;;=30=30=30=30=30;\r\n",
   b! "URL:http://some-webseite.com\r\n",
   b! "NOTE:This one's URL field is truncated (see contact's edit form). Remove the linebreak in the VCF's address field and the URL will will be correct.\r\n",
   b! "END:VCARD\r\n",
   b! "BEGIN:VCARD\r\n",
   b! "VERSION:2.1\r\n",
   b! "UID:462269fd-607c-4284-998b-6771143b63a7\r\n",
   b! "N:;Broken;;;\r\n",
   b! "FN:Field after Address not broken\r\n",
   b! "ADR;HOME;CHARSET=UTF-8;ENCODING=QUOTED-PRINTABLE:;;=41=41=41=41=41=41=41=2D=41=C3=A4=41=41=41=41=41=20=\r\n",
   b! "=31=31;=55=72=74;;=30=30=30=30=30;\r\n",
   b! "NOTE:this is identical to \"Website broken\", but with Note and URL swapped. The Note field does not get truncated as the URL field does.\r\n",
   b! "URL:http://some-webseite.com\r\n",
   b! "END:VCARD\r\n",
   b! "BEGIN:VCARD\r\n",
   b! "VERSION:2.1\r\n",
   b! "UID:b4fc4930-043f-446a-9a76-cf0b548368d8\r\n",
   b! "N:Name;Surname;;Dr. med.;\r\n",
   b! "FN:Dr. med. Surname Name\r\n",
   b! "TITLE;CHARSET=UTF-8;ENCODING=QUOTED-PRINTABLE:=46=61=63=68=61=72=7A=74=20=66=C3=BC=72=20=41=6C=6C=67=65=6D=65=69=6E=\r\n",
   b! "=6D=65=64=69=7A=69=6E\r\n",
   b! "NOTE;CHARSET=UTF-8;ENCODING=QUOTED-PRINTABLE:=53=70=72=65=63=68=7A=65=69=74=65=6E=3A=0A=4D=6F=20=20=20=38=E2=80=93=\r\n",
   b! "=31=32=2C=20=31=35=E2=80=93=31=38=0A=44=69=20=20=20=20=20=38=E2=80=93=\r\n",
   b! "=31=32=0A=4D=69=20=20=20=20=38=E2=80=93=31=32=2C=20=31=34=E2=80=93=31=\r\n",
   b! "=35=0A=44=6F=20=31=34=E2=80=93=31=39=0A=46=72=20=20=20=20=20=38=E2=80=\r\n",
   b! "=93=31=32\r\n",
   b! "END:VCARD\r\n",
   b! "BEGIN:VCARD\r\n",
   b! "VERSION:2.1\r\n",
   b! "UID:941b057d-e959-4644-b41f-e122b26c3807\r\n",
   b! "N:Doctor;Second;;;\r\n",
   b! "FN:Second Doctor\r\n",
   b! "ADR;WORK;CHARSET=UTF-8;ENCODING=QUOTED-PRINTABLE:;;=44=44=44=44=44=44=44=44=44=44=44=73=74=72=61=C3=9F=65=20=32=36=0A=30=\r\n",
   b! "=30=30=30=30=20=44=44=44=44=44=44=44=44=44=44=44=44=44=44=44=44=44;;;;\r\n",
   b! "ORG:\r\n",
   b! "TITLE:Dentist\r\n",
   b! "NOTE;CHARSET=UTF-8;ENCODING=QUOTED-PRINTABLE:=53=70=72=65=63=68=7A=65=69=74=65=6E=3A=0A=4D=6F=20=20=20=38=E2=80=93=\r\n",
   b! "=31=33=0A=44=69=20=20=20=31=30=E2=80=93=31=32=2C=20=31=33=E2=80=93=31=\r\n",
   b! "=38=0A=4D=69=20=20=31=30=E2=80=93=31=32=2C=20=31=33=E2=80=93=31=38=0A=\r\n",
   b! "=44=6F=20=20=31=33=E2=80=93=31=38=0A=46=72=20=20=20=20=20=20=38=E2=80=\r\n",
   b! "=93=31=32\r\n",
   b! "END:VCARD\r\n"].flatten

/-- autotests/data/vcard10.vcf.ref -/
example : again .v3_0 vcard10 =
  [b! "BEGIN:VCARD\r\n",
   b! "VERSION:3.0\r\n",
   b! "ADR;TYPE=work:;;DDDDDDDDDDDDDDD-Sta\xc3\x9fe 2\\n00000 DDDDDDDDDD;;;;\r\n",
   b! "N:;;;;\r\n",
   b! "NOTE:This one has a funny character at the end in the contact list\r\n",
   b! "ORG:Bike Shop\r\n",
   b! "UID:bfa5fdc5-fbfc-4ce2-8196-29ca0deb3bd3\r\n",
   b! "END:VCARD\r\n",
   b! "\r\n",
   b! "BEGIN:VCARD\r\n",
   b! "VERSION:3.0\r\n",
   b! "ADR;TYPE=home:;;AAAAAAA-A\xc3\xa4AAAAA 11;Urt;;00000;\r\n",
   b! "FN:Field after Address broken\r\n",
   b! "N:;Broken;;;\r\n",
   b! "NOTE:This one's URL field is truncated (see contact's edit form). Remove th\r\n",
   b! " e linebreak in the VCF's address field and the URL will will be correct.\r\n",
   b! "UID:f8361311-b25c-4237-a94e-3015d8fe19de\r\n",
   b! "URL:http://some-webseite.com\r\n",
   b! "END:VCARD\r\n",
   b! "\r\n",
   b! "BEGIN:VCARD\r\n",
   b! "VERSION:3.0\r\n",
   b! "ADR;TYPE=home:;;AAAAAAA-A\xc3\xa4AAAAA 11;Urt;;00000;\r\n",
   b! "FN:Field after Address not broken\r\n",
   b! "N:;Broken;;;\r\n",
   b! "NOTE:this is identical to \"Website broken\"\\, but with Note and URL swapped.\r\n",
   b! "  The Note field does not get truncated as the URL field does.\r\n",
   b! "UID:462269fd-607c-4284-998b-6771143b63a7\r\n",
   b! "URL:http://some-webseite.com\r\n",
   b! "END:VCARD\r\n",
   b! "\r\n",
   b! "BEGIN:VCARD\r\n",
   b! "VERSION:3.0\r\n",
   b! "FN:Dr. med. Surname Name\r\n",
   b! "N:Name;Surname;;Dr. med.;\r\n",
   b! "NOTE:Sprechzeiten:\\nMo   8\xe2\x80\x9312\\, 15\xe2\x80\x9318\\nDi     8\xe2\x80\x9312\\nMi    8\xe2\x80\x9312\\, 14\r\n",
   b! " \xe2\x80\x9315\\nDo 14\xe2\x80\x9319\\nFr     8\xe2\x80\x9312\r\n",
   b! "TITLE;CHARSET=UTF-8;ENCODING=QUOTED-PRINTABLE:=46acharzt f=C3=BCr Allgemein\r\n",
   b! " medizin\r\n",
   b! "UID:b4fc4930-043f-446a-9a76-cf0b548368d8\r\n",
   b! "END:VCARD\r\n",
   b! "\r\n",
   b! "BEGIN:VCARD\r\n",
   b! "VERSION:3.0\r\n",
   b! "ADR;TYPE=work:;;DDDDDDDDDDDstra\xc3\x9fe 26\\n00000 DDDDDDDDDDDDDDDDD;;;;\r\n",
   b! "FN:Second Doctor\r\n",
   b! "N:Doctor;Second;;;\r\n",
   b! "NOTE:Sprechzeiten:\\nMo   8\xe2\x80\x9313\\nDi   10\xe2\x80\x9312\\, 13\xe2\x80\x9318\\nMi  10\xe2\x80\x9312\\, 13\r\n",
   b! " \xe2\x80\x9318\\nDo  13\xe2\x80\x9318\\nFr      8\xe2\x80\x9312\r\n",
   b! "TITLE:Dentist\r\n",
   b! "UID:941b057d-e959-4644-b41f-e122b26c3807\r\n",
   b! "END:VCARD\r\n",
   b! "\r\n"].flatten := by decide +kernel

/-- autotests/data/vcard11.vcf -/
def vcard11 : QByteArray :=
  [b! "BEGIN:VCARD\n",
   b! "CLASS:PUBLIC\n",
   b! "EMAIL;TYPE=HOME;X-EVOLUTION-UI-SLOT=2:thejoe@abc.com\n",
   b! "EMAIL;TYPE=WORK;X-EVOLUTION-UI-SLOT=1:johndoe@abc.com\n",
   b! "FN:Test User\n",
   b! "N:User;Test;;;\n",
   b! "UID:uJTkVqH5Qt\n",
   b! "VERSION:3.0\n",
   b! "END:VCARD\n",
   b! "\n"].flatten

/-- autotests/data/vcard11.vcf.ref -/
example : again .v3_0 vcard11 =
  [b! "BEGIN:VCARD\r\n",
   b! "VERSION:3.0\r\n",
   b! "CLASS:PUBLIC\r\n",
   b! "EMAIL;TYPE=HOME;X-EVOLUTION-UI-SLOT=2:thejoe@abc.com\r\n",
   b! "EMAIL;TYPE=WORK;X-EVOLUTION-UI-SLOT=1:johndoe@abc.com\r\n",
   b! "FN:Test User\r\n",
   b! "N:User;Test;;;\r\n",
   b! "UID:uJTkVqH5Qt\r\n",
   b! "END:VCARD\r\n",
   b! "\r\n"].flatten := by decide +kernel

/-- autotests/data/vcard12.vcf -/
def vcard12 : QByteArray :=
  [b! "BEGIN:VCARD\r\n",
   b! "VERSION:3.0\r\n",
   b! "UID:pas-id-54B2522600000001\r\n",
   b! "FN:Good Looking\r\n",
   b! "N:Looking;Good;;;\r\n",
   b! "PHOTO;TYPE=WORK;ENCODING=b:iVBORw0KGgoAAAANSUhEUgAAAAMAAAADCAIAAADZSiLoAAAA\r\n",
   b! " CXBIWXMAAAsTAAALEwEAmpwYAAAAB3RJTUUH3wELCiUrjAUGmgAAABl0RVh0Q29tbWVudABDcm\r\n",
   b! " VhdGVkIHdpdGggR0lNUFeBDhcAAAAZSURBVAjXY/zPAAVMDAwMDP//MzAwMMLFAEMrBAHo3Yr/\r\n",
   b! " AAAAAElFTkSuQmCC\r\n",
   b! "PHOTO;TYPE=HOME;ENCODING=b:iVBORw0KGgoAAAANSUhEUgAAAAMAAAADCAIAAADZSiLoAAAA\r\n",
   b! " CXBIWXMAAAsTAAALEwEAmpwYAAAAB3RJTUUH3wELCiQG0MFrrgAAABl0RVh0Q29tbWVudABDcm\r\n",
   b! " VhdGVkIHdpdGggR0lNUFeBDhcAAAAUSURBVAjXY/j//z8DAwOEhAG4GACzagv1unIx3wAAAABJ\r\n",
   b! " RU5ErkJggg==\r\n",
   b! "EMAIL;TYPE=WORK;X-EVOLUTION-UI-SLOT=1:goodlooking@example.com\r\n",
   b! "END:VCARD\r\n"].flatten

/-- autotests/data/vcard12.vcf.2_1ref -/
example : again .v2_1 vcard12 =
  [b! "BEGIN:VCARD\r\n",
   b! "VERSION:2.1\r\n",
   b! "EMAIL;WORK;X-EVOLUTION-UI-SLOT=1:goodlooking@example.com\r\n",
   b! "FN:Good Looking\r\n",
   b! "N:Looking;Good;;;\r\n",
   b! "PHOTO;ENCODING=BASE64;WORK:\x89PNG\\r\\n\x1a\\n\x00\x00\x00\\rIHDR\x00\x00\x00\x03\x00\x00\x00\x03\x08\x02\x00\x00\x00\xd9J\"\xe8\x00\x00\x00\tpHYs\x00\x00\x0b\r\n",
   b! " \x13\x00\x00\x0b\x13\x01\x00\x9a\x9c\x18\x00\x00\x00\x07tIME\x07\xdf\x01\x0b\\n%+\x8c\x05\x06\x9a\x00\x00\x00\x19tEXtComment\x00Created with GIMPW\x81\x0e\x17\x00\x00\x00\x19IDAT\r\n",
   b! " \x08\xd7c\xfc\xcf\x00\x05L\x0c\x0c\x0c\x0c\xff\xff3000\xc2\xc5\x00C+\x04\x01\xe8\xdd\x8a\xff\x00\x00\x00\x00IEND\xaeB`\x82\r\n",
   b! "PHOTO;ENCODING=BASE64;HOME:\x89PNG\\r\\n\x1a\\n\x00\x00\x00\\rIHDR\x00\x00\x00\x03\x00\x00\x00\x03\x08\x02\x00\x00\x00\xd9J\"\xe8\x00\x00\x00\tpHYs\x00\x00\x0b\r\n",
   b! " \x13\x00\x00\x0b\x13\x01\x00\x9a\x9c\x18\x00\x00\x00\x07tIME\x07\xdf\x01\x0b\\n$\x06\xd0\xc1k\xae\x00\x00\x00\x19tEXtComment\x00Created with GIMPW\x81\x0e\x17\x00\x00\x00\x14IDAT\r\n",
   b! " \x08\xd7c\xf8\xff\xff?\x03\x03\x03\x84\x84\x01\xb8\x18\x00\xb3j\x0b\xf5\xbar1\xdf\x00\x00\x00\x00IEND\xaeB`\x82\r\n",
   b! "UID:pas-id-54B2522600000001\r\n",
   b! "END:VCARD\r\n",
   b! "\r\n"].flatten := by decide +kernel

/-- autotests/data/vcard12.vcf.ref -/
example : again .v3_0 vcard12 =
  [b! "BEGIN:VCARD\r\n",
   b! "VERSION:3.0\r\n",
   b! "EMAIL;TYPE=WORK;X-EVOLUTION-UI-SLOT=1:goodlooking@example.com\r\n",
   b! "FN:Good Looking\r\n",
   b! "N:Looking;Good;;;\r\n",
   b! "PHOTO;ENCODING=b;TYPE=WORK:iVBORw0KGgoAAAANSUhEUgAAAAMAAAADCAIAAADZSiLoAAAA\r\n",
   b! " CXBIWXMAAAsTAAALEwEAmpwYAAAAB3RJTUUH3wELCiUrjAUGmgAAABl0RVh0Q29tbWVudABDcmV\r\n",
   b! " hdGVkIHdpdGggR0lNUFeBDhcAAAAZSURBVAjXY/zPAAVMDAwMDP//MzAwMMLFAEMrBAHo3Yr/AA\r\n",
   b! " AAAElFTkSuQmCC\r\n",
   b! "PHOTO;ENCODING=b;TYPE=HOME:iVBORw0KGgoAAAANSUhEUgAAAAMAAAADCAIAAADZSiLoAAAA\r\n",
   b! " CXBIWXMAAAsTAAALEwEAmpwYAAAAB3RJTUUH3wELCiQG0MFrrgAAABl0RVh0Q29tbWVudABDcmV\r\n",
   b! " hdGVkIHdpdGggR0lNUFeBDhcAAAAUSURBVAjXY/j//z8DAwOEhAG4GACzagv1unIx3wAAAABJRU\r\n",
   b! " 5ErkJggg==\r\n",
   b! "UID:pas-id-54B2522600000001\r\n",
   b! "END:VCARD\r\n",
   b! "\r\n"].flatten := by decide +kernel

/-- autotests/data/vcard13.vcf -/
def vcard13 : QByteArray :=
  [b! "BEGIN:VCARD\n",
   b! "CLASS:PUBLIC\n",
   b! "EMAIL;TYPE=HOME;X-EVOLUTION-UI-SLOT=2:thejoe@abc.com\n",
   b! "EMAIL;TYPE=WORK;X-EVOLUTION-UI-SLOT=1:johndoe@abc.com\n",
   b! "FN:Test User\n",
   b! "N:User;Test;;;\n",
   b! "UID:uJTkVqH5Qt\n",
   b! "URL:test1.url\n",
   b! "URL:test2.url\n",
   b! "VERSION:3.0\n",
   b! "END:VCARD\n",
   b! "\n"].flatten

/-- autotests/data/vcard13.vcf.ref -/
example : again .v3_0 vcard13 =
  [b! "BEGIN:VCARD\r\n",
   b! "VERSION:3.0\r\n",
   b! "CLASS:PUBLIC\r\n",
   b! "EMAIL;TYPE=HOME;X-EVOLUTION-UI-SLOT=2:thejoe@abc.com\r\n",
   b! "EMAIL;TYPE=WORK;X-EVOLUTION-UI-SLOT=1:johndoe@abc.com\r\n",
   b! "FN:Test User\r\n",
   b! "N:User;Test;;;\r\n",
   b! "UID:uJTkVqH5Qt\r\n",
   b! "URL:test1.url\r\n",
   b! "URL:test2.url\r\n",
   b! "END:VCARD\r\n",
   b! "\r\n"].flatten := by decide +kernel

/-- autotests/data/vcard14.vcf -/
def vcard14 : QByteArray :=
  [b! "BEGIN:VCARD\r\n",
   b! "VERSION:3.0\r\n",
   b! "CLASS:PUBLIC\r\n",
   b! "EMAIL;TYPE=HOME,PREF;X-EVOLUTION-UI-SLOT=2:thejoe@abc.com\r\n",
   b! "EMAIL;TYPE=WORK;X-EVOLUTION-UI-SLOT=1:johndoe@abc.com\r\n",
   b! "FN:Test User\r\n",
   b! "N:User;Test;;;\r\n",
   b! "UID:uJTkVqH5Qt\r\n",
   b! "SOURCE:http://www.kde.org\r\n",
   b! "SOURCE:http://www.kde1.org\r\n",
   b! "END:VCARD\r\n",
   b! "\r\n"].flatten

/-- autotests/data/vcard14.vcf.2_1ref -/
example : again .v2_1 vcard14 =
  [b! "BEGIN:VCARD\r\n",
   b! "VERSION:2.1\r\n",
   b! "EMAIL;HOME;PREF;X-EVOLUTION-UI-SLOT=2:thejoe@abc.com\r\n",
   b! "EMAIL;WORK;X-EVOLUTION-UI-SLOT=1:johndoe@abc.com\r\n",
   b! "FN:Test User\r\n",
   b! "N:User;Test;;;\r\n",
   b! "SOURCE:http://www.kde.org\r\n",
   b! "SOURCE:http://www.kde1.org\r\n",
   b! "UID:uJTkVqH5Qt\r\n",
   b! "END:VCARD\r\n",
   b! "\r\n"].flatten := by decide +kernel

/-- autotests/data/vcard14.vcf.ref -/
example : again .v3_0 vcard14 =
  [b! "BEGIN:VCARD\r\n",
   b! "VERSION:3.0\r\n",
   b! "CLASS:PUBLIC\r\n",
   b! "EMAIL;TYPE=HOME,PREF;X-EVOLUTION-UI-SLOT=2:thejoe@abc.com\r\n",
   b! "EMAIL;TYPE=WORK;X-EVOLUTION-UI-SLOT=1:johndoe@abc.com\r\n",
   b! "FN:Test User\r\n",
   b! "N:User;Test;;;\r\n",
   b! "SOURCE:http://www.kde.org\r\n",
   b! "SOURCE:http://www.kde1.org\r\n",
   b! "UID:uJTkVqH5Qt\r\n",
   b! "END:VCARD\r\n",
   b! "\r\n"].flatten := by decide +kernel

/-- autotests/data/vcard15.vcf -/
def vcard15 : QByteArray :=
  [b! "BEGIN:VCARD\r\n",
   b! "VERSION:3.0\r\n",
   b! "FN:Test Tester\r\n",
   b! "N:Tester;Test;;;\r\n",
   b! "RELATED;TYPE=child;VALUE=text:Child Tester\r\n",
   b! "item1.URL:http://www.example.com\r\n",
   b! "item1.X-ABLABEL:random_label\r\n",
   b! "TEL;TYPE=home:+1-800-123456\r\n",
   b! "UID:40f8971c-1d3a-466f-8cf5-55aad2021e1a\r\n",
   b! "END:VCARD\r\n"].flatten

/-- autotests/data/vcard15.vcf.ref -/
example : again .v3_0 vcard15 =
  [b! "BEGIN:VCARD\r\n",
   b! "VERSION:3.0\r\n",
   b! "FN:Test Tester\r\n",
   b! "N:Tester;Test;;;\r\n",
   b! "RELATED;TYPE=child;VALUE=text:Child Tester\r\n",
   b! "TEL;TYPE=HOME:+1-800-123456\r\n",
   b! "UID:40f8971c-1d3a-466f-8cf5-55aad2021e1a\r\n",
   b! "item1.URL:http://www.example.com\r\n",
   b! "item1.X-ABLABEL:random_label\r\n",
   b! "END:VCARD\r\n",
   b! "\r\n"].flatten := by decide +kernel

/-- autotests/data/vcard_extension_case_normalization.vcf -/
def vcard_extension_case_normalization : QByteArray :=
  [b! "BEGIN:VCARD\n",
   b! "VERSION:3.0\n",
   b! "FN:My Name\n",
   b! "N:Name;My;;;\n",
   b! "UID:628d6072-5385-41d3-ad45-cb79a3afa987\n",
   b! "X-KADDRESSBOOK-BLOGFEED:https://my.blog/\n",
   b! "X-KADDRESSBOOK-CRYPTOENCRYPTPREF:askAlways\n",
   b! "X-KADDRESSBOOK-CRYPTOPROTOPREF:inline openpgp\\,openpgp/mime\\,s/mime\\,s/mime\n",
   b! "  opaque\\,any s/mime\\,any openpgp\n",
   b! "X-KADDRESSBOOK-CRYPTOSIGNPREF:always\n",
   b! "X-KADDRESSBOOK-X-ANNIVERSARY:1970-01-01\n",
   b! "X-KADDRESSBOOK-X-ASSISTANTSNAME:Mycroft\n",
   b! "X-KADDRESSBOOK-X-MANAGERSNAME:My Boss\n",
   b! "X-KADDRESSBOOK-X-OFFICE:My Office\n",
   b! "X-KADDRESSBOOK-X-PROFESSION:My Job\n",
   b! "X-KADDRESSBOOK-X-SPOUSESNAME:My Spouse\n",
   b! "END:VCARD\n",
   b! "\n"].flatten

/-- autotests/data/vcard_extension_case_normalization.vcf.ref -/
example : again .v3_0 vcard_extension_case_normalization =
  [b! "BEGIN:VCARD\r\n",
   b! "VERSION:3.0\r\n",
   b! "FN:My Name\r\n",
   b! "N:Name;My;;;\r\n",
   b! "UID:628d6072-5385-41d3-ad45-cb79a3afa987\r\n",
   b! "X-KADDRESSBOOK-BlogFeed:https://my.blog/\r\n",
   b! "X-KADDRESSBOOK-CRYPTOENCRYPTPREF:askAlways\r\n",
   b! "X-KADDRESSBOOK-CRYPTOPROTOPREF:inline openpgp\\,openpgp/mime\\,s/mime\\,s/mime\r\n",
   b! "  opaque\\,any s/mime\\,any openpgp\r\n",
   b! "X-KADDRESSBOOK-CRYPTOSIGNPREF:always\r\n",
   b! "X-KADDRESSBOOK-X-Anniversary:1970-01-01\r\n",
   b! "X-KADDRESSBOOK-X-AssistantsName:Mycroft\r\n",
   b! "X-KADDRESSBOOK-X-ManagersName:My Boss\r\n",
   b! "X-KADDRESSBOOK-X-Office:My Office\r\n",
   b! "X-KADDRESSBOOK-X-Profession:My Job\r\n",
   b! "X-KADDRESSBOOK-X-SpousesName:My Spouse\r\n",
   b! "END:VCARD\r\n",
   b! "\r\n"].flatten := by decide +kernel

/-- autotests/data/vcard_legacy_messaging_fields.vcf -/
def vcard_legacy_messaging_fields : QByteArray :=
  [b! "BEGIN:VCARD\n",
   b! "VERSION:3.0\n",
   b! "FN:My Name\n",
   b! "N:Name;My;;;\n",
   b! "UID:12345\n",
   b! "X-messaging/twitter-All:kdecommunity\n",
   b! "X-messaging/irc-All:konqui\n",
   b! "X-messaging/xmpp-All:one@test.org\xee\x80\x80two@test.org\n",
   b! "END:VCARD\n"].flatten

/-- autotests/data/vcard_legacy_messaging_fields.vcf.ref -/
example : again .v3_0 vcard_legacy_messaging_fields =
  [b! "BEGIN:VCARD\r\n",
   b! "VERSION:3.0\r\n",
   b! "FN:My Name\r\n",
   b! "IMPP:irc:konqui\r\n",
   b! "IMPP:twitter:kdecommunity\r\n",
   b! "IMPP:xmpp:one@test.org\r\n",
   b! "IMPP:xmpp:two@test.org\r\n",
   b! "N:Name;My;;;\r\n",
   b! "UID:12345\r\n",
   b! "END:VCARD\r\n",
   b! "\r\n"].flatten := by decide +kernel

/-- autotests/importexportvcardtest.cpp, shouldExportFullTestVcard4 -/
example : again .v4_0
  ([b! "BEGIN:VCARD\r\n",
   b! "VERSION:4.0\r\n",
   b! "FN:Sherlock Holmes\r\n",
   b! "TEL;VALUE=uri;PREF=1;TYPE=\"voice,home\":tel:+44-555-555-5555;ext=5555\r\n",
   b! "TEL;VALUE=uri;TYPE=\"voice,cell,text\":tel:+44-555-555-6666\r\n",
   b! "TEL;VALUE=uri;TYPE=\"voice,work\":tel:+44-555-555-7777\r\n",
   b! "N:Holmes;Sherlock;;Mr;;\r\n",
   b! "KIND:individual\r\n",
   b! "NICKNAME:Shirley\r\n",
   b! "PHOTO:\r\n",
   b! "BDAY:19531015T231000Z\r\n",
   b! "ANNIVERSARY:19960415\r\n",
   b! "GENDER:M\r\n",
   b! "ADR;GEO=\"geo:51.5237,0.1585\";LABEL=\"Mr Sherlock Holmes, 221B Baker Street, London NW1, England, United Kingdom\":;;221B Baker Street;London;;NW1;United Kingdom\r\n",
   b! "EMAIL;TYPE=home:sherlock.holmes@gmail.com\r\n",
   b! "EMAIL;PREF=1;TYPE=work:detective@sherlockholmes.com\r\n",
   b! "IMPP;PREF=1:xmpp:detective@sherlockholmes.com\r\n",
   b! "LANG;TYPE=work;PREF=1:en\r\n",
   b! "LANG;TYPE=work;PREF=2:fr\r\n",
   b! "TZ:London/Europe\r\n",
   b! "GEO:geo:51.5237,0.1585\r\n",
   b! "TITLE;ALTID=1;LANGUAGE=fr:Patron\r\n",
   b! "TITLE;ALTID=2;LANGUAGE=en:Boss\r\n",
   b! "ROLE:Detective\r\n",
   b! "UID:urn:uuid:b8767877-b4a1-4c70-9acc-505d3819e519\r\n",
   b! "CATEGORIES:FICTION,LITERATURE\r\n",
   b! "PRODID:-//KADDRESSBOOK//NONSGML Version 1//EN\r\n",
   b! "REV:20140722T222710Z\r\n",
   b! "URL;TYPE=home:https://sherlockholmes.com\r\n",
   b! "KEY;MEDIATYPE=application/pgp-keys:https://sherlockholmes.com/sherlock-holmes.pub.asc\r\n",
   b! "CALURI;PREF=1:https://sherlockholmes.com/calendar/sherlockholmes\r\n",
   b! "FBURL;PREF=1:https://sherlockholmes.com/busy/detective\r\n",
   b! "CALADRURI;PREF=1:mailto:detective@sherlockholmes.com\r\n",
   b! "END:VCARD\r\n",
   b! "\r\n"].flatten) =
  [b! "BEGIN:VCARD\r\n",
   b! "VERSION:4.0\r\n",
   b! "ADR;GEO=\"geo:51.523701,0.158500\";LABEL=\"Mr Sherlock Holmes, 221B Baker Stre\r\n",
   b! " et, London NW1, England, United Kingdom\";TYPE:;;221B Baker Street;London;;\r\n",
   b! " NW1;United Kingdom\r\n",
   b! "ANNIVERSARY;VALUE=DATE:19960415T000000\r\n",
   b! "BDAY;VALUE=DATE:19531015T231000Z\r\n",
   b! "CALADRURI;PREF=1:mailto:detective@sherlockholmes.com\r\n",
   b! "CALURI;PREF=1:https://sherlockholmes.com/calendar/sherlockholmes\r\n",
   b! "CATEGORIES:FICTION,LITERATURE\r\n",
   b! "EMAIL;PREF=1;TYPE=work:detective@sherlockholmes.com\r\n",
   b! "EMAIL;TYPE=home:sherlock.holmes@gmail.com\r\n",
   b! "FBURL;PREF=1:https://sherlockholmes.com/busy/detective\r\n",
   b! "FN:Sherlock Holmes\r\n",
   b! "GENDER:M\r\n",
   b! "GEO:geo:51.523701,0.158500\r\n",
   b! "IMPP;PREF=1:xmpp:detective@sherlockholmes.com\r\n",
   b! "KEY;MEDIATYPE=application/pgp-keys:https://sherlockholmes.com/sherlock-holm\r\n",
   b! " es.pub.asc\r\n",
   b! "KIND:individual\r\n",
   b! "LANG;PREF=1;TYPE=work:en\r\n",
   b! "LANG;PREF=2;TYPE=work:fr\r\n",
   b! "N:Holmes;Sherlock;;Mr;\r\n",
   b! "NICKNAME:Shirley\r\n",
   b! "PRODID:-//KADDRESSBOOK//NONSGML Version 1//EN\r\n",
   b! "REV:20140722T222710Z\r\n",
   b! "ROLE:Detective\r\n",
   b! "TEL;TYPE=\"home,voice\";PREF=1;VALUE=uri:tel:+44-555-555-5555;ext=5555\r\n",
   b! "TEL;TYPE=\"cell,voice\";VALUE=uri:tel:+44-555-555-6666\r\n",
   b! "TEL;TYPE=\"voice,work\";VALUE=uri:tel:+44-555-555-7777\r\n",
   b! "TITLE;ALTID=1;LANGUAGE=fr:Patron\r\n",
   b! "TITLE;ALTID=2;LANGUAGE=en:Boss\r\n",
   b! "TZ:+00:00\r\n",
   b! "UID:urn:uuid:b8767877-b4a1-4c70-9acc-505d3819e519\r\n",
   b! "URL;TYPE=home:https://sherlockholmes.com\r\n",
   b! "END:VCARD\r\n",
   b! "\r\n"].flatten := by decide +kernel

/-- autotests/importexportvcardtest.cpp, shouldExportMiscElementVcard4 -/
example : again .v4_0
  ([b! "BEGIN:VCARD\r\n",
   b! "VERSION:4.0\r\n",
   b! "UID:urn:uuid:4fbe8971-0bc3-424c-9c26-36c3e1eff6b1\r\n",
   b! "FN;PID=1.1:J. Doe\r\n",
   b! "N:Doe;J.;;;\r\n",
   b! "EMAIL;PID=1.1:jdoe@example.com\r\n",
   b! "EMAIL;PID=2.1:boss@example.com\r\n",
   b! "TEL;PID=1.1;VALUE=uri:tel:+1-555-555-5555\r\n",
   b! "TEL;PID=2.1;VALUE=uri:tel:+1-666-666-6666\r\n",
   b! "CLIENTPIDMAP:1;urn:uuid:53e374d9-337e-4727-8803-a1e9c14e0556\r\n",
   b! "END:VCARD\r\n",
   b! "\r\n"].flatten) =
  [b! "BEGIN:VCARD\r\n",
   b! "VERSION:4.0\r\n",
   b! "CLIENTPIDMAP:1;urn:uuid:53e374d9-337e-4727-8803-a1e9c14e0556\r\n",
   b! "EMAIL;PID=1.1:jdoe@example.com\r\n",
   b! "EMAIL;PID=2.1:boss@example.com\r\n",
   b! "FN:J. Doe\r\n",
   b! "N:Doe;J.;;;\r\n",
   b! "TEL;PID=1.1;VALUE=uri:tel:+1-555-555-5555\r\n",
   b! "TEL;PID=2.1;VALUE=uri:tel:+1-666-666-6666\r\n",
   b! "UID:urn:uuid:4fbe8971-0bc3-424c-9c26-36c3e1eff6b1\r\n",
   b! "END:VCARD\r\n",
   b! "\r\n"].flatten := by decide +kernel

/-- autotests/importexportvcardtest.cpp, shouldExportMemberElementVcard4 -/
example : again .v4_0
  ([b! "BEGIN:VCARDVERSION:4.0\r\n",
   b! "KIND:group\r\n",
   b! "FN:Funky distribution list\r\n",
   b! "MEMBER:mailto:subscriber1@example.com\r\n",
   b! "MEMBER:xmpp:subscriber2@example.com\r\n",
   b! "MEMBER:sip:subscriber3@example.com\r\n",
   b! "MEMBER:tel:+1-418-555-5555\r\n",
   b! "UID:c80cf296-0825-4eb0-ab16-1fac1d522a33@xxxxxx.xx\r\n",
   b! "END:VCARD\r\n"].flatten) =
  [b! "BEGIN:VCARD\r\n",
   b! "VERSION:4.0\r\n",
   b! "FN:Funky distribution list\r\n",
   b! "KIND:group\r\n",
   b! "MEMBER:mailto:subscriber1@example.com\r\n",
   b! "MEMBER:xmpp:subscriber2@example.com\r\n",
   b! "MEMBER:sip:subscriber3@example.com\r\n",
   b! "MEMBER:tel:+1-418-555-5555\r\n",
   b! "N:;;;;\r\n",
   b! "UID:c80cf296-0825-4eb0-ab16-1fac1d522a33@xxxxxx.xx\r\n",
   b! "END:VCARD\r\n",
   b! "\r\n"].flatten := by decide +kernel

/-- autotests/importexportvcardtest.cpp, shouldExportMissingNewlineVcard4 -/
example : again .v4_0
  ([b! "BEGIN:VCARDVERSION:4.0\r\n",
   b! "KIND:group\r\n",
   b! "FN:Funky distribution list\r\n",
   b! "UID:c80cf296-0825-4eb0-ab16-1fac1d522a33@xxxxxx.xx\r\n",
   b! "END:VCARD"].flatten) =
  [b! "BEGIN:VCARD\r\n",
   b! "VERSION:4.0\r\n",
   b! "FN:Funky distribution list\r\n",
   b! "KIND:group\r\n",
   b! "N:;;;;\r\n",
   b! "UID:c80cf296-0825-4eb0-ab16-1fac1d522a33@xxxxxx.xx\r\n",
   b! "END:VCARD\r\n",
   b! "\r\n"].flatten := by decide +kernel

end KC.Conformance
